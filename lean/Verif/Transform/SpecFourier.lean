import Verif.Transform.ModelFourier

/-! # Specification: the Fourier transform

Only the data type `Fourier` (the arguments of the class) of the model is used. -/

open Complex MeasureTheory
namespace Geotecha.Transform.Spec

/-- The points whose distance from 0 is between the limits (no upper limit: infinite). -/
def region (a : ℝ) (b : Option ℝ) : Set ℝ := {x | a < |x| ∧ ∀ B, b = some B → |x| ≤ B}

/-- The Fourier transform of `f` at `s`, restricted to a region: `∫ f(x) e^{-isx} dx`, inverse `1/(2π) ∫ f(x) e^{isx} dx`. -/
noncomputable def fourierOn (R : Set ℝ) (inv : Bool) (f : ℝ → ℂ) (s : ℝ) : ℂ :=
  if inv then 1 / (2 * Real.pi) * ∫ x in R, f x * exp (I * s * x) else ∫ x in R, f x * exp (-(I * s * x))

/-- The function that the caller of `FourierTransform` means: with `func_is_imag` it is `i` times what `func` returns. -/
noncomputable def meant (o : Fourier) : ℝ → ℂ := fun x => if o.isReal = false ∧ o.isImag = true then I * o.f x else o.f x

/-- The arguments are as documented: limits `0 ≤ a ≤ b`, everything declared about the function is true, and it can be integrated. -/
structure Truthful (o : Fourier) : Prop where
  nonneg : 0 ≤ o.a
  ordered : ∀ B, o.b = some B → o.a ≤ B
  returnsReal : o.isReal = true ∨ o.isImag = true → o.ty = .real
  realValues : o.ty = .real → ∀ x, (o.f x).im = 0
  realEven : o.realEven = true → ∀ x, (meant o (-x)).re = (meant o x).re
  realOdd : o.realOdd = true → ∀ x, (meant o (-x)).re = -(meant o x).re
  imagEven : o.imagEven = true → ∀ x, (meant o (-x)).im = (meant o x).im
  imagOdd : o.imagOdd = true → ∀ x, (meant o (-x)).im = -(meant o x).im
  integrable : IntegrableOn o.f (region o.a o.b)

end Geotecha.Transform.Spec
