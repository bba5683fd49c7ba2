import Mathlib.MeasureTheory.Integral.IntervalIntegral.Basic

/-! # Specification of the (truncated) Hankel transform.  Nothing here refers to the code. -/

namespace Geotecha.Transform.Spec

/-- `∫ f(r) r J(sr) dr` from `lo` to `hi`; `J` is the Bessel function. -/
noncomputable def hankel (f J : ℝ → ℝ) (s lo hi : ℝ) : ℝ := ∫ r in lo..hi, f r * r * J (s * r)

/-- Positive, strictly increasing: what the zeros of a Bessel function are. -/
def Zeros (zs : List ℝ) : Prop := (0 :: zs).Pairwise (· < ·)

end Geotecha.Transform.Spec
