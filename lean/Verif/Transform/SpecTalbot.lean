import Mathlib.Analysis.SpecialFunctions.Complex.Log
import Mathlib.Analysis.SpecialFunctions.Trigonometric.Basic
import Mathlib.Analysis.Calculus.Deriv.Basic

/-! # Specification: the midpoint rule on the modified Talbot contour (Trefethen, Weideman and Schmelzer 2006)

Nothing here refers to the code. -/

open Complex
namespace Geotecha.Transform.Spec

/-- The contour for `N` nodes and time `t`, shifted by `shift`; `th` runs from `-π` to `π`. -/
noncomputable def contour (N : ℕ) (shift t th : ℝ) : ℂ :=
  shift + N / t * (0.5017 * th * (Real.cos (0.6407 * th) / Real.sin (0.6407 * th)) - 0.6122 + 0.2645 * I * th)

/-- Midpoint of the `i`-th of `N` equal parts of `[-π, π]`. -/
noncomputable def midpoint (N i : ℕ) : ℝ := -Real.pi + (2 * i + 1) * Real.pi / N

/-- Midpoint rule for `1/(2πi) ∫ e^{zt} f(z) dz` along the contour. -/
noncomputable def rule (N : ℕ) (shift : ℝ) (f : ℂ → ℂ) (t : ℝ) : ℂ :=
  1 / (2 * Real.pi * I) * ∑ i ∈ Finset.range N, (2 * Real.pi / N : ℝ) *
    (exp (contour N shift t (midpoint N i) * t) * f (contour N shift t (midpoint N i)) * deriv (contour N shift t) (midpoint N i))

end Geotecha.Transform.Spec
