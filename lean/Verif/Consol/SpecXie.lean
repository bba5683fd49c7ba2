import Mathlib.Analysis.Calculus.Deriv.Basic
import Mathlib.Analysis.SpecialFunctions.Exp
import Mathlib.MeasureTheory.Integral.IntervalIntegral.Basic

/-!
# Specification: one-dimensional consolidation at large strain

Nothing here refers to the code.  `a` is the initial depth of a particle below the top of a layer of initial thickness `H`, `e0 a` the
void ratio there before the load `qu`, `e a t` and `u a t` void ratio and excess pore pressure at time `t`.
-/

namespace Geotecha.Consol.Spec

/-- Darcy's law with a permeability that varies as the square of `1 + e`, per unit of the current length `(1 + e) / (1 + e0)` of the
particle: what flows up through the particle, `ua` being the gradient of the pressure in `a`. -/
noncomputable def flux (kv0 gamw : ℝ) (e0 : ℝ → ℝ) (e ua : ℝ → ℝ → ℝ) (a t : ℝ) : ℝ :=
  kv0 * ((1 + e a t) / (1 + e0 a)) ^ 2 / gamw * (ua a t / ((1 + e a t) / (1 + e0 a)))

/-- The equations of the layer (initial depths `0` to `H`, times from `0` on): the soil's compressibility
`-de/dσ' / (1 + e) = mvl` is constant (in integrated form), `ua` is the gradient of `u`, and what a particle loses in void ratio flows out
of it. -/
structure LargeStrain (kv0 mvl gamw qu H : ℝ) (e0 : ℝ → ℝ) (u e ua : ℝ → ℝ → ℝ) : Prop where
  soil : ∀ a t, 0 ≤ a → a ≤ H → 0 ≤ t → 1 + e a t = (1 + e0 a) * Real.exp (-(mvl * (qu - u a t)))
  grad : ∀ a t, 0 ≤ a → a ≤ H → 0 ≤ t → HasDerivAt (fun a => u a t) (ua a t) a
  mass : ∀ a t, 0 ≤ a → a ≤ H → 0 ≤ t → ∃ et qa, HasDerivAt (fun t => e a t) et t ∧
    HasDerivAt (fun a => flux kv0 gamw e0 e ua a t) qa a ∧ et / (1 + e0 a) = qa

end Geotecha.Consol.Spec
