import Mathlib.Analysis.Calculus.Deriv.Basic
import Mathlib.Analysis.SpecialFunctions.Exp
import Mathlib.MeasureTheory.Integral.IntervalIntegral.Basic

/-!
# Specification: one-dimensional consolidation of a layer drained at the top

Nothing here refers to the code.  `u z t` is the excess pore pressure at depth `z` and time `t`, `uz z t` its gradient.
-/

namespace Geotecha.Consol.Spec

/-- `uz` is the gradient of `u`; the layer is drained at depth `0` and impermeable at depth `H`; and Terzaghi's equation
`mv u_t = kv/gamw u_zz` holds everywhere. -/
structure Terzaghi (kv mv gamw H : ℝ) (u uz : ℝ → ℝ → ℝ) : Prop where
  grad : ∀ z t, HasDerivAt (fun z => u z t) (uz z t) z
  top : ∀ t, u 0 t = 0
  bottom : ∀ t, uz H t = 0
  eqn : ∀ z t, ∃ ut uzz, HasDerivAt (fun t => u z t) ut t ∧ HasDerivAt (fun z => uz z t) uzz z ∧ mv * ut = kv / gamw * uzz

/-- Mean over the layer. -/
noncomputable def mean (H : ℝ) (f : ℝ → ℝ) : ℝ := (∫ z in (0:ℝ)..H, f z) / H

end Geotecha.Consol.Spec
