import Mathlib.MeasureTheory.Integral.IntervalIntegral.Basic
import Mathlib.Analysis.SpecialFunctions.Exp
import Mathlib.Analysis.SpecialFunctions.Trigonometric.Basic
import Mathlib.Analysis.Calculus.Deriv.Basic

/-! # Specification: radial consolidation with a well whose discharge capacity varies with depth and time

Nothing here refers to the code. -/

open Real
namespace Geotecha.Consol.Spec

/-- Discharge capacity of the drain at depth `z` and time `t`: permeability `kw0 (A1 - A2 z/H) e^(-A3 t)` over a circle of radius `rw`. -/
noncomputable def qw (kw0 rw A1 A2 A3 H z t : ℝ) : ℝ := kw0 * (A1 - A2 * z / H) * exp (-A3 * t) * (π * rw ^ 2)

/-- Resistance of the well between the top and depth `z`: what enters the drain below depth `y` has to pass it there. -/
noncomputable def wellResistance (kh H : ℝ) (q : ℝ → ℝ) (z : ℝ) : ℝ := 2 * π * kh * ∫ y in (0 : ℝ)..z, (H - y) / q y

/-- `u` is the average pore pressure at one depth: it starts at `ui` and obeys Hansbo's equation with the resistance `mu t`. -/
def IsHansbo (ch re ui : ℝ) (mu : ℝ → ℝ) (u : ℝ → ℝ) : Prop :=
  u 0 = ui ∧ ∀ t, HasDerivAt u (-(2 * ch / re ^ 2) * (u t / mu t)) t

end Geotecha.Consol.Spec

open Real
namespace Geotecha.Consol.Spec

/-- `u` (average pore pressure in the soil) and `w` (pore pressure in the drain) obey the coupled equations of radial flow into a drain of
permeability `kw t`: the soil loses what flows to the drain, the drain carries it upwards.  Pervious top, impervious bottom. -/
structure IsDrainPair (ch kh re rw H mu : ℝ) (kw : ℝ → ℝ) (u w : ℝ → ℝ → ℝ) : Prop where
  soil : ∀ z t, HasDerivAt (u z) (-(2 * ch / (re ^ 2 * mu)) * (u z t - w z t)) t
  drain : ∀ z t, ∃ w' : ℝ → ℝ, (∀ y, HasDerivAt (fun x => w x t) (w' y) y) ∧ w' H = 0 ∧ ∃ w2, HasDerivAt w' w2 z ∧
    kw t * rw ^ 2 * w2 = -((re ^ 2 - rw ^ 2) * (2 * kh / (re ^ 2 * mu)) * (u z t - w z t))
  top : ∀ t, w 0 t = 0

end Geotecha.Consol.Spec
