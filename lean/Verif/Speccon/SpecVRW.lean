import Verif.Speccon.SpecVR

/-!
# Specification: the pressure in a drain of finite permeability

Second equation of the class notes, speccon1d_vrw.py:366-369 (there the drain term is misprinted with `u` for the drain pressure):

    (dTw kw w_z)_z + dTh kh et (u - w) = 0

tested with `phi`.  This file does not mention the code.
-/

open intervalIntegral
namespace Geotecha.Spec

/-- Conductivity of the drain with depth, `dTw kw`, and its value at the bottom. -/
structure Well where
  cond : ℝ → ℝ
  condEnd : ℝ

/-- Water leaving the drain along its length, less the water entering from the soil, as seen by `phi`: zero for a solution. -/
noncomputable def Well.balance (W : Well) (G : Ground) (u w wz : ℝ → ℝ → ℝ) (phi dphi : ℝ → ℝ) (t : ℝ) : ℝ :=
  ((∫ z in (0:ℝ)..1, W.cond z * dphi z * wz z t) - W.condEnd * phi 1 * wz 1 t) - ∫ z in (0:ℝ)..1, G.horiz z * phi z * (u z t - w z t)

end Geotecha.Spec
