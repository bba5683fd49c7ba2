import Verif.Speccon.Spec
import Mathlib.MeasureTheory.Integral.IntervalIntegral.Basic

/-!
# Specification: vertical and radial consolidation of a soil profile, weak form

The equation solved by speccon1d_vr (class notes, speccon1d_vr.py:345-357), over normalised depth `0 ≤ z ≤ 1` and integrated
once over time:

    mv (u - sigma)_t + eta (u - w) dTh kh + sum k_f delta(z - z_f) (u - u_f) = (dTv kv u_z)_z + sum delta(z - z_p) q_p

(the sign of `q_p` is that of the parameter description, "positive for flow into the model"; the class notes have the opposite
sign), tested with a function `phi` that vanishes at the prescribed-pressure boundaries.  This file does not mention the code.
-/

open intervalIntegral
namespace Geotecha.Spec

/-- The data of a consolidation problem. -/
structure Ground where
  /-- compressibility `mv / mvref` -/
  mv : ℝ → ℝ
  /-- coefficient of the vertical flow, `dTv kv` -/
  vert : ℝ → ℝ
  /-- its value at the bottom -/
  vertEnd : ℝ
  /-- coefficient of the flow to the drain, `dTh kh et` -/
  horiz : ℝ → ℝ
  /-- 0: pervious bottom, 1: impervious bottom -/
  drn : ℤ
  /-- total stress at `z`, `t`, and before the start -/
  surcharge : ℝ → ℝ → ℝ
  surcharge0 : ℝ → ℝ
  /-- pressure in the drain at `z`, `t` -/
  drain : ℝ → ℝ → ℝ
  /-- top boundary pressure, and before the start -/
  top : ℝ → ℝ
  top0 : ℝ
  /-- bottom boundary pressure (`drn = 0`) or gradient (`drn = 1`), and before the start -/
  bot : ℝ → ℝ
  bot0 : ℝ
  /-- pressures `(z_f, k_f, u_f)` imposed with the pseudo permeability `k_f` -/
  fixed : List (ℝ × ℝ × (ℝ → ℝ))
  /-- sources `(z_p, q_p)` -/
  pumps : List (ℝ × (ℝ → ℝ))

/-- Pore pressure before the start: in equilibrium with the boundary values. -/
def Ground.initial (G : Ground) (z : ℝ) : ℝ := (1 - (1 - G.drn) * z) * G.top0 + z * G.bot0

/-- Outflow at time `r` as seen by the test function `phi` (derivative `dphi`) when the pressure is `u` (gradient `uz`). -/
noncomputable def Ground.flow (G : Ground) (u uz : ℝ → ℝ → ℝ) (phi dphi : ℝ → ℝ) (r : ℝ) : ℝ :=
  ((∫ z in (0:ℝ)..1, G.vert z * dphi z * uz z r) - G.vertEnd * phi 1 * uz 1 r)
    + (∫ z in (0:ℝ)..1, G.horiz z * phi z * (u z r - G.drain z r))
    + (G.fixed.map (fun f => f.2.1 * phi f.1 * (u f.1 r - f.2.2 r))).sum
    - (G.pumps.map (fun p => phi p.1 * p.2 r)).sum

/-- Water stored since the start (as change of effective stress) plus water that has flowed out: zero for a solution. -/
noncomputable def Ground.residual (G : Ground) (s : ℝ) (u uz : ℝ → ℝ → ℝ) (phi dphi : ℝ → ℝ) (t : ℝ) : ℝ :=
  (∫ z in (0:ℝ)..1, G.mv z * phi z * ((u z t - G.surcharge z t) - (G.initial z - G.surcharge0 z)))
    + ∫ r in s..t, G.flow u uz phi dphi r

end Geotecha.Spec
