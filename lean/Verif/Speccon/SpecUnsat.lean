import Verif.Speccon.SpecVRC

/-!
# Specification: unsaturated soil (weak form)

The equations of the class notes, speccon1d_unsat.py:352-391, over normalised depth `0 ≤ z ≤ 1`.  `uw`, `ua` are the pore pressures of water
and air, `sigma` the total stress, and the strains (over `mvref`) are

    eps_w = m1kw (sigma - ua) + m2w (ua - uw),          eps_a = m1ka (sigma - ua) + m2a (ua - uw)

The equations are

    m2w uw_t + (m1kw - m2w) ua_t + (dTw kw uw_z)_z = m1kw sigma_t
    m2a uw_t + (m1ka - m2a - (1 - S) n / (ua_ mvref)) ua_t + (dTa Da ua_z)_z = m1ka sigma_t

tested with a function `phi` that vanishes at the prescribed-pressure boundaries and integrated over time.  This file does not mention the code.
-/

open intervalIntegral
namespace Geotecha.Spec

/-- One of the two fluids: its conductivity with depth and at the bottom, the top boundary pressure and the bottom boundary pressure
(`drn = 0`) or gradient (`drn = 1`), and both before the start. -/
structure Fluid where
  cond : ℝ → ℝ
  condEnd : ℝ
  top : ℝ → ℝ
  top0 : ℝ
  bot : ℝ → ℝ
  bot0 : ℝ

/-- The data of the problem. -/
structure Unsat where
  drn : ℤ
  m1kw : ℝ → ℝ
  m2w : ℝ → ℝ
  m1ka : ℝ → ℝ
  m2a : ℝ → ℝ
  /-- porosity and degree of saturation -/
  n : ℝ → ℝ
  S : ℝ → ℝ
  /-- `ua_ mvref` -/
  airRef : ℝ
  surcharge : ℝ → ℝ → ℝ
  surcharge0 : ℝ → ℝ
  water : Fluid
  air : Fluid

/-- Pore pressure before the start: in equilibrium with the boundary values. -/
def Fluid.initial (F : Fluid) (drn : ℤ) (z : ℝ) : ℝ := (1 - (1 - drn) * z) * F.top0 + z * F.bot0

/-- The strains. -/
def Unsat.strainW (U : Unsat) (sig uw ua z : ℝ) : ℝ := U.m1kw z * (sig - ua) + U.m2w z * (ua - uw)
def Unsat.strainA (U : Unsat) (sig uw ua z : ℝ) : ℝ := U.m1ka z * (sig - ua) + U.m2a z * (ua - uw)

/-- Water equation: minus the strain of water since the start, minus the flow. -/
noncomputable def Unsat.residualW (U : Unsat) (s : ℝ) (uw uwz ua : ℝ → ℝ → ℝ) (phi dphi : ℝ → ℝ) (t : ℝ) : ℝ :=
  (∫ z in (0:ℝ)..1, phi z * (U.strainW (U.surcharge0 z) (U.water.initial U.drn z) (U.air.initial U.drn z) z
      - U.strainW (U.surcharge z t) (uw z t) (ua z t) z))
    - ∫ r in s..t, vflow U.water.cond U.water.condEnd uwz phi dphi r

/-- Air equation: minus the strain of air since the start, minus the compression of the air in the pores, minus the flow. -/
noncomputable def Unsat.residualA (U : Unsat) (s : ℝ) (uw ua uaz : ℝ → ℝ → ℝ) (phi dphi : ℝ → ℝ) (t : ℝ) : ℝ :=
  (∫ z in (0:ℝ)..1, phi z * (U.strainA (U.surcharge0 z) (U.water.initial U.drn z) (U.air.initial U.drn z) z
      - U.strainA (U.surcharge z t) (uw z t) (ua z t) z - (1 - U.S z) * U.n z / U.airRef * (ua z t - U.air.initial U.drn z)))
    - ∫ r in s..t, vflow U.air.cond U.air.condEnd uaz phi dphi r

end Geotecha.Spec
