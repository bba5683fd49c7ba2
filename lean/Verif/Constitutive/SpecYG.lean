import Mathlib.Analysis.SpecialFunctions.Pow.Deriv
import Mathlib.Analysis.SpecialFunctions.Log.Deriv
import Mathlib.MeasureTheory.Integral.IntervalIntegral.Basic

/-! # Specification: the elastic viscoplastic soil of Yin and Graham, without reference to the code -/

set_option autoImplicit false

namespace Geotecha.Spec

/-- Constants of the soil: slopes `lam`, `kap` of the reference and instant time lines, creep slope `psi`, a point
`(siga, ea)` on the reference time line, its time `ta`. -/
structure YGSoil where
  lam : ℝ
  kap : ℝ
  psi : ℝ
  siga : ℝ
  ea : ℝ
  ta : ℝ

/-- The constants are those of a soil: positive, with `kap < lam`. -/
structure YGSoil.Good (p : YGSoil) : Prop where
  kap : 0 < p.kap
  lam : p.kap < p.lam
  psi : 0 < p.psi
  siga : 0 < p.siga
  ta : 0 < p.ta

/-- A state of rest: the instant time line through `(s0, e0)` meets the reference time line at the stress `p0`, and the
equivalent time `t0` accounts for the same distance from the reference time line by creep. -/
def YGState (p : YGSoil) (e0 s0 p0 t0 : ℝ) : Prop :=
  e0 - p.kap * Real.log (p0 / s0) = p.ea - p.lam * Real.log (p0 / p.siga) ∧
  (p.lam - p.kap) * Real.log (p0 / s0) = p.psi * Real.log (t0 / p.ta)

/-- The void ratio `e` obeys the rate law of the soil at time `t` under the stress history `s`: an elastic part and creep
at the rate that belongs to the present state `(s, e)`. -/
def YGRate (p : YGSoil) (s e : ℝ → ℝ) (t : ℝ) : Prop :=
  ∃ s' : ℝ, HasDerivAt s s' t ∧
    HasDerivAt e (-p.kap * s' / s t - p.psi / p.ta * Real.exp ((e t - p.ea) / p.psi) * (s t / p.siga) ^ (p.lam / p.psi)) t

/-- The stress history that runs linearly from `s` through the given stresses, each reached after the given time. -/
noncomputable def stressPath (s : ℝ) : List (ℝ × ℝ) → ℝ → ℝ
  | [], _ => s
  | (s1, dt) :: r, t => if t ≤ dt then s + t * ((s1 - s) / dt) else stressPath s1 r (t - dt)

/-- Times at which the stresses of the list are reached. -/
noncomputable def knots : List (ℝ × ℝ) → List ℝ
  | [] => []
  | (_, dt) :: r => dt :: (knots r).map fun t => dt + t

end Geotecha.Spec
