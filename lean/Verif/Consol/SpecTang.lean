import Verif.Consol.Spec

/-!
# Specification: soil drained by a vertical drain of finite permeability

Nothing here refers to the code.  `u` is the pore pressure averaged over the soil ring, `uw` that in the drain, `q` the rate at which water
leaves unit volume of soil towards the drain.  The equation of storage is integrated over time because the load may have steps; the load
acts on the soil as `load t * S z`, where `S` is the depth distribution.
-/

open MeasureTheory
namespace Geotecha.Consol.Spec

/-- Properties; `mu` is the smear zone parameter, `bothEnds` tells whether the bottom drains as well. -/
structure Drain where
  kv : ℝ
  kh : ℝ
  kw : ℝ
  mv : ℝ
  gamw : ℝ
  rw : ℝ
  re : ℝ
  H : ℝ
  mu : ℝ
  bothEnds : Prop

/-- Solution from time `s` (just before which the load was `load0`) to `tend`. -/
structure Drain.Solves (V : Drain) (S load : ℝ → ℝ) (load0 s tend : ℝ) (u uw q : ℝ → ℝ → ℝ) : Prop where
  top : ∀ t, u 0 t = 0 ∧ uw 0 t = 0
  flow : ∃ uz wz uzz wzz : ℝ → ℝ → ℝ, (∀ z t, HasDerivAt (fun z => u z t) (uz z t) z ∧ HasDerivAt (fun z => uw z t) (wz z t) z ∧
      HasDerivAt (fun z => uz z t) (uzz z t) z ∧ HasDerivAt (fun z => wz z t) (wzz z t) z) ∧
    (V.bothEnds → ∀ t, u V.H t = 0 ∧ uw V.H t = 0) ∧ (¬V.bothEnds → ∀ t, uz V.H t = 0 ∧ wz V.H t = 0) ∧
    (∀ z t, s ≤ t → t ≤ tend → IntervalIntegrable (fun τ => V.kv / V.gamw * uzz z τ - q z τ) volume s t ∧
      V.mv * (u z t - (load t - load0) * S z) = ∫ τ in s..t, V.kv / V.gamw * uzz z τ - q z τ) ∧
    (∀ z t, V.kw / V.gamw * V.rw ^ 2 * wzz z t + (V.re ^ 2 - V.rw ^ 2) * q z t = 0)
  exchange : ∀ z t, u z t - uw z t = V.gamw * V.re ^ 2 * V.mu / (2 * V.kh) * q z t

end Geotecha.Consol.Spec
