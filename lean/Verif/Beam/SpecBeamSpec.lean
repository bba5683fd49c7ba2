import Verif.Beam.SpecBeam
import Verif.Beam.DingSpec

/-!
# Specification for the beam with varying properties: physical input
-/
set_option autoImplicit false
set_option linter.unusedVariables false

namespace Geotecha.Beam

open Real Geotecha.Speccon Geotecha.Piecewise Geotecha.Spec

/-- Reference values of a beam on a foundation, in physical units. -/
structure SPhys where
  E : ℝ
  I : ℝ
  rho : ℝ
  A : ℝ
  L : ℝ
  k1 : ℝ
  k3 : ℝ
  mu : ℝ
  hE : 0 < E
  hI : 0 < I
  hrho : 0 < rho
  hA : 0 < A
  hL : 0 < L

/-- The call `SpecBeam(BC="SS", E=…, …, nquad=nq)` with physical values only (specbeam.py:325-380). -/
def SPhys.args (P : SPhys) (nq : Option ℕ) : SArgs :=
  ⟨"SS", some P.E, some P.I, some P.rho, some P.A, some P.L, some P.k1, some P.k3, some P.mu, none, none, none,
    none, nq, false⟩

/-- A stationary load in physical units: where, magnitude against time (points), `(omega, phase)`. -/
structure SLoad where
  x : ℝ
  pts : List (ℝ × ℝ)
  om : Option (ℝ × ℝ)

namespace Spec

/-- The moving load arguments `m` give the vehicles `vs` in physical values; a list that is left out stands for
its documented default (offset 0, start time 0, start position 0, the whole beam). -/
structure Describes (L : ℝ) (m : MArgs) (vs : List Vehicle) : Prop where
  x : m.x = some (vs.map fun c => c.axles.map Prod.fst)
  Fz : m.Fz = some (vs.map fun c => c.axles.map Prod.snd)
  v : m.v = some (vs.map Vehicle.v)
  offset : m.offset = some (vs.map Vehicle.offset) ∨ m.offset = none ∧ ∀ c ∈ vs, c.offset = 0
  t0 : m.t0 = some (vs.map Vehicle.t0) ∨ m.t0 = none ∧ ∀ c ∈ vs, c.t0 = 0
  x0 : m.x0 = some (vs.map Vehicle.x0) ∨ m.x0 = none ∧ ∀ c ∈ vs, c.x0 = 0
  len : m.L = some (vs.map Vehicle.L) ∨ m.L = none ∧ ∀ c ∈ vs, c.L = L
  xN : m.xN = none
  FzN : m.FzN = none
  vN : m.vN = none
  offsetN : m.offsetN = none
  t0N : m.t0N = none
  x0N : m.x0N = none
  LN : m.LN = none

/-- The moving load arguments `m` give the vehicles `vs` in normalised values. -/
structure DescribesN (m : MArgs) (vs : List Vehicle) : Prop where
  xN : m.xN = some (vs.map fun c => c.axles.map Prod.fst)
  FzN : m.FzN = some (vs.map fun c => c.axles.map Prod.snd)
  vN : m.vN = some (vs.map Vehicle.v)
  offsetN : m.offsetN = some (vs.map Vehicle.offset) ∨ m.offsetN = none ∧ ∀ c ∈ vs, c.offset = 0
  t0N : m.t0N = some (vs.map Vehicle.t0) ∨ m.t0N = none ∧ ∀ c ∈ vs, c.t0 = 0
  x0N : m.x0N = some (vs.map Vehicle.x0) ∨ m.x0N = none ∧ ∀ c ∈ vs, c.x0 = 0
  LN : m.LN = some (vs.map Vehicle.L) ∨ m.LN = none ∧ ∀ c ∈ vs, c.L = 1
  x : m.x = none
  Fz : m.Fz = none
  v : m.v = none
  offset : m.offset = none
  t0 : m.t0 = none
  x0 : m.x0 = none
  L : m.L = none

/-- The vehicle `c'` in normalised units is the vehicle `c` in physical units: axle by axle the same force over
`E A`, and at every time the same position over `L`, on the beam at the same times. -/
def SameVehicle (P : SPhys) (c c' : Vehicle) : Prop :=
  List.Forall₂ (fun a a' => a'.2 = a.2 / (P.E * P.A) ∧
    ∀ t, axleAt c' a' (tNorm P.E P.rho P.L t) = axleAt c a t / P.L ∧
      (OnBeam c' a' (tNorm P.E P.rho P.L t) ↔ OnBeam c a t)) c.axles c'.axles

/-- The stationary load arguments give the loads `ls` in physical values; `omega_phase` may be left out. -/
structure DescribesS (m : StArgs) (ls : List SLoad) : Prop where
  x : m.x = some (ls.map SLoad.x)
  vs : ∃ l, m.vs = some l ∧ List.Forall₂ (fun (p : PolyLine ℝ) (s : SLoad) => p.getXY.1 = .ok s.pts) l ls
  op : m.op = some (ls.map SLoad.om) ∨ m.op = none ∧ ∀ s ∈ ls, s.om = none
  xN : m.xN = none
  vsN : m.vsN = none
  opN : m.opN = none

/-- The force of a stationary load at time `t`: its history (first and last value held outside), times
`cos(ω t + phase)` if asked for. -/
noncomputable def force (s : SLoad) (t : ℝ) : ℝ :=
  polyLeft s.pts t * (match s.om with
    | none => 1
    | some o => cos (o.1 * t + o.2))

/-- A history one can interpolate: times in order, not all the same. -/
def Proper (s : SLoad) : Prop :=
  SortedLe (s.pts.map Prod.fst) ∧ ∃ a ∈ s.pts, ∃ b ∈ s.pts, a.1 < b.1

/-- Moving loads in physical values, or none at all. -/
def Moving (L : ℝ) (m : MArgs) (vs : List Vehicle) : Prop :=
  Describes L m vs ∨ vs = [] ∧ m.x = none ∧ m.Fz = none ∧ m.v = none ∧ m.xN = none ∧ m.FzN = none ∧ m.vN = none

/-- Stationary loads in physical values, or none at all. -/
def Still (m : StArgs) (ls : List SLoad) : Prop :=
  DescribesS m ls ∨ ls = [] ∧ m.x = none ∧ m.op = none ∧ m.xN = none ∧ m.vsN = none ∧ m.opN = none

end Spec

end Geotecha.Beam
