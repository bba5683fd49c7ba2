import Verif.Piecewise.Model
import Verif.Speccon.PropsHarm

/-!
# Vehicles: `MovingPointLoads`

Model of `geotecha/beam_on_foundation/specbeam.py`, lines 1591-2060 (without plotting).  `x` and `p` have
the same length (one entry per axle).  The scratch arrays `xnow`, `pnow` are not modelled: the returned
values are.  A velocity of zero makes `start_time`, `end_time` infinite or `nan`; that case is only
modelled in `convert_to_specbeam`, where it raises.
-/
set_option autoImplicit false
set_option linter.unusedVariables false

namespace Geotecha.Beam

open Real Geotecha.Spec Geotecha.Speccon

/-- `MovingPointLoads(x, p, offset, v, L, t0, x0)` with `v` and `L` given (specbeam.py:1625-1643). -/
structure Vehicle where
  /-- `x` and `p`, axle by axle -/ axles : List (ℝ × ℝ)
  /-- `offset` -/ offset : ℝ
  /-- `v` -/ v : ℝ
  /-- `L` -/ L : ℝ
  /-- `t0` -/ t0 : ℝ
  /-- `x0` -/ x0 : ℝ

/-- `self.xt`: position of an axle relative to the reference point (specbeam.py:1632-1633). -/
def Vehicle.xt (c : Vehicle) (a : ℝ × ℝ) : ℝ := a.1 + c.offset

/-- `start_time` of an axle (`setv`, specbeam.py:1646-1659). -/
noncomputable def Vehicle.startTime (c : Vehicle) (xt : ℝ) : ℝ :=
  if c.v > 0 then c.t0 + (0 - xt) / c.v else c.t0 - (-1) * xt / c.v

/-- `end_time` of an axle (`setv`, specbeam.py:1646-1659). -/
noncomputable def Vehicle.endTime (c : Vehicle) (xt : ℝ) : ℝ :=
  if c.v > 0 then c.t0 + (c.L - xt) / c.v else c.t0 - (c.L + (-1) * xt) / c.v

/-- `axle_positions(t, v0, t0, x0)` for one axle (specbeam.py:1849-1878). -/
noncomputable def axlePosition (xt t v0 t0 x0 : ℝ) : ℝ :=
  (if v0 < 0 then xt * (-1) else xt) + (x0 + v0 * (t - t0))

/-- `point_loads_on_beam(t)` (specbeam.py:1676-1706): positions and forces of all axles.  `axle_positions`
is called without `t0`, and with `x0=self.L` for a negative velocity. -/
noncomputable def Vehicle.pointLoads (c : Vehicle) (t : ℝ) : List (ℝ × ℝ) :=
  c.axles.map fun a =>
    (if 0 ≤ c.v then axlePosition (c.xt a) t c.v 0 c.x0 else axlePosition (c.xt a) t c.v 0 c.L,
      if t < c.startTime (c.xt a) ∨ t > c.endTime (c.xt a) then 0 else a.2)

/-- One load as `convert_to_specbeam` describes it: `PolyLine(T, P)` of the magnitude, and `omega`,
`phase` per unit of the mode number. -/
structure Harmonic where
  T : List ℝ
  P : List ℝ
  omega : ℝ
  phase : ℝ

/-- `convert_to_specbeam(v, L, t0, x0)` (specbeam.py:1709-1806). -/
noncomputable def Vehicle.convert (c : Vehicle) (v L t0 x0 : Option ℝ) : Except PyErr (List Harmonic) :=
  let v := v.getD c.v
  let L := L.getD c.L
  let t0 := t0.getD c.t0
  let x0 := x0.getD c.x0
  open Classical in
  if v = 0 then .error .valueError
  else if v > 0 then
    .ok (c.axles.map fun a =>
      let xi := c.xt a
      let s := t0 + (0 - xi) / v
      let e := t0 + (L - xi) / v
      ⟨[s, s, e, e], [0, a.2, a.2, 0], v, xi + x0 - v * t0⟩)
  else
    .ok (c.axles.map fun a =>
      let xi := c.xt a * (-1)
      let s := t0 - xi / v
      let e := t0 - (L + xi) / v
      ⟨[s, s, e, e], [0, a.2, a.2, 0], v, x0 + L + xi - v * t0⟩)

/-- `time_axles_pass_point(x, v0, t0, x0)` for one axle (specbeam.py:2010-2042). -/
noncomputable def passTime (xt x v0 t0 x0 : ℝ) : ℝ :=
  (x - (if v0 < 0 then xt * (-1) else xt) - x0) / v0 + t0

/-- `time_axles_pass_beam_point(x)` (specbeam.py:2044-2073). -/
noncomputable def Vehicle.passBeamPoint (c : Vehicle) (x : ℝ) : Except PyErr (List ℝ) :=
  if c.v > 0 then .ok (c.axles.map fun a => passTime (c.xt a) x c.v c.t0 c.x0)
  else if c.v < 0 then .ok (c.axles.map fun a => passTime (c.xt a) x c.v c.t0 (c.L + c.x0))
  else .error .valueError

namespace Spec

/-- Where an axle is, from the documentation of `convert_to_specbeam`: a vehicle going right has its
reference point at `x0` at time `t0`; one going left is mirrored and has it at `x0 + L`. -/
noncomputable def axleAt (c : Vehicle) (a : ℝ × ℝ) (t : ℝ) : ℝ :=
  if 0 < c.v then c.x0 + (a.1 + c.offset) + c.v * (t - c.t0)
  else c.x0 + c.L - (a.1 + c.offset) + c.v * (t - c.t0)

/-- The axle is on the stretch of length `L` that starts at `x0`. -/
def OnBeam (c : Vehicle) (a : ℝ × ℝ) (t : ℝ) : Prop := c.x0 ≤ axleAt c a t ∧ axleAt c a t ≤ c.x0 + c.L

end Spec

theorem axle_window (c : Vehicle) (hv : c.v ≠ 0) (a : ℝ × ℝ) (t : ℝ) :
    Spec.OnBeam c a t ↔ c.startTime (c.xt a) ≤ t ∧ t ≤ c.endTime (c.xt a) := by
  unfold Spec.OnBeam Spec.axleAt Vehicle.startTime Vehicle.endTime Vehicle.xt
  by_cases h : 0 < c.v
  · simp only [if_pos h, gt_iff_lt]
    have e1 : c.t0 + (0 - (a.1 + c.offset)) / c.v ≤ t ↔ 0 - (a.1 + c.offset) ≤ c.v * (t - c.t0) := by
      rw [← le_sub_iff_add_le', div_le_iff₀ h, mul_comm]
    have e2 : t ≤ c.t0 + (c.L - (a.1 + c.offset)) / c.v ↔ c.v * (t - c.t0) ≤ c.L - (a.1 + c.offset) := by
      rw [← sub_le_iff_le_add', le_div_iff₀ h, mul_comm]
    rw [e1, e2]
    constructor <;> rintro ⟨h1, h2⟩ <;> constructor <;> linarith
  · have h' : c.v < 0 := lt_of_le_of_ne (not_lt.1 h) hv
    simp only [if_neg h, gt_iff_lt]
    have e1 : c.t0 - -1 * (a.1 + c.offset) / c.v ≤ t ↔ c.v * (t - c.t0) ≤ a.1 + c.offset := by
      rw [show c.t0 - -1 * (a.1 + c.offset) / c.v = c.t0 + (a.1 + c.offset) / c.v by ring, ← le_sub_iff_add_le',
        div_le_iff_of_neg h', mul_comm]
    have e2 : t ≤ c.t0 - (c.L + -1 * (a.1 + c.offset)) / c.v ↔ a.1 + c.offset - c.L ≤ c.v * (t - c.t0) := by
      rw [show c.t0 - (c.L + -1 * (a.1 + c.offset)) / c.v = c.t0 + (a.1 + c.offset - c.L) / c.v by ring, ← sub_le_iff_le_add',
        le_div_iff_of_neg h', mul_comm]
    rw [e1, e2]
    constructor <;> rintro ⟨h1, h2⟩ <;> constructor <;> linarith

theorem start_lt_end (c : Vehicle) (hv : c.v ≠ 0) (hL : 0 < c.L) (xt : ℝ) : c.startTime xt < c.endTime xt := by
  unfold Vehicle.startTime Vehicle.endTime
  by_cases h : 0 < c.v
  · simp only [if_pos h, gt_iff_lt]
    have : (0 - xt) / c.v < (c.L - xt) / c.v := (div_lt_div_iff_of_pos_right h).2 (by linarith)
    linarith
  · have h' : c.v < 0 := lt_of_le_of_ne (not_lt.1 h) hv
    simp only [if_neg h, gt_iff_lt]
    have : (c.L + -1 * xt) / c.v < -1 * xt / c.v := (div_lt_div_right_of_neg h').2 (by linarith)
    linarith

theorem convert_own (c : Vehicle) (hv : c.v ≠ 0) : c.convert none none none none = .ok (c.axles.map fun a =>
    ⟨[c.startTime (c.xt a), c.startTime (c.xt a), c.endTime (c.xt a), c.endTime (c.xt a)], [0, a.2, a.2, 0], c.v,
      Spec.axleAt c a 0⟩) := by
  unfold Vehicle.convert
  simp only [Option.getD_none, if_neg hv]
  by_cases h : 0 < c.v
  · rw [if_pos h]
    congr 1
    refine List.map_congr_left fun a _ => ?_
    simp only [Vehicle.startTime, Vehicle.endTime, gt_iff_lt, if_pos h, Spec.axleAt, Vehicle.xt, Harmonic.mk.injEq, true_and]
    ring
  · rw [if_neg h]
    congr 1
    refine List.map_congr_left fun a _ => ?_
    simp only [Vehicle.startTime, Vehicle.endTime, gt_iff_lt, if_neg h, Spec.axleAt, Vehicle.xt, Harmonic.mk.injEq, true_and]
    refine ⟨?_, by ring⟩
    simp only [List.cons.injEq, and_true, true_and]
    refine ⟨?_, ?_, ?_, ?_⟩ <;> ring

/-- The history of one axle: its force while it is on the beam, nothing otherwise. -/
theorem axle_curve (c : Vehicle) (hv : c.v ≠ 0) (hL : 0 < c.L) (a : ℝ × ℝ) :
    let s := c.startTime (c.xt a)
    let e := c.endTime (c.xt a)
    SortedLe [s, s, e, e] ∧
    LoadCurve (fun t => open Classical in if Spec.OnBeam c a t then a.2 else 0) [s, s, e, e] [0, a.2, a.2, 0] := by
  intro s e
  have hse : s < e := start_lt_end c hv hL _
  refine ⟨?_, ?_⟩
  · unfold SortedLe
    simp [hse.le]
  · refine ⟨rfl, fun k hk t h1 h2 => ?_, fun h0 t ht => ?_⟩
    · have hk' : k + 1 < 4 := by simpa using hk
      rcases (by omega : k = 0 ∨ k = 1 ∨ k = 2) with rfl | rfl | rfl
      · simp at h1 h2; linarith
      · simp only [List.getElem_cons_succ, List.getElem_cons_zero] at h1 h2
        have : Spec.OnBeam c a t := (axle_window c hv a t).2 ⟨h1.le, h2.le⟩
        simp only [if_pos this]
        simp [line]
      · simp at h1 h2; linarith
    · have : ¬ Spec.OnBeam c a t := fun h => by
        have := (axle_window c hv a t).1 h
        simp at ht
        rcases ht with ht | ht
        · linarith [this.1]
        · linarith [this.2]
      simp only [if_neg this]

/-- **C173.** `convert_to_specbeam` describes the vehicle of its documentation: for every axle the argument
`omega*t + phase` is the position of the axle at time `t`, and the magnitude history is the axle's force
while the axle is on the beam and zero before and after; standing vehicles are rejected. -/
theorem C173_convert_to_specbeam (c : Vehicle) (hL : 0 < c.L) :
    (c.v = 0 → c.convert none none none none = .error .valueError) ∧
    (c.v ≠ 0 → ∃ hs : List Harmonic, c.convert none none none none = .ok hs ∧ hs.length = c.axles.length ∧
      ∀ (i : ℕ) (hi : i < hs.length) (ha : i < c.axles.length),
        (∀ t, hs[i].omega * t + hs[i].phase = Spec.axleAt c c.axles[i] t) ∧
        SortedLe hs[i].T ∧
        LoadCurve (fun t => open Classical in if Spec.OnBeam c c.axles[i] t then c.axles[i].2 else 0) hs[i].T hs[i].P) := by
  refine ⟨fun h => by unfold Vehicle.convert; simp [h], fun hv => ⟨_, convert_own c hv, by simp, fun i hi ha => ?_⟩⟩
  simp only [List.getElem_map]
  refine ⟨fun t => ?_, (axle_curve c hv hL c.axles[i]).1, (axle_curve c hv hL c.axles[i]).2⟩
  unfold Spec.axleAt
  split_ifs <;> ring

/-- **C173.** The keyword arguments replace the vehicle's own values, one by one. -/
theorem C173_convert_overrides (c : Vehicle) (v L t0 x0 : Option ℝ) :
    c.convert v L t0 x0 =
      ({ c with v := v.getD c.v, L := L.getD c.L, t0 := t0.getD c.t0, x0 := x0.getD c.x0 } : Vehicle).convert none none none none := by
  unfold Vehicle.convert
  simp only [Option.getD_none, Vehicle.xt]

/-- **C174 (partial: only for `t0 = 0`, and `x0 = 0` when going left).** Then `point_loads_on_beam` returns,
for every axle, its position according to the documentation, and its force while it is on the beam and
zero otherwise. -/
theorem C174_point_loads_partial (c : Vehicle) (hv : c.v ≠ 0) (ht : c.t0 = 0) (hx : c.v < 0 → c.x0 = 0) (t : ℝ) :
    c.pointLoads t = c.axles.map fun a =>
      (Spec.axleAt c a t, open Classical in if Spec.OnBeam c a t then a.2 else 0) := by
  unfold Vehicle.pointLoads
  refine List.map_congr_left fun a _ => ?_
  rw [Prod.mk.injEq]
  constructor
  · unfold axlePosition Spec.axleAt Vehicle.xt
    by_cases h : 0 < c.v
    · rw [if_pos h.le, if_neg (not_lt.2 h.le), if_pos h, ht]; ring
    · have h' : c.v < 0 := lt_of_le_of_ne (not_lt.1 h) hv
      rw [if_neg (not_le.2 h'), if_pos h', if_neg h, ht, hx h']; ring
  · by_cases h : Spec.OnBeam c a t
    · have := (axle_window c hv a t).1 h
      rw [if_pos h, if_neg (by push Not; exact this)]
    · have := mt (axle_window c hv a t).2 h
      rw [if_neg h, if_pos (by rcases not_and_or.1 this with h | h <;> [left; right] <;> exact not_le.1 h)]

/-- **C174.** In general the forces are right but the positions are not: they are off by `v t0` (and by
`x0` when going left). -/
theorem C174_point_loads_error (c : Vehicle) (hv : c.v ≠ 0) (t : ℝ) :
    c.pointLoads t = c.axles.map fun a =>
      (Spec.axleAt c a t + c.v * c.t0 - (if c.v < 0 then c.x0 else 0),
        open Classical in if Spec.OnBeam c a t then a.2 else 0) := by
  unfold Vehicle.pointLoads
  refine List.map_congr_left fun a _ => ?_
  rw [Prod.mk.injEq]
  constructor
  · unfold axlePosition Spec.axleAt Vehicle.xt
    by_cases h : 0 < c.v
    · rw [if_pos h.le, if_neg (not_lt.2 h.le), if_pos h, if_neg (not_lt.2 h.le)]; ring
    · have h' : c.v < 0 := lt_of_le_of_ne (not_lt.1 h) hv
      rw [if_neg (not_le.2 h'), if_pos h', if_neg h, if_pos h']; ring
  · by_cases h : Spec.OnBeam c a t
    · have := (axle_window c hv a t).1 h
      rw [if_pos h, if_neg (by push Not; exact this)]
    · have := mt (axle_window c hv a t).2 h
      rw [if_neg h, if_pos (by rcases not_and_or.1 this with h | h <;> [left; right] <;> exact not_le.1 h)]

/-- A wagon with two axles that enters a beam of length 10 at speed 2 at time 3. -/
def wagon : Vehicle := ⟨[(0, 5), (-1, 7)], 0, 2, 10, 3, 0⟩

/-- **C174.** For instance a wagon that enters a beam of length 10 at time 3 with speed 2: at time 8 its
first axle leaves the beam at `x = 10`, but `point_loads_on_beam` has it, with its full force, at `x = 16`. -/
theorem C174_late_vehicle : wagon.pointLoads 8 = [(16, 5), (15, 7)] ∧ Spec.axleAt wagon (0, 5) 8 = 10 := by
  rw [C174_point_loads_error _ (by norm_num [wagon])]
  have h1 : Spec.OnBeam wagon (0, 5) 8 := by unfold Spec.OnBeam Spec.axleAt; norm_num [wagon]
  have h2 : Spec.OnBeam wagon (-1, 7) 8 := by unfold Spec.OnBeam Spec.axleAt; norm_num [wagon]
  refine ⟨?_, by unfold Spec.axleAt; norm_num [wagon]⟩
  simp only [show wagon.axles = [(0, 5), (-1, 7)] from rfl, List.map_cons, List.map_nil, if_pos h1, if_pos h2]
  unfold Spec.axleAt; norm_num [wagon]

/-- The same wagon entering at time zero. -/
def wagon0 : Vehicle := ⟨[(0, 5), (-1, 7)], 0, 2, 10, 0, 0⟩

/-- C173, C174 are not vacuous: the wagon that enters at time zero, at time 2. -/
example : wagon0.pointLoads 2 = [(4, 5), (3, 7)] := by
  rw [C174_point_loads_partial _ (by norm_num [wagon0]) rfl (fun h => by norm_num [wagon0] at h)]
  have h1 : Spec.OnBeam wagon0 (0, 5) 2 := by unfold Spec.OnBeam Spec.axleAt; norm_num [wagon0]
  have h2 : Spec.OnBeam wagon0 (-1, 7) 2 := by unfold Spec.OnBeam Spec.axleAt; norm_num [wagon0]
  simp only [show wagon0.axles = [(0, 5), (-1, 7)] from rfl, List.map_cons, List.map_nil, if_pos h1, if_pos h2]
  unfold Spec.axleAt; norm_num [wagon0]

/-- **C175.** `time_axles_pass_beam_point(x)` gives, axle by axle, the one time at which the axle is at
`x`; for standing vehicles it raises. -/
theorem C175_pass_times (c : Vehicle) (x : ℝ) :
    (c.v = 0 → c.passBeamPoint x = .error .valueError) ∧
    (c.v ≠ 0 → ∃ ts : List ℝ, c.passBeamPoint x = .ok ts ∧ ts.length = c.axles.length ∧
      ∀ (i : ℕ) (hi : i < ts.length) (ha : i < c.axles.length) (t : ℝ), Spec.axleAt c c.axles[i] t = x ↔ t = ts[i]) := by
  refine ⟨fun h => by unfold Vehicle.passBeamPoint; simp [h], fun hv => ?_⟩
  unfold Vehicle.passBeamPoint
  by_cases h : 0 < c.v
  · rw [if_pos h]
    refine ⟨_, rfl, by simp, fun i hi ha t => ?_⟩
    simp only [List.getElem_map, passTime, if_neg (not_lt.2 h.le), Spec.axleAt, if_pos h, Vehicle.xt]
    rw [← sub_eq_iff_eq_add, eq_div_iff hv]
    constructor <;> intro e <;> linarith
  · have h' : c.v < 0 := lt_of_le_of_ne (not_lt.1 h) hv
    rw [if_neg h, if_pos h']
    refine ⟨_, rfl, by simp, fun i hi ha t => ?_⟩
    simp only [List.getElem_map, passTime, if_pos h', Spec.axleAt, if_neg h, Vehicle.xt]
    rw [← sub_eq_iff_eq_add, eq_div_iff hv]
    constructor <;> intro e <;> linarith

/-- C175 is not vacuous. -/
example : wagon.passBeamPoint 10 = .ok [8, 17 / 2] := by
  unfold Vehicle.passBeamPoint passTime; norm_num [wagon, Vehicle.xt]

end Geotecha.Beam
