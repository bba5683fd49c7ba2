import Verif.Speccon.RunOther
import Verif.Speccon.PropsRun
import Verif.Speccon.PropsVRWell
import Verif.Speccon.PropsVRCParts
import Verif.Speccon.PropsUnsatOut
import Verif.Speccon.VRWEigen
import Verif.Speccon.VRCEigen
import Verif.Speccon.UnsatEigen

/-! # C235, C236, C237: the output tables of speccon1d_vrw, speccon1d_vrc and speccon1d_unsat -/

set_option linter.unusedVariables false
set_option autoImplicit false
open Real intervalIntegral MeasureTheory Filter Topology
namespace Geotecha.Speccon
open Geotecha.Spec Geotecha.Piecewise

/-- The table has a row for each selected time, a column for each depth labelled with its reduced level, and every cell satisfies `V` for
its depth and time. -/
def TableZ (H : ℝ) (w : Wanted) (T : Table) (V : ℝ → ℝ → ℝ → Prop) : Prop :=
  ∃ zs pos, w.z = some zs ∧ w.zIdx.positions w.tvals.length = .ok pos ∧ T.times = pos.map (fun k => w.tvals.getD k 0) ∧
    T.levels = zs.map (fun z => [levelOf H w.RLzero z]) ∧ Shows T.times T.data zs V

/-- The same for pairs of depths. -/
def TableP (H : ℝ) (w : Wanted) (pairs : Option (List (ℝ × ℝ))) (ix : TIdx) (T : Table) (V : ℝ × ℝ → ℝ → ℝ → Prop) : Prop :=
  ∃ ps pos, pairs = some ps ∧ ix.positions w.tvals.length = .ok pos ∧ T.times = pos.map (fun k => w.tvals.getD k 0) ∧
    T.levels = ps.map (fun p => [levelOf H w.RLzero p.1, levelOf H w.RLzero p.2]) ∧ Shows T.times T.data ps V

variable {H : ℝ} {w : Wanted} {cols : List (ℕ → ℝ)} {g : ℝ → Except PyErr (ℕ → ℝ)} {tabs : List Table}

theorem jobs_inv {D : Type} {label : D → List ℝ} {ds : List D} {ix : TIdx} {jobs : List (String × (D → ℝ → Except PyErr ℝ))}
    (hc : w.tvals.mapM g = .ok cols)
    (h : jobs.mapM (fun j => mkTable j.1 label (fun z t _ => j.2 z t) ds w.tvals cols ix) = .ok tabs) :
    tabs.map Table.name = jobs.map Prod.fst ∧ ∀ T ∈ tabs, ∃ j ∈ jobs, T.name = j.1 ∧ ∃ pos, ix.positions w.tvals.length = .ok pos ∧
      T.times = pos.map (fun k => w.tvals.getD k 0) ∧ T.levels = ds.map label ∧ Shows T.times T.data ds (fun d t c => j.2 d t = .ok c) := by
  have hf := mapM_ok_inv h
  clear h
  induction hf with
  | nil => simp
  | @cons j T jobs tabs hj _ ih =>
    obtain ⟨i1, i2⟩ := ih
    obtain ⟨m1, m2, pos, m3, m4, m5⟩ := mkTable_inv hc hj
    refine ⟨by simp [i1, m1], fun T' hT' => ?_⟩
    rcases List.mem_cons.1 hT' with rfl | hT'
    · exact ⟨j, by simp, m1, pos, m3, m4, m2, shows_imp m5 (fun d t c ⟨_, _, e⟩ => e)⟩
    · obtain ⟨j', hj', r⟩ := i2 T' hT'
      exact ⟨j', by simp [hj'], r⟩

theorem groupZ_inv {jobs : List (String × (ℝ → ℝ → Except PyErr ℝ))} (hc : w.tvals.mapM g = .ok cols) (h : groupZ H w cols jobs = .ok tabs) :
    tabs.map Table.name = (if w.z.isSome then jobs.map Prod.fst else []) ∧
      ∀ T ∈ tabs, ∃ j ∈ jobs, T.name = j.1 ∧ TableZ H w T (fun z t c => j.2 z t = .ok c) := by
  unfold groupZ at h
  cases hz : w.z with
  | none => rw [hz] at h; cases h; simp
  | some zs =>
    rw [hz] at h
    obtain ⟨h1, h2⟩ := jobs_inv hc h
    refine ⟨by simpa using h1, fun T hT => ?_⟩
    obtain ⟨j, hj, hn, pos, a1, a2, a3, a4⟩ := h2 T hT
    exact ⟨j, hj, hn, zs, pos, hz, a1, a2, a3, a4⟩

theorem groupP_inv {pairs : Option (List (ℝ × ℝ))} {ix : TIdx} {jobs : List (String × (ℝ × ℝ → ℝ → Except PyErr ℝ))} (hc : w.tvals.mapM g = .ok cols)
    (h : groupP H w cols pairs ix jobs = .ok tabs) :
    tabs.map Table.name = (if pairs.isSome then jobs.map Prod.fst else []) ∧
      ∀ T ∈ tabs, ∃ j ∈ jobs, T.name = j.1 ∧ TableP H w pairs ix T (fun p t c => j.2 p t = .ok c) := by
  unfold groupP at h
  match pairs, h with
  | none, h => cases h; simp
  | some [], h => cases h
  | some (p :: ps), h =>
    obtain ⟨h1, h2⟩ := jobs_inv hc h
    refine ⟨by simpa using h1, fun T hT => ?_⟩
    obtain ⟨j, hj, hn, pos, a1, a2, a3, a4⟩ := h2 T hT
    exact ⟨j, hj, hn, p :: ps, pos, rfl, a1, a2, a3, a4⟩

theorem jobs_ok {D : Type} {label : D → List ℝ} {ds : List D} {ix : TIdx} (jobs : List (String × (D → ℝ → Except PyErr ℝ)))
    (hc : w.tvals.mapM g = .ok cols) (hp : ∃ pos, ix.positions w.tvals.length = .ok pos)
    (hf : ∀ j ∈ jobs, ∀ t ∈ w.tvals, ∀ d ∈ ds, ∃ c, j.2 d t = .ok c) :
    ∃ tabs, jobs.mapM (fun j => mkTable j.1 label (fun z t _ => j.2 z t) ds w.tvals cols ix) = .ok tabs := by
  obtain ⟨pos, hp⟩ := hp
  obtain ⟨r, hr, _⟩ := mapM_ok_of (P := fun _ _ => True) (l := jobs)
    (f := fun j => mkTable j.1 label (fun z t _ => j.2 z t) ds w.tvals cols ix) (fun j hj => by
      obtain ⟨T, hT⟩ := mkTable_ok j.1 label (f := fun z t _ => j.2 z t) hc hp (fun t ht _ _ d hd => hf j hj t ht d hd)
      exact ⟨T, hT, trivial⟩)
  exact ⟨r, hr⟩

theorem groupZ_ok (jobs : List (String × (ℝ → ℝ → Except PyErr ℝ))) (hc : w.tvals.mapM g = .ok cols)
    (hp : ∃ pos, w.zIdx.positions w.tvals.length = .ok pos)
    (hf : ∀ zs, w.z = some zs → ∀ j ∈ jobs, ∀ t ∈ w.tvals, ∀ d ∈ zs, ∃ c, j.2 d t = .ok c) : ∃ tabs, groupZ H w cols jobs = .ok tabs := by
  unfold groupZ
  cases hz : w.z with
  | none => exact ⟨[], rfl⟩
  | some zs => exact jobs_ok jobs hc hp (hf zs hz)

theorem groupP_ok {pairs : Option (List (ℝ × ℝ))} {ix : TIdx} (jobs : List (String × (ℝ × ℝ → ℝ → Except PyErr ℝ))) (hc : w.tvals.mapM g = .ok cols)
    (hp : ∃ pos, ix.positions w.tvals.length = .ok pos) (hne : ∀ ps, pairs = some ps → ps ≠ [])
    (hf : ∀ ps, pairs = some ps → ∀ j ∈ jobs, ∀ t ∈ w.tvals, ∀ d ∈ ps, ∃ c, j.2 d t = .ok c) : ∃ tabs, groupP H w cols pairs ix jobs = .ok tabs := by
  unfold groupP
  match pairs, hne, hf with
  | none, _, _ => exact ⟨[], rfl⟩
  | some [], hne, _ => exact absurd rfl (hne [] rfl)
  | some (p :: ps), _, hf => exact jobs_ok jobs hc hp (hf _ rfl)

theorem times_mem {ix : TIdx} {pos : List ℕ} (hp : ix.positions w.tvals.length = .ok pos) : ∀ t ∈ pos.map (fun k => w.tvals.getD k 0), t ∈ w.tvals := by
  intro t ht
  obtain ⟨k, hk, rfl⟩ := List.mem_map.1 ht
  have hlt := (C229_picks w.tvals.length).2.2.2 ix pos hp k hk
  rw [List.getD_eq_getElem?_getD, List.getElem?_eq_getElem hlt]
  exact List.getElem_mem hlt

theorem shows_mem {D : Type} {ts : List ℝ} {data : List (List ℝ)} {ds : List D} {V V' : D → ℝ → ℝ → Prop} (h : Shows ts data ds V)
    (hv : ∀ t ∈ ts, ∀ d ∈ ds, ∀ c, V d t c → V' d t c) : Shows ts data ds V' := by
  unfold Shows at h ⊢
  induction h with
  | nil => exact .nil
  | @cons t row ts data hr hrest ih =>
    refine .cons ?_ (ih fun t ht => hv t (by simp [ht]))
    have hv' := hv t (by simp)
    clear ih hv hrest
    induction hr with
    | nil => exact .nil
    | @cons d c ds row hd _ ih => exact .cons (hv' d (by simp) c hd) (ih fun d hd => hv' d (by simp [hd]))

theorem tableZ_mem {T : Table} {V V' : ℝ → ℝ → ℝ → Prop} (h : TableZ H w T V)
    (hv : ∀ zs, w.z = some zs → ∀ t ∈ w.tvals, ∀ z ∈ zs, ∀ c, V z t c → V' z t c) : TableZ H w T V' := by
  obtain ⟨zs, pos, h1, h2, h3, h4, h5⟩ := h
  refine ⟨zs, pos, h1, h2, h3, h4, shows_mem h5 fun t ht => hv zs h1 t ?_⟩
  rw [h3] at ht
  exact times_mem h2 t ht

theorem tableP_mem {pairs : Option (List (ℝ × ℝ))} {ix : TIdx} {T : Table} {V V' : ℝ × ℝ → ℝ → ℝ → Prop} (h : TableP H w pairs ix T V)
    (hv : ∀ ps, pairs = some ps → ∀ t ∈ w.tvals, ∀ p ∈ ps, ∀ c, V p t c → V' p t c) : TableP H w pairs ix T V' := by
  obtain ⟨zs, pos, h1, h2, h3, h4, h5⟩ := h
  refine ⟨zs, pos, h1, h2, h3, h4, shows_mem h5 fun t ht => hv zs h1 t ?_⟩
  rw [h3] at ht
  exact times_mem h2 t ht

/-- Taking the three groups apart. -/
theorem groups_inv {J1 : List (String × (ℝ → ℝ → Except PyErr ℝ))} {J2 J3 : List (String × (ℝ × ℝ → ℝ → Except PyErr ℝ))}
    (h : (do
      let cols ← w.tvals.mapM g
      let p ← groupZ H w cols J1
      let q ← groupP H w cols w.avgPairs w.avgIdx J2
      let r ← groupP H w cols w.setPairs w.setIdx J3
      pure (p ++ q ++ r)) = Except.ok (ε := PyErr) tabs) :
    tabs.map Table.name = (if w.z.isSome then J1.map Prod.fst else []) ++ (if w.avgPairs.isSome then J2.map Prod.fst else [])
      ++ (if w.setPairs.isSome then J3.map Prod.fst else []) ∧
    ∀ T ∈ tabs, (∃ j ∈ J1, T.name = j.1 ∧ TableZ H w T (fun z t c => j.2 z t = .ok c)) ∨
      (∃ j ∈ J2, T.name = j.1 ∧ TableP H w w.avgPairs w.avgIdx T (fun z t c => j.2 z t = .ok c)) ∨
      (∃ j ∈ J3, T.name = j.1 ∧ TableP H w w.setPairs w.setIdx T (fun z t c => j.2 z t = .ok c)) := by
  cases hc : w.tvals.mapM g with
  | error e => rw [hc] at h; cases h
  | ok cols =>
    rw [hc] at h
    change (groupZ H w cols J1 >>= _) = _ at h
    cases h1 : groupZ H w cols J1 with
    | error e => rw [h1] at h; cases h
    | ok t1 =>
      rw [h1] at h
      change (groupP H w cols w.avgPairs w.avgIdx J2 >>= _) = _ at h
      cases h2 : groupP H w cols w.avgPairs w.avgIdx J2 with
      | error e => rw [h2] at h; cases h
      | ok t2 =>
        rw [h2] at h
        change (groupP H w cols w.setPairs w.setIdx J3 >>= _) = _ at h
        cases h3 : groupP H w cols w.setPairs w.setIdx J3 with
        | error e => rw [h3] at h; cases h
        | ok t3 =>
          rw [h3] at h
          cases h
          obtain ⟨n1, p1⟩ := groupZ_inv hc h1
          obtain ⟨n2, p2⟩ := groupP_inv hc h2
          obtain ⟨n3, p3⟩ := groupP_inv hc h3
          refine ⟨by simp only [List.map_append, n1, n2, n3], fun T hT => ?_⟩
          simp only [List.mem_append] at hT
          rcases hT with (hT | hT) | hT
          · exact .inl (p1 T hT)
          · exact .inr (.inl (p2 T hT))
          · exact .inr (.inr (p3 T hT))

theorem groups_ok {s tend : ℝ} (J1 : List (String × (ℝ → ℝ → Except PyErr ℝ))) (J2 J3 : List (String × (ℝ × ℝ → ℝ → Except PyErr ℝ)))
    (hw : w.Valid s tend) (hg : ∀ t, s ≤ t → t ≤ tend → ∃ c, g t = .ok c)
    (h1 : ∀ j ∈ J1, ∀ t ∈ w.tvals, ∀ z, 0 ≤ z → z ≤ 1 → ∃ c, j.2 z t = .ok c)
    (h2 : ∀ j ∈ J2 ++ J3, ∀ t ∈ w.tvals, ∀ p : ℝ × ℝ, 0 ≤ p.1 → p.1 < p.2 → p.2 ≤ 1 → ∃ c, j.2 p t = .ok c) :
    ∃ tabs, (do
      let cols ← w.tvals.mapM g
      let p ← groupZ H w cols J1
      let q ← groupP H w cols w.avgPairs w.avgIdx J2
      let r ← groupP H w cols w.setPairs w.setIdx J3
      pure (p ++ q ++ r)) = Except.ok (ε := PyErr) tabs := by
  obtain ⟨cols, hc, _⟩ := mapM_ok_of (P := fun _ _ => True) (l := w.tvals) (f := g) (fun t ht => by
    obtain ⟨c, e⟩ := hg t (hw.times t ht).1 (hw.times t ht).2
    exact ⟨c, e, trivial⟩)
  obtain ⟨t1, e1⟩ := groupZ_ok (H := H) J1 hc (hw.idx _ (by simp)) (fun zs hz j hj t ht z hzz => h1 j hj t ht z (hw.z zs hz z hzz).1 (hw.z zs hz z hzz).2)
  obtain ⟨t2, e2⟩ := groupP_ok (H := H) (pairs := w.avgPairs) (ix := w.avgIdx) J2 hc (hw.idx _ (by simp)) (fun ps h => (hw.avg ps h).1)
    (fun ps h j hj t ht p hp => have k := (hw.avg ps h).2 p hp; h2 j (by simp [hj]) t ht p k.1 k.2.1 k.2.2)
  obtain ⟨t3, e3⟩ := groupP_ok (H := H) (pairs := w.setPairs) (ix := w.setIdx) J3 hc (hw.idx _ (by simp)) (fun ps h => (hw.set ps h).1)
    (fun ps h j hj t ht p hp => have k := (hw.set ps h).2 p hp; h2 j (by simp [hj]) t ht p k.1 k.2.1 k.2.2)
  refine ⟨t1 ++ t2 ++ t3, ?_⟩
  simp only [hc, e1, e2, e3, Bind.bind, Except.bind, pure, Except.pure]

/-! ## speccon1d_vrw -/

/-- **C235** a finished run of speccon1d_vrw has the tables of the outputs asked for: pore pressure of soil and drain, average pore pressure,
settlement; times, levels and cells belong together. -/
theorem C235_tables (x : VRW) (a : VRWArrays) (w : Wanted) (tabs : List Table) (h : x.output a w = .ok tabs) :
    tabs.map Table.name = (if w.z.isSome then ["_data_por", "_data_porwell"] else []) ++ (if w.avgPairs.isSome then ["_data_avp"] else [])
      ++ (if w.setPairs.isSome then ["_data_set"] else []) ∧
    ∀ T ∈ tabs, (T.name = "_data_por" → TableZ x.base.H w T (fun z t c => x.por a z t = .ok c)) ∧
      (T.name = "_data_porwell" → TableZ x.base.H w T (fun z t c => x.porwell a z t = .ok c)) ∧
      (T.name = "_data_avp" → TableP x.base.H w w.avgPairs w.avgIdx T (fun p t c => x.avp a p.1 p.2 t = .ok c)) ∧
      (T.name = "_data_set" → TableP x.base.H w w.setPairs w.setIdx T (fun p t c => x.settle a p.1 p.2 t = .ok c)) := by
  unfold VRW.output at h
  obtain ⟨hn, hT⟩ := groups_inv h
  refine ⟨hn, fun T hm => ?_⟩
  have := hT T hm
  simp only [List.mem_cons, List.not_mem_nil, or_false, exists_eq_left, exists_eq_or_imp] at this
  rcases this with (⟨e, k⟩ | ⟨e, k⟩) | ⟨e, k⟩ | ⟨e, k⟩ <;> rw [e] <;> refine ⟨fun n => ?_, fun n => ?_, fun n => ?_, fun n => ?_⟩ <;>
    first | exact absurd n (by decide) | exact k

/-- For an input that describes a problem, arrays as made by the program, output times inside the load histories without a step of the
boundary pressures, and depths inside the soil the run finishes, and its tables show one pore pressure: averages and settlements belong to it. -/
theorem C235_values {x : VRW} {S : Set ℝ} {s tend : ℝ} {G : Ground} {W : Well} {a : VRWArrays} {w : Wanted} (h : VRWInput x S s tend G W) (hM : a.Made x)
    (h0 : ∀ i, i < a.m.length → a.eigs i ≠ 0) (hw : w.Valid s tend) (hstep : ∀ t ∈ w.tvals, NoStep x.base.top t ∧ NoStep x.base.bot t)
    (hlen : ∀ l d, x.base.surchargeTime = some l → x.base.surchargeDepth = some d → d.length = l.length ∧ OmLen l x.base.surchargeOm)
    (hnone : x.base.surchargeDepth = none → x.base.surchargeTime = none) :
    ∃ (tabs : List Table) (u v : ℝ → ℝ → ℝ), x.output a w = .ok tabs ∧
      (∀ z t, 0 ≤ z → z ≤ 1 → s ≤ t → t ≤ tend → x.por a z t = .ok (u z t)) ∧
      (∀ z t, 0 ≤ z → z ≤ 1 → s ≤ t → t ≤ tend → NoStep x.base.top t → NoStep x.base.bot t → x.porwell a z t = .ok (v z t)) ∧
      ∀ T ∈ tabs, (T.name = "_data_por" → TableZ x.base.H w T (fun z t c => c = u z t)) ∧
        (T.name = "_data_porwell" → TableZ x.base.H w T (fun z t c => c = v z t)) ∧
        (T.name = "_data_avp" → TableP x.base.H w w.avgPairs w.avgIdx T (fun p t c => c * (p.2 - p.1) = ∫ z in p.1..p.2, u z t)) ∧
        (T.name = "_data_set" → TableP x.base.H w w.setPairs w.setIdx T (fun p t c =>
          c = x.base.H * x.base.mvref * ∫ z in p.1..p.2, G.mv z * (G.surcharge z t - u z t))) := by
  obtain ⟨bots, hb⟩ : ∃ bots, Loads x.base.bot x.base.botOm s tend bots := by
    obtain ⟨_, bots, hb, _⟩ := h.base.bot
    exact ⟨bots, hb⟩
  obtain ⟨A, hcol, hpor, hwell⟩ := porwell_core h hM h0 (g := total bots) ⟨bots, hb, fun t => rfl⟩
  have agree : ∀ t ∈ w.tvals, ∀ p : ℝ × ℝ, 0 ≤ p.1 → p.1 < p.2 → p.2 ≤ 1 → ∃ b, x.avp a p.1 p.2 t = .ok b ∧
      b * (p.2 - p.1) = (∫ z in p.1..p.2, series G x.base.neig (fun j => a.m.getD j 0) A z t) ∧
      x.settle a p.1 p.2 t = .ok (x.base.H * x.base.mvref *
        ∫ z in p.1..p.2, G.mv z * (G.surcharge z t - series G x.base.neig (fun j => a.m.getD j 0) A z t)) := by
    intro t ht p p0 pp p1
    have tt := hw.times t ht
    obtain ⟨u', b, k1, k2, k3, k4⟩ := C82_outputs_agree h hM h0 p.1 p.2 t p0 pp p1 tt.1 tt.2 hlen hnone
    have e : ∀ z ∈ Set.uIcc p.1 p.2, u' z = series G x.base.neig (fun j => a.m.getD j 0) A z t := by
      intro z hz
      rw [Set.uIcc_of_le pp.le] at hz
      have e1 := k1 z (p0.trans hz.1) (hz.2.trans p1)
      rw [hpor z t (p0.trans hz.1) (hz.2.trans p1) tt.1 tt.2] at e1
      injection e1 with e1
      exact e1.symm
    refine ⟨b, k2, by rw [k3]; exact integral_congr e, ?_⟩
    rw [k4]
    congr 2
    exact integral_congr (fun z hz => by rw [e z hz])
  obtain ⟨tabs, ht⟩ := groups_ok (H := x.base.H) (g := x.column a) [("_data_por", x.por a), ("_data_porwell", x.porwell a)]
    [("_data_avp", fun p t => x.avp a p.1 p.2 t)] [("_data_set", fun p t => x.settle a p.1 p.2 t)] hw
    (fun t t0 t1 => by obtain ⟨c, e, _⟩ := hcol t t0 t1; exact ⟨c, e⟩)
    (fun j hj t ht z z0 z1 => by
      have tt := hw.times t ht
      simp only [List.mem_cons, List.not_mem_nil, or_false] at hj
      rcases hj with rfl | rfl
      · exact ⟨_, hpor z t z0 z1 tt.1 tt.2⟩
      · exact ⟨_, hwell z t z0 z1 tt.1 tt.2 (hstep t ht).1 (hstep t ht).2⟩)
    (fun j hj t ht p p0 pp p1 => by
      obtain ⟨b, k1, k2, k3⟩ := agree t ht p p0 pp p1
      simp only [List.mem_append, List.mem_cons, List.not_mem_nil, or_false] at hj
      rcases hj with rfl | rfl
      · exact ⟨_, k1⟩
      · exact ⟨_, k3⟩)
  have ht' : x.output a w = .ok tabs := ht
  obtain ⟨_, hT⟩ := C235_tables x a w tabs ht'
  refine ⟨tabs, series G x.base.neig (fun j => a.m.getD j 0) A, fun z t => (x.porwell a z t).toOption.getD 0, ht', hpor,
    fun z t z0 z1 t0 t1 n1 n2 => by
      show _ = Except.ok ((x.porwell a z t).toOption.getD 0)
      rw [hwell z t z0 z1 t0 t1 n1 n2]; rfl, fun T hm => ?_⟩
  obtain ⟨q1, q2, q3, q4⟩ := hT T hm
  refine ⟨fun n => tableZ_mem (q1 n) ?_, fun n => tableZ_mem (q2 n) ?_, fun n => tableP_mem (q3 n) ?_, fun n => tableP_mem (q4 n) ?_⟩
  · intro zs hz t ht z hzz c hc
    rw [hpor z t (hw.z zs hz z hzz).1 (hw.z zs hz z hzz).2 (hw.times t ht).1 (hw.times t ht).2] at hc
    exact (Except.ok.inj hc).symm
  · intro zs hz t ht z hzz c hc
    show c = (x.porwell a z t).toOption.getD 0
    rw [hc]; rfl
  · intro ps hp t ht p hpp c hc
    have k := (hw.avg ps hp).2 p hpp
    obtain ⟨b, k1, k2, k3⟩ := agree t ht p k.1 k.2.1 k.2.2
    rw [k1] at hc
    cases hc
    exact k2
  · intro ps hp t ht p hpp c hc
    have k := (hw.set ps hp).2 p hpp
    obtain ⟨b, k1, k2, k3⟩ := agree t ht p k.1 k.2.1 k.2.2
    rw [k3] at hc
    exact (Except.ok.inj hc).symm

/-! ## speccon1d_vrc -/

set_option maxHeartbeats 1000000 in
/-- **C236** a finished run of speccon1d_vrc has the tables of the outputs asked for. -/
theorem C236_tables (x : VRC) (a : VRCArrays) (w : Wanted) (tabs : List Table) (h : x.output a w = .ok tabs) :
    tabs.map Table.name = (if w.z.isSome then ["_data_por", "_data_pors", "_data_porc"] else [])
      ++ (if w.avgPairs.isSome then ["_data_avp", "_data_avps", "_data_avpc"] else []) ++ (if w.setPairs.isSome then ["_data_set"] else []) ∧
    ∀ T ∈ tabs, (T.name = "_data_por" → TableZ x.base.H w T (fun z t c => x.por a z t = .ok c)) ∧
      (T.name = "_data_pors" → TableZ x.base.H w T (fun z t c => x.pors a z t = .ok c)) ∧
      (T.name = "_data_porc" → TableZ x.base.H w T (fun z t c => x.porc a z t = .ok c)) ∧
      (T.name = "_data_avp" → TableP x.base.H w w.avgPairs w.avgIdx T (fun p t c => x.avp a p.1 p.2 t = .ok c)) ∧
      (T.name = "_data_avps" → TableP x.base.H w w.avgPairs w.avgIdx T (fun p t c => x.avpart a 0 p.1 p.2 t = .ok c)) ∧
      (T.name = "_data_avpc" → TableP x.base.H w w.avgPairs w.avgIdx T (fun p t c => x.avpart a 1 p.1 p.2 t = .ok c)) ∧
      (T.name = "_data_set" → TableP x.base.H w w.setPairs w.setIdx T (fun p t c => x.settle a p.1 p.2 t = .ok c)) := by
  unfold VRC.output at h
  obtain ⟨hn, hT⟩ := groups_inv h
  refine ⟨hn, fun T hm => ?_⟩
  have := hT T hm
  simp only [List.mem_cons, List.not_mem_nil, or_false, exists_eq_left, exists_eq_or_imp] at this
  rcases this with (⟨e, k⟩ | ⟨e, k⟩ | ⟨e, k⟩) | (⟨e, k⟩ | ⟨e, k⟩ | ⟨e, k⟩) | ⟨e, k⟩ <;> rw [e] <;>
    refine ⟨fun n => ?_, fun n => ?_, fun n => ?_, fun n => ?_, fun n => ?_, fun n => ?_, fun n => ?_⟩ <;>
    first | exact absurd n (by decide) | exact k

/-- The run finishes, and its tables show three pressures - soil, column and their area average - with the averages over depth and the
settlement that belong to them. -/
theorem C236_values {x : VRC} {S : Set ℝ} {s tend : ℝ} {G : Ground} {C : Column} {a : VRCArrays} {w : Wanted} (h : VRCInput x S s tend G C) (hM : a.Made x)
    (h0 : ∀ i, i < a.m.length → a.eigs i ≠ 0) (hw : w.Valid s tend)
    (hlen : ∀ l d, x.base.surchargeTime = some l → x.base.surchargeDepth = some d → d.length = l.length ∧ OmLen l x.base.surchargeOm)
    (hnone : x.base.surchargeDepth = none → x.base.surchargeTime = none) :
    ∃ (tabs : List Table) (u us uc : ℝ → ℝ → ℝ), x.output a w = .ok tabs ∧
      (∀ z t, 0 ≤ z → z ≤ 1 → s ≤ t → t ≤ tend → u z t = (1 - 1 / x.n ^ 2) * us z t + 1 / x.n ^ 2 * uc z t) ∧
      ∀ T ∈ tabs, (T.name = "_data_por" → TableZ x.base.H w T (fun z t c => c = u z t)) ∧
        (T.name = "_data_pors" → TableZ x.base.H w T (fun z t c => c = us z t)) ∧
        (T.name = "_data_porc" → TableZ x.base.H w T (fun z t c => c = uc z t)) ∧
        (T.name = "_data_avp" → TableP x.base.H w w.avgPairs w.avgIdx T (fun p t c => c * (p.2 - p.1) = ∫ z in p.1..p.2, u z t)) ∧
        (T.name = "_data_avps" → TableP x.base.H w w.avgPairs w.avgIdx T (fun p t c => c * (p.2 - p.1) = ∫ z in p.1..p.2, us z t)) ∧
        (T.name = "_data_avpc" → TableP x.base.H w w.avgPairs w.avgIdx T (fun p t c => c * (p.2 - p.1) = ∫ z in p.1..p.2, uc z t)) ∧
        (T.name = "_data_set" → TableP x.base.H w w.setPairs w.setIdx T (fun p t c =>
          c = x.base.H * x.base.mvref * ∫ z in p.1..p.2, G.mv z * (G.surcharge z t - u z t))) := by
  obtain ⟨A, hcol, _⟩ := vrc_core h hM h0
  have hall := fun (z t : ℝ) (z0 : 0 ≤ z) (z1 : z ≤ 1) (t0 : s ≤ t) (t1 : t ≤ tend) => C92_average h hM h0 z t z0 z1 t0 t1
  set u : ℝ → ℝ → ℝ := fun z t => (x.por a z t).toOption.getD 0 with hu
  set us : ℝ → ℝ → ℝ := fun z t => (x.pors a z t).toOption.getD 0 with hus
  set uc : ℝ → ℝ → ℝ := fun z t => (x.porc a z t).toOption.getD 0 with huc
  have hok : ∀ z t, 0 ≤ z → z ≤ 1 → s ≤ t → t ≤ tend → x.por a z t = .ok (u z t) ∧ x.pors a z t = .ok (us z t) ∧ x.porc a z t = .ok (uc z t) ∧
      u z t = (1 - 1 / x.n ^ 2) * us z t + 1 / x.n ^ 2 * uc z t := by
    intro z t z0 z1 t0 t1
    obtain ⟨p, q, r, e1, e2, e3, e4⟩ := hall z t z0 z1 t0 t1
    rw [hu, hus, huc]
    dsimp only
    rw [e1, e2, e3]
    exact ⟨rfl, rfl, rfl, e4⟩
  have congr' : ∀ {f f' : ℝ → ℝ} {p : ℝ × ℝ}, p.1 < p.2 → (∀ z, p.1 ≤ z → z ≤ p.2 → f z = f' z) → (∫ z in p.1..p.2, f z) = ∫ z in p.1..p.2, f' z := by
    intro f f' p pp hf
    refine integral_congr fun z hz => ?_
    rw [Set.uIcc_of_le pp.le] at hz
    exact hf z hz.1 hz.2
  have agree : ∀ t ∈ w.tvals, ∀ p : ℝ × ℝ, 0 ≤ p.1 → p.1 < p.2 → p.2 ≤ 1 →
      (∃ b, x.avp a p.1 p.2 t = .ok b ∧ b * (p.2 - p.1) = ∫ z in p.1..p.2, u z t) ∧
      (∃ b, x.avpart a 0 p.1 p.2 t = .ok b ∧ b * (p.2 - p.1) = ∫ z in p.1..p.2, us z t) ∧
      (∃ b, x.avpart a 1 p.1 p.2 t = .ok b ∧ b * (p.2 - p.1) = ∫ z in p.1..p.2, uc z t) ∧
      x.settle a p.1 p.2 t = .ok (x.base.H * x.base.mvref * ∫ z in p.1..p.2, G.mv z * (G.surcharge z t - u z t)) := by
    intro t ht p p0 pp p1
    have tt := hw.times t ht
    obtain ⟨u', b, k1, k2, k3, k4⟩ := C91_outputs_agree h hM h0 p.1 p.2 t p0 pp p1 tt.1 tt.2 hlen hnone
    obtain ⟨u0, b0, l1, l2, l3⟩ := C92_means h hM h0 0 p.1 p.2 t p0 pp p1 tt.1 tt.2
    obtain ⟨u1, b1, m1, m2, m3⟩ := C92_means h hM h0 1 p.1 p.2 t p0 pp p1 tt.1 tt.2
    have e : ∀ z, p.1 ≤ z → z ≤ p.2 → u' z = u z t ∧ u0 z = us z t ∧ u1 z = uc z t := by
      intro z h1 h2
      have o := hok z t (p0.trans h1) (h2.trans p1) tt.1 tt.2
      have e1 := k1 z (p0.trans h1) (h2.trans p1)
      have e2 : x.pors a z t = _ := l1 z (p0.trans h1) (h2.trans p1)
      have e3 : x.porc a z t = _ := m1 z (p0.trans h1) (h2.trans p1)
      rw [o.1] at e1
      rw [o.2.1] at e2
      rw [o.2.2.1] at e3
      exact ⟨(Except.ok.inj e1).symm, (Except.ok.inj e2).symm, (Except.ok.inj e3).symm⟩
    refine ⟨⟨b, k2, by rw [k3]; exact congr' pp fun z h1 h2 => (e z h1 h2).1⟩, ⟨b0, l2, by rw [l3]; exact congr' pp fun z h1 h2 => (e z h1 h2).2.1⟩,
      ⟨b1, m2, by rw [m3]; exact congr' pp fun z h1 h2 => (e z h1 h2).2.2⟩, ?_⟩
    rw [k4]
    congr 2
    exact congr' pp (fun z h1 h2 => by rw [(e z h1 h2).1])
  obtain ⟨tabs, ht⟩ := groups_ok (H := x.base.H) (g := x.column a) [("_data_por", x.por a), ("_data_pors", x.pors a), ("_data_porc", x.porc a)]
    [("_data_avp", fun p t => x.avp a p.1 p.2 t), ("_data_avps", fun p t => x.avpart a 0 p.1 p.2 t), ("_data_avpc", fun p t => x.avpart a 1 p.1 p.2 t)]
    [("_data_set", fun p t => x.settle a p.1 p.2 t)] hw
    (fun t t0 t1 => by obtain ⟨c, e, _⟩ := hcol t t0 t1; exact ⟨c, e⟩)
    (fun j hj t ht z z0 z1 => by
      have o := hok z t z0 z1 (hw.times t ht).1 (hw.times t ht).2
      simp only [List.mem_cons, List.not_mem_nil, or_false] at hj
      rcases hj with rfl | rfl | rfl
      · exact ⟨_, o.1⟩
      · exact ⟨_, o.2.1⟩
      · exact ⟨_, o.2.2.1⟩)
    (fun j hj t ht p p0 pp p1 => by
      obtain ⟨⟨b, k1, _⟩, ⟨b0, k2, _⟩, ⟨b1, k3, _⟩, k4⟩ := agree t ht p p0 pp p1
      simp only [List.mem_append, List.mem_cons, List.not_mem_nil, or_false] at hj
      rcases hj with (rfl | rfl | rfl) | rfl
      · exact ⟨_, k1⟩
      · exact ⟨_, k2⟩
      · exact ⟨_, k3⟩
      · exact ⟨_, k4⟩)
  have ht' : x.output a w = .ok tabs := ht
  obtain ⟨_, hT⟩ := C236_tables x a w tabs ht'
  refine ⟨tabs, u, us, uc, ht', fun z t z0 z1 t0 t1 => (hok z t z0 z1 t0 t1).2.2.2, fun T hm => ?_⟩
  obtain ⟨q1, q2, q3, q4, q5, q6, q7⟩ := hT T hm
  have inj : ∀ {e : Except PyErr ℝ} {v c : ℝ}, e = .ok v → e = .ok c → c = v := by
    intro e v c h1 h2
    rw [h1] at h2
    exact (Except.ok.inj h2).symm
  have av : ∀ {e : Except PyErr ℝ} {c d I : ℝ}, (∃ b, e = .ok b ∧ b * d = I) → e = .ok c → c * d = I := by
    rintro e c d I ⟨b, h1, h2⟩ h3
    rw [inj h1 h3]
    exact h2
  refine ⟨fun n => tableZ_mem (q1 n) ?_, fun n => tableZ_mem (q2 n) ?_, fun n => tableZ_mem (q3 n) ?_, fun n => tableP_mem (q4 n) ?_,
    fun n => tableP_mem (q5 n) ?_, fun n => tableP_mem (q6 n) ?_, fun n => tableP_mem (q7 n) ?_⟩
  · exact fun zs hz t ht z hzz c hc => inj (hok z t (hw.z zs hz z hzz).1 (hw.z zs hz z hzz).2 (hw.times t ht).1 (hw.times t ht).2).1 hc
  · exact fun zs hz t ht z hzz c hc => inj (hok z t (hw.z zs hz z hzz).1 (hw.z zs hz z hzz).2 (hw.times t ht).1 (hw.times t ht).2).2.1 hc
  · exact fun zs hz t ht z hzz c hc => inj (hok z t (hw.z zs hz z hzz).1 (hw.z zs hz z hzz).2 (hw.times t ht).1 (hw.times t ht).2).2.2.1 hc
  · exact fun ps hp t ht p hpp c hc => have k := (hw.avg ps hp).2 p hpp; av (agree t ht p k.1 k.2.1 k.2.2).1 hc
  · exact fun ps hp t ht p hpp c hc => have k := (hw.avg ps hp).2 p hpp; av (agree t ht p k.1 k.2.1 k.2.2).2.1 hc
  · exact fun ps hp t ht p hpp c hc => have k := (hw.avg ps hp).2 p hpp; av (agree t ht p k.1 k.2.1 k.2.2).2.2.1 hc
  · exact fun ps hp t ht p hpp c hc => have k := (hw.set ps hp).2 p hpp; inj (agree t ht p k.1 k.2.1 k.2.2).2.2.2 hc

/-! ## speccon1d_unsat -/

set_option maxHeartbeats 1000000 in
/-- **C237** a finished run of speccon1d_unsat has the tables of the outputs asked for. -/
theorem C237_tables (x : UnsatIn) (a : UnsatArrays) (w : Wanted) (tabs : List Table) (h : x.output a w = .ok tabs) :
    tabs.map Table.name = (if w.z.isSome then ["_data_porw", "_data_pora"] else [])
      ++ (if w.avgPairs.isSome then ["_data_avpw", "_data_avpa"] else []) ++ (if w.setPairs.isSome then ["_data_set", "_data_setw", "_data_seta"] else []) ∧
    ∀ T ∈ tabs, (T.name = "_data_porw" → TableZ x.H w T (fun z t c => x.porw a z t = .ok c)) ∧
      (T.name = "_data_pora" → TableZ x.H w T (fun z t c => x.pora a z t = .ok c)) ∧
      (T.name = "_data_avpw" → TableP x.H w w.avgPairs w.avgIdx T (fun p t c => x.avpw a p.1 p.2 t = .ok c)) ∧
      (T.name = "_data_avpa" → TableP x.H w w.avgPairs w.avgIdx T (fun p t c => x.avpa a p.1 p.2 t = .ok c)) ∧
      (T.name = "_data_set" → TableP x.H w w.setPairs w.setIdx T (fun p t c => x.settle a p.1 p.2 t = .ok c)) ∧
      (T.name = "_data_setw" → TableP x.H w w.setPairs w.setIdx T (fun p t c => x.setw a p.1 p.2 t = .ok c)) ∧
      (T.name = "_data_seta" → TableP x.H w w.setPairs w.setIdx T (fun p t c => x.seta a p.1 p.2 t = .ok c)) := by
  unfold UnsatIn.output at h
  obtain ⟨hn, hT⟩ := groups_inv h
  refine ⟨hn, fun T hm => ?_⟩
  have := hT T hm
  simp only [List.mem_cons, List.not_mem_nil, or_false, exists_eq_left, exists_eq_or_imp] at this
  rcases this with (⟨e, k⟩ | ⟨e, k⟩) | (⟨e, k⟩ | ⟨e, k⟩) | (⟨e, k⟩ | ⟨e, k⟩ | ⟨e, k⟩) <;> rw [e] <;>
    refine ⟨fun n => ?_, fun n => ?_, fun n => ?_, fun n => ?_, fun n => ?_, fun n => ?_, fun n => ?_⟩ <;>
    first | exact absurd n (by decide) | exact k

/-- The run finishes, and its tables show one pressure of the water and one of the air, with the averages and the total settlement that belong
to them; the split of the settlement into water and air is off by the volume change of the air due to suction. -/
theorem C237_values {x : UnsatIn} {S : Set ℝ} {s tend : ℝ} {U : Unsat} {a : UnsatArrays} {w : Wanted} (h : UnsatInput x S s tend U) (hM : a.Made x)
    (h0 : ∀ i, i < 2 * x.neig → a.eigs i ≠ 0) (hw : w.Valid s tend) (d1 d2 : PolyLine ℝ)
    (e1 : lineSub x.m2w x.m1kw = .ok d1) (p1 : Profile S d1 (fun z => U.m2w z - U.m1kw z))
    (e2 : lineSub x.m2a x.m1ka = .ok d2) (p2 : Profile S d2 (fun z => U.m2a z - U.m1ka z))
    (hlen : ∀ l d, x.surchargeTime = some l → x.surchargeDepth = some d → d.length = l.length ∧ OmLen l x.surchargeOm)
    (hnone : x.surchargeDepth = none → x.surchargeTime = none) :
    ∃ (tabs : List Table) (uw ua : ℝ → ℝ → ℝ), x.output a w = .ok tabs ∧
      (∀ z t, 0 ≤ z → z ≤ 1 → s ≤ t → t ≤ tend → x.porw a z t = .ok (uw z t) ∧ x.pora a z t = .ok (ua z t)) ∧
      ∀ T ∈ tabs, (T.name = "_data_porw" → TableZ x.H w T (fun z t c => c = uw z t)) ∧
        (T.name = "_data_pora" → TableZ x.H w T (fun z t c => c = ua z t)) ∧
        (T.name = "_data_avpw" → TableP x.H w w.avgPairs w.avgIdx T (fun p t c => c * (p.2 - p.1) = ∫ z in p.1..p.2, uw z t)) ∧
        (T.name = "_data_avpa" → TableP x.H w w.avgPairs w.avgIdx T (fun p t c => c * (p.2 - p.1) = ∫ z in p.1..p.2, ua z t)) ∧
        (T.name = "_data_set" → TableP x.H w w.setPairs w.setIdx T (fun p t c => c = x.H * x.mvref *
          ∫ z in p.1..p.2, (U.strainW (U.surcharge z t) (uw z t) (ua z t) z + U.strainA (U.surcharge z t) (uw z t) (ua z t) z))) ∧
        (T.name = "_data_setw" → TableP x.H w w.setPairs w.setIdx T (fun p t c => c = x.H * x.mvref *
          ((∫ z in p.1..p.2, U.strainW (U.surcharge z t) (uw z t) (ua z t) z) - ∫ z in p.1..p.2, U.m2a z * uw z t))) ∧
        (T.name = "_data_seta" → TableP x.H w w.setPairs w.setIdx T (fun p t c => c = x.H * x.mvref *
          ((∫ z in p.1..p.2, U.strainA (U.surcharge z t) (uw z t) (ua z t) z) + ∫ z in p.1..p.2, U.m2a z * uw z t))) := by
  obtain ⟨A, B, hcol, _⟩ := unsat_core h hM h0
  set uw : ℝ → ℝ → ℝ := fun z t => (x.porw a z t).toOption.getD 0 with huw
  set ua : ℝ → ℝ → ℝ := fun z t => (x.pora a z t).toOption.getD 0 with hua
  have hok : ∀ z t, 0 ≤ z → z ≤ 1 → s ≤ t → t ≤ tend → x.porw a z t = .ok (uw z t) ∧ x.pora a z t = .ok (ua z t) := by
    intro z t z0 z1 t0 t1
    obtain ⟨c, e, eA, eC⟩ := hcol t t0 t1
    obtain ⟨k1, k2⟩ := unsat_por h hM t0 t1 e eA eC z z0 z1
    rw [huw, hua]
    dsimp only
    rw [k1, k2]
    exact ⟨rfl, rfl⟩
  have congr' : ∀ {f f' : ℝ → ℝ} {p : ℝ × ℝ}, p.1 < p.2 → (∀ z, p.1 ≤ z → z ≤ p.2 → f z = f' z) → (∫ z in p.1..p.2, f z) = ∫ z in p.1..p.2, f' z := by
    intro f f' p pp hf
    refine integral_congr fun z hz => ?_
    rw [Set.uIcc_of_le pp.le] at hz
    exact hf z hz.1 hz.2
  have agree : ∀ t ∈ w.tvals, ∀ p : ℝ × ℝ, 0 ≤ p.1 → p.1 < p.2 → p.2 ≤ 1 →
      (∃ b, x.avpw a p.1 p.2 t = .ok b ∧ b * (p.2 - p.1) = ∫ z in p.1..p.2, uw z t) ∧
      (∃ b, x.avpa a p.1 p.2 t = .ok b ∧ b * (p.2 - p.1) = ∫ z in p.1..p.2, ua z t) ∧
      x.settle a p.1 p.2 t = .ok (x.H * x.mvref *
          ∫ z in p.1..p.2, (U.strainW (U.surcharge z t) (uw z t) (ua z t) z + U.strainA (U.surcharge z t) (uw z t) (ua z t) z)) ∧
      x.setw a p.1 p.2 t = .ok (x.H * x.mvref *
          ((∫ z in p.1..p.2, U.strainW (U.surcharge z t) (uw z t) (ua z t) z) - ∫ z in p.1..p.2, U.m2a z * uw z t)) ∧
      x.seta a p.1 p.2 t = .ok (x.H * x.mvref *
          ((∫ z in p.1..p.2, U.strainA (U.surcharge z t) (uw z t) (ua z t) z) + ∫ z in p.1..p.2, U.m2a z * uw z t)) := by
    intro t ht p p0 pp p1'
    have tt := hw.times t ht
    obtain ⟨vw, va, mw, ma, r1, r2, r3, r4, r5, r6⟩ := C95_outputs_agree h hM h0 d1 d2 e1 p1 e2 p2 p.1 p.2 t p0 pp p1' tt.1 tt.2 hlen hnone
    obtain ⟨vw', va', r1', r7, r8⟩ := C96_error h hM h0 d1 d2 e1 p1 e2 p2 p.1 p.2 t p0 pp p1' tt.1 tt.2 hlen hnone
    have e : ∀ z, p.1 ≤ z → z ≤ p.2 → vw z = uw z t ∧ va z = ua z t ∧ vw' z = uw z t ∧ va' z = ua z t := by
      intro z h1 h2
      have o := hok z t (p0.trans h1) (h2.trans p1') tt.1 tt.2
      have k := r1 z (p0.trans h1) (h2.trans p1')
      have k' := r1' z (p0.trans h1) (h2.trans p1')
      rw [o.1, o.2] at k k'
      exact ⟨(Except.ok.inj k.1).symm, (Except.ok.inj k.2).symm, (Except.ok.inj k'.1).symm, (Except.ok.inj k'.2).symm⟩
    refine ⟨⟨mw, r2, by rw [r3]; exact congr' pp fun z h1 h2 => (e z h1 h2).1⟩, ⟨ma, r4, by rw [r5]; exact congr' pp fun z h1 h2 => (e z h1 h2).2.1⟩, ?_, ?_, ?_⟩
    · rw [r6]
      congr 2
      exact congr' pp (fun z h1 h2 => by rw [(e z h1 h2).1, (e z h1 h2).2.1])
    · rw [r7]
      congr 3
      · exact congr' pp (fun z h1 h2 => by rw [(e z h1 h2).2.2.1, (e z h1 h2).2.2.2])
      · exact congr' pp (fun z h1 h2 => by rw [(e z h1 h2).2.2.1])
    · rw [r8]
      congr 3
      · exact congr' pp (fun z h1 h2 => by rw [(e z h1 h2).2.2.1, (e z h1 h2).2.2.2])
      · exact congr' pp (fun z h1 h2 => by rw [(e z h1 h2).2.2.1])
  obtain ⟨tabs, ht⟩ := groups_ok (H := x.H) (g := x.column a) [("_data_porw", x.porw a), ("_data_pora", x.pora a)]
    [("_data_avpw", fun p t => x.avpw a p.1 p.2 t), ("_data_avpa", fun p t => x.avpa a p.1 p.2 t)]
    [("_data_set", fun p t => x.settle a p.1 p.2 t), ("_data_setw", fun p t => x.setw a p.1 p.2 t), ("_data_seta", fun p t => x.seta a p.1 p.2 t)] hw
    (fun t t0 t1 => by obtain ⟨c, e, _⟩ := hcol t t0 t1; exact ⟨c, e⟩)
    (fun j hj t ht z z0 z1 => by
      have o := hok z t z0 z1 (hw.times t ht).1 (hw.times t ht).2
      simp only [List.mem_cons, List.not_mem_nil, or_false] at hj
      rcases hj with rfl | rfl
      · exact ⟨_, o.1⟩
      · exact ⟨_, o.2⟩)
    (fun j hj t ht p p0 pp p1 => by
      obtain ⟨⟨b, k1, _⟩, ⟨b0, k2, _⟩, k3, k4, k5⟩ := agree t ht p p0 pp p1
      simp only [List.mem_append, List.mem_cons, List.not_mem_nil, or_false] at hj
      rcases hj with (rfl | rfl) | (rfl | rfl | rfl)
      · exact ⟨_, k1⟩
      · exact ⟨_, k2⟩
      · exact ⟨_, k3⟩
      · exact ⟨_, k4⟩
      · exact ⟨_, k5⟩)
  have ht' : x.output a w = .ok tabs := ht
  obtain ⟨_, hT⟩ := C237_tables x a w tabs ht'
  refine ⟨tabs, uw, ua, ht', hok, fun T hm => ?_⟩
  obtain ⟨q1, q2, q3, q4, q5, q6, q7⟩ := hT T hm
  have inj : ∀ {e : Except PyErr ℝ} {v c : ℝ}, e = .ok v → e = .ok c → c = v := by
    intro e v c h1 h2
    rw [h1] at h2
    exact (Except.ok.inj h2).symm
  have av : ∀ {e : Except PyErr ℝ} {c d I : ℝ}, (∃ b, e = .ok b ∧ b * d = I) → e = .ok c → c * d = I := by
    rintro e c d I ⟨b, h1, h2⟩ h3
    rw [inj h1 h3]
    exact h2
  refine ⟨fun n => tableZ_mem (q1 n) ?_, fun n => tableZ_mem (q2 n) ?_, fun n => tableP_mem (q3 n) ?_, fun n => tableP_mem (q4 n) ?_,
    fun n => tableP_mem (q5 n) ?_, fun n => tableP_mem (q6 n) ?_, fun n => tableP_mem (q7 n) ?_⟩
  · exact fun zs hz t ht z hzz c hc => inj (hok z t (hw.z zs hz z hzz).1 (hw.z zs hz z hzz).2 (hw.times t ht).1 (hw.times t ht).2).1 hc
  · exact fun zs hz t ht z hzz c hc => inj (hok z t (hw.z zs hz z hzz).1 (hw.z zs hz z hzz).2 (hw.times t ht).1 (hw.times t ht).2).2 hc
  · exact fun ps hp t ht p hpp c hc => have k := (hw.avg ps hp).2 p hpp; av (agree t ht p k.1 k.2.1 k.2.2).1 hc
  · exact fun ps hp t ht p hpp c hc => have k := (hw.avg ps hp).2 p hpp; av (agree t ht p k.1 k.2.1 k.2.2).2.1 hc
  · exact fun ps hp t ht p hpp c hc => have k := (hw.set ps hp).2 p hpp; inj (agree t ht p k.1 k.2.1 k.2.2).2.2.1 hc
  · exact fun ps hp t ht p hpp c hc => have k := (hw.set ps hp).2 p hpp; inj (agree t ht p k.1 k.2.1 k.2.2).2.2.2.1 hc
  · exact fun ps hp t ht p hpp c hc => have k := (hw.set ps hp).2 p hpp; inj (agree t ht p k.1 k.2.1 k.2.2).2.2.2.2 hc

/-- Output wanted at depths and for pairs of depths. -/
noncomputable def Ex.wantedPairs : Wanted := { Ex.wanted with avgPairs := some [(0, 1/2)] }

theorem Ex.wantedPairs_ok : Ex.wantedPairs.Valid 0 5 where
  times := Ex.wanted_ok.times
  z := Ex.wanted_ok.z
  avg ps h := by
    cases h
    refine ⟨by simp, fun p hp => ?_⟩
    simp only [List.mem_cons, List.not_mem_nil, or_false] at hp
    rw [hp]; norm_num
  set := Ex.wanted_ok.set
  idx := Ex.wanted_ok.idx

/-- C235 on the input with a well. -/
example : ∃ (a : VRWArrays) (tabs : List Table), Ex.wellInput.output a Ex.wantedPairs = .ok tabs ∧
    tabs.map Table.name = ["_data_por", "_data_porwell", "_data_avp", "_data_set"] := by
  obtain ⟨⟨a, hM⟩, hpos⟩ := Ex.well_solvable
  obtain ⟨tabs, u, v, h, _⟩ := C235_values Ex.well_ok hM (fun i hi => (hpos a hM i hi).ne') Ex.wantedPairs_ok
    (fun t ht => by
      have h2 : 0 < t ∧ t ≤ 5 := by
        simp only [Ex.wantedPairs, Ex.wanted, List.mem_cons, List.not_mem_nil, or_false] at ht
        rcases ht with rfl | rfl | rfl | rfl <;> norm_num
      exact ⟨Ex.load_noStep t h2.1 h2.2, Ex.load_noStep t h2.1 h2.2⟩)
    (fun l d h1 h2 => by cases h1; cases h2; exact ⟨rfl, rfl⟩) (fun h => by cases h)
  exact ⟨a, tabs, h, (C235_tables _ _ _ _ h).1⟩

/-- C236 on the input with a column. -/
example : ∃ (a : VRCArrays) (tabs : List Table), Ex.columnInput.output a Ex.wantedPairs = .ok tabs ∧
    tabs.map Table.name = ["_data_por", "_data_pors", "_data_porc", "_data_avp", "_data_avps", "_data_avpc", "_data_set"] := by
  obtain ⟨⟨a, hM⟩, hpos⟩ := Ex.column_solvable
  obtain ⟨tabs, u, us, uc, h, _⟩ := C236_values Ex.column_ok hM (fun i hi => (hpos a hM i hi).ne') Ex.wantedPairs_ok
    (fun l d h1 h2 => by cases h1; cases h2; exact ⟨rfl, rfl⟩) (fun h => by cases h)
  exact ⟨a, tabs, h, (C236_tables _ _ _ _ h).1⟩

/-- C237 on the unsaturated input. -/
example : ∃ (a : UnsatArrays) (tabs : List Table), Ex.unsatInput.output a Ex.wantedPairs = .ok tabs ∧
    tabs.map Table.name = ["_data_porw", "_data_pora", "_data_avpw", "_data_avpa", "_data_set", "_data_setw", "_data_seta"] := by
  obtain ⟨a, hM, h0⟩ := Ex.unsat_solved
  obtain ⟨tabs, uw, ua, h, _⟩ := C237_values Ex.unsat_ok hM h0 Ex.wantedPairs_ok _ _ (Ex.const_sub 2 3) (Ex.const_profile _) (Ex.const_sub 1 4)
    (Ex.const_profile _) (fun l d h1 h2 => by cases h1; cases h2; exact ⟨rfl, rfl⟩) (fun h => by cases h)
  exact ⟨a, tabs, h, (C237_tables _ _ _ _ h).1⟩

end Geotecha.Speccon
