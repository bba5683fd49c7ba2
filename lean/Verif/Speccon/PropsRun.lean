import Verif.Speccon.RunIdx
import Verif.Speccon.PropsEigen

/-! # C228: `make_all` of speccon1d_vr, from the input to the output tables -/

set_option linter.unusedVariables false
set_option autoImplicit false
open Real intervalIntegral MeasureTheory Filter Topology
namespace Geotecha.Spec

/-- Every row of the table holds, for the time it is labelled with and each of the depths `ds`, a value `c` with `V d t c`. -/
def Shows {D : Type} (times : List ℝ) (data : List (List ℝ)) (ds : List D) (V : D → ℝ → ℝ → Prop) : Prop :=
  List.Forall₂ (fun t row => List.Forall₂ (fun d c => V d t c) ds row) times data

end Geotecha.Spec

namespace Geotecha.Speccon
open Geotecha.Spec Geotecha.Piecewise

variable {x : VR} {S : Set ℝ} {s tend : ℝ} {G : Ground} {a : VRArrays} {w : Wanted}

/-- The output wanted makes sense for a run from time `s` to time `tend`. -/
structure Wanted.Valid (w : Wanted) (s tend : ℝ) : Prop where
  times : ∀ t ∈ w.tvals, s ≤ t ∧ t ≤ tend
  z : ∀ zs, w.z = some zs → ∀ z ∈ zs, 0 ≤ z ∧ z ≤ 1
  avg : ∀ ps, w.avgPairs = some ps → ps ≠ [] ∧ ∀ p ∈ ps, 0 ≤ p.1 ∧ p.1 < p.2 ∧ p.2 ≤ 1
  set : ∀ ps, w.setPairs = some ps → ps ≠ [] ∧ ∀ p ∈ ps, 0 ≤ p.1 ∧ p.1 < p.2 ∧ p.2 ≤ 1
  idx : ∀ ix ∈ [w.zIdx, w.avgIdx, w.setIdx], ∃ pos, ix.positions w.tvals.length = .ok pos

theorem cols_get {cols : List (ℕ → ℝ)} {f : ℝ → Except PyErr (ℕ → ℝ)} {tvals : List ℝ} (h : tvals.mapM f = .ok cols) {k : ℕ} (hk : k < tvals.length) :
    f (tvals.getD k 0) = .ok (cols.getD k 0) := by
  have hf := mapM_ok_inv h
  have h2 : k < cols.length := by rw [← hf.length_eq]; exact hk
  have := (List.forall₂_iff_get.1 hf).2 k hk h2
  simp only [List.get_eq_getElem] at this
  simpa [List.getD_eq_getElem?_getD, hk, h2] using this

/-- A table that was made shows the cells it was made of. -/
theorem mkTable_inv {D : Type} {name : String} {label : D → List ℝ} {f : D → ℝ → (ℕ → ℝ) → Except PyErr ℝ} {ds : List D} {tvals : List ℝ}
    {cols : List (ℕ → ℝ)} {ix : TIdx} {T : Table} {g : ℝ → Except PyErr (ℕ → ℝ)} (hc : tvals.mapM g = .ok cols)
    (h : mkTable name label f ds tvals cols ix = .ok T) :
    T.name = name ∧ T.levels = ds.map label ∧ ∃ pos, ix.positions tvals.length = .ok pos ∧ T.times = pos.map (fun k => tvals.getD k 0) ∧
      Shows T.times T.data ds (fun d t c => ∃ col, g t = .ok col ∧ f d t col = .ok c) := by
  unfold mkTable at h
  cases hp : ix.positions tvals.length with
  | error e => rw [hp] at h; cases h
  | ok pos =>
    rw [hp] at h
    change (pos.mapM (fun k => ds.mapM (fun d => f d (tvals.getD k 0) (cols.getD k 0))) >>= _) = _ at h
    cases hd : pos.mapM (fun k => ds.mapM (fun d => f d (tvals.getD k 0) (cols.getD k 0))) with
    | error e => rw [hd] at h; cases h
    | ok data =>
      rw [hd] at h
      cases h
      refine ⟨rfl, rfl, pos, rfl, rfl, ?_⟩
      unfold Shows
      rw [List.forall₂_map_left_iff]
      have hlt := (C229_picks tvals.length).2.2.2 ix pos hp
      have := mapM_ok_inv hd
      refine List.Forall₂.imp ?_ ((List.forall₂_and_left _ _).2 ⟨hlt, this⟩)
      rintro k row ⟨hk, hrow⟩
      exact (mapM_ok_inv hrow).imp (fun d c hdc => ⟨_, cols_get hc hk, hdc⟩)

/-- A table can be made when each of its cells can. -/
theorem mkTable_ok {D : Type} (name : String) (label : D → List ℝ) {f : D → ℝ → (ℕ → ℝ) → Except PyErr ℝ} {ds : List D} {tvals : List ℝ}
    {cols : List (ℕ → ℝ)} {ix : TIdx} {pos : List ℕ} {g : ℝ → Except PyErr (ℕ → ℝ)} (hc : tvals.mapM g = .ok cols)
    (hp : ix.positions tvals.length = .ok pos) (hf : ∀ t ∈ tvals, ∀ col, g t = .ok col → ∀ d ∈ ds, ∃ c, f d t col = .ok c) :
    ∃ T, mkTable name label f ds tvals cols ix = .ok T := by
  have hlt := (C229_picks tvals.length).2.2.2 ix pos hp
  obtain ⟨data, hd, _⟩ := mapM_ok_of (P := fun _ _ => True) (l := pos)
    (f := fun k => ds.mapM (fun d => f d (tvals.getD k 0) (cols.getD k 0))) (fun k hk => by
      obtain ⟨row, hr, _⟩ := mapM_ok_of (P := fun _ _ => True) (l := ds) (f := fun d => f d (tvals.getD k 0) (cols.getD k 0)) (fun d hd => by
        have hk := hlt k hk
        obtain ⟨c, e⟩ := hf (tvals.getD k 0) (by simp [List.getD_eq_getElem?_getD, hk]) _ (cols_get hc hk) d hd
        exact ⟨c, e, trivial⟩)
      exact ⟨row, hr, trivial⟩)
  unfold mkTable
  rw [hp]
  refine ⟨⟨name, pos.map (fun k => tvals.getD k 0), ds.map label, data⟩, ?_⟩
  change (pos.mapM (fun k => ds.mapM (fun d => f d (tvals.getD k 0) (cols.getD k 0))) >>= _) = _
  rw [hd]
  rfl

theorem por_of_col {z t : ℝ} {col : ℕ → ℝ} {bot} (e : x.vE (x.basis a.m a.eigs a.Igamv) a.v t = .ok col) (eb : x.normBot = .ok bot) :
    x.por a.m a.eigs a.v a.Igamv z t = dim1sinF a.m z t col (x.boundary bot) := by
  unfold VR.por
  rw [e, eb]; rfl

theorem avp_of_col {z1 z2 t : ℝ} {col : ℕ → ℝ} {bot} (e : x.vE (x.basis a.m a.eigs a.Igamv) a.v t = .ok col) (eb : x.normBot = .ok bot) :
    x.avp a.m a.eigs a.v a.Igamv z1 z2 t = dim1sinAvgF a.m z1 z2 t col (x.boundary bot) := by
  unfold VR.avp
  rw [e, eb]; rfl

theorem settle_of_col {z1 z2 t : ℝ} {col : ℕ → ℝ} {bot} (e : x.vE (x.basis a.m a.eigs a.Igamv) a.v t = .ok col) (eb : x.normBot = .ok bot) :
    x.settle a.m a.eigs a.v a.Igamv z1 z2 t = (do
        let q ← dim1sinIntegrateAf a.m z1 z2 t col (x.boundary bot) x.mv
        let l ← x.settleLoad z1 z2 t
        pure ((-q + l) * (x.H * x.mvref))) := by
  unfold VR.settle
  rw [e, eb]; rfl

/-- What a finished run leaves behind: at most three tables, in this order, each labelled with the selected times and showing the values
that `por`, `avp` and `settle` have there. -/
structure Finished (x : VR) (a : VRArrays) (w : Wanted) (tabs : List Table) : Prop where
  names : tabs.map Table.name = (if w.z.isSome then ["_data_por"] else []) ++ (if w.avgPairs.isSome then ["_data_avp"] else [])
    ++ (if w.setPairs.isSome then ["_data_set"] else [])
  por : ∀ T ∈ tabs, T.name = "_data_por" → ∃ zs pos, w.z = some zs ∧ w.zIdx.positions w.tvals.length = .ok pos ∧
    T.times = pos.map (fun k => w.tvals.getD k 0) ∧ T.levels = zs.map (fun z => [levelOf x.H w.RLzero z]) ∧
    Shows T.times T.data zs (fun z t c => x.por a.m a.eigs a.v a.Igamv z t = .ok c)
  avp : ∀ T ∈ tabs, T.name = "_data_avp" → ∃ ps pos, w.avgPairs = some ps ∧ w.avgIdx.positions w.tvals.length = .ok pos ∧
    T.times = pos.map (fun k => w.tvals.getD k 0) ∧ T.levels = ps.map (fun p => [levelOf x.H w.RLzero p.1, levelOf x.H w.RLzero p.2]) ∧
    Shows T.times T.data ps (fun p t c => x.avp a.m a.eigs a.v a.Igamv p.1 p.2 t = .ok c)
  set : ∀ T ∈ tabs, T.name = "_data_set" → ∃ ps pos, w.setPairs = some ps ∧ w.setIdx.positions w.tvals.length = .ok pos ∧
    T.times = pos.map (fun k => w.tvals.getD k 0) ∧ T.levels = ps.map (fun p => [levelOf x.H w.RLzero p.1, levelOf x.H w.RLzero p.2]) ∧
    Shows T.times T.data ps (fun p t c => x.settle a.m a.eigs a.v a.Igamv p.1 p.2 t = .ok c)

/-- One of the three parts of `make_output`. -/
theorem tablePart_inv {D : Type} {name : String} {label : D → List ℝ} {f : D → ℝ → (ℕ → ℝ) → Except PyErr ℝ} {ds : List D}
    {cols : List (ℕ → ℝ)} {ix : TIdx} {tabs : List Table} {tvals : List ℝ} {g : ℝ → Except PyErr (ℕ → ℝ)} (hc : tvals.mapM g = .ok cols)
    (h : (do let t ← mkTable name label f ds tvals cols ix; pure [t]) = Except.ok (ε := PyErr) tabs) :
    tabs.map Table.name = [name] ∧ ∀ T ∈ tabs, ∃ pos, ix.positions tvals.length = .ok pos ∧ T.times = pos.map (fun k => tvals.getD k 0) ∧
      T.levels = ds.map label ∧ Shows T.times T.data ds (fun d t c => ∃ col, g t = .ok col ∧ f d t col = .ok c) := by
  cases hm : mkTable name label f ds tvals cols ix with
  | error e => rw [hm] at h; cases h
  | ok T =>
    rw [hm] at h
    cases h
    obtain ⟨h1, h2, pos, h3, h4, h5⟩ := mkTable_inv hc hm
    refine ⟨by simp [h1], fun T' hT => ?_⟩
    rw [List.mem_singleton] at hT
    rw [hT]
    exact ⟨pos, h3, h4, h2, h5⟩

theorem shows_imp {D : Type} {ts : List ℝ} {data : List (List ℝ)} {ds : List D} {V V' : D → ℝ → ℝ → Prop} (h : Shows ts data ds V)
    (hv : ∀ d t c, V d t c → V' d t c) : Shows ts data ds V' :=
  List.Forall₂.imp (fun t row hr => hr.imp (fun d c => hv d t c)) h

theorem tablePor_inv {cols : List (ℕ → ℝ)} {tabs : List Table} (hc : x.columns a w.tvals = .ok cols) (h : x.tablePor a w cols = .ok tabs) :
    tabs.map Table.name = (if w.z.isSome then ["_data_por"] else []) ∧ ∀ T ∈ tabs, ∃ zs pos, w.z = some zs ∧
      w.zIdx.positions w.tvals.length = .ok pos ∧ T.times = pos.map (fun k => w.tvals.getD k 0) ∧
      T.levels = zs.map (fun z => [levelOf x.H w.RLzero z]) ∧ Shows T.times T.data zs (fun z t c => x.por a.m a.eigs a.v a.Igamv z t = .ok c) := by
  unfold VR.tablePor at h
  cases hz : w.z with
  | none => rw [hz] at h; cases h; simp
  | some zs =>
    rw [hz] at h
    dsimp only at h
    cases hb : x.normBot with
    | error e => rw [hb] at h; cases h
    | ok bot =>
      rw [hb] at h
      obtain ⟨h1, h2⟩ := tablePart_inv hc h
      refine ⟨by simpa using h1, fun T hT => ?_⟩
      obtain ⟨pos, a1, a2, a3, a4⟩ := h2 T hT
      refine ⟨zs, pos, rfl, a1, a2, a3, shows_imp a4 ?_⟩
      rintro z t c ⟨col, e1, e2⟩
      rw [por_of_col e1 hb]; exact e2

theorem tableAvp_inv {cols : List (ℕ → ℝ)} {tabs : List Table} (hc : x.columns a w.tvals = .ok cols) (h : x.tableAvp a w cols = .ok tabs) :
    tabs.map Table.name = (if w.avgPairs.isSome then ["_data_avp"] else []) ∧ ∀ T ∈ tabs, ∃ ps pos, w.avgPairs = some ps ∧
      w.avgIdx.positions w.tvals.length = .ok pos ∧ T.times = pos.map (fun k => w.tvals.getD k 0) ∧
      T.levels = ps.map (fun p => [levelOf x.H w.RLzero p.1, levelOf x.H w.RLzero p.2]) ∧
      Shows T.times T.data ps (fun p t c => x.avp a.m a.eigs a.v a.Igamv p.1 p.2 t = .ok c) := by
  unfold VR.tableAvp at h
  cases hz : w.avgPairs with
  | none => rw [hz] at h; cases h; simp
  | some ps =>
    rw [hz] at h
    cases ps with
    | nil => cases h
    | cons p ps =>
      dsimp only at h
      cases hb : x.normBot with
      | error e => rw [hb] at h; cases h
      | ok bot =>
        rw [hb] at h
        obtain ⟨h1, h2⟩ := tablePart_inv hc h
        refine ⟨by simpa using h1, fun T hT => ?_⟩
        obtain ⟨pos, a1, a2, a3, a4⟩ := h2 T hT
        refine ⟨p :: ps, pos, rfl, a1, a2, a3, shows_imp a4 ?_⟩
        rintro z t c ⟨col, e1, e2⟩
        rw [avp_of_col e1 hb]; exact e2

theorem tableSet_inv {cols : List (ℕ → ℝ)} {tabs : List Table} (hc : x.columns a w.tvals = .ok cols) (h : x.tableSet a w cols = .ok tabs) :
    tabs.map Table.name = (if w.setPairs.isSome then ["_data_set"] else []) ∧ ∀ T ∈ tabs, ∃ ps pos, w.setPairs = some ps ∧
      w.setIdx.positions w.tvals.length = .ok pos ∧ T.times = pos.map (fun k => w.tvals.getD k 0) ∧
      T.levels = ps.map (fun p => [levelOf x.H w.RLzero p.1, levelOf x.H w.RLzero p.2]) ∧
      Shows T.times T.data ps (fun p t c => x.settle a.m a.eigs a.v a.Igamv p.1 p.2 t = .ok c) := by
  unfold VR.tableSet at h
  cases hz : w.setPairs with
  | none => rw [hz] at h; cases h; simp
  | some ps =>
    rw [hz] at h
    cases ps with
    | nil => cases h
    | cons p ps =>
      dsimp only at h
      cases hb : x.normBot with
      | error e => rw [hb] at h; cases h
      | ok bot =>
        rw [hb] at h
        obtain ⟨h1, h2⟩ := tablePart_inv hc h
        refine ⟨by simpa using h1, fun T hT => ?_⟩
        obtain ⟨pos, a1, a2, a3, a4⟩ := h2 T hT
        refine ⟨p :: ps, pos, rfl, a1, a2, a3, shows_imp a4 ?_⟩
        rintro z t c ⟨col, e1, e2⟩
        rw [settle_of_col e1 hb]; exact e2

theorem name_of {tabs : List Table} {n : String} {b : Bool} (h : tabs.map Table.name = if b then [n] else []) : ∀ T ∈ tabs, T.name = n := by
  intro T hT
  have : T.name ∈ tabs.map Table.name := List.mem_map_of_mem hT
  rw [h] at this
  split_ifs at this <;> simp_all

/-- **C228** when `make_all` finishes, the output holds exactly the tables asked for, in the order pore pressure, average pore pressure,
settlement; the rows are labelled with the output times that the index attribute selects, the columns with the reduced levels of the depths
asked for, and the cell of a row and a column is the result of the solution at that time and that depth - whatever other times, depths or
tables were asked for. -/
theorem C228_tables (L : Linalg) (x : VR) (w : Wanted) (tabs : List Table) (h : x.makeAll L w = .ok tabs) :
    ∃ a, x.arrays L = .ok a ∧ Finished x a w tabs := by
  unfold VR.makeAll at h
  cases ha : x.arrays L with
  | error e => rw [ha] at h; cases h
  | ok a =>
    rw [ha] at h
    change (x.columns a w.tvals >>= _) = _ at h
    cases hc : x.columns a w.tvals with
    | error e => rw [hc] at h; cases h
    | ok cols =>
      rw [hc] at h
      change x.output a w cols = _ at h
      unfold VR.output at h
      cases h1 : x.tablePor a w cols with
      | error e => rw [h1] at h; cases h
      | ok t1 =>
        rw [h1] at h
        change (x.tableAvp a w cols >>= _) = _ at h
        cases h2 : x.tableAvp a w cols with
        | error e => rw [h2] at h; cases h
        | ok t2 =>
          rw [h2] at h
          change (x.tableSet a w cols >>= _) = _ at h
          cases h3 : x.tableSet a w cols with
          | error e => rw [h3] at h; cases h
          | ok t3 =>
            rw [h3] at h
            cases h
            obtain ⟨n1, p1⟩ := tablePor_inv hc h1
            obtain ⟨n2, p2⟩ := tableAvp_inv hc h2
            obtain ⟨n3, p3⟩ := tableSet_inv hc h3
            have q1 := name_of n1
            have q2 := name_of n2
            have q3 := name_of n3
            refine ⟨a, rfl, ⟨by simp only [List.map_append, n1, n2, n3], ?_, ?_, ?_⟩⟩
            · intro T hT hn
              simp only [List.mem_append] at hT
              rcases hT with (hT | hT) | hT
              · exact p1 T hT
              · rw [q2 T hT] at hn; exact absurd hn (by decide)
              · rw [q3 T hT] at hn; exact absurd hn (by decide)
            · intro T hT hn
              simp only [List.mem_append] at hT
              rcases hT with (hT | hT) | hT
              · rw [q1 T hT] at hn; exact absurd hn (by decide)
              · exact p2 T hT
              · rw [q3 T hT] at hn; exact absurd hn (by decide)
            · intro T hT hn
              simp only [List.mem_append] at hT
              rcases hT with (hT | hT) | hT
              · rw [q1 T hT] at hn; exact absurd hn (by decide)
              · rw [q2 T hT] at hn; exact absurd hn (by decide)
              · exact p3 T hT

/-- The two results of a table that the same run shows for the same time and depth are the same. -/
theorem shows_get {D : Type} {ts : List ℝ} {data : List (List ℝ)} {ds : List D} {V : D → ℝ → ℝ → Prop} (h : Shows ts data ds V) :
    data.length = ts.length ∧ ∀ k i (hk : k < ts.length) (hi : i < ds.length), ∃ (hk' : k < data.length) (hi' : i < data[k].length),
      V ds[i] ts[k] (data[k][i]) := by
  refine ⟨(List.Forall₂.length_eq h).symm, fun k i hk hi => ?_⟩
  have hk' : k < data.length := by rw [← List.Forall₂.length_eq h]; exact hk
  have h1 := (List.forall₂_iff_get.1 h).2 k hk hk'
  simp only [List.get_eq_getElem] at h1
  have hi' : i < data[k].length := by rw [← h1.length_eq]; exact hi
  have h2 := (List.forall₂_iff_get.1 h1).2 i hi hi'
  simp only [List.get_eq_getElem] at h2
  exact ⟨hk', hi', h2⟩

/-- **C228** the pore pressure reported for a depth and a time does not depend on the other output asked for: two runs of the same input
that both report it, in whatever rows and columns of whatever tables, report the same value. -/
theorem C228_independent (L : Linalg) (x : VR) (w w' : Wanted) (tabs tabs' : List Table) (h : x.makeAll L w = .ok tabs)
    (h' : x.makeAll L w' = .ok tabs') (T T' : Table) (hT : T ∈ tabs) (hT' : T' ∈ tabs') (hn : T.name = T'.name)
    (zs zs' : List (ℝ × ℝ))
    (hz : (T.name = "_data_por" ∧ w.z = some (zs.map Prod.fst) ∧ w'.z = some (zs'.map Prod.fst)) ∨
      (T.name = "_data_avp" ∧ w.avgPairs = some zs ∧ w'.avgPairs = some zs') ∨
      (T.name = "_data_set" ∧ w.setPairs = some zs ∧ w'.setPairs = some zs'))
    (k k' i i' : ℕ) (hk : k < T.times.length) (hk' : k' < T'.times.length) (hi : i < zs.length) (hi' : i' < zs'.length)
    (ht : T.times[k] = T'.times[k']) (hd : zs[i] = zs'[i']) :
    ∃ c, (T.data[k]?.bind (·[i]?)) = some c ∧ (T'.data[k']?.bind (·[i']?)) = some c := by
  obtain ⟨a, ha, F⟩ := C228_tables L x w tabs h
  obtain ⟨a', ha', F'⟩ := C228_tables L x w' tabs' h'
  rw [ha] at ha'
  injection ha' with e
  subst e
  have fin : ∀ {D : Type} {ds ds' : List D} {V : D → ℝ → Except PyErr ℝ} (s1 : Shows T.times T.data ds (fun d t c => V d t = .ok c))
      (s2 : Shows T'.times T'.data ds' (fun d t c => V d t = .ok c)) (hi : i < ds.length) (hi' : i' < ds'.length) (hd : ds[i] = ds'[i']),
      ∃ c, (T.data[k]?.bind (·[i]?)) = some c ∧ (T'.data[k']?.bind (·[i']?)) = some c := by
    intro D ds ds' V s1 s2 hi hi' hd
    obtain ⟨_, g1⟩ := shows_get s1
    obtain ⟨_, g2⟩ := shows_get s2
    obtain ⟨a1, a2, a3⟩ := g1 k i hk hi
    obtain ⟨b1, b2, b3⟩ := g2 k' i' hk' hi'
    rw [hd, ht, b3] at a3
    injection a3 with a3
    refine ⟨T.data[k][i], by simp [a1, a2], by simp [b1, b2, a3]⟩
  rcases hz with ⟨n, z1, z2⟩ | ⟨n, z1, z2⟩ | ⟨n, z1, z2⟩
  · obtain ⟨ds, pos, e1, _, _, _, e5⟩ := F.por T hT n
    obtain ⟨ds', pos', f1, _, _, _, f5⟩ := F'.por T' hT' (hn ▸ n)
    rw [z1] at e1; injection e1 with e1; subst e1
    rw [z2] at f1; injection f1 with f1; subst f1
    exact fin (D := ℝ) (V := fun z t => x.por a.m a.eigs a.v a.Igamv z t) e5 f5 (by rw [List.length_map]; exact hi) (by rw [List.length_map]; exact hi') (by rw [List.getElem_map, List.getElem_map, hd])
  · obtain ⟨ds, pos, e1, _, _, _, e5⟩ := F.avp T hT n
    obtain ⟨ds', pos', f1, _, _, _, f5⟩ := F'.avp T' hT' (hn ▸ n)
    rw [z1] at e1; injection e1 with e1; subst e1
    rw [z2] at f1; injection f1 with f1; subst f1
    exact fin (D := ℝ × ℝ) (ds := zs) (ds' := zs') (V := fun p t => x.avp a.m a.eigs a.v a.Igamv p.1 p.2 t) e5 f5 hi hi' hd
  · obtain ⟨ds, pos, e1, _, _, _, e5⟩ := F.set T hT n
    obtain ⟨ds', pos', f1, _, _, _, f5⟩ := F'.set T' hT' (hn ▸ n)
    rw [z1] at e1; injection e1 with e1; subst e1
    rw [z2] at f1; injection f1 with f1; subst f1
    exact fin (D := ℝ × ℝ) (ds := zs) (ds' := zs') (V := fun p t => x.settle a.m a.eigs a.v a.Igamv p.1 p.2 t) e5 f5 hi hi' hd

/-- `np.linalg` keeps its contract on the matrices of this run: it returns an eigensystem, without zero eigenvalues. -/
def KeepsContract (L : Linalg) (x : VR) : Prop :=
  ∀ m gam psi, x.m = .ok m → x.gam m = .ok gam → x.psi m = .ok psi →
    ∃ r, L m.length gam psi = .ok r ∧ EigenSystem m.length gam psi r.1 r.2.1 r.2.2 ∧ ∀ i, i < m.length → r.1 i ≠ 0

theorem tablePart_ok {D : Type} (name : String) (label : D → List ℝ) {f : D → ℝ → (ℕ → ℝ) → Except PyErr ℝ} {ds : List D} {tvals : List ℝ}
    {cols : List (ℕ → ℝ)} {ix : TIdx} {g : ℝ → Except PyErr (ℕ → ℝ)} (hc : tvals.mapM g = .ok cols)
    (hp : ∃ pos, ix.positions tvals.length = .ok pos) (hf : ∀ t ∈ tvals, ∀ col, g t = .ok col → ∀ d ∈ ds, ∃ c, f d t col = .ok c) :
    ∃ l, (do let t ← mkTable name label f ds tvals cols ix; pure [t]) = Except.ok (ε := PyErr) l := by
  obtain ⟨pos, hp⟩ := hp
  obtain ⟨T, hT⟩ := mkTable_ok name label hc hp hf
  exact ⟨[T], by rw [hT]; rfl⟩

/-- **C228** from the input to the tables: for an input that describes the consolidation problem `G`, output times within the time range of
the loads, depths within the soil and an `np.linalg` that keeps its contract, `make_all` finishes, and its tables show one pore pressure
`u`: a sine series plus the boundary pressures that has the prescribed boundary values and satisfies the equations of consolidation of `G`
tested with each of the `neig` sines, up to the entries below `1e-8` dropped from the matrices; the average table shows averages of `u` over
the depths asked for, and the settlement table shows the compression by the effective stress `surcharge - u`. -/
theorem C228_solution (h : VRInput x S s tend G) (L : Linalg) (hL : KeepsContract L x) (hw : w.Valid s tend)
    (hlen : ∀ l d, x.surchargeTime = some l → x.surchargeDepth = some d → d.length = l.length ∧ OmLen l x.surchargeOm)
    (hnone : x.surchargeDepth = none → x.surchargeTime = none) :
    ∃ (tabs : List Table) (A : ℕ → ℝ → ℝ) (u uz : ℝ → ℝ → ℝ), x.makeAll L w = .ok tabs ∧
      tabs.map Table.name = (if w.z.isSome then ["_data_por"] else []) ++ (if w.avgPairs.isSome then ["_data_avp"] else [])
        ++ (if w.setPairs.isSome then ["_data_set"] else []) ∧
      (∀ T ∈ tabs, T.name = "_data_por" → ∀ zs, w.z = some zs → Shows T.times T.data zs (fun z t c => c = u z t)) ∧
      (∀ T ∈ tabs, T.name = "_data_avp" → ∀ ps, w.avgPairs = some ps →
        Shows T.times T.data ps (fun p t c => c * (p.2 - p.1) = ∫ z in p.1..p.2, u z t)) ∧
      (∀ T ∈ tabs, T.name = "_data_set" → ∀ ps, w.setPairs = some ps →
        Shows T.times T.data ps (fun p t c => c = x.H * x.mvref * ∫ z in p.1..p.2, G.mv z * (G.surcharge z t - u z t))) ∧
      (∀ z t, HasDerivAt (fun z => u z t) (uz z t) z) ∧
      (∀ z t, u z t = (∑ j ∈ Finset.range x.neig, A j t * sin (π * ((j:ℝ) + 1 - G.drn / 2) * z))
        + (1 - (1 - G.drn) * z) * G.top t + z * G.bot t) ∧
      (∀ t, u 0 t = G.top t ∧ (G.drn = 0 → u 1 t = G.bot t) ∧ (G.drn = 1 → uz 1 t = G.bot t)) ∧
      ∀ i, i < x.neig → ∀ t, s ≤ t → t ≤ tend →
        |G.residual s u uz (fun z => sin (π * ((i:ℝ) + 1 - G.drn / 2) * z))
          (fun z => π * ((i:ℝ) + 1 - G.drn / 2) * cos (π * ((i:ℝ) + 1 - G.drn / 2) * z)) t| ≤
        1 / 100000000 * ((∑ j ∈ Finset.range x.neig, |A j t|) + |x.dT| * ∑ j ∈ Finset.range x.neig, |∫ r in s..t, A j r|) := by
  have hm : x.m = .ok (eigs x.neig x.drn) := (C32_distinct x.neig x.drn h.drn).1
  obtain ⟨hl, hget, hd, hne, hsc⟩ := m_ok h hm
  obtain ⟨g, eg, _⟩ := gam_ok h hd
  obtain ⟨p, ep, _⟩ := psi_ok h hd
  obtain ⟨r, er, hE, h0⟩ := hL _ _ _ hm eg ep
  let a : VRArrays := ⟨eigs x.neig x.drn, r.1, r.2.1, r.2.2⟩
  have ha : x.arrays L = .ok a := by
    unfold VR.arrays
    simp only [hm, eg, ep, er, Bind.bind, Except.bind]
    rfl
  obtain ⟨A, u, uz, hu, hder, hser, hbd, hres⟩ := C77_weak_form h _ hm _ _ eg ep r.1 r.2.1 r.2.2 hE h0
  obtain ⟨B, hB, hcB, _⟩ := coefficients h hm hE h0
  obtain ⟨bot, _, _, eb, _⟩ := normBot_ok h
  obtain ⟨cols, hc, _⟩ := mapM_ok_of (P := fun _ _ => True) (l := w.tvals) (f := fun t => x.vE (x.basis a.m a.eigs a.Igamv) a.v t)
    (fun t ht => by
      obtain ⟨c, e, _⟩ := hcB t (hw.times t ht).1 (hw.times t ht).2
      exact ⟨c, e, trivial⟩)
  have agree : ∀ t ∈ w.tvals, ∀ p : ℝ × ℝ, 0 ≤ p.1 → p.1 < p.2 → p.2 ≤ 1 →
      ∃ b, x.avp a.m a.eigs a.v a.Igamv p.1 p.2 t = .ok b ∧ b * (p.2 - p.1) = (∫ z in p.1..p.2, u z t) ∧
        x.settle a.m a.eigs a.v a.Igamv p.1 p.2 t = .ok (x.H * x.mvref * ∫ z in p.1..p.2, G.mv z * (G.surcharge z t - u z t)) := by
    intro t ht p p0 pp p1
    obtain ⟨u', b, k1, k2, k3, k4⟩ := C76_outputs_agree h _ hm _ _ r.1 r.2.1 r.2.2 hE h0 p.1 p.2 t p0 pp p1 (hw.times t ht).1 (hw.times t ht).2 hlen hnone
    have e : ∀ z ∈ Set.uIcc p.1 p.2, u' z = u z t := by
      intro z hz
      rw [Set.uIcc_of_le pp.le] at hz
      have e1 := k1 z (p0.trans hz.1) (hz.2.trans p1)
      rw [hu z t (p0.trans hz.1) (hz.2.trans p1) (hw.times t ht).1 (hw.times t ht).2] at e1
      injection e1 with e1
      exact e1.symm
    refine ⟨b, k2, ?_, ?_⟩
    · rw [k3]; exact integral_congr e
    · have : (∫ z in p.1..p.2, G.mv z * (G.surcharge z t - u' z)) = ∫ z in p.1..p.2, G.mv z * (G.surcharge z t - u z t) :=
        integral_congr (fun z hz => by rw [e z hz])
      rw [k4, this]
  have o1 : ∃ l, x.tablePor a w cols = .ok l := by
    unfold VR.tablePor
    cases hz : w.z with
    | none => exact ⟨_, rfl⟩
    | some zs =>
      dsimp only
      rw [eb]
      refine tablePart_ok _ _ hc (hw.idx _ (by simp)) (fun t ht col e z hzz => ⟨u z t, ?_⟩)
      have hz' := hw.z zs hz z hzz
      rw [← hu z t hz'.1 hz'.2 (hw.times t ht).1 (hw.times t ht).2]
      exact (por_of_col (a := a) e eb).symm
  have o2 : ∃ l, x.tableAvp a w cols = .ok l := by
    unfold VR.tableAvp
    cases hz : w.avgPairs with
    | none => exact ⟨_, rfl⟩
    | some ps =>
      obtain ⟨hne, hps⟩ := hw.avg ps hz
      cases ps with
      | nil => exact absurd rfl hne
      | cons q ps =>
        dsimp only
        rw [eb]
        refine tablePart_ok _ _ hc (hw.idx _ (by simp)) (fun t ht col e z hzz => ?_)
        obtain ⟨z0, z1, z2⟩ := hps z hzz
        obtain ⟨b, b1, _⟩ := agree t ht z z0 z1 z2
        exact ⟨b, by rw [← avp_of_col (a := a) e eb]; exact b1⟩
  have o3 : ∃ l, x.tableSet a w cols = .ok l := by
    unfold VR.tableSet
    cases hz : w.setPairs with
    | none => exact ⟨_, rfl⟩
    | some ps =>
      obtain ⟨hne, hps⟩ := hw.set ps hz
      cases ps with
      | nil => exact absurd rfl hne
      | cons q ps =>
        dsimp only
        rw [eb]
        refine tablePart_ok _ _ hc (hw.idx _ (by simp)) (fun t ht col e z hzz => ?_)
        obtain ⟨z0, z1, z2⟩ := hps z hzz
        obtain ⟨b, _, _, b1⟩ := agree t ht z z0 z1 z2
        exact ⟨_, by rw [← settle_of_col (a := a) e eb]; exact b1⟩
  obtain ⟨l1, o1⟩ := o1
  obtain ⟨l2, o2⟩ := o2
  obtain ⟨l3, o3⟩ := o3
  have hall : x.makeAll L w = .ok (l1 ++ l2 ++ l3) := by
    have hc' : x.columns a w.tvals = .ok cols := hc
    unfold VR.makeAll VR.output
    simp only [ha, hc', o1, o2, o3, Bind.bind, Except.bind]
    rfl
  obtain ⟨a', ha', F⟩ := C228_tables L x w _ hall
  rw [ha] at ha'
  injection ha' with e
  subst e
  have times : ∀ {pos : List ℕ} {ix : TIdx}, ix.positions w.tvals.length = .ok pos → ∀ t ∈ pos.map (fun k => w.tvals.getD k 0), t ∈ w.tvals := by
    intro pos ix hp t ht
    obtain ⟨k, hk, rfl⟩ := List.mem_map.1 ht
    have := (C229_picks w.tvals.length).2.2.2 ix pos hp k hk
    simp [List.getD_eq_getElem?_getD, this]
  have mem : ∀ {D : Type} {ts : List ℝ} {data : List (List ℝ)} {ds : List D} {V V' : D → ℝ → ℝ → Prop}, Shows ts data ds V →
      (∀ d ∈ ds, ∀ t ∈ ts, ∀ c, V d t c → V' d t c) → Shows ts data ds V' := by
    intro D ts data ds V V' hs hv
    refine List.Forall₂.imp ?_ ((List.forall₂_and_left _ _).2 ⟨fun t ht => ht, hs⟩)
    rintro t row ⟨ht, hr⟩
    refine List.Forall₂.imp ?_ ((List.forall₂_and_left _ _).2 ⟨fun d hd => hd, hr⟩)
    rintro d c ⟨hd, hv'⟩
    exact hv d hd t ht c hv'
  refine ⟨_, A, u, uz, hall, F.names, ?_, ?_, ?_, hder, hser, hbd, hres⟩
  · intro T hT hn zs hz
    obtain ⟨zs', pos, e1, e2, e3, _, e5⟩ := F.por T hT hn
    rw [hz] at e1; injection e1 with e1; subst e1
    refine mem e5 (fun z hzz t ht c hcv => ?_)
    have ht' := times e2 t (e3 ▸ ht)
    have hz' := hw.z zs hz z hzz
    have q := hu z t hz'.1 hz'.2 (hw.times t ht').1 (hw.times t ht').2
    rw [show x.por (eigs x.neig x.drn) r.1 r.2.1 r.2.2 z t = .ok c from hcv] at q
    injection q
  · intro T hT hn ps hz
    obtain ⟨ps', pos, e1, e2, e3, _, e5⟩ := F.avp T hT hn
    rw [hz] at e1; injection e1 with e1; subst e1
    refine mem e5 (fun z hzz t ht c hcv => ?_)
    have ht' := times e2 t (e3 ▸ ht)
    obtain ⟨z0, z1, z2⟩ := (hw.avg ps hz).2 z hzz
    obtain ⟨b, b1, b2, _⟩ := agree t ht' z z0 z1 z2
    rw [hcv] at b1
    injection b1 with b1
    rw [b1]; exact b2
  · intro T hT hn ps hz
    obtain ⟨ps', pos, e1, e2, e3, _, e5⟩ := F.set T hT hn
    rw [hz] at e1; injection e1 with e1; subst e1
    refine mem e5 (fun z hzz t ht c hcv => ?_)
    have ht' := times e2 t (e3 ▸ ht)
    obtain ⟨z0, z1, z2⟩ := (hw.set ps hz).2 z hzz
    obtain ⟨b, _, _, b1⟩ := agree t ht' z z0 z1 z2
    rw [hcv] at b1
    injection b1

end Geotecha.Speccon

namespace Geotecha.Speccon
open Geotecha.Spec Geotecha.Piecewise

variable {x : VR} {S : Set ℝ} {s tend : ℝ} {G : Ground}

/-- **C228** for soils whose properties are bounded away from zero, an `np.linalg` that returns some eigensystem whenever there is one keeps
its contract on the matrices of the run: they have an eigensystem and no zero eigenvalue. -/
theorem C228_contract (L : Linalg) (hLA : ∀ n gam psi, (∃ e v w, EigenSystem n gam psi e v w) → ∃ r, L n gam psi = .ok r ∧ EigenSystem n gam psi r.1 r.2.1 r.2.2)
    (h : VRInput x S s tend G) (hdT : 0 < x.dT) (μ ν η : ℝ) (hμ : ∀ z, 0 < z → z < 1 → μ ≤ G.mv z) (hν0 : 0 ≤ ν)
    (hν : ∀ z, 0 < z → z < 1 → ν ≤ G.vert z) (hη : ∀ z, 0 < z → z < 1 → η ≤ G.horiz z) (hf : ∀ f ∈ G.fixed, 0 ≤ f.2.1)
    (hn1 : 1 / 100000000 * x.neig < μ / 2) (hn2 : 1 / 100000000 * x.neig * x.dT < (ν * (π / 2) ^ 2 + η) / 2) : KeepsContract L x := by
  obtain ⟨m, gam, psi, hm, hg, hp, hex, hpos⟩ := C78_eigensystem h hdT μ ν η hμ hν0 hν hη hf hn1 hn2
  intro m' gam' psi' hm' hg' hp'
  rw [hm] at hm'; injection hm' with e; subst e
  rw [hg] at hg'; injection hg' with e; subst e
  rw [hp] at hp'; injection hp' with e; subst e
  obtain ⟨r, hr, hE⟩ := hLA _ _ _ hex
  exact ⟨r, hr, hE, fun i hi => (hpos _ _ _ hE i hi).ne'⟩

open Classical in
/-- A `np.linalg` for the examples. -/
noncomputable def Ex.linalg : Linalg := fun n gam psi =>
  if h : ∃ r : (ℕ → ℝ) × (ℕ → ℕ → ℝ) × (ℕ → ℕ → ℝ), EigenSystem n gam psi r.1 r.2.1 r.2.2 then .ok h.choose else .error .valueError

theorem Ex.linalg_ok : KeepsContract Ex.linalg Ex.input := by
  refine C228_contract Ex.linalg (fun n gam psi hx => ?_) Ex.input_ok (by norm_num [Ex.input]) 1 1 2 (fun z _ _ => Ex.layersF_ge z) zero_le_one
    (fun z _ _ => by simpa [Ex.ground] using Ex.layersF_ge z) (fun z _ _ => ?_) (fun f hf => ?_) (by norm_num [Ex.input]) ?_
  · obtain ⟨e, v, w, hE⟩ := hx
    have hx' : ∃ r : (ℕ → ℝ) × (ℕ → ℕ → ℝ) × (ℕ → ℕ → ℝ), EigenSystem n gam psi r.1 r.2.1 r.2.2 := ⟨(e, v, w), hE⟩
    exact ⟨hx'.choose, by unfold Ex.linalg; rw [dif_pos hx'], hx'.choose_spec⟩
  · have := Ex.layersF_ge z
    simp only [Ex.ground]; nlinarith
  · simp only [Ex.ground, List.mem_singleton] at hf
    rw [hf]; norm_num
  · have := sq_nonneg (π / 2)
    norm_num [Ex.input]; nlinarith

/-- Four output times, pore pressures at the first and last of them, settlements at the last two. -/
noncomputable def Ex.wanted : Wanted where
  tvals := [1/2, 1, 2, 4]
  z := some [0, 1/3, 1]
  zIdx := .picks [0, -1]
  avgPairs := none
  avgIdx := .slice none none none
  setPairs := some [(0, 1), (1/4, 1/2)]
  setIdx := .slice (some (-2)) none none
  RLzero := some 20

theorem Ex.wanted_ok : Ex.wanted.Valid 0 5 where
  times t ht := by simp only [Ex.wanted, List.mem_cons, List.not_mem_nil, or_false] at ht; rcases ht with rfl | rfl | rfl | rfl <;> norm_num
  z zs h z hz := by
    cases h
    simp only [List.mem_cons, List.not_mem_nil, or_false] at hz
    rcases hz with rfl | rfl | rfl <;> norm_num
  avg ps h := by cases h
  set ps h := by
    cases h
    refine ⟨by simp, fun p hp => ?_⟩
    simp only [List.mem_cons, List.not_mem_nil, or_false] at hp
    rcases hp with rfl | rfl <;> norm_num
  idx ix h := by
    simp only [Ex.wanted, List.mem_cons, List.not_mem_nil, or_false] at h
    rcases h with rfl | rfl | rfl
    · exact ⟨_, rfl⟩
    · exact ⟨_, rfl⟩
    · exact ⟨_, rfl⟩

/-- On this input `make_all` makes a table of pore pressures with two rows and three columns and a table of settlements. -/
example : ∃ (tabs : List Table) (u : ℝ → ℝ → ℝ), Ex.input.makeAll Ex.linalg Ex.wanted = .ok tabs ∧
    tabs.map Table.name = ["_data_por", "_data_set"] ∧
    ∀ T ∈ tabs, T.name = "_data_por" → T.times = [1/2, 4] ∧ T.levels = [[20 - 0 * 10], [20 - 1/3 * 10], [20 - 1 * 10]] ∧
      Shows T.times T.data [0, 1/3, 1] (fun z t c => c = u z t) := by
  obtain ⟨tabs, A, u, uz, h1, h2, h3, _⟩ := C228_solution Ex.input_ok Ex.linalg Ex.linalg_ok Ex.wanted_ok
    (fun l d h1 h2 => by cases h1; cases h2; exact ⟨rfl, rfl⟩) (fun h => by cases h)
  refine ⟨tabs, u, h1, h2, fun T hT hn => ?_⟩
  obtain ⟨a, ha, F⟩ := C228_tables _ _ _ _ h1
  obtain ⟨zs, pos, e1, e2, e3, e4, _⟩ := F.por T hT hn
  have hp : pos = [0, 3] := by
    have : Ex.wanted.zIdx.positions Ex.wanted.tvals.length = .ok [0, 3] := rfl
    rw [this] at e2
    injection e2 with e2
    exact e2.symm
  subst hp
  cases e1
  exact ⟨e3, e4, h3 T hT hn _ rfl⟩

/-- The same output with every time reported. -/
noncomputable def Ex.wantedAll : Wanted := { Ex.wanted with zIdx := .slice none none none, z := some [1/3] }

theorem Ex.wantedAll_ok : Ex.wantedAll.Valid 0 5 where
  times := Ex.wanted_ok.times
  z zs h z hz := by
    cases h
    simp only [List.mem_cons, List.not_mem_nil, or_false] at hz
    rw [hz]; norm_num
  avg := Ex.wanted_ok.avg
  set := Ex.wanted_ok.set
  idx ix h := by
    simp only [Ex.wantedAll, Ex.wanted, List.mem_cons, List.not_mem_nil, or_false] at h
    rcases h with rfl | rfl | rfl
    · exact ⟨_, rfl⟩
    · exact ⟨_, rfl⟩
    · exact ⟨_, rfl⟩

/-- The pore pressure at depth 1/3 and time 4 is in row 1, column 1 of the first run and in row 3, column 0 of the second: the same value. -/
example : ∃ (T T' : Table) (c : ℝ), (∃ l, Ex.input.makeAll Ex.linalg Ex.wanted = .ok l ∧ T ∈ l) ∧
    (∃ l, Ex.input.makeAll Ex.linalg Ex.wantedAll = .ok l ∧ T' ∈ l) ∧ (T.data[1]?.bind (·[1]?)) = some c ∧ (T'.data[3]?.bind (·[0]?)) = some c := by
  obtain ⟨tabs, A, u, uz, h1, h2, _⟩ := C228_solution Ex.input_ok Ex.linalg Ex.linalg_ok Ex.wanted_ok
    (fun l d h1 h2 => by cases h1; cases h2; exact ⟨rfl, rfl⟩) (fun h => by cases h)
  obtain ⟨tabs', A', u', uz', h1', h2', _⟩ := C228_solution Ex.input_ok Ex.linalg Ex.linalg_ok Ex.wantedAll_ok
    (fun l d h1 h2 => by cases h1; cases h2; exact ⟨rfl, rfl⟩) (fun h => by cases h)
  have get : ∀ {l : List Table}, l.map Table.name = ["_data_por", "_data_set"] → ∃ T ∈ l, T.name = "_data_por" := by
    intro l hl
    have : "_data_por" ∈ l.map Table.name := by rw [hl]; simp
    obtain ⟨T, hT, e⟩ := List.mem_map.1 this
    exact ⟨T, hT, e⟩
  obtain ⟨T, hT, n⟩ := get h2
  obtain ⟨T', hT', n'⟩ := get h2'
  obtain ⟨a, ha, F⟩ := C228_tables _ _ _ _ h1
  obtain ⟨a', ha', F'⟩ := C228_tables _ _ _ _ h1'
  obtain ⟨zs, pos, _, e2, e3, _⟩ := F.por T hT n
  obtain ⟨zs', pos', _, f2, f3, _⟩ := F'.por T' hT' n'
  have hp : pos = [0, 3] := by
    have : Ex.wanted.zIdx.positions Ex.wanted.tvals.length = .ok [0, 3] := rfl
    rw [this] at e2; injection e2 with e2; exact e2.symm
  have hp' : pos' = [0, 1, 2, 3] := by
    have : Ex.wantedAll.zIdx.positions Ex.wantedAll.tvals.length = .ok [0, 1, 2, 3] := rfl
    rw [this] at f2; injection f2 with f2; exact f2.symm
  subst hp hp'
  obtain ⟨c, c1, c2⟩ := C228_independent Ex.linalg Ex.input Ex.wanted Ex.wantedAll tabs tabs' h1 h1' T T' hT hT' (n.trans n'.symm)
    [(0, 0), (1/3, 0), (1, 0)] [(1/3, 0)] (Or.inl ⟨n, rfl, rfl⟩) 1 3 1 0 (by rw [e3]; decide) (by rw [f3]; decide) (by decide) (by decide)
    (by simp only [e3, f3]; rfl) rfl
  exact ⟨T, T', c, ⟨tabs, h1, hT⟩, ⟨tabs', h1', hT'⟩, c1, c2⟩

end Geotecha.Speccon
