import Verif.Plot.Results
import Mathlib.Data.List.Forall2
import Mathlib.Tactic.Linarith
import Mathlib.Tactic.NormNum

/-! # C253, C254: the figures of results show the results -/

set_option autoImplicit false
set_option linter.unusedVariables false

namespace Geotecha.Plot.Results
open Geotecha.Piecewise

/-! ## Specification -/

/-- Depth, or reduced level. -/
noncomputable def level (H : ℝ) (rl : Option ℝ) (z : ℝ) : ℝ := rl.elim (H * z) fun r => r - H * z

theorem level_eq (z H : ℝ) (rl : Option ℝ) : depthToReducedLevel z H rl = level H rl z := by
  cases rl <;> simp [depthToReducedLevel, level, mul_comm]

/-- Lines show `n` columns: line `j` has the label of number `j`, one point for each of the places `s`, and the `i`-th point is `pt i j`. -/
structure ShowsColumns (ls : List Line) (n : ℕ) (labels : List String) (s : List ℝ) (pt : ℝ → ℕ → ℕ → ℝ × ℝ) : Prop where
  count : ls.length = n
  lines : ∀ j, j < n → ∃ l, ls[j]? = some l ∧ l.label = labels[j]? ∧ l.pts.length = s.length ∧
    ∀ i v, s[i]? = some v → l.pts[i]? = some (pt v i j)

/-- The figure `f` shows what it should. -/
def Right (b : Body) (f : Fig) : Prop :=
  match b with
  | .depth x z labels H rl => ShowsColumns f.lines x.cols labels z (fun v i j => (x.entry i j, level H rl v)) ∧ f.inverted = rl.isNone
  | .time t y labels invert => ShowsColumns f.lines y.rows labels t (fun v i k => (v, y.entry k i)) ∧ f.inverted = invert
  | .rest _ => True

/-- The shapes of the arrays fit, figures of other kinds can be drawn. -/
def Fits (b : Body) : Prop :=
  match b with
  | .depth x z _ _ _ => x.rows = z.length
  | .time t y _ _ => y.cols = t.length
  | .rest r => r = .ok ()

/-- The label of the value axis. -/
def Fig.axis (b : Body) (f : Fig) : String :=
  match b with
  | .depth .. => f.xlabel
  | .time .. => f.ylabel
  | .rest _ => ""

/-- What the user has set for the value axis. -/
def Props.axis (b : Body) (p : Props) : Option String :=
  match b with
  | .depth .. => p.xlabel
  | .time .. => p.ylabel
  | .rest _ => some ""

/-- The dicts of the user do not serve two keys. -/
def Unshared (st : St) : Prop := ∀ k k' d, st.pp.lookup k = some d → st.pp.lookup k' = some d → k = k'

/-- What a figure should be. -/
structure Spec where
  key : String
  title : String
  axis : String
  body : Body

/-- The figure has the title, shows the data, and (if no dict is shared) the value axis has the label of the user or the default. -/
def Drawn (st : St) (s : Spec) (f : Fig) : Prop := f.title = s.title ∧ Right s.body f ∧ (Unshared st → (∀ r, s.body ≠ .rest r) →
  f.axis s.body = ((st.pp.lookup s.key).bind fun d => (st.heap d).axis s.body).getD s.axis)

/-- Array `a` has a row for each depth (or interval) and a column for each time. -/
def Shape (a : Arr) (rows : ℕ) (t : List ℝ) : Prop := a.rows = rows ∧ a.cols = t.length

/-- Labels of depth intervals. -/
noncomputable def between (o : Run) (pairs : List (ℝ × ℝ)) : List String := pairs.map fun p => o.fmt2 (level o.H o.rl p.1) (level o.H o.rl p.2)

/-! ## C253: one figure -/

theorem columns_shows (p : Props) (labels : List String) (cols : ℕ) (s : List ℝ) (pt : ℝ → ℕ → ℕ → ℝ × ℝ) :
    ∃ ls, columns p (some labels) s.length cols s.length (fun i j => pt (nth s i) i j) = .ok ls ∧ ShowsColumns ls cols labels s pt := by
  unfold columns
  rw [if_neg (by simp)]
  refine ⟨_, rfl, by simp, ?_⟩
  intro j hj
  refine ⟨⟨labelOf (some labels) j, styleOf p j, (List.range s.length).map fun i : ℕ => pt (nth s i) i j⟩, ?_, rfl, by simp, ?_⟩
  · rw [List.getElem?_map, List.getElem?_range hj]; rfl
  · intro i v hv
    have hi : i < s.length := by
      by_contra h
      rw [List.getElem?_eq_none (by omega)] at hv
      cases hv
    have : nth s i = v := by unfold nth; rw [List.getD_eq_getElem?_getD, hv]; rfl
    show ((List.range s.length).map fun i : ℕ => pt (nth s i) i j)[i]? = _
    rw [List.getElem?_map, List.getElem?_range hi, ← this]
    rfl

/-- **C253** A figure of results whose arrays fit is drawn, and shows the results: each column (row) is a line with its label through the
values at their levels (times). -/
theorem C253_right (p : Props) (j : Job) (h : Fits j.body) : ∃ f, draw p j = .ok f ∧ f.title = j.title ∧ Right j.body f := by
  obtain ⟨key, title, axis, body⟩ := j
  cases body with
  | depth x z labels H rl =>
    have hr : x.rows = z.length := h
    obtain ⟨ls, e, hs⟩ := columns_shows p labels x.cols z fun v i j => (x.entry i j, level H rl v)
    refine ⟨⟨title, p.xlabel.getD "x", p.ylabel.getD (if rl.isNone then "Depth, z" else "RL"), rl.isNone, p.legend.getD true, ls⟩, ?_, rfl, hs, rfl⟩
    unfold draw vsDepth
    simp only [level_eq]
    rw [hr, e]
    rfl
  | time t y labels invert =>
    have hr : y.cols = t.length := h
    obtain ⟨ls, e, hs⟩ := columns_shows p labels y.rows t fun v i k => (v, y.entry k i)
    refine ⟨⟨title, p.xlabel.getD "Time, t", p.ylabel.getD "y", invert, p.legend.getD true, ls⟩, ?_, rfl, hs, rfl⟩
    unfold draw vsTime
    simp only [Arr.T]
    rw [hr, e]
    rfl
  | rest r =>
    have hr : r = .ok () := h
    subst hr
    exact ⟨_, rfl, rfl, trivial⟩

theorem columns_refused (p : Props) (labels : Option (List String)) (cols : ℕ) (pt : ℕ → ℕ → ℝ × ℝ) {rows len : ℕ} (h : rows ≠ len) :
    columns p labels rows cols len pt = .error .valueError := by
  unfold columns
  rw [if_pos h]

/-- **C253** Otherwise there is no figure. -/
theorem C253_refused (p : Props) (j : Job) (h : ¬ Fits j.body) : ∃ e, draw p j = .error e := by
  obtain ⟨key, title, axis, body⟩ := j
  cases body with
  | depth x z labels H rl =>
    refine ⟨.valueError, ?_⟩
    unfold draw vsDepth
    simp only
    rw [columns_refused _ _ _ _ (show x.rows ≠ z.length from h)]
    rfl
  | time t y labels invert =>
    refine ⟨.valueError, ?_⟩
    unfold draw vsTime
    simp only
    rw [columns_refused _ _ _ _ (show y.T.rows ≠ t.length from h)]
    rfl
  | rest r =>
    cases r with
    | ok u => exact absurd rfl h
    | error e => exact ⟨e, rfl⟩

/-- **C253** Two lines have the same style exactly if their numbers differ by a multiple of the number of styles. -/
theorem C253_styles {p : Props} {j : Job} {f : Fig} (h : draw p j = .ok f) (hr : ∀ r, j.body ≠ .rest r) {n : ℕ} (hn : p.styles.getD 32 = n) (hpos : 0 < n)
    {a b : ℕ} {la lb : Line} (ha : f.lines[a]? = some la) (hb : f.lines[b]? = some lb) : la.style = lb.style ↔ a % n = b % n := by
  have key : ∀ {labels : Option (List String)} {rows cols len : ℕ} {pt : ℕ → ℕ → ℝ × ℝ} {ls : List Line}, columns p labels rows cols len pt = .ok ls →
      ∀ {k : ℕ} {l : Line}, ls[k]? = some l → l.style = some (k % n) := by
    intro labels rows cols len pt ls e k l hk
    unfold columns at e
    split_ifs at e
    cases e
    rw [List.getElem?_map] at hk
    obtain ⟨m, hm, rfl⟩ := Option.map_eq_some_iff.1 hk
    have hm2 := List.getElem?_eq_some_iff.1 hm
    obtain ⟨h1, h2⟩ := hm2
    rw [List.getElem_range] at h2
    subst h2
    show styleOf p k = _
    unfold styleOf
    simp only [hn]
    rw [if_neg hpos.ne']
  have fin : la.style = some (a % n) ∧ lb.style = some (b % n) := by
    obtain ⟨key', title, axis, body⟩ := j
    cases body with
    | depth x z labels H rl =>
      unfold draw vsDepth at h
      cases e : columns p (some labels) x.rows x.cols z.length (fun i j => (x.entry i j, depthToReducedLevel (nth z i) H rl)) with
      | error err => simp only [e] at h; cases h
      | ok ls =>
        simp only [e] at h
        cases h
        exact ⟨key e ha, key e hb⟩
    | time t y labels invert =>
      unfold draw vsTime at h
      cases e : columns p (some labels) y.T.rows y.T.cols t.length (fun i j => (nth t i, y.T.entry i j)) with
      | error err => simp only [e] at h; cases h
      | ok ls =>
        simp only [e] at h
        cases h
        exact ⟨key e ha, key e hb⟩
    | rest r => exact absurd rfl (hr r)
  rw [fin.1, fin.2]
  exact ⟨fun h => Option.some.inj h, fun h => congrArg some h⟩

/-! ## C254: all figures -/

/-- **C254** If everything can be drawn, each step gives its figure, in order. -/
theorem C254_all (js : List Job) (st : St) (h : ∀ j ∈ js, Fits j.body) :
    (produce js st).2.1 = none ∧ List.Forall₂ (fun j f => f.title = j.title ∧ Right j.body f) js (produce js st).1 := by
  induction js generalizing st with
  | nil => exact ⟨rfl, .nil⟩
  | cons j js ih =>
    obtain ⟨f, e, h1, h2⟩ := C253_right (popProps j st).1 j (h j List.mem_cons_self)
    obtain ⟨i1, i2⟩ := ih (popProps j st).2 fun k hk => h k (List.mem_cons_of_mem _ hk)
    unfold produce
    simp only [e]
    exact ⟨i1, .cons ⟨h1, h2⟩ i2⟩

/-- **C254** Otherwise the figures of the steps before the first one that cannot be drawn are there, in order, and nothing else. -/
theorem C254_stops (pre : List Job) (j : Job) (post : List Job) (st : St) (h : ∀ k ∈ pre, Fits k.body) (hj : ¬ Fits j.body) :
    (∃ e, (produce (pre ++ j :: post) st).2.1 = some e) ∧
      List.Forall₂ (fun j f => f.title = j.title ∧ Right j.body f) pre (produce (pre ++ j :: post) st).1 := by
  induction pre generalizing st with
  | nil =>
    obtain ⟨e, he⟩ := C253_refused (popProps j st).1 j hj
    simp only [List.nil_append]
    unfold produce
    simp only [he]
    exact ⟨⟨e, rfl⟩, .nil⟩
  | cons k pre ih =>
    obtain ⟨f, e, h1, h2⟩ := C253_right (popProps k st).1 k (h k List.mem_cons_self)
    obtain ⟨i1, i2⟩ := ih (popProps k st).2 fun w hw => h w (List.mem_cons_of_mem _ hw)
    rw [List.cons_append]
    unfold produce
    simp only [e]
    exact ⟨i1, .cons ⟨h1, h2⟩ i2⟩

/-! ## C254: the properties of the user -/

theorem lookup_filter (l : List (String × ℕ)) (k k' : String) :
    (l.filter fun q => some q.1 ≠ some k).lookup k' = if k' = k then none else l.lookup k' := by
  induction l with
  | nil => simp
  | cons q l ih =>
    obtain ⟨a, d⟩ := q
    by_cases h : a = k
    · subst h
      rw [List.filter_cons_of_neg (by simp), ih]
      split_ifs with h2
      · rfl
      · rw [List.lookup_cons, show (k' == a) = false by simpa using h2]
    · rw [List.filter_cons_of_pos (by simpa using h), List.lookup_cons, List.lookup_cons, ih]
      by_cases h3 : k' = a
      · subst h3
        rw [beq_self_eq_true]
        simp only [if_neg h]
      · rw [show (k' == a) = false by simpa using h3]

/-- The dict of the user for a step. -/
def dictOf (j : Job) (st : St) : Option ℕ := j.key.bind fun k => st.pp.lookup k

theorem pop_lookup (j : Job) (st : St) (k : String) (h : j.key ≠ some k) : (popProps j st).2.pp.lookup k = st.pp.lookup k := by
  unfold popProps
  cases hk : j.key with
  | none => rfl
  | some a =>
    cases hl : (some a).bind fun k => st.pp.lookup k with
    | none => rfl
    | some d =>
      show (st.pp.filter fun q => some q.1 ≠ some a).lookup k = _
      rw [lookup_filter, if_neg (by rintro rfl; exact h hk)]

theorem pop_lookup_self (j : Job) (st : St) (k : String) (h : j.key = some k) : (popProps j st).2.pp.lookup k = none := by
  unfold popProps
  rw [h]
  cases hl : (some k).bind fun k => st.pp.lookup k with
  | none => exact hl
  | some d =>
    show (st.pp.filter fun q => some q.1 ≠ some k).lookup k = _
    rw [lookup_filter, if_pos rfl]

theorem pop_lookup_some {j : Job} {st : St} {k : String} {d : ℕ} (h : (popProps j st).2.pp.lookup k = some d) :
    j.key ≠ some k ∧ st.pp.lookup k = some d := by
  have hne : j.key ≠ some k := by
    intro e
    rw [pop_lookup_self j st k e] at h
    cases h
  exact ⟨hne, by rw [← pop_lookup j st k hne]; exact h⟩

theorem pop_heap (j : Job) (st : St) (d : ℕ) (h : dictOf j st ≠ some d) : (popProps j st).2.heap d = st.heap d := by
  unfold popProps
  unfold dictOf at h
  cases hl : j.key.bind fun k => st.pp.lookup k with
  | none => rfl
  | some e =>
    show (if d = e then _ else st.heap d) = _
    rw [if_neg (by rintro rfl; exact h hl)]

theorem draw_axis {p : Props} {j : Job} {f : Fig} (h : draw (setAxis j.body j.axis p) j = .ok f) (hr : ∀ r, j.body ≠ .rest r) :
    f.axis j.body = (p.axis j.body).getD j.axis := by
  obtain ⟨key, title, axis, body⟩ := j
  cases body with
  | depth x z labels H rl =>
    unfold draw vsDepth at h
    simp only [setAxis] at h
    cases e : columns (⟨some (p.xlabel.getD axis), p.ylabel, p.styles, p.legend⟩ : Props) (some labels) x.rows x.cols z.length
        (fun i j => (x.entry i j, depthToReducedLevel (nth z i) H rl)) with
    | error err => rw [e] at h; cases h
    | ok ls => rw [e] at h; cases h; rfl
  | time t y labels invert =>
    unfold draw vsTime at h
    simp only [setAxis] at h
    cases e : columns (⟨p.xlabel, some (p.ylabel.getD axis), p.styles, p.legend⟩ : Props) (some labels) y.T.rows y.T.cols t.length
        (fun i j => (nth t i, y.T.entry i j)) with
    | error err => rw [e] at h; cases h
    | ok ls => rw [e] at h; cases h; rfl
  | rest r => exact absurd rfl (hr r)

theorem pop_props (j : Job) (st : St) : (popProps j st).1 = setAxis j.body j.axis ((dictOf j st).elim ⟨none, none, none, none⟩ st.heap) := by
  unfold popProps dictOf
  cases j.key.bind fun k => st.pp.lookup k <;> rfl

/-- **C254** If no dict serves two keys, the value axis of every figure has the label given by the user for its key, or else its own default. -/
theorem C254_axis (js : List Job) (st : St) (h : ∀ j ∈ js, Fits j.body) (hk : (js.filterMap Job.key).Nodup)
    (hd : Unshared st) :
    List.Forall₂ (fun j f => (∀ r, j.body ≠ .rest r) →
      f.axis j.body = ((j.key.bind fun k => st.pp.lookup k).bind fun d => (st.heap d).axis j.body).getD j.axis) js (produce js st).1 := by
  have gen : ∀ (js : List Job) (st' : St), (∀ j ∈ js, Fits j.body) → (js.filterMap Job.key).Nodup →
      (∀ k k' d, st'.pp.lookup k = some d → st'.pp.lookup k' = some d → k = k') →
      (∀ k, some k ∈ js.map Job.key → st'.pp.lookup k = st.pp.lookup k ∧ ∀ d, st'.pp.lookup k = some d → st'.heap d = st.heap d) →
      List.Forall₂ (fun j f => (∀ r, j.body ≠ .rest r) →
        f.axis j.body = ((j.key.bind fun k => st.pp.lookup k).bind fun d => (st.heap d).axis j.body).getD j.axis) js (produce js st').1 := by
    clear h hk js
    intro js
    induction js with
    | nil => intro st' _ _ _ _; exact .nil
    | cons j js ih =>
      intro st' h hk hd' hs
      obtain ⟨f, e, -, -⟩ := C253_right (popProps j st').1 j (h j List.mem_cons_self)
      have hrec := ih (popProps j st').2 (fun w hw => h w (List.mem_cons_of_mem _ hw)) (by
          cases hj : j.key with
          | none => rw [List.filterMap_cons_none hj] at hk; exact hk
          | some k => rw [List.filterMap_cons_some hj] at hk; exact (List.nodup_cons.1 hk).2)
        (by
          intro k k' d h1 h2
          exact hd' k k' d (pop_lookup_some h1).2 (pop_lookup_some h2).2)
        (by
          intro k hmem
          have hne : j.key ≠ some k := by
            intro e
            rw [List.filterMap_cons_some e] at hk
            refine (List.nodup_cons.1 hk).1 ?_
            obtain ⟨w, hw, hw2⟩ := List.mem_map.1 hmem
            exact List.mem_filterMap.2 ⟨w, hw, hw2⟩
          obtain ⟨a1, a2⟩ := hs k (by rw [List.map_cons]; exact List.mem_cons_of_mem _ hmem)
          refine ⟨by rw [pop_lookup j st' k hne]; exact a1, ?_⟩
          intro d hl
          have hl' := (pop_lookup_some hl).2
          rw [pop_heap, a2 d hl']
          intro hdict
          unfold dictOf at hdict
          cases hj : j.key with
          | none => rw [hj] at hdict; cases hdict
          | some k0 =>
            rw [hj] at hdict
            exact hne (by rw [hj, hd' k0 k d hdict hl']))
      unfold produce
      simp only [e]
      refine .cons ?_ hrec
      intro hr
      rw [pop_props] at e
      rw [draw_axis e hr]
      unfold dictOf
      cases hj : j.key with
      | none =>
        show (Props.axis j.body ⟨none, none, none, none⟩).getD j.axis = (none : Option String).getD j.axis
        cases hb : j.body with
        | depth => rfl
        | time => rfl
        | rest r => exact absurd hb (hr r)
      | some k =>
        obtain ⟨a1, a2⟩ := hs k (by rw [List.map_cons, hj]; exact List.mem_cons_self)
        show (Props.axis j.body ((st'.pp.lookup k).elim ⟨none, none, none, none⟩ st'.heap)).getD j.axis =
          ((st.pp.lookup k).bind fun d => (st.heap d).axis j.body).getD j.axis
        rw [← a1]
        cases hl : st'.pp.lookup k with
        | none =>
          show (Props.axis j.body ⟨none, none, none, none⟩).getD j.axis = (none : Option String).getD j.axis
          cases hb : j.body with
          | depth => rfl
          | time => rfl
          | rest r => exact absurd hb (hr r)
        | some d =>
          show (Props.axis j.body (st'.heap d)).getD j.axis = ((st.heap d).axis j.body).getD j.axis
          rw [a2 d hl]
  exact gen js st h hk hd fun k _ => ⟨rfl, fun d _ => rfl⟩

/-- **C254** A dict given for two keys without a label: the second figure gets the label of the first, say a settlement that is labelled
as a pore pressure. -/
theorem C254_shared_dict {a b : Job} {ka kb : String} {st : St} {d : ℕ} (ha : a.key = some ka) (hb : b.key = some kb) (hne : ka ≠ kb)
    (la : st.pp.lookup ka = some d) (lb : st.pp.lookup kb = some d) (h0 : (st.heap d).ylabel = none) {ta tb : List ℝ} {ya yb : Arr} {sa sb : List String}
    {ia ib : Bool} (ba : a.body = .time ta ya sa ia) (bb : b.body = .time tb yb sb ib) (fa : ya.cols = ta.length) (fb : yb.cols = tb.length) :
    ∃ f g, (produce [a, b] st).1 = [f, g] ∧ g.title = b.title ∧ g.ylabel = a.axis := by
  obtain ⟨f, ef, -, -⟩ := C253_right (popProps a st).1 a (by rw [ba]; exact fa)
  obtain ⟨g, eg, tg, -⟩ := C253_right (popProps b (popProps a st).2).1 b (by rw [bb]; exact fb)
  refine ⟨f, g, ?_, tg, ?_⟩
  · unfold produce
    simp only [ef]
    unfold produce
    simp only [eg]
    rfl
  · have h1 : dictOf b (popProps a st).2 = some d := by
      unfold dictOf
      rw [hb]
      show (popProps a st).2.pp.lookup kb = _
      rw [pop_lookup a st kb (by rw [ha]; simpa using hne), lb]
    have h2 : (popProps a st).2.heap d = setAxis a.body a.axis (st.heap d) := by
      unfold popProps
      rw [ha]
      show (match st.pp.lookup ka with | none => _ | some d => _ : Props × St).2.heap d = _
      rw [la]
      show (if d = d then _ else st.heap d) = _
      rw [if_pos rfl]
    rw [pop_props, h1] at eg
    have := draw_axis eg (by rw [bb]; intro r h; cases h)
    rw [bb] at this
    rw [show g.ylabel = Fig.axis (.time tb yb sb ib) g from rfl, this]
    show (Props.axis _ ((popProps a st).2.heap d)).getD b.axis = _
    rw [h2, ba]
    show (some ((st.heap d).ylabel.getD a.axis)).getD b.axis = _
    rw [h0]
    rfl

theorem produce_no_dicts (js : List Job) (st st' : St) (h : ∀ k, some k ∈ js.map Job.key → st.pp.lookup k = none)
    (h' : ∀ k, some k ∈ js.map Job.key → st'.pp.lookup k = none) : (produce js st).1 = (produce js st').1 ∧ (produce js st).2.1 = (produce js st').2.1 := by
  induction js generalizing st st' with
  | nil => exact ⟨rfl, rfl⟩
  | cons j js ih =>
    have key : ∀ s : St, (∀ k, some k ∈ (j :: js).map Job.key → s.pp.lookup k = none) →
        (popProps j s).1 = setAxis j.body j.axis ⟨none, none, none, none⟩ ∧ (popProps j s).2 = s := by
      intro s hs
      have : (j.key.bind fun k => s.pp.lookup k) = none := by
        cases hj : j.key with
        | none => rfl
        | some k => exact hs k (by rw [List.map_cons, hj]; exact List.mem_cons_self)
      unfold popProps
      rw [this]
      exact ⟨rfl, rfl⟩
    obtain ⟨i1, i2⟩ := ih st st' (fun k hk => h k (by rw [List.map_cons]; exact List.mem_cons_of_mem _ hk))
      (fun k hk => h' k (by rw [List.map_cons]; exact List.mem_cons_of_mem _ hk))
    unfold produce
    simp only [(key st h).1, (key st h).2, (key st' h').1, (key st' h').2]
    cases draw (setAxis j.body j.axis ⟨none, none, none, none⟩) j with
    | error e => exact ⟨rfl, rfl⟩
    | ok f => exact ⟨by simp only [i1], i2⟩

theorem produce_keeps_none (js : List Job) (st : St) (k : String) (h : st.pp.lookup k = none) : (produce js st).2.2.pp.lookup k = none := by
  induction js generalizing st with
  | nil => exact h
  | cons j js ih =>
    have h1 : (popProps j st).2.pp.lookup k = none := by
      by_cases e : j.key = some k
      · exact pop_lookup_self j st k e
      · rw [pop_lookup j st k e, h]
    unfold produce
    cases hd : draw (popProps j st).1 j with
    | error e => simp only [hd]; exact h1
    | ok f => simp only [hd]; exact ih _ h1

/-- **C254** `produce_plots` uses up the properties of the user: called again, it draws as if none had been given. -/
theorem C254_again (js : List Job) (st : St) (h : ∀ j ∈ js, Fits j.body) (heap : ℕ → Props) :
    (produce js (produce js st).2.2).1 = (produce js ⟨heap, []⟩).1 := by
  have : ∀ (js : List Job) (st : St), (∀ j ∈ js, Fits j.body) → ∀ k, some k ∈ js.map Job.key → (produce js st).2.2.pp.lookup k = none := by
    clear h js st
    intro js
    induction js with
    | nil => intro st _ k hk; cases hk
    | cons j js ih =>
      intro st h k hk
      obtain ⟨f, e, -, -⟩ := C253_right (popProps j st).1 j (h j List.mem_cons_self)
      unfold produce
      simp only [e]
      rw [List.map_cons] at hk
      rcases List.mem_cons.1 hk with hk | hk
      · exact produce_keeps_none js _ k (pop_lookup_self j st k hk.symm)
      · exact ih _ (fun w hw => h w (List.mem_cons_of_mem _ hw)) k hk
  exact (produce_no_dicts js _ _ (this js st h) (fun k _ => rfl)).1

/-- **C254** So a second figure may differ from the first. -/
theorem C254_again_differs {j : Job} {k s : String} {st : St} {d : ℕ} (hj : j.key = some k) (hl : st.pp.lookup k = some d) {x : Arr} {z : List ℝ}
    {labels : List String} {H : ℝ} {rl : Option ℝ} (hb : j.body = .depth x z labels H rl) (hf : x.rows = z.length) (hs : (st.heap d).xlabel = some s)
    (hne : s ≠ j.axis) : (produce [j] (produce [j] st).2.2).1 ≠ (produce [j] st).1 := by
  have fit : ∀ w ∈ [j], Fits w.body := by
    intro w hw
    rw [List.mem_singleton] at hw
    subst hw
    rw [hb]
    exact hf
  have nr : ∀ r, j.body ≠ .rest r := by rw [hb]; intro r h; cases h
  have one : ∀ s : St, ∃ f, (produce [j] s).1 = [f] ∧ draw (popProps j s).1 j = .ok f := by
    intro s
    obtain ⟨f, e, -, -⟩ := C253_right (popProps j s).1 j (fit j List.mem_cons_self)
    refine ⟨f, ?_, e⟩
    unfold produce
    simp only [e]
    rfl
  rw [C254_again [j] st fit fun _ => ⟨none, none, none, none⟩]
  obtain ⟨f, e1, e2⟩ := one st
  obtain ⟨g, g1, g2⟩ := one ⟨fun _ => ⟨none, none, none, none⟩, []⟩
  rw [e1, g1]
  intro heq
  have hfg : g = f := by simpa using heq
  subst hfg
  rw [pop_props] at e2 g2
  have a1 := draw_axis e2 nr
  have a2 := draw_axis g2 nr
  have d1 : dictOf j st = some d := by unfold dictOf; rw [hj]; exact hl
  have d2 : dictOf j ⟨fun _ => ⟨none, none, none, none⟩, []⟩ = none := by unfold dictOf; rw [hj]; rfl
  rw [d1] at a1
  rw [d2] at a2
  rw [a1, hb] at a2
  refine hne ?_
  have : (st.heap d).xlabel.getD j.axis = j.axis := a2
  rw [hs] at this
  exact this

/-! ## C254: the classes -/

/-- A step as it should be. -/
def Job.spec (j : Job) : Spec := ⟨j.key.getD "", j.title, j.axis, j.body⟩

theorem drawn (js : List Job) (st : St) (h : ∀ j ∈ js, Fits j.body) (hk : (js.filterMap Job.key).Nodup)
    (hn : ∀ j ∈ js, j.key = none → ∃ r, j.body = .rest r) {exp : List Spec} (he : js.map Job.spec = exp) :
    (produce js st).2.1 = none ∧ List.Forall₂ (Drawn st) exp (produce js st).1 := by
  subst he
  refine ⟨(C254_all js st h).1, ?_⟩
  rw [List.forall₂_map_left_iff]
  have h1 := (C254_all js st h).2
  have h2 : Unshared st → _ := fun hu => C254_axis js st h hk hu
  have hx : ∀ (js : List Job) (fs : List Fig), (∀ j ∈ js, j.key = none → ∃ r, j.body = .rest r) →
      List.Forall₂ (fun j f => f.title = j.title ∧ Right j.body f) js fs →
      (Unshared st → List.Forall₂ (fun j f => (∀ r, j.body ≠ .rest r) →
        f.axis j.body = ((j.key.bind fun k => st.pp.lookup k).bind fun d => (st.heap d).axis j.body).getD j.axis) js fs) →
      List.Forall₂ (fun j f => Drawn st j.spec f) js fs := by
    intro js fs hn a b
    induction a with
    | nil => exact .nil
    | @cons j f js fs p q ih =>
      refine .cons ⟨p.1, p.2, ?_⟩ (ih (fun j hj => hn j (List.mem_cons_of_mem _ hj)) fun hu => by
        cases b hu with
        | cons _ c => exact c)
      intro hu hr
      cases b hu with
      | cons c _ =>
        cases hj : j.key with
        | none =>
          obtain ⟨r, e⟩ := hn j List.mem_cons_self hj
          exact absurd e (hr r)
        | some k =>
          have := c hr
          rw [hj] at this
          show f.axis j.body = ((st.pp.lookup (j.key.getD "")).bind _).getD j.axis
          rw [hj]
          exact this
  exact hx js _ hn h1 h2

/-- **C254** Speccon1dVR: the figures of pressure, average pressure and settlement are there exactly if their input is, then loads and
materials. -/
theorem C254_vr (o : Run) (por avp set : Arr) (st : St) (h1 : ∀ z, o.z = some z → Shape por z.length o.tpor)
    (h2 : ∀ p, o.avgPairs = some p → Shape avp p.length o.tavp) (h3 : ∀ p, o.setPairs = some p → Shape set p.length o.tset) (hl : o.loads = .ok ())
    (hm : o.materials = .ok ()) : (produce (o.vr por avp set) st).2.1 = none ∧ List.Forall₂ (Drawn st)
      ((o.z.elim [] fun z => [⟨"por", "fig_por", "Pore pressure", .depth por z (o.tpor.map o.fmt) o.H o.rl⟩]) ++
      (o.avgPairs.elim [] fun p => [⟨"avp", "fig_avp", "Average pore pressure", .time o.tavp avp (between o p) false⟩]) ++
      (o.setPairs.elim [] fun p => [⟨"set", "fig_set", "Settlement", .time o.tset set (between o p) true⟩]) ++
      [⟨"load", "fig_loads", "", .rest o.loads⟩, ⟨"material", "fig_materials", "", .rest o.materials⟩]) (produce (o.vr por avp set) st).1 := by
  refine drawn _ st ?_ ?_ ?_ ?_
  · intro j hj
    unfold Run.vr Run.tail at hj
    simp only [List.mem_append, List.mem_cons, List.not_mem_nil, or_false] at hj
    rcases hj with ((hj | hj) | hj) | rfl | rfl
    · cases hz : o.z with
      | none => rw [hz] at hj; simp at hj
      | some z => rw [hz] at hj; simp at hj; subst hj; exact (h1 z hz).1
    · cases hz : o.avgPairs with
      | none => rw [hz] at hj; simp at hj
      | some z => rw [hz] at hj; simp at hj; subst hj; exact (h2 z hz).2
    · cases hz : o.setPairs with
      | none => rw [hz] at hj; simp at hj
      | some z => rw [hz] at hj; simp at hj; subst hj; exact (h3 z hz).2
    · exact hl
    · exact hm
  · unfold Run.vr Run.tail Run.por Run.avp Run.set
    cases o.z <;> cases o.avgPairs <;> cases o.setPairs <;> simp
  · intro j hj hk
    unfold Run.vr Run.tail Run.por Run.avp Run.set at hj
    exfalso
    have : ∀ w ∈ o.vr por avp set, w.key.isSome = true := by
      unfold Run.vr Run.tail Run.por Run.avp Run.set
      cases o.z <;> cases o.avgPairs <;> cases o.setPairs <;> simp
    have := this j hj
    rw [hk] at this
    cases this
  · unfold Run.vr Run.tail Run.por Run.avp Run.set Run.intervals between
    simp only [level_eq]
    cases o.z <;> cases o.avgPairs <;> cases o.setPairs <;> rfl

/-- **C254** Speccon1dVRC: three figures of pressures and three of average pressures. -/
theorem C254_vrc (o : Run) (por pors porc avp avps avpc set : Arr) (st : St)
    (h1 : ∀ z, o.z = some z → Shape por z.length o.tpor ∧ Shape pors z.length o.tpor ∧ Shape porc z.length o.tpor)
    (h2 : ∀ p, o.avgPairs = some p → Shape avp p.length o.tavp ∧ Shape avps p.length o.tavp ∧ Shape avpc p.length o.tavp)
    (h3 : ∀ p, o.setPairs = some p → Shape set p.length o.tset) (hl : o.loads = .ok ()) (hm : o.materials = .ok ()) :
    (produce (o.vrc por pors porc avp avps avpc set) st).2.1 = none ∧ List.Forall₂ (Drawn st)
      ((o.z.elim [] fun z => [⟨"por", "fig_por", "Pore pressure", .depth por z (o.tpor.map o.fmt) o.H o.rl⟩,
        ⟨"pors", "fig_pors", "Soil pore pressure", .depth pors z (o.tpor.map o.fmt) o.H o.rl⟩,
        ⟨"porc", "fig_porc", "Column pore pressure", .depth porc z (o.tpor.map o.fmt) o.H o.rl⟩]) ++
      (o.avgPairs.elim [] fun p => [⟨"avp", "fig_avp", "Average pore pressure", .time o.tavp avp (between o p) false⟩,
        ⟨"avps", "fig_avps", "Average soil pore pressure", .time o.tavp avps (between o p) false⟩,
        ⟨"avpc", "fig_avpc", "Average column pore pressure", .time o.tavp avpc (between o p) false⟩]) ++
      (o.setPairs.elim [] fun p => [⟨"set", "fig_set", "Settlement", .time o.tset set (between o p) true⟩]) ++
      [⟨"load", "fig_loads", "", .rest o.loads⟩, ⟨"material", "fig_materials", "", .rest o.materials⟩])
      (produce (o.vrc por pors porc avp avps avpc set) st).1 := by
  refine drawn _ st ?_ ?_ ?_ ?_
  · intro j hj
    unfold Run.vrc Run.tail at hj
    simp only [List.mem_append, List.mem_cons, List.not_mem_nil, or_false] at hj
    rcases hj with ((hj | hj) | hj) | rfl | rfl
    · cases hz : o.z with
      | none => rw [hz] at hj; simp at hj
      | some z =>
        rw [hz] at hj; simp at hj
        rcases hj with rfl | rfl | rfl
        · exact (h1 z hz).1.1
        · exact (h1 z hz).2.1.1
        · exact (h1 z hz).2.2.1
    · cases hz : o.avgPairs with
      | none => rw [hz] at hj; simp at hj
      | some z =>
        rw [hz] at hj; simp at hj
        rcases hj with rfl | rfl | rfl
        · exact (h2 z hz).1.2
        · exact (h2 z hz).2.1.2
        · exact (h2 z hz).2.2.2
    · cases hz : o.setPairs with
      | none => rw [hz] at hj; simp at hj
      | some z => rw [hz] at hj; simp at hj; subst hj; exact (h3 z hz).2
    · exact hl
    · exact hm
  · unfold Run.vrc Run.tail Run.por Run.avp Run.set
    cases o.z <;> cases o.avgPairs <;> cases o.setPairs <;> simp
  · intro j hj hk
    unfold Run.vrc Run.tail Run.por Run.avp Run.set at hj
    exfalso
    have : ∀ w ∈ o.vrc por pors porc avp avps avpc set, w.key.isSome = true := by
      unfold Run.vrc Run.tail Run.por Run.avp Run.set
      cases o.z <;> cases o.avgPairs <;> cases o.setPairs <;> simp
    have := this j hj
    rw [hk] at this
    cases this
  · unfold Run.vrc Run.tail Run.por Run.avp Run.set Run.intervals between
    simp only [level_eq]
    cases o.z <;> cases o.avgPairs <;> cases o.setPairs <;> rfl

/-- **C254** Speccon1dVRW: also the pressure in the drain. -/
theorem C254_vrw (o : Run) (por porwell avp set : Arr) (st : St)
    (h1 : ∀ z, o.z = some z → Shape por z.length o.tpor ∧ Shape porwell z.length o.tpor)
    (h2 : ∀ p, o.avgPairs = some p → Shape avp p.length o.tavp) (h3 : ∀ p, o.setPairs = some p → Shape set p.length o.tset)
    (hl : o.loads = .ok ()) (hm : o.materials = .ok ()) :
    (produce (o.vrw por porwell avp set) st).2.1 = none ∧ List.Forall₂ (Drawn st)
      ((o.z.elim [] fun z => [⟨"por", "fig_por", "Pore pressure", .depth por z (o.tpor.map o.fmt) o.H o.rl⟩,
        ⟨"porwell", "fig_porwell", "Drain Pore pressure", .depth porwell z (o.tpor.map o.fmt) o.H o.rl⟩]) ++
      (o.avgPairs.elim [] fun p => [⟨"avp", "fig_avp", "Average pore pressure", .time o.tavp avp (between o p) false⟩]) ++
      (o.setPairs.elim [] fun p => [⟨"set", "fig_set", "Settlement", .time o.tset set (between o p) true⟩]) ++
      [⟨"load", "fig_loads", "", .rest o.loads⟩, ⟨"material", "fig_materials", "", .rest o.materials⟩])
      (produce (o.vrw por porwell avp set) st).1 := by
  refine drawn _ st ?_ ?_ ?_ ?_
  · intro j hj
    unfold Run.vrw Run.tail at hj
    simp only [List.mem_append, List.mem_cons, List.not_mem_nil, or_false] at hj
    rcases hj with ((hj | hj) | hj) | rfl | rfl
    · cases hz : o.z with
      | none => rw [hz] at hj; simp at hj
      | some z =>
        rw [hz] at hj; simp at hj
        rcases hj with rfl | rfl
        · exact (h1 z hz).1.1
        · exact (h1 z hz).2.1
    · cases hz : o.avgPairs with
      | none => rw [hz] at hj; simp at hj
      | some z => rw [hz] at hj; simp at hj; subst hj; exact (h2 z hz).2
    · cases hz : o.setPairs with
      | none => rw [hz] at hj; simp at hj
      | some z => rw [hz] at hj; simp at hj; subst hj; exact (h3 z hz).2
    · exact hl
    · exact hm
  · unfold Run.vrw Run.tail Run.por Run.avp Run.set
    cases o.z <;> cases o.avgPairs <;> cases o.setPairs <;> simp
  · intro j hj hk
    unfold Run.vrw Run.tail Run.por Run.avp Run.set at hj
    exfalso
    have : ∀ w ∈ o.vrw por porwell avp set, w.key.isSome = true := by
      unfold Run.vrw Run.tail Run.por Run.avp Run.set
      cases o.z <;> cases o.avgPairs <;> cases o.setPairs <;> simp
    have := this j hj
    rw [hk] at this
    cases this
  · unfold Run.vrw Run.tail Run.por Run.avp Run.set Run.intervals between
    simp only [level_eq]
    cases o.z <;> cases o.avgPairs <;> cases o.setPairs <;> rfl

/-- **C254** SchiffmanAndStein1970 and NogamiAndLi2003: pressures if times for them are given, average pressures and settlements if times for
them are given, then the roots if asked for. -/
theorem C254_layered (fmt : ℝ → String) (fmt2 : ℝ → ℝ → String) (extra : String) {tpor t : Option (List ℝ)} {z : List ℝ} (h : List ℝ) {por avp set : Arr}
    (st : St) {eigs : Option (Except PyErr Unit)} (h1 : ∀ s, tpor = some s → Shape por z.length s)
    (h2 : ∀ s, t = some s → Shape avp 1 s ∧ Shape set 1 s) (h3 : ∀ r, eigs = some r → r = .ok ()) :
    (produce (layered fmt fmt2 extra tpor t z h por avp set eigs) st).2.1 = none ∧ List.Forall₂ (Drawn st)
      ((tpor.elim [] fun s => [⟨"por", "fig_por", "Pore pressure" ++ extra, .depth por z (s.map fmt) 1 none⟩]) ++
      (t.elim [] fun s => [⟨"avp", "fig_avp", "Average pore pressure" ++ extra, .time s avp [fmt2 0 h.sum] false⟩,
        ⟨"set", "fig_set", "surface settlement" ++ extra, .time s set [fmt2 0 h.sum] true⟩]) ++
      (eigs.elim [] fun r => [⟨"", "vertical characteristic curve and eigs", "", .rest r⟩]))
      (produce (layered fmt fmt2 extra tpor t z h por avp set eigs) st).1 := by
  refine drawn _ st ?_ ?_ ?_ ?_
  · intro j hj
    unfold layered at hj
    simp only [List.mem_append] at hj
    rcases hj with (hj | hj) | hj
    · cases hz : tpor with
      | none => rw [hz] at hj; simp at hj
      | some s => rw [hz] at hj; simp at hj; subst hj; exact (h1 s hz).1
    · cases hz : t with
      | none => rw [hz] at hj; simp at hj
      | some s =>
        rw [hz] at hj; simp at hj
        rcases hj with rfl | rfl
        · exact (h2 s hz).1.2
        · exact (h2 s hz).2.2
    · cases hz : eigs with
      | none => rw [hz] at hj; simp at hj
      | some r => rw [hz] at hj; simp at hj; subst hj; exact h3 r hz
  · unfold layered
    cases tpor <;> cases t <;> cases eigs <;> simp
  · have : ∀ w ∈ layered fmt fmt2 extra tpor t z h por avp set eigs, w.key.isSome = true ∨ ∃ r, w.body = .rest r := by
      unfold layered
      cases tpor <;> cases t <;> cases eigs <;> simp
    intro j hj hk
    rcases this j hj with h | h
    · rw [hk] at h
      cases h
    · exact h
  · unfold layered
    cases tpor <;> cases t <;> cases eigs <;> rfl

/-! ## Examples -/

/-- Pressures at two depths and three times. -/
noncomputable def exPor : Arr := ⟨2, 3, fun i j => 10 * i + j⟩

/-- An analysis with pressures and settlements. -/
noncomputable def exRun : Run where
  fmt := fun _ => "t"
  fmt2 := fun _ _ => "a to b"
  H := 4
  rl := some 10
  z := some [0.25, 0.5]
  avgPairs := none
  setPairs := some [(0, 1)]
  tpor := [1, 2, 3]
  tavp := []
  tset := [1, 2]
  loads := .ok ()
  materials := .ok ()

/-- Settlement of one interval at two times. -/
noncomputable def exSet : Arr := ⟨1, 2, fun _ j => j⟩

/-- The user has labelled the pressures. -/
def exSt : St := ⟨fun _ => ⟨some "u", none, none, none⟩, [("por", 0)]⟩

/-- Non-vacuity of C253. -/
example : ∃ f, draw ⟨none, none, none, none⟩ (exRun.por "por" "fig_por" "Pore pressure" [0.25, 0.5] exPor) = .ok f ∧
    ShowsColumns f.lines 3 ["t", "t", "t"] [0.25, 0.5] (fun v i j => (10 * (i : ℝ) + j, level 4 (some 10) v)) := by
  obtain ⟨f, e, -, h, -⟩ := C253_right ⟨none, none, none, none⟩ (exRun.por "por" "fig_por" "Pore pressure" [0.25, 0.5] exPor) rfl
  exact ⟨f, e, h⟩

/-- Non-vacuity of C253: depths that do not fit. -/
example : ∃ e, draw ⟨none, none, none, none⟩ (exRun.por "por" "fig_por" "Pore pressure" [0.25] exPor) = .error e :=
  C253_refused _ _ (show ¬ 2 = 1 by norm_num)

/-- Non-vacuity of C253: with two styles the first and the third line have one style. -/
example : ∃ f la lc, draw ⟨none, none, some 2, none⟩ (exRun.por "por" "fig_por" "Pore pressure" [0.25, 0.5] exPor) = .ok f ∧ f.lines[0]? = some la ∧
    f.lines[2]? = some lc ∧ la.style = lc.style := by
  obtain ⟨f, e, -, h, -⟩ := C253_right ⟨none, none, some 2, none⟩ (exRun.por "por" "fig_por" "Pore pressure" [0.25, 0.5] exPor) rfl
  obtain ⟨la, ha, -⟩ := h.lines 0 (by show 0 < 3; norm_num)
  obtain ⟨lc, hc, -⟩ := h.lines 2 (by show 2 < 3; norm_num)
  exact ⟨f, la, lc, e, ha, hc, (C253_styles e (by intro r h; cases h) (n := 2) rfl (by norm_num) ha hc).2 rfl⟩

theorem exRun_fits : ∀ j ∈ exRun.vr exPor exSet exSet, Fits j.body := by
  intro j hj
  have : exRun.vr exPor exSet exSet = [exRun.por "por" "fig_por" "Pore pressure" [0.25, 0.5] exPor, exRun.set [(0, 1)] exSet] ++ exRun.tail := rfl
  rw [this] at hj
  simp only [Run.tail, List.mem_append, List.mem_cons, List.not_mem_nil, or_false] at hj
  rcases hj with (rfl | rfl) | rfl | rfl <;> rfl

/-- Non-vacuity of C254: the figures. -/
example : ∃ f g r, (produce (exRun.vr exPor exSet exSet) exSt).1 = f :: g :: r ∧ f.title = "fig_por" ∧ g.title = "fig_set" := by
  have h := (C254_vr exRun exPor exSet exSet exSt (fun z h => by cases h; exact ⟨rfl, rfl⟩) (fun p h => by cases h) (fun p h => by cases h; exact ⟨rfl, rfl⟩)
    rfl rfl).2
  generalize (produce (exRun.vr exPor exSet exSet) exSt).1 = fs at h ⊢
  cases h with
  | cons a b =>
    cases b with
    | cons c d => exact ⟨_, _, _, rfl, a.1, c.1⟩

/-- Non-vacuity of C254: Speccon1dVRC and Speccon1dVRW. -/
example : (produce (exRun.vrc exPor exPor exPor exSet exSet exSet exSet) exSt).2.1 = none ∧ (produce (exRun.vrw exPor exPor exSet exSet) exSt).2.1 = none :=
  ⟨(C254_vrc exRun exPor exPor exPor exSet exSet exSet exSet exSt (fun z h => by cases h; exact ⟨⟨rfl, rfl⟩, ⟨rfl, rfl⟩, rfl, rfl⟩) (fun p h => by cases h)
    (fun p h => by cases h; exact ⟨rfl, rfl⟩) rfl rfl).1,
   (C254_vrw exRun exPor exPor exSet exSet exSt (fun z h => by cases h; exact ⟨⟨rfl, rfl⟩, rfl, rfl⟩) (fun p h => by cases h)
    (fun p h => by cases h; exact ⟨rfl, rfl⟩) rfl rfl).1⟩

/-- Non-vacuity of C254: the label of the user. -/
example : ∃ f r, (produce (exRun.vr exPor exSet exSet) exSt).1 = f :: r ∧ f.xlabel = "u" := by
  have h := C254_axis (exRun.vr exPor exSet exSet) exSt exRun_fits (by
    show ["por", "set", "load", "material"].Nodup
    decide) (by
    intro k k' d h1 h2
    have g : ∀ s, exSt.pp.lookup s = some d → s = "por" := by
      intro s hs
      by_contra hn
      have : exSt.pp.lookup s = none := by
        show List.lookup s [("por", 0)] = none
        rw [List.lookup_cons, show (s == "por") = false by simpa using hn]
        rfl
      rw [this] at hs
      cases hs
    rw [g k h1, g k' h2])
  generalize (produce (exRun.vr exPor exSet exSet) exSt).1 = fs at h ⊢
  cases h with
  | cons a b => exact ⟨_, _, rfl, a (by intro r h; cases h)⟩

/-- Non-vacuity of C254: one dict for the average pressure and the settlement. -/
example : ∃ f g, (produce [⟨some "avp", "fig_avp", "Average pore pressure", .time [1, 2] exSet ["a"] false⟩,
      ⟨some "set", "fig_set", "Settlement", .time [1, 2] exSet ["a"] true⟩] ⟨fun _ => ⟨none, none, none, some false⟩, [("avp", 0), ("set", 0)]⟩).1 = [f, g] ∧
    g.title = "fig_set" ∧ g.ylabel = "Average pore pressure" :=
  C254_shared_dict (ka := "avp") (kb := "set") (d := 0) rfl rfl (by decide) rfl rfl rfl rfl rfl rfl rfl

/-- Non-vacuity of C254: the second call. -/
example : (produce [exRun.por "por" "fig_por" "Pore pressure" [0.25, 0.5] exPor]
      (produce [exRun.por "por" "fig_por" "Pore pressure" [0.25, 0.5] exPor] exSt).2.2).1 ≠
    (produce [exRun.por "por" "fig_por" "Pore pressure" [0.25, 0.5] exPor] exSt).1 :=
  C254_again_differs (k := "por") (s := "u") (d := 0) rfl rfl rfl rfl rfl (by decide)

/-- Non-vacuity of C254: no loads, so no figures of loads and materials. -/
example : ∃ e, (produce [exRun.por "por" "fig_por" "Pore pressure" [0.25, 0.5] exPor, ⟨some "load", "fig_loads", "", .rest (.error .valueError)⟩,
      ⟨some "material", "fig_materials", "", .rest (.ok ())⟩] exSt).2.1 = some e :=
  (C254_stops [exRun.por "por" "fig_por" "Pore pressure" [0.25, 0.5] exPor] ⟨some "load", "fig_loads", "", .rest (.error .valueError)⟩
    [⟨some "material", "fig_materials", "", .rest (.ok ())⟩] exSt (by
      intro k hk
      rw [List.mem_singleton] at hk
      subst hk
      rfl) (by intro h; cases h)).1

/-- Non-vacuity of C254: a layered soil. -/
example : (produce (layered (fun _ => "t") (fun _ _ => "0 to 3") " (radial average)" (some [1, 2, 3]) (some [1, 2]) [0, 1] [1, 2] exPor exSet exSet none)
      exSt).2.1 = none :=
  (C254_layered _ _ _ _ exSt (fun s h => by cases h; exact ⟨rfl, rfl⟩) (fun s h => by cases h; exact ⟨⟨rfl, rfl⟩, rfl, rfl⟩) (fun r h => by cases h)).1

end Geotecha.Plot.Results
