import Verif.Plot.Unsat

/-! # The figures of `Speccon1dUnsat` (C257) -/

set_option autoImplicit false
set_option linter.unusedVariables false

namespace Geotecha.Plot.Unsat
open Geotecha.Piecewise

section figures
open Results

/-- **C257** The figures of results, in order: pressures of water and air if depths are given, their averages if depth intervals for them are given,
settlements (not with an inverted axis, as in the other classes) if depth intervals for them are given, loads, materials.  Each shows its own array, and its value
axis has the label of the user, or the default. -/
theorem C257_figures (o : Run) (porw pora avpw avpa set setw seta : Arr) (st : St)
    (h1 : ∀ z, o.z = some z → Shape porw z.length o.tpor ∧ Shape pora z.length o.tpor)
    (h2 : ∀ p, o.avgPairs = some p → Shape avpw p.length o.tavp ∧ Shape avpa p.length o.tavp)
    (h3 : ∀ p, o.setPairs = some p → Shape set p.length o.tset ∧ Shape setw p.length o.tset ∧ Shape seta p.length o.tset)
    (hl : o.loads = .ok ()) (hm : o.materials = .ok ()) :
    (produce (unsat o porw pora avpw avpa set setw seta) st).2.1 = none ∧ List.Forall₂ (Drawn st)
      ((o.z.elim [] fun z => [⟨"porw", "fig_porw", "Pore water pressure", .depth porw z (o.tpor.map o.fmt) o.H o.rl⟩,
        ⟨"pora", "fig_pora", "Pore air pressure", .depth pora z (o.tpor.map o.fmt) o.H o.rl⟩]) ++
      (o.avgPairs.elim [] fun p => [⟨"avpw", "fig_avpw", "Average pore water pressure", .time o.tavp avpw (between o p) false⟩,
        ⟨"avpa", "fig_avpa", "Average pore air pressure", .time o.tavp avpa (between o p) false⟩]) ++
      (o.setPairs.elim [] fun p => [⟨"set", "fig_set", "Settlement", .time o.tset set (between o p) false⟩,
        ⟨"setw", "fig_setw", "Water settlement", .time o.tset setw (between o p) false⟩,
        ⟨"seta", "fig_seta", "Air settlement", .time o.tset seta (between o p) false⟩]) ++
      [⟨"load", "fig_loads", "", .rest o.loads⟩, ⟨"material", "fig_materials", "", .rest o.materials⟩])
      (produce (unsat o porw pora avpw avpa set setw seta) st).1 := by
  refine drawn _ st ?_ ?_ ?_ ?_
  · intro j hj
    unfold unsat Run.tail at hj
    simp only [List.mem_append, List.mem_cons, List.not_mem_nil, or_false] at hj
    rcases hj with ((hj | hj) | hj) | rfl | rfl
    · cases hz : o.z with
      | none => rw [hz] at hj; simp at hj
      | some z =>
        rw [hz] at hj; simp at hj
        rcases hj with rfl | rfl
        · exact (h1 z hz).1.1
        · exact (h1 z hz).2.1
    · cases hz : o.avgPairs with
      | none => rw [hz] at hj; simp at hj
      | some z =>
        rw [hz] at hj; simp at hj
        rcases hj with rfl | rfl
        · exact (h2 z hz).1.2
        · exact (h2 z hz).2.2
    · cases hz : o.setPairs with
      | none => rw [hz] at hj; simp at hj
      | some z =>
        rw [hz] at hj; simp at hj
        rcases hj with rfl | rfl | rfl
        · exact (h3 z hz).1.2
        · exact (h3 z hz).2.1.2
        · exact (h3 z hz).2.2.2
    · exact hl
    · exact hm
  · unfold unsat Run.tail Run.por Run.avp settle
    cases o.z <;> cases o.avgPairs <;> cases o.setPairs <;> simp
  · intro j hj hk
    exfalso
    have : ∀ w ∈ unsat o porw pora avpw avpa set setw seta, w.key.isSome = true := by
      unfold unsat Run.tail Run.por Run.avp settle
      cases o.z <;> cases o.avgPairs <;> cases o.setPairs <;> simp
    have := this j hj
    rw [hk] at this
    cases this
  · unfold unsat Run.tail Run.por Run.avp settle Run.intervals between
    simp only [level_eq]
    cases o.z <;> cases o.avgPairs <;> cases o.setPairs <;> rfl

/-- Non-vacuity of C257: pressures and settlements. -/
example : (produce (unsat exRun exPor exPor exSet exSet exSet exSet exSet) exSt).2.1 = none :=
  (C257_figures exRun exPor exPor exSet exSet exSet exSet exSet exSt (fun z h => by cases h; exact ⟨⟨rfl, rfl⟩, rfl, rfl⟩) (fun p h => by cases h)
    (fun p h => by cases h; exact ⟨⟨rfl, rfl⟩, ⟨rfl, rfl⟩, rfl, rfl⟩) rfl rfl).1

end figures

section loads
open Loads

/-- The loads can be drawn: histories of at least two points, distributions over a range of depths, cyclic loads with a frequency. -/
structure Drawable (x : Inputs) : Prop where
  surcharge : ∀ l, x.surcharge = some l → ∀ v ∈ l, Line2 v.1 ∧ Wide v.2.1 ∧ ∀ w, v.2.2 = some w → w.1 ≠ 0
  wtop : ∀ l, x.wtop = some l → ∀ v ∈ l, Line2 v.1 ∧ ∀ w, v.2 = some w → w.1 ≠ 0
  wbot : ∀ l, x.wbot = some l → ∀ v ∈ l, Line2 v.1 ∧ ∀ w, v.2 = some w → w.1 ≠ 0
  atop : ∀ l, x.atop = some l → ∀ v ∈ l, Line2 v.1 ∧ ∀ w, v.2 = some w → w.1 ≠ 0
  abot : ∀ l, x.abot = some l → ∀ v ∈ l, Line2 v.1 ∧ ∀ w, v.2 = some w → w.1 ≠ 0

theorem groups_good {x : Inputs} (h : Drawable x) : ∀ g ∈ x.groups, ∀ l ∈ g.1, GoodLoad l := by
  intro g hg l hl
  unfold Inputs.groups at hg
  simp only [List.mem_append, mem_grp] at hg
  rcases hg with (((hg | hg) | hg) | hg) | hg <;> obtain ⟨v, ev, rfl⟩ := hg <;> obtain ⟨w, hw, rfl⟩ := List.mem_map.1 hl
  · obtain ⟨a, b, c⟩ := h.surcharge v ev w hw
    exact ⟨⟨_, _, rfl, a⟩, ⟨b.1.1, b.1.2, b.2⟩, c⟩
  · obtain ⟨a, c⟩ := h.wtop v ev w hw
    exact ⟨⟨_, _, rfl, a⟩, rfl, c⟩
  · obtain ⟨a, c⟩ := h.wbot v ev w hw
    exact ⟨⟨_, _, rfl, a⟩, rfl, c⟩
  · obtain ⟨a, c⟩ := h.atop v ev w hw
    exact ⟨⟨_, _, rfl, a⟩, rfl, c⟩
  · obtain ⟨a, c⟩ := h.abot v ev w hw
    exact ⟨⟨_, _, rfl, a⟩, rfl, c⟩

/-- All times of the load histories. -/
def allTimes (x : Inputs) : Set ℝ := {t |
  (∃ l, x.surcharge = some l ∧ ∃ v ∈ l, t ∈ v.1.1) ∨ (∃ l, x.wtop = some l ∧ ∃ v ∈ l, t ∈ v.1.1) ∨ (∃ l, x.wbot = some l ∧ ∃ v ∈ l, t ∈ v.1.1) ∨
  (∃ l, x.atop = some l ∧ ∃ v ∈ l, t ∈ v.1.1) ∨ ∃ l, x.abot = some l ∧ ∃ v ∈ l, t ∈ v.1.1}

theorem times_append (a b : List Load) : times (a ++ b) = times a ∪ times b := by
  ext t
  unfold times
  simp only [List.mem_append, Set.mem_union, Set.mem_ofPred_eq]
  constructor
  · rintro ⟨l, h | h, r⟩
    · exact Or.inl ⟨l, h, r⟩
    · exact Or.inr ⟨l, h, r⟩
  · rintro (⟨l, h, r⟩ | ⟨l, h, r⟩)
    · exact ⟨l, Or.inl h, r⟩
    · exact ⟨l, Or.inr h, r⟩

theorem times_grp {α : Type} (o : Option (List α)) (name yl : String) (f : α → Load) (xs : α → List ℝ) (h : ∀ v, ∃ y, (f v).time = .line (xs v) y) :
    times ((grp o name yl f).map Prod.fst).flatten = {t | ∃ l, o = some l ∧ ∃ v ∈ l, t ∈ xs v} := by
  ext t
  cases o with
  | none =>
    constructor
    · rintro ⟨l, hl, _⟩
      simp [grp] at hl
    · rintro ⟨l, hl, _⟩
      cases hl
  | some l =>
    have e : ((grp (some l) name yl f).map Prod.fst).flatten = l.map f := by simp [grp]
    rw [e, times_map]
    constructor
    · rintro ⟨v, hv, x, y, e, ht⟩
      obtain ⟨y', e'⟩ := h v
      rw [e'] at e
      cases e
      exact ⟨l, rfl, v, hv, ht⟩
    · rintro ⟨l', hl', v, hv, ht⟩
      cases hl'
      obtain ⟨y', e'⟩ := h v
      exact ⟨v, hv, _, _, e', ht⟩

theorem times_groups (x : Inputs) : times (x.groups.map Prod.fst).flatten = allTimes x := by
  unfold Inputs.groups
  simp only [List.map_append, List.flatten_append, times_append]
  rw [times_grp x.surcharge _ _ _ (fun v => v.1.1) fun v => ⟨_, rfl⟩, times_grp x.wtop _ _ _ (fun v => v.1.1) fun v => ⟨_, rfl⟩,
    times_grp x.wbot _ _ _ (fun v => v.1.1) fun v => ⟨_, rfl⟩, times_grp x.atop _ _ _ (fun v => v.1.1) fun v => ⟨_, rfl⟩,
    times_grp x.abot _ _ _ (fun v => v.1.1) fun v => ⟨_, rfl⟩]
  ext t
  unfold allTimes
  simp only [Set.mem_union, Set.mem_ofPred_eq, or_assoc]

/-- **C257** The figure of the loads: a row for each kind of load that is given, with the loads of that kind, boundary pressures at their boundary, over the times of
all loads. -/
theorem C257_loads {x : Inputs} (h : Drawable x) {n : ℕ} (hn : 0 < n) (H : ℝ) (rl : Option ℝ) (hne : ∃ l g s r, x.groups = (l :: g, s) :: r)
    (hsp : ∃ u ∈ allTimes x, ∃ v ∈ allTimes x, u < v) :
    ∃ a b out, IsLeast (allTimes x) a ∧ IsGreatest (allTimes x) b ∧ x.plotLoads n H rl = .ok out ∧ out.length = x.groups.length ∧
      (∀ l, x.surcharge = some l → ∃ c, ∃ row ∈ out, RowShows n c a b H rl "surch" "Surcharge"
        (l.map fun v => ⟨.line v.1.1 v.1.2, .line v.2.1.1 v.2.1.2, v.2.2⟩) row) ∧
      (∀ l, x.wtop = some l → ∃ c, ∃ row ∈ out, RowShows n c a b H rl "wtop" "Top water boundary" (l.map fun v => ⟨.line v.1.1 v.1.2, .pair [0] [1], v.2⟩) row) ∧
      (∀ l, x.wbot = some l → ∃ c, ∃ row ∈ out, RowShows n c a b H rl "wbot" "Bot water boundary" (l.map fun v => ⟨.line v.1.1 v.1.2, .pair [1] [1], v.2⟩) row) ∧
      (∀ l, x.atop = some l → ∃ c, ∃ row ∈ out, RowShows n c a b H rl "atop" "Top air boundary" (l.map fun v => ⟨.line v.1.1 v.1.2, .pair [0] [1], v.2⟩) row) ∧
      ∀ l, x.abot = some l → ∃ c, ∃ row ∈ out, RowShows n c a b H rl "abot" "Bot air boundary" (l.map fun v => ⟨.line v.1.1 v.1.2, .pair [1] [1], v.2⟩) row := by
  rw [← times_groups] at hsp ⊢
  obtain ⟨l0, g0, nm, r, e0⟩ := hne
  obtain ⟨a, b, out, ha, hb, e, hl, hr⟩ := C251_figure (gs := x.groups.map Prod.fst) (names := x.groups.map fun v => v.2.1)
    (yls := x.groups.map fun v => v.2.2) (by simp) (by simp) hn H rl ⟨l0, g0, r.map Prod.fst, by rw [e0]; rfl⟩ (by
      intro l hl
      obtain ⟨g, hg, hlg⟩ := List.mem_flatten.1 hl
      obtain ⟨q, hq, rfl⟩ := List.mem_map.1 hg
      exact groups_good h q hq l hlg) hsp
  have key : ∀ g ∈ x.groups, ∃ c, ∃ row ∈ out, RowShows n c a b H rl g.2.1 g.2.2 g.1 row := by
    intro g hg
    obtain ⟨i, hi⟩ := List.getElem?_of_mem hg
    obtain ⟨row, er, hrow⟩ := hr i g.1 g.2.1 g.2.2 (by simp [hi]) (by simp [hi]) (by simp [hi])
    exact ⟨_, row, List.mem_of_getElem? er, hrow⟩
  have kk : ∀ {α : Type} {l : Option (List α)} {name yl : String} {f : α → Load} (hs : ∀ g ∈ grp l name yl f, g ∈ x.groups),
      ∀ v, l = some v → ∃ c, ∃ row ∈ out, RowShows n c a b H rl name yl (v.map f) row := by
    intro α l name yl f hs v ev
    exact key _ (hs _ (mem_grp.2 ⟨v, ev, rfl⟩))
  refine ⟨a, b, out, ha, hb, e, by simpa using hl, ?_, ?_, ?_, ?_, ?_⟩
  all_goals exact kk fun g hg => by unfold Inputs.groups; simp only [List.mem_append]; tauto

/-- **C257** The figure of the materials: all eight, in order, each with its own data under its own label, if all are given … -/
theorem C257_materials (label : String → String → ℝ → String) (m1kw m2w m1ka m2a kw Da S por : List ℝ × List ℝ) (mvref kwref Daref : ℝ) {n : ℕ} (hn : 0 < n) (H : ℝ)
    (rl : Option ℝ) (hw : ∀ p ∈ [m1kw, m2w, m1ka, m2a, kw, Da, S, por], Wide p) :
    ∃ out, plotMaterials label ⟨some m1kw, some m2w, some m1ka, some m2a, some kw, some Da, some S, some por⟩ mvref kwref Daref n H rl = .ok out ∧
      List.Forall₂ (fun (m : (List ℝ × List ℝ) × String) (c : Curve) => c.label = m.2 ∧ ShowsDepth H rl (.line m.1.1 m.1.2) c.pts)
        [(m1kw, label "m_1k^w" "m_v" mvref), (m2w, label "m_2^w" "m_v" mvref), (m1ka, label "m_1k^a" "m_v" mvref), (m2a, label "m_2^a" "m_v" mvref),
          (kw, label "k_w" "k_w" kwref), (Da, label "D_a" "k_w" Daref), (S, "Saturation"), (por, "Porosity")] out := by
  obtain ⟨out, e, hl, hk⟩ := C252_materials (zx := [(m1kw, label "m_1k^w" "m_v" mvref), (m2w, label "m_2^w" "m_v" mvref), (m1ka, label "m_1k^a" "m_v" mvref),
    (m2a, label "m_2^a" "m_v" mvref), (kw, label "k_w" "k_w" kwref), (Da, label "D_a" "k_w" Daref), (S, "Saturation"), (por, "Porosity")]) (by simp) (by
      intro m hm
      have : m.1 ∈ [m1kw, m2w, m1ka, m2a, kw, Da, S, por] := List.mem_map_of_mem (f := Prod.fst) hm
      exact hw _ this) hn H rl
  refine ⟨out, e, List.forall₂_iff_get.2 ⟨hl.symm, fun i h1 h2 => ?_⟩⟩
  obtain ⟨c, ec, a, _, b⟩ := hk i _ (List.getElem?_eq_getElem h1)
  have : c = out[i] := by
    rw [List.getElem?_eq_getElem h2] at ec
    exact (Option.some.inj ec).symm
  subst this
  exact ⟨a, b⟩

theorem draw_label (H : ℝ) (rl : Option ℝ) (m : TimeArg × String) (c : Curve) (h : drawMaterial H rl m = .ok c) : c.label = m.2 := by
  obtain ⟨t, s⟩ := m
  have fin : ∀ v : List ℝ × List ℝ, (do
      let s' ← subdivideXY v.1 v.2 (some (extent v.1 / 8)) 4 none
      pure ⟨s, 0, (s'.1.zip s'.2).map fun q => (q.2, depthToReducedLevel q.1 H rl)⟩ : Except PyErr Curve) = .ok c → c.label = s := by
    intro v hv
    cases e : subdivideXY v.1 v.2 (some (extent v.1 / 8)) 4 none with
    | error err => rw [e] at hv; cases hv
    | ok w => rw [e] at hv; cases hv; rfl
  cases t with
  | missing => cases h
  | line x y => exact fin (x, y) h
  | pair x y =>
    cases e : asLine 0 0 (.pair x y) with
    | error err =>
      unfold drawMaterial at h
      dsimp only at h
      rw [e] at h
      cases h
    | ok v =>
      unfold drawMaterial at h
      dsimp only at h
      rw [e] at h
      exact fin v h

theorem mapM_labels (H : ℝ) (rl : Option ℝ) (l : List (TimeArg × String)) (out : List Curve) (h : l.mapM (drawMaterial H rl) = (.ok out : Except PyErr _)) :
    out.map Curve.label = l.map Prod.snd := by
  induction l generalizing out with
  | nil => cases h; rfl
  | cons m l ih =>
    rw [List.mapM_cons] at h
    cases e : drawMaterial H rl m with
    | error err => rw [e] at h; cases h
    | ok c =>
      rw [e] at h
      cases e2 : (l.mapM (drawMaterial H rl) : Except PyErr _) with
      | error err => rw [e2] at h; cases h
      | ok cs =>
        rw [e2] at h
        cases h
        rw [List.map_cons, List.map_cons, ih cs e2, draw_label H rl m c e]

/-- **C257** … with one wrong name: the label of the air diffusion coefficient calls its reference value `k_w`, so two labels of the figure give `k_w` two
values. -/
theorem C257_negation_label (label : String → String → ℝ → String) (x : Mats) (mvref kwref Daref : ℝ) (n : ℕ) (H : ℝ) (rl : Option ℝ) {out : List Curve}
    (h : plotMaterials label x mvref kwref Daref n H rl = .ok out) :
    ∃ c d, out[4]? = some c ∧ out[5]? = some d ∧ c.label = label "k_w" "k_w" kwref ∧ d.label = label "D_a" "k_w" Daref := by
  have h' : [always x.m1kw (label "m_1k^w" "m_v" mvref), always x.m2w (label "m_2^w" "m_v" mvref), always x.m1ka (label "m_1k^a" "m_v" mvref),
    always x.m2a (label "m_2^a" "m_v" mvref), always x.kw (label "k_w" "k_w" kwref), always x.Da (label "D_a" "k_w" Daref), always x.S "Saturation",
    always x.n "Porosity"].mapM (drawMaterial H rl) = .ok out := by
    unfold plotMaterials Loads.plotMaterials at h
    rw [if_neg (by simp)] at h
    split_ifs at h
    exact h
  have hl := mapM_labels H rl _ _ h'
  have key : ∀ (k : ℕ) (s : String), (out.map Curve.label)[k]? = some s → ∃ c, out[k]? = some c ∧ c.label = s := by
    intro k s hs
    rw [List.getElem?_map] at hs
    cases hk : out[k]? with
    | none => rw [hk] at hs; cases hs
    | some c => rw [hk] at hs; exact ⟨c, rfl, Option.some.inj hs⟩
  obtain ⟨c, hc, lc⟩ := key 4 (label "k_w" "k_w" kwref) (by rw [hl]; rfl)
  obtain ⟨d, hd, ld⟩ := key 5 (label "D_a" "k_w" Daref) (by rw [hl]; rfl)
  exact ⟨c, d, hc, hd, lc, ld⟩

/-- Non-vacuity of C257: loads of water and air. -/
noncomputable def exInputs : Inputs :=
  ⟨some [(([0, 1, 5], [0, 10, 10]), ([0, 1], [1, 0.5]), some (2, 0))], some [(([0, 8], [0, -20]), none)], none, some [(([0, 8], [0, -30]), none)], none⟩

theorem exInputs_ok : Drawable exInputs where
  surcharge l h v hv := by
    cases h
    rw [List.mem_singleton] at hv
    subst hv
    exact ⟨⟨rfl, by norm_num⟩, ⟨⟨rfl, by norm_num⟩, 0, by simp, 1, by simp, by norm_num⟩, by rintro w h; cases h; norm_num⟩
  wtop l h v hv := by
    cases h
    rw [List.mem_singleton] at hv
    subst hv
    exact ⟨⟨rfl, by norm_num⟩, by rintro w h; cases h⟩
  wbot l h := by cases h
  atop l h v hv := by
    cases h
    rw [List.mem_singleton] at hv
    subst hv
    exact ⟨⟨rfl, by norm_num⟩, by rintro w h; cases h⟩
  abot l h := by cases h

example : ∃ out, exInputs.plotLoads 32 3 none = .ok out ∧ out.length = 3 := by
  obtain ⟨a, b, out, _, _, e, hl, _⟩ := C257_loads exInputs_ok (n := 32) (by norm_num) 3 none ⟨_, _, _, _, rfl⟩
    ⟨0, Or.inl ⟨_, rfl, _, List.mem_singleton.2 rfl, by simp⟩, 1, Or.inl ⟨_, rfl, _, List.mem_singleton.2 rfl, by simp⟩, by norm_num⟩
  exact ⟨out, e, hl⟩

/-- Non-vacuity of C257: eight materials, of which two labels speak of `k_w`. -/
example : ∃ out, plotMaterials (fun a b _ => a ++ "/" ++ b) ⟨some ([0, 1], [1, 2]), some ([0, 1], [1, 2]), some ([0, 1], [1, 2]), some ([0, 1], [1, 2]),
    some ([0, 1], [1, 2]), some ([0, 1], [1, 2]), some ([0, 1], [1, 2]), some ([0, 1], [1, 2])⟩ 1 1 1 32 3 none = .ok out ∧ out.length = 8 ∧
    ∃ d, out[5]? = some d ∧ d.label = "D_a/k_w" := by
  obtain ⟨out, e, h⟩ := C257_materials (fun a b _ => a ++ "/" ++ b) ([0, 1], [1, 2]) ([0, 1], [1, 2]) ([0, 1], [1, 2]) ([0, 1], [1, 2]) ([0, 1], [1, 2])
    ([0, 1], [1, 2]) ([0, 1], [1, 2]) ([0, 1], [1, 2]) 1 1 1 (n := 32) (by norm_num) 3 none (by
      intro p hp
      simp only [List.mem_cons, List.not_mem_nil, or_false, or_self] at hp
      subst hp
      exact ⟨⟨rfl, by norm_num⟩, 0, by simp, 1, by simp, by norm_num⟩)
  obtain ⟨c, d, _, hd, _, hlab⟩ := C257_negation_label _ _ _ _ _ _ _ _ e
  exact ⟨out, e, h.length_eq.symm, d, hd, hlab⟩

end loads

end Geotecha.Plot.Unsat
