import Verif.Constitutive.EpusProfile
import Verif.Constitutive.EpusRun

/-! # EPUS: reading stress paths and joining their results (C200) -/

set_option autoImplicit false
set_option linter.unusedVariables false

namespace Geotecha.Epus

/-! ## C200 -/

/-- Specification: every array of a `DataResults` has `npts` entries. -/
structure Data.Ok (d : Data) : Prop where
  ss : d.ss.length = d.npts
  st : d.st.length = d.npts
  e : d.e.length = d.npts
  w : d.w.length = d.npts
  Sr : d.Sr.length = d.npts
  vw : d.vw.length = d.npts

theorem joinAttr_ok {n m : ℕ} {a b : List ℝ} (ha : a.length = n) (hb : b.length = m) : joinAttr n m a b = .ok (a ++ b) := by
  unfold joinAttr assignSlice
  rw [if_pos ha, if_pos hb]
  rfl

theorem addData_ok {a b : Data} (ha : a.Ok) (hb : b.Ok) : addData a b =
    .ok ⟨a.npts + b.npts, a.ss ++ b.ss, a.st ++ b.st, a.e ++ b.e, a.w ++ b.w, a.Sr ++ b.Sr, a.vw ++ b.vw⟩ := by
  unfold addData
  rw [joinAttr_ok ha.ss hb.ss, joinAttr_ok ha.st hb.st, joinAttr_ok ha.e hb.e, joinAttr_ok ha.w hb.w,
    joinAttr_ok ha.Sr hb.Sr, joinAttr_ok ha.vw hb.vw]
  rfl

/-- **C200, joining.**  `combine_datapoints` of a path with at least one step gives one container in which every array is
the arrays of the steps joined end to end, in order; with no steps it gives the integer 0. -/
theorem C200_combined (ds : List Data) (h : ∀ d ∈ ds, d.Ok) :
    (ds = [] → combine ds = .ok .zero) ∧
    (ds ≠ [] → ∃ d, combine ds = .ok (.data d) ∧ d.Ok ∧ d.npts = (ds.map (·.npts)).sum ∧
      d.ss = (ds.map (·.ss)).flatten ∧ d.st = (ds.map (·.st)).flatten ∧ d.e = (ds.map (·.e)).flatten ∧
      d.w = (ds.map (·.w)).flatten ∧ d.Sr = (ds.map (·.Sr)).flatten ∧ d.vw = (ds.map (·.vw)).flatten) := by
  refine ⟨fun h => by rw [h]; rfl, fun hne => ?_⟩
  obtain ⟨a, l, rfl⟩ := List.exists_cons_of_ne_nil hne
  have key : ∀ (l : List Data) (a : Data), a.Ok → (∀ d ∈ l, d.Ok) → ∃ d, l.foldlM sumStep (.data a) = .ok (.data d) ∧ d.Ok ∧
      d.npts = a.npts + (l.map (·.npts)).sum ∧
      d.ss = a.ss ++ (l.map (·.ss)).flatten ∧ d.st = a.st ++ (l.map (·.st)).flatten ∧ d.e = a.e ++ (l.map (·.e)).flatten ∧
      d.w = a.w ++ (l.map (·.w)).flatten ∧ d.Sr = a.Sr ++ (l.map (·.Sr)).flatten ∧ d.vw = a.vw ++ (l.map (·.vw)).flatten := by
    intro l
    induction l with
    | nil => intro a ha _; exact ⟨a, rfl, ha, by simp⟩
    | cons b l ih =>
      intro a ha hl
      have hb := hl b (by simp)
      obtain ⟨d, h1, h2, h3⟩ := ih ⟨a.npts + b.npts, a.ss ++ b.ss, a.st ++ b.st, a.e ++ b.e, a.w ++ b.w, a.Sr ++ b.Sr,
        a.vw ++ b.vw⟩ ⟨by simp [ha.ss, hb.ss], by simp [ha.st, hb.st], by simp [ha.e, hb.e], by simp [ha.w, hb.w],
          by simp [ha.Sr, hb.Sr], by simp [ha.vw, hb.vw]⟩ (fun d hd => hl d (by simp [hd]))
      refine ⟨d, ?_, h2, ?_⟩
      · rw [List.foldlM_cons]
        show (addData a b >>= fun r => Except.ok (Summed.data r)) >>= _ = _
        rw [addData_ok ha hb]
        exact h1
      · simpa [add_assoc] using h3
  obtain ⟨d, h1, h2, h3⟩ := key l a (h a (by simp)) fun d hd => h d (by simp [hd])
  refine ⟨d, ?_, h2, ?_⟩
  · unfold combine
    rw [List.foldlM_cons]
    exact h1
  · simpa using h3

/-- **C200, reading a path.**  A list of step dicts is accepted exactly when every dict has `vl` and `name` and no negative
`npp`; the steps keep their order, `ist` defaults to True and `npp` to 100, and each step gets a container of `npp`
zeros. -/
theorem C200_path_read (ds : List StepDict) (r : List (Bool × ℝ × ℤ × String) × List Data) :
    stressPath ds = .ok r ↔
      List.Forall₂ (fun d s => d.vl = some s.2.1 ∧ d.name = some s.2.2.2 ∧ s.1 = d.ist.getD true ∧ s.2.2.1 = d.npp.getD 100)
        ds r.1 ∧
      List.Forall₂ (fun s x => 0 ≤ s.2.2.1 ∧ (x.npts : ℤ) = s.2.2.1 ∧ x.Ok ∧
        ∀ v ∈ x.ss ++ x.st ++ x.e ++ x.w ++ x.Sr ++ x.vw, v = 0) r.1 r.2 := by
  have h1 : ∀ d s, readStep d = .ok s ↔
      (d.vl = some s.2.1 ∧ d.name = some s.2.2.2 ∧ s.1 = d.ist.getD true ∧ s.2.2.1 = d.npp.getD 100) := by
    rintro ⟨vl, ist, npp, name⟩ ⟨s1, s2, s3, s4⟩
    unfold readStep
    cases vl with
    | none => simp
    | some v =>
      cases name with
      | none => simp
      | some n =>
        simp only [Except.ok.injEq, Prod.mk.injEq, Option.some.injEq]
        constructor
        · rintro ⟨rfl, rfl, rfl, rfl⟩; simp
        · rintro ⟨rfl, rfl, rfl, rfl⟩; simp
  have h2 : ∀ (s : Bool × ℝ × ℤ × String) (x : Data), newData s.2.2.1 = .ok x ↔
      (0 ≤ s.2.2.1 ∧ (x.npts : ℤ) = s.2.2.1 ∧ x.Ok ∧ ∀ v ∈ x.ss ++ x.st ++ x.e ++ x.w ++ x.Sr ++ x.vw, v = 0) := by
    intro s x
    unfold newData
    by_cases hn : s.2.2.1 < 0
    · rw [if_pos hn]
      constructor
      · intro h; simp at h
      · rintro ⟨h, _⟩; omega
    · rw [if_neg hn]
      dsimp only
      constructor
      · intro h
        simp only [Except.ok.injEq] at h
        subst h
        refine ⟨by omega, by simp; omega, ⟨by simp, by simp, by simp, by simp, by simp, by simp⟩, fun v hv => ?_⟩
        simp only [List.mem_append, List.mem_replicate] at hv
        rcases hv with ((((⟨_, h⟩ | ⟨_, h⟩) | ⟨_, h⟩) | ⟨_, h⟩) | ⟨_, h⟩) | ⟨_, h⟩ <;> exact h
      · rintro ⟨_, hl, ok, hz⟩
        have hl' : x.npts = s.2.2.1.toNat := by omega
        have rep : ∀ l : List ℝ, l.length = x.npts → (∀ v ∈ l, v = 0) → l = List.replicate s.2.2.1.toNat 0 := by
          intro l a b
          rw [← hl', ← a]; exact List.eq_replicate_iff.2 ⟨rfl, b⟩
        have a1 := rep _ ok.ss fun v hv => hz v (by simp [hv])
        have a2 := rep _ ok.st fun v hv => hz v (by simp [hv])
        have a3 := rep _ ok.e fun v hv => hz v (by simp [hv])
        have a4 := rep _ ok.w fun v hv => hz v (by simp [hv])
        have a5 := rep _ ok.Sr fun v hv => hz v (by simp [hv])
        have a6 := rep _ ok.vw fun v hv => hz v (by simp [hv])
        cases x
        simp only at a1 a2 a3 a4 a5 a6 hl'
        rw [a1, a2, a3, a4, a5, a6, hl']
  unfold stressPath
  rw [bind_ok]
  constructor
  · rintro ⟨steps, hs, h⟩
    rw [bind_ok] at h
    obtain ⟨data, hd, h⟩ := h
    simp only [Except.ok.injEq] at h
    subst h
    exact ⟨(mapM_f2 hs).imp fun d s h => (h1 d s).1 h, (mapM_f2 hd).imp fun d s h => (h2 d s).1 h⟩
  · rintro ⟨a, b⟩
    refine ⟨r.1, mapM_of_f2 (a.imp fun d s h => (h1 d s).2 h), ?_⟩
    rw [bind_ok]
    exact ⟨r.2, mapM_of_f2 (b.imp fun d s h => (h2 d s).2 h), rfl⟩

/-- **C200, the optional name is required.**  `name` is documented as optional, but a step without it makes the
constructor raise a TypeError (`str[i]`), whatever the other steps are. -/
theorem C200_name_required (ds : List StepDict) (hv : ∀ d ∈ ds, d.vl.isSome) (hn : ∃ d ∈ ds, d.name = none) :
    stressPath ds = .error .typeError := by
  have : ds.mapM readStep = .error .typeError := by
    induction ds with
    | nil => obtain ⟨d, hd, _⟩ := hn; cases hd
    | cons a l ih =>
      rw [List.mapM_cons]
      cases a with
      | mk vl ist npp name =>
        have hvl := hv _ (List.mem_cons_self)
        cases vl with
        | none => simp at hvl
        | some v =>
          cases name with
          | none => rfl
          | some s =>
            have : l.mapM readStep = .error .typeError := by
              apply ih (fun d hd => hv d (by simp [hd]))
              obtain ⟨d, hd, hd'⟩ := hn
              rcases List.mem_cons.1 hd with rfl | h
              · simp at hd'
              · exact ⟨d, h, hd'⟩
            rw [this]
            rfl
  unfold stressPath
  rw [this]
  rfl

/-- Non-vacuity: two steps with defaults are read and joined; leaving out the second name fails. -/
example : (∃ r, stressPath [⟨some 20, none, some 2, some "a"⟩, ⟨some 1000, some false, some 3, some "b"⟩] = .ok r ∧
    r.1 = [(true, 20, 2, "a"), (false, 1000, 3, "b")] ∧ ∃ d, combine r.2 = .ok (.data d) ∧ d.npts = 5 ∧
      d.ss = [0, 0, 0, 0, 0]) ∧
    stressPath [⟨some 20, none, some 2, some "a"⟩, ⟨some 1000, some false, some 3, none⟩] = .error .typeError := by
  refine ⟨⟨([(true, 20, 2, "a"), (false, 1000, 3, "b")], [⟨2, [0, 0], [0, 0], [0, 0], [0, 0], [0, 0], [0, 0]⟩,
    ⟨3, [0, 0, 0], [0, 0, 0], [0, 0, 0], [0, 0, 0], [0, 0, 0], [0, 0, 0]⟩]), ?_, rfl, ?_⟩, ?_⟩
  · rw [C200_path_read]
    refine ⟨.cons (by simp) (.cons (by simp) .nil), .cons ⟨by norm_num, by norm_num, ⟨rfl, rfl, rfl, rfl, rfl, rfl⟩, ?_⟩
      (.cons ⟨by norm_num, by norm_num, ⟨rfl, rfl, rfl, rfl, rfl, rfl⟩, ?_⟩ .nil)⟩ <;> simp
  · obtain ⟨d, h, _, hn, hs, _⟩ := (C200_combined [⟨2, [0, 0], [0, 0], [0, 0], [0, 0], [0, 0], [0, 0]⟩,
      ⟨3, [0, 0, 0], [0, 0, 0], [0, 0, 0], [0, 0, 0], [0, 0, 0], [0, 0, 0]⟩] (by
        intro d hd
        simp only [List.mem_cons, List.not_mem_nil, or_false] at hd
        rcases hd with rfl | rfl <;> exact ⟨rfl, rfl, rfl, rfl, rfl, rfl⟩)).2 (by simp)
    exact ⟨d, h, by rw [hn]; rfl, by rw [hs]; rfl⟩
  · refine C200_name_required _ (by simp) ⟨_, List.mem_cons_of_mem _ List.mem_cons_self, rfl⟩

end Geotecha.Epus
