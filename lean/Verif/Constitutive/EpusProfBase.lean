import Verif.Constitutive.EpusPath
import Verif.Constitutive.EpusOut

/-! # EPUS profiles: end points of stress paths, depths, one iteration -/

set_option autoImplicit false
set_option linter.unusedVariables false

namespace Geotecha.Epus

/-- Specification: the suction and net stress a path ends at. -/
def reach (cs ct : ℝ) : List PathStep → ℝ × ℝ
  | [] => (cs, ct)
  | s :: l => if s.ist then reach cs s.vl l else reach s.vl ct l

theorem specPath_last : ∀ (path : List PathStep) (cs ct : ℝ), path ≠ [] → 0 < cs → 0 < ct →
    (∀ s ∈ path, 2 ≤ s.npp ∧ 0 < s.vl) →
    ∃ l, (specPath cs ct path).getLast? = some l ∧
      l.getLast? = some (clampVal (reach cs ct path).1, clampVal (reach cs ct path).2)
  | [], _, _, h, _, _, _ => absurd rfl h
  | s :: l, cs, ct, _, hcs, hct, hall => by
    obtain ⟨hn, hv⟩ := hall s (by simp)
    obtain ⟨m, hm⟩ : ∃ m, s.npp = m + 1 := ⟨s.npp - 1, by omega⟩
    have hm1 : m = s.npp - 1 := by omega
    by_cases hl : l = []
    · subst hl
      unfold specPath reach
      split
      · rw [specPath]
        refine ⟨_, List.getLast?_singleton, ?_⟩
        rw [hm, List.range_succ, List.map_append, List.map_cons, List.map_nil, List.getLast?_append]
        simp only [List.getLast?_singleton, Option.some_or, reach]
        rw [← hm, hm1, geometric_last hct hn]
      · rw [specPath]
        refine ⟨_, List.getLast?_singleton, ?_⟩
        rw [hm, List.range_succ, List.map_append, List.map_cons, List.map_nil, List.getLast?_append]
        simp only [List.getLast?_singleton, Option.some_or, reach]
        rw [← hm, hm1, geometric_last hcs hn]
    · unfold specPath reach
      split
      · obtain ⟨r, h1, h2⟩ := specPath_last l cs s.vl hl hcs hv (fun t ht => hall t (by simp [ht]))
        exact ⟨r, by rw [List.getLast?_cons, h1]; rfl, h2⟩
      · obtain ⟨r, h1, h2⟩ := specPath_last l s.vl ct hl hv hct (fun t ht => hall t (by simp [ht]))
        exact ⟨r, by rw [List.getLast?_cons, h1]; rfl, h2⟩

theorem endPoint_inv {q : Par} {path : List PathStep} {x : Pt} (h : endPoint q path = .ok x) :
    ∃ st out l, calresults q path (List.replicate q.numSr 0) (List.replicate q.numSr 0) = .ok (st, out) ∧
      out.getLast? = some l ∧ l.getLast? = some x := by
  unfold endPoint at h
  rw [bind_ok] at h
  obtain ⟨⟨st, out⟩, h1, h⟩ := h
  dsimp only at h
  cases hl : out.getLast? with
  | none => rw [hl] at h; simp at h
  | some l =>
    rw [hl] at h
    dsimp only at h
    cases hx : l.getLast? with
    | none => rw [hx] at h; simp at h
    | some y =>
      rw [hx] at h
      simp only [Except.ok.injEq] at h
      subst h
      exact ⟨st, out, l, h1, hl, hx⟩

theorem endPoint_bounds {q : Par} (hb0 : 0 ≤ q.beta) (hb1 : q.beta ≤ 1) (hg : 0 < q.Gs) {path : List PathStep} {x : Pt}
    (h : endPoint q path = .ok x) : 0 ≤ x.e ∧ 0 ≤ x.w ∧ 0 ≤ x.Sr ∧ x.Sr ≤ 1 := by
  obtain ⟨st, out, l, h1, h2, h3⟩ := endPoint_inv h
  have := C194_outputs_in_range q hb0 hb1 hg path _ _ st out h1 l (List.mem_of_getLast? h2) x (List.mem_of_getLast? h3)
  exact ⟨this.1, this.2.1, this.2.2.1, this.2.2.2.1⟩

theorem endPoint_reach {q : Par} {path : List PathStep} {x : Pt} (h : endPoint q path = .ok x)
    (hall : ∀ s ∈ path, 2 ≤ s.npp ∧ 0 < s.vl) :
    x.ss = clampVal (reach (pow10 q.minS) (pow10 q.minS / 1000) path).1 ∧
      x.st = clampVal (reach (pow10 q.minS) (pow10 q.minS / 1000) path).2 := by
  obtain ⟨st, out, l, h1, h2, h3⟩ := endPoint_inv h
  have hr := C195_recorded_path q path _ _ st out h1
  have hne : path ≠ [] := by
    rintro rfl
    rw [specPath, List.map_eq_nil_iff] at hr
    rw [hr] at h2; simp at h2
  have hp := pow10_pos q.minS
  obtain ⟨l', a1, a2⟩ := specPath_last path _ _ hne hp (by positivity : 0 < pow10 q.minS / 1000) hall
  rw [← hr, List.getLast?_map, h2] at a1
  simp only [Option.map_some, Option.some.injEq] at a1
  rw [← a1, List.getLast?_map, h3] at a2
  simp only [Option.map_some, Option.some.injEq, Prod.mk.injEq] at a2
  exact a2

theorem endPoint_total {q : Par} (hq : Runs q) {path : List PathStep} (hne : path ≠ []) (hall : ∀ s ∈ path, 2 ≤ s.npp ∧ StepIn q s) :
    ∃ x, endPoint q path = .ok x := by
  obtain ⟨st, out, h1, h2⟩ := C193_calresults_succeeds q hq path (fun s hs => (hall s hs).2) (List.replicate q.numSr 0)
    (List.replicate q.numSr 0) (by simp) (by simp)
  have hr := C195_recorded_path q path _ _ st out h1
  have hp := pow10_pos q.minS
  obtain ⟨l', a1, a2⟩ := specPath_last path _ _ hne hp (by positivity : 0 < pow10 q.minS / 1000)
    (fun s hs => ⟨(hall s hs).1, (hall s hs).2.2.1⟩)
  rw [← hr, List.getLast?_map] at a1
  cases hl : out.getLast? with
  | none => rw [hl] at a1; simp at a1
  | some l =>
    rw [hl] at a1
    simp only [Option.map_some, Option.some.injEq] at a1
    rw [← a1, List.getLast?_map] at a2
    cases hx : l.getLast? with
    | none => rw [hx] at a2; simp at a2
    | some y =>
      unfold endPoint
      rw [h1, ok_bind]
      dsimp only
      rw [hl]
      dsimp only
      rw [hx]
      exact ⟨y, rfl⟩

theorem stOf_pos (q : Par) (r : Row) : 0 < stOf q r := by
  have := pow10_pos q.minS
  exact lt_of_lt_of_le (by positivity) (le_max_right _ _)

theorem basePath_ne (q : Par) (npp : ℕ) (r : Row) : basePath q npp r ≠ [] := by
  unfold basePath; split <;> simp

theorem basePath_steps {q : Par} {npp : ℕ} (hn : 2 ≤ npp) {r : Row} : ∀ s ∈ basePath q npp r, 2 ≤ s.npp ∧ 0 < s.vl := by
  intro s hs
  unfold basePath at hs
  have hp := pow10_pos q.minS
  split at hs <;> rename_i h
  · simp only [List.mem_cons, List.not_mem_nil, or_false] at hs
    subst hs; exact ⟨hn, stOf_pos q r⟩
  · simp only [List.mem_cons, List.not_mem_nil, or_false] at hs
    rcases hs with rfl | rfl
    · exact ⟨hn, stOf_pos q r⟩
    · exact ⟨hn, by push Not at h; exact hp.trans h⟩

theorem basePath_in {q : Par} {npp : ℕ} (hn : 2 ≤ npp) {r : Row} (hs : r.ss ≤ pow10 q.maxS) :
    ∀ s ∈ basePath q npp r, 2 ≤ s.npp ∧ StepIn q s := by
  intro s hs'
  obtain ⟨h1, h2⟩ := basePath_steps hn s hs'
  refine ⟨h1, by omega, h2, fun hi => ?_⟩
  unfold basePath at hs'
  split at hs' <;> rename_i h
  · simp only [List.mem_cons, List.not_mem_nil, or_false] at hs'
    subst hs'; simp at hi
  · simp only [List.mem_cons, List.not_mem_nil, or_false] at hs'
    rcases hs' with rfl | rfl
    · simp at hi
    · push Not at h; exact ⟨h.le, hs⟩

theorem basePath_reach (q : Par) (npp : ℕ) (r : Row) :
    (reach (pow10 q.minS) (pow10 q.minS / 1000) (basePath q npp r)) = (max (pow10 q.minS) r.ss, stOf q r) := by
  unfold basePath
  split <;> rename_i h
  · simp only [reach, if_true]; rw [max_eq_left h]
  · simp only [reach, if_true]
    push Not at h
    rw [max_eq_right h.le]; simp

/-! ## One iteration -/

/-- What an iteration keeps of a row. -/
def SameDepth (r r' : Row) : Prop := r'.z = r.z ∧ r'.uw = r.uw

theorem epusRow_inv {q : Par} {npp : ℕ} {r r' : Row} (h : epusRow q npp r = .ok r') :
    ∃ x, endPoint q (basePath q npp r) = .ok x ∧ r' = r.setPt x := by
  unfold epusRow at h
  rw [bind_ok] at h
  obtain ⟨x, hx, h⟩ := h
  simp only [Except.ok.injEq] at h
  exact ⟨x, hx, h.symm⟩

theorem overburden_length (s : ℝ) (r : Row) (l : List Row) : (overburden s r l).length = l.length + 1 := by
  induction l generalizing s r with
  | nil => rfl
  | cons a l ih => simp [overburden, ih]

/-- The rows of a profile after `_stress_from_overburden` only differ in `st`. -/
theorem stress_f2 (p : PPar) (rows : List Row) : List.Forall₂ (fun r r' => r' = r.setSt r'.st) rows (stressFromOverburden p rows) := by
  cases rows with
  | nil => exact .nil
  | cons r l =>
    have : ∀ (l : List Row) (m : List ℝ), l.length = m.length →
        List.Forall₂ (fun r r' => r' = r.setSt r'.st) l (List.zipWith (fun x s => x.setSt (buoyant x.uw s)) l m) := by
      intro l
      induction l with
      | nil => intro m _; simp
      | cons a l ih =>
        intro m hm
        cases m with
        | nil => simp at hm
        | cons b m => exact .cons rfl (ih m (by simpa using hm))
    exact this _ _ (by rw [overburden_length]; rfl)

theorem f2_map_left {α β γ : Type} {R : β → γ → Prop} {f : α → β} {l : List α} {m : List γ} (h : List.Forall₂ R (l.map f) m) :
    List.Forall₂ (fun a c => R (f a) c) l m := by
  rwa [List.forall₂_map_left_iff] at h

/-- **One iteration.**  The rows it produces: depth and pore pressure kept, void ratio and saturation from EPUS, unit weight
from these. -/
theorem profStep_rows {p : PPar} {N npp : ℕ} {rows rows' : List Row} (h : profStep p N npp rows = .ok rows') :
    List.Forall₂ (fun r r' => ∃ x, endPoint (withNpoint p.epus N) (basePath (withNpoint p.epus N) npp r) = .ok x ∧
      r'.z = r.z ∧ r'.uw = r.uw ∧ r'.ss = x.ss ∧ r'.e = x.e ∧ r'.Sr = (if 1 < x.Sr then 1 else x.Sr) ∧
      r'.gam = (p.epus.Gs + r'.Sr * r'.e) / (1 + r'.e) * p.gamw) rows rows' ∧
    ∃ mid, rows' = stressFromOverburden p mid := by
  unfold profStep at h
  rw [bind_ok] at h
  obtain ⟨mid, h1, h⟩ := h
  simp only [Except.ok.injEq] at h
  subst h
  refine ⟨?_, _, rfl⟩
  have a := mapM_f2 h1
  have b := f2_map_left (stress_f2 p (mid.map (densityRow p)))
  refine (f2_comp a b).imp fun r r' ⟨m, hm, hr'⟩ => ?_
  obtain ⟨x, hx, rfl⟩ := epusRow_inv hm
  refine ⟨x, hx, ?_⟩
  rw [hr']
  exact ⟨rfl, rfl, rfl, rfl, rfl, rfl⟩

/-! ## The convergence loop -/

theorem iterate_inv {p : PPar} {N npp : ℕ} (P : List Row → Prop)
    (hstep : ∀ rows rows', P rows → profStep p N npp rows = .ok rows' → P rows') :
    ∀ (fuel j : ℕ) (rows : List Row) (r : List Row × ℕ), P rows → iterate p N npp fuel j rows = .ok r → P r.1
  | 0, j, rows, r, hP, h => by
    unfold iterate at h
    simp only [Except.ok.injEq] at h
    subst h; exact hP
  | fuel + 1, j, rows, r, hP, h => by
    unfold iterate at h
    rw [bind_ok] at h
    obtain ⟨rows', h1, h⟩ := h
    have hP' := hstep _ _ hP h1
    split at h
    · simp only [Except.ok.injEq] at h
      subst h; exact hP'
    · exact iterate_inv P hstep fuel (j + 1) rows' r hP' h

/-- The value of `j` after the loop, and what it says about convergence. -/
theorem iterate_count {p : PPar} {N npp : ℕ} : ∀ (fuel j : ℕ) (rows : List Row) (r : List Row × ℕ),
    iterate p N npp (fuel + 1) j rows = .ok r → j ≤ r.2 ∧ r.2 < j + (fuel + 1) ∧
      ∃ prev, profStep p N npp prev = .ok r.1 ∧
        (r.2 + 1 < j + (fuel + 1) → allclose p.atol p.rtol (prev.map (·.st)) (r.1.map (·.st)) = true)
  | 0, j, rows, r, h => by
    unfold iterate at h
    rw [bind_ok] at h
    obtain ⟨rows', h1, h⟩ := h
    split at h
    · simp only [Except.ok.injEq] at h
      subst h; exact ⟨le_rfl, by simp, rows, h1, fun _ => by assumption⟩
    · unfold iterate at h
      simp only [Except.ok.injEq] at h
      subst h
      refine ⟨by simp, by simp, rows, h1, fun h => ?_⟩
      simp at h
  | fuel + 1, j, rows, r, h => by
    unfold iterate at h
    rw [bind_ok] at h
    obtain ⟨rows', h1, h⟩ := h
    split at h
    · simp only [Except.ok.injEq] at h
      subst h; exact ⟨le_rfl, by simp, rows, h1, fun _ => by assumption⟩
    · obtain ⟨a, b, prev, c, d⟩ := iterate_count fuel (j + 1) rows' r h
      exact ⟨by omega, by omega, prev, c, fun hh => d (by omega)⟩

theorem iterate_total {p : PPar} {N npp : ℕ} (P : List Row → Prop)
    (hstep : ∀ rows, P rows → ∃ rows', profStep p N npp rows = .ok rows' ∧ P rows') :
    ∀ (fuel j : ℕ) (rows : List Row), P rows → ∃ r, iterate p N npp fuel j rows = .ok r ∧ P r.1
  | 0, j, rows, hP => ⟨_, rfl, hP⟩
  | fuel + 1, j, rows, hP => by
    obtain ⟨rows', h1, hP'⟩ := hstep rows hP
    unfold iterate
    rw [h1, ok_bind]
    split
    · exact ⟨_, rfl, hP'⟩
    · exact iterate_total P hstep fuel (j + 1) rows' hP'

end Geotecha.Epus
