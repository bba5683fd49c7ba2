import Verif.Speccon.LoadForms
import Verif.Speccon.Props
import Verif.Piecewise.Props

set_option linter.unusedVariables false
open Real intervalIntegral MeasureTheory
namespace Geotecha.Speccon
open Geotecha.Spec Geotecha.Piecewise

theorem sum_filter_range (p : ℕ → Bool) (f : ℕ → ℝ) (n : ℕ) :
    (((List.range n).filter p).map f).sum = ∑ k ∈ Finset.range n, if p k then f k else 0 := by
  induction n with
  | zero => simp
  | succ n ih =>
    rw [List.range_succ, List.filter_append, List.map_append, List.sum_append, ih, Finset.sum_range_succ]
    by_cases h : p n <;> simp [h]

theorem sum_opt_range (o : Option ℕ) (q : ℕ → Prop) [DecidablePred q] (f : ℕ → ℝ) (n : ℕ) (ho : ∀ i, o = some i → i < n) :
    ((match o with | some i => if q i then [i] else [] | none => []).map f).sum
      = ∑ k ∈ Finset.range n, if (o = some k ∧ q k) then f k else 0 := by
  cases o with
  | none => simp
  | some i =>
    have hi := ho i rfl
    simp only [Option.some.injEq]
    by_cases h : q i
    · rw [Finset.sum_eq_single i]
      · simp [h]
      · intro b _ hb; rw [if_neg]; rintro ⟨h1, _⟩; exact hb h1.symm
      · intro hn; exact absurd (Finset.mem_range.2 hi) hn
    · simp only [h, if_false, List.map_nil, List.sum_nil]
      symm
      apply Finset.sum_eq_zero
      intro k _
      rw [if_neg]; rintro ⟨rfl, h2⟩; exact h h2

/-- The load history has no two consecutive identical points. -/
def NoRepeat (T P : List ℝ) : Prop :=
  ∀ k, k + 1 < T.length → ¬ (nth T k = nth T (k+1) ∧ nth P k = nth P (k+1))

theorem deg_nil {T P : List ℝ} (h : NoRepeat T P) : degenerateSegs T P = [] := by
  unfold degenerateSegs
  rw [List.filter_eq_nil_iff]
  intro i hi
  simp only [segs, List.mem_range] at hi
  simp only [decide_eq_true_iff]
  rintro ⟨h1, h2⟩
  exact h i (by omega) ⟨(sub_eq_zero.1 h1).symm, (sub_eq_zero.1 h2).symm⟩

theorem npDelete_nil (arr : List ℕ) : npDelete arr [] = .ok arr := by
  simp only [npDelete, List.any_nil, Bool.false_eq_true, if_false, List.not_mem_nil, if_false]
  congr 1
  rw [List.filterMap_eq_map']
  exact List.map_snd_zip (by simp)

theorem loadSegments_eq {T P : List ℝ} (h : NoRepeat T P) (t : ℝ) :
    loadSegments T P t = .ok {
      rampsLess := segmentsLessThan T t (startIndexOfRamps T P) false
      constantsLess := segmentsLessThan T t ((segs T).filter (fun i => decide (nth P (i+1) - nth P i = 0))) false
      stepsLess := segmentsLessThan T t ((segs T).filter (fun i => decide (nth T (i+1) - nth T i = 0))) true
      rampsContaining := match segmentContaining T t false with
        | some i => if i ∈ startIndexOfRamps T P then [i] else []
        | none => []
      constantsContaining := match segmentContaining T t false with
        | some i => if i ∈ startIndexOfRamps T P then [] else [i]
        | none => [] } := by
  unfold loadSegments segmentContainingAlsoLess startIndexOfConstants startIndexOfSteps
  rw [deg_nil h, npDelete_nil, npDelete_nil]
  rfl

theorem min_adj {X : ℕ → ℝ} {F : ℝ → ℝ} {t : ℝ} (n : ℕ) (hi : ∀ k, k < n → IntervalIntegrable F volume (X k) (X (k+1)))
    (hm : ∀ k, k < n → X k ≤ X (k+1)) :
    ∑ k ∈ Finset.range n, ∫ z in (min (X k) t)..(min (X (k+1)) t), F z = ∫ z in (min (X 0) t)..(min (X n) t), F z := by
  refine sum_integral_adjacent_intervals (a := fun k => min (X k) t) (fun k hk => ?_)
  have h1 := hm k hk
  rcases le_total t (X k) with h | h
  · rw [min_eq_right h, min_eq_right (h.trans h1)]
  · rw [min_eq_left h]
    rcases le_total t (X (k+1)) with h' | h'
    · rw [min_eq_right h']
      exact (hi k hk).mono_set (by rw [Set.uIcc_of_le h, Set.uIcc_of_le h1]; exact Set.Icc_subset_Icc_right h')
    · rw [min_eq_left h']; exact hi k hk

/-- Sum over the segments before and containing `t` = integral up to `t`. -/
theorem load_engine {T P : List ℝ} (hs : SortedLe T) (hT : 0 < T.length) (hr : NoRepeat T P) {F : ℝ → ℝ} {G : ℕ → ℝ → ℝ}
    (hG : ∀ k, Continuous (G k))
    (hF : ∀ k, k + 1 < T.length → ∀ z, nth T k < z → z < nth T (k+1) → F z = G k z)
    (hout : ∀ z, z < nth T 0 ∨ nth T (T.length - 1) < z → F z = 0)
    {s t : ℝ} (hs0 : s ≤ nth T 0) (hst : s ≤ t) (cc cl rc rl : ℕ → ℝ)
    (hcc : ∀ k, k + 1 < T.length → nth T k < nth T (k+1) → nth P k = nth P (k+1) → cc k = ∫ z in (nth T k)..t, G k z)
    (hcl : ∀ k, k + 1 < T.length → nth T k < nth T (k+1) → nth P k = nth P (k+1) → cl k = ∫ z in (nth T k)..(nth T (k+1)), G k z)
    (hrc : ∀ k, k + 1 < T.length → nth T k < nth T (k+1) → nth P k ≠ nth P (k+1) → rc k = ∫ z in (nth T k)..t, G k z)
    (hrl : ∀ k, k + 1 < T.length → nth T k < nth T (k+1) → nth P k ≠ nth P (k+1) → rl k = ∫ z in (nth T k)..(nth T (k+1)), G k z) :
    ((match segmentContaining T t false with
        | some i => if i ∈ startIndexOfRamps T P then [] else [i]
        | none => []).map cc).sum +
    ((segmentsLessThan T t ((segs T).filter (fun i => decide (nth P (i+1) - nth P i = 0))) false).map cl).sum +
    ((match segmentContaining T t false with
        | some i => if i ∈ startIndexOfRamps T P then [i] else []
        | none => []).map rc).sum +
    ((segmentsLessThan T t (startIndexOfRamps T P) false).map rl).sum = ∫ z in s..t, F z := by
  classical
  have hmono : ∀ k, k < T.length - 1 → nth T k ≤ nth T (k+1) := fun k hk => nth_mono hs (by omega) (by omega)
  have hint : ∀ k, k < T.length - 1 → IntervalIntegrable F volume (nth T k) (nth T (k+1)) := fun k hk =>
    intervalIntegrable_congr_Ioo' (hmono k hk) (hG k) (hF k (by omega))
  have hO : ∀ i, segmentContaining T t false = some i → i < T.length - 1 := fun i hi => by
    have := (segmentContaining_false_some hi).1; omega
  have hmatch : (match segmentContaining T t false with
        | some i => if i ∈ startIndexOfRamps T P then [] else [i]
        | none => []) = (match segmentContaining T t false with
        | some i => if i ∉ startIndexOfRamps T P then [i] else []
        | none => []) := by
    cases segmentContaining T t false with
    | none => rfl
    | some i => simp only [ite_not]
  rw [hmatch, sum_opt_range _ _ _ _ hO, sum_opt_range _ _ _ _ hO]
  unfold segmentsLessThan startIndexOfRamps segs
  rw [List.filter_filter, List.filter_filter, sum_filter_range, sum_filter_range, ← Finset.sum_add_distrib,
    ← Finset.sum_add_distrib, ← Finset.sum_add_distrib]
  have hmain : ∫ z in s..t, F z = ∫ z in (min (nth T 0) t)..(min (nth T (T.length - 1)) t), F z := by
    have z1 : ∫ z in s..(min (nth T 0) t), F z = 0 := by
      rw [integral_congr_Ioo' (g := fun _ => 0) (le_min hs0 hst) (fun z h1 h2 => hout z (Or.inl (lt_of_lt_of_le h2 (min_le_left _ _))))]
      simp
    have i1 : IntervalIntegrable F volume s (min (nth T 0) t) :=
      intervalIntegrable_congr_Ioo' (g := fun _ => 0) (le_min hs0 hst) continuous_const
        (fun z h1 h2 => hout z (Or.inl (lt_of_lt_of_le h2 (min_le_left _ _))))
    have z2 : ∫ z in (min (nth T (T.length - 1)) t)..t, F z = 0 := by
      rcases le_total t (nth T (T.length - 1)) with h | h
      · rw [min_eq_right h]; simp
      · rw [min_eq_left h, integral_congr_Ioo' (g := fun _ => 0) h (fun z h1 h2 => hout z (Or.inr h1))]
        simp
    have i2 : IntervalIntegrable F volume (min (nth T (T.length - 1)) t) t := by
      rcases le_total t (nth T (T.length - 1)) with h | h
      · rw [min_eq_right h]
      · rw [min_eq_left h]
        exact intervalIntegrable_congr_Ioo' (g := fun _ => 0) h continuous_const (fun z h1 h2 => hout z (Or.inr h1))
    have i3 : IntervalIntegrable F volume (min (nth T 0) t) (min (nth T (T.length - 1)) t) := by
      have : IntervalIntegrable F volume (nth T 0) (nth T (T.length - 1)) :=
        IntervalIntegrable.trans_iterate (a := nth T) (fun k hk => hint k hk)
      have hle : nth T 0 ≤ nth T (T.length - 1) := nth_mono hs (by omega) (by omega)
      rcases le_total t (nth T 0) with h | h
      · rw [min_eq_right h, min_eq_right (h.trans hle)]
      · rw [min_eq_left h]
        exact this.mono_set (by
          rw [Set.uIcc_of_le (le_min hle h), Set.uIcc_of_le hle]; exact Set.Icc_subset_Icc_right (min_le_left _ _))
    rw [← integral_add_adjacent_intervals (i1.trans i3) i2, ← integral_add_adjacent_intervals i1 i3, z1, z2]
    ring
  rw [hmain, ← min_adj (T.length - 1) hint hmono]
  refine Finset.sum_congr rfl (fun k hk => ?_)
  have hk := Finset.mem_range.1 hk
  have hk1 : k + 1 < T.length := by omega
  have hmk := hmono k hk
  simp only [List.mem_filter, List.mem_range, hk, true_and, Bool.and_eq_true, decide_eq_true_iff, Bool.false_eq_true, if_false]
  have hpiece : ∀ q, nth T k ≤ q → q ≤ nth T (k+1) → ∫ z in (nth T k)..q, F z = ∫ z in (nth T k)..q, G k z := fun q h1 h2 =>
    integral_congr_Ioo' h1 (fun z g1 g2 => hF k hk1 z g1 (lt_of_lt_of_le g2 h2))
  rcases hmk.eq_or_lt with heq | hlt
  · -- vertical segment
    have hc : segmentContaining T t false ≠ some k := by
      intro hc
      have := (segTest_iff hs hk1 t).1 (segmentContaining_false_some hc).2.1
      linarith [this.1]
    have hP : nth P k ≠ nth P (k+1) := fun h => hr k hk1 ⟨heq, h⟩
    rw [if_neg (fun h => hc h.1), if_neg (fun h => hP (sub_eq_zero.1 h.2).symm), if_neg (fun h => hc h.1),
      if_neg (fun h => h.2.1 (sub_eq_zero.2 heq.symm)), ← heq]
    simp
  · have hne : nth T (k+1) - nth T k ≠ 0 := by linarith
    have hcont : nth T k < t → t ≤ nth T (k+1) → segmentContaining T t false = some k := by
      intro h1 h2
      rcases ho : segmentContaining T t false with _ | i
      · have := segmentContaining_none ho k hk1
        rw [(segTest_iff hs hk1 t).2 ⟨hlt, h1.le, h2⟩] at this
        exact absurd this (by simp)
      · obtain ⟨p1, p2, p3⟩ := segmentContaining_false_some ho
        have g := (segTest_iff hs p1 t).1 p2
        rcases lt_trichotomy i k with h | h | h
        · have := nth_mono hs (show i + 1 ≤ k by omega) (by omega)
          linarith [g.2.2]
        · rw [h]
        · have := p3 k h
          rw [(segTest_iff hs hk1 t).2 ⟨hlt, h1.le, h2⟩] at this
          exact absurd this (by simp)
    have hcont' : segmentContaining T t false = some k → nth T k ≤ t ∧ t ≤ nth T (k+1) := fun h =>
      ((segTest_iff hs hk1 t).1 (segmentContaining_false_some h).2.1).2
    by_cases hP : nth P k = nth P (k+1)
    · have hP0 : nth P (k+1) - nth P k = 0 := sub_eq_zero.2 hP.symm
      simp only [hne, hP0, ne_eq, not_true_eq_false, not_false_eq_true, and_false, and_true, if_false, add_zero]
      rcases lt_or_ge (nth T (k+1)) t with h | h
      · rw [if_neg (fun h' => by linarith [(hcont' h').2]), if_pos h, zero_add, hcl k hk1 hlt hP,
          min_eq_left (hlt.le.trans h.le), min_eq_left h.le, hpiece _ hmk le_rfl]
      · rw [if_neg (not_lt.2 h), min_eq_right h, add_zero]
        rcases lt_or_ge (nth T k) t with h' | h'
        · rw [if_pos (hcont h' h), min_eq_left h'.le, hcc k hk1 hlt hP, hpiece _ h'.le h]
        · rw [min_eq_right h', integral_same]
          split_ifs with h''
          · have : t = nth T k := le_antisymm h' (hcont' h'').1
            rw [hcc k hk1 hlt hP, this, integral_same]
          · rfl
    · have hP0 : nth P (k+1) - nth P k ≠ 0 := sub_ne_zero.2 (Ne.symm hP)
      simp only [hne, hP0, ne_eq, not_true_eq_false, not_false_eq_true, and_false, and_true, and_self, if_false, zero_add]
      rcases lt_or_ge (nth T (k+1)) t with h | h
      · rw [if_neg (fun h' => by linarith [(hcont' h').2]), if_pos h, zero_add, hrl k hk1 hlt hP,
          min_eq_left (hlt.le.trans h.le), min_eq_left h.le, hpiece _ hmk le_rfl]
      · rw [if_neg (not_lt.2 h), min_eq_right h, add_zero]
        rcases lt_or_ge (nth T k) t with h' | h'
        · rw [if_pos (hcont h' h), min_eq_left h'.le, hrc k hk1 hlt hP, hpiece _ h'.le h]
        · rw [min_eq_right h', integral_same]
          split_ifs with h''
          · have : t = nth T k := le_antisymm h' (hcont' h'').1
            rw [hrc k hk1 hlt hP, this, integral_same]
          · rfl

end Geotecha.Speccon
