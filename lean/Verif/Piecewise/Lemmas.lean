import Verif.Piecewise.Model
import Verif.Piecewise.Spec
import Mathlib.Tactic.Linarith
import Mathlib.Tactic.Ring
import Mathlib.Tactic.FieldSimp
import Mathlib.Data.List.Range

set_option linter.unusedSectionVars false
set_option linter.unusedSimpArgs false
set_option linter.unusedVariables false

namespace Geotecha.Piecewise
open Geotecha.Spec

variable {K : Type} [Field K] [LinearOrder K] [IsStrictOrderedRing K]

omit [IsStrictOrderedRing K] [LinearOrder K] in
@[simp] theorem nth_cons_zero (a : K) (l : List K) : nth (a :: l) 0 = a := rfl
omit [IsStrictOrderedRing K] [LinearOrder K] in
@[simp] theorem nth_cons_succ (a : K) (l : List K) (i : ℕ) : nth (a :: l) (i+1) = nth l i := rfl

omit [IsStrictOrderedRing K] in
theorem nth_mono {x : List K} (h : SortedLe x) {i j : ℕ} (hij : i ≤ j) (hj : j < x.length) :
    nth x i ≤ nth x j := by
  rcases Nat.lt_or_eq_of_le hij with hlt | rfl
  · have := List.pairwise_iff_getElem.1 h i j (by omega) hj hlt
    simpa [nth, List.getD_eq_getElem?_getD, List.getElem?_eq_getElem, hj, (by omega : i < x.length)] using this
  · exact le_rfl

theorem segTest_iff {x : List K} (h : SortedLe x) {i : ℕ} (hi : i + 1 < x.length) (v : K) :
    segTest x v i = true ↔ nth x i < nth x (i+1) ∧ nth x i ≤ v ∧ v ≤ nth x (i+1) := by
  have hm := nth_mono h (Nat.le_succ i) hi
  unfold segTest
  rw [decide_eq_true_iff]
  constructor
  · rintro ⟨h1, h2, h3⟩
    have hlt : nth x i < nth x (i+1) := lt_of_le_of_ne hm h3
    rw [abs_of_neg (by linarith : nth x i - nth x (i+1) < 0)] at h1 h2
    rw [abs_le] at h1 h2
    exact ⟨hlt, by linarith [h2.1], by linarith [h1.2]⟩
  · rintro ⟨h1, h2, h3⟩
    rw [abs_of_neg (by linarith : nth x i - nth x (i+1) < 0), abs_of_nonneg (by linarith : 0 ≤ v - nth x i),
      abs_of_nonpos (by linarith : v - nth x (i+1) ≤ 0)]
    exact ⟨by linarith, by linarith, ne_of_lt h1⟩

/-- first matching segment -/
theorem segmentContaining_false_some {x : List K} {v : K} {j : ℕ}
    (h : segmentContaining x v false = some j) :
    j + 1 < x.length ∧ segTest x v j = true ∧ ∀ i < j, segTest x v i = false := by
  simp only [segmentContaining, segmentContainingIn, segs, Bool.false_eq_true, if_false,
    List.head?_filter, List.find?_range_eq_some] at h
  refine ⟨?_, h.1, ?_⟩
  · have := List.mem_range.1 h.2.1; omega
  · intro i hi; simpa using h.2.2 i hi

theorem segmentContaining_none {x : List K} {v : K} {b : Bool}
    (h : segmentContaining x v b = none) : ∀ i, i + 1 < x.length → segTest x v i = false := by
  intro i hi
  have : (segs x).filter (segTest x v) = [] := by
    cases b <;> simpa [segmentContaining, segmentContainingIn] using h
  by_contra hc
  have hmem : i ∈ (segs x).filter (segTest x v) := by
    simp only [List.mem_filter, segs, List.mem_range]
    exact ⟨by omega, by simpa using hc⟩
  rw [this] at hmem
  simp at hmem

theorem getLast?_filter_range {p : ℕ → Bool} {n j : ℕ}
    (h : ((List.range n).filter p).getLast? = some j) :
    j < n ∧ p j = true ∧ ∀ i, j < i → i < n → p i = false := by
  induction n with
  | zero => simp at h
  | succ n ih =>
    rw [List.range_succ, List.filter_append] at h
    by_cases hp : p n = true
    · simp [hp] at h
      subst h
      exact ⟨Nat.lt_succ_self _, hp, fun i h1 h2 => by omega⟩
    · simp only [hp, List.filter_cons, List.filter_nil, List.append_nil, Bool.false_eq_true, if_false] at h
      obtain ⟨h1, h2, h3⟩ := ih h
      refine ⟨by omega, h2, fun i hi1 hi2 => ?_⟩
      rcases Nat.lt_succ_iff_lt_or_eq.1 hi2 with hlt | rfl
      · exact h3 i hi1 hlt
      · simpa using hp

theorem segmentContaining_true_some {x : List K} {v : K} {j : ℕ}
    (h : segmentContaining x v true = some j) :
    j + 1 < x.length ∧ segTest x v j = true ∧ ∀ i, j < i → i + 1 < x.length → segTest x v i = false := by
  simp only [segmentContaining, segmentContainingIn, segs, if_true] at h
  obtain ⟨h1, h2, h3⟩ := getLast?_filter_range h
  exact ⟨by omega, h2, fun i hi1 hi2 => h3 i hi1 (by omega)⟩

/-- in-range values lie in some non-degenerate segment -/
theorem exists_seg {x : List K} (h : SortedLe x) (hx : x ≠ []) {v : K}
    (h0 : nth x 0 ≤ v) (h1 : v ≤ nth x (x.length - 1)) (hne : nth x 0 < nth x (x.length - 1)) :
    ∃ j, j + 1 < x.length ∧ nth x j < nth x (j+1) ∧ nth x j ≤ v ∧ v ≤ nth x (j+1) := by
  induction x with
  | nil => exact absurd rfl hx
  | cons a l ih =>
    cases l with
    | nil => simp at hne
    | cons b r =>
      simp only [List.length_cons, Nat.add_sub_cancel, nth_cons_succ, nth_cons_zero] at *
      have hs : SortedLe (b :: r) := (List.pairwise_cons.1 h).2
      have hab : a ≤ b := (List.pairwise_cons.1 h).1 b (by simp)
      by_cases hvb : v ≤ b ∧ a < b
      · exact ⟨0, by omega, by simpa using hvb.2, by simpa using h0, by simpa using hvb.1⟩
      · have hbv : b ≤ v := by
          rcases lt_or_eq_of_le hab with hlt | heq
          · by_contra hc; exact hvb ⟨le_of_lt (not_le.1 hc), hlt⟩
          · rw [← heq]; exact h0
        rcases lt_or_eq_of_le (nth_mono hs (Nat.zero_le r.length) (by simp)) with hlt | heq
        · obtain ⟨j, hj1, hj2, hj3, hj4⟩ := ih hs (by simp) hbv h1 hlt
          exact ⟨j+1, by omega, hj2, hj3, hj4⟩
        · have hbv' : v = b := le_antisymm (by rw [← heq] at h1; simpa using h1) hbv
          have : a < b := by rw [← heq] at hne; simpa using hne
          exact absurd ⟨by rw [hbv'], this⟩ hvb

/-- value of the polyline (from the left) inside the first matching segment -/
theorem polyLeft_eq_line {x y : List K} (h : SortedLe x) (hl : x.length = y.length) {j : ℕ}
    (hj : j + 1 < x.length) {v : K} (h1 : nth x j < nth x (j+1)) (h2 : nth x j ≤ v)
    (h3 : v ≤ nth x (j+1))
    (hfirst : ∀ i < j, nth x i < nth x (i+1) → nth x (i+1) < v) :
    polyLeft (x.zip y) v = line (nth x j, nth y j) (nth x (j+1), nth y (j+1)) v := by
  induction x generalizing y j with
  | nil => simp at hj
  | cons a l ih =>
    cases l with
    | nil => simp at hj
    | cons b r =>
      match y, hl with
      | c :: d :: s, hl =>
        have hs : SortedLe (b :: r) := (List.pairwise_cons.1 h).2
        have hav : ¬ v < a := not_lt.2 (le_trans (by simpa using nth_mono h (Nat.zero_le j) (by omega)) h2)
        simp only [List.zip_cons_cons, polyLeft, hav, if_false]
        cases j with
        | zero =>
          simp only [nth_cons_succ, nth_cons_zero] at h1 h3 ⊢
          simp [h1, h3]
        | succ j =>
          have hcond : ¬ (a < b ∧ v ≤ b) := by
            rintro ⟨h4, h5⟩
            exact absurd (hfirst 0 (by omega) (by simpa using h4)) (not_lt.2 (by simpa using h5))
          rw [if_neg hcond]
          exact ih (y := d :: s) hs (by simpa using hl) (by simpa using hj) h1 h2 h3
            (fun i hi hlt => hfirst (i+1) (by omega) hlt)

omit [IsStrictOrderedRing K] in
theorem polyLeft_below {x y : List K} (hl : x.length = y.length) (hx : 0 < x.length) {v : K}
    (hv : v < nth x 0) : polyLeft (x.zip y) v = nth y 0 := by
  match x, y, hl with
  | [a], [c], _ => simp [polyLeft]
  | a :: b :: r, c :: d :: s, _ =>
    simp only [nth_cons_zero] at hv
    simp [polyLeft, hv]

omit [IsStrictOrderedRing K] in
theorem polyLeft_above {x y : List K} (h : SortedLe x) (hl : x.length = y.length) (hx : 0 < x.length) {v : K}
    (hv : nth x (x.length - 1) < v) : polyLeft (x.zip y) v = nth y (y.length - 1) := by
  induction x generalizing y with
  | nil => simp at hx
  | cons a l ih =>
    cases l with
    | nil =>
      match y, hl with
      | [c], _ => simp [polyLeft]
    | cons b r =>
      match y, hl with
      | c :: d :: s, hl =>
        have hs : SortedLe (b :: r) := (List.pairwise_cons.1 h).2
        have hlast := nth_mono h (Nat.zero_le (r.length+1)) (by simp)
        have hlast2 := nth_mono hs (Nat.zero_le r.length) (by simp)
        simp only [List.length_cons, Nat.add_sub_cancel, nth_cons_succ, nth_cons_zero] at hv hlast hlast2
        have h1 : ¬ v < a := not_lt.2 (le_of_lt (lt_of_le_of_lt hlast hv))
        have h2 : ¬ (a < b ∧ v ≤ b) := fun hc => absurd (lt_of_le_of_lt hlast2 hv) (not_lt.2 hc.2)
        simp only [List.zip_cons_cons, polyLeft, h1, h2, if_false]
        rw [← List.zip_cons_cons, ih (y := d :: s) hs (by simpa using hl) (by simp) (by simpa using hv)]
        simp

omit [LinearOrder K] [IsStrictOrderedRing K] in
theorem getLast_eq_nth (l : List K) (h : l ≠ []) : l.getLast h = nth l (l.length - 1) := by
  have : l.length - 1 < l.length := by
    have := List.length_pos_iff.2 h; omega
  simp [List.getLast_eq_getElem, nth, List.getD_eq_getElem?_getD, List.getElem?_eq_getElem, this]

/-- Evaluation of `interpXY` once the segment is known. -/
theorem interpXY_of_some {x y : List K} (hl : x.length = y.length) {v : K} {b : Bool} {j : ℕ}
    (h : segmentContaining x v b = some j) :
    interpXY x y v b = .ok (line (nth x j, nth y j) (nth x (j+1), nth y (j+1)) v) := by
  simp [interpXY, hl, h, line]

theorem interpXY_of_none {x y : List K} (hl : x.length = y.length) (hx : 0 < x.length) {v : K} {b : Bool}
    (h : segmentContaining x v b = none) :
    interpXY x y v b = .ok (if |v - nth x 0| < |v - nth x (x.length - 1)| then nth y 0 else nth y (y.length - 1)) := by
  match x, y, hl, hx, h with
  | a :: r, c :: s, hl, hx, h =>
    simp only [interpXY, hl, h, ne_eq, not_true_eq_false, if_false]
    rw [getLast_eq_nth, getLast_eq_nth]
    split <;> simp_all

theorem below_cond {x : List K} (h : SortedLe x) (hne : nth x 0 < nth x (x.length - 1)) {v : K}
    (hv : v < nth x 0) : |v - nth x 0| < |v - nth x (x.length - 1)| := by
  rw [abs_of_neg (by linarith), abs_of_neg (by linarith)]; linarith

theorem above_cond {x : List K} (hne : nth x 0 < nth x (x.length - 1)) {v : K}
    (hv : nth x (x.length - 1) < v) : ¬ |v - nth x 0| < |v - nth x (x.length - 1)| := by
  rw [abs_of_pos (by linarith), abs_of_pos (by linarith)]; linarith

/-- outside the range no segment contains the value -/
theorem segmentContaining_out {x : List K} (h : SortedLe x) {v : K} (b : Bool)
    (hv : v < nth x 0 ∨ nth x (x.length - 1) < v) : segmentContaining x v b = none := by
  rcases hc : segmentContaining x v b with _ | j
  · rfl
  · exfalso
    have : j + 1 < x.length ∧ segTest x v j = true := by
      cases b
      · exact ⟨(segmentContaining_false_some hc).1, (segmentContaining_false_some hc).2.1⟩
      · exact ⟨(segmentContaining_true_some hc).1, (segmentContaining_true_some hc).2.1⟩
    obtain ⟨hj, ht⟩ := this
    obtain ⟨h1, h2, h3⟩ := (segTest_iff h hj v).1 ht
    have ha := nth_mono h (Nat.zero_le j) (by omega)
    have hb := nth_mono h (show j + 1 ≤ x.length - 1 by omega) (by omega)
    rcases hv with hv | hv
    · exact absurd (lt_of_lt_of_le hv ha) (not_lt.2 h2)
    · exact absurd (lt_of_le_of_lt hb hv) (not_lt.2 h3)

theorem segmentContaining_in {x : List K} (h : SortedLe x) (hne : nth x 0 < nth x (x.length - 1)) {v : K} (b : Bool)
    (h0 : nth x 0 ≤ v) (h1 : v ≤ nth x (x.length - 1)) : ∃ j, segmentContaining x v b = some j := by
  rcases hc : segmentContaining x v b with _ | j
  · have hx : x ≠ [] := by rintro rfl; simp at hne
    obtain ⟨j, hj, h2⟩ := exists_seg h hx h0 h1 hne
    have := segmentContaining_none hc j hj
    rw [(segTest_iff h hj v).2 h2] at this
    simp at this
  · exact ⟨j, rfl⟩

/-- The central interpolation lemma (left version). -/
theorem interpXY_left {x y : List K} (h : SortedLe x) (hl : x.length = y.length)
    (hne : nth x 0 < nth x (x.length - 1)) (v : K) :
    interpXY x y v false = .ok (polyLeft (x.zip y) v) := by
  have hx : 0 < x.length := by
    rcases x with _ | ⟨a, r⟩
    · simp at hne
    · simp
  rcases lt_or_ge v (nth x 0) with hv | hv
  · rw [interpXY_of_none hl hx (segmentContaining_out h false (Or.inl hv)), polyLeft_below hl hx hv,
      if_pos (below_cond h hne hv)]
  · rcases lt_or_ge (nth x (x.length - 1)) v with hv' | hv'
    · rw [interpXY_of_none hl hx (segmentContaining_out h false (Or.inr hv')), polyLeft_above h hl hx hv',
        if_neg (above_cond hne hv')]
    · obtain ⟨j, hj⟩ := segmentContaining_in h hne false hv hv'
      obtain ⟨hj1, hj2, hj3⟩ := segmentContaining_false_some hj
      obtain ⟨h1, h2, h3⟩ := (segTest_iff h hj1 v).1 hj2
      rw [interpXY_of_some hl hj, polyLeft_eq_line h hl hj1 h1 h2 h3]
      intro i hi hlt
      by_contra hc
      have := hj3 i hi
      have hmono := nth_mono h (Nat.le_of_lt hi) (by omega)
      have hs : segTest x v i = true := (segTest_iff h (by omega) v).2
        ⟨hlt, le_trans hmono h2, not_lt.1 hc⟩
      rw [hs] at this; simp at this

end Geotecha.Piecewise
