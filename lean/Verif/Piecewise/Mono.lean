import Verif.Piecewise.Lemmas2

set_option linter.unusedSectionVars false
set_option linter.unusedSimpArgs false
set_option linter.unusedVariables false

namespace Geotecha.Piecewise
open Geotecha.Spec

variable {K : Type} [Field K] [LinearOrder K] [IsStrictOrderedRing K]

theorem diff_length (x : List K) : (diff x).length = x.length - 1 := by
  induction x with
  | nil => rfl
  | cons a l ih =>
    cases l with
    | nil => rfl
    | cons b r => simp [diff] at ih ⊢; omega

theorem nth_diff {x : List K} {i : ℕ} (hi : i + 1 < x.length) : nth (diff x) i = nth x (i+1) - nth x i := by
  induction x generalizing i with
  | nil => simp at hi
  | cons a l ih =>
    cases l with
    | nil => simp at hi
    | cons b r =>
      cases i with
      | zero => simp [diff]
      | succ i => simpa [diff] using ih (i := i) (by simpa using hi)

theorem diff_all_chain (R : K → K → Prop) [DecidableRel R] (p : K → Bool)
    (h : ∀ a b, p (b - a) = true ↔ R a b) (x : List K) : (diff x).all p = true ↔ x.IsChain R := by
  induction x with
  | nil => simp [diff]
  | cons a l ih =>
    cases l with
    | nil => simp [diff]
    | cons b r =>
      simp only [diff, List.all_cons, Bool.and_eq_true, List.isChain_cons_cons, ih, h]

theorem strictlyIncreasing_iff (x : List K) : strictlyIncreasing x = true ↔ x.Pairwise (· < ·) := by
  unfold strictlyIncreasing
  rw [diff_all_chain (· < ·) _ (by intro a b; simp), List.isChain_iff_pairwise]
theorem nonDecreasing_iff (x : List K) : nonDecreasing x = true ↔ x.Pairwise (· ≤ ·) := by
  unfold nonDecreasing
  rw [diff_all_chain (· ≤ ·) _ (by intro a b; simp), List.isChain_iff_pairwise]
theorem strictlyDecreasing_iff (x : List K) : strictlyDecreasing x = true ↔ x.Pairwise (· > ·) := by
  unfold strictlyDecreasing
  rw [diff_all_chain (· > ·) _ (by intro a b; simp), List.isChain_iff_pairwise]
theorem nonIncreasing_iff (x : List K) : nonIncreasing x = true ↔ x.Pairwise (· ≥ ·) := by
  unfold nonIncreasing
  rw [diff_all_chain (· ≥ ·) _ (by intro a b; simp), List.isChain_iff_pairwise]

theorem getElem?_diff {x : List K} {i : ℕ} (hi : i + 1 < x.length) :
    (diff x)[i]? = some (nth x (i+1) - nth x i) := by
  have h1 : i < (diff x).length := by rw [diff_length]; omega
  rw [List.getElem?_eq_getElem h1, ← nth_diff hi, nth_eq_getElem h1]

theorem whereIdx_diff (p : K → Bool) (x : List K) :
    whereIdx p (diff x) = (segs x).filter (fun i => p (nth x (i+1) - nth x i)) := by
  unfold whereIdx segs
  rw [diff_length]
  apply List.filter_congr
  intro i hi
  rw [List.mem_range] at hi
  rw [getElem?_diff (by omega)]; simp

/-! ### force_strictly_increasing -/

theorem idxOf_filter_range {p : ℕ → Bool} {n i : ℕ} (hi : i < n) (hp : p i = true) :
    ((List.range n).filter p).idxOf i = ((List.range i).filter p).length := by
  induction n with
  | zero => omega
  | succ n ih =>
    rw [List.range_succ, List.filter_append]
    rcases Nat.lt_succ_iff_lt_or_eq.1 hi with hlt | rfl
    · rw [List.idxOf_append_of_mem (by simp [hlt, hp]), ih hlt]
    · rw [List.idxOf_append_of_notMem (by simp)]
      simp [hp]

theorem isChain_map_range {R : K → K → Prop} {f : ℕ → K} {n : ℕ} (h : ∀ i, i + 1 < n → R (f i) (f (i+1))) :
    ((List.range n).map f).IsChain R := by
  rw [List.isChain_iff_getElem]
  intro i hi
  simp at hi ⊢
  exact h i hi

theorem force_core {x : List K} (hs : x.Pairwise (· ≤ ·)) (keep : Bool) {eps : K} (he : 0 < eps)
    (hgap : ∀ i, i + 1 < x.length → nth x i ≠ nth x (i+1) →
      (((segs x).filter (fun i => decide (nth x (i+1) - nth x i = 0))).length : K) * eps < nth x (i+1) - nth x i) :
    ((List.range x.length).map (fun i => nth x i +
      forceShift ((segs x).filter (fun i => decide (nth x (i+1) - nth x i = 0))) keep eps i)).Pairwise (· < ·) := by
  rw [← List.isChain_iff_pairwise]
  set p : ℕ → Bool := fun i => decide (nth x (i+1) - nth x i = 0) with hp
  set S := (segs x).filter p with hS
  apply isChain_map_range
  intro i hi
  have hmem : ∀ k, k ∈ S ↔ k + 1 < x.length ∧ p k = true := by
    intro k; simp only [hS, segs, List.mem_filter, List.mem_range]
    constructor
    · rintro ⟨h1, h2⟩; exact ⟨by omega, h2⟩
    · rintro ⟨h1, h2⟩; exact ⟨by omega, h2⟩
  have hidx : ∀ k, k ∈ S → S.idxOf k = ((List.range k).filter p).length := by
    intro k hk
    obtain ⟨h1, h2⟩ := (hmem k).1 hk
    exact idxOf_filter_range (by omega) h2
  have hidxlt : ∀ k, k ∈ S → S.idxOf k < S.length := fun k hk => List.idxOf_lt_length_iff.2 hk
  have hsucc : i ∈ S → i + 1 ∈ S → S.idxOf (i+1) = S.idxOf i + 1 := by
    intro h1 h2
    rw [hidx _ h1, hidx _ h2, List.range_succ, List.filter_append]
    simp [((hmem i).1 h1).2]
  by_cases hin : i ∈ S
  · have heq : nth x i = nth x (i+1) := by
      have := ((hmem i).1 hin).2
      simp only [hp, decide_eq_true_iff] at this
      linarith [sub_eq_zero.1 this]
    have hlt := hidxlt i hin
    cases keep
    · simp only [forceShift, Bool.false_eq_true, if_false]
      rw [if_pos (show i + 1 ≠ 0 ∧ i + 1 - 1 ∈ S from ⟨by omega, by simpa using hin⟩)]
      rw [heq]
      simp only [Nat.add_sub_cancel]
      split
      · rename_i h1
        have h2 : S.idxOf i = S.idxOf (i-1) + 1 := by
          obtain ⟨m, rfl⟩ : ∃ m, i = m + 1 := ⟨i - 1, by omega⟩
          have hm : m ∈ S := by simpa using h1.2
          simp only [Nat.add_sub_cancel]
          rw [hidx _ hin, hidx _ hm, List.range_succ, List.filter_append]
          simp [((hmem m).1 hm).2]
        rw [h2]
        push_cast
        linarith
      · have : (0:K) < ((S.idxOf i + 1 : ℕ) : K) * eps := by positivity
        linarith
    · simp only [forceShift, if_true]
      rw [if_pos hin, heq]
      split
      · rename_i h1
        rw [hsucc hin h1]
        have h2 : S.length - S.idxOf i = (S.length - (S.idxOf i + 1)) + 1 := by omega
        rw [h2]; push_cast; linarith
      · have : (0:K) < ((S.length - S.idxOf i : ℕ) : K) := by
          have : 0 < S.length - S.idxOf i := by omega
          exact_mod_cast this
        have := mul_pos this he
        linarith
  · have hne : nth x i ≠ nth x (i+1) := by
      intro hc
      exact hin ((hmem i).2 ⟨hi, by simp only [hp, decide_eq_true_iff]; rw [hc, sub_self]⟩)
    have hg := hgap i hi hne
    cases keep
    · simp only [forceShift, Bool.false_eq_true, if_false]
      rw [if_neg (show ¬ (i + 1 ≠ 0 ∧ i + 1 - 1 ∈ S) from fun hc => hin (by simpa using hc.2))]
      split
      · rename_i h1
        have h2 := hidxlt _ h1.2
        have h3 : ((S.idxOf (i-1) + 1 : ℕ) : K) ≤ (S.length : K) := by exact_mod_cast h2
        have := mul_le_mul_of_nonneg_right h3 (le_of_lt he)
        linarith
      · have : (0:K) ≤ (S.length : K) * eps := by positivity
        linarith
    · simp only [forceShift, if_true]
      rw [if_neg hin]
      split
      · have h3 : ((S.length - S.idxOf (i+1) : ℕ) : K) ≤ (S.length : K) := by
          exact_mod_cast Nat.sub_le _ _
        have := mul_le_mul_of_nonneg_right h3 (le_of_lt he)
        linarith
      · have : (0:K) ≤ (S.length : K) * eps := by positivity
        linarith

theorem forceShift_le (S : List ℕ) (keep : Bool) {eps : K} (he : 0 < eps) (i : ℕ) :
    |forceShift S keep eps i| ≤ (S.length : K) * eps := by
  have h0 : (0:K) ≤ (S.length : K) * eps := by positivity
  cases keep
  · simp only [forceShift, Bool.false_eq_true, if_false]
    split
    · rename_i h1
      have h2 : S.idxOf (i-1) < S.length := List.idxOf_lt_length_iff.2 h1.2
      have h3 : ((S.idxOf (i-1) + 1 : ℕ) : K) ≤ (S.length : K) := by exact_mod_cast h2
      rw [abs_of_nonneg (by positivity)]
      exact mul_le_mul_of_nonneg_right h3 (le_of_lt he)
    · simpa using h0
  · simp only [forceShift, if_true]
    split
    · have h3 : ((S.length - S.idxOf i : ℕ) : K) ≤ (S.length : K) := by exact_mod_cast Nat.sub_le _ _
      rw [neg_mul, abs_neg, abs_of_nonneg (by positivity)]
      exact mul_le_mul_of_nonneg_right h3 (le_of_lt he)
    · simpa using h0

/-! ### monotone parts -/

/-- the loop invariant -/
structure PartsInv (sg : List ℤ) (i : ℕ) (acc : List (List ℕ) × List ℕ × ℤ) : Prop where
  flat : acc.1.flatten ++ acc.2.1 = List.range (i+1)
  cs : acc.2.2 ≠ 0
  cur : ∀ k ∈ acc.2.1, sg.getD k 0 = 0 ∨ sg.getD k 0 = acc.2.2
  done : ∀ l ∈ acc.1, ∃ c : ℤ, c ≠ 0 ∧ ∀ k ∈ l, sg.getD k 0 = 0 ∨ sg.getD k 0 = c
  ne : acc.2.1 ≠ []

theorem parts_fold (sg : List ℤ) (cs : ℤ) (hcs : sg.find? (fun s => decide (s ≠ 0)) = some cs) (m : ℕ) (hm : m < sg.length) :
    PartsInv sg m ((List.zip (List.range (m+1)) sg).foldl (partsStep false) ([], [0], cs)) := by
  induction m with
  | zero =>
    match sg, hm, hcs with
    | s :: r, _, hcs =>
      simp only [List.range_succ, List.range_zero, List.nil_append, List.zip_cons_cons, List.zip_nil_left,
        List.foldl_cons, List.foldl_nil, partsStep, if_true]
      have hne : cs ≠ 0 := by simpa using List.find?_some hcs
      refine ⟨by simp, hne, ?_, by simp, by simp⟩
      intro k hk
      simp at hk; subst hk
      simp only [List.getD_cons_zero]
      by_cases h : s = 0
      · left; exact h
      · right
        simp [List.find?_cons, h] at hcs; exact hcs
  | succ m ih =>
    have ih' := ih (by omega)
    have hz : List.zip (List.range (m+1+1)) sg = List.zip (List.range (m+1)) sg ++ [(m+1, sg.getD (m+1) 0)] := by
      apply List.ext_getElem
      · simp; omega
      · intro k h1 h2
        simp at h1 h2
        rw [List.getElem_append]
        split
        · simp
        · rename_i h3
          simp at h3
          have : k = m + 1 := by omega
          subst this
          simp [List.getD_eq_getElem?_getD, List.getElem?_eq_getElem hm]
    rw [hz, List.foldl_append]
    generalize (List.zip (List.range (m+1)) sg).foldl (partsStep false) ([], [0], cs) = acc at ih'
    obtain ⟨done, cur, c⟩ := acc
    obtain ⟨h1, h2, h3, h4, h5⟩ := ih'
    simp only at h1 h2 h3 h4 h5
    simp only [List.foldl_cons, List.foldl_nil, partsStep, Nat.succ_ne_zero, if_false, Bool.false_eq_true]
    split
    · rename_i hc
      refine ⟨?_, hc.1, ?_, ?_, by simp⟩
      · simp only [List.flatten_append, List.flatten_cons, List.flatten_nil, List.append_nil]
        rw [h1]; exact (List.range_succ).symm
      · intro k hk; simp at hk; subst hk; right; rfl
      · intro l hl
        simp at hl
        rcases hl with hl | rfl
        · exact h4 l hl
        · exact ⟨c, h2, h3⟩
    · rename_i hc
      refine ⟨?_, h2, ?_, h4, by simp⟩
      · simp only [← List.append_assoc]
        rw [h1]; exact (List.range_succ).symm
      · intro k hk
        simp at hk
        rcases hk with hk | rfl
        · exact h3 k hk
        · by_cases h0 : sg.getD (m+1) 0 = 0
          · left; exact h0
          · right; by_contra hne; exact hc ⟨h0, hne⟩

theorem npSign_eq_zero (d : K) : npSign d = 0 ↔ d = 0 := by
  unfold npSign
  rcases lt_trichotomy d 0 with h | h | h
  · simp [h, not_lt.2 (le_of_lt h), ne_of_lt h]
  · simp [h]
  · simp [h, ne_of_gt h]
theorem npSign_pos {d : K} {c : ℤ} (h : npSign d = c) (hc : 0 < c) : 0 < d := by
  unfold npSign at h; split at h
  · assumption
  · split at h <;> omega
theorem npSign_neg {d : K} {c : ℤ} (h : npSign d = c) (hc : c < 0) : d < 0 := by
  unfold npSign at h; split at h
  · omega
  · split at h
    · assumption
    · omega

end Geotecha.Piecewise
