import Verif.Piecewise.Lemmas

set_option linter.unusedSectionVars false
set_option linter.unusedSimpArgs false
set_option linter.unusedVariables false

namespace Geotecha.Piecewise
open Geotecha.Spec

variable {K : Type} [Field K] [LinearOrder K] [IsStrictOrderedRing K]

theorem nth_eq_getElem {x : List K} {i : ℕ} (hi : i < x.length) : nth x i = x[i] := by
  simp [nth, List.getD_eq_getElem?_getD, List.getElem?_eq_getElem, hi]

theorem nth_reverse {x : List K} {i : ℕ} (hi : i < x.length) :
    nth x.reverse i = nth x (x.length - 1 - i) := by
  rw [nth_eq_getElem (by simpa using hi), nth_eq_getElem (by omega), List.getElem_reverse]

theorem nth_map_neg {x : List K} (i : ℕ) : nth (x.map (fun a => -a)) i = - nth x i := by
  by_cases hi : i < x.length
  · rw [nth_eq_getElem (by simpa using hi), nth_eq_getElem hi]; simp
  · simp [nth, List.getD_eq_getElem?_getD, List.getElem?_eq_none (not_lt.1 hi)]

/-- mirrored abscissae -/
def mirX (x : List K) : List K := (x.map (fun a => -a)).reverse

theorem mirX_length (x : List K) : (mirX x).length = x.length := by simp [mirX]

theorem nth_mirX {x : List K} {i : ℕ} (hi : i < x.length) : nth (mirX x) i = - nth x (x.length - 1 - i) := by
  unfold mirX
  rw [nth_reverse (by simpa using hi), nth_map_neg]; simp

theorem mirX_sorted {x : List K} (h : SortedLe x) : SortedLe (mirX x) := by
  unfold SortedLe mirX at *
  rw [List.pairwise_reverse, List.pairwise_map]
  exact h.imp (fun hab => neg_le_neg hab)

theorem mirror_zip {x y : List K} (hl : x.length = y.length) :
    mirror (x.zip y) = (mirX x).zip y.reverse := by
  unfold mirror mirX
  rw [List.zip_eq_zipWith, List.zip_eq_zipWith, ← List.reverse_zipWith (by simpa using hl)]
  congr 1
  rw [List.map_zipWith, List.zipWith_map_left]

theorem line_mirror {a b c d t : K} (h : a ≠ b) :
    line (-b, d) (-a, c) (-t) = line (a, c) (b, d) t := by
  unfold line
  have h1 : b - a ≠ 0 := sub_ne_zero.2 (Ne.symm h)
  have h2 : -a - -b ≠ 0 := by rw [neg_sub_neg]; exact h1
  simp only
  field_simp
  ring

theorem polyRight_eq_line {x y : List K} (h : SortedLe x) (hl : x.length = y.length) {j : ℕ}
    (hj : j + 1 < x.length) {v : K} (h1 : nth x j < nth x (j+1)) (h2 : nth x j ≤ v)
    (h3 : v ≤ nth x (j+1))
    (hlast : ∀ i, j < i → i + 1 < x.length → nth x i < nth x (i+1) → v < nth x i) :
    polyRight (x.zip y) v = line (nth x j, nth y j) (nth x (j+1), nth y (j+1)) v := by
  unfold polyRight
  rw [mirror_zip hl]
  have e1 : x.length - 1 - (x.length - 2 - j) = j + 1 := by omega
  have e2 : x.length - 1 - (x.length - 2 - j + 1) = j := by omega
  have n1 : nth (mirX x) (x.length - 2 - j) = - nth x (j+1) := by
    rw [nth_mirX (by omega), e1]
  have n2 : nth (mirX x) (x.length - 2 - j + 1) = - nth x j := by
    rw [nth_mirX (by omega), e2]
  have m1 : nth y.reverse (x.length - 2 - j) = nth y (j+1) := by
    rw [nth_reverse (by omega), ← hl, e1]
  have m2 : nth y.reverse (x.length - 2 - j + 1) = nth y j := by
    rw [nth_reverse (by omega), ← hl, e2]
  rw [polyLeft_eq_line (mirX_sorted h) (by simp [mirX, hl]) (j := x.length - 2 - j)
    (by rw [mirX_length]; omega) (v := -v)
    (by rw [n1, n2]; exact neg_lt_neg h1) (by rw [n1]; exact neg_le_neg h3) (by rw [n2]; exact neg_le_neg h2)]
  · rw [n1, n2, m1, m2]
    exact line_mirror (ne_of_lt h1)
  · intro i hi hlt
    rw [nth_mirX (by omega)] at hlt ⊢
    rw [nth_mirX (by omega)] at hlt
    have e3 : x.length - 1 - i = x.length - 1 - (i+1) + 1 := by omega
    rw [e3] at hlt
    exact neg_lt_neg (hlast _ (by omega) (by omega) (neg_lt_neg_iff.1 hlt))

theorem polyRight_below {x y : List K} (h : SortedLe x) (hl : x.length = y.length) (hx : 0 < x.length) {v : K}
    (hv : v < nth x 0) : polyRight (x.zip y) v = nth y 0 := by
  unfold polyRight
  rw [mirror_zip hl, polyLeft_above (mirX_sorted h) (by simp [mirX, hl]) (by rwa [mirX_length])]
  · rw [List.length_reverse, nth_reverse (by omega)]
    congr 1
    omega
  · rw [mirX_length, nth_mirX (by omega)]
    have : x.length - 1 - (x.length - 1) = 0 := by omega
    rw [this]; exact neg_lt_neg hv

theorem polyRight_above {x y : List K} (h : SortedLe x) (hl : x.length = y.length) (hx : 0 < x.length) {v : K}
    (hv : nth x (x.length - 1) < v) : polyRight (x.zip y) v = nth y (y.length - 1) := by
  unfold polyRight
  rw [mirror_zip hl, polyLeft_below (by simp [mirX, hl]) (by rwa [mirX_length])]
  · rw [nth_reverse (by omega)]; rfl
  · rw [nth_mirX (by omega)]
    exact neg_lt_neg hv

theorem interpXY_right {x y : List K} (h : SortedLe x) (hl : x.length = y.length)
    (hne : nth x 0 < nth x (x.length - 1)) (v : K) :
    interpXY x y v true = .ok (polyRight (x.zip y) v) := by
  have hx : 0 < x.length := by
    rcases x with _ | ⟨a, r⟩
    · simp at hne
    · simp
  rcases lt_or_ge v (nth x 0) with hv | hv
  · rw [interpXY_of_none hl hx (segmentContaining_out h true (Or.inl hv)), polyRight_below h hl hx hv,
      if_pos (below_cond h hne hv)]
  · rcases lt_or_ge (nth x (x.length - 1)) v with hv' | hv'
    · rw [interpXY_of_none hl hx (segmentContaining_out h true (Or.inr hv')), polyRight_above h hl hx hv',
        if_neg (above_cond hne hv')]
    · obtain ⟨j, hj⟩ := segmentContaining_in h hne true hv hv'
      obtain ⟨hj1, hj2, hj3⟩ := segmentContaining_true_some hj
      obtain ⟨h1, h2, h3⟩ := (segTest_iff h hj1 v).1 hj2
      rw [interpXY_of_some hl hj, polyRight_eq_line h hl hj1 h1 h2 h3]
      intro i hi hi2 hlt
      by_contra hc
      have := hj3 i hi hi2
      have hmono := nth_mono h (show j + 1 ≤ i by omega) (by omega)
      have hs : segTest x v i = true := (segTest_iff h (by omega) v).2
        ⟨hlt, not_lt.1 hc, le_trans h3 (le_trans hmono (le_of_lt hlt))⟩
      rw [hs] at this; simp at this

/-! ### bounds -/

theorem line_between {a b c d t : K} (hab : a ≠ b) (h1 : |t - a| ≤ |a - b|) (h2 : |t - b| ≤ |a - b|) :
    min c d ≤ line (a, c) (b, d) t ∧ line (a, c) (b, d) t ≤ max c d := by
  have key : ∃ s : K, 0 ≤ s ∧ s ≤ 1 ∧ line (a, c) (b, d) t = c + s * (d - c) := by
    refine ⟨(t - a) / (b - a), ?_, ?_, ?_⟩
    · rcases lt_or_gt_of_ne hab with h | h
      · apply div_nonneg _ (by linarith)
        rw [abs_of_neg (by linarith : a - b < 0), abs_le] at h2; linarith [h2.1]
      · apply div_nonneg_of_nonpos _ (by linarith)
        rw [abs_of_pos (by linarith : 0 < a - b), abs_le] at h2; linarith [h2.2]
    · rcases lt_or_gt_of_ne hab with h | h
      · rw [div_le_one (by linarith)]
        rw [abs_of_neg (by linarith : a - b < 0), abs_le] at h1; linarith [h1.2]
      · rw [div_le_one_of_neg (by linarith)]
        rw [abs_of_pos (by linarith : 0 < a - b), abs_le] at h1; linarith [h1.1]
    · unfold line; ring
  obtain ⟨s, hs0, hs1, he⟩ := key
  rw [he]
  rcases le_total c d with h | h
  · rw [min_eq_left h, max_eq_right h]
    constructor
    · nlinarith [mul_nonneg hs0 (sub_nonneg.2 h)]
    · nlinarith [mul_nonneg (sub_nonneg.2 hs1) (sub_nonneg.2 h)]
  · rw [min_eq_right h, max_eq_left h]
    constructor
    · nlinarith [mul_nonneg (sub_nonneg.2 hs1) (sub_nonneg.2 h)]
    · nlinarith [mul_nonneg hs0 (sub_nonneg.2 h)]

theorem segmentContaining_some {x : List K} {v : K} {b : Bool} {j : ℕ}
    (hc : segmentContaining x v b = some j) : j + 1 < x.length ∧ segTest x v j = true := by
  cases b
  · exact ⟨(segmentContaining_false_some hc).1, (segmentContaining_false_some hc).2.1⟩
  · exact ⟨(segmentContaining_true_some hc).1, (segmentContaining_true_some hc).2.1⟩

theorem nth_mem {x : List K} {i : ℕ} (hi : i < x.length) : nth x i ∈ x := by
  rw [nth_eq_getElem hi]; exact List.getElem_mem hi

end Geotecha.Piecewise
