import Verif.Piecewise.Lemmas2
import Mathlib.MeasureTheory.Integral.IntervalIntegral.Basic
import Mathlib.Analysis.SpecialFunctions.Integrals.Basic

set_option linter.unusedSectionVars false
set_option linter.unusedSimpArgs false
set_option linter.unusedVariables false

namespace Geotecha.Piecewise
open Geotecha.Spec MeasureTheory

theorem line_integral (a c b d p q : ℝ) :
    ∫ t in p..q, line (a, c) (b, d) t =
      (line (a, c) (b, d) p + line (a, c) (b, d) q) * (1/2) * (q - p) := by
  unfold line
  simp only
  have : ∀ t : ℝ, c + (d - c) / (b - a) * (t - a) = (c - (d - c) / (b - a) * a) + (d - c) / (b - a) * t := by
    intro t; ring
  simp only [this]
  rw [intervalIntegral.integral_add (Continuous.intervalIntegrable (by fun_prop) _ _) (Continuous.intervalIntegrable (by fun_prop) _ _)]
  rw [intervalIntegral.integral_const, intervalIntegral.integral_const_mul, integral_id]
  simp only [smul_eq_mul]
  ring

theorem line_continuous (p q : ℝ × ℝ) : Continuous (line p q) := by
  unfold line; fun_prop

/-- On a piece of one segment the polyline is the line. -/
theorem polyLeft_on_seg {x y : List ℝ} (h : SortedLe x) (hl : x.length = y.length) {k : ℕ}
    (hk : k + 1 < x.length) {t : ℝ} (h1 : nth x k < t) (h2 : t ≤ nth x (k+1)) :
    polyLeft (x.zip y) t = line (nth x k, nth y k) (nth x (k+1), nth y (k+1)) t :=
  polyLeft_eq_line h hl hk (lt_of_lt_of_le h1 h2) (le_of_lt h1) h2
    (fun i hi _ => lt_of_le_of_lt (nth_mono h (show i + 1 ≤ k by omega) (by omega)) h1)

theorem piece_integral {x y : List ℝ} (h : SortedLe x) (hl : x.length = y.length) {k : ℕ}
    (hk : k + 1 < x.length) {p q : ℝ} (hp : nth x k ≤ p) (hpq : p ≤ q) (hq : q ≤ nth x (k+1)) :
    IntervalIntegrable (polyLeft (x.zip y)) volume p q ∧
    ∫ t in p..q, polyLeft (x.zip y) t =
      (line (nth x k, nth y k) (nth x (k+1), nth y (k+1)) p +
        line (nth x k, nth y k) (nth x (k+1), nth y (k+1)) q) * (1/2) * (q - p) := by
  have heq : ∀ t ∈ Set.uIoc p q, line (nth x k, nth y k) (nth x (k+1), nth y (k+1)) t = polyLeft (x.zip y) t := by
    intro t ht
    rw [Set.uIoc_of_le hpq] at ht
    exact (polyLeft_on_seg h hl hk (lt_of_le_of_lt hp ht.1) (le_trans ht.2 hq)).symm
  constructor
  · exact ((line_continuous _ _).intervalIntegrable p q).congr heq
  · rw [← line_integral]
    refine intervalIntegral.integral_congr_ae ?_
    exact Filter.Eventually.of_forall (fun t ht => (heq t ht).symm)

theorem line_left (a c b d : ℝ) : line (a, c) (b, d) a = c := by simp [line]
theorem line_right {a b : ℝ} (c d : ℝ) (h : a ≠ b) : line (a, c) (b, d) b = d := by
  have : b - a ≠ 0 := sub_ne_zero.2 (Ne.symm h)
  unfold line; field_simp; ring

theorem seg_integral {x y : List ℝ} (h : SortedLe x) (hl : x.length = y.length) {k : ℕ}
    (hk : k + 1 < x.length) :
    IntervalIntegrable (polyLeft (x.zip y)) volume (nth x k) (nth x (k+1)) ∧
    ∫ t in (nth x k)..(nth x (k+1)), polyLeft (x.zip y) t =
      (nth y k + nth y (k+1)) * (1/2) * (nth x (k+1) - nth x k) := by
  have hm := nth_mono h (Nat.le_succ k) hk
  obtain ⟨h1, h2⟩ := piece_integral h hl hk le_rfl hm le_rfl (y := y)
  refine ⟨h1, ?_⟩
  rcases lt_or_eq_of_le hm with hlt | heq
  · rw [h2, line_left, line_right _ _ (ne_of_lt hlt)]
  · rw [← Nat.succ_eq_add_one, ← heq]; simp

theorem sum_range'_eq (f : ℕ → ℝ) (m n : ℕ) :
    ((List.range' m (n - m)).map f).sum = ∑ k ∈ Finset.Ico m n, f k := by
  rw [Finset.sum]; rfl

/-- Splitting an integral at the nodes `X (i1+1), …, X i2`. -/
theorem split_integral {f : ℝ → ℝ} {X : ℕ → ℝ} {i1 i2 : ℕ} (h : i1 < i2) {a b : ℝ}
    (h1 : IntervalIntegrable f volume a (X (i1+1)))
    (h2 : ∀ k, i1 + 1 ≤ k → k < i2 → IntervalIntegrable f volume (X k) (X (k+1)))
    (h3 : IntervalIntegrable f volume (X i2) b) :
    ∫ t in a..b, f t = (∫ t in a..X (i1+1), f t) +
      ((List.range' (i1+1) (i2 - (i1+1))).map (fun k => ∫ t in (X k)..(X (k+1)), f t)).sum +
      ∫ t in (X i2)..b, f t := by
  rw [sum_range'_eq]
  rw [intervalIntegral.sum_integral_adjacent_intervals_Ico (a := X) (by omega)
    (fun k hk => h2 k hk.1 hk.2)]
  have hmid : IntervalIntegrable f volume (X (i1+1)) (X i2) :=
    IntervalIntegrable.trans_iterate_Ico (by omega) (fun k hk => h2 k hk.1 hk.2)
  rw [intervalIntegral.integral_add_adjacent_intervals h1 hmid,
    intervalIntegral.integral_add_adjacent_intervals (h1.trans hmid) h3]

/-- The segments selected for limits `a < b`. -/
theorem between_spec {x : List ℝ} (h : SortedLe x) {a b : ℝ} (h0 : nth x 0 ≤ a) (hab : a < b)
    (h1 : b ≤ nth x (x.length - 1)) :
    ∃ i1 i2, segmentContaining x a true = some i1 ∧ segmentContaining x b false = some i2 ∧
      i1 ≤ i2 ∧ i2 + 1 < x.length ∧ nth x i1 ≤ a ∧ a < nth x (i1+1) ∧ nth x i2 < b ∧ b ≤ nth x (i2+1) := by
  have hne : nth x 0 < nth x (x.length - 1) := by linarith
  obtain ⟨i1, e1⟩ := segmentContaining_in h hne (v := a) true h0 (by linarith)
  obtain ⟨i2, e2⟩ := segmentContaining_in h hne (v := b) false (by linarith) h1
  obtain ⟨p1, p2, p3⟩ := segmentContaining_true_some e1
  obtain ⟨q1, q2, q3⟩ := segmentContaining_false_some e2
  rw [segTest_iff h p1] at p2
  rw [segTest_iff h q1] at q2
  have ha : a < nth x (i1+1) := by
    rcases lt_or_eq_of_le p2.2.2 with hlt | heq
    · exact hlt
    · exfalso
      -- a later segment would contain a
      have hdrop : SortedLe (x.drop (i1+1)) := h.sublist (List.drop_sublist _ _)
      have hn : ∀ k, nth (x.drop (i1+1)) k = nth x (i1+1+k) := by
        intro k; simp [nth, List.getD_eq_getElem?_getD, List.getElem?_drop]
      have hlen : (x.drop (i1+1)).length = x.length - (i1+1) := by simp
      obtain ⟨j, hj1, hj2, hj3, hj4⟩ := exists_seg (x := x.drop (i1+1)) hdrop
        (by intro hc; rw [hc] at hlen; simp at hlen; omega) (v := a)
        (by rw [hn]; simp [heq]) (by
          rw [hn, hlen]
          have : i1 + 1 + (x.length - (i1+1) - 1) = x.length - 1 := by omega
          rw [this]; linarith)
        (by
          rw [hn, hn, hlen]
          have : i1 + 1 + (x.length - (i1+1) - 1) = x.length - 1 := by omega
          rw [this, Nat.add_zero, ← heq]; linarith)
      rw [hn, hn] at hj2
      rw [hn] at hj3
      rw [hn] at hj4
      have := p3 (i1+1+j) (by omega) (by omega)
      rw [(segTest_iff h (by omega) a).2 ⟨hj2, hj3, hj4⟩] at this
      simp at this
  have hb : nth x i2 < b := by
    rcases lt_or_eq_of_le q2.2.1 with hlt | heq
    · exact hlt
    · exfalso
      have htake : SortedLe (x.take (i2+1)) := h.sublist (List.take_sublist _ _)
      have hn : ∀ k, k < i2 + 1 → nth (x.take (i2+1)) k = nth x k := by
        intro k hk; simp [nth, List.getD_eq_getElem?_getD, List.getElem?_take, hk]
      have hlen : (x.take (i2+1)).length = i2+1 := by simp; omega
      obtain ⟨j, hj1, hj2, hj3, hj4⟩ := exists_seg (x := x.take (i2+1)) htake
        (by intro hc; rw [hc] at hlen; simp at hlen) (v := b)
        (by rw [hn _ (by omega)]; linarith) (by
          rw [hlen, hn _ (by omega)]; simp only [Nat.add_sub_cancel]; exact le_of_eq heq.symm)
        (by
          rw [hlen, hn _ (by omega), hn _ (by omega)]; simp only [Nat.add_sub_cancel]; linarith)
      rw [hlen] at hj1
      rw [hn _ (by omega), hn _ (by omega)] at hj2
      rw [hn _ (by omega)] at hj3
      rw [hn _ (by omega)] at hj4
      have := q3 j (by omega)
      rw [(segTest_iff h (by omega) b).2 ⟨hj2, hj3, hj4⟩] at this
      simp at this
  refine ⟨i1, i2, e1, e2, ?_, q1, p2.2.1, ha, hb, q2.2.2⟩
  by_contra hc
  have := nth_mono h (show i2 + 1 ≤ i1 by omega) (by omega)
  linarith [p2.2.1, q2.2.2]

theorem integrateXY_eq {x y : List ℝ} (h : SortedLe x) (hl : x.length = y.length) {a b : ℝ}
    (h0 : nth x 0 ≤ a) (hab : a < b) (h1 : b ≤ nth x (x.length - 1)) :
    integrateXY x y a b = .ok (∫ t in a..b, polyLeft (x.zip y) t) := by
  obtain ⟨i1, i2, e1, e2, hi, hn, p1, p2, p3, p4⟩ := between_spec h h0 hab h1
  unfold integrateXY
  rw [interpXY_of_some hl e1, interpXY_of_some hl e2]
  simp only [segmentsBetween, e1, e2]
  rcases Nat.lt_or_eq_of_le hi with hlt | rfl
  · rw [if_neg (by omega)]
    simp only [bind, Except.bind, pure, Except.pure, List.map_nil, List.sum_nil, List.map_cons, List.sum_cons]
    congr 1
    obtain ⟨g1, g2⟩ := piece_integral h hl (k := i1) (by omega) p1 (le_of_lt p2) le_rfl (y := y)
    obtain ⟨g3, g4⟩ := piece_integral h hl (k := i2) (by omega) le_rfl (le_of_lt p3) p4 (y := y)
    rw [split_integral (X := nth x) hlt g1
      (fun k hk1 hk2 => (seg_integral h hl (k := k) (by omega)).1) g3, g2, g4]
    have hne1 : nth x i1 ≠ nth x (i1+1) := ne_of_lt (lt_of_le_of_lt p1 p2)
    rw [line_right _ _ hne1, line_left]
    have : (List.range' (i1+1) (i2 - (i1+1))).map (fun k => ∫ t in (nth x k)..(nth x (k+1)), polyLeft (x.zip y) t)
        = (List.range' (i1+1) (i2 - (i1+1))).map (fun l => (nth y l + nth y (l+1)) * (1/2) * (nth x (l+1) - nth x l)) := by
      apply List.map_congr_left
      intro k hk
      rw [List.mem_range'_1] at hk
      exact (seg_integral h hl (by omega)).2
    rw [this]
    ring
  · simp only [if_true, bind, Except.bind, pure, Except.pure, List.map_nil, List.sum_nil, List.map_cons, List.sum_cons]
    congr 1
    rw [(piece_integral h hl hn p1 (le_of_lt hab) p4 (y := y)).2]
    ring

end Geotecha.Piecewise
