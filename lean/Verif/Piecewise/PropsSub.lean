import Verif.Piecewise.ModelSub
import Verif.Piecewise.Mono
import Mathlib.Algebra.Field.GeomSum
import Mathlib.Tactic.LinearCombination
import Mathlib.Tactic.NormNum
import Mathlib.Algebra.Order.BigOperators.Ring.Finset
import Mathlib.Algebra.Order.BigOperators.Group.Finset

set_option linter.unusedSectionVars false
set_option linter.unusedSimpArgs false
set_option linter.unusedVariables false

namespace Geotecha.Piecewise
open Geotecha.Spec
variable {K : Type} [Field K] [LinearOrder K] [IsStrictOrderedRing K]

/-! ## C15 subdivision keeps the points and the curve -/

theorem zip_flatten {α β γ : Type} (l : List γ) (f : γ → List α) (g : γ → List β)
    (h : ∀ i, (f i).length = (g i).length) :
    ((l.map f).flatten).zip ((l.map g).flatten) = (l.map (fun i => (f i).zip (g i))).flatten := by
  induction l with
  | nil => rfl
  | cons a l ih => simp only [List.map_cons, List.flatten_cons]; rw [List.zip_append (h a), ih]

theorem length_flatten_eq {α β γ : Type} (l : List γ) (f : γ → List α) (g : γ → List β)
    (h : ∀ i, (f i).length = (g i).length) :
    ((l.map f).flatten).length = ((l.map g).flatten).length := by
  induction l with
  | nil => rfl
  | cons a l ih => simp only [List.map_cons, List.flatten_cons, List.length_append]; rw [h a, ih]

/-- The result is, for each pair of neighbouring data points, a block of at least `min_segments` points
evenly spaced from the first towards the second, starting with the first; then the last data point. -/
theorem C15_subdivide [FloorRing K] (x y : List K) (dx : Option K) (minSeg : ℕ) (hm : 1 ≤ minSeg)
    (hl : x.length = y.length) (h2 : 2 ≤ x.length)
    (hdx : ∀ d, dx = some d → 0 < d) (hnone : dx = none → ∃ a ∈ x, ∃ b ∈ x, a < b) :
    ∃ (x' y' : List K) (blocks : List (List (K × K))), subdivideXY x y dx minSeg none = .ok (x', y') ∧ x'.length = y'.length ∧
      x'.zip y' = blocks.flatten ++ [(x[x.length - 1], y[y.length - 1])] ∧
      ∃ hb : blocks.length = x.length - 1, ∀ i (hi : i < blocks.length),
        minSeg ≤ blocks[i].length ∧
        blocks[i].head? = some (x[i], y[i]) ∧
        ∀ (k : ℕ) (hk : k < blocks[i].length),
          blocks[i][k] = (x[i] + ((k : K) / (blocks[i].length : K)) * (x[i+1] - x[i]),
                          y[i] + ((k : K) / (blocks[i].length : K)) * (y[i+1] - y[i])) := by
  have hd : dx.getD (2 * extent x) ≠ 0 := by
    rcases dx with _ | d
    · obtain ⟨a, ha, b, hb, hab⟩ := hnone rfl
      have h1 : ∀ (l : List K) (z v : K), v ∈ l ∨ v ≤ z → v ≤ l.foldl max z := by
        intro l
        induction l with
        | nil => intro z v h; simpa using h
        | cons c l ih =>
          intro z v h
          simp only [List.foldl_cons]
          apply ih
          rcases h with h | h
          · rcases List.mem_cons.1 h with rfl | h
            · exact Or.inr (le_max_right _ _)
            · exact Or.inl h
          · exact Or.inr (le_trans h (le_max_left _ _))
      have h2 : ∀ (l : List K) (z v : K), v ∈ l ∨ z ≤ v → l.foldl min z ≤ v := by
        intro l
        induction l with
        | nil => intro z v h; simpa using h
        | cons c l ih =>
          intro z v h
          simp only [List.foldl_cons]
          apply ih
          rcases h with h | h
          · rcases List.mem_cons.1 h with rfl | h
            · exact Or.inr (min_le_right _ _)
            · exact Or.inl h
          · exact Or.inr (le_trans (min_le_left _ _) h)
      have hA := h1 x (nth x 0) b (Or.inl hb)
      have hB := h2 x (nth x 0) a (Or.inl ha)
      simp only [Option.getD_none, extent]
      have : 0 < List.foldl max (nth x 0) x - List.foldl min (nth x 0) x := by linarith
      exact ne_of_gt (by linarith)
    · exact ne_of_gt (hdx d rfl)
  set d := dx.getD (2 * extent x) with hdd
  have hxl : x.getLast? = some x[x.length - 1] := by
    rw [List.getLast?_eq_getElem?, List.getElem?_eq_getElem (by omega)]
  have hyl : y.getLast? = some y[y.length - 1] := by
    rw [List.getLast?_eq_getElem?, List.getElem?_eq_getElem (by omega)]
  have hlen : ∀ i, (linspaceOpen (nth x i) (nth x (i+1)) (numSegs (nth x i) (nth x (i+1)) d minSeg)).length =
      (linspaceOpen (nth y i) (nth y (i+1)) (numSegs (nth x i) (nth x (i+1)) d minSeg)).length := by
    intro i; simp [linspaceOpen]
  refine ⟨((List.range (x.length - 1)).map (fun i => linspaceOpen (nth x i) (nth x (i+1)) (numSegs (nth x i) (nth x (i+1)) d minSeg))).flatten ++ [x[x.length - 1]],
    ((List.range (x.length - 1)).map (fun i => linspaceOpen (nth y i) (nth y (i+1)) (numSegs (nth x i) (nth x (i+1)) d minSeg))).flatten ++ [y[y.length - 1]],
    (List.range (x.length - 1)).map (fun i =>
      (linspaceOpen (nth x i) (nth x (i+1)) (numSegs (nth x i) (nth x (i+1)) d minSeg)).zip
      (linspaceOpen (nth y i) (nth y (i+1)) (numSegs (nth x i) (nth x (i+1)) d minSeg))), ?_, ?_, ?_, by simp, ?_⟩
  rotate_left
  · simp only [List.length_append]
    rw [length_flatten_eq _ _ _ hlen]; simp
  · rw [List.zip_append (length_flatten_eq _ _ _ hlen), zip_flatten _ _ _ hlen]
    simp
  · intro i hi
    simp only [List.length_map, List.length_range] at hi
    have hN : 1 ≤ numSegs (nth x i) (nth x (i+1)) d minSeg := le_trans hm (le_max_right _ _)
    simp only [List.getElem_map, List.getElem_range, List.length_zip, linspaceOpen, List.length_map, List.length_range,
      min_self, List.getElem_zip]
    have ex : nth x i = x[i] := nth_eq_getElem (by omega)
    have ex1 : nth x (i+1) = x[i+1] := nth_eq_getElem (by omega)
    have ey : nth y i = y[i] := nth_eq_getElem (by omega)
    have ey1 : nth y (i+1) = y[i+1] := nth_eq_getElem (by omega)
    refine ⟨le_max_right _ _, ?_, ?_⟩
    · rw [List.head?_eq_getElem?, List.getElem?_eq_getElem (by simp only [List.length_zip, List.length_map, List.length_range, min_self]; omega)]
      simp only [List.getElem_zip, List.getElem_map, List.getElem_range, Nat.cast_zero, zero_mul, add_zero, ex, ey]
    · intro k hk
      rw [ex, ex1, ey, ey1]
      congr 1 <;> ring
  · simp only [subdivideXY, hl, ne_eq, not_true_eq_false, if_false]
    rw [hxl, hyl]
    simp only
    rw [if_neg (by rw [← hdd]; tauto)]
    simp only [hl]
    rw [← hdd]

/-- With a spacing `dx > 0` and `x` increasing, no piece of an interval at least `dx` long is twice as long
as `dx` or longer. -/
theorem C15_piece_length [FloorRing K] (x1 x2 dx : K) (minSeg : ℕ) (hd : 0 < dx) (h : dx ≤ x2 - x1) :
    (x2 - x1) / (numSegs x1 x2 dx minSeg : K) < 2 * dx := by
  have hr : 1 ≤ (x2 - x1) / dx := (one_le_div hd).2 h
  have hf : (1:ℤ) ≤ ⌊(x2 - x1) / dx⌋ := Int.le_floor.2 (by simpa using hr)
  have hlt := Int.lt_floor_add_one ((x2 - x1) / dx)
  have hn : ((⌊(x2 - x1) / dx⌋ : ℤ) : K) ≤ (numSegs x1 x2 dx minSeg : K) := by
    unfold numSegs
    have h1 : ((⌊(x2 - x1) / dx⌋).natAbs : ℤ) = ⌊(x2 - x1) / dx⌋ := Int.natAbs_of_nonneg (by omega)
    calc ((⌊(x2 - x1) / dx⌋ : ℤ) : K) = ((((⌊(x2 - x1) / dx⌋).natAbs : ℕ) : ℤ) : K) := by rw [h1]
      _ = (((⌊(x2 - x1) / dx⌋).natAbs : ℕ) : K) := Int.cast_natCast _
      _ ≤ _ := by exact_mod_cast le_max_left _ _
  have h1 : (1:K) ≤ ((⌊(x2 - x1) / dx⌋ : ℤ) : K) := by exact_mod_cast hf
  have hpos : (0:K) < (numSegs x1 x2 dx minSeg : K) := by linarith
  rw [div_lt_iff₀ hpos]
  have : (x2 - x1) / dx < 2 * (numSegs x1 x2 dx minSeg : K) := by linarith
  rw [div_lt_iff₀ hd] at this
  linarith

/-- The one-array version returns the same abscissae. -/
theorem C15_x_only [FloorRing K] (x y x' y' : List K) (dx : Option K) (minSeg : ℕ) (jb : Option K)
    (h : subdivideXY x y dx minSeg jb = .ok (x', y')) : subdivideX x dx minSeg jb = .ok x' := by
  unfold subdivideXY at h
  unfold subdivideX
  split_ifs at h with hl
  simp only at h ⊢
  split at h
  · rename_i xl yl hx hy
    rw [hx]
    simp only
    split_ifs at h with hd
    rw [if_neg hd]
    cases jb <;> simp only [Except.ok.injEq, Prod.mk.injEq] at h ⊢ <;> exact h.1
  · simp at h

/-- `just_before`: every block then ends the fraction `just_before` before the next data point. -/
theorem C15_just_before [FloorRing K] (x1 x2 jb : K) (n : ℕ) (hn : 1 ≤ n) :
    (linspaceClosed x1 (x1 + (1 - jb) * (x2 - x1)) n).head? = some x1 ∧
    (linspaceClosed x1 (x1 + (1 - jb) * (x2 - x1)) n).getLast? = some (x2 - jb * (x2 - x1)) := by
  have hn' : (n : K) ≠ 0 := by positivity
  constructor
  · simp [linspaceClosed, List.head?_map, List.head?_range]
  · simp only [linspaceClosed, List.getLast?_map, List.getLast?_range]
    rw [if_neg (by omega)]
    simp only [Option.map_some, Nat.add_sub_cancel]
    congr 1
    field_simp
    ring

theorem C15_rejects [FloorRing K] (x y : List K) (dx : Option K) (minSeg : ℕ) (jb : Option K) (hl : x.length ≠ y.length) :
    subdivideXY x y dx minSeg jb = .error .valueError := by simp [subdivideXY, hl]

example : subdivideXY ([0, 1, 1, 3] : List ℚ) [0, 2, 5, 7] (some (1/2)) 1 none =
    .ok ([0, 1/2, 1, 1, 3/2, 2, 5/2, 3], [0, 1, 2, 5, 11/2, 6, 13/2, 7]) := by decide +kernel

/-! ## C16 subdivide_into_elements -/

theorem sum_map_range {f : ℕ → K} (n : ℕ) : ((List.range n).map f).sum = ∑ i ∈ Finset.range n, f i := rfl

theorem geom_pos {p : K} (hp : 0 < p) {n : ℕ} (hn : 1 ≤ n) : 0 < ∑ i ∈ Finset.range n, p^i :=
  Finset.sum_pos (fun i _ => pow_pos hp i) ⟨0, by simp; omega⟩

theorem geom_eq {p : K} (h1 : p ≠ 1) (n : ℕ) : (p^n - 1) / (p - 1) = ∑ i ∈ Finset.range n, p^i :=
  (geom_sum_eq h1 n).symm

/-- `n` sizes which fill `h`; with `symmetry` the list is a palindrome whose first half has ratio `p`,
otherwise every size is `p` times the previous one. -/
theorem C16_elements (n : ℕ) (h p : K) (sym : Bool) (hn : 2 ≤ n) (hp : 0 < p) :
    ∃ l, subdivideElements n h p sym = .ok l ∧ l.length = n ∧ l.sum = h ∧
      (sym = false → ∀ i (hi : i + 1 < l.length), l[i+1] = p * l[i]) ∧
      (sym = true → l.reverse = l ∧ ∀ i (hi : i + 1 < l.length), 2 * (i + 1) < n → l[i+1] = p * l[i]) := by
  have hp' : ¬ p ≤ 0 := not_le.2 hp
  have hn' : ¬ n ≤ 1 := by omega
  have hnK : (n : K) ≠ 0 := by positivity
  unfold subdivideElements
  simp only [hp', hn', if_false]
  by_cases h1 : p = 1
  · subst h1
    simp only [if_true]
    have hd : diff (linspaceClosed 0 h n) = List.replicate n (h / n) := by
      apply List.ext_getElem
      · rw [diff_length]; simp [linspaceClosed]
      · intro i hi1 hi2
        have hi3 : i < n := by simpa using hi2
        have hlen : i + 1 < (linspaceClosed 0 h n).length := by simp [linspaceClosed]; omega
        rw [← nth_eq_getElem hi1, nth_diff hlen, nth_eq_getElem hlen, nth_eq_getElem (by omega)]
        simp only [linspaceClosed, List.getElem_map, List.getElem_range, List.getElem_replicate]
        push_cast
        ring
    rw [hd]
    refine ⟨_, rfl, by simp, ?_, ?_, ?_⟩
    · simp; field_simp
    · intro _ i hi; simp
    · intro _; exact ⟨by simp, by intro i hi _; simp⟩
  · simp only [h1, if_false]
    have hp1 : p - 1 ≠ 0 := sub_ne_zero.2 h1
    cases sym with
    | false =>
      simp only [Bool.false_eq_true, if_false]
      refine ⟨_, rfl, by simp, ?_, ?_, by simp⟩
      · rw [sum_map_range, ← Finset.mul_sum, ← geom_eq h1]
        have := geom_pos hp (show 1 ≤ n by omega)
        rw [← geom_eq h1] at this
        have hne : p^n - 1 ≠ 0 := by intro h0; rw [h0] at this; simp at this
        field_simp
      · intro _ i hi
        simp only [List.getElem_map, List.getElem_range]; ring
    | true =>
      simp only [if_true]
      split_ifs with heven
      · obtain ⟨m, rfl⟩ : ∃ m, n = 2 * m := ⟨n/2, by omega⟩
        have e : 2 * m / 2 = m := by omega
        rw [e]
        refine ⟨_, rfl, by simp; omega, ?_, by simp, ?_⟩
        · simp only [List.map_append, List.sum_append, List.map_reverse, List.sum_reverse]
          rw [sum_map_range, ← Finset.mul_sum, ← geom_eq h1]
          have := geom_pos hp (show 1 ≤ m by omega)
          rw [← geom_eq h1] at this
          have hne : p^m - 1 ≠ 0 := by intro h0; rw [h0] at this; simp at this
          field_simp
          ring
        · intro _
          refine ⟨by simp [List.map_append, List.map_reverse], ?_⟩
          intro i hi h2
          simp only [List.length_map, List.length_append, List.length_range, List.length_reverse] at hi
          simp only [List.map_append]
          rw [List.getElem_append_left (by simp; omega), List.getElem_append_left (by simp; omega)]
          simp only [List.getElem_map, List.getElem_range]; ring
      · obtain ⟨m, rfl⟩ : ∃ m, n = 2 * m + 1 := ⟨n/2, by omega⟩
        have e1 : (2 * m + 1 + 1) / 2 = m + 1 := by omega
        have e2 : (2 * m + 1 - 1) / 2 = m := by omega
        rw [e1, e2]
        refine ⟨_, rfl, by simp; omega, ?_, by simp, ?_⟩
        · simp only [List.map_append, List.sum_append, List.map_reverse, List.sum_reverse]
          rw [sum_map_range, sum_map_range, ← Finset.mul_sum, ← Finset.mul_sum, mul_div_assoc, geom_eq h1, Finset.sum_range_succ]
          have := geom_pos hp (show 1 ≤ m + 1 by omega)
          rw [Finset.sum_range_succ] at this
          have h0 : 0 ≤ ∑ i ∈ Finset.range m, p^i := Finset.sum_nonneg (fun i _ => (pow_pos hp i).le)
          have h3 := pow_pos hp m
          have hne : 2 * (∑ i ∈ Finset.range m, p^i + p^m) - p^m ≠ 0 := ne_of_gt (by linarith)
          field_simp
          ring
        · intro _
          constructor
          · rw [← List.map_reverse, List.reverse_append, List.reverse_reverse, List.range_succ]
            simp
          · intro i hi h2
            simp only [List.length_map, List.length_append, List.length_range, List.length_reverse] at hi
            simp only [List.map_append]
            rw [List.getElem_append_left (by simp; omega), List.getElem_append_left (by simp; omega)]
            simp only [List.getElem_map, List.getElem_range]; ring

theorem C16_rejects (n : ℕ) (h p : K) (sym : Bool) (hb : n ≤ 1 ∨ p ≤ 0) :
    subdivideElements n h p sym = .error .valueError := by
  unfold subdivideElements
  by_cases h1 : p ≤ 0
  · simp [h1]
  · have : n ≤ 1 := by tauto
    simp [h1, this]

example : subdivideElements 5 (10 : ℚ) 2 true = .ok [1, 2, 4, 2, 1] ∧
    subdivideElements 3 (14 : ℚ) 2 false = .ok [2, 4, 8] := by decide +kernel

end Geotecha.Piecewise
