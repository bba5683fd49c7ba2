import Verif.Piecewise.SegLemmas
import Verif.Piecewise.ModelProd

set_option linter.unusedSectionVars false
set_option linter.unusedSimpArgs false
set_option linter.unusedVariables false

namespace Geotecha.Piecewise
open Geotecha.Spec MeasureTheory

/-- line of segment `k` -/
noncomputable def sline (L : List (Seg ℝ)) (k : ℕ) (t : ℝ) : ℝ :=
  line (nth (px L) (2*k), nth (py L) (2*k)) (nth (px L) (2*k+1), nth (py L) (2*k+1)) t

variable {L M : List (Seg ℝ)}

theorem polyLeft_on_sseg (h : Contiguous L) {k : ℕ} (hk : k < L.length) {t : ℝ}
    (h1 : nth (nodes L) k < t) (h2 : t ≤ nth (nodes L) (k+1)) :
    polyLeft (segPoints L) t = sline L k t := by
  rw [polyLeft_seg h hk (le_of_lt h1) h2, sline]
  intro i hi
  exact lt_of_le_of_lt (nth_mono (nodes_sorted h) (show i + 1 ≤ k by omega) (by rw [nodes_length]; omega)) h1

theorem spiece (h : Contiguous L) {k : ℕ} (hk : k < L.length) {p q : ℝ}
    (hp : nth (nodes L) k ≤ p) (hpq : p ≤ q) (hq : q ≤ nth (nodes L) (k+1)) :
    ∀ t ∈ Set.uIoc p q, polyLeft (segPoints L) t = sline L k t := by
  intro t ht
  rw [Set.uIoc_of_le hpq] at ht
  exact polyLeft_on_sseg h hk (lt_of_le_of_lt hp ht.1) (le_trans ht.2 hq)

theorem node_eq (hk : k < L.length) : nth (nodes L) k = nth (px L) (2*k) := by
  rw [nth_nodes hk, nth_px_even]
theorem node_eq' (h : Contiguous L) (hk : k < L.length) : nth (nodes L) (k+1) = nth (px L) (2*k+1) := by
  rw [nth_nodes_succ h hk, nth_px_odd]

theorem spiece_integral (h : Contiguous L) {k : ℕ} (hk : k < L.length) {p q : ℝ}
    (hp : nth (nodes L) k ≤ p) (hpq : p ≤ q) (hq : q ≤ nth (nodes L) (k+1)) :
    IntervalIntegrable (polyLeft (segPoints L)) volume p q ∧
    ∫ t in p..q, polyLeft (segPoints L) t = (sline L k p + sline L k q) * (1/2) * (q - p) := by
  have := piece_integral (px_sorted h) (y := py L) (by rw [px_length, py_length]) (k := 2*k)
    (by rw [px_length]; omega) (by rw [← node_eq hk]; exact hp) hpq (by rw [← node_eq' h hk]; exact hq)
  rw [zip_px_py] at this
  exact this

theorem x2_getLast? (hL : L ≠ []) : (toSegs4 L).x2.getLast? = some ((L.map (·.2.1)).getLastD 0) := by
  cases L with
  | nil => exact absurd rfl hL
  | cons s r =>
    simp only [toSegs4]
    rw [List.getLastD_eq_getLast?]
    simp [List.getLast?_cons]

theorem integrateSegs_eq (h : Contiguous L) (hL : L ≠ []) {a b : ℝ}
    (h0 : nth (nodes L) 0 ≤ a) (hab : a < b) (h1 : b ≤ nth (nodes L) L.length) :
    integrateSegs (toSegs4 L) a b = .ok (∫ t in a..b, polyLeft (segPoints L) t) := by
  obtain ⟨i1, i2, e1, e2, hi, hn, p1, p2, p3, p4⟩ :=
    between_spec (nodes_sorted h) h0 hab (by rw [nodes_length]; exact h1)
  rw [nodes_length] at hn
  unfold integrateSegs
  rw [interpSegs_of_some h e1, interpSegs_of_some h e2, x2_getLast? hL]
  have hnod : (toSegs4 L).x1 ++ [(L.map (·.2.1)).getLastD 0] = nodes L := rfl
  simp only [hnod, segmentsBetween, e1, e2]
  have hx1 : ∀ k, nth (toSegs4 L).x1 k = nth (px L) (2*k) := fun k => (nth_px_even L k).symm
  have hx2 : ∀ k, nth (toSegs4 L).x2 k = nth (px L) (2*k+1) := fun k => (nth_px_odd L k).symm
  have hy1 : ∀ k, nth (toSegs4 L).y1 k = nth (py L) (2*k) := fun k => (nth_py_even L k).symm
  have hy2 : ∀ k, nth (toSegs4 L).y2 k = nth (py L) (2*k+1) := fun k => (nth_py_odd L k).symm
  rcases Nat.lt_or_eq_of_le hi with hlt | rfl
  · rw [if_neg (by omega)]
    simp only [bind, Except.bind, pure, Except.pure, List.map_nil, List.sum_nil, List.map_cons, List.sum_cons]
    congr 1
    obtain ⟨g1, g2⟩ := spiece_integral h (k := i1) (by omega) p1 (le_of_lt p2) le_rfl
    obtain ⟨g3, g4⟩ := spiece_integral h (k := i2) (by omega) le_rfl (le_of_lt p3) p4
    have hseg : ∀ k, k < L.length → IntervalIntegrable (polyLeft (segPoints L)) volume (nth (nodes L) k) (nth (nodes L) (k+1)) ∧
        ∫ t in (nth (nodes L) k)..(nth (nodes L) (k+1)), polyLeft (segPoints L) t =
        (nth (toSegs4 L).y1 k + nth (toSegs4 L).y2 k) * (1/2) * (nth (toSegs4 L).x2 k - nth (toSegs4 L).x1 k) := by
      intro k hk
      have hlt' : nth (px L) (2*k) < nth (px L) (2*k+1) := by
        rw [nth_px_even, nth_px_odd]; exact seg_lt h hk
      obtain ⟨q1, q2⟩ := spiece_integral h hk le_rfl
        (nth_mono (nodes_sorted h) (Nat.le_succ k) (by rw [nodes_length]; omega)) le_rfl
      refine ⟨q1, ?_⟩
      rw [q2, hx1, hx2, hy1, hy2, Nat.succ_eq_add_one, node_eq hk, node_eq' h hk, sline, sline, line_left, line_right _ _ (ne_of_lt hlt')]
    rw [split_integral (X := nth (nodes L)) hlt g1
      (fun k hk1 hk2 => (hseg k (by omega)).1) g3, g2, g4]
    have : (List.range' (i1+1) (i2 - (i1+1))).map (fun k => ∫ t in (nth (nodes L) k)..(nth (nodes L) (k+1)), polyLeft (segPoints L) t)
        = (List.range' (i1+1) (i2 - (i1+1))).map (fun l => (nth (toSegs4 L).y1 l + nth (toSegs4 L).y2 l) * (1/2) * (nth (toSegs4 L).x2 l - nth (toSegs4 L).x1 l)) := by
      apply List.map_congr_left
      intro k hk
      rw [List.mem_range'_1] at hk
      exact (hseg k (by omega)).2
    rw [this]
    have hne1 : nth (px L) (2*i1) ≠ nth (px L) (2*i1+1) := by
      rw [nth_px_even, nth_px_odd]; exact ne_of_lt (seg_lt h (by omega))
    rw [node_eq' h (by omega : i1 < L.length), node_eq (by omega : i2 < L.length)]
    simp only [sline]
    rw [line_right _ _ hne1, line_left]
    simp only [hx1, hx2, hy1, hy2]
    ring
  · simp only [if_true, bind, Except.bind, pure, Except.pure, List.map_nil, List.sum_nil, List.map_cons, List.sum_cons]
    congr 1
    rw [(spiece_integral h (by omega) p1 (le_of_lt hab) p4).2]
    simp only [sline]
    ring

/-! ### product -/

theorem hasDerivAt_congr' {f g : ℝ → ℝ} {f' g' x : ℝ} (h : HasDerivAt f f' x) (hf : ∀ s, g s = f s)
    (hd : g' = f') : HasDerivAt g g' x := by
  have : g = f := funext hf
  rw [this, hd]; exact h

/-- antiderivative of the product of two lines -/
theorem prod_lines_integral (x1 sa ya sb yb p q : ℝ) :
    ∫ t in p..q, (ya + sa * (t - x1)) * (yb + sb * (t - x1)) =
     (sa*sb*q^3/3 + (-sa*sb*x1 + sa*yb/2 + sb*ya/2)*q^2 + (sa*sb*x1^2 - sa*x1*yb - sb*x1*ya + yb*ya)*q) -
     (sa*sb*p^3/3 + (-sa*sb*x1 + sa*yb/2 + sb*ya/2)*p^2 + (sa*sb*x1^2 - sa*x1*yb - sb*x1*ya + yb*ya)*p) := by
  have hd : ∀ t ∈ Set.uIcc p q, HasDerivAt (fun t => sa*sb*t^3/3 + (-sa*sb*x1 + sa*yb/2 + sb*ya/2)*t^2 + (sa*sb*x1^2 - sa*x1*yb - sb*x1*ya + yb*ya)*t)
      ((ya + sa * (t - x1)) * (yb + sb * (t - x1))) t := by
    intro t _
    have h3 := (hasDerivAt_pow 3 t).const_mul (sa*sb/3)
    have h2 := (hasDerivAt_pow 2 t).const_mul (-sa*sb*x1 + sa*yb/2 + sb*ya/2)
    have h1 := (hasDerivAt_id t).const_mul (sa*sb*x1^2 - sa*x1*yb - sb*x1*ya + yb*ya)
    refine hasDerivAt_congr' ((h3.add h2).add h1) (fun s => ?_) ?_
    · simp; ring
    · push_cast; ring
  rw [intervalIntegral.integral_eq_sub_of_hasDerivAt hd (Continuous.intervalIntegrable (by fun_prop) _ _)]

theorem allclose_refl (l : List ℝ) : allclose l l = true := by
  unfold allclose
  rw [List.all_eq_true]
  intro p hp
  have : p.1 = p.2 := by
    induction l with
    | nil => simp at hp
    | cons a l ih =>
      simp only [List.zip_cons_cons, List.mem_cons] at hp
      rcases hp with rfl | hp
      · rfl
      · exact ih hp
  rw [decide_eq_true_iff, this, sub_self, abs_zero]; positivity

theorem integrateProd_eq (h : Contiguous L) (h' : Contiguous M) (hL : L ≠ [])
    (hx1 : L.map (·.1.1) = M.map (·.1.1)) (hx2 : L.map (·.2.1) = M.map (·.2.1)) {a b : ℝ}
    (h0 : nth (nodes L) 0 ≤ a) (hab : a < b) (h1 : b ≤ nth (nodes L) L.length) :
    integrateProd (toSegs4 L) (toSegs4 M) a b =
      .ok (∫ t in a..b, polyLeft (segPoints L) t * polyLeft (segPoints M) t) := by
  obtain ⟨i1, i2, e1, e2, hi, hn, p1, p2, p3, p4⟩ :=
    between_spec (nodes_sorted h) h0 hab (by rw [nodes_length]; exact h1)
  rw [nodes_length] at hn
  have hlen : L.length = M.length := by simpa using congrArg List.length hx1
  have hnM : nodes M = nodes L := by simp only [nodes, hx1, hx2]
  have hcheck : prodCheck (toSegs4 L) (toSegs4 M) = .ok () := by
    have a1 : allclose (toSegs4 L).x1 (toSegs4 M).x1 = true := by
      simp only [toSegs4]; rw [hx1]; exact allclose_refl _
    have a2 : allclose (toSegs4 L).x2 (toSegs4 M).x2 = true := by
      simp only [toSegs4]; rw [hx2]; exact allclose_refl _
    have l1 : (toSegs4 L).x1.length = (toSegs4 M).x1.length := by simp only [toSegs4]; rw [hx1]
    have l2 : (toSegs4 L).x2.length = (toSegs4 M).x2.length := by simp only [toSegs4]; rw [hx2]
    simp [prodCheck, a1, a2, l1, l2]
  have hM1 : ∀ k, nth (toSegs4 M).x1 k = nth (toSegs4 L).x1 k := by intro k; simp only [toSegs4]; rw [hx1]
  have hM2 : ∀ k, nth (toSegs4 M).x2 k = nth (toSegs4 L).x2 k := by intro k; simp only [toSegs4]; rw [hx2]
  -- slopes
  let aS (s : ℕ) := (nth (toSegs4 L).y2 s - nth (toSegs4 L).y1 s) / (nth (toSegs4 L).x2 s - nth (toSegs4 L).x1 s)
  let bS (s : ℕ) := (nth (toSegs4 M).y2 s - nth (toSegs4 M).y1 s) / (nth (toSegs4 M).x2 s - nth (toSegs4 M).x1 s)
  have hsL : ∀ k t, sline L k t = nth (toSegs4 L).y1 k + aS k * (t - nth (toSegs4 L).x1 k) := by
    intro k t; simp only [sline, line, aS, toSegs4, nth_px_even, nth_px_odd, nth_py_even, nth_py_odd]
  have hsM : ∀ k t, sline M k t = nth (toSegs4 M).y1 k + bS k * (t - nth (toSegs4 L).x1 k) := by
    intro k t; rw [← hM1]; simp only [sline, line, bS, toSegs4, nth_px_even, nth_px_odd, nth_py_even, nth_py_odd]
  have key : ∀ k, k < L.length → ∀ p q : ℝ, nth (nodes L) k ≤ p → p ≤ q → q ≤ nth (nodes L) (k+1) →
      IntervalIntegrable (fun t => polyLeft (segPoints L) t * polyLeft (segPoints M) t) volume p q ∧
      ∫ t in p..q, polyLeft (segPoints L) t * polyLeft (segPoints M) t =
        ∫ t in p..q, (nth (toSegs4 L).y1 k + aS k * (t - nth (toSegs4 L).x1 k)) *
          (nth (toSegs4 M).y1 k + bS k * (t - nth (toSegs4 L).x1 k)) := by
    intro k hk p q hp hpq hq
    have heq : ∀ t ∈ Set.uIoc p q, (nth (toSegs4 L).y1 k + aS k * (t - nth (toSegs4 L).x1 k)) *
          (nth (toSegs4 M).y1 k + bS k * (t - nth (toSegs4 L).x1 k)) = polyLeft (segPoints L) t * polyLeft (segPoints M) t := by
      intro t ht
      rw [spiece h hk hp hpq hq t ht, spiece h' (hlen ▸ hk) (by rw [hnM]; exact hp) hpq (by rw [hnM]; exact hq) t ht, hsL, hsM]
    constructor
    · exact (Continuous.intervalIntegrable (by fun_prop) p q).congr heq
    · exact intervalIntegral.integral_congr_ae (Filter.Eventually.of_forall (fun t ht => (heq t ht).symm))
  have hmono : ∀ k, k < L.length → nth (nodes L) k ≤ nth (nodes L) (k+1) := fun k hk =>
    nth_mono (nodes_sorted h) (Nat.le_succ k) (by rw [nodes_length]; omega)
  unfold integrateProd
  rw [hcheck, x2_getLast? hL]
  have hnod : (toSegs4 L).x1 ++ [(L.map (·.2.1)).getLastD 0] = nodes L := rfl
  simp only [hnod, segmentsBetween, e1, e2]
  have hn1 : ∀ k, k < L.length → nth (nodes L) k = nth (toSegs4 L).x1 k := fun k hk => nth_nodes hk
  have hn2 : ∀ k, k < L.length → nth (nodes L) (k+1) = nth (toSegs4 L).x2 k := fun k hk => nth_nodes_succ h hk
  rcases Nat.lt_or_eq_of_le hi with hlt | rfl
  · rw [if_neg (by omega)]
    simp only [bind, Except.bind, pure, Except.pure, List.map_nil, List.sum_nil, List.map_cons, List.sum_cons]
    congr 1
    obtain ⟨g1, g2⟩ := key i1 (by omega) _ _ p1 (le_of_lt p2) le_rfl
    obtain ⟨g3, g4⟩ := key i2 (by omega) _ _ le_rfl (le_of_lt p3) p4
    rw [split_integral (X := nth (nodes L)) hlt g1
      (fun k hk1 hk2 => (key k (by omega) _ _ le_rfl (hmono k (by omega)) le_rfl).1) g3, g2, g4]
    have : (List.range' (i1+1) (i2 - (i1+1))).map (fun k => ∫ t in (nth (nodes L) k)..(nth (nodes L) (k+1)), polyLeft (segPoints L) t * polyLeft (segPoints M) t)
        = (List.range' (i1+1) (i2 - (i1+1))).map (fun s =>
          (-(aS s)*(bS s)*(nth (toSegs4 L).x1 s)^3/3 + (aS s)*(bS s)*(nth (toSegs4 L).x2 s)^3/3 -
          nth (toSegs4 L).x1 s*((aS s)*(bS s)*(nth (toSegs4 L).x1 s)^2 - (aS s)*nth (toSegs4 L).x1 s*nth (toSegs4 M).y1 s -
          (bS s)*nth (toSegs4 L).x1 s*nth (toSegs4 L).y1 s + nth (toSegs4 M).y1 s*nth (toSegs4 L).y1 s) -
          (nth (toSegs4 L).x1 s)^2*(-(aS s)*(bS s)*nth (toSegs4 L).x1 s + (aS s)*nth (toSegs4 M).y1 s/2 + (bS s)*nth (toSegs4 L).y1 s/2) +
          nth (toSegs4 L).x2 s*((aS s)*(bS s)*(nth (toSegs4 L).x1 s)^2 - (aS s)*nth (toSegs4 L).x1 s*nth (toSegs4 M).y1 s -
          (bS s)*nth (toSegs4 L).x1 s*nth (toSegs4 L).y1 s + nth (toSegs4 M).y1 s*nth (toSegs4 L).y1 s) +
          (nth (toSegs4 L).x2 s)^2*(-(aS s)*(bS s)*nth (toSegs4 L).x1 s + (aS s)*nth (toSegs4 M).y1 s/2 + (bS s)*nth (toSegs4 L).y1 s/2))) := by
      apply List.map_congr_left
      intro k hk
      rw [List.mem_range'_1] at hk
      rw [(key k (by omega) _ _ le_rfl (hmono k (by omega)) le_rfl).2, prod_lines_integral, hn1 k (by omega), hn2 k (by omega)]
      ring
    rw [this, prod_lines_integral, prod_lines_integral, hn2 i1 (by omega), hn1 i2 (by omega)]
    simp only [aS, bS]
    ring
  · simp only [if_true, bind, Except.bind, pure, Except.pure, List.map_nil, List.sum_nil, List.map_cons, List.sum_cons]
    congr 1
    rw [(key i1 (by omega) _ _ p1 (le_of_lt hab) p4).2, prod_lines_integral]
    simp only [aS, bS]
    ring

end Geotecha.Piecewise
