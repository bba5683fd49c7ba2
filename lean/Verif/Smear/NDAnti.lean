import Verif.Smear.NDSeries
import Verif.Smear.PropsU

/-! # `_g` and `_gbar` as antiderivatives -/

set_option autoImplicit false
set_option linter.unusedVariables false
namespace Geotecha.Smear
open MeasureTheory intervalIntegral Set Real Finset Filter Topology

/-- The gradient that belongs to the truncated series: `x ^ (-1/nf) (1 - (x/n)²) ^ (1/nf)` with the second power replaced by `T` terms of its
binomial series. -/
noncomputable def wT (n nf : ℝ) (T : ℕ) (x : ℝ) : ℝ := x ^ (-(1 / nf)) * bs (1 / nf) T ((x / n) ^ 2)

theorem inv_bounds {nf : ℝ} (h : 1 < nf) : 0 < 1 / nf ∧ 1 / nf < 1 := by
  have : 0 < nf := by linarith
  exact ⟨by positivity, by rw [div_lt_one this]; exact h⟩

theorem den_pos {nf : ℝ} (h : 1 < nf) (j : ℕ) (k : ℝ) (hk : 1 ≤ k) : 0 < (2 * (j : ℝ) + k) * nf - 1 := by
  have : (0 : ℝ) ≤ j := Nat.cast_nonneg j
  nlinarith

theorem gTerm_eq {r n nf : ℝ} (h : 1 < nf) (j : ℕ) :
    gTerm r n nf j = bc (1 / nf) j / ((2 * j + 1) * nf - 1) * (r / n) ^ (2 * j) * (nf * r ^ (1 - 1 / nf)) := by
  have hnf : nf ≠ 0 := by linarith
  induction j with
  | zero => simp only [gTerm, bc_zero, Nat.cast_zero, mul_zero, pow_zero]; norm_num; ring
  | succ j ih =>
    rw [gTerm, ih, bc_succ]
    have h1 := (den_pos h j 1 le_rfl).ne'
    have h2 := (den_pos h j 3 (by norm_num)).ne'
    have hj : (j : ℝ) + 1 ≠ 0 := by positivity
    have e1 : (2 * ((j : ℝ) + 1) * nf - nf - 1) = (2 * j + 1) * nf - 1 := by ring
    have e2 : (2 * ((j : ℝ) + 1) * nf + nf - 1) = (2 * j + 3) * nf - 1 := by ring
    have e3 : (2 * ((j + 1 : ℕ) : ℝ) + 1) * nf - 1 = (2 * j + 3) * nf - 1 := by push_cast; ring
    rw [e1, e2, e3, show 2 * (j + 1) = 2 * j + 2 by ring, pow_add]
    generalize bc (1 / nf) j = c
    generalize (r / n) ^ (2 * j) = p
    generalize (r / n) ^ 2 = q
    generalize r ^ (1 - 1 / nf) = t
    field_simp
    ring

theorem gbarTerm_eq {r n nf : ℝ} (h : 1 < nf) (j : ℕ) :
    gbarTerm r n nf j = bc (1 / nf) j / ((2 * j + 1) * nf - 1) / ((2 * j + 3) * nf - 1) * (r / n) ^ (2 * j) * (nf ^ 2 * r ^ (3 - 1 / nf)) := by
  have hnf : nf ≠ 0 := by linarith
  induction j with
  | zero => simp only [gbarTerm, bc_zero, Nat.cast_zero, mul_zero, pow_zero]; norm_num; ring
  | succ j ih =>
    rw [gbarTerm, ih, bc_succ]
    have h1 := (den_pos h j 1 le_rfl).ne'
    have h2 := (den_pos h j 3 (by norm_num)).ne'
    have h3 := (den_pos h j 5 (by norm_num)).ne'
    have hj : (j : ℝ) + 1 ≠ 0 := by positivity
    have e1 : (2 * ((j : ℝ) + 1) * nf - nf - 1) = (2 * j + 1) * nf - 1 := by ring
    have e2 : (2 * ((j : ℝ) + 1) * nf + 3 * nf - 1) = (2 * j + 5) * nf - 1 := by ring
    have e3 : (2 * ((j + 1 : ℕ) : ℝ) + 1) * nf - 1 = (2 * j + 3) * nf - 1 := by push_cast; ring
    have e4 : (2 * ((j + 1 : ℕ) : ℝ) + 3) * nf - 1 = (2 * j + 5) * nf - 1 := by push_cast; ring
    rw [e1, e2, e3, e4, show 2 * (j + 1) = 2 * j + 2 by ring, pow_add]
    generalize bc (1 / nf) j = c
    generalize (r / n) ^ (2 * j) = p
    generalize (r / n) ^ 2 = q
    generalize r ^ (3 - 1 / nf) = t
    field_simp
    ring

theorem neg_one_div (nf : ℝ) : -1.0 / nf = -(1 / nf) := by norm_num; ring

theorem gRec_eq {r n nf : ℝ} (h : 1 < nf) (T : ℕ) : gRec r n nf T = gSeries r n nf T := by
  unfold gRec gSeries
  rw [Finset.sum_mul]
  apply sum_congr rfl
  intro j _
  rw [gTerm_eq h, neg_one_div, show (1.0 : ℝ) = 1 by norm_num]
  rfl

theorem gbarRec_eq {r n nf : ℝ} (h : 1 < nf) (T : ℕ) : gbarRec r n nf T = gbarSeries r n nf T := by
  unfold gbarRec gbarSeries
  rw [Finset.sum_mul]
  apply sum_congr rfl
  intro j _
  rw [gbarTerm_eq h, neg_one_div, show (1.0 : ℝ) = 1 by norm_num]
  rfl

/-- One term of `_g`. -/
theorem gTerm_pow {r n nf : ℝ} (hr : 0 < r) (h : 1 < nf) (j : ℕ) :
    gTerm r n nf j = bc (1 / nf) j / n ^ (2 * j) * (r ^ (2 * (j : ℝ) + 1 - 1 / nf) / (2 * j + 1 - 1 / nf)) := by
  have hnf : nf ≠ 0 := by linarith
  have h1 := (den_pos h j 1 le_rfl).ne'
  rw [gTerm_eq h, show 2 * (j : ℝ) + 1 - 1 / nf = ((2 * j : ℕ) : ℝ) + (1 - 1 / nf) by push_cast; ring, rpow_add hr, rpow_natCast, div_pow]
  have : ((2 * j : ℕ) : ℝ) + (1 - 1 / nf) = ((2 * j + 1) * nf - 1) / nf := by push_cast; field_simp; ring
  rw [this]
  generalize bc (1 / nf) j = c
  field_simp

theorem gbarTerm_pow {r n nf : ℝ} (hr : 0 < r) (h : 1 < nf) (j : ℕ) :
    gbarTerm r n nf j = bc (1 / nf) j / n ^ (2 * j) / (2 * j + 1 - 1 / nf) * (r ^ (2 * (j : ℝ) + 3 - 1 / nf) / (2 * j + 3 - 1 / nf)) := by
  have hnf : nf ≠ 0 := by linarith
  have h1 := (den_pos h j 1 le_rfl).ne'
  have h3 := (den_pos h j 3 (by norm_num)).ne'
  rw [gbarTerm_eq h, show 2 * (j : ℝ) + 3 - 1 / nf = ((2 * j : ℕ) : ℝ) + (3 - 1 / nf) by push_cast; ring, rpow_add hr, rpow_natCast, div_pow]
  have e : ((2 * j : ℕ) : ℝ) + (3 - 1 / nf) = ((2 * j + 3) * nf - 1) / nf := by push_cast; field_simp; ring
  have e1 : 2 * (j : ℝ) + 1 - 1 / nf = ((2 * j + 1) * nf - 1) / nf := by field_simp
  rw [e, e1]
  generalize bc (1 / nf) j = c
  field_simp

theorem rpow_anti_deriv {y p : ℝ} (hy : 0 < y) (hp : p ≠ 0) : HasDerivAt (fun y : ℝ => y ^ p / p) (y ^ (p - 1)) y :=
  ((hasDerivAt_id y).rpow_const (Or.inl hy.ne') |>.div_const p).congr_deriv (by simp; field_simp)

theorem gRec_deriv {y n nf : ℝ} (hy : 0 < y) (h : 1 < nf) (T : ℕ) : HasDerivAt (fun y => gRec y n nf T) (wT n nf T y) y := by
  have h1 : HasDerivAt (fun y : ℝ => ∑ j ∈ Finset.range T, bc (1 / nf) j / n ^ (2 * j) * (y ^ (2 * (j : ℝ) + 1 - 1 / nf) / (2 * j + 1 - 1 / nf)))
      (∑ j ∈ Finset.range T, bc (1 / nf) j / n ^ (2 * j) * y ^ (2 * (j : ℝ) + 1 - 1 / nf - 1)) y := by
    apply HasDerivAt.fun_sum
    intro j _
    apply HasDerivAt.const_mul
    apply rpow_anti_deriv hy
    have := (inv_bounds h).2
    have hj : (0 : ℝ) ≤ j := Nat.cast_nonneg j
    linarith
  have h2 : (fun y => gRec y n nf T) =ᶠ[𝓝 y] fun y : ℝ => ∑ j ∈ Finset.range T, bc (1 / nf) j / n ^ (2 * j) * (y ^ (2 * (j : ℝ) + 1 - 1 / nf) / (2 * j + 1 - 1 / nf)) := by
    filter_upwards [Ioi_mem_nhds hy] with z hz
    unfold gRec
    exact sum_congr rfl fun j _ => gTerm_pow hz h j
  refine (h1.congr_of_eventuallyEq h2).congr_deriv ?_
  unfold wT bs
  rw [Finset.mul_sum]
  apply sum_congr rfl
  intro j _
  rw [show 2 * (j : ℝ) + 1 - 1 / nf - 1 = ((2 * j : ℕ) : ℝ) + -(1 / nf) by push_cast; ring, rpow_add hy, rpow_natCast, ← pow_mul, div_pow]
  ring

theorem gbarRec_deriv {y n nf : ℝ} (hy : 0 < y) (h : 1 < nf) (T : ℕ) : HasDerivAt (fun y => gbarRec y n nf T) (y * gRec y n nf T) y := by
  have hb := (inv_bounds h).2
  have h1 : HasDerivAt (fun y : ℝ => ∑ j ∈ Finset.range T, bc (1 / nf) j / n ^ (2 * j) / (2 * j + 1 - 1 / nf) * (y ^ (2 * (j : ℝ) + 3 - 1 / nf) / (2 * j + 3 - 1 / nf)))
      (∑ j ∈ Finset.range T, bc (1 / nf) j / n ^ (2 * j) / (2 * j + 1 - 1 / nf) * y ^ (2 * (j : ℝ) + 3 - 1 / nf - 1)) y := by
    apply HasDerivAt.fun_sum
    intro j _
    apply HasDerivAt.const_mul
    apply rpow_anti_deriv hy
    have hj : (0 : ℝ) ≤ j := Nat.cast_nonneg j
    linarith
  have h2 : (fun y => gbarRec y n nf T) =ᶠ[𝓝 y] fun y : ℝ => ∑ j ∈ Finset.range T, bc (1 / nf) j / n ^ (2 * j) / (2 * j + 1 - 1 / nf) * (y ^ (2 * (j : ℝ) + 3 - 1 / nf) / (2 * j + 3 - 1 / nf)) := by
    filter_upwards [Ioi_mem_nhds hy] with z hz
    unfold gbarRec
    exact sum_congr rfl fun j _ => gbarTerm_pow hz h j
  refine (h1.congr_of_eventuallyEq h2).congr_deriv ?_
  unfold gRec
  rw [Finset.mul_sum]
  apply sum_congr rfl
  intro j _
  rw [gTerm_pow hy h, show 2 * (j : ℝ) + 3 - 1 / nf - 1 = 1 + (2 * (j : ℝ) + 1 - 1 / nf) by ring, rpow_add hy, rpow_one]
  ring

theorem bs_cont (a : ℝ) (T : ℕ) : Continuous (bs a T) := by
  unfold bs
  exact continuous_finsetSum _ fun j _ => by fun_prop

theorem wT_cont (n nf : ℝ) (T : ℕ) {a b : ℝ} (ha : 0 < a) : ContinuousOn (wT n nf T) (Icc a b) := by
  unfold wT
  apply ContinuousOn.mul
  · exact ContinuousOn.rpow_const continuousOn_id fun x hx => Or.inl (lt_of_lt_of_le ha hx.1).ne'
  · exact ((bs_cont _ T).comp (by fun_prop)).continuousOn

theorem sq_ratio {n x : ℝ} (hx : 0 < x) (hxn : x ≤ n) : 0 ≤ (x / n) ^ 2 ∧ (x / n) ^ 2 ≤ 1 :=
  ⟨by positivity, by
    have hn : 0 < n := lt_of_lt_of_le hx hxn
    have h1 : x / n ≤ 1 := by rw [div_le_one hn]; exact hxn
    have h0 : 0 ≤ x / n := by positivity
    nlinarith⟩

theorem wT_pos {n nf : ℝ} (h : 1 < nf) {T : ℕ} (hT : 0 < T) {x : ℝ} (hx : 0 < x) (hxn : x ≤ n) : 0 < wT n nf T x := by
  obtain ⟨h0, h1⟩ := inv_bounds h
  obtain ⟨q0, q1⟩ := sq_ratio hx hxn
  exact mul_pos (rpow_pos_of_pos hx _) (bs_pos h0 h1 hT q0 q1)

/-- The exact gradient. -/
theorem grad_eq {n nf x : ℝ} (hn : 0 < n) (hx : 0 < x) (hxn : x ≤ n) : (1 / x - x / n ^ 2) ^ (1 / nf) = x ^ (-(1 / nf)) * (1 - (x / n) ^ 2) ^ (1 / nf) := by
  obtain ⟨q0, q1⟩ := sq_ratio hx hxn
  have : 1 / x - x / n ^ 2 = x⁻¹ * (1 - (x / n) ^ 2) := by field_simp
  rw [this, mul_rpow (by positivity) (by linarith), inv_rpow hx.le, rpow_neg hx.le]

theorem wT_error {n nf : ℝ} (h : 1 < nf) {T : ℕ} (hT : 0 < T) {x : ℝ} (hx : 1 ≤ x) (hxn : x ≤ n) :
    (1 / x - x / n ^ 2) ^ (1 / nf) ≤ wT n nf T x ∧
    wT n nf T x - (1 / x - x / n ^ 2) ^ (1 / nf) ≤ (x / n) ^ (2 * T) * (T : ℝ) ^ (-(1 / nf)) := by
  obtain ⟨h0, h1⟩ := inv_bounds h
  have hx0 : 0 < x := by linarith
  have hn0 : 0 < n := by linarith
  obtain ⟨q0, q1⟩ := sq_ratio hx0 hxn
  rw [grad_eq hn0 hx0 hxn]
  unfold wT
  obtain ⟨e1, e2⟩ := bs_error h0 h1 hT q0 q1
  have hp : 0 < x ^ (-(1 / nf)) := rpow_pos_of_pos hx0 _
  have hp1 : x ^ (-(1 / nf)) ≤ 1 := rpow_le_one_of_one_le_of_nonpos hx (by linarith)
  refine ⟨mul_le_mul_of_nonneg_left e1 hp.le, ?_⟩
  rw [← mul_sub, pow_mul]
  calc _ ≤ 1 * (bs (1 / nf) T ((x / n) ^ 2) - (1 - (x / n) ^ 2) ^ (1 / nf)) := mul_le_mul_of_nonneg_right hp1 (by linarith)
    _ ≤ _ := by rw [one_mul]; exact e2

end Geotecha.Smear
