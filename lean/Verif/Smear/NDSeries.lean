import Verif.Smear.ModelND
import Mathlib.Analysis.Analytic.Binomial
import Mathlib.Analysis.SpecialFunctions.Pow.Deriv
import Mathlib.Analysis.SpecialFunctions.Pow.Asymptotics

/-! # The binomial series behind `_g` and `_gbar` -/

set_option autoImplicit false
set_option linter.unusedVariables false
namespace Geotecha.Smear
open Real Finset Filter Topology

/-- Coefficients of `(1 - x) ^ a`. -/
noncomputable def bc (a : ℝ) (j : ℕ) : ℝ := poch (-a) j / (j.factorial : ℝ)

/-- The binomial series of `(1 - x) ^ a` cut after `T` terms. -/
noncomputable def bs (a : ℝ) (T : ℕ) (x : ℝ) : ℝ := ∑ j ∈ range T, bc a j * x ^ j

theorem bc_zero (a : ℝ) : bc a 0 = 1 := by simp [bc, poch]

theorem bc_succ (a : ℝ) (j : ℕ) : bc a (j + 1) = bc a j * ((j - a) / (j + 1)) := by
  unfold bc poch
  rw [prod_range_succ, Nat.factorial_succ]
  have : ((j.factorial : ℕ) : ℝ) ≠ 0 := by exact_mod_cast j.factorial_ne_zero
  push_cast
  field_simp
  ring

theorem bc_neg {a : ℝ} (h0 : 0 < a) (h1 : a < 1) (j : ℕ) : bc a (j + 1) < 0 := by
  induction j with
  | zero => rw [bc_succ, bc_zero]; simp; exact h0
  | succ j ih =>
    rw [bc_succ]
    apply mul_neg_of_neg_of_pos ih
    apply div_pos <;> push_cast <;> linarith [(Nat.cast_nonneg j : (0 : ℝ) ≤ j)]

/-- The sum of the coefficients. -/
theorem bs_one (a : ℝ) (T : ℕ) : bs a (T + 1) 1 = ∏ i ∈ range T, (1 - a / (i + 1)) ∧ bc a (T + 1) = -(a / (T + 1)) * ∏ i ∈ range T, (1 - a / (i + 1)) := by
  induction T with
  | zero => simp [bs, bc_zero, bc_succ]
  | succ T ih =>
    constructor
    · unfold bs at *
      rw [sum_range_succ, ih.1, prod_range_succ, one_pow, mul_one, ih.2]
      ring
    · rw [bc_succ, ih.2, prod_range_succ]
      have h1 : ((T : ℝ) + 1) ≠ 0 := by positivity
      have h2 : ((T : ℝ) + 1 + 1) ≠ 0 := by positivity
      push_cast
      field_simp

theorem prod_le {a : ℝ} (h0 : 0 < a) (h1 : a < 1) (T : ℕ) :
    0 < ∏ i ∈ range T, (1 - a / ((i : ℝ) + 1)) ∧ ∏ i ∈ range T, (1 - a / ((i : ℝ) + 1)) ≤ ((T : ℝ) + 1) ^ (-a) := by
  induction T with
  | zero => simp
  | succ T ih =>
    rw [prod_range_succ]
    have hT : (0 : ℝ) < (T : ℝ) + 1 := by positivity
    have hp : 0 < 1 - a / ((T : ℝ) + 1) := by
      have : a / ((T : ℝ) + 1) < 1 := by
        rw [div_lt_one hT]; linarith [(Nat.cast_nonneg T : (0 : ℝ) ≤ T)]
      linarith
    refine ⟨mul_pos ih.1 hp, ?_⟩
    have hb : 1 - a / ((T : ℝ) + 1) ≤ (1 + 1 / ((T : ℝ) + 1)) ^ (-a) := by
      have hq : (0 : ℝ) < 1 + 1 / ((T : ℝ) + 1) := by positivity
      rw [rpow_def_of_pos hq]
      have hl : log (1 + 1 / ((T : ℝ) + 1)) ≤ 1 / ((T : ℝ) + 1) := by
        have := log_le_sub_one_of_pos hq
        linarith
      have h2 : -(a / ((T : ℝ) + 1)) ≤ log (1 + 1 / ((T : ℝ) + 1)) * -a := by
        have := mul_le_mul_of_nonneg_right hl h0.le
        have e : 1 / ((T : ℝ) + 1) * a = a / ((T : ℝ) + 1) := by ring
        linarith
      have h3 := add_one_le_exp (-(a / ((T : ℝ) + 1)))
      have h4 := exp_le_exp.2 h2
      linarith
    calc _ ≤ ((T : ℝ) + 1) ^ (-a) * (1 + 1 / ((T : ℝ) + 1)) ^ (-a) := mul_le_mul ih.2 hb hp.le (by positivity)
      _ = (((T : ℝ) + 1) * (1 + 1 / ((T : ℝ) + 1))) ^ (-a) := (mul_rpow hT.le (by positivity)).symm
      _ = _ := by
        congr 1
        push_cast
        field_simp

theorem bs_one_pos {a : ℝ} (h0 : 0 < a) (h1 : a < 1) {T : ℕ} (hT : 0 < T) : 0 < bs a T 1 := by
  obtain ⟨k, rfl⟩ : ∃ k, T = k + 1 := ⟨T - 1, by omega⟩
  rw [(bs_one a k).1]; exact (prod_le h0 h1 k).1

theorem bs_one_le {a : ℝ} (h0 : 0 < a) (h1 : a < 1) {T : ℕ} (hT : 0 < T) : bs a T 1 ≤ (T : ℝ) ^ (-a) := by
  obtain ⟨k, rfl⟩ : ∃ k, T = k + 1 := ⟨T - 1, by omega⟩
  rw [(bs_one a k).1]; push_cast; exact (prod_le h0 h1 k).2

/-- Adding terms lowers the value, by at most `x ^ T` times what it lowers it at one. -/
theorem bs_tail {a : ℝ} (h0 : 0 < a) (h1 : a < 1) {T : ℕ} (hT : 0 < T) (m : ℕ) {x : ℝ} (hx : 0 ≤ x) (hx1 : x ≤ 1) :
    0 ≤ bs a T x - bs a (T + m) x ∧ bs a T x - bs a (T + m) x ≤ x ^ T * (bs a T 1 - bs a (T + m) 1) := by
  induction m with
  | zero => simp
  | succ m ih =>
    have e : ∀ y, bs a (T + (m + 1)) y = bs a (T + m) y + bc a (T + m) * y ^ (T + m) := fun y => by
      unfold bs; rw [← add_assoc, sum_range_succ]
    rw [e x, e 1]
    obtain ⟨k, hk⟩ : ∃ k, T + m = k + 1 := ⟨T + m - 1, by omega⟩
    have hc : bc a (T + m) < 0 := by rw [hk]; exact bc_neg h0 h1 k
    have hp : 0 ≤ x ^ (T + m) := pow_nonneg hx _
    have hp2 : x ^ (T + m) ≤ x ^ T := pow_le_pow_of_le_one hx hx1 (by omega)
    constructor
    · nlinarith [ih.1]
    · have := mul_le_mul_of_nonneg_left hp2 (neg_pos.2 hc).le
      rw [one_pow]
      nlinarith [ih.2]

theorem bs_anti {a : ℝ} (h0 : 0 < a) (h1 : a < 1) {T T' : ℕ} (hT : 0 < T) (hle : T ≤ T') {x : ℝ} (hx : 0 ≤ x) (hx1 : x ≤ 1) :
    bs a T' x ≤ bs a T x := by
  obtain ⟨m, rfl⟩ := Nat.exists_eq_add_of_le hle
  linarith [(bs_tail h0 h1 hT m hx hx1).1]

theorem bs_mono_x {a : ℝ} (h0 : 0 < a) (h1 : a < 1) (T : ℕ) {x y : ℝ} (hx : 0 ≤ x) (hxy : x ≤ y) : bs a T y ≤ bs a T x := by
  unfold bs
  apply sum_le_sum
  intro j _
  cases j with
  | zero => simp
  | succ j => exact mul_le_mul_of_nonpos_left (pow_le_pow_left₀ hx hxy _) (bc_neg h0 h1 j).le

theorem bs_pos {a : ℝ} (h0 : 0 < a) (h1 : a < 1) {T : ℕ} (hT : 0 < T) {x : ℝ} (hx : 0 ≤ x) (hx1 : x ≤ 1) : 0 < bs a T x :=
  lt_of_lt_of_le (bs_one_pos h0 h1 hT) (bs_mono_x h0 h1 T hx hx1)

theorem bs_le_one {a : ℝ} (h0 : 0 < a) (h1 : a < 1) (T : ℕ) {x : ℝ} (hx : 0 ≤ x) : bs a T x ≤ 1 := by
  have := bs_mono_x h0 h1 T le_rfl hx
  refine this.trans ?_
  unfold bs
  cases T with
  | zero => simp
  | succ T => rw [sum_range_succ']; simp [bc_zero]

theorem bc_choose (a : ℝ) (j : ℕ) : bc a j = Ring.choose a j * (-1) ^ j := by
  have h : ∀ j : ℕ, (descPochhammer ℤ j).smeval a = poch (-a) j * (-1) ^ j := by
    intro j
    induction j with
    | zero => simp [poch]
    | succ j ih =>
      rw [descPochhammer_succ_right, Polynomial.smeval_mul, ih]
      unfold poch
      rw [prod_range_succ]
      simp [Polynomial.smeval_sub, Polynomial.smeval_natCast]
      ring
  rw [Ring.choose_eq_smul, h]
  unfold bc
  have : ((-1 : ℝ) ^ j) * (-1) ^ j = 1 := by rw [← mul_pow]; simp
  rw [smul_eq_mul]
  calc _ = poch (-a) j / (j.factorial : ℝ) * ((-1 : ℝ) ^ j * (-1) ^ j) := by rw [this, mul_one]
    _ = _ := by ring

theorem bs_tendsto {a x : ℝ} (hx : 0 ≤ x) (hx1 : x < 1) : Tendsto (fun T => bs a T x) atTop (𝓝 ((1 - x) ^ a)) := by
  have h := (Real.one_add_rpow_hasFPowerSeriesOnBall_zero (a := a)).hasSum (y := -x) (by
    simp [Metric.eball, edist_dist, abs_of_nonneg hx]
    exact hx1)
  have h2 := h.tendsto_sum_nat
  have e : (1 + (0 + -x)) = 1 - x := by ring
  rw [e] at h2
  refine h2.congr fun T => ?_
  unfold bs
  apply sum_congr rfl
  intro j _
  rw [binomialSeries_apply, bc_choose, smul_eq_mul]
  simp
  rw [mul_assoc, ← mul_pow]; simp

/-- The truncation error: not negative, at most `x ^ T * T ^ (-a)`. -/
theorem bs_error {a : ℝ} (h0 : 0 < a) (h1 : a < 1) {T : ℕ} (hT : 0 < T) {x : ℝ} (hx : 0 ≤ x) (hx1 : x ≤ 1) :
    (1 - x) ^ a ≤ bs a T x ∧ bs a T x - (1 - x) ^ a ≤ x ^ T * (T : ℝ) ^ (-a) := by
  have hle := bs_one_le h0 h1 hT
  have hpos := bs_one_pos h0 h1 hT
  rcases lt_or_eq_of_le hx1 with hlt | rfl
  · have ht := bs_tendsto (a := a) hx hlt
    have ht2 : Tendsto (fun m => bs a (T + m) x) atTop (𝓝 ((1 - x) ^ a)) := by
      have := (tendsto_add_atTop_iff_nat (f := fun T => bs a T x) T).2 ht
      exact this.congr fun m => by rw [add_comm]
    constructor
    · exact le_of_tendsto' ht2 (fun m => by linarith [(bs_tail h0 h1 hT m hx hx1).1])
    · have : ∀ m, bs a T x - x ^ T * (T : ℝ) ^ (-a) ≤ bs a (T + m) x := by
        intro m
        have h3 := (bs_tail h0 h1 hT m hx hx1).2
        have h4 := bs_one_pos h0 h1 (show 0 < T + m by omega)
        have h5 := pow_nonneg hx T
        have : x ^ T * (bs a T 1 - bs a (T + m) 1) ≤ x ^ T * (T : ℝ) ^ (-a) := mul_le_mul_of_nonneg_left (by linarith) h5
        linarith
      have := ge_of_tendsto' ht2 this
      linarith
  · rw [sub_self, zero_rpow h0.ne']
    simp only [one_pow, one_mul, sub_zero]
    exact ⟨hpos.le, hle⟩

end Geotecha.Smear
