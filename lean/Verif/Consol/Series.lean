import Mathlib.Analysis.SpecialFunctions.Integrals.Basic
import Mathlib.NumberTheory.ZetaValues
import Verif.Consol.Terzaghi

/-!
Lemmas about series in `sin (M z / H)`, `M = (2 k + 1) pi / 2`.
-/

open Real intervalIntegral Finset
namespace Geotecha.Consol

theorem bigM_pos (k : ℕ) : 0 < bigM k := by unfold bigM; positivity

theorem bigM_ne (k : ℕ) : bigM k ≠ 0 := (bigM_pos k).ne'

theorem cos_bigM (k : ℕ) : cos (bigM k) = 0 := by
  rw [cos_eq_zero_iff]; exact ⟨k, by unfold bigM; push_cast; ring⟩

theorem sin_bigM (k : ℕ) : sin (bigM k) = (-1) ^ k := by
  have : bigM k = π / 2 + k * π := by unfold bigM; ring
  rw [this, sin_add_nat_mul_pi, sin_pi_div_two, mul_one]

/-- A sine series in depth. -/
noncomputable def sinSer (n : ℕ) (H : ℝ) (c : ℕ → ℝ) (z : ℝ) : ℝ := ∑ k ∈ range n, c k * sin (bigM k * (z / H))
/-- Its gradient. -/
noncomputable def cosSer (n : ℕ) (H : ℝ) (c : ℕ → ℝ) (z : ℝ) : ℝ := ∑ k ∈ range n, c k * cos (bigM k * (z / H))

theorem hasDerivAt_arg (m H z : ℝ) : HasDerivAt (fun z : ℝ => m * (z / H)) (m / H) z := by
  have := ((hasDerivAt_id z).div_const H).const_mul m
  exact this.congr_deriv (by simp [div_eq_mul_inv])

theorem hasDerivAt_sinSer (n : ℕ) (H : ℝ) (c : ℕ → ℝ) (z : ℝ) :
    HasDerivAt (sinSer n H c) (cosSer n H (fun k => c k * (bigM k / H)) z) z := by
  unfold sinSer cosSer
  refine HasDerivAt.fun_sum fun k _ => ?_
  exact ((hasDerivAt_arg (bigM k) H z).sin.const_mul (c k)).congr_deriv (by ring)

theorem hasDerivAt_cosSer (n : ℕ) (H : ℝ) (c : ℕ → ℝ) (z : ℝ) :
    HasDerivAt (cosSer n H c) (sinSer n H (fun k => -(c k * (bigM k / H))) z) z := by
  unfold sinSer cosSer
  refine HasDerivAt.fun_sum fun k _ => ?_
  exact ((hasDerivAt_arg (bigM k) H z).cos.const_mul (c k)).congr_deriv (by ring)

theorem sinSer_zero (n : ℕ) (H : ℝ) (c : ℕ → ℝ) : sinSer n H c 0 = 0 := by simp [sinSer]

theorem cosSer_end (n : ℕ) {H : ℝ} (hH : H ≠ 0) (c : ℕ → ℝ) : cosSer n H c H = 0 := by
  unfold cosSer; exact sum_eq_zero fun k _ => by rw [div_self hH, mul_one, cos_bigM, mul_zero]

theorem cosSer_zero (n : ℕ) (H : ℝ) (c : ℕ → ℝ) : cosSer n H c 0 = ∑ k ∈ range n, c k := by simp [cosSer]

theorem continuous_sinSer (n : ℕ) (H : ℝ) (c : ℕ → ℝ) : Continuous (sinSer n H c) := by unfold sinSer; fun_prop

theorem continuous_cosSer (n : ℕ) (H : ℝ) (c : ℕ → ℝ) : Continuous (cosSer n H c) := by unfold cosSer; fun_prop

/-- The time derivative of a series whose coefficients depend on time. -/
theorem hasDerivAt_sinSer_time (n : ℕ) (H z : ℝ) (c : ℕ → ℝ → ℝ) (c' : ℕ → ℝ) (t : ℝ) (h : ∀ k < n, HasDerivAt (c k) (c' k) t) :
    HasDerivAt (fun t => sinSer n H (fun k => c k t) z) (sinSer n H c' z) t := by
  unfold sinSer
  exact HasDerivAt.fun_sum fun k hk => ((h k (mem_range.1 hk)).mul_const _)

/-- Integral of the series over the layer. -/
theorem integral_sinSer (n : ℕ) {H : ℝ} (hH : H ≠ 0) (c : ℕ → ℝ) :
    ∫ z in (0:ℝ)..H, sinSer n H c z = H * ∑ k ∈ range n, c k / bigM k := by
  have hF : ∀ z ∈ Set.uIcc 0 H, HasDerivAt (cosSer n H (fun k => -(c k * (H / bigM k)))) (sinSer n H c z) z := fun z _ => by
    refine (hasDerivAt_cosSer n H _ z).congr_deriv ?_
    unfold sinSer
    refine sum_congr rfl fun k _ => ?_
    have := bigM_ne k
    field_simp
  rw [integral_eq_sub_of_hasDerivAt hF ((continuous_sinSer n H c).intervalIntegrable _ _), cosSer_end n hH, cosSer_zero, zero_sub,
    ← sum_neg_distrib, mul_sum]
  exact sum_congr rfl fun k _ => by ring

theorem integral_one_sin (H : ℝ) (hH : H ≠ 0) (k : ℕ) : ∫ z in (0:ℝ)..H, sin (bigM k * (z / H)) = H / bigM k := by
  have h := integral_sinSer (k + 1) hH (fun j => if j = k then 1 else 0)
  have h1 : ∀ z, sinSer (k + 1) H (fun j => if j = k then 1 else 0) z = sin (bigM k * (z / H)) := fun z => by
    unfold sinSer; simp
  simp only [h1] at h
  rw [h]; simp [div_eq_mul_inv]

/-- Orthogonality of the sines. -/
theorem integral_sin_sin {H : ℝ} (hH : H ≠ 0) (i j : ℕ) :
    ∫ z in (0:ℝ)..H, sin (bigM i * (z / H)) * sin (bigM j * (z / H)) = if i = j then H / 2 else 0 := by
  by_cases hij : i = j
  · subst hij
    rw [if_pos rfl]
    have hF : ∀ z ∈ Set.uIcc 0 H, HasDerivAt (fun z : ℝ => z / 2 - H / (2 * bigM i) * (sin (bigM i * (z / H)) * cos (bigM i * (z / H))))
        (sin (bigM i * (z / H)) * sin (bigM i * (z / H))) z := fun z _ => by
      have d := hasDerivAt_arg (bigM i) H z
      refine (((hasDerivAt_id z).div_const 2).sub ((d.sin.mul d.cos).const_mul (H / (2 * bigM i)))).congr_deriv ?_
      have := bigM_ne i
      have e := sin_sq_add_cos_sq (bigM i * (z / H))
      field_simp
      field_simp at e
      linarith
    have hc : Continuous fun z : ℝ => sin (bigM i * (z / H)) * sin (bigM i * (z / H)) := by fun_prop
    rw [integral_eq_sub_of_hasDerivAt hF (hc.intervalIntegrable _ _)]
    rw [div_self hH, mul_one, cos_bigM]; simp
  · rw [if_neg hij]
    have h1 : bigM i - bigM j ≠ 0 := by
      intro h; apply hij
      have : (2 * (i:ℝ) + 1) = 2 * j + 1 := by
        have hp := pi_pos.ne'
        unfold bigM at h
        have : (2 * (i:ℝ) + 1) / 2 = (2 * j + 1) / 2 := mul_right_cancel₀ hp (by linarith)
        linarith
      exact_mod_cast (by linarith : (i:ℝ) = j)
    have h2 : bigM i + bigM j ≠ 0 := (add_pos (bigM_pos i) (bigM_pos j)).ne'
    have hF : ∀ z ∈ Set.uIcc 0 H, HasDerivAt (fun z : ℝ => H / (bigM i ^ 2 - bigM j ^ 2) *
        (bigM j * (sin (bigM i * (z / H)) * cos (bigM j * (z / H))) - bigM i * (cos (bigM i * (z / H)) * sin (bigM j * (z / H)))))
        (sin (bigM i * (z / H)) * sin (bigM j * (z / H))) z := fun z _ => by
      have d := hasDerivAt_arg (bigM i) H z
      have e := hasDerivAt_arg (bigM j) H z
      refine ((((d.sin.mul e.cos).const_mul (bigM j)).sub ((d.cos.mul e.sin).const_mul (bigM i))).const_mul _).congr_deriv ?_
      have h3 : bigM i ^ 2 - bigM j ^ 2 ≠ 0 := by rw [sq_sub_sq]; exact mul_ne_zero h2 h1
      rw [div_mul_eq_mul_div, div_eq_iff h3]
      field_simp
      ring
    have hc : Continuous fun z : ℝ => sin (bigM i * (z / H)) * sin (bigM j * (z / H)) := by fun_prop
    rw [integral_eq_sub_of_hasDerivAt hF (hc.intervalIntegrable _ _)]
    rw [div_self hH, mul_one, mul_one, cos_bigM, cos_bigM]; simp

/-- Product of the series with one of its terms. -/
theorem integral_sinSer_mul (n : ℕ) {H : ℝ} (hH : H ≠ 0) (c : ℕ → ℝ) (j : ℕ) (hj : j < n) :
    ∫ z in (0:ℝ)..H, sinSer n H c z * sin (bigM j * (z / H)) = H / 2 * c j := by
  have h1 : ∀ z, sinSer n H c z * sin (bigM j * (z / H)) = ∑ k ∈ range n, c k * (sin (bigM k * (z / H)) * sin (bigM j * (z / H))) :=
    fun z => by unfold sinSer; rw [sum_mul]; exact sum_congr rfl fun k _ => by ring
  simp only [h1]
  rw [intervalIntegral.integral_finsetSum]
  · simp only [intervalIntegral.integral_const_mul, integral_sin_sin hH]
    simp [hj]; ring
  · intro k _
    have hc : Continuous fun z : ℝ => c k * (sin (bigM k * (z / H)) * sin (bigM j * (z / H))) := by fun_prop
    exact hc.intervalIntegrable _ _

/-- Parseval for the finite series. -/
theorem integral_sinSer_sq (n : ℕ) {H : ℝ} (hH : H ≠ 0) (c : ℕ → ℝ) :
    ∫ z in (0:ℝ)..H, sinSer n H c z ^ 2 = H / 2 * ∑ k ∈ range n, c k ^ 2 := by
  have h1 : ∀ z, sinSer n H c z ^ 2 = ∑ k ∈ range n, c k * (sinSer n H c z * sin (bigM k * (z / H))) := fun z => by
    rw [sq]; nth_rewrite 2 [sinSer]; rw [mul_sum]; exact sum_congr rfl fun k _ => by ring
  simp only [h1]
  rw [intervalIntegral.integral_finsetSum]
  · simp only [intervalIntegral.integral_const_mul]
    rw [mul_sum]
    exact sum_congr rfl fun k hk => by rw [integral_sinSer_mul n hH c k (mem_range.1 hk)]; ring
  · intro k _
    have hc : Continuous fun z : ℝ => c k * (sinSer n H c z * sin (bigM k * (z / H))) := by
      have := continuous_sinSer n H c; fun_prop
    exact hc.intervalIntegrable _ _

/-- Mean square distance between the series and a function whose sine coefficients it has. -/
theorem integral_sub_sinSer_sq (n : ℕ) {H : ℝ} (hH : H ≠ 0) (c : ℕ → ℝ) (f : ℝ → ℝ) (hf : Continuous f)
    (hc : ∀ k < n, ∫ z in (0:ℝ)..H, f z * sin (bigM k * (z / H)) = H / 2 * c k) :
    ∫ z in (0:ℝ)..H, (f z - sinSer n H c z) ^ 2 = (∫ z in (0:ℝ)..H, f z ^ 2) - H / 2 * ∑ k ∈ range n, c k ^ 2 := by
  have hs := continuous_sinSer n H c
  have e : ∀ z, (f z - sinSer n H c z) ^ 2 = f z ^ 2 - 2 * (f z * sinSer n H c z) + sinSer n H c z ^ 2 := fun z => by ring
  have i1 : IntervalIntegrable (fun z => f z ^ 2) MeasureTheory.volume 0 H := Continuous.intervalIntegrable (by fun_prop) _ _
  have i2 : IntervalIntegrable (fun z => 2 * (f z * sinSer n H c z)) MeasureTheory.volume 0 H := Continuous.intervalIntegrable (by fun_prop) _ _
  have i3 : IntervalIntegrable (fun z => sinSer n H c z ^ 2) MeasureTheory.volume 0 H := Continuous.intervalIntegrable (by fun_prop) _ _
  have k : ∫ z in (0:ℝ)..H, f z * sinSer n H c z = H / 2 * ∑ k ∈ range n, c k ^ 2 := by
    have h1 : ∀ z, f z * sinSer n H c z = ∑ k ∈ range n, c k * (f z * sin (bigM k * (z / H))) := fun z => by
      unfold sinSer; rw [mul_sum]; exact sum_congr rfl fun k _ => by ring
    simp only [h1]
    rw [intervalIntegral.integral_finsetSum]
    · simp only [intervalIntegral.integral_const_mul]
      rw [mul_sum]
      exact sum_congr rfl fun k hk => by rw [hc k (mem_range.1 hk)]; ring
    · intro k _
      have hc : Continuous fun z : ℝ => c k * (f z * sin (bigM k * (z / H))) := by fun_prop
      exact hc.intervalIntegrable _ _
  simp only [e]
  rw [intervalIntegral.integral_add (i1.sub i2) i3, intervalIntegral.integral_sub i1 i2, intervalIntegral.integral_const_mul, k,
    integral_sinSer_sq n hH]
  ring

/-! ## Sums over the odd numbers -/

theorem hasSum_odd_of_nat {f : ℕ → ℝ} {s r : ℝ} (h : HasSum f s) (he : HasSum (fun k => f (2 * k)) r) :
    HasSum (fun k => f (2 * k + 1)) (s - r) := by
  have ho : Summable fun k => f (2 * k + 1) := h.summable.comp_injective (i := fun k => 2 * k + 1) (fun a b hab => by simp at hab; omega)
  have := he.even_add_odd ho.hasSum
  rw [h.unique this]
  simpa using ho.hasSum

/-- `sum 2 / M^2 = 1`. -/
theorem hasSum_two_div_sq : HasSum (fun k => 2 / bigM k ^ 2) 1 := by
  have he : HasSum (fun k : ℕ => (1:ℝ) / ((2 * k : ℕ) : ℝ) ^ 2) (1 / 4 * (π ^ 2 / 6)) := by
    refine (hasSum_zeta_two.mul_left (1/4)).congr_fun ?_ |> id
    intro k; push_cast; ring
  have ho := (hasSum_odd_of_nat hasSum_zeta_two he).mul_left (8 / π ^ 2)
  have : 8 / π ^ 2 * (π ^ 2 / 6 - 1 / 4 * (π ^ 2 / 6)) = 1 := by have := pi_ne_zero; field_simp; norm_num
  rw [this] at ho
  refine ho.congr_fun ?_ |> id
  intro k
  have := pi_ne_zero
  have h2 : (2 * (k:ℝ) + 1) ≠ 0 := by positivity
  unfold bigM; push_cast; field_simp; norm_num

/-- `sum 2 / M^4 = 1 / 3`. -/
theorem hasSum_two_div_four : HasSum (fun k => 2 / bigM k ^ 4) (1 / 3) := by
  have he : HasSum (fun k : ℕ => (1:ℝ) / ((2 * k : ℕ) : ℝ) ^ 4) (1 / 16 * (π ^ 4 / 90)) := by
    refine (hasSum_zeta_four.mul_left (1/16)).congr_fun ?_ |> id
    intro k; push_cast; ring
  have ho := (hasSum_odd_of_nat hasSum_zeta_four he).mul_left (32 / π ^ 4)
  have : 32 / π ^ 4 * (π ^ 4 / 90 - 1 / 16 * (π ^ 4 / 90)) = 1 / 3 := by have := pi_ne_zero; field_simp; norm_num
  rw [this] at ho
  refine ho.congr_fun ?_ |> id
  intro k
  have := pi_ne_zero
  have h2 : (2 * (k:ℝ) + 1) ≠ 0 := by positivity
  unfold bigM; push_cast; field_simp; norm_num

/-- `sum (-1)^k 2 / M^3 = 1 / 2`. -/
theorem hasSum_alt_three : HasSum (fun k => (-1) ^ k * (2 / bigM k ^ 3)) (1 / 2) := by
  have he : HasSum (fun k : ℕ => (1:ℝ) / ((2 * k : ℕ) : ℝ) ^ 3 * sin (π * ((2 * k : ℕ) : ℝ) / 2)) 0 := by
    refine hasSum_zero.congr_fun ?_ |> id
    intro k
    have : π * ((2 * k : ℕ) : ℝ) / 2 = k * π := by push_cast; ring
    rw [this, sin_nat_mul_pi, mul_zero]
  have ho := (hasSum_odd_of_nat hasSum_L_function_mod_four_eval_three he).mul_left (16 / π ^ 3)
  have : 16 / π ^ 3 * (π ^ 3 / 32 - 0) = 1 / 2 := by have := pi_ne_zero; field_simp; ring
  rw [this] at ho
  refine ho.congr_fun ?_ |> id
  intro k
  have := pi_ne_zero
  have h2 : (2 * (k:ℝ) + 1) ≠ 0 := by positivity
  have e : π * ((2 * k + 1 : ℕ) : ℝ) / 2 = bigM k := by unfold bigM; push_cast; ring
  rw [e, sin_bigM]
  unfold bigM; push_cast; field_simp; norm_num

end Geotecha.Consol
