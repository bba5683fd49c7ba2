import Verif.Smear.PropsU
import Mathlib.Analysis.SpecialFunctions.Pow.Continuity

/-! # Specification: radial power-law (non-Darcian) flow to a drain under equal strain

As in `Spec.lean`, but the velocity is proportional to the `nf`-th power of the hydraulic gradient: the gradient at radius `x` is
proportional to `(κ x (1/x - x/n²)) ^ (1/nf)`. -/

set_option autoImplicit false
set_option linter.unusedVariables false
namespace Geotecha.Smear
open MeasureTheory intervalIntegral Set Real

/-- Normalised head at radius `r` (zero at the drain). -/
noncomputable def ndHead (n nf : ℝ) (κ : ℝ → ℝ) (r : ℝ) : ℝ := ∫ x in (1 : ℝ)..r, (κ x * (1 / x - x / n ^ 2)) ^ (1 / nf)

/-- The parameter `β`: the mean of the normalised head over the annulus. -/
noncomputable def betaSpec (n nf : ℝ) (κ : ℝ → ℝ) : ℝ := average n (ndHead n nf κ)

/-! ## A general weight -/

/-- Head with gradient `κ w`. -/
noncomputable def head (w κ : ℝ → ℝ) (r : ℝ) : ℝ := ∫ x in (1 : ℝ)..r, κ x * w x

theorem head_cont {n : ℝ} (hn : 1 ≤ n) {κ w : ℝ → ℝ} (h : IsProfile n κ) (hw : ContinuousOn w (Icc 1 n)) : ContinuousOn (head w κ) (Icc 1 n) := by
  have hfi : IntervalIntegrable (fun x => κ x * w x) volume 1 n := h.integrable.mul_continuousOn (by rwa [uIcc_of_le hn])
  have := continuousOn_primitive_interval (f := fun x => κ x * w x) (μ := volume) (a := 1) (b := n) (by
    rw [← intervalIntegrable_iff']; exact hfi)
  rw [uIcc_of_le hn] at this
  exact this

/-- The mean head as a single integral. -/
theorem average_head {n : ℝ} (hn : 1 < n) {κ w : ℝ → ℝ} (h : IsProfile n κ) (hw : ContinuousOn w (Icc 1 n)) :
    average n (head w κ) = 1 / (n ^ 2 - 1) * ∫ x in (1 : ℝ)..n, κ x * ((n ^ 2 - x ^ 2) * w x) := by
  have hUc := head_cont hn.le h hw
  obtain ⟨hi, S, hS, hc⟩ := h
  set f : ℝ → ℝ := fun x => κ x * w x with hf
  have hfi : IntervalIntegrable f volume 1 n := hi.mul_continuousOn (by rwa [uIcc_of_le hn.le])
  have hsub : ∀ x ∈ Icc 1 n, IntervalIntegrable f volume 1 x := fun x hx => hfi.mono_set (by
    rw [uIcc_of_le hx.1, uIcc_of_le hn.le]; exact Icc_subset_Icc le_rfl hx.2)
  have hUd : ∀ x ∈ Ioo 1 n \ S, HasDerivAt (head w κ) (f x) x := by
    intro x hx
    refine integral_hasDerivAt_right (hsub x ⟨hx.1.1.le, hx.1.2.le⟩) ?_ ?_
    · refine ⟨Ioo 1 n, Ioo_mem_nhds hx.1.1 hx.1.2, ?_⟩
      exact hfi.1.aestronglyMeasurable.mono_set Ioo_subset_Ioc_self
    · exact (hc x hx).mul (hw.continuousAt (Icc_mem_nhds hx.1.1 hx.1.2))
  have key := integral_eq_of_hasDerivAt_off_countable_of_le
    (fun r => -((n ^ 2 - r ^ 2) / 2) * head w κ r) (fun r => r * head w κ r - (n ^ 2 - r ^ 2) / 2 * f r) hn.le hS
    ((by fun_prop : Continuous fun r : ℝ => -((n ^ 2 - r ^ 2) / 2)).continuousOn.mul hUc)
    (by
      intro x hx
      have h1 : HasDerivAt (fun r : ℝ => -((n ^ 2 - r ^ 2) / 2)) x x := by
        have := (((hasDerivAt_id x).pow 2).const_sub (n ^ 2)).div_const 2 |>.neg
        simp only [id] at this
        exact this.congr_deriv (by push_cast; ring)
      exact (h1.mul (hUd x hx)).congr_deriv (by ring))
    (by
      apply IntervalIntegrable.sub
      · apply ContinuousOn.intervalIntegrable
        rw [uIcc_of_le hn.le]
        exact continuousOn_id.mul hUc
      · exact hfi.continuousOn_mul (by fun_prop))
  have e1 : head w κ 1 = 0 := by unfold head; simp
  have i1 : IntervalIntegrable (fun r => r * head w κ r) volume 1 n := by
    apply ContinuousOn.intervalIntegrable
    rw [uIcc_of_le hn.le]
    exact continuousOn_id.mul hUc
  have i2 : IntervalIntegrable (fun r => (n ^ 2 - r ^ 2) / 2 * f r) volume 1 n := hfi.continuousOn_mul (by fun_prop)
  rw [intervalIntegral.integral_sub i1 i2, e1] at key
  have e2 : ∫ r in (1 : ℝ)..n, r * head w κ r = ∫ r in (1 : ℝ)..n, (n ^ 2 - r ^ 2) / 2 * f r := by
    have : -((n ^ 2 - n ^ 2) / 2) * head w κ n - -((n ^ 2 - 1 ^ 2) / 2) * 0 = 0 := by ring
    linarith
  have e3 : ∫ r in (1 : ℝ)..n, (n ^ 2 - r ^ 2) / 2 * f r = 1 / 2 * ∫ x in (1 : ℝ)..n, κ x * ((n ^ 2 - x ^ 2) * w x) := by
    rw [← intervalIntegral.integral_const_mul]
    congr 1
    funext x
    simp only [hf]
    ring
  unfold average
  rw [e2, e3]
  ring

/-- The exact gradient for undisturbed soil. -/
noncomputable def wE (n nf x : ℝ) : ℝ := (1 / x - x / n ^ 2) ^ (1 / nf)

theorem flux_nonneg {n x : ℝ} (hx : 0 < x) (hxn : x ≤ n) : 0 ≤ 1 / x - x / n ^ 2 := by
  have hn : 0 < n := lt_of_lt_of_le hx hxn
  rw [sub_nonneg, div_le_div_iff₀ (by positivity) hx]
  nlinarith

theorem wE_cont (n : ℝ) {nf a b : ℝ} (h : 1 < nf) (ha : 0 < a) (hab : a ≤ b) : ContinuousOn (wE n nf) (Icc a b) := by
  have := flux_cont n ha (lt_of_lt_of_le ha hab)
  rw [uIcc_of_le hab] at this
  exact this.rpow_const fun x _ => Or.inr (by positivity)

theorem ndHead_eq {n nf : ℝ} {κ : ℝ → ℝ} (hκ : ∀ x, 1 ≤ x → x < n → 0 ≤ κ x) {r : ℝ} (h1 : 1 ≤ r) (hr : r ≤ n) :
    ndHead n nf κ r = head (wE n nf) (fun x => κ x ^ (1 / nf)) r := by
  unfold ndHead head
  apply intervalIntegral.integral_congr_ae
  have : ∀ᵐ x ∂(volume : Measure ℝ), x ≠ r := by rw [ae_iff]; simp
  filter_upwards [this] with x hx hm
  rw [uIoc_of_le h1] at hm
  have hlt : x < r := lt_of_le_of_ne hm.2 hx
  rw [mul_rpow (hκ x hm.1.le (lt_of_lt_of_le hlt hr)) (flux_nonneg (by linarith [hm.1]) (by linarith))]
  rfl

theorem average_congr {n : ℝ} (hn : 1 ≤ n) {u v : ℝ → ℝ} (h : ∀ r, 1 ≤ r → r ≤ n → u r = v r) : average n u = average n v := by
  unfold average
  congr 1
  apply intervalIntegral.integral_congr
  intro r hr
  rw [uIcc_of_le hn] at hr
  simp only [h r hr.1 hr.2]

theorem betaSpec_eq {n nf : ℝ} (hn : 1 < n) (h : 1 < nf) {κ : ℝ → ℝ} (hκ : ∀ x, 1 ≤ x → x < n → 0 ≤ κ x) (hP : IsProfile n fun x => κ x ^ (1 / nf)) :
    betaSpec n nf κ = 1 / (n ^ 2 - 1) * ∫ x in (1 : ℝ)..n, κ x ^ (1 / nf) * ((n ^ 2 - x ^ 2) * wE n nf x) := by
  rw [← average_head hn hP (wE_cont n h one_pos hn.le)]
  exact average_congr hn.le fun r a b => ndHead_eq hκ a b

/-- Mean head grows with the ratio and the gradient. -/
theorem average_head_mono {n : ℝ} (hn : 1 < n) {κ κ' w w' : ℝ → ℝ} (h : IsProfile n κ) (h' : IsProfile n κ') (hw : ContinuousOn w (Icc 1 n))
    (hw' : ContinuousOn w' (Icc 1 n)) (hle : ∀ x, 1 ≤ x → x < n → κ x * w x ≤ κ' x * w' x) : average n (head w κ) ≤ average n (head w' κ') := by
  rw [average_head hn h hw, average_head hn h' hw']
  have hn2 : 0 < n ^ 2 - 1 := by nlinarith
  apply mul_le_mul_of_nonneg_left _ (by positivity)
  apply intervalIntegral.integral_mono_on hn.le
  · exact h.integrable.mul_continuousOn (by
      rw [uIcc_of_le hn.le]; exact (by fun_prop : Continuous fun x : ℝ => n ^ 2 - x ^ 2).continuousOn.mul hw)
  · exact h'.integrable.mul_continuousOn (by
      rw [uIcc_of_le hn.le]; exact (by fun_prop : Continuous fun x : ℝ => n ^ 2 - x ^ 2).continuousOn.mul hw')
  · intro x hx
    rcases lt_or_eq_of_le hx.2 with hlt | rfl
    · have := hle x hx.1 hlt
      have h2 : 0 ≤ n ^ 2 - x ^ 2 := by nlinarith [hx.1]
      nlinarith [mul_le_mul_of_nonneg_left this h2]
    · simp

end Geotecha.Smear
