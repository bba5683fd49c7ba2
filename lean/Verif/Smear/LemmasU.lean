import Verif.Smear.PropsZones
import Verif.Smear.ModelU

/-! # Pore pressures: bridges -/

set_option linter.unusedVariables false
namespace Geotecha.Smear
open MeasureTheory intervalIntegral Set Real Geotecha.Piecewise

/-- `u` is the pore pressure distribution for the permeability ratio `κ`, mean value `uavg`, pressure `uw` in the drain and well resistance `muw`:
continuous, the right mean, and with increments `q · pressure` where `q` is also the rate of loss in the well. -/
structure IsPorePressure (n : ℝ) (κ : ℝ → ℝ) (uavg uw muw : ℝ) (u : ℝ → ℝ) : Prop where
  continuous : ContinuousOn u (Icc 1 n)
  mean : average n u = uavg
  flow : ∃ q, u 1 = uw + q * muw ∧ ∀ r, 1 ≤ r → r ≤ n → u r = u 1 + q * pressure n κ r

theorem pressure_cont {n : ℝ} (hn : 1 ≤ n) {κ : ℝ → ℝ} (h : IsProfile n κ) : ContinuousOn (pressure n κ) (Icc 1 n) := by
  have hfi : IntervalIntegrable (fun x => κ x * (1 / x - x / n ^ 2)) volume 1 n := h.integrable.mul_continuousOn (flux_cont n one_pos (by linarith))
  have := continuousOn_primitive_interval (f := fun x => κ x * (1 / x - x / n ^ 2)) (μ := volume) (a := 1) (b := n) (by
    rw [← intervalIntegrable_iff']; exact hfi)
  rw [uIcc_of_le hn] at this
  exact this

theorem average_affine {n : ℝ} (hn : 1 < n) {p : ℝ → ℝ} (hp : ContinuousOn p (Icc 1 n)) (c d : ℝ) :
    average n (fun r => c * p r + d) = c * average n p + d := by
  unfold average
  obtain ⟨h0, h1⟩ := hn0 hn
  have i1 : IntervalIntegrable (fun r => c * (r * p r)) volume 1 n := by
    apply ContinuousOn.intervalIntegrable
    rw [uIcc_of_le hn.le]
    exact continuousOn_const.mul (continuousOn_id.mul hp)
  have i2 : IntervalIntegrable (fun r : ℝ => r * d) volume 1 n := Continuous.intervalIntegrable (by fun_prop) _ _
  have : (fun r => r * (c * p r + d)) = fun r => c * (r * p r) + r * d := by funext r; ring
  rw [this, intervalIntegral.integral_add i1 i2, intervalIntegral.integral_const_mul, intervalIntegral.integral_mul_const, integral_id]
  field_simp

/-- What every `u_*` function computes. -/
theorem uForm_ok {n : ℝ} (hn : 1 < n) {κ : ℝ → ℝ} (h : IsProfile n κ) (uavg uw muw : ℝ) (hm : muSpec n κ + muw ≠ 0) (u : ℝ → ℝ)
    (hu : ∀ r, 1 ≤ r → r ≤ n → u r = uForm (muSpec n κ) uavg uw muw (pressure n κ r)) : IsPorePressure n κ uavg uw muw u := by
  have hp := pressure_cont hn.le h
  have e1 : pressure n κ 1 = 0 := by unfold pressure; simp
  set q := (uavg - uw) / (muSpec n κ + muw) with hq
  have hu' : ∀ r ∈ Icc 1 n, u r = q * pressure n κ r + (q * muw + uw) := by
    intro r hr
    rw [hu r hr.1 hr.2]
    unfold uForm
    rw [← hq]; ring
  refine ⟨?_, ?_, q, ?_, ?_⟩
  · apply ContinuousOn.congr _ hu'
    exact (continuousOn_const.mul hp).add continuousOn_const
  · have : average n u = average n (fun r => q * pressure n κ r + (q * muw + uw)) := by
      unfold average
      congr 1
      apply intervalIntegral.integral_congr
      intro r hr
      rw [uIcc_of_le hn.le] at hr
      simp only [hu' r hr]
    rw [this, average_affine hn hp]
    change q * muSpec n κ + (q * muw + uw) = uavg
    rw [hq]; field_simp; ring
  · rw [hu' 1 ⟨le_rfl, hn.le⟩, e1]; ring
  · intro r h1 h2
    rw [hu' r ⟨h1, h2⟩, hu' 1 ⟨le_rfl, hn.le⟩, e1]; ring

theorem pressure_in {κ κ₁ : ℝ → ℝ} {n s r : ℝ} (h1 : ∀ x, 1 ≤ x → x < s → κ x = κ₁ x) (hr : 1 ≤ r) (hrs : r ≤ s) :
    pressure n κ r = ∫ x in (1 : ℝ)..r, κ₁ x * (1 / x - x / n ^ 2) := by
  unfold pressure
  apply intervalIntegral.integral_congr_ae
  have : ∀ᵐ x ∂(volume : Measure ℝ), x ≠ r := by rw [ae_iff]; simp
  filter_upwards [this] with x hx hm
  rw [uIoc_of_le hr] at hm
  rw [h1 x hm.1.le (lt_of_lt_of_le (lt_of_le_of_ne hm.2 hx) hrs)]

theorem pressure_out {κ κ₁ : ℝ → ℝ} {n s r : ℝ} (hs : 1 ≤ s) (hsr : s ≤ r) (hrn : r ≤ n) (hκ : IsProfile n κ)
    (h1 : ∀ x, 1 ≤ x → x < s → κ x = κ₁ x) (h2 : ∀ x, s ≤ x → x < n → κ x = 1) :
    pressure n κ r = (∫ x in (1 : ℝ)..s, κ₁ x * (1 / x - x / n ^ 2)) + ∫ x in s..r, (1 / x - x / n ^ 2) := by
  have hfi : IntervalIntegrable (fun x => κ x * (1 / x - x / n ^ 2)) volume 1 n :=
    hκ.integrable.mul_continuousOn (flux_cont n one_pos (by linarith))
  have i1 : IntervalIntegrable (fun x => κ x * (1 / x - x / n ^ 2)) volume 1 s := hfi.mono_set (by
    rw [uIcc_of_le hs, uIcc_of_le (by linarith)]; exact Icc_subset_Icc le_rfl (by linarith))
  have i2 : IntervalIntegrable (fun x => κ x * (1 / x - x / n ^ 2)) volume s r := hfi.mono_set (by
    rw [uIcc_of_le hsr, uIcc_of_le (by linarith)]; exact Icc_subset_Icc hs hrn)
  have e : pressure n κ r = pressure n κ s + ∫ x in s..r, κ x * (1 / x - x / n ^ 2) := by
    unfold pressure; rw [integral_add_adjacent_intervals i1 i2]
  rw [e, pressure_in h1 hs le_rfl]
  congr 1
  apply intervalIntegral.integral_congr_ae
  have : ∀ᵐ x ∂(volume : Measure ℝ), x ≠ r := by rw [ae_iff]; simp
  filter_upwards [this] with x hx hm
  rw [uIoc_of_le hsr] at hm
  rw [h2 x hm.1.le (lt_of_lt_of_le (lt_of_le_of_ne hm.2 hx) hrn), one_mul]

end Geotecha.Smear
