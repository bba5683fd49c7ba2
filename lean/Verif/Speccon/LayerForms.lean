import Verif.Speccon.Formulas
import Verif.Speccon.Antideriv

/-! # Each closed form is the integral over one layer (helper lemmas) -/

open Real intervalIntegral
namespace Geotecha.Speccon
variable {aS bS cS a_t b_t c_t z_t z_b mi mj : ℝ}

theorem int_congr' {f g : ℝ → ℝ} {a b : ℝ} (h : ∀ z, f z = g z) : ∫ z in a..b, f z = ∫ z in a..b, g z := by
  congr 1; funext z; exact h z

theorem d_ne {mi mj : ℝ} (h : mi^2 ≠ mj^2) : mi^2 - mj^2 ≠ 0 := sub_ne_zero.2 h

theorem D2 {mi mj : ℝ} (h : mi^2 ≠ mj^2) :
    ((mi^2 - mj^2) * (mi^4 - 2*mi^2*mj^2 + mj^4)⁻¹) * (mi^2 - mj^2) = 1 := by
  have h1 := d_ne h
  have e : mi^4 - 2*mi^2*mj^2 + mj^4 = (mi^2 - mj^2)^2 := by ring
  rw [e]; field_simp

theorem D3 {mi mj : ℝ} (h : mi^2 ≠ mj^2) :
    ((mi^2 - mj^2)^2 * (mi^6 - 3*mi^4*mj^2 + 3*mi^2*mj^4 - mj^6)⁻¹) * (mi^2 - mj^2) = 1 := by
  have h1 := d_ne h
  have e : mi^6 - 3*mi^4*mj^2 + 3*mi^2*mj^4 - mj^6 = (mi^2 - mj^2)^3 := by ring
  rw [e]; field_simp

theorem af_off (h : mi^2 ≠ mj^2) :
    (∫ z in z_t..z_b, (a_t + aS*(z - z_t)) * (sin (mi*z) * sin (mj*z))) = af_off_s aS a_t z_t z_b mi mj ∧
    af_off_v aS a_t z_t z_b mi mj = af_off_s aS a_t z_t z_b mi mj := by
  have := int_sin_sin (D2 h) (d2 := (mi^4 - 2*mi^2*mj^2 + mj^4)⁻¹) (d3 := (mi^4 - 2*mi^2*mj^2 + mj^4)⁻¹ * ((mi^2 - mj^2) * (mi^4 - 2*mi^2*mj^2 + mj^4)⁻¹)) (by ring) (by rw [mul_assoc, D2 h, mul_one]) a_t aS 0 z_t z_t z_b
  constructor
  · rw [int_congr' (g := fun z => (a_t + aS*(z-z_t) + 0*(z-z_t)^2) * (sin (mi*z) * sin (mj*z))) (fun z => by ring), this]
    unfold af_off_s
    ring
  · unfold af_off_s af_off_v
    ring

theorem abf_off (h : mi^2 ≠ mj^2) :
    (∫ z in z_t..z_b, (a_t + aS*(z - z_t)) * (b_t + bS*(z - z_t)) * (sin (mi*z) * sin (mj*z))) = abf_off_s aS bS a_t b_t z_t z_b mi mj ∧
    abf_off_v aS bS a_t b_t z_t z_b mi mj = abf_off_s aS bS a_t b_t z_t z_b mi mj := by
  have := int_sin_sin (D3 h) (d2 := (mi^2 - mj^2) * (mi^6 - 3*mi^4*mj^2 + 3*mi^2*mj^4 - mj^6)⁻¹)
    (d3 := (mi^6 - 3*mi^4*mj^2 + 3*mi^2*mj^4 - mj^6)⁻¹) (by ring) (by ring) (a_t*b_t) (aS*b_t+bS*a_t) (aS*bS) z_t z_t z_b
  constructor
  · rw [int_congr' (g := fun z => (a_t*b_t + (aS*b_t+bS*a_t)*(z-z_t) + aS*bS*(z-z_t)^2) * (sin (mi*z) * sin (mj*z))) (fun z => by ring), this]
    unfold abf_off_s
    ring
  · unfold abf_off_s abf_off_v
    ring

theorem af_diag (h : mi ≠ 0) :
    (∫ z in z_t..z_b, (a_t + aS*(z - z_t)) * (sin (mi*z) * sin (mi*z))) = af_diag_s aS a_t z_t z_b mi ∧
    af_diag_v aS a_t z_t z_b mi = af_diag_s aS a_t z_t z_b mi := by
  have := int_sin_sq h a_t aS 0 z_t z_t z_b
  constructor
  · rw [int_congr' (g := fun z => (a_t + aS*(z-z_t) + 0*(z-z_t)^2) * (sin (mi*z) * sin (mi*z))) (fun z => by ring), this]
    unfold af_diag_s
    simp only [cos_sq']
    ring
  · unfold af_diag_s af_diag_v
    ring

theorem abf_diag (h : mi ≠ 0) :
    (∫ z in z_t..z_b, (a_t + aS*(z - z_t)) * (b_t + bS*(z - z_t)) * (sin (mi*z) * sin (mi*z))) = abf_diag_s aS bS a_t b_t z_t z_b mi ∧
    abf_diag_v aS bS a_t b_t z_t z_b mi = abf_diag_s aS bS a_t b_t z_t z_b mi := by
  have := int_sin_sq h (a_t*b_t) (aS*b_t+bS*a_t) (aS*bS) z_t z_t z_b
  constructor
  · rw [int_congr' (g := fun z => (a_t*b_t + (aS*b_t+bS*a_t)*(z-z_t) + aS*bS*(z-z_t)^2) * (sin (mi*z) * sin (mi*z))) (fun z => by ring), this]
    unfold abf_diag_s
    simp only [cos_sq']
    ring
  · unfold abf_diag_s abf_diag_v
    ring

theorem DaDf_off (h : mi^2 ≠ mj^2) :
    (-(mi*mj) * ∫ z in z_t..z_b, (a_t + aS*(z - z_t)) * (cos (mi*z) * cos (mj*z))) = DaDf_off_s aS a_t z_t z_b mi mj ∧
    DaDf_off_v aS a_t z_t z_b mi mj = DaDf_off_s aS a_t z_t z_b mi mj := by
  have := int_cos_cos (D2 h) (d2 := (mi^4 - 2*mi^2*mj^2 + mj^4)⁻¹) (by ring) a_t aS z_t z_t z_b
  constructor
  · rw [this]
    unfold DaDf_off_s
    ring
  · unfold DaDf_off_s DaDf_off_v
    ring

theorem DaDf_diag (h : mi ≠ 0) :
    (-(mi*mi) * ∫ z in z_t..z_b, (a_t + aS*(z - z_t)) * (cos (mi*z) * cos (mi*z))) = DaDf_diag_s aS a_t z_t z_b mi ∧
    DaDf_diag_v aS a_t z_t z_b mi = DaDf_diag_s aS a_t z_t z_b mi := by
  have := int_cos_sq h a_t aS z_t z_t z_b
  constructor
  · rw [this]
    unfold DaDf_diag_s
    simp only [cos_sq']
    ring
  · unfold DaDf_diag_s DaDf_diag_v
    ring

theorem DDabDDf_off (h : mi^2 ≠ mj^2) :
    (mi^2*mj^2 * ∫ z in z_t..z_b, (a_t + aS*(z - z_t)) * (b_t + bS*(z - z_t)) * (sin (mi*z) * sin (mj*z))) = DDabDDf_off_s aS bS a_t b_t z_t z_b mi mj ∧
    DDabDDf_off_v aS bS a_t b_t z_t z_b mi mj = DDabDDf_off_s aS bS a_t b_t z_t z_b mi mj := by
  have := int_sin_sin (D3 h) (d2 := (mi^2 - mj^2) * (mi^6 - 3*mi^4*mj^2 + 3*mi^2*mj^4 - mj^6)⁻¹)
    (d3 := (mi^6 - 3*mi^4*mj^2 + 3*mi^2*mj^4 - mj^6)⁻¹) (by ring) (by ring) (a_t*b_t) (aS*b_t+bS*a_t) (aS*bS) z_t z_t z_b
  constructor
  · rw [int_congr' (g := fun z => (a_t*b_t + (aS*b_t+bS*a_t)*(z-z_t) + aS*bS*(z-z_t)^2) * (sin (mi*z) * sin (mj*z))) (fun z => by ring), this]
    unfold DDabDDf_off_s
    simp only [mul_comm z_t mi, mul_comm z_b mi, mul_comm z_t mj, mul_comm z_b mj]
    ring
  · unfold DDabDDf_off_s DDabDDf_off_v
    simp only [mul_comm z_t mi, mul_comm z_b mi, mul_comm z_t mj, mul_comm z_b mj]
    ring

theorem DDabDDf_diag (h : mi ≠ 0) :
    (mi^2*mi^2 * ∫ z in z_t..z_b, (a_t + aS*(z - z_t)) * (b_t + bS*(z - z_t)) * (sin (mi*z) * sin (mi*z))) = DDabDDf_diag_s aS bS a_t b_t z_t z_b mi ∧
    DDabDDf_diag_v aS bS a_t b_t z_t z_b mi = DDabDDf_diag_s aS bS a_t b_t z_t z_b mi := by
  have := int_sin_sq h (a_t*b_t) (aS*b_t+bS*a_t) (aS*bS) z_t z_t z_b
  constructor
  · rw [int_congr' (g := fun z => (a_t*b_t + (aS*b_t+bS*a_t)*(z-z_t) + aS*bS*(z-z_t)^2) * (sin (mi*z) * sin (mi*z))) (fun z => by ring), this]
    unfold DDabDDf_diag_s
    simp only [mul_comm z_t mi, mul_comm z_b mi]
    simp only [cos_sq']
    ring
  · unfold DDabDDf_diag_s DDabDDf_diag_v
    simp only [mul_comm z_t mi, mul_comm z_b mi]
    ring

theorem ab_form (h : mi ≠ 0) :
    (∫ z in z_t..z_b, (a_t + aS*(z - z_t)) * (b_t + bS*(z - z_t)) * sin (mi*z)) = ab_s aS bS a_t b_t z_t z_b mi ∧
    ab_v aS bS a_t b_t z_t z_b mi = ab_s aS bS a_t b_t z_t z_b mi := by
  have := int_sin h (a_t*b_t) (aS*b_t+bS*a_t) (aS*bS) 0 z_t z_t z_b
  constructor
  · rw [int_congr' (g := fun z => (a_t*b_t + (aS*b_t+bS*a_t)*(z-z_t) + aS*bS*(z-z_t)^2 + 0*(z-z_t)^3) * sin (mi*z)) (fun z => by ring), this]
    unfold ab_s
    ring
  · unfold ab_s ab_v
    ring

theorem abc_form (h : mi ≠ 0) :
    (∫ z in z_t..z_b, (a_t + aS*(z - z_t)) * (b_t + bS*(z - z_t)) * (c_t + cS*(z - z_t)) * sin (mi*z)) = abc_s aS bS cS a_t b_t c_t z_t z_b mi ∧
    abc_v aS bS cS a_t b_t c_t z_t z_b mi = abc_s aS bS cS a_t b_t c_t z_t z_b mi := by
  have := int_sin h (a_t*b_t*c_t) (aS*b_t*c_t+bS*a_t*c_t+cS*a_t*b_t) (aS*bS*c_t+aS*cS*b_t+bS*cS*a_t) (aS*bS*cS) z_t z_t z_b
  constructor
  · rw [int_congr' (g := fun z => (a_t*b_t*c_t + (aS*b_t*c_t+bS*a_t*c_t+cS*a_t*b_t)*(z-z_t) + (aS*bS*c_t+aS*cS*b_t+bS*cS*a_t)*(z-z_t)^2
      + aS*bS*cS*(z-z_t)^3) * sin (mi*z)) (fun z => by ring), this]
    unfold abc_s
    ring
  · unfold abc_s abc_v
    ring

theorem DaDb_form (h : mi ≠ 0) :
    (-(mi * bS) * ∫ z in z_t..z_b, (a_t + aS*(z - z_t)) * cos (mi*z)) = DaDb_s aS bS a_t z_t z_b mi ∧
    DaDb_v aS bS a_t z_t z_b mi = DaDb_s aS bS a_t z_t z_b mi := by
  have := int_cos h a_t aS z_t z_t z_b
  constructor
  · rw [this]
    unfold DaDb_s
    simp only [mul_comm z_t mi, mul_comm z_b mi]
    ring
  · unfold DaDb_s DaDb_v
    simp only [mul_comm z_t mi, mul_comm z_b mi]
    ring

end Geotecha.Speccon
