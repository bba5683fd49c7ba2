import Verif.Smear.Spec
import Mathlib.Analysis.SpecialFunctions.Log.Deriv

/-! # Antiderivatives on a zone -/

namespace Geotecha.Smear
open MeasureTheory intervalIntegral Set Real

theorem ftc {f F : ℝ → ℝ} {a b : ℝ} (ha : 0 < a) (hab : a ≤ b) (hd : ∀ x, 0 < x → a ≤ x → x ≤ b → HasDerivAt F (f x) x) (hc : ContinuousOn f (Icc a b)) :
    ∫ x in a..b, f x = F b - F a := by
  apply integral_eq_sub_of_hasDerivAt
  · intro x hx
    rw [uIcc_of_le hab] at hx
    exact hd x (lt_of_lt_of_le ha hx.1) hx.1 hx.2
  · apply ContinuousOn.intervalIntegrable
    rw [uIcc_of_le hab]; exact hc

theorem pow_deriv (k : ℕ) (x : ℝ) : HasDerivAt (fun y : ℝ => y ^ k) (k * x ^ (k - 1)) x := by simpa using hasDerivAt_pow k x

theorem flux_icc (n : ℝ) {a b : ℝ} (ha : 0 < a) (hab : a ≤ b) : ContinuousOn (fun x : ℝ => 1 / x - x / n ^ 2) (Icc a b) := by
  have := flux_cont n ha (lt_of_lt_of_le ha hab)
  rwa [uIcc_of_le hab] at this

theorem weight_icc (n : ℝ) {a b : ℝ} (ha : 0 < a) (hab : a ≤ b) : ContinuousOn (weight n) (Icc a b) := by
  have := weight_cont n ha (lt_of_lt_of_le ha hab)
  rwa [uIcc_of_le hab] at this

/-! ## Constant permeability -/

noncomputable def F1 (n x : ℝ) : ℝ := log x - x ^ 2 / n ^ 2 + x ^ 4 / (4 * n ^ 4)
noncomputable def G1 (n x : ℝ) : ℝ := log x - x ^ 2 / (2 * n ^ 2)

theorem F1_deriv {n x : ℝ} (hn : n ≠ 0) (hx : 0 < x) : HasDerivAt (F1 n) (weight n x) x := by
  have h := ((hasDerivAt_log hx.ne').sub ((pow_deriv 2 x).div_const (n ^ 2))).add ((pow_deriv 4 x).div_const (4 * n ^ 4))
  refine h.congr_deriv ?_
  unfold weight
  have := hx.ne'
  field_simp
  ring

theorem G1_deriv {n x : ℝ} (hn : n ≠ 0) (hx : 0 < x) : HasDerivAt (G1 n) (1 / x - x / n ^ 2) x := by
  have h := (hasDerivAt_log hx.ne').sub ((pow_deriv 2 x).div_const (2 * n ^ 2))
  refine h.congr_deriv ?_
  have := hx.ne'
  field_simp
  ring

theorem int_weight {n a b : ℝ} (hn : n ≠ 0) (ha : 0 < a) (hab : a ≤ b) : ∫ x in a..b, weight n x = F1 n b - F1 n a :=
  ftc ha hab (fun x hx _ _ => F1_deriv hn hx) (weight_icc n ha hab)

theorem int_flux {n a b : ℝ} (hn : n ≠ 0) (ha : 0 < a) (hab : a ≤ b) : ∫ x in a..b, (1 / x - x / n ^ 2) = G1 n b - G1 n a :=
  ftc ha hab (fun x hx _ _ => G1_deriv hn hx) (flux_icc n ha hab)

theorem int_const_weight {n a b c : ℝ} (hn : n ≠ 0) (ha : 0 < a) (hab : a ≤ b) : ∫ x in a..b, c * weight n x = c * (F1 n b - F1 n a) := by
  rw [intervalIntegral.integral_const_mul, int_weight hn ha hab]

theorem int_const_flux {n a b c : ℝ} (hn : n ≠ 0) (ha : 0 < a) (hab : a ≤ b) : ∫ x in a..b, c * (1 / x - x / n ^ 2) = c * (G1 n b - G1 n a) := by
  rw [intervalIntegral.integral_const_mul, int_flux hn ha hab]

/-! ## Permeability proportional to the radius -/

noncomputable def F2 (n c x : ℝ) : ℝ := c * (-1 / x - 2 * x / n ^ 2 + x ^ 3 / (3 * n ^ 4))
noncomputable def G2 (n c x : ℝ) : ℝ := c * (-1 / x - x / n ^ 2)

theorem ninv_deriv {x : ℝ} (hx : 0 < x) : HasDerivAt (fun y : ℝ => -1 / y) (1 / x ^ 2) x := by
  have h := (hasDerivAt_inv hx.ne').neg
  have e : (fun y : ℝ => -1 / y) = -(fun y : ℝ => y⁻¹) := by funext y; simp [neg_div]
  rw [e]
  exact h.congr_deriv (by ring)

theorem F2_deriv {n c x : ℝ} (hn : n ≠ 0) (hx : 0 < x) : HasDerivAt (F2 n c) (c / x * weight n x) x := by
  have h := (((ninv_deriv hx).sub (((hasDerivAt_id x).const_mul 2).div_const (n ^ 2))).add ((pow_deriv 3 x).div_const (3 * n ^ 4))).const_mul c
  refine h.congr_deriv ?_
  unfold weight
  have := hx.ne'
  field_simp
  push_cast
  ring

theorem G2_deriv {n c x : ℝ} (hn : n ≠ 0) (hx : 0 < x) : HasDerivAt (G2 n c) (c / x * (1 / x - x / n ^ 2)) x := by
  have h := ((ninv_deriv hx).sub ((hasDerivAt_id x).div_const (n ^ 2))).const_mul c
  refine h.congr_deriv ?_
  have := hx.ne'
  field_simp

theorem cdiv_cont {c a b : ℝ} (ha : 0 < a) : ContinuousOn (fun x : ℝ => c / x) (Icc a b) :=
  continuousOn_const.div continuousOn_id (fun x hx => ne_of_gt (lt_of_lt_of_le ha hx.1))

theorem int_inv_weight {n a b c : ℝ} (hn : n ≠ 0) (ha : 0 < a) (hab : a ≤ b) : ∫ x in a..b, c / x * weight n x = F2 n c b - F2 n c a :=
  ftc ha hab (fun x hx _ _ => F2_deriv hn hx) ((cdiv_cont ha).mul (weight_icc n ha hab))

theorem int_inv_flux {n a b c : ℝ} (hn : n ≠ 0) (ha : 0 < a) (hab : a ≤ b) : ∫ x in a..b, c / x * (1 / x - x / n ^ 2) = G2 n c b - G2 n c a :=
  ftc ha hab (fun x hx _ _ => G2_deriv hn hx) ((cdiv_cont ha).mul (flux_icc n ha hab))

/-! ## Linear permeability `A x + B` -/

noncomputable def F3 (n c A B x : ℝ) : ℝ :=
  c * ((log x - log (A * x + B)) / B - 2 / n ^ 2 * (x / A - B / A ^ 2 * log (A * x + B))
    + 1 / n ^ 4 * (x ^ 3 / (3 * A) - B * x ^ 2 / (2 * A ^ 2) + B ^ 2 * x / A ^ 3 - B ^ 3 / A ^ 4 * log (A * x + B)))
noncomputable def G3 (n c A B x : ℝ) : ℝ :=
  c * ((log x - log (A * x + B)) / B - 1 / n ^ 2 * (x / A - B / A ^ 2 * log (A * x + B)))

theorem lin_deriv (A B x : ℝ) : HasDerivAt (fun y : ℝ => A * y + B) A x := by
  simpa using ((hasDerivAt_id x).const_mul A).add_const B

theorem loglin_deriv {A B x : ℝ} (h : 0 < A * x + B) : HasDerivAt (fun y : ℝ => log (A * y + B)) (A / (A * x + B)) x :=
  (lin_deriv A B x).log h.ne'

theorem F3_deriv {n c A B x : ℝ} (hn : n ≠ 0) (hA : A ≠ 0) (hB : B ≠ 0) (hx : 0 < x) (hp : 0 < A * x + B) :
    HasDerivAt (F3 n c A B) (c / (A * x + B) * weight n x) x := by
  have hl := loglin_deriv hp
  have h1 := ((hasDerivAt_log hx.ne').sub hl).div_const B
  have h2 := (((hasDerivAt_id x).div_const A).sub (hl.const_mul (B / A ^ 2))).const_mul (2 / n ^ 2)
  have h3 := (((((pow_deriv 3 x).div_const (3 * A)).sub (((pow_deriv 2 x).const_mul B).div_const (2 * A ^ 2))).add
    (((hasDerivAt_id x).const_mul (B ^ 2)).div_const (A ^ 3))).sub (hl.const_mul (B ^ 3 / A ^ 4))).const_mul (1 / n ^ 4)
  have h := ((h1.sub h2).add h3).const_mul c
  refine h.congr_deriv ?_
  unfold weight
  have hx' := hx.ne'
  have hp' := hp.ne'
  push_cast
  clear h h1 h2 h3 hl hp
  generalize hP : A * x + B = P at *
  have hB' : B = P - A * x := by rw [← hP]; ring
  field_simp
  rw [hB']
  ring

theorem G3_deriv {n c A B x : ℝ} (hn : n ≠ 0) (hA : A ≠ 0) (hB : B ≠ 0) (hx : 0 < x) (hp : 0 < A * x + B) :
    HasDerivAt (G3 n c A B) (c / (A * x + B) * (1 / x - x / n ^ 2)) x := by
  have hl := loglin_deriv hp
  have h1 := ((hasDerivAt_log hx.ne').sub hl).div_const B
  have h2 := (((hasDerivAt_id x).div_const A).sub (hl.const_mul (B / A ^ 2))).const_mul (1 / n ^ 2)
  have h := (h1.sub h2).const_mul c
  refine h.congr_deriv ?_
  have hx' := hx.ne'
  have hp' := hp.ne'
  clear h h1 h2 hl hp
  generalize hP : A * x + B = P at *
  have hB' : B = P - A * x := by rw [← hP]; ring
  field_simp
  rw [hB']
  ring

theorem clin_cont {c A B a b : ℝ} (hp : ∀ x ∈ Icc a b, 0 < A * x + B) : ContinuousOn (fun x : ℝ => c / (A * x + B)) (Icc a b) :=
  continuousOn_const.div (by fun_prop) (fun x hx => (hp x hx).ne')

theorem int_lin_weight {n a b c A B : ℝ} (hn : n ≠ 0) (ha : 0 < a) (hab : a ≤ b) (hA : A ≠ 0) (hB : B ≠ 0) (hp : ∀ x ∈ Icc a b, 0 < A * x + B) :
    ∫ x in a..b, c / (A * x + B) * weight n x = F3 n c A B b - F3 n c A B a :=
  ftc ha hab (fun x hx h1 h2 => F3_deriv hn hA hB hx (hp x ⟨h1, h2⟩)) ((clin_cont hp).mul (weight_icc n ha hab))

theorem int_lin_flux {n a b c A B : ℝ} (hn : n ≠ 0) (ha : 0 < a) (hab : a ≤ b) (hA : A ≠ 0) (hB : B ≠ 0) (hp : ∀ x ∈ Icc a b, 0 < A * x + B) :
    ∫ x in a..b, c / (A * x + B) * (1 / x - x / n ^ 2) = G3 n c A B b - G3 n c A B a :=
  ftc ha hab (fun x hx h1 h2 => G3_deriv hn hA hB hx (hp x ⟨h1, h2⟩)) ((clin_cont hp).mul (flux_icc n ha hab))

/-! ## Parabolic permeability -/

/-- Antiderivatives of `c / (P Q)` times weight and flux, `P = A - B + C x`, `Q = A + B - C x`. -/
noncomputable def F4 (n c A B C x : ℝ) : ℝ :=
  c * ((1 / (A ^ 2 - B ^ 2) * log x + 1 / ((B - A) * 2 * A) * log (A - B + C * x) - 1 / ((A + B) * 2 * A) * log (A + B - C * x))
    - 2 / n ^ 2 * ((B - A) / (2 * A * C ^ 2) * log (A - B + C * x) - (A + B) / (2 * A * C ^ 2) * log (A + B - C * x))
    + 1 / n ^ 4 * (-x ^ 2 / (2 * C ^ 2) - 2 * B / C ^ 3 * x + (B - A) ^ 3 / (2 * A * C ^ 4) * log (A - B + C * x)
      - (A + B) ^ 3 / (2 * A * C ^ 4) * log (A + B - C * x)))
noncomputable def G4 (n c A B C x : ℝ) : ℝ :=
  c * ((1 / (A ^ 2 - B ^ 2) * log x + 1 / ((B - A) * 2 * A) * log (A - B + C * x) - 1 / ((A + B) * 2 * A) * log (A + B - C * x))
    - 1 / n ^ 2 * ((B - A) / (2 * A * C ^ 2) * log (A - B + C * x) - (A + B) / (2 * A * C ^ 2) * log (A + B - C * x)))

theorem logP_deriv {A B C x : ℝ} (h : 0 < A - B + C * x) : HasDerivAt (fun y : ℝ => log (A - B + C * y)) (C / (A - B + C * x)) x := by
  have := ((hasDerivAt_id x).const_mul C).const_add (A - B)
  simp only [id, mul_one] at this
  exact this.log h.ne'

theorem logQ_deriv {A B C x : ℝ} (h : 0 < A + B - C * x) : HasDerivAt (fun y : ℝ => log (A + B - C * y)) (-C / (A + B - C * x)) x := by
  have := ((hasDerivAt_id x).const_mul C).const_sub (A + B)
  simp only [id, mul_one] at this
  exact this.log h.ne'

theorem F4_deriv {n c A B C x : ℝ} (hn : n ≠ 0) (hA : A ≠ 0) (hC : C ≠ 0) (h1 : B - A ≠ 0) (h2 : A + B ≠ 0) (hx : 0 < x)
    (hp : 0 < A - B + C * x) (hq : 0 < A + B - C * x) :
    HasDerivAt (F4 n c A B C) (c / ((A - B + C * x) * (A + B - C * x)) * weight n x) x := by
  have lp := logP_deriv hp
  have lq := logQ_deriv hq
  have e1 := (((hasDerivAt_log hx.ne').const_mul (1 / (A ^ 2 - B ^ 2))).add (lp.const_mul (1 / ((B - A) * 2 * A)))).sub (lq.const_mul (1 / ((A + B) * 2 * A)))
  have e2 := ((lp.const_mul ((B - A) / (2 * A * C ^ 2))).sub (lq.const_mul ((A + B) / (2 * A * C ^ 2)))).const_mul (2 / n ^ 2)
  have e3 := ((((pow_deriv 2 x).neg.div_const (2 * C ^ 2)).sub ((hasDerivAt_id x).const_mul (2 * B / C ^ 3))).add
    (lp.const_mul ((B - A) ^ 3 / (2 * A * C ^ 4)))).sub (lq.const_mul ((A + B) ^ 3 / (2 * A * C ^ 4))) |>.const_mul (1 / n ^ 4)
  have h := ((e1.sub e2).add e3).const_mul c
  refine h.congr_deriv ?_
  unfold weight
  have hx' := hx.ne'
  have hp' := hp.ne'
  have hq' := hq.ne'
  have hd : A ^ 2 - B ^ 2 = -((B - A) * (A + B)) := by ring
  rw [hd]
  push_cast
  generalize hP : A - B + C * x = P at *
  generalize hQ : A + B - C * x = Q at *
  have hAe : A = (P + Q) / 2 := by rw [← hP, ← hQ]; ring
  have hBe : C * x = B - (Q - P) / 2 := by rw [← hP, ← hQ]; ring
  have hBA : B - A = C * x - P := by rw [← hP]; ring
  have hAB : A + B = C * x + Q := by rw [← hQ]; ring
  field_simp
  have hB : B = C * x + (Q - P) / 2 := by linarith
  rw [hB, hAe]
  ring

theorem G4_deriv {n c A B C x : ℝ} (hn : n ≠ 0) (hA : A ≠ 0) (hC : C ≠ 0) (h1 : B - A ≠ 0) (h2 : A + B ≠ 0) (hx : 0 < x)
    (hp : 0 < A - B + C * x) (hq : 0 < A + B - C * x) :
    HasDerivAt (G4 n c A B C) (c / ((A - B + C * x) * (A + B - C * x)) * (1 / x - x / n ^ 2)) x := by
  have lp := logP_deriv hp
  have lq := logQ_deriv hq
  have e1 := (((hasDerivAt_log hx.ne').const_mul (1 / (A ^ 2 - B ^ 2))).add (lp.const_mul (1 / ((B - A) * 2 * A)))).sub (lq.const_mul (1 / ((A + B) * 2 * A)))
  have e2 := ((lp.const_mul ((B - A) / (2 * A * C ^ 2))).sub (lq.const_mul ((A + B) / (2 * A * C ^ 2)))).const_mul (1 / n ^ 2)
  have h := (e1.sub e2).const_mul c
  refine h.congr_deriv ?_
  have hx' := hx.ne'
  have hp' := hp.ne'
  have hq' := hq.ne'
  have hd : A ^ 2 - B ^ 2 = -((B - A) * (A + B)) := by ring
  rw [hd]
  generalize hP : A - B + C * x = P at *
  generalize hQ : A + B - C * x = Q at *
  have hAe : A = (P + Q) / 2 := by rw [← hP, ← hQ]; ring
  have hB : B = C * x + (Q - P) / 2 := by rw [← hP, ← hQ]; ring
  field_simp
  rw [hB, hAe]
  ring

theorem cpar_cont {c A B C a b : ℝ} (hp : ∀ x ∈ Icc a b, 0 < A - B + C * x) (hq : ∀ x ∈ Icc a b, 0 < A + B - C * x) :
    ContinuousOn (fun x : ℝ => c / ((A - B + C * x) * (A + B - C * x))) (Icc a b) :=
  continuousOn_const.div (by fun_prop) (fun x hx => mul_ne_zero (hp x hx).ne' (hq x hx).ne')

theorem int_par_weight {n a b c A B C : ℝ} (hn : n ≠ 0) (ha : 0 < a) (hab : a ≤ b) (hA : A ≠ 0) (hC : C ≠ 0) (h1 : B - A ≠ 0) (h2 : A + B ≠ 0)
    (hp : ∀ x ∈ Icc a b, 0 < A - B + C * x) (hq : ∀ x ∈ Icc a b, 0 < A + B - C * x) :
    ∫ x in a..b, c / ((A - B + C * x) * (A + B - C * x)) * weight n x = F4 n c A B C b - F4 n c A B C a :=
  ftc ha hab (fun x hx l u => F4_deriv hn hA hC h1 h2 hx (hp x ⟨l, u⟩) (hq x ⟨l, u⟩)) ((cpar_cont hp hq).mul (weight_icc n ha hab))

theorem int_par_flux {n a b c A B C : ℝ} (hn : n ≠ 0) (ha : 0 < a) (hab : a ≤ b) (hA : A ≠ 0) (hC : C ≠ 0) (h1 : B - A ≠ 0) (h2 : A + B ≠ 0)
    (hp : ∀ x ∈ Icc a b, 0 < A - B + C * x) (hq : ∀ x ∈ Icc a b, 0 < A + B - C * x) :
    ∫ x in a..b, c / ((A - B + C * x) * (A + B - C * x)) * (1 / x - x / n ^ 2) = G4 n c A B C b - G4 n c A B C a :=
  ftc ha hab (fun x hx l u => G4_deriv hn hA hC h1 h2 hx (hp x ⟨l, u⟩) (hq x ⟨l, u⟩)) ((cpar_cont hp hq).mul (flux_icc n ha hab))

end Geotecha.Smear
