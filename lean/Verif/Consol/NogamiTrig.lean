import Verif.Consol.Nogami
import Mathlib.Analysis.SpecialFunctions.Trigonometric.Deriv
import Mathlib.Analysis.SpecialFunctions.Trigonometric.DerivHyp
import Mathlib.MeasureTheory.Integral.IntervalIntegral.FundThmCalculus
import Mathlib.Tactic.FieldSimp
import Mathlib.Tactic.Linarith

/-! # nogamiandli2003: the functions `cos(b x)` and `sin(b x)/b` for real `b^2` of either sign -/

set_option autoImplicit false
set_option linter.unusedVariables false
open Real MeasureTheory
namespace Geotecha.Consol.NL

theorem csqrt_zero {a : ℝ} : csqrt a = 0 ↔ a = 0 := by
  unfold csqrt
  split_ifs with h
  · rw [Complex.ofReal_eq_zero, Real.sqrt_eq_zero h]
  · push Not at h
    have : √(-a) ≠ 0 := (Real.sqrt_pos.2 (by linarith)).ne'
    constructor
    · intro h0
      rcases mul_eq_zero.1 h0 with h1 | h1
      · exact absurd (Complex.ofReal_eq_zero.1 h1) this
      · exact absurd h1 Complex.I_ne_zero
    · intro h0; linarith

theorem csqrt_sq (a : ℝ) : csqrt a ^ 2 = a := by
  unfold csqrt
  split_ifs with h
  · rw [← Complex.ofReal_pow, Real.sq_sqrt h]
  · push Not at h
    rw [mul_pow, Complex.I_sq, ← Complex.ofReal_pow, Real.sq_sqrt (by linarith)]
    push_cast; ring

/-- `cos (b x)` and `sin (b x) / b`. -/
noncomputable def cf (a x : ℝ) : ℝ := (Complex.cos (csqrt a * x)).re
noncomputable def sf (a x : ℝ) : ℝ := (Complex.sin (csqrt a * x) / csqrt a).re

theorem cf_pos {a : ℝ} (h : 0 ≤ a) (x : ℝ) : cf a x = cos (√a * x) := by
  unfold cf csqrt; rw [if_pos h, ← Complex.ofReal_mul, ← Complex.ofReal_cos, Complex.ofReal_re]

theorem sf_pos {a : ℝ} (h : 0 ≤ a) (x : ℝ) : sf a x = sin (√a * x) / √a := by
  unfold sf csqrt; rw [if_pos h, ← Complex.ofReal_mul, ← Complex.ofReal_sin, ← Complex.ofReal_div, Complex.ofReal_re]

theorem neg_arg {a : ℝ} (h : ¬0 ≤ a) (x : ℝ) : csqrt a * x = ((√(-a) * x : ℝ) : ℂ) * Complex.I := by
  unfold csqrt; rw [if_neg h]; push_cast; ring

theorem cos_neg' {a : ℝ} (h : ¬0 ≤ a) (x : ℝ) : Complex.cos (csqrt a * x) = ((cosh (√(-a) * x) : ℝ) : ℂ) := by
  rw [neg_arg h, Complex.cos_mul_I, Complex.ofReal_cosh]

theorem sin_neg' {a : ℝ} (h : ¬0 ≤ a) (x : ℝ) : Complex.sin (csqrt a * x) / csqrt a = ((sinh (√(-a) * x) / √(-a) : ℝ) : ℂ) := by
  rw [neg_arg h, Complex.sin_mul_I]
  unfold csqrt
  rw [if_neg h, mul_div_mul_right _ _ Complex.I_ne_zero, ← Complex.ofReal_sinh, Complex.ofReal_div]

theorem cf_neg {a : ℝ} (h : ¬0 ≤ a) (x : ℝ) : cf a x = cosh (√(-a) * x) := by
  unfold cf; rw [cos_neg' h, Complex.ofReal_re]

theorem sf_neg {a : ℝ} (h : ¬0 ≤ a) (x : ℝ) : sf a x = sinh (√(-a) * x) / √(-a) := by
  unfold sf; rw [sin_neg' h, Complex.ofReal_re]

theorem cos_eq (a x : ℝ) : Complex.cos (csqrt a * x) = (cf a x : ℂ) := by
  by_cases h : 0 ≤ a
  · rw [cf_pos h]; unfold csqrt; rw [if_pos h]; push_cast; rfl
  · rw [cf_neg h, cos_neg' h]

theorem sinb_eq (a x : ℝ) : Complex.sin (csqrt a * x) / csqrt a = (sf a x : ℂ) := by
  by_cases h : 0 ≤ a
  · rw [sf_pos h]; unfold csqrt; rw [if_pos h]; push_cast; rfl
  · rw [sf_neg h, sin_neg' h]

theorem sin_eq {a : ℝ} (ha : a ≠ 0) (x : ℝ) : Complex.sin (csqrt a * x) = csqrt a * (sf a x : ℂ) := by
  rw [← sinb_eq, mul_div_cancel₀ _ (fun h => ha (csqrt_zero.1 h))]

theorem cf_zero (a : ℝ) : cf a 0 = 1 := by unfold cf; simp
theorem sf_zero (a : ℝ) : sf a 0 = 0 := by unfold sf; simp

theorem cf_deriv {a : ℝ} (ha : a ≠ 0) (x : ℝ) : HasDerivAt (cf a) (-a * sf a x) x := by
  by_cases h : 0 ≤ a
  · have hs : √a ^ 2 = a := Real.sq_sqrt h
    have hp : √a ≠ 0 := (Real.sqrt_pos.2 (lt_of_le_of_ne h ha.symm)).ne'
    have hb : HasDerivAt (fun x => √a * x) (√a) x := by simpa using (hasDerivAt_id x).const_mul (√a)
    rw [show cf a = fun x => cos (√a * x) from funext (cf_pos h), sf_pos h]
    refine hb.cos.congr_deriv ?_
    nth_rw 3 [← hs]
    field_simp
  · have h' : 0 < -a := by linarith [not_le.1 h]
    have hs : √(-a) ^ 2 = -a := Real.sq_sqrt h'.le
    have hp : √(-a) ≠ 0 := (Real.sqrt_pos.2 h').ne'
    have hb : HasDerivAt (fun x => √(-a) * x) (√(-a)) x := by simpa using (hasDerivAt_id x).const_mul (√(-a))
    rw [show cf a = fun x => cosh (√(-a) * x) from funext (cf_neg h), sf_neg h]
    refine hb.cosh.congr_deriv ?_
    generalize hg : √(-a) = g at *
    rw [← hs]
    field_simp

theorem sf_deriv {a : ℝ} (ha : a ≠ 0) (x : ℝ) : HasDerivAt (sf a) (cf a x) x := by
  by_cases h : 0 ≤ a
  · have hp : √a ≠ 0 := (Real.sqrt_pos.2 (lt_of_le_of_ne h ha.symm)).ne'
    have hb : HasDerivAt (fun x => √a * x) (√a) x := by simpa using (hasDerivAt_id x).const_mul (√a)
    rw [show sf a = fun x => sin (√a * x) / √a from funext (sf_pos h), cf_pos h]
    refine (hb.sin.div_const _).congr_deriv ?_
    field_simp
  · have h' : 0 < -a := by linarith [not_le.1 h]
    have hp : √(-a) ≠ 0 := (Real.sqrt_pos.2 h').ne'
    have hb : HasDerivAt (fun x => √(-a) * x) (√(-a)) x := by simpa using (hasDerivAt_id x).const_mul (√(-a))
    rw [show sf a = fun x => sinh (√(-a) * x) / √(-a) from funext (sf_neg h), cf_neg h]
    refine (hb.sinh.div_const _).congr_deriv ?_
    field_simp

theorem cf_sf (a x : ℝ) : cf a x ^ 2 + a * sf a x ^ 2 = 1 := by
  by_cases h : 0 ≤ a
  · rw [cf_pos h, sf_pos h]
    rcases eq_or_lt_of_le h with rfl | h0
    · simp
    have hs : √a ^ 2 = a := Real.sq_sqrt h
    have hp : √a ≠ 0 := (Real.sqrt_pos.2 h0).ne'
    rw [div_pow, hs, mul_div_cancel₀ _ h0.ne', cos_sq_add_sin_sq]
  · have h' : 0 < -a := by linarith [not_le.1 h]
    have hs : √(-a) ^ 2 = -a := Real.sq_sqrt h'.le
    rw [cf_neg h, sf_neg h, div_pow, hs]
    have := cosh_sq (√(-a) * x)
    have ha : a ≠ 0 := by linarith
    field_simp
    linarith

theorem cf_cont {a : ℝ} (ha : a ≠ 0) : Continuous (cf a) := continuous_iff_continuousAt.2 fun x => (cf_deriv ha x).continuousAt
theorem sf_cont {a : ℝ} (ha : a ≠ 0) : Continuous (sf a) := continuous_iff_continuousAt.2 fun x => (sf_deriv ha x).continuousAt

/-- A solution of the equation of one layer from its values at the top. -/
noncomputable def lf (a pa pd x : ℝ) : ℝ := pa * cf a x + pd * sf a x
noncomputable def ld (a pa pd x : ℝ) : ℝ := pd * cf a x - a * pa * sf a x

theorem lf_deriv {a : ℝ} (ha : a ≠ 0) (pa pd x : ℝ) : HasDerivAt (lf a pa pd) (ld a pa pd x) x := by
  refine (((cf_deriv ha x).const_mul pa).add ((sf_deriv ha x).const_mul pd)).congr_deriv ?_
  unfold ld; ring

theorem ld_deriv {a : ℝ} (ha : a ≠ 0) (pa pd x : ℝ) : HasDerivAt (ld a pa pd) (-a * lf a pa pd x) x := by
  refine (((cf_deriv ha x).const_mul pd).sub ((sf_deriv ha x).const_mul (a * pa))).congr_deriv ?_
  unfold lf; ring

theorem lf_cont {a : ℝ} (ha : a ≠ 0) (pa pd : ℝ) : Continuous (lf a pa pd) :=
  continuous_iff_continuousAt.2 fun x => (lf_deriv ha pa pd x).continuousAt

theorem lf_zero (a pa pd : ℝ) : lf a pa pd 0 = pa := by unfold lf; rw [cf_zero, sf_zero]; ring
theorem ld_zero (a pa pd : ℝ) : ld a pa pd 0 = pd := by unfold ld; rw [cf_zero, sf_zero]; ring

theorem lf_int {a : ℝ} (ha : a ≠ 0) (pa pd h : ℝ) : ∫ x in (0:ℝ)..h, lf a pa pd x = pa * sf a h + pd * (1 - cf a h) / a := by
  have hder : ∀ x ∈ Set.uIcc 0 h, HasDerivAt (fun x => pa * sf a x - pd * cf a x / a) (lf a pa pd x) x := fun x _ => by
    refine (((sf_deriv ha x).const_mul pa).sub (((cf_deriv ha x).const_mul pd).div_const a)).congr_deriv ?_
    unfold lf; field_simp; ring
  rw [intervalIntegral.integral_eq_sub_of_hasDerivAt hder ((lf_cont ha pa pd).intervalIntegrable _ _), cf_zero, sf_zero]
  ring

theorem lf_int_sq {a : ℝ} (ha : a ≠ 0) (pa pd h : ℝ) : ∫ x in (0:ℝ)..h, lf a pa pd x ^ 2 =
    pa ^ 2 * (h + sf a h * cf a h) / 2 + pa * pd * (1 - cf a h ^ 2) / a + pd ^ 2 * (h - sf a h * cf a h) / (2 * a) := by
  have hder : ∀ x ∈ Set.uIcc 0 h, HasDerivAt (fun x => pa ^ 2 * (x + sf a x * cf a x) / 2 + pa * pd * (1 - cf a x ^ 2) / a +
      pd ^ 2 * (x - sf a x * cf a x) / (2 * a)) (lf a pa pd x ^ 2) x := fun x _ => by
    have hc := cf_deriv ha x
    have hs := sf_deriv ha x
    have h1 := hs.mul hc
    have h2 := hasDerivAt_id x
    refine ((((h2.add h1).const_mul (pa ^ 2)).div_const 2).add ((((hc.pow 2).const_sub 1).const_mul (pa * pd)).div_const a)
      |>.add (((h2.sub h1).const_mul (pd ^ 2)).div_const (2 * a))).congr_deriv ?_
    have e := cf_sf a x
    unfold lf
    generalize cf a x = C at *
    generalize sf a x = S at *
    simp only [Nat.cast_ofNat, Nat.add_one_sub_one, pow_one]
    field_simp
    linear_combination (-(a * pa ^ 2 + pd ^ 2)) * e
  rw [intervalIntegral.integral_eq_sub_of_hasDerivAt hder (((lf_cont ha pa pd).pow 2).intervalIntegrable _ _), cf_zero, sf_zero]
  ring

/-! ## The complex formulas of the code -/

theorem transfer_eq {a : ℝ} (ha : a ≠ 0) (h pa pd : ℝ) : transfer (csqrt a) h ((pa : ℂ), (pd : ℂ)) = ((lf a pa pd h : ℂ), (ld a pa pd h : ℂ)) := by
  unfold transfer
  rw [if_neg (fun h => ha (csqrt_zero.1 h)), cos_eq, sinb_eq, sin_eq ha]
  unfold lf ld
  have h2 := csqrt_sq a
  dsimp only
  congr 1
  · push_cast; ring
  · push_cast; linear_combination (-(sf a h : ℂ) * pa) * h2

theorem amn_eq {a : ℝ} (ha : a ≠ 0) (h pa pd : ℝ) : amn h (csqrt a) pa pd = ((∫ x in (0:ℝ)..h, lf a pa pd x : ℝ) : ℂ) := by
  unfold amn
  rw [if_neg (fun h => ha (csqrt_zero.1 h)), mul_div_assoc, sinb_eq, cos_eq, csqrt_sq, lf_int ha]
  have : (a : ℂ) ≠ 0 := Complex.ofReal_ne_zero.2 ha
  push_cast
  field_simp
  ring

theorem bmn_eq {a : ℝ} (ha : a ≠ 0) (h pa pd : ℝ) : bmn h (csqrt a) pa pd = ((∫ x in (0:ℝ)..h, lf a pa pd x ^ 2 : ℝ) : ℂ) := by
  unfold bmn
  have hb : csqrt a ≠ 0 := fun h => ha (csqrt_zero.1 h)
  have ha' : (a : ℂ) ≠ 0 := Complex.ofReal_ne_zero.2 ha
  rw [if_neg hb, sin_eq ha, cos_eq, lf_int_sq ha]
  have h2 := csqrt_sq a
  have e : ((cf a h : ℝ) : ℂ) ^ 2 + a * ((sf a h : ℝ) : ℂ) ^ 2 = 1 := by exact_mod_cast cf_sf a h
  push_cast
  generalize ((cf a h : ℝ) : ℂ) = C at *
  generalize ((sf a h : ℝ) : ℂ) = S at *
  generalize csqrt a = b at *
  rw [← h2] at e ⊢
  have hb2 : b ^ 2 ≠ 0 := pow_ne_zero _ hb
  have e3 : (h:ℂ) * pa ^ 2 * (b * S) ^ 2 / 2 + h * pa ^ 2 * C ^ 2 / 2 = h * pa ^ 2 / 2 := by linear_combination (h * pa ^ 2 / 2 : ℂ) * e
  have e4 : (h:ℂ) * pd ^ 2 * (b * S) ^ 2 / (2 * b ^ 2) + h * pd ^ 2 * C ^ 2 / (2 * b ^ 2) = h * pd ^ 2 / (2 * b ^ 2) := by
    linear_combination (h * pd ^ 2 / (2 * b ^ 2) : ℂ) * e
  have e5 : (pa:ℂ) ^ 2 * (b * S) * C / (2 * b) = pa ^ 2 * S * C / 2 := by field_simp
  have e6 : (pd:ℂ) ^ 2 * (b * S) * C / (2 * b ^ 3) = pd ^ 2 * S * C / (2 * b ^ 2) := by field_simp
  rw [e5, e6]
  linear_combination e3 + e4

end Geotecha.Consol.NL
