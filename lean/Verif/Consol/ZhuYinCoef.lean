import Verif.Consol.ZhuYinMode

/-! # The coefficients of zhuandyin2012 are those of the projection on the modes -/

set_option linter.unusedVariables false
set_option linter.unusedSectionVars false
set_option autoImplicit false
open Real Finset MeasureTheory
namespace Geotecha.Consol
open Geotecha (PyErr)
namespace ZY

variable {o : ZY} {B : BesselFns}

/-- The exponent `(1 - p) / (2 - n)` is not so close below zero that `np.allclose` takes it for its absolute value. -/
def Clear (o : ZY) : Prop :=
  0 ≤ (1 - o.p) / (2 - (o.p - o.q)) ∨ 1e-8 + 1e-5 * |(1 - o.p) / (2 - (o.p - o.q))| < 2 * |(1 - o.p) / (2 - (o.p - o.q))|

theorem neg_a (o : ZY) : (o.p - 1) / (2 - o.n) = -o.a := by unfold a; ring

theorem branch (hc : o.Clear) : (o.plusBranch ∧ o.nu = o.a) ∨ (¬o.plusBranch ∧ o.nu = -o.a) := by
  have hnu : o.nu = |o.a| := rfl
  unfold plusBranch Roots.close
  rw [neg_a, hnu]
  have hc' : 0 ≤ o.a ∨ 1e-8 + 1e-5 * |o.a| < 2 * |o.a| := hc
  by_cases h0 : 0 ≤ o.a
  · left
    rw [abs_of_nonneg h0]
    refine ⟨?_, rfl⟩
    rw [sub_self, abs_zero]
    positivity
  · right
    have h1 := hc'.resolve_left h0
    push Not at h0
    rw [abs_of_neg h0] at h1 ⊢
    refine ⟨?_, rfl⟩
    rw [not_le, abs_neg, neg_neg, abs_of_neg h0, show o.a - -o.a = 2 * o.a by ring, abs_of_neg (by linarith)]
    linarith

theorem b_pos (h : o.Valid) : 0 < o.b := by rw [← yH h]; exact y_pos h (x_pos h h.H.le le_rfl)

theorem pow_ne (h : o.Valid) : (1 + o.alpha) ^ (1 + o.q) - 1 ≠ 0 := by
  have h1 : 0 < 1 + o.alpha := by linarith [h.alpha]
  have hq := h.q1
  have hq' : 1 + o.q ≠ 0 := fun g => hq (by linarith)
  intro g
  have : (1 + o.alpha) ^ (1 + o.q) = 1 := by linarith
  have := congrArg log this
  rw [log_rpow h1, log_one] at this
  have := eq_one_of_pos_of_log_eq_zero h1 ((mul_eq_zero.1 this).resolve_left hq')
  exact h.alpha0 (by linarith)

theorem char0 (h0 : o.drn = 0) {eta : ℝ} (hr : o.IsRoot B eta) : zmu B eta o.nu o.nu o.b = 0 := by
  obtain ⟨f, hf, hz⟩ := hr
  unfold charEqn at hf
  rw [if_pos h0] at hf
  injection hf with hf
  subst hf
  exact hz

theorem char1 (h0 : o.drn = 1) {eta : ℝ} (hr : o.IsRoot B eta) : drn1root B eta o.nu o.nu o.b o.p o.n = 0 := by
  obtain ⟨f, hf, hz⟩ := hr
  unfold charEqn at hf
  rw [if_neg (by rw [h0]; norm_num), if_pos h0] at hf
  injection hf with hf
  subst hf
  exact hz

section
variable {eta : ℝ} (h : o.Valid) (he : 0 < eta) (hB : Spec.IsBessel B.J B.Y o.nu) (hr : o.IsRoot B eta)
include h he hB

theorem flow_top : o.flow B eta 0 = -(o.kv0 / o.gamw * (o.s * o.alpha / o.H) * (2 / π)) := by
  unfold flow
  rw [y0, z_top, z1_top he hB, one_rpow]
  have := pi_pos
  field_simp
  ring

theorem sq_top : o.sqInt B eta 1 = 2 / (π ^ 2 * eta ^ 2) := by
  unfold sqInt
  rw [z_top, z1_top he hB]
  have := pi_pos
  field_simp
  ring

include hr

theorem flow_bot : o.flow B eta o.H = if o.drn = 0 then
    -(o.kv0 / o.gamw * (o.s * o.alpha / o.H) * (eta * o.b ^ (1 - o.a) * zmu B eta (1 + o.nu) o.nu o.b)) else 0 := by
  unfold flow
  rw [yH h]
  have hb := b_pos h
  rcases h.drn with h0 | h0
  · rw [if_pos h0, char0 h0 hr, show 1 - o.a = -o.a + 1 by ring, rpow_add_one hb.ne']
    ring
  · rw [if_neg (by rw [h0]; norm_num), ← root1 he hB hb, char1 h0 hr, mul_zero]

theorem sq_bot : o.sqInt B eta o.b = if o.drn = 0 then o.b ^ 2 / 2 * zmu B eta (1 + o.nu) o.nu o.b ^ 2
    else o.b ^ 2 / 2 * zmu B eta o.nu o.nu o.b ^ 2 := by
  have hb := b_pos h
  unfold sqInt
  rcases h.drn with h0 | h0
  · rw [if_pos h0, char0 h0 hr]; ring
  · rw [if_neg (by rw [h0]; norm_num)]
    have h1 := char1 h0 hr
    rw [root1 he hB hb] at h1
    have ha := a_sq o
    generalize zmu B eta o.nu o.nu o.b = C at *
    have e : zmu B eta (1 + o.nu) o.nu o.b = (o.a + o.nu) * C / (eta * o.b) := by
      rw [eq_div_iff (by positivity)]; linarith
    rw [e]
    field_simp
    linear_combination (-C ^ 2) * ha

theorem rate_eq : o.kv0 / o.gamw * (o.s * o.alpha / o.H) / o.rate eta = o.mv0 * o.H / (o.s * o.alpha) / eta ^ 2 := by
  have := h.kv0; have := h.mv0; have := h.gamw; have := h.H; have := s_ne h; have := h.alpha0
  unfold rate
  field_simp

/-- What is lost at the bottom. -/
noncomputable def lost (o : ZY) (B : BesselFns) (eta : ℝ) : ℝ :=
  if o.drn = 0 then π * eta * o.b ^ (1 - o.a) * zmu B eta (1 + o.nu) o.nu o.b else 0

/-- The value that occurs squared in the denominators. -/
noncomputable def den (o : ZY) (B : BesselFns) (eta : ℝ) : ℝ :=
  o.b * π * eta * if o.drn = 0 then zmu B eta (1 + o.nu) o.nu o.b else zmu B eta o.nu o.nu o.b

theorem tw : o.soil.total (o.w B eta) = o.mv0 * o.H / (o.s * o.alpha) / eta ^ 2 * ((o.lost B eta - 2) / π) := by
  have hp := pi_pos
  rw [← rate_eq h he hB hr, total_w h he hB, flow_top h he hB, flow_bot h he hB hr]
  unfold lost
  rcases h.drn with h0 | h0
  · rw [if_pos h0, if_pos h0]; field_simp; ring
  · have : ¬o.drn = 0 := by rw [h0]; norm_num
    rw [if_neg this, if_neg this]; field_simp; ring

theorem tw2 : o.soil.total (fun z => o.w B eta z ^ 2) =
    o.mv0 * o.H / (o.s * o.alpha) / (2 * π ^ 2 * eta ^ 2) * (o.den B eta ^ 2 - 4) := by
  have hp := pi_pos
  have := s_ne h; have := h.alpha0
  rw [total_w2 h he hB, sq_top h he hB, sq_bot h he hB hr]
  unfold den
  rcases h.drn with h0 | h0
  · rw [if_pos h0, if_pos h0]; field_simp; ring
  · have : ¬o.drn = 0 := by rw [h0]; norm_num
    rw [if_neg this, if_neg this]; field_simp; ring

theorem den_ne : o.den B eta ^ 2 - 4 ≠ 0 := fun h0 => by
  have := total_w2_pos h he hB
  rw [tw2 h he hB hr, h0, mul_zero] at this
  exact lt_irrefl _ this

variable (hc : o.drn = 0 → o.Clear)
include hc

theorem cmPor_eq : o.cmPor B eta = 2 * π * (2 - o.lost B eta) / (4 - o.den B eta ^ 2) := by
  have hb := b_pos h
  unfold cmPor lost den
  rcases h.drn with h0 | h0
  · simp only [if_pos h0]
    rcases branch (hc h0) with ⟨hp, e⟩ | ⟨hp, e⟩
    · rw [if_pos hp, zm1 he hB hb, char0 h0 hr, mul_zero, zero_sub, ← e]
      congr 1; ring
    · rw [if_neg hp, show 1 - o.a = 1 + o.nu by rw [e]; ring]
  · have : ¬o.drn = 0 := by rw [h0]; norm_num
    simp only [if_neg this]
    congr 1; ring

theorem cmDoc_eq : (if o.drn = 0 then 1 else 4) * o.cmDoc B eta = (2 - o.lost B eta) ^ 2 / (eta ^ 2 * (o.den B eta ^ 2 - 4)) := by
  have hb := b_pos h
  unfold cmDoc lost den
  rcases h.drn with h0 | h0
  · simp only [if_pos h0]
    rcases branch (hc h0) with ⟨hp, e⟩ | ⟨hp, e⟩
    · rw [if_pos hp, zm1 he hB hb, char0 h0 hr, mul_zero, zero_sub, ← e, one_mul]
      congr 2; ring
    · rw [if_neg hp, show 1 - o.a = 1 + o.nu by rw [e]; ring, one_mul]
  · have : ¬o.drn = 0 := by rw [h0]; norm_num
    simp only [if_neg this]
    rw [mul_one_div]
    congr 1; norm_num

theorem coef_por : o.cmPor B eta = o.soil.total (o.w B eta) / o.soil.total (fun z => o.w B eta z ^ 2) := by
  have hp := pi_pos
  have hd := den_ne h he hB hr
  have hd' : 4 - o.den B eta ^ 2 ≠ 0 := fun g => hd (by linarith)
  have := h.mv0; have := h.H; have := s_ne h; have := h.alpha0
  rw [cmPor_eq h he hB hr hc, tw h he hB hr, tw2 h he hB hr, div_eq_div_iff hd' (by positivity)]
  field_simp
  ring

omit he hB hr hc in
theorem total_one : o.soil.total (fun _ => 1) = o.mv0 * ((1 + o.alpha) ^ (1 + o.q) - 1) / (1 + o.q) * o.H / o.alpha := by
  have hH := h.H; have hq := h.q1; have ha := h.alpha0
  have hq' : 1 + o.q ≠ 0 := fun g => hq (by linarith)
  have hi : IntervalIntegrable (fun z => o.soil.mv z * 1) volume 0 o.H := by
    refine ContinuousOn.intervalIntegrable ?_
    rw [Set.uIcc_of_le hH.le]
    intro z hz
    have hx := x_pos h hz.1 hz.2
    exact (((x_deriv o z).continuousAt.rpow_const (p := o.q) (Or.inl hx.ne')).const_mul o.mv0).mul_const 1 |>.continuousWithinAt
  have := intervalIntegral.integral_eq_sub_of_hasDerivAt (a := 0) (b := o.H) (f := fun z => o.mv0 * (o.x z ^ (1 + o.q)) / (1 + o.q) * o.H / o.alpha)
    (f' := fun z => o.soil.mv z * 1) (fun z hz => by
      rw [Set.uIcc_of_le hH.le] at hz
      have hx := x_pos h hz.1 hz.2
      have := (((((x_deriv o z).rpow_const (p := 1 + o.q) (Or.inl hx.ne')).const_mul o.mv0).div_const (1 + o.q)).mul_const o.H).div_const o.alpha
      refine this.congr_deriv ?_
      show _ = o.mv0 * o.x z ^ o.q * 1
      rw [show 1 + o.q - 1 = o.q by ring]
      field_simp) hi
  refine Eq.trans ?_ (this.trans ?_)
  · rfl
  · rw [x0, xH h, one_rpow]; ring

theorem coef_doc : o.frNum / o.frDen * o.cmDoc B eta =
    o.soil.total (o.w B eta) ^ 2 / o.soil.total (fun z => o.w B eta z ^ 2) / o.soil.total (fun _ => 1) := by
  have hp := pi_pos
  have hd := den_ne h he hB hr
  have hq := h.q1
  have hq' : 1 + o.q ≠ 0 := fun g => hq (by linarith)
  have hpw := pow_ne h
  have := h.mv0; have := h.H; have := s_ne h; have := h.alpha0
  have e := cmDoc_eq h he hB hr hc
  have e2 : o.frNum / o.frDen * o.cmDoc B eta = 2 * (1 + o.q) / (o.s * ((1 + o.alpha) ^ (1 + o.q) - 1)) * ((2 - o.lost B eta) ^ 2 / (eta ^ 2 * (o.den B eta ^ 2 - 4))) := by
    rw [← e]
    unfold frNum frDen
    rw [n_s]
    rcases h.drn with h0 | h0
    · simp only [if_pos h0]; field_simp; ring
    · have : ¬o.drn = 0 := by rw [h0]; norm_num
      simp only [if_neg this]; field_simp; ring
  rw [e2, total_one h, tw h he hB hr, tw2 h he hB hr]
  generalize (1 + o.alpha) ^ (1 + o.q) - 1 = P at *
  generalize o.den B eta ^ 2 - 4 = D at *
  field_simp
  ring
end

end ZY
end Geotecha.Consol
