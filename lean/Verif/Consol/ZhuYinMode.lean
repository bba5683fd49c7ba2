import Verif.Consol.ZhuYin
import Verif.Consol.VaryModes
import Mathlib.Analysis.SpecialFunctions.Pow.Deriv

/-! # The depth functions of zhuandyin2012 are modes of the soil; their integrals -/

set_option linter.unusedVariables false
set_option linter.unusedSectionVars false
set_option autoImplicit false
open Real Finset MeasureTheory
namespace Geotecha.Consol
open Geotecha (PyErr)
namespace ZY

variable {o : ZY} {B : BesselFns}

/-- The soil the arguments describe: permeability and compressibility vary with depth by power laws (docstring, zhuandyin2012.py:107-108). -/
noncomputable def soil (o : ZY) : Spec.Vary where
  H := o.H
  gamw := o.gamw
  kv := fun z => o.kv0 * (1 + o.alpha * z / o.H) ^ o.p
  mv := fun z => o.mv0 * (1 + o.alpha * z / o.H) ^ o.q
  botDrains := o.drn = 0

/-- Sensible arguments. -/
structure Valid (o : ZY) : Prop where
  H : 0 < o.H
  kv0 : 0 < o.kv0
  mv0 : 0 < o.mv0
  gamw : 0 < o.gamw
  alpha : -1 < o.alpha
  alpha0 : o.alpha ≠ 0
  n2 : 2 - (o.p - o.q) ≠ 0
  q1 : o.q ≠ -1
  drn : o.drn = 0 ∨ o.drn = 1

noncomputable def a (o : ZY) : ℝ := (1 - o.p) / (2 - o.n)
noncomputable def s (o : ZY) : ℝ := 1 - o.n / 2
noncomputable def x (o : ZY) (z : ℝ) : ℝ := 1 + o.alpha * z / o.H

theorem s_ne (h : o.Valid) : o.s ≠ 0 := by
  have := h.n2
  unfold s n
  intro h0; apply this; linarith

theorem n_s (o : ZY) : 2 - o.n = 2 * o.s := by unfold s; ring

theorem as_eq (h : o.Valid) : o.a * o.s = (1 - o.p) / 2 := by
  have := s_ne h
  unfold a; rw [n_s]; field_simp

theorem x_pos (h : o.Valid) {z : ℝ} (h0 : 0 ≤ z) (h1 : z ≤ o.H) : 0 < o.x z := by
  have hH := h.H
  have ha := h.alpha
  unfold x
  have : o.alpha * z / o.H = o.alpha * (z / o.H) := by ring
  rw [this]
  have g0 : 0 ≤ z / o.H := by positivity
  have g1 : z / o.H ≤ 1 := by rw [div_le_one hH]; exact h1
  by_cases hp : 0 ≤ o.alpha
  · have := mul_nonneg hp g0; linarith
  · push Not at hp
    nlinarith

theorem y_pos (h : o.Valid) {z : ℝ} (hx : 0 < o.x z) : 0 < o.y z := rpow_pos_of_pos hx _

theorem x0 (o : ZY) : o.x 0 = 1 := by simp [x]
theorem xH (h : o.Valid) : o.x o.H = 1 + o.alpha := by
  unfold x; rw [mul_div_assoc, div_self h.H.ne', mul_one]
theorem y0 (o : ZY) : o.y 0 = 1 := by simp [y]
theorem yH (h : o.Valid) : o.y o.H = o.b := by
  show o.x o.H ^ _ = _
  rw [xH h]; rfl

theorem x_deriv (o : ZY) (z : ℝ) : HasDerivAt o.x (o.alpha / o.H) z := by
  have := (((hasDerivAt_id z).const_mul o.alpha).div_const o.H).const_add 1
  refine this.congr_deriv ?_
  rw [mul_one]

theorem y_deriv (h : o.Valid) {z : ℝ} (hx : 0 < o.x z) :
    HasDerivAt o.y (o.y z * (o.s * o.alpha / (o.H * o.x z))) z := by
  have hH := h.H
  have := (x_deriv o z).rpow_const (p := 1 - o.n / 2) (Or.inl hx.ne')
  refine this.congr_deriv ?_
  rw [rpow_sub_one hx.ne']
  show _ = o.x z ^ (1 - o.n / 2) * _
  unfold s
  field_simp

/-- `y^(-a)` in terms of `x`. -/
theorem y_rpow (h : o.Valid) {z : ℝ} (hx : 0 < o.x z) (e : ℝ) : o.y z ^ e = o.x z ^ (o.s * e) := by
  show (o.x z ^ (1 - o.n / 2)) ^ e = _
  rw [← rpow_mul hx.le]; rfl

theorem kv_eq (h : o.Valid) {z : ℝ} (hx : 0 < o.x z) : o.x z ^ o.p * o.y z ^ o.a = o.x z * o.y z ^ (-o.a) := by
  rw [y_rpow h hx, y_rpow h hx, ← rpow_add hx]
  conv_rhs => rw [← rpow_one (o.x z), ← rpow_mul hx.le, ← rpow_add hx]
  congr 1
  have := as_eq h
  nlinarith

theorem mv_eq (h : o.Valid) {z : ℝ} (hx : 0 < o.x z) : o.x z ^ o.q * o.x z * o.y z ^ o.a = o.y z ^ 2 * o.y z ^ (-o.a) := by
  have e2 : o.y z ^ 2 = o.y z ^ (2:ℝ) := by norm_cast
  rw [e2, y_rpow h hx, y_rpow h hx, y_rpow h hx, ← rpow_add hx]
  conv_lhs => rw [← rpow_add_one hx.ne', ← rpow_add hx]
  congr 1
  have := as_eq h
  have hs : o.s = 1 - (o.p - o.q) / 2 := rfl
  nlinarith

theorem a_sq (o : ZY) : o.nu ^ 2 = o.a ^ 2 := by unfold nu a; exact sq_abs _

section
variable {eta : ℝ} (he : 0 < eta) (hB : Spec.IsBessel B.J B.Y o.nu)
include he hB

theorem z_deriv {y : ℝ} (hy : 0 < y) :
    HasDerivAt (fun y => zmu B eta o.nu o.nu y) (o.nu / y * zmu B eta o.nu o.nu y - eta * zmu B eta (1 + o.nu) o.nu y) y := by
  have hl : HasDerivAt (fun y => eta * y) eta y := by simpa using (hasDerivAt_id y).const_mul eta
  have hJ := ((hB.dJ (eta * y) (by positivity)).comp y hl).const_mul (B.Y o.nu eta)
  have hY := ((hB.dY (eta * y) (by positivity)).comp y hl).const_mul (B.J o.nu eta)
  refine (hJ.sub hY).congr_deriv ?_
  have e1 := hB.rJ (eta * y) (by positivity)
  have e2 := hB.rY (eta * y) (by positivity)
  rw [eq_sub_of_add_eq e1, eq_sub_of_add_eq e2]
  unfold zmu
  rw [add_comm 1 o.nu]
  field_simp
  ring

theorem z1_deriv {y : ℝ} (hy : 0 < y) :
    HasDerivAt (fun y => zmu B eta (1 + o.nu) o.nu y) (eta * zmu B eta o.nu o.nu y - (o.nu + 1) / y * zmu B eta (1 + o.nu) o.nu y) y := by
  have hl : HasDerivAt (fun y => eta * y) eta y := by simpa using (hasDerivAt_id y).const_mul eta
  have hJ := ((hB.dJ' (eta * y) (by positivity)).comp y hl).const_mul (B.Y o.nu eta)
  have hY := ((hB.dY' (eta * y) (by positivity)).comp y hl).const_mul (B.J o.nu eta)
  rw [add_comm 1 o.nu]
  refine (hJ.sub hY).congr_deriv ?_
  unfold zmu
  field_simp
  ring

omit he hB in
theorem z_top : zmu B eta o.nu o.nu 1 = 0 := by unfold zmu; rw [mul_one]; ring

theorem z1_top : zmu B eta (1 + o.nu) o.nu 1 = 2 / (π * eta) := by
  unfold zmu; rw [mul_one, ← hB.wr eta he, add_comm 1 o.nu]; ring

theorem zm1 {y : ℝ} (hy : 0 < y) : zmu B eta (o.nu - 1) o.nu y = 2 * o.nu / (eta * y) * zmu B eta o.nu o.nu y - zmu B eta (1 + o.nu) o.nu y := by
  have e1 := hB.rJ (eta * y) (by positivity)
  have e2 := hB.rY (eta * y) (by positivity)
  unfold zmu
  rw [eq_sub_of_add_eq e1, eq_sub_of_add_eq e2, add_comm 1 o.nu]
  ring

theorem root1 {y : ℝ} (hy : 0 < y) : drn1root B eta o.nu o.nu y o.p o.n =
    (o.a + o.nu) * zmu B eta o.nu o.nu y - eta * y * zmu B eta (1 + o.nu) o.nu y := by
  have e1 := hB.rJ (eta * y) (by positivity)
  have e2 := hB.rY (eta * y) (by positivity)
  unfold drn1root zmuD zmu a
  rw [eq_sub_of_add_eq e1, eq_sub_of_add_eq e2, add_comm 1 o.nu]
  field_simp
  ring
end

/-- The depth function of the series (without the coefficient) and its slope. -/
noncomputable def w (o : ZY) (B : BesselFns) (eta z : ℝ) : ℝ := zmu B eta o.nu o.nu (o.y z) * o.y z ^ o.a
noncomputable def wd (o : ZY) (B : BesselFns) (eta z : ℝ) : ℝ :=
  o.y z ^ o.a * (o.s * o.alpha / (o.H * o.x z)) *
    ((o.a + o.nu) * zmu B eta o.nu o.nu (o.y z) - eta * o.y z * zmu B eta (1 + o.nu) o.nu (o.y z))

/-- The rate at which the mode decays. -/
noncomputable def rate (o : ZY) (eta : ℝ) : ℝ := o.kv0 / (o.mv0 * o.gamw) * (o.s * o.alpha / o.H) ^ 2 * eta ^ 2

/-- The flow of a mode. -/
noncomputable def flow (o : ZY) (B : BesselFns) (eta z : ℝ) : ℝ :=
  o.kv0 / o.gamw * (o.s * o.alpha / o.H) * o.y z ^ (-o.a) *
    ((o.a + o.nu) * zmu B eta o.nu o.nu (o.y z) - eta * o.y z * zmu B eta (1 + o.nu) o.nu (o.y z))

/-- `eta` belongs to a mode: the function searched vanishes there. -/
def IsRoot (o : ZY) (B : BesselFns) (eta : ℝ) : Prop := ∃ f, o.charEqn B = some f ∧ f eta = 0

section
variable {eta : ℝ} (h : o.Valid) (he : 0 < eta) (hB : Spec.IsBessel B.J B.Y o.nu)
include h he hB

theorem rpow_y_deriv {z : ℝ} (hx : 0 < o.x z) (e : ℝ) :
    HasDerivAt (fun z => o.y z ^ e) (e * o.y z ^ e * (o.s * o.alpha / (o.H * o.x z))) z := by
  have hy := y_pos h hx
  refine ((y_deriv h hx).rpow_const (p := e) (Or.inl hy.ne')).congr_deriv ?_
  rw [rpow_sub_one hy.ne']
  field_simp

theorem w_deriv {z : ℝ} (hx : 0 < o.x z) : HasDerivAt (o.w B eta) (o.wd B eta z) z := by
  have hy := y_pos h hx
  have hH := h.H
  have d1 := (z_deriv he hB hy).comp z (y_deriv h hx)
  have d2 := rpow_y_deriv h he hB hx o.a
  refine (d1.mul d2).congr_deriv ?_
  unfold wd
  simp only [Function.comp]
  field_simp
  ring

theorem flow_eq {z : ℝ} (hx : 0 < o.x z) : o.soil.kv z / o.soil.gamw * o.wd B eta z = o.flow B eta z := by
  have hH := h.H
  have hg := h.gamw
  have := kv_eq h hx
  show o.kv0 * o.x z ^ o.p / o.gamw * _ = _
  unfold wd flow
  calc _ = o.kv0 / o.gamw * (o.x z ^ o.p * o.y z ^ o.a) * (o.s * o.alpha / (o.H * o.x z)) *
      ((o.a + o.nu) * zmu B eta o.nu o.nu (o.y z) - eta * o.y z * zmu B eta (1 + o.nu) o.nu (o.y z)) := by ring
    _ = _ := by rw [this]; field_simp

theorem flow_deriv {z : ℝ} (hx : 0 < o.x z) :
    HasDerivAt (o.flow B eta) (-(o.rate eta * o.soil.mv z * o.w B eta z)) z := by
  have hy := y_pos h hx
  have hH := h.H
  have hg := h.gamw
  have hm := h.mv0
  have d0 := (z_deriv he hB hy).comp z (y_deriv h hx)
  have d1 := (z1_deriv he hB hy).comp z (y_deriv h hx)
  have d2 := rpow_y_deriv h he hB hx (-o.a)
  have d3 := y_deriv h hx
  have := (d2.mul ((d0.const_mul (o.a + o.nu)).sub ((d3.const_mul eta).mul d1))).const_mul (o.kv0 / o.gamw * (o.s * o.alpha / o.H))
  refine (this.congr_deriv ?_).congr_of_eventuallyEq ?_
  · have hmv := mv_eq h hx
    have ha := a_sq o
    show _ = -(o.rate eta * (o.mv0 * o.x z ^ o.q) * (zmu B eta o.nu o.nu (o.y z) * o.y z ^ o.a))
    have e : o.rate eta * (o.mv0 * o.x z ^ o.q) * (zmu B eta o.nu o.nu (o.y z) * o.y z ^ o.a) =
        o.kv0 / o.gamw * (o.s * o.alpha / o.H) ^ 2 * eta ^ 2 * zmu B eta o.nu o.nu (o.y z) * (o.x z ^ o.q * o.x z * o.y z ^ o.a) / o.x z := by
      unfold rate; field_simp
    rw [e, hmv]
    simp only [Function.comp, Pi.mul_apply, Pi.sub_apply]
    clear this d0 d1 d2 d3
    generalize zmu B eta o.nu o.nu (o.y z) = C
    generalize zmu B eta (1 + o.nu) o.nu (o.y z) = C1
    generalize o.y z ^ (-o.a) = A
    generalize o.x z = X at *
    generalize o.y z = Y at *
    field_simp
    linear_combination (o.kv0 * o.s ^ 2 * o.alpha ^ 2 * C * A) * ha
  · refine Filter.Eventually.of_forall fun z => ?_
    unfold flow
    simp only [Function.comp, Pi.mul_apply, Pi.sub_apply]
    ring

theorem fits (hr : o.IsRoot B eta) : o.soil.Fits (o.w B eta) (o.wd B eta) := by
  have hH := h.H
  obtain ⟨f, hf, h0⟩ := hr
  have hyH := yH h
  have hb : 0 < o.b := by rw [← hyH]; exact y_pos h (x_pos h hH.le le_rfl)
  refine ⟨by unfold w; rw [y0, z_top, zero_mul], fun hd => ?_, fun hd => ?_⟩
  · have hd' : o.drn = 0 := hd
    unfold charEqn at hf
    rw [if_pos hd'] at hf
    injection hf with hf
    show o.w B eta o.H = 0
    unfold w; rw [hyH]
    subst hf
    exact mul_eq_zero_of_left h0 _
  · have hd' : o.drn ≠ 0 := hd
    unfold charEqn at hf
    rw [if_neg hd', if_pos (h.drn.resolve_left hd')] at hf
    injection hf with hf
    show o.wd B eta o.H = 0
    unfold wd
    rw [hyH, ← root1 he hB hb]
    subst hf
    exact mul_eq_zero_of_right _ h0

theorem mode (hr : o.IsRoot B eta) : o.soil.Mode (o.rate eta) (o.w B eta) (o.wd B eta) := by
  refine ⟨fun z h0 h1 => w_deriv h he hB (x_pos h h0 h1), fun z h0 h1 => ?_, fits h he hB hr⟩
  have hx := x_pos h h0 h1
  refine (flow_deriv h he hB hx).congr_of_eventuallyEq ?_
  filter_upwards [(x_deriv o z).continuousAt.eventually (lt_mem_nhds hx)] with x hx'
  exact flow_eq h he hB hx'

theorem rate_pos : 0 < o.rate eta := by
  have := h.kv0; have := h.mv0; have := h.gamw; have := h.H; have := s_ne h; have := h.alpha0
  unfold rate
  have : 0 < (o.s * o.alpha / o.H) ^ 2 := by positivity
  positivity

theorem mv_cont : o.soil.Cont o.soil.mv := by
  intro z hz
  have hx := x_pos h hz.1 hz.2
  have := ((x_deriv o z).continuousAt.rpow_const (p := o.q) (Or.inl hx.ne')).const_mul o.mv0
  exact ContinuousAt.continuousWithinAt this

theorem total_w : o.soil.total (o.w B eta) = (o.flow B eta 0 - o.flow B eta o.H) / o.rate eta := by
  have hH := h.H
  have hr := rate_pos h he hB
  have hc : o.soil.Cont (o.w B eta) := fun z hz => (w_deriv h he hB (x_pos h hz.1 hz.2)).continuousAt.continuousWithinAt
  have hi := Spec.Vary.int_ok (V := o.soil) hH (mv_cont h he hB) hc
  have := intervalIntegral.integral_eq_sub_of_hasDerivAt (a := 0) (b := o.H) (f := o.flow B eta)
    (f' := fun z => -o.rate eta * (o.soil.mv z * o.w B eta z)) (fun z hz => by
      rw [Set.uIcc_of_le hH.le] at hz
      exact (flow_deriv h he hB (x_pos h hz.1 hz.2)).congr_deriv (by ring)) (hi.const_mul _)
  rw [intervalIntegral.integral_const_mul] at this
  have e : o.soil.total (o.w B eta) = ∫ z in (0:ℝ)..o.H, o.soil.mv z * o.w B eta z := rfl
  rw [e, eq_div_iff hr.ne']
  linarith

/-- Integral of the square, up to a factor, as a function of `y`. -/
noncomputable def sqInt (o : ZY) (B : BesselFns) (eta y : ℝ) : ℝ :=
  y ^ 2 / 2 * (zmu B eta o.nu o.nu y ^ 2 + zmu B eta (1 + o.nu) o.nu y ^ 2) -
    o.nu * y / eta * (zmu B eta o.nu o.nu y * zmu B eta (1 + o.nu) o.nu y)

theorem total_w2 : o.soil.total (fun z => o.w B eta z ^ 2) = o.mv0 * o.H / (o.s * o.alpha) * (o.sqInt B eta o.b - o.sqInt B eta 1) := by
  have hH := h.H
  have hs := s_ne h
  have ha := h.alpha0
  have hc : o.soil.Cont (o.w B eta) := fun z hz => (w_deriv h he hB (x_pos h hz.1 hz.2)).continuousAt.continuousWithinAt
  have hi := Spec.Vary.int_ok (V := o.soil) hH (mv_cont h he hB) (f := fun z => o.w B eta z ^ 2) (hc.pow 2)
  have := intervalIntegral.integral_eq_sub_of_hasDerivAt (a := 0) (b := o.H)
    (f := fun z => o.mv0 * o.H / (o.s * o.alpha) * o.sqInt B eta (o.y z))
    (f' := fun z => o.soil.mv z * o.w B eta z ^ 2) (fun z hz => by
      rw [Set.uIcc_of_le hH.le] at hz
      have hx := x_pos h hz.1 hz.2
      have hy := y_pos h hx
      have d0 := (z_deriv he hB hy).comp z (y_deriv h hx)
      have d1 := (z1_deriv he hB hy).comp z (y_deriv h hx)
      have d3 := y_deriv h hx
      have := ((((d3.pow 2).div_const 2).mul ((d0.pow 2).add (d1.pow 2))).sub (((d3.const_mul o.nu).div_const eta).mul (d0.mul d1))).const_mul
        (o.mv0 * o.H / (o.s * o.alpha))
      refine this.congr_deriv ?_
      have hmv := mv_eq h hx
      have hya : o.y z ^ (-o.a) * o.y z ^ o.a = 1 := by rw [← rpow_add hy]; simp
      show _ = o.mv0 * o.x z ^ o.q * (zmu B eta o.nu o.nu (o.y z) * o.y z ^ o.a) ^ 2
      have e : o.mv0 * o.x z ^ o.q * (zmu B eta o.nu o.nu (o.y z) * o.y z ^ o.a) ^ 2 =
          o.mv0 * zmu B eta o.nu o.nu (o.y z) ^ 2 * o.y z ^ 2 / o.x z := by
        calc _ = o.mv0 * zmu B eta o.nu o.nu (o.y z) ^ 2 * (o.x z ^ o.q * o.x z * o.y z ^ o.a) * o.y z ^ o.a / o.x z := by field_simp
          _ = o.mv0 * zmu B eta o.nu o.nu (o.y z) ^ 2 * o.y z ^ 2 * (o.y z ^ (-o.a) * o.y z ^ o.a) / o.x z := by rw [hmv]; ring
          _ = _ := by rw [hya, mul_one]
      rw [e]
      simp only [Function.comp, Pi.mul_apply, Pi.sub_apply, Pi.add_apply, Pi.pow_apply]
      clear this d0 d1 d3 hmv hya e
      generalize zmu B eta o.nu o.nu (o.y z) = C
      generalize zmu B eta (1 + o.nu) o.nu (o.y z) = C1
      generalize o.x z = X at *
      generalize o.y z = Y at *
      push_cast
      field_simp
      ring) hi
  rw [y0, yH h] at this
  refine Eq.trans ?_ (this.trans (by ring))
  rfl

theorem w_top_slope : o.wd B eta 0 ≠ 0 := by
  have hs := s_ne h
  have ha := h.alpha0
  have hH := h.H
  unfold wd
  rw [y0, x0, z_top, z1_top he hB]
  have hp := pi_pos
  have : o.s * o.alpha / (o.H * 1) ≠ 0 := by
    refine div_ne_zero (mul_ne_zero hs ha) (by linarith)
  rw [one_rpow]
  refine mul_ne_zero (mul_ne_zero one_ne_zero this) ?_
  rw [mul_zero, zero_sub, neg_ne_zero]
  positivity

theorem total_w2_pos : 0 < o.soil.total (fun z => o.w B eta z ^ 2) := by
  have hH := h.H
  have hc : o.soil.Cont (o.w B eta) := fun z hz => (w_deriv h he hB (x_pos h hz.1 hz.2)).continuousAt.continuousWithinAt
  have hmv : ∀ z, 0 ≤ z → z ≤ o.H → 0 < o.soil.mv z := fun z g0 g1 => mul_pos h.mv0 (rpow_pos_of_pos (x_pos h g0 g1) _)
  unfold Spec.Vary.total
  refine intervalIntegral.integral_pos hH ((mv_cont h he hB).mul (hc.pow 2))
    (fun z hz => mul_nonneg (hmv z hz.1.le hz.2).le (sq_nonneg _)) ?_
  by_contra hno
  push Not at hno
  have hz : ∀ z ∈ Set.Icc 0 o.H, o.w B eta z = 0 := fun z hz => by
    have h1 := hno z hz
    have h2 := hmv z hz.1 hz.2
    have : o.w B eta z ^ 2 ≤ 0 := by
      by_contra hp
      push Not at hp
      have := mul_pos h2 hp
      linarith
    exact pow_eq_zero_iff two_ne_zero |>.1 (le_antisymm this (sq_nonneg _))
  have hd := (w_deriv h he hB (x_pos h le_rfl hH.le)).hasDerivWithinAt (s := Set.Icc 0 o.H)
  have hd0 : HasDerivWithinAt (o.w B eta) 0 (Set.Icc 0 o.H) 0 :=
    (hasDerivWithinAt_const 0 (Set.Icc 0 o.H) (0:ℝ)).congr hz (hz 0 ⟨le_rfl, hH.le⟩)
  have := (uniqueDiffOn_Icc hH 0 ⟨le_rfl, hH.le⟩).eq_deriv _ hd hd0
  exact w_top_slope h he hB this
end

end ZY
end Geotecha.Consol
