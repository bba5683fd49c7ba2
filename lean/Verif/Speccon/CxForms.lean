import Verif.Speccon.CxFormulas
import Verif.Speccon.LayerForms

/-!
# The complex closed forms are integrals
-/
set_option autoImplicit false
set_option linter.unusedVariables false
open Complex intervalIntegral MeasureTheory
namespace Geotecha.Speccon.Cx

theorem hd_exp (c : ℂ) (t x : ℝ) : HasDerivAt (fun τ : ℝ => exp (-c*((t:ℂ)-τ))) (c * exp (-c*((t:ℂ)-x))) x := by
  have h1 : HasDerivAt (fun τ : ℝ => -c*((t:ℂ)-τ)) c x :=
    ((((hasDerivAt_id x).ofReal_comp).const_sub (t:ℂ)).const_mul (-c)).congr_deriv (by simp)
  exact h1.cexp.congr_deriv (by ring)

theorem hd_cosθ (o f : ℂ) (x : ℝ) : HasDerivAt (fun τ : ℝ => cos (o*τ+f)) (-(o * sin (o*x+f))) x := by
  have h1 : HasDerivAt (fun τ : ℝ => o*τ+f) o x := ((((hasDerivAt_id x).ofReal_comp).const_mul o).add_const f).congr_deriv (by simp)
  have h2 := HasDerivAt.comp (h₂ := Complex.cos) x (Complex.hasDerivAt_cos (o*(x:ℂ)+f)) h1
  exact h2.congr_deriv (by ring)

theorem hd_sinθ (o f : ℂ) (x : ℝ) : HasDerivAt (fun τ : ℝ => sin (o*τ+f)) (o * cos (o*x+f)) x := by
  have h1 : HasDerivAt (fun τ : ℝ => o*τ+f) o x := ((((hasDerivAt_id x).ofReal_comp).const_mul o).add_const f).congr_deriv (by simp)
  have h2 := HasDerivAt.comp (h₂ := Complex.sin) x (Complex.hasDerivAt_sin (o*(x:ℂ)+f)) h1
  exact h2.congr_deriv (by ring)

theorem hd_lin (P S T0 : ℂ) (x : ℝ) : HasDerivAt (fun τ : ℝ => P + S*((τ:ℂ) - T0)) S x :=
  (((((hasDerivAt_id x).ofReal_comp).sub_const T0).const_mul S).const_add P).congr_deriv (by simp)

theorem int_congr_c {f g : ℝ → ℂ} {a b : ℝ} (h : ∀ z, f z = g z) : (∫ z in a..b, f z) = ∫ z in a..b, g z := by
  rw [show f = g from funext h]

theorem int_lin_exp {c : ℂ} (hc : c ≠ 0) (P S T0 : ℂ) (t p q : ℝ) :
    (∫ τ in p..q, (P + S*((τ:ℂ) - T0)) * exp (-c*((t:ℂ) - τ))) =
      exp (-c*((t:ℂ)-q)) * ((P + S*(q - T0))/c - S/c^2) - exp (-c*((t:ℂ)-p)) * ((P + S*(p - T0))/c - S/c^2) := by
  have := integral_eq_sub_of_hasDerivAt (a := p) (b := q) (f := fun τ : ℝ => exp (-c*((t:ℂ)-τ)) * ((P + S*((τ:ℂ) - T0))/c - S/c^2))
    (f' := fun τ : ℝ => (P + S*((τ:ℂ) - T0)) * exp (-c*((t:ℂ) - τ))) (fun x _ => by
      refine ((hd_exp c t x).fun_mul (((hd_lin P S T0 x).div_const c).sub_const (S/c^2))).congr_deriv ?_
      field_simp
      ring) (Continuous.intervalIntegrable (by fun_prop) _ _)
  rw [this]

/-- linear times (A cos + B sin) times decay -/
theorem int_harm {c o : ℂ} (hc : c ≠ 0) (hq : c^2+o^2 ≠ 0) (A B P S T0 f : ℂ) (t p q : ℝ) :
    (∫ τ in p..q, (P + S*((τ:ℂ) - T0)) * (A * cos (o*τ+f) + B * sin (o*τ+f)) * exp (-c*((t:ℂ) - τ))) =
      exp (-c*((t:ℂ)-q)) * ((P + S*(q - T0)) * (A * (c*cos (o*q+f) + o*sin (o*q+f)) + B * (c*sin (o*q+f) - o*cos (o*q+f))) / (c^2+o^2)
        - S * (A * ((c^2-o^2)*cos (o*q+f) + 2*c*o*sin (o*q+f)) + B * ((c^2-o^2)*sin (o*q+f) - 2*c*o*cos (o*q+f))) / (c^2+o^2)^2)
      - exp (-c*((t:ℂ)-p)) * ((P + S*(p - T0)) * (A * (c*cos (o*p+f) + o*sin (o*p+f)) + B * (c*sin (o*p+f) - o*cos (o*p+f))) / (c^2+o^2)
        - S * (A * ((c^2-o^2)*cos (o*p+f) + 2*c*o*sin (o*p+f)) + B * ((c^2-o^2)*sin (o*p+f) - 2*c*o*cos (o*p+f))) / (c^2+o^2)^2) := by
  have := integral_eq_sub_of_hasDerivAt (a := p) (b := q)
    (f := fun τ : ℝ => exp (-c*((t:ℂ)-τ)) * ((P + S*((τ:ℂ) - T0)) * (A * (c*cos (o*τ+f) + o*sin (o*τ+f)) + B * (c*sin (o*τ+f) - o*cos (o*τ+f))) / (c^2+o^2)
        - S * (A * ((c^2-o^2)*cos (o*τ+f) + 2*c*o*sin (o*τ+f)) + B * ((c^2-o^2)*sin (o*τ+f) - 2*c*o*cos (o*τ+f))) / (c^2+o^2)^2))
    (f' := fun τ : ℝ => (P + S*((τ:ℂ) - T0)) * (A * cos (o*τ+f) + B * sin (o*τ+f)) * exp (-c*((t:ℂ) - τ))) (fun x _ => by
      have hl := hd_lin P S T0 x
      have hC := hd_cosθ o f x
      have hS := hd_sinθ o f x
      have hK := (((hC.const_mul c).fun_add (hS.const_mul o)).const_mul A).fun_add (((hS.const_mul c).fun_sub (hC.const_mul o)).const_mul B)
      have hK2 := (((hC.const_mul (c^2-o^2)).fun_add (hS.const_mul (2*c*o))).const_mul A).fun_add
        (((hS.const_mul (c^2-o^2)).fun_sub (hC.const_mul (2*c*o))).const_mul B)
      refine ((hd_exp c t x).fun_mul (((hl.fun_mul hK).div_const (c^2+o^2)).fun_sub ((hK2.const_mul S).div_const ((c^2+o^2)^2)))).congr_deriv ?_
      field_simp
      ring) (Continuous.intervalIntegrable (by fun_prop) _ _)
  rw [this]

theorem th_eq (o t T f : ℂ) : o*t - o*(t - T) + f = o*T + f := by ring

theorem Dinv {T0 T1 o eig dT : ℂ} (hc : dT * eig ≠ 0) (hq : (dT*eig)^2+o^2 ≠ 0) (hT : T0 ≠ T1) :
    (-dT*eig*T1 + dT*eig*T0 - (2:ℂ)*o^(2:ℕ)*T1/(dT*eig) + (2:ℂ)*o^(2:ℕ)*T0/(dT*eig) -
    o^(4:ℕ)*T1/(dT^(3:ℕ)*eig^(3:ℕ)) + o^(4:ℕ)*T0/(dT^(3:ℕ)*eig^(3:ℕ)) : ℂ)⁻¹ = -((dT*eig)^3 / ((T1-T0) * ((dT*eig)^2+o^2)^2)) := by
  have hd : dT ≠ 0 := left_ne_zero_of_mul hc
  have he : eig ≠ 0 := right_ne_zero_of_mul hc
  have h1 : T1 - T0 ≠ 0 := sub_ne_zero.2 hT.symm
  have : (-dT*eig*T1 + dT*eig*T0 - (2:ℂ)*o^(2:ℕ)*T1/(dT*eig) + (2:ℂ)*o^(2:ℕ)*T0/(dT*eig) -
    o^(4:ℕ)*T1/(dT^(3:ℕ)*eig^(3:ℕ)) + o^(4:ℕ)*T0/(dT^(3:ℕ)*eig^(3:ℕ)) : ℂ) = -(((T1-T0) * ((dT*eig)^2+o^2)^2) / (dT*eig)^3) := by
    field_simp
    ring
  rw [this, inv_neg, inv_div]

theorem harm_den {c o : ℂ} (hc : c ≠ 0) : 1 + o^2/c^2 = (c^2+o^2)/c^2 := by field_simp

/-- common normalisation of one closed form -/
macro "harm_norm" hc:ident hq:ident hT:ident : tactic => `(tactic| (
  simp only [th_eq, Dinv $hc $hq $hT]
  simp only [neg_mul, sub_self, mul_zero, neg_zero, exp_zero]
  have hd := left_ne_zero_of_mul $hc
  have he := right_ne_zero_of_mul $hc
  have h1 := sub_ne_zero.2 (Ne.symm $hT)))

theorem El_forms {P0 P1 eig dT : ℂ} {T0 T1 t : ℝ} (hc : dT * eig ≠ 0) (hT : (T0:ℂ) ≠ T1) :
    El_rc_s T0 T1 P0 P1 eig t dT = (∫ τ in T0..t, (P0 + (P1-P0)/(T1-T0)*((τ:ℂ) - T0)) * exp (-(dT*eig)*((t:ℂ) - τ))) ∧
    El_rl_s T0 T1 P0 P1 eig t dT = (∫ τ in T0..T1, (P0 + (P1-P0)/(T1-T0)*((τ:ℂ) - T0)) * exp (-(dT*eig)*((t:ℂ) - τ))) ∧
    El_cc_s T0 P0 eig t dT = (∫ τ in T0..t, (P0 + (P0-P0)/(T1-T0)*((τ:ℂ) - T0)) * exp (-(dT*eig)*((t:ℂ) - τ))) ∧
    El_cl_s T0 T1 P0 eig t dT = (∫ τ in T0..T1, (P0 + (P0-P0)/(T1-T0)*((τ:ℂ) - T0)) * exp (-(dT*eig)*((t:ℂ) - τ))) := by
  have hd : dT ≠ 0 := left_ne_zero_of_mul hc
  have he : eig ≠ 0 := right_ne_zero_of_mul hc
  have h1 : (T1:ℂ) - T0 ≠ 0 := sub_ne_zero.2 hT.symm
  have h2 : -dT*eig*T1 + dT*eig*T0 = -(dT*eig*(T1-T0)) := by ring
  have h3 : (-(dT*eig*((T1:ℂ)-T0)))⁻¹ = -(dT⁻¹*eig⁻¹*((T1:ℂ)-T0)⁻¹) := by field_simp
  refine ⟨?_, ?_, ?_, ?_⟩ <;> rw [int_lin_exp hc]
  · unfold El_rc_s
    have e1 : -(dT * eig) * ((t:ℂ) - t) = 0 := by ring
    have e2 : -dT * eig * ((t:ℂ) - T0) = -(dT*eig)*(t-T0) := by ring
    rw [h2, h3, e1, e2, exp_zero]
    field_simp
    ring
  · unfold El_rl_s
    have e2 : -dT * eig * ((t:ℂ) - T0) = -(dT*eig)*(t-T0) := by ring
    have e3 : -dT * eig * ((t:ℂ) - T1) = -(dT*eig)*(t-T1) := by ring
    rw [h2, h3, e2, e3]
    field_simp
    ring
  · unfold El_cc_s
    have e1 : -(dT * eig) * ((t:ℂ) - t) = 0 := by ring
    have e2 : -dT * eig * ((t:ℂ) - T0) = -(dT*eig)*(t-T0) := by ring
    rw [e1, e2, exp_zero]
    field_simp
    ring
  · unfold El_cl_s
    have e2 : -dT * eig * ((t:ℂ) - T0) = -(dT*eig)*(t-T0) := by ring
    have e3 : -dT * eig * ((t:ℂ) - T1) = -(dT*eig)*(t-T1) := by ring
    rw [e2, e3]
    field_simp
    ring

set_option maxRecDepth 20000 in
set_option maxHeartbeats 2000000 in
theorem Ec_rc {P0 P1 omega phase eig dT : ℂ} {T0 T1 t : ℝ} (hc : dT * eig ≠ 0) (hq : (dT*eig)^2+omega^2 ≠ 0) (hT : (T0:ℂ) ≠ T1) :
    Ec_rc_s T0 T1 P0 P1 omega phase eig t dT = ∫ τ in T0..t, (P0 + (P1-P0)/((T1:ℂ)-T0)*((τ:ℂ) - T0)) * cos (omega*τ+phase) * exp (-(dT*eig)*((t:ℂ) - τ)) := by
  have hq' : dT^2*eig^2+omega^2 ≠ 0 := by rw [← mul_pow]; exact hq
  rw [show (∫ τ in T0..t, (P0 + (P1-P0)/((T1:ℂ)-T0)*((τ:ℂ) - T0)) * cos (omega*τ+phase) * exp (-(dT*eig)*((t:ℂ) - τ))) =
    ∫ τ in T0..t, (P0 + (P1-P0)/((T1:ℂ)-T0)*((τ:ℂ) - T0)) * (1 * cos (omega*τ+phase) + 0 * sin (omega*τ+phase)) * exp (-(dT*eig)*((t:ℂ) - τ)) from
    int_congr_c (fun z => by ring), int_harm hc hq]
  unfold Ec_rc_s
  harm_norm hc hq hT
  generalize sin (omega*T0+phase) = s0
  generalize cos (omega*T0+phase) = c0
  generalize sin (omega*t+phase) = st
  generalize cos (omega*t+phase) = ct
  generalize sin (omega*T1+phase) = s1
  generalize cos (omega*T1+phase) = c1
  generalize exp (-(dT*eig*((t:ℂ)-T0))) = e0
  generalize exp (-(dT*eig*((t:ℂ)-T1))) = e1
  generalize (T0:ℂ) = U0 at *
  generalize (T1:ℂ) = U1 at *
  generalize (t:ℂ) = u at *
  field_simp
  ring

set_option maxRecDepth 20000 in
set_option maxHeartbeats 2000000 in
theorem Ec_rl {P0 P1 omega phase eig dT : ℂ} {T0 T1 t : ℝ} (hc : dT * eig ≠ 0) (hq : (dT*eig)^2+omega^2 ≠ 0) (hT : (T0:ℂ) ≠ T1) :
    Ec_rl_s T0 T1 P0 P1 omega phase eig t dT = ∫ τ in T0..T1, (P0 + (P1-P0)/((T1:ℂ)-T0)*((τ:ℂ) - T0)) * cos (omega*τ+phase) * exp (-(dT*eig)*((t:ℂ) - τ)) := by
  have hq' : dT^2*eig^2+omega^2 ≠ 0 := by rw [← mul_pow]; exact hq
  rw [show (∫ τ in T0..T1, (P0 + (P1-P0)/((T1:ℂ)-T0)*((τ:ℂ) - T0)) * cos (omega*τ+phase) * exp (-(dT*eig)*((t:ℂ) - τ))) =
    ∫ τ in T0..T1, (P0 + (P1-P0)/((T1:ℂ)-T0)*((τ:ℂ) - T0)) * (1 * cos (omega*τ+phase) + 0 * sin (omega*τ+phase)) * exp (-(dT*eig)*((t:ℂ) - τ)) from
    int_congr_c (fun z => by ring), int_harm hc hq]
  unfold Ec_rl_s
  harm_norm hc hq hT
  generalize sin (omega*T0+phase) = s0
  generalize cos (omega*T0+phase) = c0
  generalize sin (omega*t+phase) = st
  generalize cos (omega*t+phase) = ct
  generalize sin (omega*T1+phase) = s1
  generalize cos (omega*T1+phase) = c1
  generalize exp (-(dT*eig*((t:ℂ)-T0))) = e0
  generalize exp (-(dT*eig*((t:ℂ)-T1))) = e1
  generalize (T0:ℂ) = U0 at *
  generalize (T1:ℂ) = U1 at *
  generalize (t:ℂ) = u at *
  field_simp
  ring

set_option maxRecDepth 20000 in
set_option maxHeartbeats 2000000 in
theorem Ec_cc {P0 P1 omega phase eig dT : ℂ} {T0 T1 t : ℝ} (hc : dT * eig ≠ 0) (hq : (dT*eig)^2+omega^2 ≠ 0) (hT : (T0:ℂ) ≠ T1) :
    Ec_cc_s T0 P0 omega phase eig t dT = ∫ τ in T0..t, (P0 + (P0-P0)/((T1:ℂ)-T0)*((τ:ℂ) - T0)) * cos (omega*τ+phase) * exp (-(dT*eig)*((t:ℂ) - τ)) := by
  have hq' : dT^2*eig^2+omega^2 ≠ 0 := by rw [← mul_pow]; exact hq
  rw [show (∫ τ in T0..t, (P0 + (P0-P0)/((T1:ℂ)-T0)*((τ:ℂ) - T0)) * cos (omega*τ+phase) * exp (-(dT*eig)*((t:ℂ) - τ))) =
    ∫ τ in T0..t, (P0 + (P0-P0)/((T1:ℂ)-T0)*((τ:ℂ) - T0)) * (1 * cos (omega*τ+phase) + 0 * sin (omega*τ+phase)) * exp (-(dT*eig)*((t:ℂ) - τ)) from
    int_congr_c (fun z => by ring), int_harm hc hq]
  unfold Ec_cc_s
  have hden := harm_den (o := omega) hc
  rw [mul_pow] at hden
  simp only [hden]
  harm_norm hc hq hT
  generalize sin (omega*T0+phase) = s0
  generalize cos (omega*T0+phase) = c0
  generalize sin (omega*t+phase) = st
  generalize cos (omega*t+phase) = ct
  generalize sin (omega*T1+phase) = s1
  generalize cos (omega*T1+phase) = c1
  generalize exp (-(dT*eig*((t:ℂ)-T0))) = e0
  generalize exp (-(dT*eig*((t:ℂ)-T1))) = e1
  generalize (T0:ℂ) = U0 at *
  generalize (T1:ℂ) = U1 at *
  generalize (t:ℂ) = u at *
  field_simp
  ring

set_option maxRecDepth 20000 in
set_option maxHeartbeats 2000000 in
theorem Ec_cl {P0 P1 omega phase eig dT : ℂ} {T0 T1 t : ℝ} (hc : dT * eig ≠ 0) (hq : (dT*eig)^2+omega^2 ≠ 0) (hT : (T0:ℂ) ≠ T1) :
    Ec_cl_s T0 T1 P0 omega phase eig t dT = ∫ τ in T0..T1, (P0 + (P0-P0)/((T1:ℂ)-T0)*((τ:ℂ) - T0)) * cos (omega*τ+phase) * exp (-(dT*eig)*((t:ℂ) - τ)) := by
  have hq' : dT^2*eig^2+omega^2 ≠ 0 := by rw [← mul_pow]; exact hq
  rw [show (∫ τ in T0..T1, (P0 + (P0-P0)/((T1:ℂ)-T0)*((τ:ℂ) - T0)) * cos (omega*τ+phase) * exp (-(dT*eig)*((t:ℂ) - τ))) =
    ∫ τ in T0..T1, (P0 + (P0-P0)/((T1:ℂ)-T0)*((τ:ℂ) - T0)) * (1 * cos (omega*τ+phase) + 0 * sin (omega*τ+phase)) * exp (-(dT*eig)*((t:ℂ) - τ)) from
    int_congr_c (fun z => by ring), int_harm hc hq]
  unfold Ec_cl_s
  have hden := harm_den (o := omega) hc
  rw [mul_pow] at hden
  simp only [hden]
  harm_norm hc hq hT
  generalize sin (omega*T0+phase) = s0
  generalize cos (omega*T0+phase) = c0
  generalize sin (omega*t+phase) = st
  generalize cos (omega*t+phase) = ct
  generalize sin (omega*T1+phase) = s1
  generalize cos (omega*T1+phase) = c1
  generalize exp (-(dT*eig*((t:ℂ)-T0))) = e0
  generalize exp (-(dT*eig*((t:ℂ)-T1))) = e1
  generalize (T0:ℂ) = U0 at *
  generalize (T1:ℂ) = U1 at *
  generalize (t:ℂ) = u at *
  field_simp
  ring

set_option maxRecDepth 20000 in
set_option maxHeartbeats 2000000 in
theorem Es_rc {P0 P1 omega phase eig dT : ℂ} {T0 T1 t : ℝ} (hc : dT * eig ≠ 0) (hq : (dT*eig)^2+omega^2 ≠ 0) (hT : (T0:ℂ) ≠ T1) :
    Es_rc_s T0 T1 P0 P1 omega phase eig t dT = ∫ τ in T0..t, (P0 + (P1-P0)/((T1:ℂ)-T0)*((τ:ℂ) - T0)) * sin (omega*τ+phase) * exp (-(dT*eig)*((t:ℂ) - τ)) := by
  have hq' : dT^2*eig^2+omega^2 ≠ 0 := by rw [← mul_pow]; exact hq
  rw [show (∫ τ in T0..t, (P0 + (P1-P0)/((T1:ℂ)-T0)*((τ:ℂ) - T0)) * sin (omega*τ+phase) * exp (-(dT*eig)*((t:ℂ) - τ))) =
    ∫ τ in T0..t, (P0 + (P1-P0)/((T1:ℂ)-T0)*((τ:ℂ) - T0)) * (0 * cos (omega*τ+phase) + 1 * sin (omega*τ+phase)) * exp (-(dT*eig)*((t:ℂ) - τ)) from
    int_congr_c (fun z => by ring), int_harm hc hq]
  unfold Es_rc_s
  harm_norm hc hq hT
  generalize sin (omega*T0+phase) = s0
  generalize cos (omega*T0+phase) = c0
  generalize sin (omega*t+phase) = st
  generalize cos (omega*t+phase) = ct
  generalize sin (omega*T1+phase) = s1
  generalize cos (omega*T1+phase) = c1
  generalize exp (-(dT*eig*((t:ℂ)-T0))) = e0
  generalize exp (-(dT*eig*((t:ℂ)-T1))) = e1
  generalize (T0:ℂ) = U0 at *
  generalize (T1:ℂ) = U1 at *
  generalize (t:ℂ) = u at *
  field_simp
  ring

set_option maxRecDepth 20000 in
set_option maxHeartbeats 2000000 in
theorem Es_rl {P0 P1 omega phase eig dT : ℂ} {T0 T1 t : ℝ} (hc : dT * eig ≠ 0) (hq : (dT*eig)^2+omega^2 ≠ 0) (hT : (T0:ℂ) ≠ T1) :
    Es_rl_s T0 T1 P0 P1 omega phase eig t dT = ∫ τ in T0..T1, (P0 + (P1-P0)/((T1:ℂ)-T0)*((τ:ℂ) - T0)) * sin (omega*τ+phase) * exp (-(dT*eig)*((t:ℂ) - τ)) := by
  have hq' : dT^2*eig^2+omega^2 ≠ 0 := by rw [← mul_pow]; exact hq
  rw [show (∫ τ in T0..T1, (P0 + (P1-P0)/((T1:ℂ)-T0)*((τ:ℂ) - T0)) * sin (omega*τ+phase) * exp (-(dT*eig)*((t:ℂ) - τ))) =
    ∫ τ in T0..T1, (P0 + (P1-P0)/((T1:ℂ)-T0)*((τ:ℂ) - T0)) * (0 * cos (omega*τ+phase) + 1 * sin (omega*τ+phase)) * exp (-(dT*eig)*((t:ℂ) - τ)) from
    int_congr_c (fun z => by ring), int_harm hc hq]
  unfold Es_rl_s
  harm_norm hc hq hT
  generalize sin (omega*T0+phase) = s0
  generalize cos (omega*T0+phase) = c0
  generalize sin (omega*t+phase) = st
  generalize cos (omega*t+phase) = ct
  generalize sin (omega*T1+phase) = s1
  generalize cos (omega*T1+phase) = c1
  generalize exp (-(dT*eig*((t:ℂ)-T0))) = e0
  generalize exp (-(dT*eig*((t:ℂ)-T1))) = e1
  generalize (T0:ℂ) = U0 at *
  generalize (T1:ℂ) = U1 at *
  generalize (t:ℂ) = u at *
  field_simp
  ring

set_option maxRecDepth 20000 in
set_option maxHeartbeats 2000000 in
theorem Es_cc {P0 P1 omega phase eig dT : ℂ} {T0 T1 t : ℝ} (hc : dT * eig ≠ 0) (hq : (dT*eig)^2+omega^2 ≠ 0) (hT : (T0:ℂ) ≠ T1) :
    Es_cc_s T0 P0 omega phase eig t dT = ∫ τ in T0..t, (P0 + (P0-P0)/((T1:ℂ)-T0)*((τ:ℂ) - T0)) * sin (omega*τ+phase) * exp (-(dT*eig)*((t:ℂ) - τ)) := by
  have hq' : dT^2*eig^2+omega^2 ≠ 0 := by rw [← mul_pow]; exact hq
  rw [show (∫ τ in T0..t, (P0 + (P0-P0)/((T1:ℂ)-T0)*((τ:ℂ) - T0)) * sin (omega*τ+phase) * exp (-(dT*eig)*((t:ℂ) - τ))) =
    ∫ τ in T0..t, (P0 + (P0-P0)/((T1:ℂ)-T0)*((τ:ℂ) - T0)) * (0 * cos (omega*τ+phase) + 1 * sin (omega*τ+phase)) * exp (-(dT*eig)*((t:ℂ) - τ)) from
    int_congr_c (fun z => by ring), int_harm hc hq]
  unfold Es_cc_s
  have hden := harm_den (o := omega) hc
  rw [mul_pow] at hden
  simp only [hden]
  harm_norm hc hq hT
  generalize sin (omega*T0+phase) = s0
  generalize cos (omega*T0+phase) = c0
  generalize sin (omega*t+phase) = st
  generalize cos (omega*t+phase) = ct
  generalize sin (omega*T1+phase) = s1
  generalize cos (omega*T1+phase) = c1
  generalize exp (-(dT*eig*((t:ℂ)-T0))) = e0
  generalize exp (-(dT*eig*((t:ℂ)-T1))) = e1
  generalize (T0:ℂ) = U0 at *
  generalize (T1:ℂ) = U1 at *
  generalize (t:ℂ) = u at *
  field_simp
  ring

set_option maxRecDepth 20000 in
set_option maxHeartbeats 2000000 in
theorem Es_cl {P0 P1 omega phase eig dT : ℂ} {T0 T1 t : ℝ} (hc : dT * eig ≠ 0) (hq : (dT*eig)^2+omega^2 ≠ 0) (hT : (T0:ℂ) ≠ T1) :
    Es_cl_s T0 T1 P0 omega phase eig t dT = ∫ τ in T0..T1, (P0 + (P0-P0)/((T1:ℂ)-T0)*((τ:ℂ) - T0)) * sin (omega*τ+phase) * exp (-(dT*eig)*((t:ℂ) - τ)) := by
  have hq' : dT^2*eig^2+omega^2 ≠ 0 := by rw [← mul_pow]; exact hq
  rw [show (∫ τ in T0..T1, (P0 + (P0-P0)/((T1:ℂ)-T0)*((τ:ℂ) - T0)) * sin (omega*τ+phase) * exp (-(dT*eig)*((t:ℂ) - τ))) =
    ∫ τ in T0..T1, (P0 + (P0-P0)/((T1:ℂ)-T0)*((τ:ℂ) - T0)) * (0 * cos (omega*τ+phase) + 1 * sin (omega*τ+phase)) * exp (-(dT*eig)*((t:ℂ) - τ)) from
    int_congr_c (fun z => by ring), int_harm hc hq]
  unfold Es_cl_s
  have hden := harm_den (o := omega) hc
  rw [mul_pow] at hden
  simp only [hden]
  harm_norm hc hq hT
  generalize sin (omega*T0+phase) = s0
  generalize cos (omega*T0+phase) = c0
  generalize sin (omega*t+phase) = st
  generalize cos (omega*t+phase) = ct
  generalize sin (omega*T1+phase) = s1
  generalize cos (omega*T1+phase) = c1
  generalize exp (-(dT*eig*((t:ℂ)-T0))) = e0
  generalize exp (-(dT*eig*((t:ℂ)-T1))) = e1
  generalize (T0:ℂ) = U0 at *
  generalize (T1:ℂ) = U1 at *
  generalize (t:ℂ) = u at *
  field_simp
  ring

theorem sv : El_cc_v = El_cc_s ∧ El_cl_v = El_cl_s ∧ El_rc_v = El_rc_s ∧ El_rl_v = El_rl_s ∧
    Ec_cc_v = Ec_cc_s ∧ Ec_cl_v = Ec_cl_s ∧ Ec_rc_v = Ec_rc_s ∧ Ec_rl_v = Ec_rl_s ∧
    Es_cc_v = Es_cc_s ∧ Es_cl_v = Es_cl_s ∧ Es_rc_v = Es_rc_s ∧ Es_rl_v = Es_rl_s :=
  ⟨rfl, rfl, rfl, rfl, rfl, rfl, rfl, rfl, rfl, rfl, rfl, rfl⟩

end Geotecha.Speccon.Cx
