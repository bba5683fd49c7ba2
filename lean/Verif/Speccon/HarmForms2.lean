import Verif.Speccon.HarmForms

set_option linter.unusedVariables false
open Real intervalIntegral MeasureTheory
namespace Geotecha.Speccon

/-- common normalisation of one closed form -/
macro "harm_norm" hc:ident hT:ident : tactic => `(tactic| (
  simp only [th_eq, Dinv $hc $hT]
  simp only [neg_mul, sub_self, mul_zero, neg_zero, exp_zero]
  have hd := left_ne_zero_of_mul $hc
  have he := right_ne_zero_of_mul $hc
  have h1 := sub_ne_zero.2 (Ne.symm $hT)))

theorem int_dharm {c o : ℝ} (hc : c ≠ 0) (P S T0 f t p q : ℝ) :
    (∫ τ in p..q, (S * cos (o*τ+f) - (P + S*(τ - T0)) * (o * sin (o*τ+f))) * exp (-c*(t - τ))) =
      (∫ τ in p..q, (S + 0*(τ - T0)) * (1 * cos (o*τ+f) + 0 * sin (o*τ+f)) * exp (-c*(t - τ))) +
      ∫ τ in p..q, (P + S*(τ - T0)) * (0 * cos (o*τ+f) + (-o) * sin (o*τ+f)) * exp (-c*(t - τ)) := by
  rw [← intervalIntegral.integral_add (Continuous.intervalIntegrable (by fun_prop) _ _) (Continuous.intervalIntegrable (by fun_prop) _ _)]
  exact int_congr' (fun z => by ring)

theorem harm_den {c o : ℝ} (hc : c ≠ 0) : 1 + o^2/c^2 = (c^2+o^2)/c^2 := by field_simp

set_option maxRecDepth 20000 in
set_option maxHeartbeats 2000000 in
theorem Ec_rc {T0 T1 P0 P1 omega phase eig t dT : ℝ} (hc : dT * eig ≠ 0) (hT : T0 ≠ T1) :
    Ec_rc_s T0 T1 P0 P1 omega phase eig t dT = ∫ τ in T0..t, (P0 + (P1-P0)/(T1-T0)*(τ - T0)) * cos (omega*τ+phase) * exp (-(dT*eig)*(t - τ)) := by
  have hq : (dT*eig)^2+omega^2 ≠ 0 := by positivity
  have hq' : dT^2*eig^2+omega^2 ≠ 0 := by rw [← mul_pow]; exact hq
  rw [show (∫ τ in T0..t, (P0 + (P1-P0)/(T1-T0)*(τ - T0)) * cos (omega*τ+phase) * exp (-(dT*eig)*(t - τ))) =
    ∫ τ in T0..t, (P0 + (P1-P0)/(T1-T0)*(τ - T0)) * (1 * cos (omega*τ+phase) + 0 * sin (omega*τ+phase)) * exp (-(dT*eig)*(t - τ)) from
    int_congr' (fun z => by ring), int_harm hc]
  unfold Ec_rc_s
  harm_norm hc hT
  generalize sin (omega*T0+phase) = s0
  generalize cos (omega*T0+phase) = c0
  generalize sin (omega*t+phase) = st
  generalize cos (omega*t+phase) = ct
  generalize sin (omega*T1+phase) = s1
  generalize cos (omega*T1+phase) = c1
  generalize exp (-(dT*eig*(t-T0))) = e0
  generalize exp (-(dT*eig*(t-T1))) = e1
  field_simp
  ring

set_option maxRecDepth 20000 in
set_option maxHeartbeats 2000000 in
theorem Ec_rl {T0 T1 P0 P1 omega phase eig t dT : ℝ} (hc : dT * eig ≠ 0) (hT : T0 ≠ T1) :
    Ec_rl_s T0 T1 P0 P1 omega phase eig t dT = ∫ τ in T0..T1, (P0 + (P1-P0)/(T1-T0)*(τ - T0)) * cos (omega*τ+phase) * exp (-(dT*eig)*(t - τ)) := by
  have hq : (dT*eig)^2+omega^2 ≠ 0 := by positivity
  have hq' : dT^2*eig^2+omega^2 ≠ 0 := by rw [← mul_pow]; exact hq
  rw [show (∫ τ in T0..T1, (P0 + (P1-P0)/(T1-T0)*(τ - T0)) * cos (omega*τ+phase) * exp (-(dT*eig)*(t - τ))) =
    ∫ τ in T0..T1, (P0 + (P1-P0)/(T1-T0)*(τ - T0)) * (1 * cos (omega*τ+phase) + 0 * sin (omega*τ+phase)) * exp (-(dT*eig)*(t - τ)) from
    int_congr' (fun z => by ring), int_harm hc]
  unfold Ec_rl_s
  harm_norm hc hT
  generalize sin (omega*T0+phase) = s0
  generalize cos (omega*T0+phase) = c0
  generalize sin (omega*t+phase) = st
  generalize cos (omega*t+phase) = ct
  generalize sin (omega*T1+phase) = s1
  generalize cos (omega*T1+phase) = c1
  generalize exp (-(dT*eig*(t-T0))) = e0
  generalize exp (-(dT*eig*(t-T1))) = e1
  field_simp
  ring

set_option maxRecDepth 20000 in
set_option maxHeartbeats 2000000 in
theorem Ec_cc {T0 T1 P0 P1 omega phase eig t dT : ℝ} (hc : dT * eig ≠ 0) (hT : T0 ≠ T1) :
    Ec_cc_s T0 P0 omega phase eig t dT = ∫ τ in T0..t, (P0 + (P0-P0)/(T1-T0)*(τ - T0)) * cos (omega*τ+phase) * exp (-(dT*eig)*(t - τ)) := by
  have hq : (dT*eig)^2+omega^2 ≠ 0 := by positivity
  have hq' : dT^2*eig^2+omega^2 ≠ 0 := by rw [← mul_pow]; exact hq
  rw [show (∫ τ in T0..t, (P0 + (P0-P0)/(T1-T0)*(τ - T0)) * cos (omega*τ+phase) * exp (-(dT*eig)*(t - τ))) =
    ∫ τ in T0..t, (P0 + (P0-P0)/(T1-T0)*(τ - T0)) * (1 * cos (omega*τ+phase) + 0 * sin (omega*τ+phase)) * exp (-(dT*eig)*(t - τ)) from
    int_congr' (fun z => by ring), int_harm hc]
  unfold Ec_cc_s
  have hden := harm_den (o := omega) hc
  rw [mul_pow] at hden
  simp only [hden]
  harm_norm hc hT
  generalize sin (omega*T0+phase) = s0
  generalize cos (omega*T0+phase) = c0
  generalize sin (omega*t+phase) = st
  generalize cos (omega*t+phase) = ct
  generalize sin (omega*T1+phase) = s1
  generalize cos (omega*T1+phase) = c1
  generalize exp (-(dT*eig*(t-T0))) = e0
  generalize exp (-(dT*eig*(t-T1))) = e1
  field_simp
  ring

set_option maxRecDepth 20000 in
set_option maxHeartbeats 2000000 in
theorem Ec_cl {T0 T1 P0 P1 omega phase eig t dT : ℝ} (hc : dT * eig ≠ 0) (hT : T0 ≠ T1) :
    Ec_cl_s T0 T1 P0 omega phase eig t dT = ∫ τ in T0..T1, (P0 + (P0-P0)/(T1-T0)*(τ - T0)) * cos (omega*τ+phase) * exp (-(dT*eig)*(t - τ)) := by
  have hq : (dT*eig)^2+omega^2 ≠ 0 := by positivity
  have hq' : dT^2*eig^2+omega^2 ≠ 0 := by rw [← mul_pow]; exact hq
  rw [show (∫ τ in T0..T1, (P0 + (P0-P0)/(T1-T0)*(τ - T0)) * cos (omega*τ+phase) * exp (-(dT*eig)*(t - τ))) =
    ∫ τ in T0..T1, (P0 + (P0-P0)/(T1-T0)*(τ - T0)) * (1 * cos (omega*τ+phase) + 0 * sin (omega*τ+phase)) * exp (-(dT*eig)*(t - τ)) from
    int_congr' (fun z => by ring), int_harm hc]
  unfold Ec_cl_s
  have hden := harm_den (o := omega) hc
  rw [mul_pow] at hden
  simp only [hden]
  harm_norm hc hT
  generalize sin (omega*T0+phase) = s0
  generalize cos (omega*T0+phase) = c0
  generalize sin (omega*t+phase) = st
  generalize cos (omega*t+phase) = ct
  generalize sin (omega*T1+phase) = s1
  generalize cos (omega*T1+phase) = c1
  generalize exp (-(dT*eig*(t-T0))) = e0
  generalize exp (-(dT*eig*(t-T1))) = e1
  field_simp
  ring

theorem Ec_sv : Ec_cc_v = Ec_cc_s ∧ Ec_cl_v = Ec_cl_s ∧ Ec_rc_v = Ec_rc_s ∧ Ec_rl_v = Ec_rl_s :=
  ⟨rfl, rfl, rfl, rfl⟩

set_option maxRecDepth 20000 in
set_option maxHeartbeats 2000000 in
theorem Es_rc {T0 T1 P0 P1 omega phase eig t dT : ℝ} (hc : dT * eig ≠ 0) (hT : T0 ≠ T1) :
    Es_rc_s T0 T1 P0 P1 omega phase eig t dT = ∫ τ in T0..t, (P0 + (P1-P0)/(T1-T0)*(τ - T0)) * sin (omega*τ+phase) * exp (-(dT*eig)*(t - τ)) := by
  have hq : (dT*eig)^2+omega^2 ≠ 0 := by positivity
  have hq' : dT^2*eig^2+omega^2 ≠ 0 := by rw [← mul_pow]; exact hq
  rw [show (∫ τ in T0..t, (P0 + (P1-P0)/(T1-T0)*(τ - T0)) * sin (omega*τ+phase) * exp (-(dT*eig)*(t - τ))) =
    ∫ τ in T0..t, (P0 + (P1-P0)/(T1-T0)*(τ - T0)) * (0 * cos (omega*τ+phase) + 1 * sin (omega*τ+phase)) * exp (-(dT*eig)*(t - τ)) from
    int_congr' (fun z => by ring), int_harm hc]
  unfold Es_rc_s
  harm_norm hc hT
  generalize sin (omega*T0+phase) = s0
  generalize cos (omega*T0+phase) = c0
  generalize sin (omega*t+phase) = st
  generalize cos (omega*t+phase) = ct
  generalize sin (omega*T1+phase) = s1
  generalize cos (omega*T1+phase) = c1
  generalize exp (-(dT*eig*(t-T0))) = e0
  generalize exp (-(dT*eig*(t-T1))) = e1
  field_simp
  ring

set_option maxRecDepth 20000 in
set_option maxHeartbeats 2000000 in
theorem Es_rl {T0 T1 P0 P1 omega phase eig t dT : ℝ} (hc : dT * eig ≠ 0) (hT : T0 ≠ T1) :
    Es_rl_s T0 T1 P0 P1 omega phase eig t dT = ∫ τ in T0..T1, (P0 + (P1-P0)/(T1-T0)*(τ - T0)) * sin (omega*τ+phase) * exp (-(dT*eig)*(t - τ)) := by
  have hq : (dT*eig)^2+omega^2 ≠ 0 := by positivity
  have hq' : dT^2*eig^2+omega^2 ≠ 0 := by rw [← mul_pow]; exact hq
  rw [show (∫ τ in T0..T1, (P0 + (P1-P0)/(T1-T0)*(τ - T0)) * sin (omega*τ+phase) * exp (-(dT*eig)*(t - τ))) =
    ∫ τ in T0..T1, (P0 + (P1-P0)/(T1-T0)*(τ - T0)) * (0 * cos (omega*τ+phase) + 1 * sin (omega*τ+phase)) * exp (-(dT*eig)*(t - τ)) from
    int_congr' (fun z => by ring), int_harm hc]
  unfold Es_rl_s
  harm_norm hc hT
  generalize sin (omega*T0+phase) = s0
  generalize cos (omega*T0+phase) = c0
  generalize sin (omega*t+phase) = st
  generalize cos (omega*t+phase) = ct
  generalize sin (omega*T1+phase) = s1
  generalize cos (omega*T1+phase) = c1
  generalize exp (-(dT*eig*(t-T0))) = e0
  generalize exp (-(dT*eig*(t-T1))) = e1
  field_simp
  ring

set_option maxRecDepth 20000 in
set_option maxHeartbeats 2000000 in
theorem Es_cc {T0 T1 P0 P1 omega phase eig t dT : ℝ} (hc : dT * eig ≠ 0) (hT : T0 ≠ T1) :
    Es_cc_s T0 P0 omega phase eig t dT = ∫ τ in T0..t, (P0 + (P0-P0)/(T1-T0)*(τ - T0)) * sin (omega*τ+phase) * exp (-(dT*eig)*(t - τ)) := by
  have hq : (dT*eig)^2+omega^2 ≠ 0 := by positivity
  have hq' : dT^2*eig^2+omega^2 ≠ 0 := by rw [← mul_pow]; exact hq
  rw [show (∫ τ in T0..t, (P0 + (P0-P0)/(T1-T0)*(τ - T0)) * sin (omega*τ+phase) * exp (-(dT*eig)*(t - τ))) =
    ∫ τ in T0..t, (P0 + (P0-P0)/(T1-T0)*(τ - T0)) * (0 * cos (omega*τ+phase) + 1 * sin (omega*τ+phase)) * exp (-(dT*eig)*(t - τ)) from
    int_congr' (fun z => by ring), int_harm hc]
  unfold Es_cc_s
  have hden := harm_den (o := omega) hc
  rw [mul_pow] at hden
  simp only [hden]
  harm_norm hc hT
  generalize sin (omega*T0+phase) = s0
  generalize cos (omega*T0+phase) = c0
  generalize sin (omega*t+phase) = st
  generalize cos (omega*t+phase) = ct
  generalize sin (omega*T1+phase) = s1
  generalize cos (omega*T1+phase) = c1
  generalize exp (-(dT*eig*(t-T0))) = e0
  generalize exp (-(dT*eig*(t-T1))) = e1
  field_simp
  ring

set_option maxRecDepth 20000 in
set_option maxHeartbeats 2000000 in
theorem Es_cl {T0 T1 P0 P1 omega phase eig t dT : ℝ} (hc : dT * eig ≠ 0) (hT : T0 ≠ T1) :
    Es_cl_s T0 T1 P0 omega phase eig t dT = ∫ τ in T0..T1, (P0 + (P0-P0)/(T1-T0)*(τ - T0)) * sin (omega*τ+phase) * exp (-(dT*eig)*(t - τ)) := by
  have hq : (dT*eig)^2+omega^2 ≠ 0 := by positivity
  have hq' : dT^2*eig^2+omega^2 ≠ 0 := by rw [← mul_pow]; exact hq
  rw [show (∫ τ in T0..T1, (P0 + (P0-P0)/(T1-T0)*(τ - T0)) * sin (omega*τ+phase) * exp (-(dT*eig)*(t - τ))) =
    ∫ τ in T0..T1, (P0 + (P0-P0)/(T1-T0)*(τ - T0)) * (0 * cos (omega*τ+phase) + 1 * sin (omega*τ+phase)) * exp (-(dT*eig)*(t - τ)) from
    int_congr' (fun z => by ring), int_harm hc]
  unfold Es_cl_s
  have hden := harm_den (o := omega) hc
  rw [mul_pow] at hden
  simp only [hden]
  harm_norm hc hT
  generalize sin (omega*T0+phase) = s0
  generalize cos (omega*T0+phase) = c0
  generalize sin (omega*t+phase) = st
  generalize cos (omega*t+phase) = ct
  generalize sin (omega*T1+phase) = s1
  generalize cos (omega*T1+phase) = c1
  generalize exp (-(dT*eig*(t-T0))) = e0
  generalize exp (-(dT*eig*(t-T1))) = e1
  field_simp
  ring

theorem Es_sv : Es_cc_v = Es_cc_s ∧ Es_cl_v = Es_cl_s ∧ Es_rc_v = Es_rc_s ∧ Es_rl_v = Es_rl_s :=
  ⟨rfl, rfl, rfl, rfl⟩

set_option maxRecDepth 20000 in
set_option maxHeartbeats 2000000 in
theorem EDc_rc {T0 T1 P0 P1 omega phase eig t dT : ℝ} (hc : dT * eig ≠ 0) (hT : T0 ≠ T1) :
    EDc_rc_s T0 T1 P0 P1 omega phase eig t dT = ∫ τ in T0..t, ((P1-P0)/(T1-T0) * cos (omega*τ+phase) - (P0 + (P1-P0)/(T1-T0)*(τ - T0)) * (omega * sin (omega*τ+phase))) * exp (-(dT*eig)*(t - τ)) := by
  have hq : (dT*eig)^2+omega^2 ≠ 0 := by positivity
  have hq' : dT^2*eig^2+omega^2 ≠ 0 := by rw [← mul_pow]; exact hq
  rw [int_dharm hc, int_harm hc, int_harm hc]
  unfold EDc_rc_s
  harm_norm hc hT
  generalize sin (omega*T0+phase) = s0
  generalize cos (omega*T0+phase) = c0
  generalize sin (omega*t+phase) = st
  generalize cos (omega*t+phase) = ct
  generalize sin (omega*T1+phase) = s1
  generalize cos (omega*T1+phase) = c1
  generalize exp (-(dT*eig*(t-T0))) = e0
  generalize exp (-(dT*eig*(t-T1))) = e1
  field_simp
  ring

set_option maxRecDepth 20000 in
set_option maxHeartbeats 2000000 in
theorem EDc_rl {T0 T1 P0 P1 omega phase eig t dT : ℝ} (hc : dT * eig ≠ 0) (hT : T0 ≠ T1) :
    EDc_rl_s T0 T1 P0 P1 omega phase eig t dT = ∫ τ in T0..T1, ((P1-P0)/(T1-T0) * cos (omega*τ+phase) - (P0 + (P1-P0)/(T1-T0)*(τ - T0)) * (omega * sin (omega*τ+phase))) * exp (-(dT*eig)*(t - τ)) := by
  have hq : (dT*eig)^2+omega^2 ≠ 0 := by positivity
  have hq' : dT^2*eig^2+omega^2 ≠ 0 := by rw [← mul_pow]; exact hq
  rw [int_dharm hc, int_harm hc, int_harm hc]
  unfold EDc_rl_s
  harm_norm hc hT
  generalize sin (omega*T0+phase) = s0
  generalize cos (omega*T0+phase) = c0
  generalize sin (omega*t+phase) = st
  generalize cos (omega*t+phase) = ct
  generalize sin (omega*T1+phase) = s1
  generalize cos (omega*T1+phase) = c1
  generalize exp (-(dT*eig*(t-T0))) = e0
  generalize exp (-(dT*eig*(t-T1))) = e1
  field_simp
  ring

set_option maxRecDepth 20000 in
set_option maxHeartbeats 2000000 in
theorem EDc_cc {T0 T1 P0 P1 omega phase eig t dT : ℝ} (hc : dT * eig ≠ 0) (hT : T0 ≠ T1) :
    EDc_cc_s T0 P0 omega phase eig t dT = ∫ τ in T0..t, ((P0-P0)/(T1-T0) * cos (omega*τ+phase) - (P0 + (P0-P0)/(T1-T0)*(τ - T0)) * (omega * sin (omega*τ+phase))) * exp (-(dT*eig)*(t - τ)) := by
  have hq : (dT*eig)^2+omega^2 ≠ 0 := by positivity
  have hq' : dT^2*eig^2+omega^2 ≠ 0 := by rw [← mul_pow]; exact hq
  rw [int_dharm hc, int_harm hc, int_harm hc]
  unfold EDc_cc_s
  have hden := harm_den (o := omega) hc
  rw [mul_pow] at hden
  simp only [hden]
  harm_norm hc hT
  generalize sin (omega*T0+phase) = s0
  generalize cos (omega*T0+phase) = c0
  generalize sin (omega*t+phase) = st
  generalize cos (omega*t+phase) = ct
  generalize sin (omega*T1+phase) = s1
  generalize cos (omega*T1+phase) = c1
  generalize exp (-(dT*eig*(t-T0))) = e0
  generalize exp (-(dT*eig*(t-T1))) = e1
  field_simp
  ring

set_option maxRecDepth 20000 in
set_option maxHeartbeats 2000000 in
theorem EDc_cl {T0 T1 P0 P1 omega phase eig t dT : ℝ} (hc : dT * eig ≠ 0) (hT : T0 ≠ T1) :
    EDc_cl_s T0 T1 P0 omega phase eig t dT = ∫ τ in T0..T1, ((P0-P0)/(T1-T0) * cos (omega*τ+phase) - (P0 + (P0-P0)/(T1-T0)*(τ - T0)) * (omega * sin (omega*τ+phase))) * exp (-(dT*eig)*(t - τ)) := by
  have hq : (dT*eig)^2+omega^2 ≠ 0 := by positivity
  have hq' : dT^2*eig^2+omega^2 ≠ 0 := by rw [← mul_pow]; exact hq
  rw [int_dharm hc, int_harm hc, int_harm hc]
  unfold EDc_cl_s
  have hden := harm_den (o := omega) hc
  rw [mul_pow] at hden
  simp only [hden]
  harm_norm hc hT
  generalize sin (omega*T0+phase) = s0
  generalize cos (omega*T0+phase) = c0
  generalize sin (omega*t+phase) = st
  generalize cos (omega*t+phase) = ct
  generalize sin (omega*T1+phase) = s1
  generalize cos (omega*T1+phase) = c1
  generalize exp (-(dT*eig*(t-T0))) = e0
  generalize exp (-(dT*eig*(t-T1))) = e1
  field_simp
  ring

theorem EDc_sv : EDc_cc_v = EDc_cc_s ∧ EDc_cl_v = EDc_cl_s ∧ EDc_rc_v = EDc_rc_s ∧ EDc_rl_v = EDc_rl_s ∧ EDc_sl_v = EDc_sl_s :=
  ⟨rfl, rfl, rfl, rfl, rfl⟩

end Geotecha.Speccon
