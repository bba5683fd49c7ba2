import Verif.Speccon.ModelLoad
import Verif.Speccon.LayerForms

set_option linter.unusedVariables false
open Real intervalIntegral MeasureTheory
namespace Geotecha.Speccon

theorem int_lin_exp {c : ℝ} (hc : c ≠ 0) (P S T0 t p q : ℝ) :
    (∫ τ in p..q, (P + S*(τ - T0)) * exp (-c*(t - τ))) =
      exp (-c*(t-q)) * ((P + S*(q - T0))/c - S/c^2) - exp (-c*(t-p)) * ((P + S*(p - T0))/c - S/c^2) := by
  have := integral_eq_sub_of_hasDerivAt (a := p) (b := q) (f := fun τ => exp (-c*(t-τ)) * ((P + S*(τ - T0))/c - S/c^2))
    (f' := fun τ => (P + S*(τ - T0)) * exp (-c*(t - τ))) (fun x _ => by
      have h1 : HasDerivAt (fun τ : ℝ => -c*(t-τ)) c x := by
        have := ((hasDerivAt_id x).const_sub t).const_mul (-c)
        exact hd_congr this (fun _ => rfl) (by simp)
      have h2 : HasDerivAt (fun τ : ℝ => (P + S*(τ - T0))/c - S/c^2) (S/c) x := by
        have := ((((hasDerivAt_id x).sub_const T0).const_mul S).const_add P).div_const c |>.sub_const (S/c^2)
        exact hd_congr this (fun _ => rfl) (by simp)
      refine hd_congr (h1.exp.mul h2) (fun _ => rfl) ?_
      field_simp
      ring) (Continuous.intervalIntegrable (by fun_prop) _ _)
  rw [this]

theorem El_forms {T0 T1 P0 P1 eig t dT : ℝ} (hc : dT * eig ≠ 0) (hT : T0 ≠ T1) :
    El_rc_s T0 T1 P0 P1 eig t dT = (∫ τ in T0..t, (P0 + (P1-P0)/(T1-T0)*(τ - T0)) * exp (-(dT*eig)*(t - τ))) ∧
    El_rl_s T0 T1 P0 P1 eig t dT = (∫ τ in T0..T1, (P0 + (P1-P0)/(T1-T0)*(τ - T0)) * exp (-(dT*eig)*(t - τ))) ∧
    El_cc_s T0 P0 eig t dT = (∫ τ in T0..t, (P0 + (P0-P0)/(T1-T0)*(τ - T0)) * exp (-(dT*eig)*(t - τ))) ∧
    El_cl_s T0 T1 P0 eig t dT = (∫ τ in T0..T1, (P0 + (P0-P0)/(T1-T0)*(τ - T0)) * exp (-(dT*eig)*(t - τ))) := by
  have hd : dT ≠ 0 := left_ne_zero_of_mul hc
  have he : eig ≠ 0 := right_ne_zero_of_mul hc
  have h1 : T1 - T0 ≠ 0 := sub_ne_zero.2 hT.symm
  have h2 : -dT*eig*T1 + dT*eig*T0 = -(dT*eig*(T1-T0)) := by ring
  have h3 : (-(dT*eig*(T1-T0)))⁻¹ = -(dT⁻¹*eig⁻¹*(T1-T0)⁻¹) := by field_simp
  refine ⟨?_, ?_, ?_, ?_⟩ <;> rw [int_lin_exp hc]
  · unfold El_rc_s
    have e1 : -(dT * eig) * (t - t) = 0 := by ring
    have e2 : -dT * eig * (t - T0) = -(dT*eig)*(t-T0) := by ring
    rw [h2, h3, e1, e2, exp_zero]
    field_simp
    ring
  · unfold El_rl_s
    have e2 : -dT * eig * (t - T0) = -(dT*eig)*(t-T0) := by ring
    have e3 : -dT * eig * (t - T1) = -(dT*eig)*(t-T1) := by ring
    rw [h2, h3, e2, e3]
    field_simp
    ring
  · unfold El_cc_s
    have e1 : -(dT * eig) * (t - t) = 0 := by ring
    have e2 : -dT * eig * (t - T0) = -(dT*eig)*(t-T0) := by ring
    rw [e1, e2, exp_zero]
    field_simp
    ring
  · unfold El_cl_s
    have e2 : -dT * eig * (t - T0) = -(dT*eig)*(t-T0) := by ring
    have e3 : -dT * eig * (t - T1) = -(dT*eig)*(t-T1) := by ring
    rw [e2, e3]
    field_simp
    ring

theorem El_sv : El_cc_v = El_cc_s ∧ El_cl_v = El_cl_s ∧ El_rc_v = El_rc_s ∧ El_rl_v = El_rl_s := ⟨rfl, rfl, rfl, rfl⟩

theorem EDl_forms {T0 T1 P0 P1 eig t dT : ℝ} (hc : dT * eig ≠ 0) (hT : T0 ≠ T1) :
    EDl_rc_s T0 T1 P0 P1 eig t dT = (∫ τ in T0..t, (P1-P0)/(T1-T0) * exp (-(dT*eig)*(t - τ))) ∧
    EDl_rl_s T0 T1 P0 P1 eig t dT = (∫ τ in T0..T1, (P1-P0)/(T1-T0) * exp (-(dT*eig)*(t - τ))) := by
  have hd : dT ≠ 0 := left_ne_zero_of_mul hc
  have he : eig ≠ 0 := right_ne_zero_of_mul hc
  have h1 : T1 - T0 ≠ 0 := sub_ne_zero.2 hT.symm
  have key : ∀ p q, (∫ τ in p..q, (P1-P0)/(T1-T0) * exp (-(dT*eig)*(t - τ))) =
     ∫ τ in p..q, ((P1-P0)/(T1-T0) + 0*(τ - T0)) * exp (-(dT*eig)*(t - τ)) := fun p q => int_congr' (fun z => by ring)
  refine ⟨?_, ?_⟩ <;> rw [key, int_lin_exp hc]
  · unfold EDl_rc_s
    have e1 : -(dT * eig) * (t - t) = 0 := by ring
    have e2 : -dT * eig * (t - T0) = -(dT*eig)*(t-T0) := by ring
    rw [e1, e2, exp_zero]
    field_simp
    ring
  · unfold EDl_rl_s
    have e2 : -dT * eig * (t - T0) = -(dT*eig)*(t-T0) := by ring
    have e3 : -dT * eig * (t - T1) = -(dT*eig)*(t-T1) := by ring
    rw [e2, e3]
    field_simp
    ring

theorem EDl_sv : EDl_sl_v = EDl_sl_s ∧ EDl_rc_v = EDl_rc_s ∧ EDl_rl_v = EDl_rl_s := ⟨rfl, rfl, rfl⟩
end Geotecha.Speccon
