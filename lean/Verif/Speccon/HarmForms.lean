import Verif.Speccon.LoadForms
import Verif.Speccon.FormulasEc
import Verif.Speccon.FormulasEs
import Verif.Speccon.FormulasEDc

set_option linter.unusedVariables false
open Real intervalIntegral MeasureTheory
namespace Geotecha.Speccon

theorem hd_exp (c t x : ℝ) : HasDerivAt (fun τ : ℝ => exp (-c*(t-τ))) (c * exp (-c*(t-x))) x := by
  have h1 : HasDerivAt (fun τ : ℝ => -c*(t-τ)) c x :=
    hd_congr (((hasDerivAt_id x).const_sub t).const_mul (-c)) (fun _ => rfl) (by simp)
  exact hd_congr h1.exp (fun _ => rfl) (by ring)

theorem hd_cosθ (o f x : ℝ) : HasDerivAt (fun τ : ℝ => cos (o*τ+f)) (-(o * sin (o*x+f))) x := by
  have h1 : HasDerivAt (fun τ : ℝ => o*τ+f) o x := hd_congr (((hasDerivAt_id x).const_mul o).add_const f) (fun _ => rfl) (by simp)
  exact hd_congr h1.cos (fun _ => rfl) (by ring)

theorem hd_sinθ (o f x : ℝ) : HasDerivAt (fun τ : ℝ => sin (o*τ+f)) (o * cos (o*x+f)) x := by
  have h1 : HasDerivAt (fun τ : ℝ => o*τ+f) o x := hd_congr (((hasDerivAt_id x).const_mul o).add_const f) (fun _ => rfl) (by simp)
  exact hd_congr h1.sin (fun _ => rfl) (by ring)

/-- linear times (A cos + B sin) times decay -/
theorem int_harm {c o : ℝ} (hc : c ≠ 0) (A B P S T0 f t p q : ℝ) :
    (∫ τ in p..q, (P + S*(τ - T0)) * (A * cos (o*τ+f) + B * sin (o*τ+f)) * exp (-c*(t - τ))) =
      exp (-c*(t-q)) * ((P + S*(q - T0)) * (A * (c*cos (o*q+f) + o*sin (o*q+f)) + B * (c*sin (o*q+f) - o*cos (o*q+f))) / (c^2+o^2)
        - S * (A * ((c^2-o^2)*cos (o*q+f) + 2*c*o*sin (o*q+f)) + B * ((c^2-o^2)*sin (o*q+f) - 2*c*o*cos (o*q+f))) / (c^2+o^2)^2)
      - exp (-c*(t-p)) * ((P + S*(p - T0)) * (A * (c*cos (o*p+f) + o*sin (o*p+f)) + B * (c*sin (o*p+f) - o*cos (o*p+f))) / (c^2+o^2)
        - S * (A * ((c^2-o^2)*cos (o*p+f) + 2*c*o*sin (o*p+f)) + B * ((c^2-o^2)*sin (o*p+f) - 2*c*o*cos (o*p+f))) / (c^2+o^2)^2) := by
  have hq : c^2+o^2 ≠ 0 := by positivity
  have := integral_eq_sub_of_hasDerivAt (a := p) (b := q)
    (f := fun τ => exp (-c*(t-τ)) * ((P + S*(τ - T0)) * (A * (c*cos (o*τ+f) + o*sin (o*τ+f)) + B * (c*sin (o*τ+f) - o*cos (o*τ+f))) / (c^2+o^2)
        - S * (A * ((c^2-o^2)*cos (o*τ+f) + 2*c*o*sin (o*τ+f)) + B * ((c^2-o^2)*sin (o*τ+f) - 2*c*o*cos (o*τ+f))) / (c^2+o^2)^2))
    (f' := fun τ => (P + S*(τ - T0)) * (A * cos (o*τ+f) + B * sin (o*τ+f)) * exp (-c*(t - τ))) (fun x _ => by
      have hl : HasDerivAt (fun τ : ℝ => P + S*(τ - T0)) S x :=
        hd_congr ((((hasDerivAt_id x).sub_const T0).const_mul S).const_add P) (fun _ => rfl) (by simp)
      have hC := hd_cosθ o f x
      have hS := hd_sinθ o f x
      have hK := (((hC.const_mul c).add (hS.const_mul o)).const_mul A).add (((hS.const_mul c).sub (hC.const_mul o)).const_mul B)
      have hK2 := (((hC.const_mul (c^2-o^2)).add (hS.const_mul (2*c*o))).const_mul A).add
        (((hS.const_mul (c^2-o^2)).sub (hC.const_mul (2*c*o))).const_mul B)
      refine hd_congr ((hd_exp c t x).mul (((hl.mul hK).div_const (c^2+o^2)).sub ((hK2.const_mul S).div_const ((c^2+o^2)^2)))) (fun _ => rfl) ?_
      simp only [Pi.add_apply, Pi.sub_apply, Pi.mul_apply]
      field_simp
      ring) (Continuous.intervalIntegrable (by fun_prop) _ _)
  rw [this]

theorem th_eq (o t T f : ℝ) : o*t - o*(t - T) + f = o*T + f := by ring

theorem Dinv {T0 T1 o eig dT : ℝ} (hc : dT * eig ≠ 0) (hT : T0 ≠ T1) :
    (-dT*eig*T1 + dT*eig*T0 - (2:ℝ)*o^(2:ℕ)*T1/(dT*eig) + (2:ℝ)*o^(2:ℕ)*T0/(dT*eig) -
    o^(4:ℕ)*T1/(dT^(3:ℕ)*eig^(3:ℕ)) + o^(4:ℕ)*T0/(dT^(3:ℕ)*eig^(3:ℕ)) : ℝ)⁻¹ = -((dT*eig)^3 / ((T1-T0) * ((dT*eig)^2+o^2)^2)) := by
  have hd : dT ≠ 0 := left_ne_zero_of_mul hc
  have he : eig ≠ 0 := right_ne_zero_of_mul hc
  have h1 : T1 - T0 ≠ 0 := sub_ne_zero.2 hT.symm
  have hq : (dT*eig)^2+o^2 ≠ 0 := by positivity
  have : (-dT*eig*T1 + dT*eig*T0 - (2:ℝ)*o^(2:ℕ)*T1/(dT*eig) + (2:ℝ)*o^(2:ℕ)*T0/(dT*eig) -
    o^(4:ℕ)*T1/(dT^(3:ℕ)*eig^(3:ℕ)) + o^(4:ℕ)*T0/(dT^(3:ℕ)*eig^(3:ℕ)) : ℝ) = -(((T1-T0) * ((dT*eig)^2+o^2)^2) / (dT*eig)^3) := by
    field_simp
    ring
  rw [this, inv_neg, inv_div]

end Geotecha.Speccon
