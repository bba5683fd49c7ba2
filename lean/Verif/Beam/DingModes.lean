import Verif.Beam.Ding
import Mathlib.Analysis.SpecialFunctions.Trigonometric.DerivHyp
import Mathlib.Analysis.SpecialFunctions.Integrals.Basic

/-!
# Claim C169: the clamped and the free shapes
-/
set_option autoImplicit false
set_option linter.unusedVariables false

namespace Geotecha.Beam

open Real

namespace Spec

/-- `f` is a vibration shape of a uniform beam of unit length: its successive derivatives are `f1`, `f2`,
`f3` and its fourth derivative is `b⁴ f`. -/
structure BeamShape (b : ℝ) (f f1 f2 f3 : ℝ → ℝ) : Prop where
  d0 : ∀ x, HasDerivAt f (f1 x) x
  d1 : ∀ x, HasDerivAt f1 (f2 x) x
  d2 : ∀ x, HasDerivAt f2 (f3 x) x
  d3 : ∀ x, HasDerivAt f3 (b ^ 4 * f x) x

/-- Clamped at both ends: no deflection and no slope. -/
def Clamped (f f1 : ℝ → ℝ) : Prop := f 0 = 0 ∧ f1 0 = 0 ∧ f 1 = 0 ∧ f1 1 = 0

/-- Free at both ends: no moment and no shear. -/
def Free (f2 f3 : ℝ → ℝ) : Prop := f2 0 = 0 ∧ f3 0 = 0 ∧ f2 1 = 0 ∧ f3 1 = 0

end Spec

theorem sinh_sub_sin_pos {b : ℝ} (hb : 0 < b) : 0 < sinh b - sin b := by
  have h1 := self_lt_sinh_iff.2 hb
  have h2 := sin_lt hb
  linarith

/-- The four functions the derivatives run through. -/
noncomputable def psi1 (x b : ℝ) : ℝ :=
  sinh (b * x) + sin (b * x) + ((cosh b - cos b) / (sinh b - sin b)) * (cos (b * x) - cosh (b * x))
noncomputable def psi3 (x b : ℝ) : ℝ :=
  sinh (b * x) - sin (b * x) - ((cosh b - cos b) / (sinh b - sin b)) * (cos (b * x) + cosh (b * x))

theorem phiFF_eq (x b : ℝ) : phiFF x b = cosh (b * x) + cos (b * x)
    - ((cosh b - cos b) / (sinh b - sin b)) * (sin (b * x) + sinh (b * x)) := by
  unfold phiFF
  rw [show sin b - sinh b = -(sinh b - sin b) by ring, div_neg]
  have : (-(-(cos b - cosh b) / (sinh b - sin b))) = -((cosh b - cos b) / (sinh b - sin b)) := by congr 2; ring
  rw [this]; ring

theorem derivs (b x : ℝ) :
    HasDerivAt (fun x => phiCC x b) (b * psi1 x b) x ∧ HasDerivAt (fun x => psi1 x b) (b * phiFF x b) x ∧
    HasDerivAt (fun x => phiFF x b) (b * psi3 x b) x ∧ HasDerivAt (fun x => psi3 x b) (b * phiCC x b) x := by
  have d : HasDerivAt (fun x => b * x) b x := by simpa using (hasDerivAt_id x).const_mul b
  simp_rw [phiFF_eq]
  unfold phiCC psi1 psi3
  refine ⟨?_, ?_, ?_, ?_⟩
  · exact ((d.cosh.fun_sub d.cos).fun_add ((d.sin.fun_sub d.sinh).const_mul _)).congr_deriv (by ring)
  · exact ((d.sinh.fun_add d.sin).fun_add ((d.cos.fun_sub d.cosh).const_mul _)).congr_deriv (by ring)
  · exact ((d.cosh.fun_add d.cos).fun_sub ((d.sin.fun_add d.sinh).const_mul _)).congr_deriv (by ring)
  · exact ((d.sinh.fun_sub d.sin).fun_sub ((d.cos.fun_add d.cosh).const_mul _)).congr_deriv (by ring)

theorem shapeCC (b : ℝ) : Spec.BeamShape b (fun x => phiCC x b) (fun x => b * psi1 x b)
    (fun x => b ^ 2 * phiFF x b) (fun x => b ^ 3 * psi3 x b) where
  d0 x := (derivs b x).1
  d1 x := ((derivs b x).2.1.const_mul b).congr_deriv (by ring)
  d2 x := ((derivs b x).2.2.1.const_mul (b ^ 2)).congr_deriv (by ring)
  d3 x := ((derivs b x).2.2.2.const_mul (b ^ 3)).congr_deriv (by ring)

theorem shapeFF (b : ℝ) : Spec.BeamShape b (fun x => phiFF x b) (fun x => b * psi3 x b)
    (fun x => b ^ 2 * phiCC x b) (fun x => b ^ 3 * psi1 x b) where
  d0 x := (derivs b x).2.2.1
  d1 x := ((derivs b x).2.2.2.const_mul b).congr_deriv (by ring)
  d2 x := ((derivs b x).1.const_mul (b ^ 2)).congr_deriv (by ring)
  d3 x := ((derivs b x).2.1.const_mul (b ^ 3)).congr_deriv (by ring)

theorem ends_CC {b : ℝ} (hb : 0 < b) (h : 1 - cos b * cosh b = 0) :
    phiCC 0 b = 0 ∧ psi1 0 b = 0 ∧ phiCC 1 b = 0 ∧ psi1 1 b = 0 := by
  have hs := (sinh_sub_sin_pos hb).ne'
  refine ⟨by simp [phiCC], by simp [psi1], ?_, ?_⟩
  · simp only [phiCC, mul_one]; field_simp; ring
  · simp only [psi1, mul_one]
    have h1 := cosh_sq b
    have h2 := sin_sq_add_cos_sq b
    field_simp
    linear_combination -h1 - h2 - 2 * h

/-- End value of the free shape: it is `±2`. -/
theorem phiFF_end {b : ℝ} (hb : 0 < b) (h : 1 - cos b * cosh b = 0) : phiFF 1 b ^ 2 = 4 := by
  have hs := (sinh_sub_sin_pos hb).ne'
  have h1 := cosh_sq b
  have h2 := sin_sq_add_cos_sq b
  have e : phiFF 1 b = 2 * (cos b * sinh b - cosh b * sin b) / (sinh b - sin b) := by
    rw [phiFF_eq, mul_one]; field_simp; ring
  rw [e, div_pow, div_eq_iff (by positivity)]
  have hc : cos b * cosh b = 1 := by linarith
  have e2 : (cos b * sinh b - cosh b * sin b) ^ 2 = (sinh b - sin b) ^ 2 := by
    have hs2 : sinh b ^ 2 = cosh b ^ 2 - 1 := by linarith
    have hn2 : sin b ^ 2 = 1 - cos b ^ 2 := by linarith
    have : (cos b * sinh b - cosh b * sin b) ^ 2 =
        cos b ^ 2 * sinh b ^ 2 - 2 * (cos b * cosh b) * sinh b * sin b + cosh b ^ 2 * sin b ^ 2 := by ring
    rw [this, hc, hs2, hn2]
    have : (sinh b - sin b) ^ 2 = sinh b ^ 2 - 2 * sinh b * sin b + sin b ^ 2 := by ring
    rw [this, hs2, hn2]; ring
  rw [mul_pow, e2]; ring

/-- Square of a shape with the boundary bracket. -/
theorem int_sq {b : ℝ} {f f1 f2 f3 : ℝ → ℝ} (h : Spec.BeamShape b f f1 f2 f3) :
    4 * b ^ 4 * ∫ x in (0:ℝ)..1, f x ^ 2 =
      (3 * f 1 * f3 1 + b ^ 4 * f 1 ^ 2 - 2 * f1 1 * f3 1 - f1 1 * f2 1 + f2 1 ^ 2) - (3 * f 0 * f3 0 - f1 0 * f2 0) := by
  have hc : Continuous f := continuous_iff_continuousAt.2 fun x => (h.d0 x).continuousAt
  have D : ∀ x ∈ Set.uIcc (0:ℝ) 1, HasDerivAt (fun x => 3 * (f x * f3 x) + b ^ 4 * (x * f x ^ 2) - 2 * (x * (f1 x * f3 x)) - f1 x * f2 x + x * f2 x ^ 2)
      (4 * b ^ 4 * f x ^ 2) x := fun x _ => by
    have i := hasDerivAt_id x
    have := ((((((h.d0 x).fun_mul (h.d3 x)).const_mul 3).fun_add ((i.fun_mul ((h.d0 x).fun_pow 2)).const_mul (b ^ 4))).fun_sub
      ((i.fun_mul ((h.d1 x).fun_mul (h.d3 x))).const_mul 2)).fun_sub ((h.d1 x).fun_mul (h.d2 x))).fun_add (i.fun_mul ((h.d2 x).fun_pow 2))
    exact this.congr_deriv (by simp only [id]; push_cast; ring)
  rw [← intervalIntegral.integral_const_mul, intervalIntegral.integral_eq_sub_of_hasDerivAt D
    (Continuous.intervalIntegrable (by fun_prop) _ _)]
  ring

/-- Green's identity for two shapes. -/
theorem green {b c : ℝ} {f f1 f2 f3 g g1 g2 g3 : ℝ → ℝ} (hf : Spec.BeamShape b f f1 f2 f3)
    (hg : Spec.BeamShape c g g1 g2 g3) :
    (b ^ 4 - c ^ 4) * ∫ x in (0:ℝ)..1, f x * g x =
      (f3 1 * g 1 - f2 1 * g1 1 + f1 1 * g2 1 - f 1 * g3 1) - (f3 0 * g 0 - f2 0 * g1 0 + f1 0 * g2 0 - f 0 * g3 0) := by
  have c1 : Continuous f := continuous_iff_continuousAt.2 fun x => (hf.d0 x).continuousAt
  have c2 : Continuous g := continuous_iff_continuousAt.2 fun x => (hg.d0 x).continuousAt
  have D : ∀ x ∈ Set.uIcc (0:ℝ) 1, HasDerivAt (fun x => f3 x * g x - f2 x * g1 x + f1 x * g2 x - f x * g3 x)
      ((b ^ 4 - c ^ 4) * (f x * g x)) x := fun x _ => by
    have := ((((hf.d3 x).fun_mul (hg.d0 x)).fun_sub ((hf.d2 x).fun_mul (hg.d1 x))).fun_add ((hf.d1 x).fun_mul (hg.d2 x))).fun_sub
      ((hf.d0 x).fun_mul (hg.d3 x))
    exact this.congr_deriv (by ring)
  rw [← intervalIntegral.integral_const_mul, intervalIntegral.integral_eq_sub_of_hasDerivAt D
    (Continuous.intervalIntegrable (by fun_prop) _ _)]

/-- **C169.** At a positive root of `1 - cos β cosh β` the clamped shape `phiCC` is a vibration shape of
the beam clamped at both ends, the free shape `phiFF` is one of the free beam, and both have mean square
1, so that the load and cubic coefficient 1 (2 for the sine shapes, with mean square 1/2) is the right
one. -/
theorem C169_ding_shapes {b : ℝ} (hb : 0 < b) (h : 1 - cos b * cosh b = 0) :
    (∃ f1 f2 f3, Spec.BeamShape b (fun x => phiCC x b) f1 f2 f3 ∧ Spec.Clamped (fun x => phiCC x b) f1) ∧
    (∃ f1 f2 f3, Spec.BeamShape b (fun x => phiFF x b) f1 f2 f3 ∧ Spec.Free f2 f3) ∧
    bcCoeff .cc * (∫ x in (0:ℝ)..1, phi .cc x b ^ 2) = 1 ∧ bcCoeff .ff * (∫ x in (0:ℝ)..1, phi .ff x b ^ 2) = 1 := by
  obtain ⟨e0, e1, e2, e3⟩ := ends_CC hb h
  refine ⟨⟨_, _, _, shapeCC b, e0, by simp [e1], e2, by simp [e3]⟩, ⟨_, _, _, shapeFF b, by simp [e0], by simp [e1], by simp [e2], by simp [e3]⟩, ?_, ?_⟩
  · have := int_sq (shapeCC b)
    simp only [e0, e1, e2, e3] at this
    have e := phiFF_end hb h
    have hb4 : 4 * b ^ 4 ≠ 0 := by positivity
    simp only [bcCoeff, phi, one_mul]
    refine mul_left_cancel₀ hb4 ?_
    rw [this]
    linear_combination b ^ 4 * e
  · have := int_sq (shapeFF b)
    simp only [e0, e1, e2, e3] at this
    have e := phiFF_end hb h
    have hb4 : 4 * b ^ 4 ≠ 0 := by positivity
    simp only [bcCoeff, phi, one_mul]
    refine mul_left_cancel₀ hb4 ?_
    rw [this]
    linear_combination b ^ 4 * e

/-- **C169.** Shapes of different roots are orthogonal. -/
theorem C169_ding_shapes_orthogonal {b c : ℝ} (hb : 0 < b) (hc : 0 < c) (hbc : b ≠ c)
    (h : 1 - cos b * cosh b = 0) (h' : 1 - cos c * cosh c = 0) :
    (∫ x in (0:ℝ)..1, phiCC x b * phiCC x c) = 0 ∧ (∫ x in (0:ℝ)..1, phiFF x b * phiFF x c) = 0 := by
  obtain ⟨e0, e1, e2, e3⟩ := ends_CC hb h
  obtain ⟨g0, g1, g2, g3⟩ := ends_CC hc h'
  have hne : b ^ 4 - c ^ 4 ≠ 0 := fun h0 => hbc ((pow_left_inj₀ hb.le hc.le (by norm_num)).1 (sub_eq_zero.1 h0))
  constructor
  · have := green (shapeCC b) (shapeCC c)
    simp only [e0, e1, e2, e3, g0, g1, g2, g3] at this
    simpa [hne] using this
  · have := green (shapeFF b) (shapeFF c)
    simp only [e0, e1, e2, e3, g0, g1, g2, g3] at this
    simpa [hne] using this

/-- C169 is not vacuous: there is such a root in every interval `(2kπ - π/2, 2kπ)`, `k ≥ 1`, so there
are infinitely many. -/
example (k : ℕ) (hk : 1 ≤ k) : ∃ b, 2 * k * π - π / 2 < b ∧ b < 2 * k * π ∧ 1 - cos b * cosh b = 0 := by
  have hp := pi_pos
  have hk1 : (1:ℝ) ≤ k := by exact_mod_cast hk
  have c1 : cos (2 * k * π - π / 2) = 0 := by
    rw [show 2 * (k:ℝ) * π - π / 2 = -(π / 2) + k * (2 * π) by ring, cos_add_nat_mul_two_pi, cos_neg, cos_pi_div_two]
  have c2 : cos (2 * k * π) = 1 := by
    rw [show 2 * (k:ℝ) * π = k * (2 * π) by ring, cos_nat_mul_two_pi]
  have := intermediate_value_Ioo' (f := fun b : ℝ => 1 - cos b * cosh b) (a := 2 * k * π - π / 2) (b := 2 * k * π)
    (by linarith) (by fun_prop)
  have hz : (0:ℝ) ∈ Set.Ioo (1 - cos (2 * k * π) * cosh (2 * k * π)) (1 - cos (2 * k * π - π / 2) * cosh (2 * k * π - π / 2)) := by
    rw [c1, c2]
    have : 1 < cosh (2 * k * π) := one_lt_cosh.2 (by positivity)
    constructor <;> linarith
  obtain ⟨b, hb, h0⟩ := this hz
  exact ⟨b, hb.1, hb.2, h0⟩

end Geotecha.Beam
