import Mathlib.Analysis.SpecialFunctions.Integrals.Basic
import Mathlib.MeasureTheory.Integral.IntervalIntegral.FundThmCalculus
import Mathlib.Tactic.LinearCombination

/-! # Integrals of a cubic times sines and cosines (helper lemmas) -/

open Real intervalIntegral
namespace Geotecha.Speccon

/-- Repeated integration by parts for a cubic in `z - c` times a function with known antiderivatives. -/
theorem int_cubic_mul {K K1 K2 K3 K4 : ℝ → ℝ} (h1 : ∀ z, HasDerivAt K1 (K z) z)
    (h2 : ∀ z, HasDerivAt K2 (K1 z) z) (h3 : ∀ z, HasDerivAt K3 (K2 z) z) (h4 : ∀ z, HasDerivAt K4 (K3 z) z)
    (hK : Continuous K) (p0 p1 p2 p3 c a b : ℝ) :
    ∫ z in a..b, (p0 + p1*(z-c) + p2*(z-c)^2 + p3*(z-c)^3) * K z =
      ((p0 + p1*(b-c) + p2*(b-c)^2 + p3*(b-c)^3) * K1 b - (p1 + 2*p2*(b-c) + 3*p3*(b-c)^2) * K2 b
        + (2*p2 + 6*p3*(b-c)) * K3 b - 6*p3 * K4 b)
      - ((p0 + p1*(a-c) + p2*(a-c)^2 + p3*(a-c)^3) * K1 a - (p1 + 2*p2*(a-c) + 3*p3*(a-c)^2) * K2 a
        + (2*p2 + 6*p3*(a-c)) * K3 a - 6*p3 * K4 a) := by
  have hz : ∀ z : ℝ, HasDerivAt (fun z => z - c) 1 z := fun z => (hasDerivAt_id z).sub_const c
  have hp : ∀ z : ℝ, HasDerivAt (fun z => p0 + p1*(z-c) + p2*(z-c)^2 + p3*(z-c)^3)
      (p1 + 2*p2*(z-c) + 3*p3*(z-c)^2) z := by
    intro z
    have := (((hz z).const_mul p1).const_add p0).add (((hz z).pow 2).const_mul p2) |>.add (((hz z).pow 3).const_mul p3)
    refine HasDerivAt.congr_deriv (this.congr_of_eventuallyEq (Filter.Eventually.of_forall fun w => ?_)) ?_
    · simp
    · norm_num; ring
  have hp' : ∀ z : ℝ, HasDerivAt (fun z => p1 + 2*p2*(z-c) + 3*p3*(z-c)^2) (2*p2 + 6*p3*(z-c)) z := by
    intro z
    have := (((hz z).const_mul (2*p2)).const_add p1).add (((hz z).pow 2).const_mul (3*p3))
    refine HasDerivAt.congr_deriv (this.congr_of_eventuallyEq (Filter.Eventually.of_forall fun w => ?_)) ?_
    · simp
    · norm_num; ring
  have hp'' : ∀ z : ℝ, HasDerivAt (fun z => 2*p2 + 6*p3*(z-c)) (6*p3) z := by
    intro z
    have := ((hz z).const_mul (6*p3)).const_add (2*p2)
    refine HasDerivAt.congr_deriv (this.congr_of_eventuallyEq (Filter.Eventually.of_forall fun w => ?_)) ?_
    · simp
    · ring
  have hG : ∀ z, HasDerivAt (fun z => (p0 + p1*(z-c) + p2*(z-c)^2 + p3*(z-c)^3) * K1 z
        - (p1 + 2*p2*(z-c) + 3*p3*(z-c)^2) * K2 z + (2*p2 + 6*p3*(z-c)) * K3 z - 6*p3 * K4 z)
      ((p0 + p1*(z-c) + p2*(z-c)^2 + p3*(z-c)^3) * K z) z := by
    intro z
    have := ((((hp z).mul (h1 z)).sub ((hp' z).mul (h2 z))).add ((hp'' z).mul (h3 z))).sub ((h4 z).const_mul (6*p3))
    refine HasDerivAt.congr_deriv (this.congr_of_eventuallyEq (Filter.Eventually.of_forall fun w => ?_)) ?_
    · simp
    · ring
  rw [integral_eq_sub_of_hasDerivAt (fun x _ => hG x)]
  exact Continuous.intervalIntegrable (by fun_prop) _ _

theorem hd_sin (m z : ℝ) : HasDerivAt (fun z => sin (m*z)) (m * cos (m*z)) z := by
  have h : HasDerivAt (fun z => m*z) m z := by simpa using (hasDerivAt_id z).const_mul m
  have := h.sin
  refine this.congr_deriv ?_
  ring

theorem hd_cos (m z : ℝ) : HasDerivAt (fun z => cos (m*z)) (-(m * sin (m*z))) z := by
  have h : HasDerivAt (fun z => m*z) m z := by simpa using (hasDerivAt_id z).const_mul m
  have := h.cos
  refine this.congr_deriv ?_
  ring

theorem hd_congr {f g : ℝ → ℝ} {f' g' z : ℝ} (h : HasDerivAt f f' z) (hf : ∀ w, g w = f w) (hg : f' = g') :
    HasDerivAt g g' z :=
  (h.congr_of_eventuallyEq (Filter.Eventually.of_forall hf)).congr_deriv hg

/-- cubic times `sin (m z)` -/
theorem int_sin {m : ℝ} (hm : m ≠ 0) (p0 p1 p2 p3 c a b : ℝ) :
    ∫ z in a..b, (p0 + p1*(z-c) + p2*(z-c)^2 + p3*(z-c)^3) * sin (m*z) =
      ((p0 + p1*(b-c) + p2*(b-c)^2 + p3*(b-c)^3) * (-cos (m*b) * m⁻¹) - (p1 + 2*p2*(b-c) + 3*p3*(b-c)^2) * (-sin (m*b) * (m^2)⁻¹)
        + (2*p2 + 6*p3*(b-c)) * (cos (m*b) * (m^3)⁻¹) - 6*p3 * (sin (m*b) * (m^4)⁻¹))
      - ((p0 + p1*(a-c) + p2*(a-c)^2 + p3*(a-c)^3) * (-cos (m*a) * m⁻¹) - (p1 + 2*p2*(a-c) + 3*p3*(a-c)^2) * (-sin (m*a) * (m^2)⁻¹)
        + (2*p2 + 6*p3*(a-c)) * (cos (m*a) * (m^3)⁻¹) - 6*p3 * (sin (m*a) * (m^4)⁻¹)) := by
  apply int_cubic_mul (K1 := fun z => -cos (m*z) * m⁻¹) (K2 := fun z => -sin (m*z) * (m^2)⁻¹)
    (K3 := fun z => cos (m*z) * (m^3)⁻¹) (K4 := fun z => sin (m*z) * (m^4)⁻¹)
  · intro z; exact hd_congr ((hd_cos m z).neg.mul_const m⁻¹) (fun _ => rfl) (by field_simp)
  · intro z; exact hd_congr ((hd_sin m z).neg.mul_const (m^2)⁻¹) (fun _ => rfl) (by field_simp)
  · intro z; exact hd_congr ((hd_cos m z).mul_const (m^3)⁻¹) (fun _ => rfl) (by field_simp)
  · intro z; exact hd_congr ((hd_sin m z).mul_const (m^4)⁻¹) (fun _ => rfl) (by field_simp)
  · fun_prop

/-- linear times `cos (m z)` -/
theorem int_cos {m : ℝ} (hm : m ≠ 0) (p0 p1 c a b : ℝ) :
    ∫ z in a..b, (p0 + p1*(z-c)) * cos (m*z) =
      ((p0 + p1*(b-c)) * (sin (m*b) * m⁻¹) - p1 * (-cos (m*b) * (m^2)⁻¹))
      - ((p0 + p1*(a-c)) * (sin (m*a) * m⁻¹) - p1 * (-cos (m*a) * (m^2)⁻¹)) := by
  have := int_cubic_mul (K := fun z => cos (m*z)) (K1 := fun z => sin (m*z) * m⁻¹) (K2 := fun z => -cos (m*z) * (m^2)⁻¹)
    (K3 := fun z => -sin (m*z) * (m^3)⁻¹) (K4 := fun z => cos (m*z) * (m^4)⁻¹)
    (fun z => hd_congr ((hd_sin m z).mul_const m⁻¹) (fun _ => rfl) (by field_simp))
    (fun z => hd_congr ((hd_cos m z).neg.mul_const (m^2)⁻¹) (fun _ => rfl) (by field_simp))
    (fun z => hd_congr ((hd_sin m z).neg.mul_const (m^3)⁻¹) (fun _ => rfl) (by field_simp))
    (fun z => hd_congr ((hd_cos m z).mul_const (m^4)⁻¹) (fun _ => rfl) (by field_simp))
    (by fun_prop) p0 p1 0 0 c a b
  simpa using this

/-- quadratic times `sin (m z) ^ 2` -/
theorem int_sin_sq {m : ℝ} (hm : m ≠ 0) (p0 p1 p2 c a b : ℝ) :
    ∫ z in a..b, (p0 + p1*(z-c) + p2*(z-c)^2) * (sin (m*z) * sin (m*z)) =
      ((p0 + p1*(b-c) + p2*(b-c)^2) * (b/2 - sin (m*b) * cos (m*b) * m⁻¹/2) - (p1 + 2*p2*(b-c)) * (b^2/4 - sin (m*b)^2 * (m^2)⁻¹/4)
        + 2*p2 * (b^3/12 - b * (m^2)⁻¹/8 + sin (m*b) * cos (m*b) * (m^3)⁻¹/8))
      - ((p0 + p1*(a-c) + p2*(a-c)^2) * (a/2 - sin (m*a) * cos (m*a) * m⁻¹/2) - (p1 + 2*p2*(a-c)) * (a^2/4 - sin (m*a)^2 * (m^2)⁻¹/4)
        + 2*p2 * (a^3/12 - a * (m^2)⁻¹/8 + sin (m*a) * cos (m*a) * (m^3)⁻¹/8)) := by
  have hsc : ∀ z, cos (m*z)^2 = 1 - sin (m*z)^2 := fun z => cos_sq' _
  have hS : ∀ z, HasDerivAt (fun z => sin (m*z) * cos (m*z)) (m * (1 - 2 * sin (m*z)^2)) z := fun z =>
    hd_congr ((hd_sin m z).mul (hd_cos m z)) (fun _ => rfl) (by linear_combination m * hsc z)
  have hQ : ∀ z, HasDerivAt (fun z => sin (m*z)^2) (2 * m * (sin (m*z) * cos (m*z))) z := fun z =>
    hd_congr ((hd_sin m z).pow 2) (fun _ => rfl) (by norm_num; ring)
  have := int_cubic_mul (K := fun z => sin (m*z) * sin (m*z)) (K1 := fun z => z/2 - sin (m*z) * cos (m*z) * m⁻¹/2)
    (K2 := fun z => z^2/4 - sin (m*z)^2 * (m^2)⁻¹/4)
    (K3 := fun z => z^3/12 - z * (m^2)⁻¹/8 + sin (m*z) * cos (m*z) * (m^3)⁻¹/8)
    (K4 := fun z => z^4/48 - z^2 * (m^2)⁻¹/16 + sin (m*z)^2 * (m^4)⁻¹/16)
    (fun z => hd_congr (((hasDerivAt_id z).div_const 2).sub (((hS z).mul_const m⁻¹).div_const 2)) (fun _ => rfl) (by field_simp; ring))
    (fun z => hd_congr ((((hasDerivAt_id z).pow 2).div_const 4).sub (((hQ z).mul_const (m^2)⁻¹).div_const 4)) (fun _ => rfl) (by simp; field_simp; ring))
    (fun z => hd_congr (((((hasDerivAt_id z).pow 3).div_const 12).sub (((hasDerivAt_id z).mul_const (m^2)⁻¹).div_const 8)).add
      (((hS z).mul_const (m^3)⁻¹).div_const 8)) (fun _ => rfl) (by simp; field_simp; ring))
    (fun z => hd_congr (((((hasDerivAt_id z).pow 4).div_const 48).sub ((((hasDerivAt_id z).pow 2).mul_const (m^2)⁻¹).div_const 16)).add
      (((hQ z).mul_const (m^4)⁻¹).div_const 16)) (fun _ => rfl) (by simp; field_simp; ring))
    (by fun_prop) p0 p1 p2 0 c a b
  simpa using this

/-- linear times `cos (m z) ^ 2` -/
theorem int_cos_sq {m : ℝ} (hm : m ≠ 0) (p0 p1 c a b : ℝ) :
    ∫ z in a..b, (p0 + p1*(z-c)) * (cos (m*z) * cos (m*z)) =
      ((p0 + p1*(b-c)) * (b/2 + sin (m*b) * cos (m*b) * m⁻¹/2) - p1 * (b^2/4 + sin (m*b)^2 * (m^2)⁻¹/4))
      - ((p0 + p1*(a-c)) * (a/2 + sin (m*a) * cos (m*a) * m⁻¹/2) - p1 * (a^2/4 + sin (m*a)^2 * (m^2)⁻¹/4)) := by
  have hsc : ∀ z, cos (m*z)^2 = 1 - sin (m*z)^2 := fun z => cos_sq' _
  have hS : ∀ z, HasDerivAt (fun z => sin (m*z) * cos (m*z)) (m * (1 - 2 * sin (m*z)^2)) z := fun z =>
    hd_congr ((hd_sin m z).mul (hd_cos m z)) (fun _ => rfl) (by linear_combination m * hsc z)
  have hQ : ∀ z, HasDerivAt (fun z => sin (m*z)^2) (2 * m * (sin (m*z) * cos (m*z))) z := fun z =>
    hd_congr ((hd_sin m z).pow 2) (fun _ => rfl) (by norm_num; ring)
  have := int_cubic_mul (K := fun z => cos (m*z) * cos (m*z)) (K1 := fun z => z/2 + sin (m*z) * cos (m*z) * m⁻¹/2)
    (K2 := fun z => z^2/4 + sin (m*z)^2 * (m^2)⁻¹/4)
    (K3 := fun z => z^3/12 + z * (m^2)⁻¹/8 - sin (m*z) * cos (m*z) * (m^3)⁻¹/8)
    (K4 := fun z => z^4/48 + z^2 * (m^2)⁻¹/16 - sin (m*z)^2 * (m^4)⁻¹/16)
    (fun z => hd_congr (((hasDerivAt_id z).div_const 2).add (((hS z).mul_const m⁻¹).div_const 2)) (fun _ => rfl)
      (by rw [← sq, hsc]; field_simp; ring))
    (fun z => hd_congr ((((hasDerivAt_id z).pow 2).div_const 4).add (((hQ z).mul_const (m^2)⁻¹).div_const 4)) (fun _ => rfl) (by simp; field_simp; ring))
    (fun z => hd_congr (((((hasDerivAt_id z).pow 3).div_const 12).add (((hasDerivAt_id z).mul_const (m^2)⁻¹).div_const 8)).sub
      (((hS z).mul_const (m^3)⁻¹).div_const 8)) (fun _ => rfl) (by simp; field_simp; ring))
    (fun z => hd_congr (((((hasDerivAt_id z).pow 4).div_const 48).add ((((hasDerivAt_id z).pow 2).mul_const (m^2)⁻¹).div_const 16)).sub
      (((hQ z).mul_const (m^4)⁻¹).div_const 16)) (fun _ => rfl) (by simp; field_simp; ring))
    (by fun_prop) p0 p1 0 0 c a b
  simpa using this

theorem hd_sc (m n z : ℝ) : HasDerivAt (fun z => sin (m*z) * cos (n*z))
    (m * (cos (m*z) * cos (n*z)) - n * (sin (m*z) * sin (n*z))) z :=
  hd_congr ((hd_sin m z).mul (hd_cos n z)) (fun _ => rfl) (by ring)
theorem hd_cs (m n z : ℝ) : HasDerivAt (fun z => cos (m*z) * sin (n*z))
    (n * (cos (m*z) * cos (n*z)) - m * (sin (m*z) * sin (n*z))) z :=
  hd_congr ((hd_cos m z).mul (hd_sin n z)) (fun _ => rfl) (by ring)
theorem hd_cc (m n z : ℝ) : HasDerivAt (fun z => cos (m*z) * cos (n*z))
    (-m * (sin (m*z) * cos (n*z)) - n * (cos (m*z) * sin (n*z))) z :=
  hd_congr ((hd_cos m z).mul (hd_cos n z)) (fun _ => rfl) (by ring)
theorem hd_ss (m n z : ℝ) : HasDerivAt (fun z => sin (m*z) * sin (n*z))
    (m * (cos (m*z) * sin (n*z)) + n * (sin (m*z) * cos (n*z))) z :=
  hd_congr ((hd_sin m z).mul (hd_sin n z)) (fun _ => rfl) (by ring)

/-- quadratic times `sin (m z) sin (n z)`; `d1 = 1/(m²-n²)`, `d2 = d1²`, `d3 = d1³` -/
theorem int_sin_sin {m n d1 d2 d3 : ℝ} (e1 : d1 * (m^2 - n^2) = 1) (e2 : d2 * (m^2 - n^2) = d1) (e3 : d3 * (m^2 - n^2) = d2)
    (p0 p1 p2 c a b : ℝ) :
    ∫ z in a..b, (p0 + p1*(z-c) + p2*(z-c)^2) * (sin (m*z) * sin (n*z)) =
      ((p0 + p1*(b-c) + p2*(b-c)^2) * ((n * (sin (m*b) * cos (n*b)) - m * (cos (m*b) * sin (n*b))) * d1)
        - (p1 + 2*p2*(b-c)) * (-(2*m*n*(cos (m*b) * cos (n*b)) + (m^2+n^2)*(sin (m*b) * sin (n*b))) * d2)
        + 2*p2 * (-((3*m^2*n + n^3) * (sin (m*b) * cos (n*b)) - (3*m*n^2 + m^3) * (cos (m*b) * sin (n*b))) * d3))
      - ((p0 + p1*(a-c) + p2*(a-c)^2) * ((n * (sin (m*a) * cos (n*a)) - m * (cos (m*a) * sin (n*a))) * d1)
        - (p1 + 2*p2*(a-c)) * (-(2*m*n*(cos (m*a) * cos (n*a)) + (m^2+n^2)*(sin (m*a) * sin (n*a))) * d2)
        + 2*p2 * (-((3*m^2*n + n^3) * (sin (m*a) * cos (n*a)) - (3*m*n^2 + m^3) * (cos (m*a) * sin (n*a))) * d3)) := by
  obtain ⟨d4, e4⟩ : ∃ d4, d4 * (m^2 - n^2) = d3 := ⟨d3 * d1, by rw [mul_assoc, e1, mul_one]⟩
  have := int_cubic_mul (K := fun z => sin (m*z) * sin (n*z))
    (K1 := fun z => (n * (sin (m*z) * cos (n*z)) - m * (cos (m*z) * sin (n*z))) * d1)
    (K2 := fun z => -(2*m*n*(cos (m*z) * cos (n*z)) + (m^2+n^2)*(sin (m*z) * sin (n*z))) * d2)
    (K3 := fun z => -((3*m^2*n + n^3) * (sin (m*z) * cos (n*z)) - (3*m*n^2 + m^3) * (cos (m*z) * sin (n*z))) * d3)
    (K4 := fun z => (((3*m^2*n + n^3)*m + (3*m*n^2+m^3)*n) * (cos (m*z) * cos (n*z)) +
      ((3*m^2*n + n^3)*n + (3*m*n^2+m^3)*m) * (sin (m*z) * sin (n*z))) * d4)
    (fun z => hd_congr ((((hd_sc m n z).const_mul n).sub ((hd_cs m n z).const_mul m)).mul_const d1) (fun _ => rfl)
      (by linear_combination (sin (m*z) * sin (n*z)) * e1))
    (fun z => hd_congr ((((hd_cc m n z).const_mul (2*m*n)).add ((hd_ss m n z).const_mul (m^2+n^2))).neg.mul_const d2) (fun _ => rfl)
      (by linear_combination (n * (sin (m*z) * cos (n*z)) - m * (cos (m*z) * sin (n*z))) * e2))
    (fun z => hd_congr ((((hd_sc m n z).const_mul (3*m^2*n + n^3)).sub ((hd_cs m n z).const_mul (3*m*n^2 + m^3))).neg.mul_const d3) (fun _ => rfl)
      (by linear_combination (-(2*m*n*(cos (m*z) * cos (n*z)) + (m^2+n^2)*(sin (m*z) * sin (n*z)))) * e3))
    (fun z => hd_congr ((((hd_cc m n z).const_mul ((3*m^2*n + n^3)*m + (3*m*n^2+m^3)*n)).add
        ((hd_ss m n z).const_mul ((3*m^2*n + n^3)*n + (3*m*n^2+m^3)*m))).mul_const d4) (fun _ => rfl)
      (by linear_combination (-((3*m^2*n + n^3) * (sin (m*z) * cos (n*z)) - (3*m*n^2 + m^3) * (cos (m*z) * sin (n*z)))) * e4))
    (by fun_prop) p0 p1 p2 0 c a b
  simpa using this

/-- linear times `cos (m z) cos (n z)` -/
theorem int_cos_cos {m n d1 d2 : ℝ} (e1 : d1 * (m^2 - n^2) = 1) (e2 : d2 * (m^2 - n^2) = d1)
    (p0 p1 c a b : ℝ) :
    ∫ z in a..b, (p0 + p1*(z-c)) * (cos (m*z) * cos (n*z)) =
      ((p0 + p1*(b-c)) * ((m * (sin (m*b) * cos (n*b)) - n * (cos (m*b) * sin (n*b))) * d1)
        - p1 * (-((m^2+n^2)*(cos (m*b) * cos (n*b)) + 2*m*n*(sin (m*b) * sin (n*b))) * d2))
      - ((p0 + p1*(a-c)) * ((m * (sin (m*a) * cos (n*a)) - n * (cos (m*a) * sin (n*a))) * d1)
        - p1 * (-((m^2+n^2)*(cos (m*a) * cos (n*a)) + 2*m*n*(sin (m*a) * sin (n*a))) * d2)) := by
  obtain ⟨d3, e3⟩ : ∃ d3, d3 * (m^2 - n^2) = d2 := ⟨d2 * d1, by rw [mul_assoc, e1, mul_one]⟩
  obtain ⟨d4, e4⟩ : ∃ d4, d4 * (m^2 - n^2) = d3 := ⟨d3 * d1, by rw [mul_assoc, e1, mul_one]⟩
  have := int_cubic_mul (K := fun z => cos (m*z) * cos (n*z))
    (K1 := fun z => (m * (sin (m*z) * cos (n*z)) - n * (cos (m*z) * sin (n*z))) * d1)
    (K2 := fun z => -((m^2+n^2)*(cos (m*z) * cos (n*z)) + 2*m*n*(sin (m*z) * sin (n*z))) * d2)
    (K3 := fun z => -((m^3+3*m*n^2) * (sin (m*z) * cos (n*z)) - (3*m^2*n+n^3) * (cos (m*z) * sin (n*z))) * d3)
    (K4 := fun z => (((m^3+3*m*n^2)*m + (3*m^2*n+n^3)*n) * (cos (m*z) * cos (n*z)) +
      ((m^3+3*m*n^2)*n + (3*m^2*n+n^3)*m) * (sin (m*z) * sin (n*z))) * d4)
    (fun z => hd_congr ((((hd_sc m n z).const_mul m).sub ((hd_cs m n z).const_mul n)).mul_const d1) (fun _ => rfl)
      (by linear_combination (cos (m*z) * cos (n*z)) * e1))
    (fun z => hd_congr ((((hd_cc m n z).const_mul (m^2+n^2)).add ((hd_ss m n z).const_mul (2*m*n))).neg.mul_const d2) (fun _ => rfl)
      (by linear_combination (m * (sin (m*z) * cos (n*z)) - n * (cos (m*z) * sin (n*z))) * e2))
    (fun z => hd_congr ((((hd_sc m n z).const_mul (m^3+3*m*n^2)).sub ((hd_cs m n z).const_mul (3*m^2*n+n^3))).neg.mul_const d3) (fun _ => rfl)
      (by linear_combination (-((m^2+n^2)*(cos (m*z) * cos (n*z)) + 2*m*n*(sin (m*z) * sin (n*z)))) * e3))
    (fun z => hd_congr ((((hd_cc m n z).const_mul ((m^3+3*m*n^2)*m + (3*m^2*n+n^3)*n)).add
        ((hd_ss m n z).const_mul ((m^3+3*m*n^2)*n + (3*m^2*n+n^3)*m))).mul_const d4) (fun _ => rfl)
      (by linear_combination (-((m^3+3*m*n^2) * (sin (m*z) * cos (n*z)) - (3*m^2*n+n^3) * (cos (m*z) * sin (n*z)))) * e4))
    (by fun_prop) p0 p1 0 0 c a b
  simpa using this

end Geotecha.Speccon
