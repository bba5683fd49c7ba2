import Verif.Beam.Infinite
import Mathlib.Tactic.IntervalCases

/-!
# Infinite beam: the coefficients
-/
set_option autoImplicit false
set_option linter.unusedVariables false

namespace Geotecha.Beam

open Complex

theorem cmat_eq (γ : Fin 4 → ℂ) :
    cmat γ = (Matrix.vandermonde γ).transpose * Matrix.diagonal colSign := by
  ext i j
  rw [Matrix.mul_diagonal]
  simp [cmat, Matrix.vandermonde_apply, mul_comm]

theorem cmat_det_ne (γ : Fin 4 → ℂ) : (cmat γ).det ≠ 0 ↔ Function.Injective γ := by
  rw [cmat_eq, Matrix.det_mul, Matrix.det_transpose, Matrix.det_diagonal]
  have : ∏ i, colSign i = 1 := by simp [colSign, Fin.prod_univ_four]
  rw [this, mul_one]
  exact Matrix.det_vandermonde_ne_zero_iff

/-- Derivative of the characteristic polynomial. -/
noncomputable def dPoly (α β : ℝ) (z : ℂ) : ℂ := 4 * z ^ 3 + 8 * (α : ℂ) ^ 2 * z - 8 * α * β

/-- The coefficients of the characteristic polynomial in terms of its roots. -/
theorem viete {α β : ℝ} {γ : Fin 4 → ℂ} (h : IsRoots α β γ) :
    γ 0 + γ 1 + γ 2 + γ 3 = 0
    ∧ γ 0 * γ 1 + γ 0 * γ 2 + γ 0 * γ 3 + γ 1 * γ 2 + γ 1 * γ 3 + γ 2 * γ 3 = 4 * (α : ℂ) ^ 2
    ∧ γ 0 * γ 1 * γ 2 + γ 0 * γ 1 * γ 3 + γ 0 * γ 2 * γ 3 + γ 1 * γ 2 * γ 3 = 8 * α * β
    ∧ γ 0 * γ 1 * γ 2 * γ 3 = 4 := by
  have h0 := h 0
  have h1 := h 1
  have h2 := h (-1)
  have h3 := h 2
  ring_nf at h0 h1 h2 h3
  refine ⟨?_, ?_, ?_, ?_⟩
  · linear_combination (1 / 6) * (h3 - 3 * h1 - h2 + 3 * h0)
  · linear_combination (-(1 / 2)) * h1 - (1 / 2) * h2 + h0
  · linear_combination (1 / 2) * (h1 - h2) - (1 / 6) * (h3 - 3 * h1 - h2 + 3 * h0)
  · linear_combination -h0

theorem dPoly_at {α β : ℝ} {γ : Fin 4 → ℂ} (h : IsRoots α β γ) :
    dPoly α β (γ 0) = (γ 0 - γ 1) * (γ 0 - γ 2) * (γ 0 - γ 3)
    ∧ dPoly α β (γ 1) = (γ 1 - γ 0) * (γ 1 - γ 2) * (γ 1 - γ 3)
    ∧ dPoly α β (γ 2) = (γ 2 - γ 0) * (γ 2 - γ 1) * (γ 2 - γ 3)
    ∧ dPoly α β (γ 3) = (γ 3 - γ 0) * (γ 3 - γ 1) * (γ 3 - γ 2) := by
  obtain ⟨v1, v2, v3, v4⟩ := viete h
  have key : ∀ z : ℂ, dPoly α β z = 4 * z ^ 3 - 3 * (γ 0 + γ 1 + γ 2 + γ 3) * z ^ 2
      + 2 * (γ 0 * γ 1 + γ 0 * γ 2 + γ 0 * γ 3 + γ 1 * γ 2 + γ 1 * γ 3 + γ 2 * γ 3) * z
      - (γ 0 * γ 1 * γ 2 + γ 0 * γ 1 * γ 3 + γ 0 * γ 2 * γ 3 + γ 1 * γ 2 * γ 3) := by
    intro z; rw [v1, v2, v3]; unfold dPoly; ring
  refine ⟨?_, ?_, ?_, ?_⟩ <;> rw [key] <;> ring

/-- The coefficients the code solves for. -/
noncomputable def mlCoef (α β : ℝ) (γ : Fin 4 → ℂ) (j : Fin 4) : ℂ := colSign j * (8 / dPoly α β (γ j))

theorem dPoly_ne {α β : ℝ} {γ : Fin 4 → ℂ} (h : IsRoots α β γ) (hi : Function.Injective γ) (j : Fin 4) :
    dPoly α β (γ j) ≠ 0 := by
  obtain ⟨d0, d1, d2, d3⟩ := dPoly_at h
  have n : ∀ i j : Fin 4, i ≠ j → γ i - γ j ≠ 0 := fun i j hij => sub_ne_zero.mpr (fun h => hij (hi h))
  have m : ∀ {a b c : ℂ}, a ≠ 0 → b ≠ 0 → c ≠ 0 → a * b * c ≠ 0 := fun ha hb hc => mul_ne_zero (mul_ne_zero ha hb) hc
  fin_cases j
  · exact d0 ▸ m (n 0 1 (by decide)) (n 0 2 (by decide)) (n 0 3 (by decide))
  · exact d1 ▸ m (n 1 0 (by decide)) (n 1 2 (by decide)) (n 1 3 (by decide))
  · exact d2 ▸ m (n 2 0 (by decide)) (n 2 1 (by decide)) (n 2 3 (by decide))
  · exact d3 ▸ m (n 3 0 (by decide)) (n 3 1 (by decide)) (n 3 2 (by decide))

theorem lagrange4 (a b c d : ℂ) (h1 : a - b ≠ 0) (h2 : a - c ≠ 0) (h3 : a - d ≠ 0) (h4 : b - c ≠ 0)
    (h5 : b - d ≠ 0) (h6 : c - d ≠ 0) (p0 p1 p2 p3 : ℂ) :
    ∀ P : ℂ → ℂ, (∀ z, P z = p0 + p1 * z + p2 * z ^ 2 + p3 * z ^ 3) →
    P a * (8 / ((a - b) * (a - c) * (a - d))) + P b * (8 / ((b - a) * (b - c) * (b - d)))
      + P c * (8 / ((c - a) * (c - b) * (c - d))) + P d * (8 / ((d - a) * (d - b) * (d - c))) = 8 * p3 := by
  intro P hP
  rw [hP, hP, hP, hP]
  rw [show b - a = -(a - b) by ring, show c - a = -(a - c) by ring, show c - b = -(b - c) by ring,
    show d - a = -(a - d) by ring, show d - b = -(b - d) by ring, show d - c = -(c - d) by ring]
  field_simp
  ring

/-- The sums of the coefficients with powers of the roots. -/
theorem coef_sums {α β : ℝ} {γ : Fin 4 → ℂ} (h : IsRoots α β γ) (hi : Function.Injective γ) (k : ℕ)
    (hk : k < 4) :
    γ 0 ^ k * (8 / dPoly α β (γ 0)) + γ 1 ^ k * (8 / dPoly α β (γ 1))
      + γ 2 ^ k * (8 / dPoly α β (γ 2)) + γ 3 ^ k * (8 / dPoly α β (γ 3))
      = if k = 3 then 8 else 0 := by
  obtain ⟨d0, d1, d2, d3⟩ := dPoly_at h
  have n : ∀ i j : Fin 4, i ≠ j → γ i - γ j ≠ 0 := fun i j hij => sub_ne_zero.mpr (fun h => hij (hi h))
  rw [d0, d1, d2, d3]
  have L := lagrange4 (γ 0) (γ 1) (γ 2) (γ 3) (n 0 1 (by decide)) (n 0 2 (by decide)) (n 0 3 (by decide))
    (n 1 2 (by decide)) (n 1 3 (by decide)) (n 2 3 (by decide))
  interval_cases k
  · rw [L 1 0 0 0 (fun z => z ^ 0) (by intro z; ring)]; norm_num
  · rw [L 0 1 0 0 (fun z => z ^ 1) (by intro z; ring)]; norm_num
  · rw [L 0 0 1 0 (fun z => z ^ 2) (by intro z; ring)]; norm_num
  · rw [L 0 0 0 1 (fun z => z ^ 3) (by intro z; ring)]; norm_num

theorem mlA_ok {α β : ℝ} {γ : Fin 4 → ℂ} (h : IsRoots α β γ) (hi : Function.Injective γ) :
    mlA γ = .ok (mlCoef α β γ) := by
  have hd : (cmat γ).det ≠ 0 := (cmat_det_ne γ).mpr hi
  unfold mlA
  rw [if_neg hd]
  congr 1
  have hu : IsUnit (cmat γ).det := isUnit_iff_ne_zero.mpr hd
  have e : (cmat γ).mulVec (mlCoef α β γ) = mlRhs := by
    funext k
    have s := coef_sums h hi (k : ℕ) k.2
    have c : (cmat γ).mulVec (mlCoef α β γ) k = γ 0 ^ (k : ℕ) * (8 / dPoly α β (γ 0))
        + γ 1 ^ (k : ℕ) * (8 / dPoly α β (γ 1))
        + γ 2 ^ (k : ℕ) * (8 / dPoly α β (γ 2)) + γ 3 ^ (k : ℕ) * (8 / dPoly α β (γ 3)) := by
      simp only [Matrix.mulVec, dotProduct, Fin.sum_univ_four, cmat, Matrix.of_apply, mlCoef]
      simp [colSign]
    rw [c, s]
    fin_cases k <;> simp [mlRhs]
    norm_num
  rw [← e, Matrix.mulVec_mulVec, Matrix.nonsing_inv_mul _ hu, Matrix.one_mulVec]

theorem mlA_error {γ : Fin 4 → ℂ} : mlA γ = .error .other ↔ ¬ Function.Injective γ := by
  rw [← cmat_det_ne, not_not]
  unfold mlA
  split_ifs with h <;> simp [h]

end Geotecha.Beam
