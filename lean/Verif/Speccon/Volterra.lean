import Mathlib.Analysis.ODE.Gronwall
import Mathlib.MeasureTheory.Integral.IntervalIntegral.FundThmCalculus
import Mathlib.MeasureTheory.Integral.DominatedConvergence
import Mathlib.LinearAlgebra.Matrix.NonsingularInverse
import Verif.Speccon.PropsVR

/-!
# Uniqueness of the solution of the matrix equation integrated over time
-/

set_option linter.unusedVariables false
set_option autoImplicit false
open Real intervalIntegral MeasureTheory Filter Topology
namespace Geotecha.Speccon
open Geotecha.Spec Geotecha.Piecewise

/-- A left inverse of `gam` from what `np.linalg` returns. -/
theorem EigenSystem.left {n : ℕ} {gam psi : ℕ → ℕ → ℝ} {eigs : ℕ → ℝ} {v Igamv : ℕ → ℕ → ℝ} (hE : EigenSystem n gam psi eigs v Igamv) :
    ∃ L : ℕ → ℕ → ℝ, ∀ i j, i < n → j < n → ∑ k ∈ Finset.range n, L i k * gam k j = if i = j then 1 else 0 := by
  let Γ : Matrix (Fin n) (Fin n) ℝ := Matrix.of fun i j => gam i j
  let V : Matrix (Fin n) (Fin n) ℝ := Matrix.of fun i j => v i j
  let W : Matrix (Fin n) (Fin n) ℝ := Matrix.of fun i j => Igamv i j
  have h1 : Γ * V * W = 1 := by
    ext i j
    have := hE.inv i j i.2 j.2
    simp only [Matrix.mul_apply, Matrix.one_apply, Γ, V, W, Matrix.of_apply]
    rw [← Fin.sum_univ_eq_sum_range (fun k => (∑ l ∈ Finset.range n, gam i l * v l k) * Igamv k j) n] at this
    simp only [← Fin.sum_univ_eq_sum_range (fun l => gam i l * v l _) n] at this
    rw [this]
    simp [Fin.ext_iff]
  rw [mul_assoc] at h1
  have h2 := mul_eq_one_comm.1 h1
  refine ⟨fun i k => if h : i < n ∧ k < n then (V * W) ⟨i, h.1⟩ ⟨k, h.2⟩ else 0, fun i j hi hj => ?_⟩
  have := congrFun (congrFun h2 ⟨i, hi⟩) ⟨j, hj⟩
  rw [Matrix.mul_apply, Matrix.one_apply] at this
  rw [← Fin.sum_univ_eq_sum_range (fun k => (if h : i < n ∧ k < n then (V * W) ⟨i, h.1⟩ ⟨k, h.2⟩ else 0) * gam k j) n]
  have e : ∀ k : Fin n, (if h : i < n ∧ (k:ℕ) < n then (V * W) ⟨i, h.1⟩ ⟨k, h.2⟩ else 0) * gam k j = (V * W) ⟨i, hi⟩ k * Γ k ⟨j, hj⟩ := by
    intro k
    rw [dif_pos ⟨hi, k.2⟩]
    rfl
  simp only [e]
  rw [this]
  simp

/-- A linear Volterra equation has no solution but zero. -/
theorem volterra_zero {n : ℕ} {M : ℕ → ℕ → ℝ} {D : ℕ → ℝ → ℝ} {s T : ℝ} (hD : ∀ j, j < n → IntervalIntegrable (D j) volume s T)
    (h : ∀ i, i < n → ∀ t, s ≤ t → t ≤ T → D i t = ∑ j ∈ Finset.range n, M i j * ∫ r in s..t, D j r) :
    ∀ i, i < n → ∀ t, s ≤ t → t ≤ T → D i t = 0 := by
  intro i hi t hst htT
  have hsT : s ≤ T := hst.trans htT
  -- primitives, continued constantly outside [s, T]
  let F : ℕ → ℝ → ℝ := fun j t => ∫ r in s..(Set.projIcc s T hsT t), D j r
  have hF : ∀ j, j < n → Continuous (F j) := by
    intro j hj
    have c : ContinuousOn (fun t => ∫ r in s..t, D j r) (Set.Icc s T) := by
      have := intervalIntegral.continuousOn_primitive_interval (μ := volume) (f := D j) (a := s) (b := T)
        (by rw [Set.uIcc_of_le hsT]; exact (intervalIntegrable_iff_integrableOn_Icc_of_le hsT).1 (hD j hj))
      rwa [Set.uIcc_of_le hsT] at this
    have := c.domRestrict.comp (continuous_projIcc (h := hsT))
    exact this
  have hFin : ∀ j t, s ≤ t → t ≤ T → F j t = ∫ r in s..t, D j r := by
    intro j t a b
    simp only [F, Set.projIcc_of_mem hsT ⟨a, b⟩]
  let D' : Fin n → ℝ → ℝ := fun i t => ∑ j : Fin n, M i j * F j t
  have hD' : ∀ i, Continuous (D' i) := fun i => continuous_finsetSum _ (fun j _ => continuous_const.mul (hF j j.2))
  have hDD : ∀ (i : Fin n) t, s ≤ t → t ≤ T → D i t = D' i t := by
    intro i t a b
    rw [h i i.2 t a b, ← Fin.sum_univ_eq_sum_range (fun j => M i j * ∫ r in s..t, D j r) n]
    exact Finset.sum_congr rfl (fun j _ => by rw [hFin j t a b])
  let Φ : ℝ → (Fin n → ℝ) := fun t j => ∫ r in s..t, D' j r
  have hΦd : ∀ t, HasDerivAt Φ (fun j => D' j t) t := by
    intro t
    rw [hasDerivAt_pi]
    exact fun j => ((hD' j).integral_hasStrictDerivAt s t).hasDerivAt
  have hΦF : ∀ (j : Fin n) t, s ≤ t → t ≤ T → Φ t j = F j t := by
    intro j t a b
    rw [hFin j t a b]
    refine intervalIntegral.integral_congr (fun r hr => ?_)
    rw [Set.uIcc_of_le a] at hr
    exact (hDD j r hr.1 (hr.2.trans b)).symm
  -- bound
  let K : ℝ := ∑ i : Fin n, ∑ j : Fin n, |M i j|
  have hK : ∀ i : Fin n, ∑ j : Fin n, |M i j| ≤ K := fun i =>
    Finset.single_le_sum (f := fun i : Fin n => ∑ j : Fin n, |M i j|) (fun i _ => Finset.sum_nonneg (fun j _ => abs_nonneg _)) (Finset.mem_univ i)
  have hK0 : 0 ≤ K := Finset.sum_nonneg (fun i _ => Finset.sum_nonneg (fun j _ => abs_nonneg _))
  have hbound : ∀ r ∈ Set.Ico s T, ‖(fun j => D' j r)‖ ≤ K * ‖Φ r‖ + 0 := by
    intro r hr
    rw [add_zero, pi_norm_le_iff_of_nonneg (mul_nonneg hK0 (norm_nonneg _))]
    intro i
    rw [Real.norm_eq_abs]
    refine (Finset.abs_sum_le_sum_abs _ _).trans ?_
    calc ∑ j : Fin n, |M i j * F j r| ≤ ∑ j : Fin n, |M i j| * ‖Φ r‖ := by
          refine Finset.sum_le_sum (fun j _ => ?_)
          rw [abs_mul, ← hΦF j r hr.1 hr.2.le]
          exact mul_le_mul_of_nonneg_left (norm_le_pi_norm (Φ r) j) (abs_nonneg _)
      _ = (∑ j : Fin n, |M i j|) * ‖Φ r‖ := by rw [Finset.sum_mul]
      _ ≤ K * ‖Φ r‖ := mul_le_mul_of_nonneg_right (hK i) (norm_nonneg _)
  have h0 : Φ s = 0 := by
    funext j
    simp [Φ]
  have g := norm_le_gronwallBound_of_norm_deriv_right_le (f := Φ) (f' := fun t j => D' j t) (δ := 0) (K := K) (ε := 0) (a := s) (b := T)
    (fun t _ => (hΦd t).continuousAt.continuousWithinAt) (fun t _ => (hΦd t).hasDerivWithinAt) (by rw [h0]; simp) hbound t ⟨hst, htT⟩
  rw [gronwallBound_ε0_δ0] at g
  have hz : Φ t = 0 := norm_le_zero_iff.1 g
  have e := hDD ⟨i, hi⟩ t hst htT
  rw [show D i t = D (⟨i, hi⟩ : Fin n) t from rfl, e]
  refine Finset.sum_eq_zero (fun j _ => ?_)
  rw [← hΦF j t hst htT, hz]
  simp

/-- Three solutions of the modal equations with the same matrices, the right hand side of the first a combination of the
right hand sides of the others: so are the solutions. -/
theorem volterra_combine {n : ℕ} {gam P L : ℕ → ℕ → ℝ} {A A1 A2 Q Q1 Q2 : ℕ → ℝ → ℝ} {s T α β : ℝ}
    (hL : ∀ i j, i < n → j < n → ∑ k ∈ Finset.range n, L i k * gam k j = if i = j then 1 else 0)
    (hA : ∀ j, IntervalIntegrable (A j) volume s T) (hA1 : ∀ j, IntervalIntegrable (A1 j) volume s T)
    (hA2 : ∀ j, IntervalIntegrable (A2 j) volume s T)
    (e : ∀ i, i < n → ∀ t, s ≤ t → t ≤ T → (∑ j ∈ Finset.range n, gam i j * A j t) + (∑ j ∈ Finset.range n, P i j * ∫ r in s..t, A j r) = Q i t)
    (e1 : ∀ i, i < n → ∀ t, s ≤ t → t ≤ T → (∑ j ∈ Finset.range n, gam i j * A1 j t) + (∑ j ∈ Finset.range n, P i j * ∫ r in s..t, A1 j r) = Q1 i t)
    (e2 : ∀ i, i < n → ∀ t, s ≤ t → t ≤ T → (∑ j ∈ Finset.range n, gam i j * A2 j t) + (∑ j ∈ Finset.range n, P i j * ∫ r in s..t, A2 j r) = Q2 i t)
    (hQ : ∀ i, i < n → ∀ t, s ≤ t → t ≤ T → Q i t = α * Q1 i t + β * Q2 i t) :
    ∀ i, i < n → ∀ t, s ≤ t → t ≤ T → A i t = α * A1 i t + β * A2 i t := by
  set D : ℕ → ℝ → ℝ := fun j t => A j t - (α * A1 j t + β * A2 j t) with hDdef
  have hint : ∀ j t, s ≤ t → t ≤ T → ∫ r in s..t, D j r = (∫ r in s..t, A j r) - (α * (∫ r in s..t, A1 j r) + β * ∫ r in s..t, A2 j r) := by
    intro j t a b
    have i0 := int_sub (hA j) a b
    have i1 := int_sub (hA1 j) a b
    have i2 := int_sub (hA2 j) a b
    simp only [hDdef]
    rw [intervalIntegral.integral_sub i0 ((i1.const_mul α).add (i2.const_mul β)),
      intervalIntegral.integral_add (i1.const_mul α) (i2.const_mul β), intervalIntegral.integral_const_mul,
      intervalIntegral.integral_const_mul]
  have hz := volterra_zero (n := n) (M := fun i k => -∑ l ∈ Finset.range n, L i l * P l k) (D := D) (s := s) (T := T)
    (fun j _ => (hA j).sub (((hA1 j).const_mul α).add ((hA2 j).const_mul β))) (by
      intro i hi t a b
      have key : ∀ l, l < n → (∑ j ∈ Finset.range n, gam l j * D j t) = -(∑ j ∈ Finset.range n, P l j * ∫ r in s..t, D j r) := by
        intro l hl
        have E := hQ l hl t a b
        rw [← e l hl t a b, ← e1 l hl t a b, ← e2 l hl t a b] at E
        have x1 : ∑ j ∈ Finset.range n, gam l j * D j t = (∑ j ∈ Finset.range n, gam l j * A j t) -
            (α * (∑ j ∈ Finset.range n, gam l j * A1 j t) + β * ∑ j ∈ Finset.range n, gam l j * A2 j t) := by
          rw [Finset.mul_sum, Finset.mul_sum, ← Finset.sum_add_distrib, ← Finset.sum_sub_distrib]
          exact Finset.sum_congr rfl (fun j _ => by simp only [hDdef]; ring)
        have x2 : ∑ j ∈ Finset.range n, P l j * ∫ r in s..t, D j r = (∑ j ∈ Finset.range n, P l j * ∫ r in s..t, A j r) -
            (α * (∑ j ∈ Finset.range n, P l j * ∫ r in s..t, A1 j r) + β * ∑ j ∈ Finset.range n, P l j * ∫ r in s..t, A2 j r) := by
          rw [Finset.mul_sum, Finset.mul_sum, ← Finset.sum_add_distrib, ← Finset.sum_sub_distrib]
          exact Finset.sum_congr rfl (fun j _ => by rw [hint j t a b]; ring)
        rw [x1, x2]
        linarith
      have y1 : ∑ l ∈ Finset.range n, L i l * ∑ j ∈ Finset.range n, gam l j * D j t = D i t := by
        simp only [Finset.mul_sum]
        rw [Finset.sum_comm]
        have : ∀ j ∈ Finset.range n, ∑ l ∈ Finset.range n, L i l * (gam l j * D j t) = (if i = j then 1 else 0) * D j t := by
          intro j hj
          rw [← hL i j hi (Finset.mem_range.1 hj), Finset.sum_mul]
          exact Finset.sum_congr rfl (fun l _ => by ring)
        rw [Finset.sum_congr rfl this]
        simp [hi]
      rw [← y1, Finset.sum_congr rfl (fun l hl => by rw [key l (Finset.mem_range.1 hl)])]
      simp only [neg_mul, mul_neg, Finset.sum_neg_distrib, neg_inj, Finset.mul_sum, Finset.sum_mul]
      rw [Finset.sum_comm]
      exact Finset.sum_congr rfl (fun j _ => Finset.sum_congr rfl (fun l _ => by ring)))
  intro i hi t a b
  have := hz i hi t a b
  simp only [hDdef] at this
  linarith

end Geotecha.Speccon
