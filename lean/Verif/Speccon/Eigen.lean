import Verif.Speccon.PropsVR
import Mathlib.Analysis.Matrix.Order
import Mathlib.Analysis.Matrix.Spectrum

/-!
# Linear algebra behind `_make_eigs_and_v` (helpers for C78)
-/

set_option linter.unusedVariables false
open Real intervalIntegral MeasureTheory Filter Topology
namespace Geotecha.Speccon
open Geotecha.Spec Geotecha.Piecewise

/-- `c^T a d` for the leading `n` by `n` block. -/
noncomputable def form (n : ℕ) (a : ℕ → ℕ → ℝ) (c d : ℕ → ℝ) : ℝ := ∑ i ∈ Finset.range n, ∑ j ∈ Finset.range n, c i * a i j * d j

/-- Symmetric positive definite. -/
structure SPD (n : ℕ) (a : ℕ → ℕ → ℝ) : Prop where
  symm : ∀ i j, i < n → j < n → a i j = a j i
  pos : ∀ c : ℕ → ℝ, (∃ i, i < n ∧ c i ≠ 0) → 0 < form n a c c

open scoped Matrix MatrixOrder in
theorem eigen_matrix {n : ℕ} {G P : Matrix (Fin n) (Fin n) ℝ} (hG : G.PosDef) (hP : P.IsHermitian) :
    ∃ (e : Fin n → ℝ) (v w : Matrix (Fin n) (Fin n) ℝ), P * v = G * v * Matrix.diagonal e ∧ (G * v) * w = 1 := by
  obtain ⟨B, hB⟩ := CStarAlgebra.nonneg_iff_eq_star_mul_self.mp hG.posSemidef.nonneg
  have hGu : IsUnit G := hG.isUnit
  have hBu : IsUnit B := by
    rw [Matrix.isUnit_iff_isUnit_det] at hGu ⊢
    rw [hB, Matrix.det_mul] at hGu
    exact isUnit_of_mul_isUnit_right hGu
  rw [Matrix.isUnit_iff_isUnit_det] at hBu
  have hBs : IsUnit (star B).det := by
    rw [Matrix.star_eq_conjTranspose, Matrix.det_conjTranspose]; exact hBu.star
  have hC : (star B⁻¹ * P * B⁻¹).IsHermitian := by
    unfold Matrix.IsHermitian
    simp only [Matrix.star_eq_conjTranspose, Matrix.conjTranspose_mul, Matrix.conjTranspose_conjTranspose, hP.eq, mul_assoc]
  obtain ⟨e, U, hUU, hUU', hsp⟩ : ∃ (e : Fin n → ℝ) (U : Matrix (Fin n) (Fin n) ℝ), star U * U = 1 ∧ U * star U = 1 ∧
      star B⁻¹ * P * B⁻¹ = U * Matrix.diagonal e * star U := by
    refine ⟨hC.eigenvalues, hC.eigenvectorUnitary, Unitary.coe_star_mul_self _, Unitary.coe_mul_star_self _, ?_⟩
    have hsp := hC.spectral_theorem
    rw [Unitary.conjStarAlgAut_apply] at hsp
    exact hsp
  have hBB : B * B⁻¹ = 1 := Matrix.mul_nonsing_inv _ hBu
  have hsBB : star B * star B⁻¹ = 1 := by rw [← star_mul, Matrix.nonsing_inv_mul _ hBu, star_one]
  refine ⟨e, B⁻¹ * U, star U * star B⁻¹, ?_, ?_⟩
  · have e1 : P * B⁻¹ = star B * (star B⁻¹ * P * B⁻¹) := by
      rw [mul_assoc, ← mul_assoc (star B), hsBB, one_mul]
    rw [← mul_assoc, e1, hsp, hB]
    have e2 : star B * B * (B⁻¹ * U) = star B * U := by
      rw [mul_assoc, ← mul_assoc B, hBB, one_mul]
    rw [e2]
    simp only [mul_assoc, hUU, mul_one]
  · rw [hB]
    have e2 : star B * B * (B⁻¹ * U) = star B * U := by
      rw [mul_assoc, ← mul_assoc B, hBB, one_mul]
    rw [e2, mul_assoc, ← mul_assoc U, hUU', one_mul, hsBB]

/-- The leading block as a matrix. -/
def blk (n : ℕ) (a : ℕ → ℕ → ℝ) : Matrix (Fin n) (Fin n) ℝ := fun i j => a i j

theorem form_blk (n : ℕ) (a : ℕ → ℕ → ℝ) (c d : ℕ → ℝ) :
    form n a c d = (fun i : Fin n => c i) ⬝ᵥ (Matrix.mulVec (blk n a) (fun i : Fin n => d i)) := by
  simp only [form, dotProduct, Matrix.mulVec, blk, Finset.sum_range, Finset.mul_sum, mul_assoc]

theorem SPD.posDef {n : ℕ} {a : ℕ → ℕ → ℝ} (h : SPD n a) : (blk n a).PosDef := by
  refine Matrix.PosDef.of_dotProduct_mulVec_pos ?_ ?_
  · ext i j
    simp only [Matrix.conjTranspose_apply, blk, star_trivial]
    exact h.symm _ _ j.2 i.2
  · intro x hx
    have : ∃ i, x i ≠ 0 := by
      by_contra hc
      push Not at hc
      exact hx (funext hc)
    obtain ⟨i, hi⟩ := this
    have := h.pos (fun k => if hk : k < n then x ⟨k, hk⟩ else 0) ⟨i, i.2, by simpa using hi⟩
    rw [form_blk] at this
    simpa using this

/-- An eigensystem exists. -/
theorem eigen_exists {n : ℕ} {gam psi : ℕ → ℕ → ℝ} (hg : SPD n gam) (hp : ∀ i j, i < n → j < n → psi i j = psi j i) :
    ∃ eigs v Igamv, EigenSystem n gam psi eigs v Igamv := by
  have hP : (blk n psi).IsHermitian := by
    ext i j
    simp only [Matrix.conjTranspose_apply, blk, star_trivial]
    exact hp _ _ j.2 i.2
  obtain ⟨e, v, w, h1, h2⟩ := eigen_matrix hg.posDef hP
  let ext (x : Matrix (Fin n) (Fin n) ℝ) : ℕ → ℕ → ℝ := fun i j => if hi : i < n then if hj : j < n then x ⟨i, hi⟩ ⟨j, hj⟩ else 0 else 0
  have hx : ∀ (x : Matrix (Fin n) (Fin n) ℝ) (i j : Fin n), ext x i j = x i j := by
    intro x i j; simp [ext]
  refine ⟨fun j => if hj : j < n then e ⟨j, hj⟩ else 0, ext v, ext w, ?_, ?_⟩
  · intro i j hi hj
    have := congrFun (congrFun h1 ⟨i, hi⟩) ⟨j, hj⟩
    rw [Matrix.mul_diagonal] at this
    simp only [Matrix.mul_apply, blk] at this
    rw [dif_pos hj]
    simp only [Finset.sum_range]
    have hvj : ∀ k : Fin n, ext v k j = v k ⟨j, hj⟩ := fun k => hx v k ⟨j, hj⟩
    simp only [hvj, this]
    ring
  · intro i j hi hj
    have := congrFun (congrFun h2 ⟨i, hi⟩) ⟨j, hj⟩
    rw [Matrix.one_apply] at this
    simp only [Matrix.mul_apply, blk] at this
    simp only [Finset.sum_range, hx]
    have hwj : ∀ k : Fin n, ext w k j = w k ⟨j, hj⟩ := fun k => hx w k ⟨j, hj⟩
    simp only [hwj, this, Fin.mk.injEq]

theorem form_eig {n : ℕ} {gam psi : ℕ → ℕ → ℝ} {eigs : ℕ → ℝ} {v Igamv : ℕ → ℕ → ℝ} (hE : EigenSystem n gam psi eigs v Igamv) {j : ℕ}
    (hj : j < n) (d : ℕ → ℝ) : form n psi d (fun k => v k j) = eigs j * form n gam d (fun k => v k j) := by
  unfold form
  rw [Finset.mul_sum]
  refine Finset.sum_congr rfl (fun i hi => ?_)
  have := hE.eig i j (Finset.mem_range.1 hi) hj
  simp only [mul_assoc, ← Finset.mul_sum]
  rw [this]; ring

/-- The eigenvectors are not zero. -/
theorem EigenSystem.ne_zero {n : ℕ} {gam psi : ℕ → ℕ → ℝ} {eigs : ℕ → ℝ} {v Igamv : ℕ → ℕ → ℝ} (hE : EigenSystem n gam psi eigs v Igamv)
    {j : ℕ} (hj : j < n) : ∃ i, i < n ∧ v i j ≠ 0 := by
  by_contra hc
  push Not at hc
  have h1 : (blk n gam * blk n v) * blk n Igamv = 1 := by
    ext a b
    have := hE.inv a b a.2 b.2
    simp only [Finset.sum_range] at this
    rw [Matrix.one_apply]
    simp only [Matrix.mul_apply, blk]
    rw [this]
    simp only [Fin.ext_iff]
  rw [mul_eq_one_comm] at h1
  have h2 := congrFun (congrFun h1 ⟨j, hj⟩) ⟨j, hj⟩
  rw [Matrix.one_apply_eq] at h2
  simp only [Matrix.mul_apply, blk] at h2
  rw [Finset.sum_eq_zero] at h2
  · norm_num at h2
  · intro k _
    rw [Finset.sum_eq_zero (fun l _ => by rw [hc l l.2, mul_zero]), mul_zero]

/-- Positive definite matrices have positive eigenvalues. -/
theorem eigs_pos {n : ℕ} {gam psi : ℕ → ℕ → ℝ} {eigs : ℕ → ℝ} {v Igamv : ℕ → ℕ → ℝ} (hg : SPD n gam) (hp : SPD n psi)
    (hE : EigenSystem n gam psi eigs v Igamv) (j : ℕ) (hj : j < n) : 0 < eigs j := by
  have hv := hE.ne_zero hj
  have h1 := hg.pos (fun k => v k j) hv
  have h2 := hp.pos (fun k => v k j) hv
  rw [form_eig hE hj] at h2
  exact (pos_iff_pos_of_mul_pos h2).2 h1

end Geotecha.Speccon
