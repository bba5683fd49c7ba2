import Verif.Consol.Shan
import Verif.Consol.SpecShan
import Verif.Speccon.Ortho
import Mathlib.MeasureTheory.Integral.IntervalIntegral.FundThmCalculus
import Mathlib.Analysis.SpecialFunctions.Integrals.Basic

/-! # Helper lemmas for shanetal2012: modes, loads, projections -/

set_option autoImplicit false
set_option linter.unusedVariables false
open Real MeasureTheory
namespace Geotecha.Consol
open Geotecha (PyErr)
open Spec.Unsat (IsEig)

/-- the time derivative of a load -/
noncomputable def ShanLoad.dvalue : ShanLoad → ℝ → ℝ
  | .exp q0 b, t => b * q0 * Real.exp (-b * t)
  | .sin q0 omega, t => omega * q0 * Real.cos (omega * t)

namespace ShanLoad

theorem hasDeriv_value (L : ShanLoad) (t : ℝ) : HasDerivAt L.value (L.dvalue t) t := by
  cases L with
  | exp q0 b =>
    have h : HasDerivAt (fun t : ℝ => -b * t) (-b) t := by simpa using (hasDerivAt_id t).const_mul (-b)
    refine ((h.exp.const_sub 1).const_mul q0).congr_deriv ?_
    simp only [dvalue]; ring
  | sin q0 w =>
    have h : HasDerivAt (fun t : ℝ => w * t) w t := by simpa using (hasDerivAt_id t).const_mul w
    refine (h.sin.const_mul q0).congr_deriv ?_
    simp only [dvalue]; ring

/-- no division by zero in `Edt` -/
def Regular (L : ShanLoad) (e : ℝ) (m : ℝ) : Prop :=
  match L with
  | .exp _ b => b + e * m ^ 2 ≠ 0
  | .sin _ w => e ^ 2 * m ^ 4 + w ^ 2 ≠ 0

theorem hasDeriv_Edt (L : ShanLoad) (e m : ℝ) (h : L.Regular e m) (t : ℝ) :
    HasDerivAt (fun t => L.Edt t m e) (e * m ^ 2 * L.Edt t m e + L.dvalue t) t := by
  have h2 : HasDerivAt (fun t : ℝ => e * m ^ 2 * t) (e * m ^ 2) t := by simpa using (hasDerivAt_id t).const_mul (e * m ^ 2)
  cases L with
  | exp q0 b =>
    have h1 : HasDerivAt (fun t : ℝ => -b * t) (-b) t := by simpa using (hasDerivAt_id t).const_mul (-b)
    have := (((h1.exp.sub h2.exp).const_mul (b * q0)).fun_neg).div_const (b + e * m ^ 2)
    refine this.congr_deriv ?_
    simp only [dvalue, Edt, expLoadDt]
    replace h : b + e * m ^ 2 ≠ 0 := h
    generalize Real.exp (-b * t) = x at *
    generalize Real.exp (e * m ^ 2 * t) = y at *
    field_simp
    ring
  | sin q0 w =>
    have h1 : HasDerivAt (fun t : ℝ => w * t) w t := by simpa using (hasDerivAt_id t).const_mul w
    have := ((((h1.cos.const_mul (-e * m ^ 2)).add (h2.exp.const_mul (e * m ^ 2))).add (h1.sin.const_mul w)).const_mul (w * q0)).div_const
      (e ^ 2 * m ^ 4 + w ^ 2)
    refine this.congr_deriv ?_
    simp only [dvalue, Edt, sinLoadDt]
    replace h : e ^ 2 * m ^ 4 + w ^ 2 ≠ 0 := h
    generalize Real.exp (e * m ^ 2 * t) = y at *
    generalize Real.cos (w * t) = c at *
    generalize Real.sin (w * t) = s at *
    field_simp
    ring

theorem Edt_zero (L : ShanLoad) (e m : ℝ) : L.Edt 0 m e = 0 := by
  cases L <;> simp [Edt, expLoadDt, sinLoadDt]

theorem value_zero (L : ShanLoad) : L.value 0 = 0 := by cases L <;> simp [value]

end ShanLoad

namespace ShanArgs

/-- `evolve` in time -/
theorem hasDeriv_evolve (r : EigRes) (E : ℝ → Vec2) (E' X : Vec2) (t : ℝ)
    (h : ∀ p, HasDerivAt (fun t => E t p) (E' p) t) (l : Fin 2) :
    HasDerivAt (fun t => evolve r (E t) X l) (evolve r E' X l) t := by
  unfold evolve Matrix.mulVec dotProduct
  refine HasDerivAt.fun_sum fun p _ => ?_
  exact ((h p).mul_const _).const_mul _

theorem evolve_one (r : EigRes) (X : Vec2) (h : r.v.det ≠ 0) : evolve r (fun _ => 1) X = X := by
  unfold evolve
  simp only [one_mul]
  change r.v.mulVec ((r.v⁻¹).mulVec X) = X
  rw [Matrix.mulVec_mulVec, Matrix.mul_nonsing_inv _ (Ne.isUnit h), Matrix.one_mulVec]

theorem evolve_zero (r : EigRes) (X : Vec2) : evolve r (fun _ => 0) X = 0 := by
  unfold evolve
  simp only [zero_mul]
  exact Matrix.mulVec_zero _

theorem evolve_add (r : EigRes) (E F X : Vec2) : evolve r (fun p => E p + F p) X = evolve r E X + evolve r F X := by
  unfold evolve
  rw [← Matrix.mulVec_add]; congr 1; funext p; simp only [Pi.add_apply]; ring

theorem evolve_smul (r : EigRes) (c : ℝ) (E X : Vec2) : evolve r (fun p => c * E p) X = c • evolve r E X := by
  unfold evolve
  rw [← Matrix.mulVec_smul]; congr 1; funext p; simp only [Pi.smul_apply, smul_eq_mul]; ring

/-- multiplying the factors by the eigenvalues is multiplying the result by the matrix -/
theorem evolve_eigs {N : Mat2} (r : EigRes) (h : IsEig N r.eigs r.v) (E X : Vec2) :
    evolve r (fun p => r.eigs p * E p) X = N.mulVec (evolve r E X) := by
  unfold evolve
  rw [Matrix.mulVec_mulVec, h.2, ← Matrix.mulVec_mulVec]
  congr 1
  funext p
  rw [Matrix.mulVec_diagonal]; ring

theorem M_eq (a : ShanArgs) (hd : a.drn = 0 ∨ a.drn = 1) (k : ℕ) : a.M k = Speccon.freq a.drn k := by
  unfold M Speccon.freq
  rcases hd with h | h
  · rw [if_neg (by omega), h]; push_cast; ring
  · rw [if_pos h, h]; push_cast; ring

theorem M_pos (a : ShanArgs) (k : ℕ) : 0 < a.M k := by
  unfold M
  split_ifs <;> positivity

theorem orth (a : ShanArgs) (hd : a.drn = 0 ∨ a.drn = 1) (hH : a.H ≠ 0) (i j : ℕ) :
    ∫ z in (0:ℝ)..a.H, sin (a.M i * z / a.H) * sin (a.M j * z / a.H) = if i = j then a.H / 2 else 0 := by
  have h := (Speccon.orthogonal hd i j).1
  have e : ∀ z, sin (a.M i * z / a.H) * sin (a.M j * z / a.H) =
      (fun x => sin (Speccon.freq a.drn i * x) * sin (Speccon.freq a.drn j * x)) (z / a.H) := fun z => by
    simp only [M_eq a hd]; rw [mul_div_assoc, mul_div_assoc]
  simp_rw [e]
  rw [intervalIntegral.integral_comp_div (fun x => sin (Speccon.freq a.drn i * x) * sin (Speccon.freq a.drn j * x)) hH, zero_div, div_self hH, h]
  split_ifs <;> simp; ring

theorem int_sin {H : ℝ} (hH : H ≠ 0) {m : ℝ} (hm : m ≠ 0) : ∫ z in (0:ℝ)..H, sin (m * z / H) = H / m * (1 - cos m) := by
  have e : ∀ z ∈ Set.uIcc 0 H, HasDerivAt (fun z : ℝ => -(H / m) * cos (m * z / H)) (sin (m * z / H)) z := fun z _ => by
    have d : HasDerivAt (fun z : ℝ => m * z / H) (m / H) z := by simpa using ((hasDerivAt_id z).const_mul m).div_const H
    refine (d.cos.const_mul _).congr_deriv ?_
    field_simp
  rw [intervalIntegral.integral_eq_sub_of_hasDerivAt e (Continuous.intervalIntegrable (by fun_prop) _ _)]
  simp only [mul_zero, zero_div, cos_zero, mul_div_assoc, div_self hH, mul_one]; ring

theorem int_z_sin {H : ℝ} (hH : H ≠ 0) {m : ℝ} (hm : m ≠ 0) :
    ∫ z in (0:ℝ)..H, z * sin (m * z / H) = H ^ 2 / m ^ 2 * (sin m - m * cos m) := by
  have e : ∀ z ∈ Set.uIcc 0 H, HasDerivAt (fun z : ℝ => H ^ 2 / m ^ 2 * sin (m * z / H) - H / m * (z * cos (m * z / H))) (z * sin (m * z / H)) z := fun z _ => by
    have d : HasDerivAt (fun z : ℝ => m * z / H) (m / H) z := by simpa using ((hasDerivAt_id z).const_mul m).div_const H
    refine ((d.sin.const_mul _).sub (((hasDerivAt_id z).mul d.cos).const_mul _)).congr_deriv ?_
    simp only [id]
    field_simp
    ring
  rw [intervalIntegral.integral_eq_sub_of_hasDerivAt e (Continuous.intervalIntegrable (by fun_prop) _ _)]
  have : m * H / H = m := by field_simp
  simp only [mul_zero, zero_div, sin_zero, zero_mul, this]
  field_simp
  ring

/-- projection of a linear function on a mode -/
theorem int_lin_sin {H : ℝ} (hH : H ≠ 0) {m : ℝ} (hm : m ≠ 0) (A B : ℝ) :
    ∫ z in (0:ℝ)..H, (A + B * z) * sin (m * z / H) = A * (H / m * (1 - cos m)) + B * (H ^ 2 / m ^ 2 * (sin m - m * cos m)) := by
  have e : ∀ z, (A + B * z) * sin (m * z / H) = A * sin (m * z / H) + B * (z * sin (m * z / H)) := fun z => by ring
  simp_rw [e]
  rw [intervalIntegral.integral_add (Continuous.intervalIntegrable (by fun_prop) _ _) (Continuous.intervalIntegrable (by fun_prop) _ _),
    intervalIntegral.integral_const_mul, intervalIntegral.integral_const_mul, int_sin hH hm, int_z_sin hH hm]

/-- projection of a linear function plus a combination of the modes on one of the modes -/
theorem int_proj (a : ShanArgs) (hd : a.drn = 0 ∨ a.drn = 1) (hH : a.H ≠ 0) (n : ℕ) (A B : ℝ) (X : ℕ → ℝ) {j : ℕ} (hj : j < n) :
    ∫ z in (0:ℝ)..a.H, (A + B * z + ∑ k ∈ Finset.range n, X k * sin (a.M k * z / a.H)) * sin (a.M j * z / a.H) =
      A * (a.H / a.M j * (1 - cos (a.M j))) + B * (a.H ^ 2 / a.M j ^ 2 * (sin (a.M j) - a.M j * cos (a.M j))) + X j * (a.H / 2) := by
  have e : ∀ z, (A + B * z + ∑ k ∈ Finset.range n, X k * sin (a.M k * z / a.H)) * sin (a.M j * z / a.H) =
      (A + B * z) * sin (a.M j * z / a.H) + ∑ k ∈ Finset.range n, X k * (sin (a.M k * z / a.H) * sin (a.M j * z / a.H)) := fun z => by
    rw [add_mul, Finset.sum_mul]; congr 1; refine Finset.sum_congr rfl fun k _ => by ring
  simp_rw [e]
  rw [intervalIntegral.integral_add (Continuous.intervalIntegrable (by fun_prop) _ _) (Continuous.intervalIntegrable (by fun_prop) _ _),
    int_lin_sin hH (M_pos a j).ne', intervalIntegral.integral_finset_sum (fun k _ => Continuous.intervalIntegrable (by fun_prop) _ _)]
  congr 1
  simp_rw [intervalIntegral.integral_const_mul, orth a hd hH]
  rw [Finset.sum_eq_single j]
  · simp
  · intro k _ hk; simp [hk]
  · intro h; exact absurd (Finset.mem_range.2 hj) h

end ShanArgs
end Geotecha.Consol
