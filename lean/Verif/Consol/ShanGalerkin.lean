import Verif.Consol.ShanMode

/-! # shanetal2012 computes the spectral Galerkin solution -/

set_option autoImplicit false
set_option linter.unusedVariables false
open Real MeasureTheory
namespace Geotecha.Consol
open Geotecha (PyErr)
open Spec.Unsat (IsEig Problem)

namespace ShanArgs

/-- the problem with the loads already validated -/
noncomputable def prob (a : ShanArgs) (L : ShanLoads) : Problem where
  H := a.H
  Cw := a.Cw
  Cvw := a.Cvw
  Ca := a.Ca
  Cva := a.Cva
  Csw := a.Csw
  Csa := a.Csa
  impervious := a.drn = 1
  q := lval L.f
  top := fun l => lval (tops L l)
  bot := fun l => lval (bots L l)
  init := fun l z => if l = 0 then a.uwi.1 + (a.uwi.2 - a.uwi.1) * z / a.H else a.uai.1 + (a.uai.2 - a.uai.1) * z / a.H

theorem freq_eq (a : ShanArgs) (L : ShanLoads) (k : ℕ) : (a.prob L).freq k = a.M k := by
  unfold Problem.freq M
  by_cases h : a.drn = 1
  · rw [if_pos (show (a.prob L).impervious from h), if_pos h]; ring
  · rw [if_neg (show ¬ (a.prob L).impervious from h), if_neg h]

/-- value at the end of the layer -/
theorem sin_M (a : ShanArgs) (hd : a.drn = 0) (k : ℕ) : sin (a.M k) = 0 := by
  unfold M
  rw [if_neg (by omega)]
  have := sin_nat_mul_pi (k + 1)
  push_cast at this; exact this

theorem cos_M (a : ShanArgs) (hd : a.drn = 1) (k : ℕ) : cos (a.M k) = 0 := by
  unfold M
  rw [if_pos hd, cos_eq_zero_iff]
  exact ⟨k, by push_cast; ring⟩

theorem galerkin (a : ShanArgs) (r : EigRes) (L : ShanLoads) (hH : a.H ≠ 0) (hd : a.drn = 0 ∨ a.drn = 1)
    (hC : a.Cmat.det ≠ 0) (hr : IsEig a.Nmat r.eigs r.v) (h : ∀ k < a.nterms, a.RegAll r L (a.M k)) :
    (a.prob L).Galerkin a.nterms (fun l z t => a.u r L z t l) := by
  have hM : ∀ k, a.M k ≠ 0 := fun k => (M_pos a k).ne'
  have hMH : ∀ k, a.M k * a.H / a.H = a.M k := fun k => by field_simp
  refine ⟨fun l => ?_, fun l t => ?_, fun hp l t => ?_, fun hp l t => ?_, fun j hj t => ?_, fun j hj t => ?_, fun l j hj => ?_⟩
  · refine ⟨lval (tops L l), fun t => a.slope (lval (tops L l) t) (lval (bots L l) t),
      fun k t => if k < a.nterms then a.amp r L (a.M k) t l else 0, fun t => (hasDeriv_lval _ t).differentiableAt,
      fun t => (slope_deriv a (hasDeriv_lval _ t) (hasDeriv_lval _ t)).differentiableAt, fun k => ?_, fun z t => ?_⟩
    · by_cases hk : k < a.nterms
      · simp only [hk, if_true]
        exact fun t => (amp_deriv a r hr L (a.M k) (h k hk) t l).differentiableAt
      · simp only [hk, if_false]
        exact differentiable_const _
    · dsimp only
      rw [u_eq]
      congr 1
      refine Finset.sum_congr rfl fun k hk => ?_
      rw [if_pos (Finset.mem_range.1 hk), freq_eq]; rfl
  · rw [u_eq]
    simp [prob]
  · have hp' : a.drn = 0 := by
      rcases hd with h | h
      · exact h
      · exact absurd h hp
    change a.u r L a.H t l = lval (bots L l) t
    rw [u_eq]
    simp only [hMH, sin_M a hp', mul_zero, Finset.sum_const_zero]
    unfold slope
    rw [if_pos hp']
    field_simp
    ring
  · have hp' : a.drn = 1 := hp
    refine (u_dz a r L l a.H t).congr_deriv ?_
    simp only [hMH, cos_M a hp', zero_mul, mul_zero, Finset.sum_const_zero, add_zero]
    unfold slope
    rw [if_neg (by omega)]
    rfl
  · rw [freq_eq]
    have hHH : (a.prob L).H = a.H := rfl
    rw [hHH]
    have e : ∀ z, (a.prob L).resW (fun l z t => a.u r L z t l) z t =
        (ldval L.f1 t + a.Cw * ldval L.f2 t - a.Csw * ldval L.f t)
        + (a.slope (ldval L.f1 t) (ldval L.f3 t) + a.Cw * a.slope (ldval L.f2 t) (ldval L.f4 t)) * z
        + ∑ k ∈ Finset.range a.nterms, a.force L (a.M k) t 0 * sin (a.M k * z / a.H) := fun z => by
      unfold Problem.resW
      rw [(u_dt a r hr L h 0 z t).deriv, (u_dt a r hr L h 1 z t).deriv, u_dzz, show deriv (a.prob L).q t = ldval L.f t from (hasDeriv_lval L.f t).deriv]
      simp only [prob, tops, bots, Fin.isValue, if_true, Fin.reduceEq, if_false]
      have hs : ∑ k ∈ Finset.range a.nterms, a.damp r L (a.M k) t 0 * sin (a.M k * z / a.H)
          + a.Cw * ∑ k ∈ Finset.range a.nterms, a.damp r L (a.M k) t 1 * sin (a.M k * z / a.H)
          - a.Cvw * ∑ k ∈ Finset.range a.nterms, (a.M k / a.H) ^ 2 * a.amp r L (a.M k) t 0 * sin (a.M k * z / a.H)
          = ∑ k ∈ Finset.range a.nterms, a.force L (a.M k) t 0 * sin (a.M k * z / a.H) := by
        rw [Finset.mul_sum, Finset.mul_sum, ← Finset.sum_add_distrib, ← Finset.sum_sub_distrib]
        refine Finset.sum_congr rfl fun k _ => ?_
        linear_combination (damp_w a r L hC (a.M k) t) * sin (a.M k * z / a.H)
      linear_combination hs
    simp_rw [e]
    rw [int_proj a hd hH a.nterms _ _ (fun k => a.force L (a.M k) t 0) hj]
    have := hM j
    simp only [force, csigF, csig1, csig2, csig3, csig4, igralF, igralTop, igralBot, slope, Pi.add_apply, Pi.smul_apply,
      smul_eq_mul, Matrix.cons_val_zero]
    split_ifs <;> field_simp <;> ring
  · rw [freq_eq]
    have hHH : (a.prob L).H = a.H := rfl
    rw [hHH]
    have e : ∀ z, (a.prob L).resA (fun l z t => a.u r L z t l) z t =
        (a.Ca * ldval L.f1 t + ldval L.f2 t - a.Csa * ldval L.f t)
        + (a.Ca * a.slope (ldval L.f1 t) (ldval L.f3 t) + a.slope (ldval L.f2 t) (ldval L.f4 t)) * z
        + ∑ k ∈ Finset.range a.nterms, a.force L (a.M k) t 1 * sin (a.M k * z / a.H) := fun z => by
      unfold Problem.resA
      rw [(u_dt a r hr L h 0 z t).deriv, (u_dt a r hr L h 1 z t).deriv, u_dzz, show deriv (a.prob L).q t = ldval L.f t from (hasDeriv_lval L.f t).deriv]
      simp only [prob, tops, bots, Fin.isValue, if_true, Fin.reduceEq, if_false]
      have hs : a.Ca * ∑ k ∈ Finset.range a.nterms, a.damp r L (a.M k) t 0 * sin (a.M k * z / a.H)
          + ∑ k ∈ Finset.range a.nterms, a.damp r L (a.M k) t 1 * sin (a.M k * z / a.H)
          - a.Cva * ∑ k ∈ Finset.range a.nterms, (a.M k / a.H) ^ 2 * a.amp r L (a.M k) t 1 * sin (a.M k * z / a.H)
          = ∑ k ∈ Finset.range a.nterms, a.force L (a.M k) t 1 * sin (a.M k * z / a.H) := by
        rw [Finset.mul_sum, Finset.mul_sum, ← Finset.sum_add_distrib, ← Finset.sum_sub_distrib]
        refine Finset.sum_congr rfl fun k _ => ?_
        linear_combination (damp_a a r L hC (a.M k) t) * sin (a.M k * z / a.H)
      linear_combination hs
    simp_rw [e]
    rw [int_proj a hd hH a.nterms _ _ (fun k => a.force L (a.M k) t 1) hj]
    have := hM j
    simp only [force, csigF, csig1, csig2, csig3, csig4, igralF, igralTop, igralBot, slope, Pi.add_apply, Pi.smul_apply,
      smul_eq_mul, Matrix.cons_val_one]
    split_ifs <;> simp <;> field_simp <;> ring
  · rw [freq_eq]
    have hHH : (a.prob L).H = a.H := rfl
    rw [hHH]
    obtain ⟨x, y, hxy, hg⟩ : ∃ x y : ℝ, (∀ z, (a.prob L).init l z = x + (y - x) * z / a.H) ∧ a.X0 (a.M j) l = a.g (x, y) (a.M j) := by
      fin_cases l
      · exact ⟨a.uwi.1, a.uwi.2, fun z => by simp [prob], by simp [X0]⟩
      · exact ⟨a.uai.1, a.uai.2, fun z => by simp [prob], by simp [X0]⟩
    have e : ∀ z, (a.u r L z 0 l - (a.prob L).init l z) = -x + (-(y - x) / a.H) * z
        + ∑ k ∈ Finset.range a.nterms, a.X0 (a.M k) l * sin (a.M k * z / a.H) := fun z => by
      rw [u_eq, hxy]
      simp only [lval_zero, amp_zero a r hr.1]
      unfold slope
      split_ifs <;> ring
    simp_rw [e]
    rw [int_proj a hd hH a.nterms _ _ (fun k => a.X0 (a.M k) l) hj]
    rw [hg]
    have := hM j
    unfold g
    field_simp
    ring

end ShanArgs
end Geotecha.Consol
