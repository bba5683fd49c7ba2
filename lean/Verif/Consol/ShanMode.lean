import Verif.Consol.ShanProps

/-! # The pore pressures computed by shanetal2012 as a linear function plus modes -/

set_option autoImplicit false
set_option linter.unusedVariables false
open Real MeasureTheory
namespace Geotecha.Consol
open Geotecha (PyErr)
open Spec.Unsat (IsEig)

/-- value of an optional load -/
noncomputable def lval : Option ShanLoad → ℝ → ℝ
  | none, _ => 0
  | some L, t => L.value t

/-- rate of an optional load -/
noncomputable def ldval : Option ShanLoad → ℝ → ℝ
  | none, _ => 0
  | some L, t => L.dvalue t

theorem hasDeriv_lval (L : Option ShanLoad) (t : ℝ) : HasDerivAt (lval L) (ldval L t) t := by
  cases L with
  | none => exact hasDerivAt_const t 0
  | some L => exact L.hasDeriv_value t

theorem lval_zero (L : Option ShanLoad) : lval L 0 = 0 := by
  cases L with
  | none => rfl
  | some L => exact L.value_zero

namespace ShanArgs

theorem homTerm_eq (L : Option ShanLoad) (s : ℝ → ℝ) (z t : ℝ) : homTerm L s z t = lval L t * s z := by
  cases L <;> simp [homTerm, lval]

/-- regularity of an optional load at one mode -/
def Reg (a : ShanArgs) (r : EigRes) (L : Option ShanLoad) (M : ℝ) : Prop :=
  ∀ L', L = some L' → ∀ p, L'.Regular (r.eigs p) (M / a.H)

theorem loadMode_deriv (a : ShanArgs) (r : EigRes) (hr : IsEig a.Nmat r.eigs r.v) (c : Vec2) (ig : ℝ → ℝ)
    (L : Option ShanLoad) (M : ℝ) (h : a.Reg r L M) (t : ℝ) (l : Fin 2) :
    HasDerivAt (fun t => a.loadMode r c ig L M t l)
      (((M / a.H) ^ 2 • a.Nmat.mulVec (a.loadMode r c ig L M t) + (ldval L t * ig M) • (a.Cmat⁻¹).mulVec c) l) t := by
  cases L with
  | none =>
    simp only [loadMode, ldval]
    refine (hasDerivAt_const t (0:ℝ)).congr_deriv ?_
    simp
  | some L =>
    have h1 : ∀ p, HasDerivAt (fun t => a.E r L M t p) ((M / a.H) ^ 2 * (r.eigs p * a.E r L M t p) + L.dvalue t * 1) t := fun p =>
      (L.hasDeriv_Edt (r.eigs p) (M / a.H) (h L rfl p) t).congr_deriv (by unfold E; ring)
    refine (hasDeriv_evolve r (fun t => a.E r L M t) _ (fun l => ig M * (a.Cmat⁻¹).mulVec c l) t h1 l).congr_deriv ?_
    rw [evolve_add r (fun p => (M / a.H) ^ 2 * (r.eigs p * a.E r L M t p)) (fun p => L.dvalue t * 1),
      evolve_smul r _ (fun p => r.eigs p * a.E r L M t p), evolve_smul r _ (fun _ => 1), evolve_eigs r hr, evolve_one r _ hr.1]
    simp only [loadMode, ldval, Pi.add_apply, Pi.smul_apply, smul_eq_mul]
    ring

theorem loadMode_zero (a : ShanArgs) (r : EigRes) (c : Vec2) (ig : ℝ → ℝ) (L : Option ShanLoad) (M : ℝ) :
    a.loadMode r c ig L M 0 = 0 := by
  cases L with
  | none => rfl
  | some L =>
    have : a.E r L M 0 = fun _ => 0 := by funext p; exact L.Edt_zero _ _
    simp only [loadMode]
    rw [this]; exact evolve_zero r _

/-- the amplitude of the mode `M` -/
noncomputable def amp (a : ShanArgs) (r : EigRes) (L : ShanLoads) (M t : ℝ) : Vec2 :=
  evolve r (a.E0 r M t) (a.X0 M) + a.loadMode r a.csigF igralF L.f M t + a.loadMode r a.csig1 a.igralTop L.f1 M t
    + a.loadMode r a.csig2 a.igralTop L.f2 M t + a.loadMode r a.csig3 a.igralBot L.f3 M t + a.loadMode r a.csig4 a.igralBot L.f4 M t

/-- the forcing of the mode `M` -/
noncomputable def force (a : ShanArgs) (L : ShanLoads) (M t : ℝ) : Vec2 :=
  (ldval L.f t * igralF M) • a.csigF + (ldval L.f1 t * a.igralTop M) • a.csig1 + (ldval L.f2 t * a.igralTop M) • a.csig2
    + (ldval L.f3 t * a.igralBot M) • a.csig3 + (ldval L.f4 t * a.igralBot M) • a.csig4

/-- the rate of the amplitude -/
noncomputable def damp (a : ShanArgs) (r : EigRes) (L : ShanLoads) (M t : ℝ) : Vec2 :=
  (M / a.H) ^ 2 • a.Nmat.mulVec (a.amp r L M t) + (a.Cmat⁻¹).mulVec (a.force L M t)

/-- all loads regular at one mode -/
def RegAll (a : ShanArgs) (r : EigRes) (L : ShanLoads) (M : ℝ) : Prop :=
  a.Reg r L.f M ∧ a.Reg r L.f1 M ∧ a.Reg r L.f2 M ∧ a.Reg r L.f3 M ∧ a.Reg r L.f4 M

theorem amp_deriv (a : ShanArgs) (r : EigRes) (hr : IsEig a.Nmat r.eigs r.v) (L : ShanLoads) (M : ℝ) (h : a.RegAll r L M)
    (t : ℝ) (l : Fin 2) : HasDerivAt (fun t => a.amp r L M t l) (a.damp r L M t l) t := by
  have h0 : HasDerivAt (fun t => evolve r (a.E0 r M t) (a.X0 M) l) (((M / a.H) ^ 2 • a.Nmat.mulVec (evolve r (a.E0 r M t) (a.X0 M))) l) t := by
    have h1 : ∀ p, HasDerivAt (fun t => a.E0 r M t p) ((M / a.H) ^ 2 * (r.eigs p * a.E0 r M t p)) t := fun p => by
      have d : HasDerivAt (fun t : ℝ => M ^ 2 / a.H ^ 2 * r.eigs p * t) (M ^ 2 / a.H ^ 2 * r.eigs p) t := by
        simpa using (hasDerivAt_id t).const_mul (M ^ 2 / a.H ^ 2 * r.eigs p)
      refine d.exp.congr_deriv ?_
      unfold E0; rw [div_pow]; ring
    refine (hasDeriv_evolve r (fun t => a.E0 r M t) _ (a.X0 M) t h1 l).congr_deriv ?_
    rw [evolve_smul r _ (fun p => r.eigs p * a.E0 r M t p), evolve_eigs r hr]
  have hf := loadMode_deriv a r hr a.csigF igralF L.f M h.1 t l
  have h1 := loadMode_deriv a r hr a.csig1 a.igralTop L.f1 M h.2.1 t l
  have h2 := loadMode_deriv a r hr a.csig2 a.igralTop L.f2 M h.2.2.1 t l
  have h3 := loadMode_deriv a r hr a.csig3 a.igralBot L.f3 M h.2.2.2.1 t l
  have h4 := loadMode_deriv a r hr a.csig4 a.igralBot L.f4 M h.2.2.2.2 t l
  refine (((((h0.add hf).add h1).add h2).add h3).add h4).congr_deriv ?_
  simp only [damp, amp, force, Matrix.mulVec_add, Matrix.mulVec_smul, Pi.add_apply, Pi.smul_apply, smul_eq_mul]
  ring

theorem Cmat_det (a : ShanArgs) : a.Cmat.det = 1 - a.Cw * a.Ca := by
  simp [Cmat, Matrix.det_fin_two]

/-- the coupled equations of one mode -/
theorem damp_eq (a : ShanArgs) (r : EigRes) (L : ShanLoads) (hC : a.Cmat.det ≠ 0) (M t : ℝ) :
    a.Cmat.mulVec (a.damp r L M t) = (M / a.H) ^ 2 • a.Kmat.mulVec (a.amp r L M t) + a.force L M t := by
  unfold damp Nmat
  rw [Matrix.mulVec_add, Matrix.mulVec_smul, Matrix.mulVec_mulVec, Matrix.mulVec_mulVec, ← Matrix.mul_assoc,
    Matrix.mul_nonsing_inv _ (Ne.isUnit hC), Matrix.one_mul, Matrix.one_mulVec]

theorem damp_w (a : ShanArgs) (r : EigRes) (L : ShanLoads) (hC : a.Cmat.det ≠ 0) (M t : ℝ) :
    a.damp r L M t 0 + a.Cw * a.damp r L M t 1 = (M / a.H) ^ 2 * (a.Cvw * a.amp r L M t 0) + a.force L M t 0 := by
  have h := congrFun (damp_eq a r L hC M t) 0
  simpa [Matrix.mulVec, dotProduct, Fin.sum_univ_two, Cmat, Kmat] using h

theorem damp_a (a : ShanArgs) (r : EigRes) (L : ShanLoads) (hC : a.Cmat.det ≠ 0) (M t : ℝ) :
    a.Ca * a.damp r L M t 0 + a.damp r L M t 1 = (M / a.H) ^ 2 * (a.Cva * a.amp r L M t 1) + a.force L M t 1 := by
  have h := congrFun (damp_eq a r L hC M t) 1
  simpa [Matrix.mulVec, dotProduct, Fin.sum_univ_two, Cmat, Kmat] using h

theorem amp_zero (a : ShanArgs) (r : EigRes) (hr : r.v.det ≠ 0) (L : ShanLoads) (M : ℝ) : a.amp r L M 0 = a.X0 M := by
  unfold amp
  simp only [loadMode_zero, add_zero]
  have : a.E0 r M 0 = fun _ => 1 := by funext p; simp [E0]
  rw [this, evolve_one r _ hr]

/-- pressures at the top -/
noncomputable def tops (L : ShanLoads) (l : Fin 2) : Option ShanLoad := if l = 0 then L.f1 else L.f2
/-- pressures or gradients at the bottom -/
noncomputable def bots (L : ShanLoads) (l : Fin 2) : Option ShanLoad := if l = 0 then L.f3 else L.f4

/-- slope of the linear part -/
noncomputable def slope (a : ShanArgs) (x y : ℝ) : ℝ := if a.drn = 0 then (y - x) / a.H else y

theorem list_sum_range (n : ℕ) (f : ℕ → ℝ) : ((List.range n).map f).sum = ∑ k ∈ Finset.range n, f k := by
  rw [← List.sum_toFinset _ List.nodup_range]
  congr 1; ext x; simp

theorem u_eq (a : ShanArgs) (r : EigRes) (L : ShanLoads) (l : Fin 2) (z t : ℝ) :
    a.u r L z t l = lval (tops L l) t + a.slope (lval (tops L l) t) (lval (bots L l) t) * z
      + ∑ k ∈ Finset.range a.nterms, a.amp r L (a.M k) t l * sin (a.M k * z / a.H) := by
  have hs : ∑ k ∈ Finset.range a.nterms, a.amp r L (a.M k) t l * sin (a.M k * z / a.H) =
      a.modeSum (fun M t => evolve r (a.E0 r M t) (a.X0 M)) z t l + a.modeSum (a.loadMode r a.csigF igralF L.f) z t l
      + a.modeSum (a.loadMode r a.csig1 a.igralTop L.f1) z t l + a.modeSum (a.loadMode r a.csig2 a.igralTop L.f2) z t l
      + a.modeSum (a.loadMode r a.csig3 a.igralBot L.f3) z t l + a.modeSum (a.loadMode r a.csig4 a.igralBot L.f4) z t l := by
    simp only [modeSum, list_sum_range, ← Finset.sum_add_distrib]
    refine Finset.sum_congr rfl fun k _ => ?_
    simp only [amp, Pi.add_apply]; ring
  rw [hs]
  have hh : ∀ x y : ℝ, x * a.homTop z + y * a.homBot z = x + a.slope x y * z := fun x y => by
    unfold homTop homBot slope
    split_ifs <;> ring
  unfold u
  simp only [homTerm_eq]
  fin_cases l
  · have := hh (lval L.f1 t) (lval L.f3 t)
    simp only [tops, bots, Fin.zero_eta, Fin.isValue, if_true, Fin.reduceEq, if_false]
    linear_combination this
  · have := hh (lval L.f2 t) (lval L.f4 t)
    simp only [tops, bots, Fin.mk_one, Fin.isValue, if_true, Fin.reduceEq, if_false]
    linear_combination this

theorem slope_deriv (a : ShanArgs) {f g : ℝ → ℝ} {f' g' t : ℝ} (hf : HasDerivAt f f' t) (hg : HasDerivAt g g' t) :
    HasDerivAt (fun t => a.slope (f t) (g t)) (a.slope f' g') t := by
  unfold slope
  split_ifs
  · exact (hg.sub hf).div_const _
  · exact hg

theorem u_dt (a : ShanArgs) (r : EigRes) (hr : IsEig a.Nmat r.eigs r.v) (L : ShanLoads)
    (h : ∀ k < a.nterms, a.RegAll r L (a.M k)) (l : Fin 2) (z t : ℝ) :
    HasDerivAt (fun s => a.u r L z s l) (ldval (tops L l) t + a.slope (ldval (tops L l) t) (ldval (bots L l) t) * z
      + ∑ k ∈ Finset.range a.nterms, a.damp r L (a.M k) t l * sin (a.M k * z / a.H)) t := by
  simp_rw [u_eq]
  refine ((hasDeriv_lval _ t).add ((slope_deriv a (hasDeriv_lval _ t) (hasDeriv_lval _ t)).mul_const z)).add ?_
  refine HasDerivAt.fun_sum fun k hk => ?_
  exact (amp_deriv a r hr L (a.M k) (h k (Finset.mem_range.1 hk)) t l).mul_const _

theorem u_dz (a : ShanArgs) (r : EigRes) (L : ShanLoads) (l : Fin 2) (z t : ℝ) :
    HasDerivAt (fun z => a.u r L z t l) (a.slope (lval (tops L l) t) (lval (bots L l) t)
      + ∑ k ∈ Finset.range a.nterms, a.amp r L (a.M k) t l * (cos (a.M k * z / a.H) * (a.M k / a.H))) z := by
  simp_rw [u_eq]
  refine HasDerivAt.add ?_ ?_
  · simpa using ((hasDerivAt_id z).const_mul (a.slope (lval (tops L l) t) (lval (bots L l) t))).const_add (lval (tops L l) t)
  · refine HasDerivAt.fun_sum fun k hk => ?_
    have d : HasDerivAt (fun z : ℝ => a.M k * z / a.H) (a.M k / a.H) z := by simpa using ((hasDerivAt_id z).const_mul (a.M k)).div_const a.H
    exact d.sin.const_mul _

theorem u_dzz (a : ShanArgs) (r : EigRes) (L : ShanLoads) (l : Fin 2) (z t : ℝ) :
    deriv (deriv (fun x => a.u r L x t l)) z =
      -∑ k ∈ Finset.range a.nterms, (a.M k / a.H) ^ 2 * a.amp r L (a.M k) t l * sin (a.M k * z / a.H) := by
  have e : deriv (fun x => a.u r L x t l) = fun z => a.slope (lval (tops L l) t) (lval (bots L l) t)
      + ∑ k ∈ Finset.range a.nterms, a.amp r L (a.M k) t l * (cos (a.M k * z / a.H) * (a.M k / a.H)) := by
    funext z; exact (u_dz a r L l z t).deriv
  rw [e]
  have : HasDerivAt (fun z => a.slope (lval (tops L l) t) (lval (bots L l) t)
      + ∑ k ∈ Finset.range a.nterms, a.amp r L (a.M k) t l * (cos (a.M k * z / a.H) * (a.M k / a.H)))
      (∑ k ∈ Finset.range a.nterms, -((a.M k / a.H) ^ 2 * a.amp r L (a.M k) t l * sin (a.M k * z / a.H))) z := by
    refine HasDerivAt.const_add _ (HasDerivAt.fun_sum fun k hk => ?_)
    have d : HasDerivAt (fun z : ℝ => a.M k * z / a.H) (a.M k / a.H) z := by simpa using ((hasDerivAt_id z).const_mul (a.M k)).div_const a.H
    refine ((d.cos.mul_const _).const_mul _).congr_deriv ?_
    ring
  rw [this.deriv, Finset.sum_neg_distrib]

end ShanArgs
end Geotecha.Consol
