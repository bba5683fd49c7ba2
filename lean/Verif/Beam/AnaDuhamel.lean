import Mathlib.Analysis.ODE.ExistUnique
import Mathlib.Analysis.Calculus.Deriv.Prod
import Mathlib.Analysis.SpecialFunctions.ExpDeriv
import Mathlib.MeasureTheory.Integral.IntervalIntegral.FundThmCalculus
import Mathlib.MeasureTheory.Integral.IntervalIntegral.DerivIntegrable
import Mathlib.LinearAlgebra.Matrix.NonsingularInverse
import Mathlib.Topology.Instances.Matrix
import Mathlib.Analysis.Normed.Module.FiniteDimension
import Mathlib.Analysis.Complex.RealDeriv

/-!
# Modal superposition with complex eigenvalues

`Γ A' + Ψ A = θ(t)` with real `Γ`, `Ψ`, solved by `A = v E (Γ v)⁻¹ θ`.
-/
set_option autoImplicit false
set_option linter.unusedVariables false

namespace Geotecha.Beam.Ana

open Complex intervalIntegral MeasureTheory

variable {ι : Type} [Fintype ι] [DecidableEq ι]

/-- Convolution of `g` with `exp(-c ·)`. -/
noncomputable def cdecay (g : ℝ → ℂ) (c : ℂ) (s t : ℝ) : ℂ := ∫ τ in s..t, g τ * exp (-c * ((t : ℂ) - τ))

theorem cdecay_eq (g : ℝ → ℂ) (c : ℂ) (s t : ℝ) : cdecay g c s t = exp (-(c * t)) * ∫ τ in s..t, g τ * exp (c * τ) := by
  unfold cdecay
  rw [← intervalIntegral.integral_const_mul]
  congr 1
  funext τ
  rw [show -c * ((t : ℂ) - τ) = -(c * t) + c * τ by ring, exp_add]
  ring

theorem int_mul_exp {g : ℝ → ℂ} (hg : ∀ a b, IntervalIntegrable g volume a b) (c : ℂ) (a b : ℝ) :
    IntervalIntegrable (fun τ : ℝ => g τ * exp (c * τ)) volume a b :=
  (hg a b).mul_continuousOn (Continuous.continuousOn (by fun_prop))

theorem cdecay_continuous {g : ℝ → ℂ} (hg : ∀ a b, IntervalIntegrable g volume a b) (c : ℂ) (s : ℝ) : Continuous (cdecay g c s) := by
  rw [show cdecay g c s = fun t : ℝ => exp (-(c * t)) * ∫ τ in s..t, g τ * exp (c * τ) from funext (cdecay_eq g c s)]
  exact Continuous.mul (by fun_prop) (continuous_primitive (int_mul_exp hg c) s)

theorem hd_exp_neg (c : ℂ) (t : ℝ) : HasDerivAt (fun r : ℝ => exp (-(c * r))) (-c * exp (-(c * t))) t := by
  have h1 : HasDerivAt (fun r : ℝ => -(c * (r : ℂ))) (-c) t :=
    ((((hasDerivAt_id t).ofReal_comp).const_mul c).fun_neg).congr_deriv (by simp)
  exact h1.cexp.congr_deriv (by ring)

theorem cdecay_deriv {g : ℝ → ℂ} (hg : ∀ a b, IntervalIntegrable g volume a b) (c : ℂ) (s t : ℝ) (ht : ContinuousAt g t) 
    (hm : StronglyMeasurableAtFilter g (nhds t) volume) :
    HasDerivAt (cdecay g c s) (-c * cdecay g c s t + g t) t := by
  rw [show cdecay g c s = fun t : ℝ => exp (-(c * t)) * ∫ τ in s..t, g τ * exp (c * τ) from funext (cdecay_eq g c s)]
  have h2 : HasDerivAt (fun t : ℝ => ∫ τ in s..t, g τ * exp (c * τ)) (g t * exp (c * t)) t := by
    refine integral_hasDerivAt_right (int_mul_exp hg c s t) ?_ (ht.mul (Continuous.continuousAt (by fun_prop)))
    obtain ⟨U, hU, hU'⟩ := hm
    exact ⟨U, hU, hU'.mul (Continuous.aestronglyMeasurable (by fun_prop))⟩
  refine ((hd_exp_neg c t).fun_mul h2).congr_deriv ?_
  have : exp (-(c * t)) * exp (c * t) = 1 := by rw [← exp_add]; simp
  linear_combination (g t) * this

/-- A locally integrable function is measurable near every point. -/
theorem smaf {g : ℝ → ℂ} (hg : ∀ a b, IntervalIntegrable g volume a b) (t : ℝ) : StronglyMeasurableAtFilter g (nhds t) volume := by
  refine ⟨Set.Ioc (t - 1) (t + 1), Ioc_mem_nhds (by linarith) (by linarith), ?_⟩
  exact ((intervalIntegrable_iff_integrableOn_Ioc_of_le (by linarith)).1 (hg (t - 1) (t + 1))).aestronglyMeasurable

/-- The real matrix as a complex one. -/
noncomputable abbrev cm (A : Matrix ι ι ℝ) : Matrix ι ι ℂ := A.map ofReal

/-- What `np.linalg.eig` and the inverse give: `Γ⁻¹ Ψ v = v Λ`, and `W = (Γ v)⁻¹`. -/
structure Modal (gam psi : Matrix ι ι ℝ) (eigs : ι → ℂ) (v W : Matrix ι ι ℂ) : Prop where
  eig : cm psi * v = cm gam * v * Matrix.diagonal eigs
  left : cm gam * v * W = 1

/-- The kernel `v exp(-Λ r) W`. -/
noncomputable def kern (eigs : ι → ℂ) (v W : Matrix ι ι ℂ) (r : ℝ) : Matrix ι ι ℂ :=
  v * Matrix.diagonal (fun j => exp (-(eigs j * r))) * W

theorem kern_deriv (eigs : ι → ℂ) (v W : Matrix ι ι ℂ) (r : ℝ) (k i : ι) :
    HasDerivAt (fun r => kern eigs v W r k i) ((v * Matrix.diagonal (fun j => -eigs j * exp (-(eigs j * r))) * W) k i) r := by
  have e : ∀ d : ι → ℂ, (v * Matrix.diagonal d * W) k i = ∑ j, v k j * d j * W j i := fun d => by
    rw [Matrix.mul_apply]
    exact Finset.sum_congr rfl fun j _ => by rw [Matrix.mul_diagonal]
  unfold kern
  simp only [e]
  exact HasDerivAt.fun_sum fun j _ => ((hd_exp_neg (eigs j) r).const_mul (v k j)).mul_const (W j i)

/-- The kernel is real. -/
theorem kern_real {gam psi : Matrix ι ι ℝ} {eigs : ι → ℂ} {v W : Matrix ι ι ℂ} (h : Modal gam psi eigs v W) (r : ℝ) (k i : ι) :
    (kern eigs v W r k i).im = 0 := by
  have hg : IsUnit (cm gam).det := by
    rw [isUnit_iff_ne_zero]
    intro h0
    have := congrArg Matrix.det h.left
    rw [Matrix.det_mul, Matrix.det_mul, h0] at this
    simp at this
  have hgr : IsUnit gam.det := by
    have : (cm gam).det = ((gam.det : ℝ) : ℂ) := ((ofRealHom.map_det gam).symm)
    rw [this, isUnit_iff_ne_zero] at hg
    exact isUnit_iff_ne_zero.2 fun h0 => hg (by rw [h0]; simp)
  set A := gam⁻¹ * psi with hA
  have hAv : cm A * v = v * Matrix.diagonal eigs := by
    have e1 : cm gam * (cm A * v) = cm gam * (v * Matrix.diagonal eigs) := by
      rw [← Matrix.mul_assoc, show cm gam * cm A = cm psi from by
        rw [hA]
        show gam.map ofRealHom * (gam⁻¹ * psi).map ofRealHom = psi.map ofRealHom
        rw [← Matrix.map_mul, ← Matrix.mul_assoc, Matrix.mul_nonsing_inv _ hgr, Matrix.one_mul], h.eig, Matrix.mul_assoc]
    have := congrArg (fun X => (cm gam)⁻¹ * X) e1
    simpa only [← Matrix.mul_assoc, Matrix.nonsing_inv_mul _ hg, Matrix.one_mul] using this
  have hvW : v * W = (cm gam)⁻¹ := by
    have := congrArg (fun X => (cm gam)⁻¹ * X) h.left
    simpa only [← Matrix.mul_assoc, Matrix.nonsing_inv_mul _ hg, Matrix.one_mul, Matrix.mul_one] using this
  have hinv : (cm gam)⁻¹ = cm gam⁻¹ := by
    refine Matrix.inv_eq_right_inv ?_
    show gam.map ofRealHom * gam⁻¹.map ofRealHom = 1
    rw [← Matrix.map_mul, Matrix.mul_nonsing_inv _ hgr, Matrix.map_one _ (by simp) (by simp)]
  -- the imaginary part of column i solves y' = -A y, y(0) = 0
  set y : ℝ → ι → ℝ := fun r k => (kern eigs v W r k i).im with hy
  have hode : ∀ r, HasDerivAt y (-(A.mulVec (y r))) r := by
    intro r
    rw [hasDerivAt_pi]
    intro k
    have h1 := kern_deriv eigs v W r k i
    have h2 : HasDerivAt (fun r => (kern eigs v W r k i).im) _ r := (imCLM.hasFDerivAt.comp_hasDerivAt r h1)
    refine h2.congr_deriv ?_
    have e : v * Matrix.diagonal (fun j => -eigs j * exp (-(eigs j * r))) * W = -(cm A * kern eigs v W r) := by
      unfold kern
      rw [← Matrix.mul_assoc, ← Matrix.mul_assoc, hAv, Matrix.mul_assoc v (Matrix.diagonal eigs), Matrix.diagonal_mul_diagonal, ← Matrix.neg_mul, ← Matrix.mul_neg,
        Matrix.diagonal_neg]
      congr 3
      funext j
      simp
    rw [e]
    simp only [imCLM_apply, Matrix.neg_apply, neg_im, Pi.neg_apply, Matrix.mul_apply, im_sum, Matrix.mulVec, dotProduct, Matrix.map_apply,
      im_ofReal_mul, hy]
  have h0 : y 0 = 0 := by
    funext k
    have : kern eigs v W 0 = cm gam⁻¹ := by
      unfold kern
      simp only [ofReal_zero, mul_zero, neg_zero, exp_zero, Matrix.diagonal_one, Matrix.mul_one]
      rw [hvW, hinv]
    simp [hy, this]
  set Lc : (ι → ℝ) →L[ℝ] (ι → ℝ) := LinearMap.toContinuousLinearMap (-(Matrix.mulVecLin A)) with hL
  have hz : y = fun _ => 0 := by
    refine ODE_solution_unique_univ (v := fun _ Y => Lc Y) (s := fun _ => Set.univ) (t₀ := 0) (K := ‖Lc‖₊) (fun t => (Lc.lipschitz.lipschitzOnWith)) (fun t => ⟨?_, trivial⟩)
      (fun t => ⟨?_, trivial⟩) h0
    · exact (hode t).congr_deriv (by simp [hL])
    · exact (hasDerivAt_const t (0 : ι → ℝ)).congr_deriv (by simp)
  exact congrFun (congrFun hz r) k

/-- `v E (Γ v)⁻¹ θ`, with `E` the convolution with the decay from `s`. -/
noncomputable def sol (eigs : ι → ℂ) (v W : Matrix ι ι ℂ) (θ : ι → ℝ → ℝ) (s t : ℝ) (k : ι) : ℂ :=
  ∑ j, v k j * cdecay (fun τ => ∑ i, W j i * (θ i τ : ℂ)) (eigs j) s t

variable {gam psi : Matrix ι ι ℝ} {eigs : ι → ℂ} {v W : Matrix ι ι ℂ} {θ : ι → ℝ → ℝ}

theorem force_int (hθ : ∀ i a b, IntervalIntegrable (θ i) volume a b) (j : ι) (a b : ℝ) :
    IntervalIntegrable (fun τ => ∑ i, W j i * (θ i τ : ℂ)) volume a b := by
  have : IntervalIntegrable (∑ i, fun τ => W j i * (θ i τ : ℂ)) volume a b :=
    IntervalIntegrable.sum _ fun i _ => (show IntervalIntegrable (fun τ => (θ i τ : ℂ)) volume a b from ⟨(hθ i a b).1.ofReal, (hθ i a b).2.ofReal⟩).const_mul _
  convert this using 1
  funext τ
  simp

theorem sol_continuous (hθ : ∀ i a b, IntervalIntegrable (θ i) volume a b) (s : ℝ) (k : ι) : Continuous fun t => sol eigs v W θ s t k :=
  continuous_finsetSum _ fun j _ => continuous_const.mul (cdecay_continuous (force_int hθ j) _ _)

/-- The solution is real. -/
theorem sol_real (h : Modal gam psi eigs v W) (hθ : ∀ i a b, IntervalIntegrable (θ i) volume a b) (s t : ℝ) (k : ι) :
    (sol eigs v W θ s t k).im = 0 := by
  have e : sol eigs v W θ s t k = ∫ τ in s..t, ∑ i, kern eigs v W (t - τ) k i * (θ i τ : ℂ) := by
    unfold sol cdecay
    simp only [← intervalIntegral.integral_const_mul]
    rw [← intervalIntegral.integral_finsetSum]
    · congr 1
      funext τ
      simp only [Finset.sum_mul, Finset.mul_sum, kern]
      rw [Finset.sum_comm]
      refine Finset.sum_congr rfl fun i _ => ?_
      rw [Matrix.mul_apply, Finset.sum_mul]
      refine Finset.sum_congr rfl fun j _ => ?_
      rw [Matrix.mul_diagonal]
      push_cast
      ring_nf
    · intro j _
      exact (((force_int hθ j) s t).mul_continuousOn (Continuous.continuousOn (by fun_prop))).const_mul _
  rw [e]
  have e2 : ∀ τ, (∑ i, kern eigs v W (t - τ) k i * (θ i τ : ℂ)) = ((∑ i, (kern eigs v W (t - τ) k i).re * θ i τ : ℝ) : ℂ) := fun τ => by
    push_cast
    refine Finset.sum_congr rfl fun i _ => ?_
    congr 1
    apply Complex.ext <;> simp [kern_real h]
  simp only [e2]
  rw [intervalIntegral.integral_ofReal]
  exact ofReal_im _

omit [DecidableEq ι] in
theorem sol_start (s T : ℝ) (hsT : s ≤ T) (h0 : ∀ i, ∀ τ, s < τ → τ < T → θ i τ = 0) (k : ι) : sol eigs v W θ s T k = 0 := by
  unfold sol cdecay
  refine Finset.sum_eq_zero fun j _ => ?_
  rw [intervalIntegral.integral_of_le hsT, integral_Ioc_eq_integral_Ioo, setIntegral_congr_fun measurableSet_Ioo (g := fun _ => 0)]
  · simp
  · intro τ hτ
    simp [h0 _ τ hτ.1 hτ.2]

/-- `Γ A' + Ψ A = θ` wherever the load is continuous. -/
theorem sol_ode (h : Modal gam psi eigs v W) (hθ : ∀ i a b, IntervalIntegrable (θ i) volume a b) (s t : ℝ) (ht : ∀ i, ContinuousAt (θ i) t) :
    ∃ d : ι → ℝ, (∀ k, HasDerivAt (fun r => (sol eigs v W θ s r k).re) (d k) t) ∧
      ∀ k, (∑ i, gam k i * d i) + (∑ i, psi k i * (sol eigs v W θ s t i).re) = θ k t := by
  set F : ι → ℂ := fun j => cdecay (fun τ => ∑ i, W j i * (θ i τ : ℂ)) (eigs j) s t with hF
  set f : ι → ℂ := fun j => ∑ i, W j i * (θ i t : ℂ) with hf
  set D : ι → ℂ := v.mulVec fun j => -eigs j * F j + f j with hD
  have hd : ∀ k, HasDerivAt (fun r => sol eigs v W θ s r k) (D k) t := fun k => by
    unfold sol
    refine HasDerivAt.fun_sum fun j _ => ?_
    refine HasDerivAt.const_mul _ (cdecay_deriv (force_int hθ j) _ _ _ ?_ (smaf (force_int hθ j) t))
    have : ∀ i, ContinuousAt (fun τ => W j i * (θ i τ : ℂ)) t := fun i =>
      continuousAt_const.mul (Complex.continuous_ofReal.continuousAt.comp (ht i))
    exact tendsto_finsetSum _ fun i _ => this i
  have hQ : (fun k => sol eigs v W θ s t k) = v.mulVec F := by
    funext k; rfl
  have key : (cm gam).mulVec D + (cm psi).mulVec (fun k => sol eigs v W θ s t k) = fun k => (θ k t : ℂ) := by
    have e1 : (fun j => -eigs j * F j + f j) = -((Matrix.diagonal eigs).mulVec F) + W.mulVec fun i => (θ i t : ℂ) := by
      funext j
      rw [Pi.add_apply, Pi.neg_apply, Matrix.mulVec_diagonal]
      simp [hf, Matrix.mulVec, dotProduct]
    rw [hQ, hD, e1, Matrix.mulVec_mulVec, Matrix.mulVec_mulVec, h.eig, Matrix.mulVec_add, Matrix.mulVec_neg, Matrix.mulVec_mulVec,
      Matrix.mulVec_mulVec, h.left, Matrix.one_mulVec]
    abel
  refine ⟨fun k => (D k).re, fun k => reCLM.hasFDerivAt.comp_hasDerivAt t (hd k), fun k => ?_⟩
  have := congrArg re (congrFun key k)
  simpa [Matrix.mulVec, dotProduct, re_sum] using this

end Geotecha.Beam.Ana
