import Verif.Consol.DengProps

/-!
# C130: `dengetal2014`
-/

set_option linter.unusedVariables false
open Real
namespace Geotecha.Consol
open Geotecha (PyErr)
namespace Deng

theorem M_pos (m : ℕ) : 0 < M m := by unfold M; positivity

theorem cos_M (m : ℕ) : cos (M m) = 0 := by
  rw [cos_eq_zero_iff]
  refine ⟨m, ?_⟩
  unfold M
  push_cast
  ring

theorem n2_pos (o : Deng) (h : o.Valid) : 0 < o.n ^ 2 - 1 := by
  have := o.n_gt h
  nlinarith

theorem C0_pos (o : Deng) (h : o.Valid) (m0 : ℝ) (hm : 0 < m0) (m : ℕ) : 0 < o.C0 m0 m := by
  have h1 := M_pos m; have h2 := o.n2_pos h; have h3 := o.qw0_pos h; have h4 := h.hkh; have h5 := h.hH
  have h6 : 0 < o.n := by linarith [o.n_gt h]
  unfold C0 G0
  positivity

/-- Time factor of one term, with `ui`. -/
theorem term_eq (o : Deng) (m0 z t : ℝ) (m : ℕ) : o.ui * o.term14 m0 z t m = 2 / M m * sin (M m * (z / o.H)) * o.porAlp m0 (o.C0 m0 m) t := by
  unfold term14 porAlp
  ring

/-- Drain pressure that belongs to one term. -/
noncomputable def wTerm (o : Deng) (m0 z t : ℝ) (m : ℕ) : ℝ :=
  2 / M m * sin (M m * (z / o.H)) * (o.porAlp m0 (o.C0 m0 m) t * (exp (o.A3 * t) / (o.C0 m0 m + exp (o.A3 * t))))

theorem sin_deriv (a c z : ℝ) : HasDerivAt (fun z => sin (a * (z / c))) (cos (a * (z / c)) * (a / c)) z := by
  have : HasDerivAt (fun z => a * (z / c)) (a / c) z := by
    simpa [div_eq_mul_inv] using ((hasDerivAt_id z).div_const c).const_mul a
  exact this.sin

theorem cos_deriv (a c z : ℝ) : HasDerivAt (fun z => cos (a * (z / c))) (-sin (a * (z / c)) * (a / c)) z := by
  have : HasDerivAt (fun z => a * (z / c)) (a / c) z := by
    simpa [div_eq_mul_inv] using ((hasDerivAt_id z).div_const c).const_mul a
  exact this.cos

/-- With a capacity that decays (`A3 > 0`) the sum returned, whatever the number of terms, is the average pore pressure of a pair that obeys
the coupled equations of soil and drain, with the series of a uniform pressure `ui` at the start. -/
theorem C130_pair (o : Deng) (h : o.Valid) (hA3 : 0 < o.A3) (nterms : ℕ) : ∃ m, o.mu0 = .ok m ∧ 0 < m ∧ ∃ u w : ℝ → ℝ → ℝ,
    Spec.IsDrainPair o.ch o.kh o.re o.rw o.H m (fun t => o.kw0 * exp (-o.A3 * t)) u w ∧
    (∀ z, u z 0 = o.ui * ∑ k ∈ Finset.range nterms, 2 / ((2 * k + 1) / 2 * π) * sin ((2 * k + 1) / 2 * π * (z / o.H))) ∧
    ∀ zs ts, o.call14 nterms zs ts = .ok (zs.map fun z => ts.map fun t => u z t) := by
  obtain ⟨m, hm, hmp⟩ := o.mu0_pos h
  have hH := h.hH; have hre : 0 < o.re := h.hrw.trans h.hre
  have hrw := h.hrw; have hkw := h.hkw; have hkh := h.hkh
  have hP : ∀ k, Spec.IsHansbo o.ch o.re o.ui (fun t => m + m / o.C0 m k * exp (o.A3 * t)) (o.porAlp m (o.C0 m k)) := by
    intro k
    have hC := o.C0_pos h m hmp k
    have := o.hansbo_alp h hA3 m (m / o.C0 m k) hmp (div_pos hmp hC)
    have e : m / (m / o.C0 m k) = o.C0 m k := by field_simp
    rw [e] at this
    exact this
  refine ⟨m, hm, hmp, fun z t => o.ui * ∑ k ∈ Finset.range nterms, o.term14 m z t k, fun z t => ∑ k ∈ Finset.range nterms, o.wTerm m z t k, ?_, ?_, ?_⟩
  · refine ⟨fun z t => ?_, fun z t => ?_, fun t => ?_⟩
    · simp only [Finset.mul_sum, term_eq]
      have hd : ∀ k ∈ Finset.range nterms, HasDerivAt (fun t => 2 / M k * sin (M k * (z / o.H)) * o.porAlp m (o.C0 m k) t)
          (2 / M k * sin (M k * (z / o.H)) * (-(2 * o.ch / o.re ^ 2) * (o.porAlp m (o.C0 m k) t / (m + m / o.C0 m k * exp (o.A3 * t))))) t :=
        fun k _ => ((hP k).2 t).const_mul _
      refine (HasDerivAt.fun_sum hd).congr_deriv ?_
      rw [← Finset.sum_sub_distrib, Finset.mul_sum]
      refine Finset.sum_congr rfl fun k _ => ?_
      unfold wTerm
      have hC := o.C0_pos h m hmp k
      have hE := exp_pos (o.A3 * t)
      generalize exp (o.A3 * t) = E at *
      generalize o.C0 m k = C at *
      generalize o.porAlp m C t = P
      generalize 2 / M k * sin (M k * (z / o.H)) = S
      have h1 : m + m / C * E = m * (C + E) / C := by field_simp
      have h2 : P - P * (E / (C + E)) = P * (C / (C + E)) := by field_simp; ring
      have h3 : S * P - S * (P * (E / (C + E))) = S * (P * (C / (C + E))) := by rw [← mul_sub, h2]
      rw [h1, h3]
      have : C + E ≠ 0 := by positivity
      field_simp
    · set A : ℕ → ℝ := fun k => o.porAlp m (o.C0 m k) t * (exp (o.A3 * t) / (o.C0 m k + exp (o.A3 * t))) with hAdef
      refine ⟨fun y => ∑ k ∈ Finset.range nterms, 2 / M k * (cos (M k * (y / o.H)) * (M k / o.H)) * A k, ?_, ?_,
        ∑ k ∈ Finset.range nterms, 2 / M k * (-sin (M k * (z / o.H)) * (M k / o.H) * (M k / o.H)) * A k, ?_, ?_⟩
      · intro y
        refine HasDerivAt.fun_sum fun k _ => ?_
        exact ((sin_deriv (M k) o.H y).const_mul (2 / M k)).mul_const (A k)
      · refine Finset.sum_eq_zero fun k _ => ?_
        rw [div_self hH.ne', mul_one, cos_M]
        ring
      · refine HasDerivAt.fun_sum fun k _ => ?_
        exact (((cos_deriv (M k) o.H z).mul_const (M k / o.H)).const_mul (2 / M k)).mul_const (A k)
      · simp only [Finset.mul_sum, term_eq]
        rw [← Finset.sum_sub_distrib, Finset.mul_sum, ← Finset.sum_neg_distrib]
        refine Finset.sum_congr rfl fun k _ => ?_
        unfold wTerm
        rw [hAdef]
        dsimp only
        have hC := o.C0_pos h m hmp k
        have hCdef : o.C0 m k = M k ^ 2 * m * o.kw0 * o.re ^ 2 / (2 * o.kh * o.H ^ 2 * (o.n ^ 2 - 1)) := by
          have h2 := o.n2_pos h
          have hre' : o.re = o.n * o.rw := by unfold n; field_simp
          rw [hre']
          unfold C0 G0 qw0
          have := pi_ne_zero
          field_simp
          ring
        have hn2 : o.re ^ 2 - o.rw ^ 2 = o.rw ^ 2 * (o.n ^ 2 - 1) := by
          unfold n
          field_simp
        have hN := o.n2_pos h
        rw [hn2]
        generalize o.n ^ 2 - 1 = N at *
        have hE := exp_pos (o.A3 * t)
        rw [neg_mul, exp_neg]
        generalize exp (o.A3 * t) = E at *
        generalize o.porAlp m (o.C0 m k) t = P
        generalize o.C0 m k = C at *
        have hM := M_pos k
        generalize M k = Q at *
        have hCE : C + E ≠ 0 := by positivity
        have hMC : Q ^ 2 = C * (2 * o.kh * o.H ^ 2 * N) / (m * o.kw0 * o.re ^ 2) := by
          rw [hCdef]; field_simp
        have h2 : P - P * (E / (C + E)) = P * (C / (C + E)) := by field_simp; ring
        have h3 : ∀ S : ℝ, S * P - S * (P * (E / (C + E))) = S * (P * (C / (C + E))) := fun S => by rw [← mul_sub, h2]
        rw [h3]
        generalize sin (Q * (z / o.H)) = S
        have h4 : 2 / Q * (-S * (Q / o.H) * (Q / o.H)) = -(2 / Q * S) * (Q ^ 2 / o.H ^ 2) := by field_simp
        rw [h4, hMC]
        generalize 2 / Q * S = S'
        field_simp
    · refine Finset.sum_eq_zero fun k _ => ?_
      unfold wTerm
      simp
  · intro z
    dsimp only
    congr 1
    refine Finset.sum_congr rfl fun k _ => ?_
    unfold term14
    have hC := o.C0_pos h m hmp k
    have : -o.a3 * o.Th 0 = 0 := by unfold Th; simp
    rw [this, exp_zero, mul_one, div_self (by positivity), one_rpow, mul_one]
    rfl
  · intro zs ts
    unfold call14
    rw [if_neg (not_lt.2 h.hA3), hm]

/-- With the default `A3 = 0` (a drain that does not clog) nothing ever consolidates: the values returned do not depend on the time. -/
theorem C130_no_decay_partial (o : Deng) (h : o.Valid) (hA3 : o.A3 = 0) (nterms : ℕ) (zs ts : List ℝ) :
    o.call14 nterms zs ts = .ok (zs.map fun z => ts.map fun _ =>
      o.ui * ∑ k ∈ Finset.range nterms, 2 / ((2 * k + 1) / 2 * π) * sin ((2 * k + 1) / 2 * π * (z / o.H))) := by
  obtain ⟨m, hm, hmp⟩ := o.mu0_pos h
  unfold call14
  rw [if_neg (not_lt.2 h.hA3), hm]
  dsimp only
  congr 1
  refine List.map_congr_left fun z _ => List.map_congr_left fun t _ => ?_
  congr 1
  refine Finset.sum_congr rfl fun k _ => ?_
  unfold term14
  have hC := o.C0_pos h m hmp k
  have : -o.a3 * o.Th t = 0 := by unfold a3; rw [hA3]; simp
  rw [this, exp_zero, mul_one, div_self (by positivity), one_rpow, mul_one]
  rfl

theorem C130_refused (o : Deng) (hA3 : o.A3 < 0) (nterms : ℕ) (zs ts : List ℝ) : o.call14 nterms zs ts = .error .valueError := by
  unfold call14
  rw [if_pos hA3]

/-- Both theorems have cases. -/
example : (⟨0.035, 0.525, 1, 0, 0.5, 20, some 0.175, some (2e-8 / 1.8), 1e-3, 2e-8, 0.2e-3, 10, 1⟩ : Deng).Valid ∧
    (⟨0.035, 0.525, 1, 0, 0, 20, none, none, 1e-3, 2e-8, 0.2e-3, 10, 1⟩ : Deng).Valid := by
  constructor
  · constructor <;> norm_num
  · constructor
    case hsm => intro rs ks h; cases h
    all_goals norm_num

end Deng
end Geotecha.Consol
