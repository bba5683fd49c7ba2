import Verif.Beam.InfiniteRoots
import Mathlib.Analysis.Calculus.Deriv.Star

/-!
# Infinite beam: the bounded response is unique and real (C219)
-/
set_option autoImplicit false
set_option linter.unusedVariables false

namespace Geotecha.Beam

open Complex Filter Topology Set

/-- A bounded solution of `g' = z g` on the whole line vanishes unless `z` is imaginary. -/
theorem first_order_zero {z : ℂ} (hz : z.re ≠ 0) {g : ℝ → ℂ} (hg : ∀ s, HasDerivAt g (z * g s) s) {M : ℝ}
    (hM : ∀ s, ‖g s‖ ≤ M) : ∀ s, g s = 0 := by
  have hconst : ∀ s, g s * exp (s * (-z)) = g 0 := by
    have hd : ∀ s, HasDerivAt (fun s : ℝ => g s * exp (s * (-z))) 0 s := fun s =>
      ((hg s).fun_mul (exp_deriv (-z) s)).congr_deriv (by ring)
    intro s
    have := is_const_of_deriv_eq_zero (fun s => (hd s).differentiableAt) (fun s => (hd s).deriv) s 0
    simpa using this
  have hsol : ∀ s : ℝ, g s = g 0 * exp (s * z) := by
    intro s
    rw [← hconst s, mul_assoc, ← exp_add]
    rw [show (s:ℂ) * (-z) + s * z = 0 by ring, exp_zero, mul_one]
  have g0 : g 0 = 0 := by
    by_contra hne
    have h1 : z.re ≤ 0 := one_bdd_iff hne (M := M) fun s _ => by rw [← hsol]; exact hM s
    have h2 : (-z).re ≤ 0 := one_bdd_iff hne (M := M) fun s _ => by rw [← flip_exp, ← hsol]; exact hM (-s)
    rw [neg_re] at h2
    exact hz (le_antisymm h1 (by linarith))
  intro s
  rw [hsol s, g0, zero_mul]

/-- The homogeneous equation has no bounded solution but zero. -/
theorem homogeneous_zero {α β : ℝ} {γ : Fin 4 → ℂ} (h : IsRoots α β γ) (hre : ∀ j, (γ j).re ≠ 0)
    {d d1 d2 d3 : ℝ → ℂ} (h1 : ∀ s, HasDerivAt d (d1 s) s) (h2 : ∀ s, HasDerivAt d1 (d2 s) s)
    (h3 : ∀ s, HasDerivAt d2 (d3 s) s)
    (h4 : ∀ s, HasDerivAt d3 (-(4 * (α : ℂ) ^ 2 * d2 s - 8 * α * β * d1 s + 4 * d s)) s) {M : ℝ}
    (b0 : ∀ s, ‖d s‖ ≤ M) (b1 : ∀ s, ‖d1 s‖ ≤ M) (b2 : ∀ s, ‖d2 s‖ ≤ M) (b3 : ∀ s, ‖d3 s‖ ≤ M) :
    ∀ s, d s = 0 := by
  obtain ⟨v1, v2, v3, v4⟩ := viete h
  have bl : ∀ (p q r t : ℂ) (s : ℝ), ‖p * d3 s + q * d2 s + r * d1 s + t * d s‖
      ≤ ‖p‖ * M + ‖q‖ * M + ‖r‖ * M + ‖t‖ * M := by
    intro p q r t s
    refine (norm_add_le _ _).trans (add_le_add ((norm_add_le _ _).trans (add_le_add
      ((norm_add_le _ _).trans (add_le_add ?_ ?_)) ?_)) ?_) <;> rw [norm_mul] <;>
      apply mul_le_mul_of_nonneg_left _ (norm_nonneg _)
    exacts [b3 s, b2 s, b1 s, b0 s]
  have z0 := first_order_zero (hre 0)
    (g := fun s => 1 * d3 s + (-(γ 1 + γ 2 + γ 3)) * d2 s + (γ 1 * γ 2 + γ 1 * γ 3 + γ 2 * γ 3) * d1 s
      + (-(γ 1 * γ 2 * γ 3)) * d s) (fun s => by
      refine ((((h4 s).const_mul 1).fun_add ((h3 s).const_mul (-(γ 1 + γ 2 + γ 3)))).fun_add
        ((h2 s).const_mul (γ 1 * γ 2 + γ 1 * γ 3 + γ 2 * γ 3))).fun_add
        ((h1 s).const_mul (-(γ 1 * γ 2 * γ 3))) |>.congr_deriv ?_
      linear_combination (-(d3 s)) * v1 + d2 s * v2 - d1 s * v3 + d s * v4) (bl _ _ _ _)
  have z1 := first_order_zero (hre 1)
    (g := fun s => 0 * d3 s + 1 * d2 s + (-(γ 2 + γ 3)) * d1 s + (γ 2 * γ 3) * d s) (fun s => by
      have := ((((h3 s).const_mul 1)).fun_add ((h2 s).const_mul (-(γ 2 + γ 3)))).fun_add
        ((h1 s).const_mul (γ 2 * γ 3))
      refine (this.congr_of_eventuallyEq (Eventually.of_forall fun t => by ring)).congr_deriv ?_
      have := z0 s
      linear_combination this) (bl _ _ _ _)
  have z2 := first_order_zero (hre 2)
    (g := fun s => 0 * d3 s + 0 * d2 s + 1 * d1 s + (-γ 3) * d s) (fun s => by
      have := ((h2 s).const_mul 1).fun_add ((h1 s).const_mul (-γ 3))
      refine (this.congr_of_eventuallyEq (Eventually.of_forall fun t => by ring)).congr_deriv ?_
      have := z1 s
      linear_combination this) (bl _ _ _ _)
  exact first_order_zero (hre 3) (g := d) (fun s => (h1 s).congr_deriv (by
    have := z2 s; linear_combination this)) b0

/-- Two bounded responses (deflection, slope, moment and shear bounded) agree. -/
theorem response_unique {α β : ℝ} {γ : Fin 4 → ℂ} (h : IsRoots α β γ) (hre : ∀ j, (γ j).re ≠ 0)
    {u u1 u2 u3 w w1 w2 w3 : ℝ → ℂ} (hu : IsResponse α β u u1 u2 u3) (hw : IsResponse α β w w1 w2 w3)
    {M : ℝ} (bu : ∀ s, ‖u s‖ ≤ M ∧ ‖u1 s‖ ≤ M ∧ ‖u2 s‖ ≤ M ∧ ‖u3 s‖ ≤ M) {N : ℝ}
    (bw : ∀ s, ‖w s‖ ≤ N ∧ ‖w1 s‖ ≤ N ∧ ‖w2 s‖ ≤ N ∧ ‖w3 s‖ ≤ N) : u = w := by
  classical
  obtain ⟨l, l1, l2⟩ := hu.jump
  obtain ⟨m, m1, m2⟩ := hw.jump
  set d3 : ℝ → ℂ := Function.update (fun s => u3 s - w3 s) 0 (l - m) with hd3
  have d3ne : ∀ s, s ≠ 0 → d3 s = u3 s - w3 s := fun s hs => by rw [hd3, Function.update_of_ne hs]
  have d30 : d3 0 = l - m := by rw [hd3, Function.update_self]
  have c3 : ContinuousAt d3 0 := by
    rw [continuousAt_iff_punctured_nhds, d30, punctured_nhds_eq_nhdsWithin_sup_nhdsWithin, tendsto_sup]
    constructor
    · refine (l1.sub m1).congr' ?_
      filter_upwards [self_mem_nhdsWithin] with s hs
      exact (d3ne s (ne_of_lt hs)).symm
    · have := l2.sub m2
      rw [show l + 8 - (m + 8) = l - m by ring] at this
      refine this.congr' ?_
      filter_upwards [self_mem_nhdsWithin] with s hs
      exact (d3ne s (ne_of_gt hs)).symm
  have H1 : ∀ s, HasDerivAt (fun s => u s - w s) (u1 s - w1 s) s := fun s => (hu.d1 s).fun_sub (hw.d1 s)
  have H2 : ∀ s, HasDerivAt (fun s => u1 s - w1 s) (u2 s - w2 s) s := fun s => (hu.d2 s).fun_sub (hw.d2 s)
  have H3n : ∀ s, s ≠ 0 → HasDerivAt (fun s => u2 s - w2 s) (d3 s) s := fun s hs => by
    rw [d3ne s hs]; exact (hu.d3 s hs).fun_sub (hw.d3 s hs)
  have H3 : ∀ s, HasDerivAt (fun s => u2 s - w2 s) (d3 s) s := by
    intro s
    by_cases hs : s = 0
    · subst hs
      exact hasDerivAt_of_hasDerivAt_of_ne H3n (hu.c2.sub hw.c2).continuousAt c3
    · exact H3n s hs
  have cc : ∀ {f f' : ℝ → ℂ}, (∀ s, HasDerivAt f (f' s) s) → Continuous f := fun hf =>
    continuous_iff_continuousAt.mpr fun s => (hf s).continuousAt
  have H4n : ∀ s, s ≠ 0 → HasDerivAt d3
      (-(4 * (α : ℂ) ^ 2 * (u2 s - w2 s) - 8 * α * β * (u1 s - w1 s) + 4 * (u s - w s))) s := by
    intro s hs
    have := (hu.d4 s hs).fun_sub (hw.d4 s hs)
    refine (this.congr_of_eventuallyEq ?_).congr_deriv (by ring)
    filter_upwards [isOpen_ne.mem_nhds hs] with t ht
    exact d3ne t ht
  have H4 : ∀ s, HasDerivAt d3
      (-(4 * (α : ℂ) ^ 2 * (u2 s - w2 s) - 8 * α * β * (u1 s - w1 s) + 4 * (u s - w s))) s := by
    intro s
    by_cases hs : s = 0
    · subst hs
      have cu := cc H1
      have cu1 := cc H2
      have cu2 := cc H3
      exact hasDerivAt_of_hasDerivAt_of_ne
        (g := fun s => -(4 * (α : ℂ) ^ 2 * (u2 s - w2 s) - 8 * α * β * (u1 s - w1 s) + 4 * (u s - w s)))
        H4n c3 (by
          apply Continuous.continuousAt
          exact (((continuous_const.mul cu2).sub (continuous_const.mul cu1)).add
            (continuous_const.mul cu)).neg)
    · exact H4n s hs
  have Z := homogeneous_zero h hre H1 H2 H3 H4 (M := max (M + N) ‖l - m‖)
    (fun s => ((norm_sub_le _ _).trans (add_le_add (bu s).1 (bw s).1)).trans (le_max_left _ _))
    (fun s => ((norm_sub_le _ _).trans (add_le_add (bu s).2.1 (bw s).2.1)).trans (le_max_left _ _))
    (fun s => ((norm_sub_le _ _).trans (add_le_add (bu s).2.2.1 (bw s).2.2.1)).trans (le_max_left _ _))
    (fun s => by
      by_cases hs : s = 0
      · rw [hs, d30]; exact le_max_right _ _
      · rw [d3ne s hs]
        exact ((norm_sub_le _ _).trans (add_le_add (bu s).2.2.2 (bw s).2.2.2)).trans (le_max_left _ _))
  funext s
  exact sub_eq_zero.mp (Z s)

theorem twoExp_bdd (b c g h : ℂ) (k : ℕ) (s : ℝ) (hg : s * g.re ≤ 0) (hh : s * h.re ≤ 0) :
    ‖twoExp b c g h k s‖ ≤ ‖b * g ^ k‖ + ‖c * h ^ k‖ := by
  unfold twoExp
  refine (norm_add_le _ _).trans (add_le_add ?_ ?_) <;> rw [norm_mul, norm_exp_mul]
  · have := Real.exp_le_one_iff.mpr hg
    nlinarith [norm_nonneg (b * g ^ k)]
  · have := Real.exp_le_one_iff.mpr hh
    nlinarith [norm_nonneg (c * h ^ k)]

/-- The order the code assumes. -/
def AssumedOrder (γ : Fin 4 → ℂ) : Prop := ((γ 0).re < 0 ∧ (γ 1).re < 0) ∧ (0 < (γ 2).re ∧ 0 < (γ 3).re)

theorem mlW_bdd_all {α β : ℝ} {γ : Fin 4 → ℂ} (ho : AssumedOrder γ) : ∃ M : ℝ, ∀ s,
    ‖mlW α β γ 0 s‖ ≤ M ∧ ‖mlW α β γ 1 s‖ ≤ M ∧ ‖mlW α β γ 2 s‖ ≤ M ∧ ‖mlW α β γ 3 s‖ ≤ M := by
  have one : ∀ k, ∃ M : ℝ, ∀ s, ‖mlW α β γ k s‖ ≤ M := by
    intro k
    refine ⟨max (‖8 / dPoly α β (γ 0) * γ 0 ^ k‖ + ‖8 / dPoly α β (γ 1) * γ 1 ^ k‖)
      (‖-(8 / dPoly α β (γ 2)) * γ 2 ^ k‖ + ‖-(8 / dPoly α β (γ 3)) * γ 3 ^ k‖), fun s => ?_⟩
    unfold mlW glueC
    obtain ⟨⟨a, b⟩, c, d⟩ := ho
    split_ifs with hs
    · exact (twoExp_bdd _ _ _ _ k s (by nlinarith) (by nlinarith)).trans (le_max_left _ _)
    · exact (twoExp_bdd _ _ _ _ k s (by nlinarith) (by nlinarith)).trans (le_max_right _ _)
  obtain ⟨M0, h0⟩ := one 0
  obtain ⟨M1, h1⟩ := one 1
  obtain ⟨M2, h2⟩ := one 2
  obtain ⟨M3, h3⟩ := one 3
  refine ⟨max (max M0 M1) (max M2 M3), fun s => ⟨(h0 s).trans ?_, (h1 s).trans ?_, (h2 s).trans ?_,
    (h3 s).trans ?_⟩⟩ <;> simp

theorem order_re {γ : Fin 4 → ℂ} (ho : AssumedOrder γ) (j : Fin 4) : (γ j).re ≠ 0 := by
  obtain ⟨⟨a, b⟩, c, d⟩ := ho
  fin_cases j
  exacts [a.ne, b.ne, c.ne', d.ne']

theorem response_conj {α β : ℝ} {w w1 w2 w3 : ℝ → ℂ} (h : IsResponse α β w w1 w2 w3) :
    IsResponse α β (fun s => star (w s)) (fun s => star (w1 s)) (fun s => star (w2 s)) (fun s => star (w3 s)) := by
  refine ⟨fun s => (h.d1 s).star, fun s => (h.d2 s).star, h.c2.star, fun s hs => (h.d3 s hs).star,
    fun s hs => (h.d4 s hs).star.congr_deriv ?_, ?_⟩
  · simp [Complex.conj_ofReal, Complex.conj_ofNat]
  · obtain ⟨l, l1, l2⟩ := h.jump
    refine ⟨star l, l1.star, ?_⟩
    have := l2.star
    simpa [Complex.conj_ofNat] using this

/-- **C219** When the roots come in the assumed order, the returned displacement is real and is the only
response whose deflection, slope, moment and shear stay bounded: it does not depend on the order within
the two pairs. -/
theorem C219_real_unique_bounded (α β : ℝ) (γ : Fin 4 → ℂ) (h : IsRoots α β γ)
    (hi : Function.Injective γ)
    (ho : ((γ 0).re < 0 ∧ (γ 1).re < 0) ∧ (0 < (γ 2).re ∧ 0 < (γ 3).re)) :
    ∃ w w1 w2 w3 : ℝ → ℂ, (∀ slim npts, movingLoad γ slim npts
        = .ok (linspaceN slim.1 slim.2 npts, (linspaceN slim.1 slim.2 npts).map w))
    ∧ IsResponse α β w w1 w2 w3
    ∧ (∃ M : ℝ, ∀ s, ‖w s‖ ≤ M ∧ ‖w1 s‖ ≤ M ∧ ‖w2 s‖ ≤ M ∧ ‖w3 s‖ ≤ M)
    ∧ (∀ s, (w s).im = 0)
    ∧ ∀ u u1 u2 u3 : ℝ → ℂ, IsResponse α β u u1 u2 u3 →
        (∃ M : ℝ, ∀ s, ‖u s‖ ≤ M ∧ ‖u1 s‖ ≤ M ∧ ‖u2 s‖ ≤ M ∧ ‖u3 s‖ ≤ M) → u = w := by
  have R := mlW_response h hi
  obtain ⟨M, hM⟩ := mlW_bdd_all (α := α) (β := β) ho
  have hre := order_re ho
  refine ⟨_, _, _, _, movingLoad_ok h hi, R, ⟨M, hM⟩, fun s => ?_, ?_⟩
  · have e := response_unique h hre (response_conj R) R (M := M) (fun s => by simpa using hM s) hM
    have := congrFun e s
    exact Complex.conj_eq_iff_im.mp this
  · rintro u u1 u2 u3 hu ⟨N, hN⟩
    exact response_unique h hre hu R hN hM

end Geotecha.Beam
