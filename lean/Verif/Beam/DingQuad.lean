import Verif.Beam.DingGalerkin
import Mathlib.Algebra.Polynomial.Eval.Degree
import Mathlib.Analysis.SpecialFunctions.Integrals.Basic

/-!
# Claims C167, C168: the quadrature rule of the constructor
-/
set_option autoImplicit false
set_option linter.unusedVariables false

namespace Geotecha.Beam

open Real

theorem lhs_eq {n : ℕ} (x : Fin n → ℝ) : lhs x = (Matrix.vandermonde x).transpose := by
  ext i j; simp [lhs, Matrix.vandermonde]

theorem det_lhs {n : ℕ} (x : Fin n → ℝ) : (lhs x).det = 0 ↔ ¬ Function.Injective x := by
  rw [lhs_eq, Matrix.det_transpose, ← not_iff_not, not_not, ← Matrix.det_vandermonde_ne_zero_iff]

/-- The solved weights integrate the monomials. -/
theorem weights_moments {n : ℕ} {x w : Fin n → ℝ} (h : weights x = .ok w) (i : Fin n) :
    ∑ j, w j * x j ^ (i : ℕ) = 1 / ((i : ℕ) + 1 : ℝ) := by
  unfold weights at h
  split_ifs at h with hd
  have hw := Except.ok.inj h
  have hu : IsUnit (lhs x).det := isUnit_iff_ne_zero.2 hd
  have : (lhs x).mulVec w = rhs n := by
    rw [← hw, Matrix.mulVec_mulVec, Matrix.mul_nonsing_inv _ hu, Matrix.one_mulVec]
  have e := congrFun this i
  simp only [Matrix.mulVec, dotProduct, lhs, Matrix.of_apply, rhs] at e
  rw [← e]
  exact Finset.sum_congr rfl fun j _ => mul_comm _ _

/-- …and are the only ones that do. -/
theorem weights_unique {n : ℕ} {x w w' : Fin n → ℝ} (h : weights x = .ok w)
    (h' : ∀ i : Fin n, ∑ j, w' j * x j ^ (i : ℕ) = 1 / ((i : ℕ) + 1 : ℝ)) : w' = w := by
  unfold weights at h
  split_ifs at h with hd
  have hw := Except.ok.inj h
  have hu : IsUnit (lhs x).det := isUnit_iff_ne_zero.2 hd
  have : (lhs x).mulVec w' = rhs n := by
    funext i
    rw [rhs, ← h' i]
    simp only [Matrix.mulVec, dotProduct, lhs, Matrix.of_apply]
    exact Finset.sum_congr rfl fun j _ => mul_comm _ _
  rw [← hw, ← this, Matrix.mulVec_mulVec, Matrix.nonsing_inv_mul _ hu, Matrix.one_mulVec]

/-- Exact for polynomials. -/
theorem weights_poly {n : ℕ} {x w : Fin n → ℝ} (h : weights x = .ok w) (p : Polynomial ℝ) (hp : p.degree < n) :
    ∑ j, w j * p.eval (x j) = ∫ z in (0:ℝ)..1, p.eval z := by
  have hs : ∀ z, p.eval z = ∑ i ∈ Finset.range n, p.coeff i * z ^ i := fun z => by
    by_cases h0 : p = 0
    · simp [h0]
    · exact Polynomial.eval_eq_sum_range' ((Polynomial.natDegree_lt_iff_degree_lt h0).2 hp) z
  simp_rw [hs]
  rw [intervalIntegral.integral_finsetSum (fun i _ => Continuous.intervalIntegrable (by fun_prop) _ _)]
  simp_rw [Finset.mul_sum]
  rw [Finset.sum_comm]
  refine Finset.sum_congr rfl fun i hi => ?_
  rw [intervalIntegral.integral_const_mul, integral_pow]
  have := weights_moments h ⟨i, Finset.mem_range.1 hi⟩
  simp only at this
  rw [one_pow, zero_pow (by omega), sub_zero, ← this, Finset.mul_sum]
  exact Finset.sum_congr rfl fun j _ => by ring

/-- Nodes of the simply supported rule. -/
theorem nodesSS_mono {n : ℕ} (hn : 2 ≤ n) : StrictMono (nodesSS n) := by
  intro i j hij
  have hn1 : (0:ℝ) < (n:ℝ) - 1 := by
    have : (2:ℝ) ≤ n := by exact_mod_cast hn
    linarith
  have hj : ((j : ℕ) : ℝ) ≤ (n:ℝ) - 1 := by
    have : (j : ℕ) + 1 ≤ n := j.2
    have : ((j : ℕ) : ℝ) + 1 ≤ n := by exact_mod_cast this
    linarith
  have hl : ((i : ℕ) : ℝ) < (j : ℕ) := by exact_mod_cast hij
  have h0 : (0:ℝ) ≤ (i : ℕ) := Nat.cast_nonneg _
  have : cos (π * (j : ℕ) / ((n:ℝ) - 1)) < cos (π * (i : ℕ) / ((n:ℝ) - 1)) := by
    refine cos_lt_cos_of_nonneg_of_le_pi (by positivity) ?_ ?_
    · rw [div_le_iff₀ hn1]; exact mul_le_mul_of_nonneg_left hj pi_pos.le
    · exact (div_lt_div_iff_of_pos_right hn1).2 (mul_lt_mul_of_pos_left hl pi_pos)
  unfold nodesSS
  linarith

/-- **C167.** For simply supported ends and any number of quadrature points but one (that gives `nan`),
the constructor succeeds; its nodes increase from 0 to 1 (when there are two or more) and the weights
integrate every polynomial of degree below `nquad` exactly over the beam. -/
theorem C167_ding_quadrature_exact (n : ℕ) (hn : n ≠ 1) :
    ∃ w : Fin n → ℝ, mkRule .ss (some n) = .ok (.rule n (nodesSS n) w) ∧
      (∀ h : 2 ≤ n, StrictMono (nodesSS n) ∧ nodesSS n ⟨0, by omega⟩ = 0 ∧ nodesSS n ⟨n - 1, by omega⟩ = 1) ∧
      ∀ p : Polynomial ℝ, p.degree < n → ∑ j, w j * p.eval (nodesSS n j) = ∫ z in (0:ℝ)..1, p.eval z := by
  have hinj : Function.Injective (nodesSS n) := by
    by_cases h2 : 2 ≤ n
    · exact (nodesSS_mono h2).injective
    · intro a; exact absurd a.2 (by omega)
  have hd : (lhs (nodesSS n)).det ≠ 0 := fun h => (det_lhs _).1 h hinj
  have hw : weights (nodesSS n) = .ok ((lhs (nodesSS n))⁻¹.mulVec (rhs n)) := by
    unfold weights; rw [if_neg hd]
  refine ⟨_, ?_, fun h => ⟨nodesSS_mono h, ?_, ?_⟩, fun p hp => weights_poly hw p hp⟩
  · simp only [mkRule, if_neg hn, hw, Bind.bind, Except.bind, pure, Except.pure]
  · simp [nodesSS]
  · have h1 : ((n - 1 : ℕ) : ℝ) = (n:ℝ) - 1 := by rw [Nat.cast_sub (by omega)]; simp
    have : (n:ℝ) - 1 ≠ 0 := by rw [← h1]; exact_mod_cast (by omega : n - 1 ≠ 0)
    simp only [nodesSS, h1]
    rw [mul_div_assoc, div_self this, mul_one, cos_pi]; norm_num

/-- C167 is not vacuous: with three points the rule is Simpson's. -/
example : mkRule .ss (some 3) = .ok (.rule 3 (nodesSS 3) ![1 / 6, 2 / 3, 1 / 6]) := by
  obtain ⟨w, h1, _, h3⟩ := C167_ding_quadrature_exact 3 (by norm_num)
  have hinj : (lhs (nodesSS 3)).det ≠ 0 := fun h => (det_lhs _).1 h (nodesSS_mono (by norm_num)).injective
  have hw : weights (nodesSS 3) = .ok ((lhs (nodesSS 3))⁻¹.mulVec (rhs 3)) := by
    unfold weights; rw [if_neg hinj]
  have e := weights_unique hw (w' := ![1 / 6, 2 / 3, 1 / 6]) (fun i => by
    have n0 : nodesSS 3 0 = 0 := by simp [nodesSS]
    have n1 : nodesSS 3 1 = 1 / 2 := by
      simp only [nodesSS]
      rw [show π * ((1 : Fin 3) : ℕ) / (((3:ℕ):ℝ) - 1) = π / 2 by norm_num, cos_pi_div_two]; norm_num
    have n2 : nodesSS 3 2 = 1 := by
      simp only [nodesSS]
      rw [show π * ((2 : Fin 3) : ℕ) / (((3:ℕ):ℝ) - 1) = π by norm_num, cos_pi]; norm_num
    fin_cases i <;> simp [Fin.sum_univ_three, n0, n1, n2] <;> norm_num)
  rw [e]
  simp only [mkRule, hw, Bind.bind, Except.bind, pure, Except.pure]
  rw [if_neg (by norm_num)]

/-- **C167.** A single point gives `nan` in every acceleration; `nquad=None` makes every evaluation fail. -/
theorem C167_ding_quadrature_degenerate (c : Coef) (rt : ℕ → ℝ) (n : ℕ) (q qd : ℕ → ℝ) (t : ℝ) (i : ℕ) :
    (∃ R, mkRule .ss (some 1) = .ok R ∧ acc .ss c (beta .ss rt) n R q qd t i = .ok none) ∧
    (∃ R, mkRule .ss none = .ok R ∧ acc .ss c (beta .ss rt) n R q qd t i = .error .attributeError) :=
  ⟨⟨_, rfl, rfl⟩, ⟨_, rfl, rfl⟩⟩

theorem nodesCC_ends {n : ℕ} (hn : 3 ≤ n) {x : Fin n → ℝ} (h : nodesCC n = .ok x) :
    x ⟨0, by omega⟩ = 0 ∧ x ⟨n - 1, by omega⟩ = 0 := by
  unfold nodesCC at h
  rw [if_neg (by omega)] at h
  have := Except.ok.inj h
  subst this
  constructor
  · simp only
    rw [if_neg (by omega), if_neg (by omega), if_neg (by omega)]; simp
  · simp

theorem mkRule_cc (bc : BC) (h : bc = .cc ∨ bc = .ff) (n : ℕ) : mkRule bc (some n) = (do
      let x ← nodesCC n
      let w ← weights x
      pure (.rule n x w)) := by
  rcases h with rfl | rfl <;> rfl

/-- **C168.** Clamped and free beams cannot be run: with three or more quadrature points (the default is
30) the constructor fails, because the first and the last node are both set to zero and the matrix for
the weights is singular; with none or one the assignment to `xj[1]` is out of range; and with
`nquad=None` the object is built but every evaluation of the vector field fails. -/
theorem C168_ding_clamped_free_fail (bc : BC) (h : bc = .cc ∨ bc = .ff) :
    (∀ n, 3 ≤ n → mkRule bc (some n) = .error .other) ∧
    (∀ n, n < 2 → mkRule bc (some n) = .error .indexError) ∧
    (∃ R, mkRule bc none = .ok R ∧ ∀ c rt n q qd t i,
      acc bc c (beta bc rt) n R q qd t i = .error .attributeError) := by
  refine ⟨fun n hn => ?_, fun n hn => ?_, ?_⟩
  · rw [mkRule_cc bc h]
    have hx : ∃ x, nodesCC n = .ok x := by unfold nodesCC; rw [if_neg (by omega)]; exact ⟨_, rfl⟩
    obtain ⟨x, hx⟩ := hx
    have e := nodesCC_ends hn hx
    have hd : (lhs x).det = 0 := (det_lhs x).2 fun hi => by
      have := hi (e.1.trans e.2.symm)
      simp only [Fin.mk.injEq] at this
      omega
    simp only [hx, weights, hd, if_true, Bind.bind, Except.bind]
  · rw [mkRule_cc bc h]
    simp only [nodesCC, if_pos hn, Bind.bind, Except.bind]
  · rcases h with rfl | rfl <;> exact ⟨_, rfl, fun _ _ _ _ _ _ _ => rfl⟩

/-- **C168.** The only count that passes is two, and its rule is useless: nodes `0.0001` and `0`, weights
`5000` and `-4999` — the cubic foundation of the whole beam is taken from one end. -/
theorem C168_ding_two_points (bc : BC) (h : bc = .cc ∨ bc = .ff) :
    mkRule bc (some 2) = .ok (.rule 2 ![0.0001, 0] ![5000, -4999]) := by
  rw [mkRule_cc bc h]
  have hx : nodesCC 2 = .ok ![0.0001, 0] := by
    unfold nodesCC
    rw [if_neg (by norm_num)]
    congr 1
    funext j
    fin_cases j <;> simp
  have hd : (lhs (![0.0001, 0] : Fin 2 → ℝ)).det ≠ 0 := fun hd => (det_lhs _).1 hd fun a b hab => by
    fin_cases a <;> fin_cases b <;> simp_all <;> norm_num at hab
  have hw : weights (![0.0001, 0] : Fin 2 → ℝ) = .ok ((lhs (![0.0001, 0] : Fin 2 → ℝ))⁻¹.mulVec (rhs 2)) := by
    unfold weights; rw [if_neg hd]
  have e := weights_unique hw (w' := ![5000, -4999]) (fun i => by
    fin_cases i <;> simp [Fin.sum_univ_two] <;> norm_num)
  simp only [hx, hw, Bind.bind, Except.bind, pure, Except.pure, ← e]

/-- **C168.** And a free beam (first root replaced by zero) then evaluates `0/0` in every acceleration. -/
theorem C168_ding_free_nan (c : Coef) (rt : ℕ → ℝ) (n : ℕ) (hn : 0 < n) (q qd : ℕ → ℝ) (t : ℝ) (i : ℕ)
    {R : Rule} {m : ℕ} (hR : mkRule .ff (some m) = .ok R) : acc .ff c (beta .ff rt) n R q qd t i = .ok none := by
  rcases Nat.lt_or_ge m 2 with hm | hm
  · rw [(C168_ding_clamped_free_fail .ff (Or.inr rfl)).2.1 m hm] at hR; exact absurd hR (by simp)
  rcases Nat.lt_or_ge 2 m with hm' | hm'
  · rw [(C168_ding_clamped_free_fail .ff (Or.inr rfl)).1 m hm'] at hR; exact absurd hR (by simp)
  obtain rfl : m = 2 := by omega
  rw [C168_ding_two_points .ff (Or.inr rfl)] at hR
  obtain rfl := Except.ok.inj hR
  simp only [acc]
  rw [if_pos (Or.inr ⟨by norm_num, 0, hn, by simp [phiNan, beta]⟩)]

end Geotecha.Beam
