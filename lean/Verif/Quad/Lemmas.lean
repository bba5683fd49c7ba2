import Verif.Quad.Model
import Mathlib.Analysis.SpecialFunctions.Integrals.Basic
import Mathlib.Algebra.Polynomial.Eval.Degree
import Mathlib.Algebra.Polynomial.AlgebraMap
import Mathlib.Topology.Algebra.Polynomial
import Mathlib.Tactic.IntervalCases

set_option linter.unusedVariables false
open intervalIntegral
namespace Geotecha.Quad

/-- Moments `k, k+1, …` of a rule are right to within 1e-24 (integer arithmetic); `Y = w x^k`, `B = 10^(25(k+1))`. -/
def chk (X : List ℤ) : ℕ → ℕ → List ℤ → ℤ → Bool
  | 0, _, _, _ => true
  | f+1, k, Y, B =>
    let e := (k+1)*Y.foldr (· + ·) 0 - (if k % 2 = 0 then 2*B else 0)
    decide (e * 10^24 ≤ (k+1)*B) && decide (-((k+1)*B) ≤ e * 10^24) && chk X f (k+1) (List.zipWith (· * ·) Y X) (B*10^25)

/-- exact moment -/
noncomputable def mom (k : ℕ) : ℝ := (1 - (-1)^(k+1)) / (k+1)

theorem mom_eq (k : ℕ) : mom k = ∫ x in (-1:ℝ)..1, x^k := by
  rw [integral_pow]; simp [mom]

def rsum (X Y : List ℤ) (k : ℕ) : ℤ := (List.zipWith (fun y x => y * x^k) Y X).sum

theorem foldr_sum (Y : List ℤ) : Y.foldr (· + ·) 0 = Y.sum := rfl

theorem zip_shift (X Y : List ℤ) (k : ℕ) : rsum X (List.zipWith (· * ·) Y X) k = rsum X Y (k+1) := by
  unfold rsum
  induction X generalizing Y with
  | nil => simp
  | cons x X ih =>
    cases Y with
    | nil => simp
    | cons y Y => simp only [List.zipWith_cons_cons, List.sum_cons, ih, pow_succ]; ring

theorem chk_spec (X : List ℤ) (f k : ℕ) (Y : List ℤ) (B : ℤ) (hl : Y.length = X.length) (h : chk X f k Y B = true) (hB : 0 < B) (j : ℕ) (hj : j < f) :
    |(rsum X Y j : ℝ) / (B * 10^(25*j)) - mom (k+j)| ≤ 10^(-24 : ℤ) := by
  induction f generalizing k Y B j with
  | zero => omega
  | succ f ih =>
    simp only [chk, Bool.and_eq_true, decide_eq_true_iff] at h
    obtain ⟨⟨h1, h2⟩, h3⟩ := h
    cases j with
    | zero =>
      have hr : rsum X Y 0 = Y.sum := by
        unfold rsum
        clear h1 h2 h3 ih
        induction X generalizing Y with
        | nil => cases Y with
          | nil => simp
          | cons => simp at hl
        | cons x X ih => cases Y with
          | nil => simp at hl
          | cons y Y => simp at hl; rw [List.zipWith_cons_cons, List.sum_cons, ih Y hl]; simp
      rw [foldr_sum] at h1 h2
      rw [hr]
      have hBr : (0:ℝ) < B := by exact_mod_cast hB
      have hk : (0:ℝ) < k + 1 := by positivity
      have hm : mom (k+0) = (if k % 2 = 0 then 2 else 0) / (k+1) := by
        unfold mom
        rw [Nat.add_zero]
        split_ifs with h
        · rw [Odd.neg_one_pow (by rw [Nat.odd_iff]; omega)]; norm_num
        · rw [Even.neg_one_pow (by rw [Nat.even_iff]; omega)]; norm_num
      rw [hm, Nat.mul_zero, pow_zero, mul_one]
      obtain ⟨E, hE⟩ : ∃ E : ℤ, E = (k+1) * Y.sum - (if k % 2 = 0 then 2*B else 0) := ⟨_, rfl⟩
      rw [← hE] at h1 h2
      have e : (Y.sum : ℝ) / B - (if k % 2 = 0 then 2 else 0) / (k+1) = (E:ℝ) / ((k+1) * B) := by
        rw [hE]
        split_ifs
        · push_cast; field_simp
        · push_cast; field_simp; ring
      have h1r : (E : ℝ) * 10^24 ≤ (k+1)*B := by exact_mod_cast h1
      have h2r : -((k+1)*B : ℝ) ≤ (E : ℝ) * 10^24 := by exact_mod_cast h2
      rw [e, abs_div, abs_of_pos (by positivity : (0:ℝ) < (k+1)*B), div_le_iff₀ (by positivity), abs_le]
      have hz : (10:ℝ)^(-24 : ℤ) = 1 / 10^24 := by norm_num
      rw [hz]
      constructor
      · rw [neg_le_iff_add_nonneg, ← sub_nonneg]
        have : (E:ℝ) + 1/10^24*((k+1)*B) = (E * 10^24 + (k+1)*B) / 10^24 := by field_simp
        rw [sub_zero, this]
        exact div_nonneg (by linarith) (by positivity)
      · rw [one_div, inv_mul_eq_div, le_div_iff₀ (by positivity)]
        exact h1r
    | succ j =>
      have := ih (k+1) _ _ (by simp [hl]) h3 (by positivity) j (by omega)
      rw [zip_shift] at this
      have e1 : k + 1 + j = k + (j+1) := by omega
      have e2 : ((B * 10^25 : ℤ) : ℝ) * 10^(25*j) = B * 10^(25*(j+1)) := by push_cast; ring
      rw [e1, e2] at this
      exact this

/-- the moments of the real rule -/
theorem rule_moment (t : List (ℤ × ℤ)) (k : ℕ) :
    ((t.map (fun p => (unscale p.1, unscale p.2))).map (fun p => p.1^k * p.2)).sum =
      (rsum (t.map (·.1)) (t.map (·.2)) k : ℝ) / ((10^25 : ℤ) * 10^(25*k)) := by
  unfold rsum
  induction t with
  | nil => simp
  | cons p t ih =>
    simp only [List.map_cons, List.sum_cons, List.zipWith_cons_cons, Int.cast_add, add_div, ih]
    congr 1
    unfold unscale
    push_cast
    rw [div_pow, ← pow_mul]
    field_simp
    norm_num

/-- From moments to polynomials. -/
theorem poly_of_moments {rule : List (ℝ × ℝ)} {N : ℕ} {ε : ℝ}
    (h : ∀ k < N, |(rule.map (fun p => p.1^k * p.2)).sum - ∫ x in (-1:ℝ)..1, x^k| ≤ ε) (q : Polynomial ℝ) (hq : q.natDegree < N) :
    |(rule.map (fun p => q.eval p.1 * p.2)).sum - ∫ x in (-1:ℝ)..1, q.eval x| ≤ ε * ∑ k ∈ Finset.range N, |q.coeff k| := by
  have e1 : (rule.map (fun p => q.eval p.1 * p.2)).sum = ∑ k ∈ Finset.range N, q.coeff k * (rule.map (fun p => p.1^k * p.2)).sum := by
    induction rule with
    | nil => simp
    | cons p r ih =>
      have : ∀ k, ((p :: r).map (fun p => p.1^k * p.2)).sum = p.1^k * p.2 + (r.map (fun p => p.1^k * p.2)).sum := fun k => by simp
      simp only [this, mul_add, Finset.sum_add_distrib]
      clear ih this h
      have key : ∀ r : List (ℝ × ℝ), (r.map (fun p => q.eval p.1 * p.2)).sum = ∑ k ∈ Finset.range N, q.coeff k * (r.map (fun p => p.1^k * p.2)).sum := by
        intro r
        induction r with
        | nil => simp
        | cons p r ih =>
          simp only [List.map_cons, List.sum_cons, mul_add, Finset.sum_add_distrib, ih]
          congr 1
          rw [Polynomial.eval_eq_sum_range' hq, Finset.sum_mul]
          exact Finset.sum_congr rfl (fun k _ => by ring)
      simp only [List.map_cons, List.sum_cons, key]
      congr 1
      rw [Polynomial.eval_eq_sum_range' hq, Finset.sum_mul]
      exact Finset.sum_congr rfl (fun k _ => by ring)
  have e2 : (∫ x in (-1:ℝ)..1, q.eval x) = ∑ k ∈ Finset.range N, q.coeff k * ∫ x in (-1:ℝ)..1, x^k := by
    have : (fun x => q.eval x) = fun x => ∑ k ∈ Finset.range N, q.coeff k * x^k := by
      funext x; exact Polynomial.eval_eq_sum_range' hq x
    rw [show (∫ x in (-1:ℝ)..1, q.eval x) = ∫ x in (-1:ℝ)..1, ∑ k ∈ Finset.range N, q.coeff k * x^k by rw [this],
      intervalIntegral.integral_finsetSum (fun k _ => Continuous.intervalIntegrable (by fun_prop) _ _)]
    exact Finset.sum_congr rfl (fun k _ => by rw [intervalIntegral.integral_const_mul])
  rw [e1, e2, ← Finset.sum_sub_distrib, Finset.mul_sum]
  refine (Finset.abs_sum_le_sum_abs _ _).trans (Finset.sum_le_sum (fun k hk => ?_))
  rw [← mul_sub, abs_mul, mul_comm]
  exact mul_le_mul_of_nonneg_right (h k (Finset.mem_range.1 hk)) (abs_nonneg _)

end Geotecha.Quad
