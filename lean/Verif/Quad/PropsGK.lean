import Verif.Quad.Props

set_option linter.unusedVariables false
open intervalIntegral
namespace Geotecha.Quad

/-! # C51 Gauss-Kronrod rule and gk_quad -/

/-- The supported numbers of Gauss points. -/
def SupportedK (n : ℕ) : Prop := n = 7 ∨ n = 10 ∨ n = 15 ∨ n = 20 ∨ n = 25 ∨ n = 30

theorem supportedK_iff (n : ℕ) : SupportedK n ↔ n ∈ [7,10,15,20,25,30] := by
  simp only [List.mem_cons, List.not_mem_nil, or_false]; rfl

/-- Boolean form of what is checked of one table. -/
def gkOk (n : ℕ) : Bool :=
  match gkRuleZ n with
  | .error _ => false
  | .ok r => r.length == 2*n+1 && (r.filter (fun p => p.2.1 != 0)).length == n &&
      chk (r.map (·.1)) (2*n) 0 (r.map (·.2.1)) (10^25) && chk (r.map (·.1)) (3*n+2) 0 (r.map (·.2.2)) (10^25)

set_option maxRecDepth 100000 in
theorem gk_check : ∀ n ∈ [7,10,15,20,25,30], gkOk n = true := by decide +kernel

theorem gkRule_ok {n : ℕ} (hn : SupportedK n) : ∃ t, gkRuleZ n = .ok t ∧
    gkRule n = .ok (t.map (fun p => (unscale p.1, unscale p.2.1, unscale p.2.2))) ∧ t.length = 2*n+1 ∧
    (t.filter (fun p => p.2.1 != 0)).length = n ∧
    chk (t.map (·.1)) (2*n) 0 (t.map (·.2.1)) (10^25) = true ∧ chk (t.map (·.1)) (3*n+2) 0 (t.map (·.2.2)) (10^25) = true := by
  have := gk_check n ((supportedK_iff n).1 hn)
  unfold gkOk at this
  unfold gkRule
  cases h : gkRuleZ n with
  | error e => rw [h] at this; simp at this
  | ok r =>
    rw [h] at this
    simp only [Bool.and_eq_true, beq_iff_eq] at this
    exact ⟨r, rfl, rfl, this.1.1.1, this.1.1.2, this.1.2, this.2⟩

theorem gk_moments1 {n : ℕ} {t : List (ℤ × ℤ × ℤ)}
    (h : chk (t.map (·.1)) (2*n) 0 (t.map (·.2.1)) (10^25) = true) (k : ℕ) (hk : k < 2*n) :
    |(((t.map (fun p => (unscale p.1, unscale p.2.1, unscale p.2.2))).map (fun p => (p.1, p.2.1))).map (fun p => p.1^k * p.2)).sum
      - ∫ x in (-1:ℝ)..1, x^k| ≤ 10^(-24 : ℤ) := by
  have e := rule_moment (t.map (fun p => (p.1, p.2.1))) k
  have c := chk_spec _ _ _ _ _ (by simp) h (by positivity) k hk
  rw [Nat.zero_add, mom_eq] at c
  simp only [List.map_map, Function.comp_def] at *
  rw [e]; exact c

theorem gk_moments2 {n : ℕ} {t : List (ℤ × ℤ × ℤ)}
    (h : chk (t.map (·.1)) (3*n+2) 0 (t.map (·.2.2)) (10^25) = true) (k : ℕ) (hk : k < 3*n+2) :
    |(((t.map (fun p => (unscale p.1, unscale p.2.1, unscale p.2.2))).map (fun p => (p.1, p.2.2))).map (fun p => p.1^k * p.2)).sum
      - ∫ x in (-1:ℝ)..1, x^k| ≤ 10^(-24 : ℤ) := by
  have e := rule_moment (t.map (fun p => (p.1, p.2.2))) k
  have c := chk_spec _ _ _ _ _ (by simp) h (by positivity) k hk
  rw [Nat.zero_add, mom_eq] at c
  simp only [List.map_map, Function.comp_def] at *
  rw [e]; exact c

/-- For every supported `n` the rule has `2n+1` points, of which `n` carry a coarse weight; the coarse weights integrate
every polynomial of degree below `2n`, the fine weights every polynomial of degree below `3n+2`, over `[-1, 1]` to within
`1e-24` times the sum of the absolute coefficients. -/
theorem C51_rule {n : ℕ} (hn : SupportedK n) : ∃ rule, gkRule n = .ok rule ∧ rule.length = 2*n+1 ∧
    (rule.filter (fun p => decide (p.2.1 ≠ 0))).length = n ∧
    (∀ q : Polynomial ℝ, q.natDegree < 2*n →
      |(rule.map (fun p => q.eval p.1 * p.2.1)).sum - ∫ x in (-1:ℝ)..1, q.eval x| ≤
        10^(-24 : ℤ) * ∑ k ∈ Finset.range (2*n), |q.coeff k|) ∧
    (∀ q : Polynomial ℝ, q.natDegree < 3*n+2 →
      |(rule.map (fun p => q.eval p.1 * p.2.2)).sum - ∫ x in (-1:ℝ)..1, q.eval x| ≤
        10^(-24 : ℤ) * ∑ k ∈ Finset.range (3*n+2), |q.coeff k|) := by
  obtain ⟨t, h1, h2, h3, h4, h5, h6⟩ := gkRule_ok hn
  refine ⟨_, h2, by simp [h3], ?_, fun q hq => ?_, fun q hq => ?_⟩
  · rw [← h4, List.filter_map, List.length_map]
    congr 1
    refine List.filter_congr (fun p _ => ?_)
    simp only [Function.comp, unscale]
    by_cases hp : p.2.1 = 0
    · simp [hp]
    · simp [hp]
  · have := poly_of_moments (fun k hk => gk_moments1 h5 k hk) q hq
    simp only [List.map_map, Function.comp_def] at *
    exact this
  · have := poly_of_moments (fun k hk => gk_moments2 h6 k hk) q hq
    simp only [List.map_map, Function.comp_def] at *
    exact this

theorem C51_rejects (n : ℕ) (hn : ¬ SupportedK n) (f : ℝ → ℝ) (a b : List ℝ) : gkQuad f a b n = .error .valueError := by
  unfold gkQuad gkRule gkRuleZ
  rw [if_neg (fun h => hn ((supportedK_iff n).2 h))]
  rfl

/-- `gk_quad` on a polynomial of degree below `3n+2`: the first result is the integral on every interval up to
`|b-a|/2 * 1e-24 * (sum of absolute local coefficients)`; if the degree is below `2n` the error estimate is of the same size. -/
theorem C51_quad {n : ℕ} (hn : SupportedK n) (q : Polynomial ℝ) (a b : List ℝ) (hab : a.length = b.length) :
    ∃ r, gkQuad (fun x => q.eval x) a b n = .ok r ∧ r.length = a.length ∧
      ∀ i (h : i < r.length) (ha : i < a.length) (hb : i < b.length),
      (q.natDegree < 3*n+2 → |r[i].1 - ∫ x in a[i]..b[i], q.eval x| ≤ |b[i] - a[i]| / 2 * (10^(-24 : ℤ) *
        ∑ k ∈ Finset.range (3*n+2), |(q.comp (Polynomial.C ((b[i]-a[i])/2) * Polynomial.X + Polynomial.C ((a[i]+b[i])/2))).coeff k|)) ∧
      (q.natDegree < 2*n → r[i].2 ≤ 2 * (|b[i] - a[i]| / 2 * (10^(-24 : ℤ) *
        ∑ k ∈ Finset.range (3*n+2), |(q.comp (Polynomial.C ((b[i]-a[i])/2) * Polynomial.X + Polynomial.C ((a[i]+b[i])/2))).coeff k|))) := by
  obtain ⟨t, h1, h2, h3, h4, h5, h6⟩ := gkRule_ok hn
  unfold gkQuad
  rw [h2]
  simp only [bind, Except.bind, hab, ne_eq, not_true_eq_false, if_false, pure, Except.pure]
  refine ⟨_, rfl, by simp [hab], fun i h ha hb => ?_⟩
  rw [List.getElem_zipWith]
  set A := a[i]
  set B := b[i]
  set q' := q.comp (Polynomial.C ((B-A)/2) * Polynomial.X + Polynomial.C ((A+B)/2)) with hq'
  have hev : ∀ x, q'.eval x = q.eval ((B-A)/2*x + (A+B)/2) := fun x => by simp [hq']
  have hdeg : q'.natDegree ≤ q.natDegree := by
    rw [hq']
    refine Polynomial.natDegree_comp_le.trans ?_
    refine (Nat.mul_le_mul_left _ Polynomial.natDegree_linear_le).trans ?_
    simp
  have hint : ∫ x in A..B, q.eval x = (B-A)/2 * ∫ x in (-1:ℝ)..1, q'.eval x := by
    simp only [hev]
    have := intervalIntegral.smul_integral_comp_mul_add (a := -1) (b := 1) (fun x => q.eval x) ((B-A)/2) ((A+B)/2)
    rw [smul_eq_mul] at this
    rw [this]
    congr 1 <;> ring
  have fine : q.natDegree < 3*n+2 → |panel ((t.map (fun p => (unscale p.1, unscale p.2.1, unscale p.2.2))).map (fun p => (p.1, p.2.2))) (fun x => q.eval x) A B
      - ∫ x in A..B, q.eval x| ≤ |B - A| / 2 * (10^(-24 : ℤ) * ∑ k ∈ Finset.range (3*n+2), |q'.coeff k|) := by
    intro hq
    have key := poly_of_moments (fun k hk => gk_moments2 h6 k hk) q' (by omega)
    rw [hint, panel_comp]
    simp only [hev] at key ⊢
    rw [← mul_sub, abs_mul, abs_div, abs_of_pos (two_pos : (0:ℝ) < 2)]
    exact mul_le_mul_of_nonneg_left key (by positivity)
  refine ⟨fine, fun hq => ?_⟩
  have coarse : |panel ((t.map (fun p => (unscale p.1, unscale p.2.1, unscale p.2.2))).map (fun p => (p.1, p.2.1))) (fun x => q.eval x) A B
      - ∫ x in A..B, q.eval x| ≤ |B - A| / 2 * (10^(-24 : ℤ) * ∑ k ∈ Finset.range (3*n+2), |q'.coeff k|) := by
    have key := poly_of_moments (fun k hk => gk_moments1 h5 k hk) q' (by omega)
    rw [hint, panel_comp]
    simp only [hev] at key ⊢
    rw [← mul_sub, abs_mul, abs_div, abs_of_pos (two_pos : (0:ℝ) < 2)]
    refine (mul_le_mul_of_nonneg_left key (by positivity)).trans (mul_le_mul_of_nonneg_left ?_ (by positivity))
    refine mul_le_mul_of_nonneg_left ?_ (by positivity)
    exact Finset.sum_le_sum_of_subset_of_nonneg (Finset.range_mono (by omega)) (fun _ _ _ => abs_nonneg _)
  have f' := fine (by omega)
  simp only
  rw [abs_le] at *
  constructor <;> linarith [f'.1, f'.2, coarse.1, coarse.2]

example : SupportedK 7 ∧ (Polynomial.X ^ 13 : Polynomial ℝ).natDegree < 2 * 7 := by simp [SupportedK]

end Geotecha.Quad
