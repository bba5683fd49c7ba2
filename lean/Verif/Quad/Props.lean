import Verif.Quad.Lemmas

set_option linter.unusedVariables false
open intervalIntegral
namespace Geotecha.Quad

/-! # C23 Gauss-Legendre tables -/

/-- The supported numbers of points. -/
def Supported (n : ℕ) : Prop := (2 ≤ n ∧ n ≤ 20) ∨ n = 32 ∨ n = 64 ∨ n = 100

theorem supported_iff (n : ℕ) : Supported n ↔ n ∈ [2,3,4,5,6,7,8,9,10,11,12,13,14,15,16,17,18,19,20,32,64,100] := by
  constructor
  · rintro (⟨h1, h2⟩ | h | h | h)
    · interval_cases n <;> decide
    all_goals subst h; decide
  · intro h
    simp only [List.mem_cons, List.not_mem_nil, or_false] at h
    unfold Supported
    omega

set_option maxRecDepth 100000 in
theorem gl_check : ∀ n ∈ [2,3,4,5,6,7,8,9,10,11,12,13,14,15,16,17,18,19,20,32,64,100],
    match glTable n with
    | none => False
    | some t => t.length = n ∧ chk (t.map (·.1)) (2*n) 0 (t.map (·.2)) (10^25) = true ∧
        t.reverse = t.map (fun p => (-p.1, p.2)) ∧ ∀ p ∈ t, 0 < p.2 ∧ -10^25 < p.1 ∧ p.1 < 10^25 := by
  intro n hn
  simp only [List.mem_cons, List.not_mem_nil, or_false] at hn
  rcases hn with h | h | h | h | h | h | h | h | h | h | h | h | h | h | h | h | h | h | h | h | h | h <;> subst h <;>
    (show _ ∧ _ ∧ _ ∧ _) <;> refine ⟨by decide +kernel, by decide +kernel, by decide +kernel, by decide +kernel⟩

theorem glRule_ok {n : ℕ} (hn : Supported n) : ∃ t, glTable n = some t ∧
    glRule n = .ok (t.map (fun p => (unscale p.1, unscale p.2))) ∧
    t.length = n ∧ chk (t.map (·.1)) (2*n) 0 (t.map (·.2)) (10^25) = true ∧
        t.reverse = t.map (fun p => (-p.1, p.2)) ∧ ∀ p ∈ t, 0 < p.2 ∧ -10^25 < p.1 ∧ p.1 < 10^25 := by
  have hm := (supported_iff n).1 hn
  have := gl_check n hm
  unfold glRule
  rw [if_pos hm]
  revert this
  cases glTable n with
  | none => exact False.elim
  | some t => exact fun h => ⟨t, rfl, rfl, h⟩

theorem glRule_moments {n : ℕ} (hn : Supported n) {rule : List (ℝ × ℝ)} (h : glRule n = .ok rule) (k : ℕ) (hk : k < 2*n) :
    |(rule.map (fun p => p.1^k * p.2)).sum - ∫ x in (-1:ℝ)..1, x^k| ≤ 10^(-24 : ℤ) := by
  obtain ⟨t, _, h2, h3, h4, _⟩ := glRule_ok hn
  rw [h2] at h
  cases h
  rw [rule_moment, ← mom_eq]
  have := chk_spec _ _ _ _ _ (by simp) h4 (by positivity) k hk
  rw [Nat.zero_add] at this
  exact this

/-- For every supported `n` and every polynomial of degree below `2n`, the rule gives the integral over `[-1, 1]` to
within `1e-24` times the sum of the absolute values of the coefficients. -/
theorem C23_exact {n : ℕ} (hn : Supported n) : ∃ rule, glRule n = .ok rule ∧ rule.length = n ∧
    ∀ q : Polynomial ℝ, q.natDegree < 2*n →
      |(rule.map (fun p => q.eval p.1 * p.2)).sum - ∫ x in (-1:ℝ)..1, q.eval x| ≤
        10^(-24 : ℤ) * ∑ k ∈ Finset.range (2*n), |q.coeff k| := by
  obtain ⟨t, _, h2, h3, _⟩ := glRule_ok hn
  refine ⟨_, h2, by simp [h3], fun q hq => ?_⟩
  exact poly_of_moments (fun k hk => glRule_moments hn h2 k hk) q hq

/-- The abscissae lie inside `(-1, 1)` and the weights are positive. -/
theorem C23_inside {n : ℕ} {rule : List (ℝ × ℝ)} (h : glRule n = .ok rule) :
    ∀ p ∈ rule, -1 < p.1 ∧ p.1 < 1 ∧ 0 < p.2 := by
  have hn : Supported n := by
    rw [supported_iff]
    unfold glRule at h
    by_contra hc
    rw [if_neg hc] at h
    exact absurd h (by simp)
  obtain ⟨t, _, h2, _, _, _, h6⟩ := glRule_ok hn
  rw [h2] at h
  cases h
  intro p hp
  obtain ⟨z, hz, rfl⟩ := List.mem_map.1 hp
  obtain ⟨g1, g2, g3⟩ := h6 z hz
  have e1 : (0:ℝ) < z.2 := by exact_mod_cast g1
  have e2 : (-10^25:ℝ) < z.1 := by exact_mod_cast g2
  have e3 : (z.1:ℝ) < 10^25 := by exact_mod_cast g3
  simp only [unscale]
  refine ⟨?_, ?_, by positivity⟩
  · rw [lt_div_iff₀ (by positivity)]; linarith
  · rw [div_lt_iff₀ (by positivity)]; linarith

theorem C23_rejects (n : ℕ) (hn : ¬ Supported n) : glRule n = .error .valueError := by
  unfold glRule
  rw [if_neg (fun h => hn ((supported_iff n).2 h))]

/-! # C24 gl_quad -/

theorem glQuad_ok {n : ℕ} (hn : Supported n) {rule} (hr : glRule n = .ok rule) (f : ℝ → ℝ) {a b : List ℝ} (h : a.length = b.length) :
    glQuad f a b n = .ok (List.zipWith (panel rule f) a b) := by
  unfold glQuad
  rw [hr]
  simp [bind, Except.bind, h, pure, Except.pure]

theorem panel_comp (rule : List (ℝ × ℝ)) (f : ℝ → ℝ) (a b : ℝ) :
    panel rule f a b = (b-a)/2 * (rule.map (fun p => f ((b-a)/2 * p.1 + (a+b)/2) * p.2)).sum := by
  unfold panel
  simp only
  rw [← List.sum_map_mul_left]
  congr 1
  exact List.map_congr_left (fun p _ => by ring)

/-- On every interval, for every polynomial of degree below `2n`: the result differs from the integral over `[a, b]` by at
most `|b-a|/2 * 1e-24` times the sum of the absolute coefficients of the polynomial written in the local variable
`s`, `x = (b-a)/2 s + (a+b)/2`. -/
theorem C24_exact {n : ℕ} (hn : Supported n) (q : Polynomial ℝ) (hq : q.natDegree < 2*n) (a b : List ℝ) (hab : a.length = b.length) :
    ∃ r, glQuad (fun x => q.eval x) a b n = .ok r ∧ r.length = a.length ∧ ∀ i (h : i < r.length) (ha : i < a.length) (hb : i < b.length),
      |r[i] - ∫ x in a[i]..b[i], q.eval x| ≤ |b[i] - a[i]| / 2 * (10^(-24 : ℤ) *
        ∑ k ∈ Finset.range (2*n), |(q.comp (Polynomial.C ((b[i]-a[i])/2) * Polynomial.X + Polynomial.C ((a[i]+b[i])/2))).coeff k|) := by
  obtain ⟨t, _, h2, h3, _⟩ := glRule_ok hn
  refine ⟨_, glQuad_ok hn h2 _ hab, by simp [hab], fun i h ha hb => ?_⟩
  rw [List.getElem_zipWith, panel_comp]
  set A := a[i]
  set B := b[i]
  set q' := q.comp (Polynomial.C ((B-A)/2) * Polynomial.X + Polynomial.C ((A+B)/2)) with hq'
  have hev : ∀ x, q'.eval x = q.eval ((B-A)/2*x + (A+B)/2) := fun x => by simp [hq']
  have hdeg : q'.natDegree < 2*n := by
    refine lt_of_le_of_lt ?_ hq
    rw [hq']
    refine Polynomial.natDegree_comp_le.trans ?_
    refine (Nat.mul_le_mul_left _ Polynomial.natDegree_linear_le).trans ?_
    simp
  have hint : ∫ x in A..B, q.eval x = (B-A)/2 * ∫ x in (-1:ℝ)..1, q'.eval x := by
    simp only [hev]
    have := intervalIntegral.smul_integral_comp_mul_add (a := -1) (b := 1) (fun x => q.eval x) ((B-A)/2) ((A+B)/2)
    rw [smul_eq_mul] at this
    rw [this]
    congr 1 <;> ring
  rw [hint]
  have key := poly_of_moments (fun k hk => glRule_moments hn h2 k hk) q' hdeg
  simp only [hev] at key ⊢
  rw [← mul_sub, abs_mul, abs_div, abs_of_pos (two_pos : (0:ℝ) < 2)]
  exact mul_le_mul_of_nonneg_left key (by positivity)

/-- Linear in the integrand, for every rule and interval. -/
theorem C24_linear (n : ℕ) (f g : ℝ → ℝ) (c d : ℝ) (a b : List ℝ) (r s : List ℝ)
    (hf : glQuad f a b n = .ok r) (hg : glQuad g a b n = .ok s) :
    glQuad (fun x => c * f x + d * g x) a b n = .ok (List.zipWith (fun u v => c*u + d*v) r s) := by
  unfold glQuad at *
  cases hr : glRule n with
  | error e => rw [hr] at hf; simp [bind, Except.bind] at hf
  | ok rule =>
    rw [hr] at hf hg
    simp only [bind, Except.bind, pure, Except.pure] at *
    split_ifs at * with hl
    simp only [Except.ok.injEq] at *
    rw [← hf, ← hg]
    have key : ∀ a b : ℝ, panel rule (fun x => c * f x + d * g x) a b = c * panel rule f a b + d * panel rule g a b := by
      intro a b
      simp only [panel_comp]
      have : (rule.map (fun p => (c * f ((b-a)/2*p.1+(a+b)/2) + d * g ((b-a)/2*p.1+(a+b)/2)) * p.2)).sum =
          c * (rule.map (fun p => f ((b-a)/2*p.1+(a+b)/2) * p.2)).sum + d * (rule.map (fun p => g ((b-a)/2*p.1+(a+b)/2) * p.2)).sum := by
        rw [← List.sum_map_mul_left, ← List.sum_map_mul_left, ← List.sum_map_add]
        congr 1
        exact List.map_congr_left (fun p _ => by ring)
      rw [this]; ring
    clear hf hg hl
    induction a generalizing b with
    | nil => simp
    | cons x a ih => cases b with
      | nil => simp
      | cons y b => simp [key, ih]

/-- Exchanging the limits changes the sign, for every integrand. -/
theorem C24_swap (n : ℕ) (f : ℝ → ℝ) (a b : List ℝ) (r : List ℝ) (hf : glQuad f a b n = .ok r) :
    glQuad f b a n = .ok (r.map (fun v => -v)) := by
  have hn : Supported n := by
    by_contra hc
    unfold glQuad at hf
    rw [C23_rejects n hc] at hf
    simp [bind, Except.bind] at hf
  obtain ⟨t, _, h2, h3, _, h5, _⟩ := glRule_ok hn
  have hl : a.length = b.length := by
    by_contra hc
    unfold glQuad at hf
    rw [h2] at hf
    simp [bind, Except.bind, hc] at hf
  rw [glQuad_ok hn h2 f hl] at hf
  rw [glQuad_ok hn h2 f hl.symm]
  simp only [Except.ok.injEq] at *
  rw [← hf]
  have key : ∀ x y : ℝ, panel (t.map (fun p => (unscale p.1, unscale p.2))) f y x = -panel (t.map (fun p => (unscale p.1, unscale p.2))) f x y := by
    intro x y
    rw [panel_comp, panel_comp]
    have e : ((t.map (fun p => (unscale p.1, unscale p.2))).map (fun p => f ((x-y)/2*p.1+(y+x)/2) * p.2)).sum =
        ((t.map (fun p => (unscale p.1, unscale p.2))).map (fun p => f ((y-x)/2*p.1+(x+y)/2) * p.2)).sum := by
      rw [← List.sum_reverse, ← List.map_reverse, ← List.map_reverse, h5]
      congr 1
      simp only [List.map_map]
      refine List.map_congr_left (fun p _ => ?_)
      simp only [Function.comp, unscale]
      congr 2
      push_cast
      ring
    rw [e]; ring
  clear hf hl
  induction a generalizing b with
  | nil => simp
  | cons x a ih => cases b with
    | nil => simp
    | cons y b => rw [List.zipWith_cons_cons, List.zipWith_cons_cons, List.map_cons, ih, key x y]

/-- With `sum_intervals=True` the result is the sum over the intervals. -/
theorem C24_sum (n : ℕ) (f : ℝ → ℝ) (a b : List ℝ) (r : List ℝ) (hf : glQuad f a b n = .ok r) :
    glQuadSum f a b n = .ok r.sum := by
  unfold glQuadSum; rw [hf]; rfl

/-! Non-vacuity -/
example : Supported 10 ∧ ¬ Supported 21 := by unfold Supported; omega
example : (Polynomial.X ^ 3 : Polynomial ℝ).natDegree < 2 * 2 := by simp
example : ∃ r, glQuad (fun x => x) [0, 1] [1, 2] 5 = .ok r := by
  obtain ⟨t, _, h2, _⟩ := glRule_ok (n := 5) (by unfold Supported; omega)
  exact ⟨_, glQuad_ok (by unfold Supported; omega) h2 _ rfl⟩

end Geotecha.Quad
