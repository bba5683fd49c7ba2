import Verif.Beam.DingQuad
import Verif.Beam.DingClaims

/-!
# Claim C172: the quadrature weights are positive, so the cubic spring stores energy

The nodes are the Chebyshev points of Clenshaw and Curtis.  The weights solved for by the constructor are
identified with the explicit cosine sums, by discrete orthogonality, and these are positive.
-/
set_option autoImplicit false
set_option linter.unusedVariables false

namespace Geotecha.Beam

open Real

namespace CC

/-- End weights of the trapezoidal sum. -/
noncomputable def c (N j : ℕ) : ℝ := if j = 0 ∨ j = N then 1 / 2 else 1

theorem c_pos (N j : ℕ) : 0 < c N j := by unfold c; split_ifs <;> norm_num

theorem c_le (N j : ℕ) : c N j ≤ 1 := by unfold c; split_ifs <;> norm_num

theorem trap {N : ℕ} (hN : 1 ≤ N) (f : ℕ → ℝ) :
    ∑ j ∈ Finset.range (N + 1), c N j * f j = ∑ j ∈ Finset.range N, (f j + f (j + 1)) / 2 := by
  have e : ∀ j ∈ Finset.range (N + 1), c N j * f j = f j - (if j = 0 then f 0 / 2 else 0) - (if j = N then f N / 2 else 0) := by
    intro j _
    unfold c
    by_cases h0 : j = 0
    · subst h0
      rw [if_pos (Or.inl rfl), if_pos rfl, if_neg (by omega)]; ring
    · by_cases h1 : j = N
      · subst h1
        rw [if_pos (Or.inr rfl), if_neg h0, if_pos rfl]; ring
      · rw [if_neg (by tauto), if_neg h0, if_neg h1]; ring
  rw [Finset.sum_congr rfl e, Finset.sum_sub_distrib, Finset.sum_sub_distrib, Finset.sum_ite_eq' , Finset.sum_ite_eq',
    if_pos (Finset.mem_range.2 (by omega)), if_pos (Finset.mem_range.2 (by omega)), ← Finset.sum_div, Finset.sum_add_distrib]
  have a := Finset.sum_range_succ f N
  have b := Finset.sum_range_succ' f N
  linarith

/-- The trapezoidal sum of a cosine. -/
theorem cos_sum {N : ℕ} (hN : 1 ≤ N) (k : ℕ) (hk : 0 < k) (hk2 : k < 2 * N) :
    ∑ j ∈ Finset.range (N + 1), c N j * cos (k * (π * j / N)) = 0 := by
  have hN0 : (0:ℝ) < N := by exact_mod_cast hN
  rw [trap hN]
  set a : ℝ := k * π / N with ha
  have hs : sin (a / 2) ≠ 0 := by
    refine (sin_pos_of_pos_of_lt_pi ?_ ?_).ne'
    · have : (0:ℝ) < k := by exact_mod_cast hk
      have := pi_pos
      positivity
    · rw [ha, div_div, div_lt_iff₀ (by positivity)]
      have : (k:ℝ) < 2 * N := by exact_mod_cast hk2
      nlinarith [pi_pos]
  have e : ∀ j : ℕ, sin (a / 2) * ((cos (k * (π * j / N)) + cos (k * (π * (j + 1 : ℕ) / N))) / 2) =
      cos (a / 2) / 2 * (sin ((j + 1 : ℕ) * a) - sin (j * a)) := fun j => by
    have h1 : (k:ℝ) * (π * j / N) = (j * a + a / 2) - a / 2 := by rw [ha]; ring
    have h2 : (k:ℝ) * (π * (j + 1 : ℕ) / N) = (j * a + a / 2) + a / 2 := by rw [ha]; push_cast; ring
    have h3 : ((j + 1 : ℕ) : ℝ) * a = (j * a + a / 2) + a / 2 := by push_cast; ring
    have h4 : (j : ℝ) * a = (j * a + a / 2) - a / 2 := by ring
    have key : ∀ u d : ℝ, sin d * ((cos (u - d) + cos (u + d)) / 2) = cos d / 2 * (sin (u + d) - sin (u - d)) := fun u d => by
      rw [cos_sub, cos_add, sin_add, sin_sub]; ring
    rw [h1, h2, h3, show sin (↑j * a) = sin ((j * a + a / 2) - a / 2) by rw [← h4]]
    exact key _ _
  refine mul_left_cancel₀ hs ?_
  rw [Finset.mul_sum, Finset.sum_congr rfl fun j _ => e j, ← Finset.mul_sum, Finset.sum_range_sub (fun j => sin ((j : ℕ) * a)) N]
  have : (N:ℝ) * a = k * π := by rw [ha]; field_simp
  rw [this, sin_nat_mul_pi]; simp

theorem ones_sum {N : ℕ} (hN : 1 ≤ N) : ∑ j ∈ Finset.range (N + 1), c N j = N := by
  have := trap hN fun _ => 1
  simp only [mul_one] at this
  rw [this]; simp

/-- Discrete orthogonality. -/
theorem ortho {N : ℕ} (hN : 1 ≤ N) {k m : ℕ} (hk : k ≤ N) (hm : m ≤ N) :
    ∑ j ∈ Finset.range (N + 1), c N j * (cos (m * (π * j / N)) * cos (k * (π * j / N))) =
      if m = k then N / (2 * c N k) else 0 := by
  have hN0 : (N:ℝ) ≠ 0 := by exact_mod_cast (by omega : N ≠ 0)
  have full : ∀ j : ℕ, cos ((2 * N : ℕ) * (π * j / N)) = 1 := fun j => by
    rw [show ((2 * N : ℕ) : ℝ) * (π * j / N) = j * (2 * π) by push_cast; field_simp, cos_nat_mul_two_pi]
  have S : ∀ p : ℕ, p ≤ 2 * N → ∑ j ∈ Finset.range (N + 1), c N j * cos (p * (π * j / N)) = if p = 0 ∨ p = 2 * N then (N:ℝ) else 0 := by
    intro p hp
    split_ifs with h
    · rcases h with rfl | rfl
      · simp [ones_sum hN]
      · simp_rw [full, mul_one]; exact ones_sum hN
    · exact cos_sum hN p (by omega) (by omega)
  have e : ∀ {a b : ℕ}, b ≤ a → ∀ j : ℕ, cos (a * (π * j / N)) * cos (b * (π * j / N)) =
      (cos ((a - b : ℕ) * (π * j / N)) + cos ((a + b : ℕ) * (π * j / N))) / 2 := fun {a b} hab j => by
    rw [Nat.cast_sub hab, Nat.cast_add, sub_mul, add_mul, cos_sub, cos_add]; ring
  have main : ∀ {a b : ℕ}, b ≤ a → a ≤ N → ∑ j ∈ Finset.range (N + 1), c N j * (cos (a * (π * j / N)) * cos (b * (π * j / N))) =
      if a = b then N / (2 * c N b) else 0 := by
    intro a b hab ha
    rw [Finset.sum_congr rfl fun j _ => show c N j * (cos (a * (π * j / N)) * cos (b * (π * j / N))) =
      (c N j * cos ((a - b : ℕ) * (π * j / N)) + c N j * cos ((a + b : ℕ) * (π * j / N))) / 2 by rw [e hab]; ring,
      ← Finset.sum_div, Finset.sum_add_distrib]
    rw [S _ (by omega), S _ (by omega)]
    unfold c
    by_cases h : a = b
    · subst h
      rw [if_pos (Or.inl (by omega)), if_pos rfl]
      by_cases h0 : a = 0 ∨ a = N
      · rw [if_pos (by omega), if_pos h0]; ring
      · rw [if_neg (by omega), if_neg h0]; ring
    · rw [if_neg (by omega), if_neg (by omega), if_neg h]; simp
  rcases le_total k m with h | h
  · exact main h hm
  · have := main h hk
    simp_rw [mul_comm (cos ((k:ℝ) * _))] at this
    rw [this]
    by_cases hkm : k = m
    · subst hkm; rfl
    · rw [if_neg hkm, if_neg (Ne.symm hkm)]

/-- Moments of the cosines. -/
noncomputable def tau (k : ℕ) : ℝ := ∫ θ in (0:ℝ)..π, cos (k * θ) * (sin θ / 2)

theorem tau_zero : tau 0 = 1 := by
  simp [tau]

theorem tau_eq {k : ℕ} (hk : 2 ≤ k) : tau k = (1 + (-1) ^ k) / (2 * (1 - (k:ℝ) ^ 2)) := by
  have hk' : (2:ℝ) ≤ k := by exact_mod_cast hk
  have h1 : (k:ℝ) - 1 ≠ 0 := by linarith
  have h2 : (k:ℝ) + 1 ≠ 0 := by linarith
  have D : ∀ θ ∈ Set.uIcc 0 π, HasDerivAt (fun θ : ℝ => -cos (((k:ℝ) + 1) * θ) / (4 * (k + 1)) + cos (((k:ℝ) - 1) * θ) / (4 * (k - 1)))
      (cos (k * θ) * (sin θ / 2)) θ := fun θ _ => by
    have d : ∀ a : ℝ, HasDerivAt (fun t => a * t) a θ := fun a => by simpa using (hasDerivAt_id θ).const_mul a
    refine (((d ((k:ℝ) + 1)).cos.fun_neg.div_const _).fun_add ((d ((k:ℝ) - 1)).cos.div_const _)).congr_deriv ?_
    rw [add_mul, sub_mul, one_mul, sin_add, sin_sub]
    field_simp
    ring
  unfold tau
  rw [intervalIntegral.integral_eq_sub_of_hasDerivAt D (Continuous.intervalIntegrable (by fun_prop) _ _)]
  simp only [mul_zero, cos_zero]
  rw [add_mul, sub_mul, one_mul, cos_add_pi, cos_sub_pi, cos_nat_mul_pi]
  have h3 : 1 - (k:ℝ) ^ 2 ≠ 0 := by
    have : 1 - (k:ℝ) ^ 2 = -((k - 1) * (k + 1)) := by ring
    rw [this]; exact neg_ne_zero.2 (mul_ne_zero h1 h2)
  field_simp
  ring

theorem tau_one : tau 1 = 0 := by
  have D : ∀ θ ∈ Set.uIcc 0 π, HasDerivAt (fun θ : ℝ => sin θ ^ 2 / 4) (cos ((1 : ℕ) * θ) * (sin θ / 2)) θ := fun θ _ => by
    refine (((hasDerivAt_sin θ).fun_pow 2).div_const 4).congr_deriv ?_
    push_cast; rw [one_mul]; ring
  unfold tau
  rw [intervalIntegral.integral_eq_sub_of_hasDerivAt D (Continuous.intervalIntegrable (by fun_prop) _ _)]
  simp

/-- Size of the moments. -/
noncomputable def e (k : ℕ) : ℝ := if k = 0 then 0 else |tau k|

theorem e_even (K : ℕ) (hK : 1 ≤ K) : e (2 * K) = (1 / (2 * K - 1) - 1 / (2 * K + 1)) / 2 := by
  have hK' : (1:ℝ) ≤ K := by exact_mod_cast hK
  unfold e
  rw [if_neg (by omega), tau_eq (by omega)]
  have : (-1:ℝ) ^ (2 * K) = 1 := by rw [pow_mul]; simp
  rw [this]
  push_cast
  have h : 1 - (2 * (K:ℝ)) ^ 2 < 0 := by nlinarith
  rw [abs_of_neg (div_neg_of_pos_of_neg (by norm_num) (by linarith))]
  have h1 : 2 * (K:ℝ) - 1 ≠ 0 := by linarith
  have h2 : 2 * (K:ℝ) + 1 ≠ 0 := by linarith
  rw [show 2 * (1 - (2 * (K:ℝ)) ^ 2) = -(2 * ((2 * K - 1) * (2 * K + 1))) by ring]
  field_simp
  ring

theorem e_odd (K : ℕ) : e (2 * K + 1) = 0 := by
  unfold e
  rw [if_neg (by omega)]
  rcases Nat.eq_zero_or_pos K with rfl | h
  · rw [show 2 * 0 + 1 = 1 by rfl, tau_one, abs_zero]
  · rw [tau_eq (by omega)]
    have : (-1:ℝ) ^ (2 * K + 1) = -1 := by rw [pow_succ, pow_mul]; simp
    rw [this]; simp

theorem e_sum (K : ℕ) : ∑ k ∈ Finset.range (2 * K + 1), e k = (1 - 1 / (2 * K + 1)) / 2 := by
  induction K with
  | zero => simp [e]
  | succ K ih =>
    rw [show 2 * (K + 1) + 1 = 2 * K + 1 + 1 + 1 by ring, Finset.sum_range_succ, Finset.sum_range_succ, ih, e_odd,
      show 2 * K + 1 + 1 = 2 * (K + 1) by ring, e_even _ (by omega)]
    push_cast
    ring

theorem e_nonneg (k : ℕ) : 0 ≤ e k := by unfold e; split_ifs <;> positivity

theorem e_lt (M : ℕ) : ∑ k ∈ Finset.range M, e k < 1 / 2 := by
  have h : ∑ k ∈ Finset.range M, e k ≤ ∑ k ∈ Finset.range (2 * M + 1), e k :=
    Finset.sum_le_sum_of_subset_of_nonneg (Finset.range_subset_range.2 (by omega)) fun k _ _ => e_nonneg k
  rw [e_sum] at h
  have : (0:ℝ) < 1 / (2 * M + 1) := by positivity
  linarith

/-- The explicit weights. -/
noncomputable def W (N j : ℕ) : ℝ := 2 * c N j / N * ∑ m ∈ Finset.range (N + 1), c N m * (tau m * cos (m * (π * j / N)))

theorem W_pos {N : ℕ} (hN : 1 ≤ N) (j : ℕ) : 0 < W N j := by
  have hN0 : (0:ℝ) < N := by exact_mod_cast hN
  refine mul_pos (div_pos (mul_pos two_pos (c_pos N j)) hN0) ?_
  rw [Finset.sum_range_succ']
  have h0 : c N 0 * (tau 0 * cos ((0:ℕ) * (π * j / N))) = 1 / 2 := by simp [c, tau_zero]
  rw [h0]
  have h1 : ∀ m ∈ Finset.range N, -e (m + 1) ≤ c N (m + 1) * (tau (m + 1) * cos ((m + 1 : ℕ) * (π * j / N))) := fun m _ => by
    have a : |c N (m + 1) * (tau (m + 1) * cos ((m + 1 : ℕ) * (π * j / N)))| ≤ e (m + 1) := by
      rw [abs_mul, abs_mul, abs_of_pos (c_pos N _)]
      unfold e
      rw [if_neg (by omega)]
      calc c N (m + 1) * (|tau (m + 1)| * |cos ((m + 1 : ℕ) * (π * j / N))|)
          ≤ 1 * (|tau (m + 1)| * 1) := by
            refine mul_le_mul (c_le N _) (mul_le_mul_of_nonneg_left (abs_cos_le_one _) (abs_nonneg _)) (by positivity) zero_le_one
        _ = _ := by ring
    exact (abs_le.1 a).1
  have h2 := Finset.sum_le_sum h1
  rw [Finset.sum_neg_distrib] at h2
  have h3 := e_lt (N + 1)
  rw [Finset.sum_range_succ'] at h3
  have := e_nonneg 0
  linarith

theorem W_cos {N : ℕ} (hN : 1 ≤ N) {k : ℕ} (hk : k ≤ N) :
    ∑ j ∈ Finset.range (N + 1), W N j * cos (k * (π * j / N)) = tau k := by
  have hN0 : (N:ℝ) ≠ 0 := by exact_mod_cast (by omega : N ≠ 0)
  have h : ∀ j : ℕ, W N j * cos (k * (π * j / N)) =
      ∑ m ∈ Finset.range (N + 1), 2 / N * c N m * tau m * (c N j * (cos (m * (π * j / N)) * cos (k * (π * j / N)))) := fun j => by
    unfold W
    rw [Finset.mul_sum, Finset.sum_mul]
    exact Finset.sum_congr rfl fun m _ => by ring
  simp_rw [h]
  rw [Finset.sum_comm]
  simp_rw [← Finset.mul_sum]
  rw [Finset.sum_congr rfl fun m hm => by rw [ortho hN hk (by have := Finset.mem_range.1 hm; omega : m ≤ N)]]
  simp only [mul_ite, mul_zero, Finset.sum_ite_eq', Finset.mem_range]
  rw [if_pos (by omega)]
  have := (c_pos N k).ne'
  field_simp

/-- Powers of the node as cosine sums. -/
theorem pow_cos (i : ℕ) : ∃ a : ℕ → ℝ, ∀ θ : ℝ, (0.5 * (1 - cos θ)) ^ i = ∑ k ∈ Finset.range (i + 1), a k * cos (k * θ) := by
  induction i with
  | zero => exact ⟨fun _ => 1, fun θ => by simp⟩
  | succ i ih =>
    obtain ⟨a, ha⟩ := ih
    have step : ∀ k ∈ Finset.range (i + 1), ∃ b : ℕ → ℝ, ∀ θ : ℝ, a k * cos (k * θ) * (0.5 * (1 - cos θ)) =
        ∑ l ∈ Finset.range (i + 1 + 1), b l * cos (l * θ) := by
      intro k hk
      have hk := Finset.mem_range.1 hk
      rcases Nat.eq_zero_or_pos k with rfl | h0
      · refine ⟨fun l => if l = 0 then a 0 / 2 else if l = 1 then -(a 0 / 2) else 0, fun θ => ?_⟩
        rw [Finset.sum_eq_add_of_mem 0 1 (by simp) (by simp) (by norm_num) (fun l _ hl => by
          simp [hl.1, hl.2])]
        simp; ring
      · obtain ⟨p, rfl⟩ : ∃ p, k = p + 1 := ⟨k - 1, by omega⟩
        refine ⟨fun l => (if l = p + 1 then a (p + 1) / 2 else 0) - (if l = p + 2 then a (p + 1) / 4 else 0)
          - (if l = p then a (p + 1) / 4 else 0), fun θ => ?_⟩
        simp only [sub_mul, ite_mul, zero_mul, Finset.sum_sub_distrib, Finset.sum_ite_eq', Finset.mem_range]
        rw [if_pos (by omega), if_pos (by omega), if_pos (by omega)]
        have e1 : cos ((p + 2 : ℕ) * θ) = cos ((p + 1 : ℕ) * θ) * cos θ - sin ((p + 1 : ℕ) * θ) * sin θ := by
          rw [← cos_add]; congr 1; push_cast; ring
        have e2 : cos ((p : ℕ) * θ) = cos ((p + 1 : ℕ) * θ) * cos θ + sin ((p + 1 : ℕ) * θ) * sin θ := by
          rw [← cos_sub]; congr 1; push_cast; ring
        rw [e1, e2]; ring
    choose! b hb using step
    refine ⟨fun l => ∑ k ∈ Finset.range (i + 1), b k l, fun θ => ?_⟩
    rw [pow_succ, ha θ, Finset.sum_mul, Finset.sum_congr rfl fun k hk => hb k hk θ, Finset.sum_comm]
    exact Finset.sum_congr rfl fun l _ => by rw [Finset.sum_mul]

theorem pow_int (i : ℕ) : ∫ θ in (0:ℝ)..π, (0.5 * (1 - cos θ)) ^ i * (sin θ / 2) = 1 / ((i:ℝ) + 1) := by
  have h1 : (i:ℝ) + 1 ≠ 0 := by positivity
  have D : ∀ θ ∈ Set.uIcc 0 π, HasDerivAt (fun θ : ℝ => (0.5 * (1 - cos θ)) ^ (i + 1) / ((i:ℝ) + 1)) ((0.5 * (1 - cos θ)) ^ i * (sin θ / 2)) θ := fun θ _ => by
    refine (((((hasDerivAt_cos θ).const_sub 1).const_mul 0.5).fun_pow (i + 1)).div_const _).congr_deriv ?_
    rw [Nat.add_sub_cancel]
    push_cast
    field_simp
    norm_num
    ring
  rw [intervalIntegral.integral_eq_sub_of_hasDerivAt D (Continuous.intervalIntegrable (by fun_prop) _ _)]
  rw [cos_pi, cos_zero]
  norm_num

theorem W_moments {N : ℕ} (hN : 1 ≤ N) {i : ℕ} (hi : i ≤ N) :
    ∑ j ∈ Finset.range (N + 1), W N j * (0.5 * (1 - cos (π * j / N))) ^ i = 1 / ((i:ℝ) + 1) := by
  obtain ⟨a, ha⟩ := pow_cos i
  simp_rw [ha]
  rw [← pow_int i]
  simp_rw [ha, Finset.sum_mul, Finset.mul_sum]
  rw [intervalIntegral.integral_finsetSum (fun k _ => Continuous.intervalIntegrable (by fun_prop) _ _), Finset.sum_comm]
  refine Finset.sum_congr rfl fun k hk => ?_
  have e1 : ∀ j : ℕ, W N j * (a k * cos (k * (π * j / N))) = a k * (W N j * cos (k * (π * j / N))) := fun j => by ring
  have e2 : ∀ θ : ℝ, a k * cos (k * θ) * (sin θ / 2) = a k * (cos (k * θ) * (sin θ / 2)) := fun j => by ring
  simp_rw [e1, e2]
  rw [← Finset.mul_sum, intervalIntegral.integral_const_mul, W_cos hN (by have := Finset.mem_range.1 hk; omega)]
  rfl

end CC

/-- **C172.** For every number of quadrature points the weights the constructor solves for are positive
and add up to the (normalised) length 1. -/
theorem C172_ding_weights_positive {n : ℕ} (hn : 2 ≤ n) {x w : Fin n → ℝ} (h : mkRule .ss (some n) = .ok (.rule n x w)) :
    (∀ j, 0 < w j) ∧ ∑ j, w j = 1 := by
  obtain ⟨N, rfl⟩ : ∃ N, n = N + 1 := ⟨n - 1, by omega⟩
  have hN : 1 ≤ N := by omega
  have hinj := (nodesSS_mono hn).injective
  have hd : (lhs (nodesSS (N + 1))).det ≠ 0 := fun h => (det_lhs _).1 h hinj
  have hw : weights (nodesSS (N + 1)) = .ok ((lhs (nodesSS (N + 1)))⁻¹.mulVec (rhs (N + 1))) := by
    unfold weights; rw [if_neg hd]
  simp only [mkRule, if_neg (show N + 1 ≠ 1 by omega), hw, Bind.bind, Except.bind, pure, Except.pure, Except.ok.injEq, Rule.rule.injEq,
    heq_eq_eq, true_and] at h
  have e : (fun j : Fin (N + 1) => CC.W N j) = w := by
    rw [← h.2]
    refine weights_unique hw fun i => ?_
    have := CC.W_moments hN (show (i : ℕ) ≤ N by omega)
    rw [Finset.sum_range] at this
    rw [← this]
    refine Finset.sum_congr rfl fun j _ => ?_
    congr 2
    unfold nodesSS
    congr 4
    push_cast; ring
  constructor
  · intro j; rw [← e]; exact CC.W_pos hN j
  · have := weights_moments (show weights (nodesSS (N + 1)) = .ok w by rw [hw, h.2]) ⟨0, by omega⟩
    simpa using this

/-- **C172.** Hence with springs that resist (`k1, k3 ≥ 0`) the energy of beam and foundation is never
negative, whatever the deflection, velocity and curvature. -/
theorem C172_ding_energy_nonneg (P : Phys) (hk1 : 0 ≤ P.k1) (hk3 : 0 ≤ P.k3) {n : ℕ} (hn : 2 ≤ n) {x w : Fin n → ℝ}
    (h : mkRule .ss (some n) = .ok (.rule n x w)) (d V w2 : ℝ → ℝ) : 0 ≤ Spec.energy P x w d V w2 := by
  have hw := (C172_ding_weights_positive hn h).1
  have hE := P.hE
  have hI := P.hI
  have hr := P.hrho
  have hA := P.hA
  have hL := P.hL
  unfold Spec.energy
  have a1 : 0 ≤ ∫ x in (0:ℝ)..P.L, P.rho * P.A / 2 * V x ^ 2 := intervalIntegral.integral_nonneg hL.le fun x _ => by positivity
  have a2 : 0 ≤ ∫ x in (0:ℝ)..P.L, P.E * P.I / 2 * w2 x ^ 2 := intervalIntegral.integral_nonneg hL.le fun x _ => by positivity
  have a3 : 0 ≤ ∫ x in (0:ℝ)..P.L, P.k1 / 2 * d x ^ 2 := intervalIntegral.integral_nonneg hL.le fun x _ => by positivity
  have a4 : 0 ≤ ∑ j, w j * d (P.L * x j) ^ 4 := Finset.sum_nonneg fun j _ => mul_nonneg (hw j).le (by positivity)
  positivity

/-- The hypothesis of C172 is met for every number of points from two on: the constructor does find weights. -/
theorem C172_rule_exists {n : ℕ} (hn : 2 ≤ n) : ∃ x w : Fin n → ℝ, mkRule .ss (some n) = .ok (.rule n x w) := by
  obtain ⟨N, rfl⟩ : ∃ N, n = N + 1 := ⟨n - 1, by omega⟩
  have hd : (lhs (nodesSS (N + 1))).det ≠ 0 := fun h => (det_lhs _).1 h (nodesSS_mono hn).injective
  have hw : weights (nodesSS (N + 1)) = .ok ((lhs (nodesSS (N + 1)))⁻¹.mulVec (rhs (N + 1))) := by
    unfold weights; rw [if_neg hd]
  exact ⟨nodesSS (N + 1), (lhs (nodesSS (N + 1)))⁻¹.mulVec (rhs (N + 1)), by
    simp only [mkRule, if_neg (show N + 1 ≠ 1 by omega), hw, Bind.bind, Except.bind, pure, Except.pure]⟩

/-- A beam with the springs of the article and twenty points: the weights exist, are positive, and a deflected beam at rest has non-negative energy. -/
example (P : Phys) (h1 : 0 ≤ P.k1) (h3 : 0 ≤ P.k3) : ∃ x w : Fin 20 → ℝ, mkRule .ss (some 20) = .ok (.rule 20 x w) ∧ (∀ j, 0 < w j) ∧
    0 ≤ Spec.energy P x w (fun z => z * (P.L - z)) (fun _ => 0) (fun _ => -2) := by
  obtain ⟨x, w, h⟩ := C172_rule_exists (n := 20) (by norm_num)
  exact ⟨x, w, h, (C172_ding_weights_positive (by norm_num) h).1, C172_ding_energy_nonneg P h1 h3 (by norm_num) h _ _ _⟩

end Geotecha.Beam
