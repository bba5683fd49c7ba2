import Verif.Smear.NDClaims2
import Verif.Smear.PropsDrain

/-! # Non-Darcian smear zone functions: C156 (orderings, reductions), C157 (drain parameter) -/

set_option autoImplicit false
set_option linter.unusedVariables false
namespace Geotecha.Smear
open MeasureTheory intervalIntegral Set Real Filter Topology
open Geotecha (PyErr)

/-! ## C156 -/

/-- **C156** A smear zone without disturbance, or of no extent, is no smear zone. -/
theorem C156_ideal (arr arrS : Bool) (n s kap nf : ℝ) (T : ℕ) (hn : 1 < n) (h : 1 < nf) (hT : 0 < T) :
    (1 ≤ s → ndBetaConstant arr arrS n s 1 nf T = ndBetaIdeal arr n nf T) ∧ (1 ≤ kap → ndBetaConstant arr arrS n 1 kap nf T = ndBetaIdeal arr n nf T) := by
  constructor
  · intro hs
    rw [constant_sum hn hs le_rfl h hT, ideal_sum hn h hT]
    simp only [ndSum, ndPsi, List.map_nil, List.sum_nil, one_rpow, List.nil_append, List.map_cons, List.sum_cons]
    congr 1
    ring
  · intro hk
    have hz : kap ^ (1 / nf) ≠ 0 := (rpow_pos_of_pos (by linarith) _).ne'
    rw [constant_sum hn le_rfl hk h hT, ideal_sum hn h hT]
    simp only [ndSum, ndPsi, List.map_nil, List.sum_nil, one_rpow, List.nil_append, List.map_cons, List.sum_cons]
    congr 1
    ring

/-- **C156** One zone and the rest as two zones of the piecewise function. -/
theorem C156_zones (arr arrS : Bool) (n s kap nf : ℝ) (T : ℕ) (hs : 1 < s) (hsn : s < n) (hk : 1 ≤ kap) (h : 1 < nf) (hT : 0 < T) :
    ndBetaPiecewise [s, n] [kap, 1] none none nf T = ndBetaConstant arr arrS n s kap nf T ∧
    ndBetaPiecewise [s] [kap] (some n) (some 1) nf T = ndBetaConstant arr arrS n s kap nf T := by
  have hn : 1 < n := by linarith
  have e : ndBetaPiecewise [s, n] [kap, 1] none none nf T = ndBetaConstant arr arrS n s kap nf T := by
    unfold ndBetaPiecewise
    rw [ndZones_ok (s := [s, n]) (kap := [kap, 1]) (N := n) rfl (by simp; exact ⟨hs, hn⟩) (by simp; linarith) ⟨hsn, trivial⟩ rfl h, constant_sum hn hs.le hk h hT]
    simp only [Bind.bind, Except.bind, pure, Except.pure, if_neg hT.ne', cZones]
  refine ⟨e, ?_⟩
  rw [(C154_append [s] [kap] [] n nf 0 0 0 (some 1) T (Or.inl (by simp))).1]
  exact e

theorem piecewise_value {s kap : List ℝ} {N nf : ℝ} {T : ℕ} (hl : s.length = kap.length) (h1 : ∀ x ∈ s, 1 < x) (hk : ∀ k ∈ kap, 0 < k) (hi : Increasing s)
    (hN : s.getLast? = some N) (h : 1 < nf) (hT : 0 < T) :
    ndBetaPiecewise s kap none none nf T = .ok (average N (head (wT N nf T) fun x => stepRatio s kap x ^ (1 / nf))) := by
  obtain ⟨K, hK1, hK⟩ := max_list kap
  obtain ⟨b, hb, e, _⟩ := C154_piecewise s kap N nf K T hl h1 hk hi hN h hT hK hK1
  rw [hb, e]
  rfl

/-- **C156** Splitting a zone in two of the same permeability changes nothing. -/
theorem C156_split (s₁ k₁ s₂ k₂ : List ℝ) (m s k nf : ℝ) (T : ℕ) (hl₁ : s₁.length = k₁.length) (hl₂ : s₂.length = k₂.length)
    (h1 : ∀ x ∈ s₁ ++ m :: s :: s₂, 1 < x) (hk : ∀ y ∈ k₁ ++ k :: k₂, 0 < y) (hi : Increasing (s₁ ++ m :: s :: s₂)) (h : 1 < nf) (hT : 0 < T) :
    ndBetaPiecewise (s₁ ++ m :: s :: s₂) (k₁ ++ k :: k :: k₂) none none nf T = ndBetaPiecewise (s₁ ++ s :: s₂) (k₁ ++ k :: k₂) none none nf T := by
  have hms : m < s ∧ Increasing (s₁ ++ s :: s₂) := by
    clear h1 hl₁
    induction s₁ with
    | nil => exact ⟨hi.1, hi.2⟩
    | cons b s₁ ih =>
      cases s₁ with
      | nil =>
        obtain ⟨u, v, w⟩ := hi
        exact ⟨v, lt_trans u v, w⟩
      | cons c s₁ =>
        obtain ⟨u, v⟩ := hi
        obtain ⟨p, q⟩ := ih v
        exact ⟨p, u, q⟩
  obtain ⟨N, hN⟩ : ∃ N, (s :: s₂).getLast? = some N := ⟨_, List.getLast?_eq_some_getLast (by simp)⟩
  have e1 : (s₁ ++ m :: s :: s₂).getLast? = some N := by
    rw [show s₁ ++ m :: s :: s₂ = (s₁ ++ [m]) ++ s :: s₂ by simp, List.getLast?_append, hN]; rfl
  have e2 : (s₁ ++ s :: s₂).getLast? = some N := by rw [List.getLast?_append, hN]; rfl
  rw [piecewise_value (N := N) (by simp [hl₁, hl₂]) h1 (by intro y hy; apply hk; simp at hy ⊢; tauto) hi e1 h hT,
    piecewise_value (N := N) (by simp [hl₁, hl₂]) (by intro x hx; apply h1; simp at hx ⊢; tauto) hk hms.2 e2 h hT]
  congr 3
  funext x
  rw [step_split s₁ k₁ hl₁ m s k hms.1.le s₂ k₂ x]

theorem stepRatio_mono {s kap kap' : List ℝ} (hkk : List.Forall₂ (· ≤ ·) kap kap') (x : ℝ) : stepRatio s kap x ≤ stepRatio s kap' x := by
  induction hkk generalizing s with
  | nil => rfl
  | cons a _ ih =>
    cases s with
    | nil => simp [stepRatio]
    | cons b s =>
      simp only [stepRatio]
      split_ifs
      · exact a
      · exact ih

/-- **C156** `β` is positive and grows with each permeability ratio. -/
theorem C156_mono (s kap kap' : List ℝ) (N nf : ℝ) (T : ℕ) (hl : s.length = kap.length) (h1 : ∀ x ∈ s, 1 < x) (hk : ∀ k ∈ kap, 0 < k) (hi : Increasing s)
    (hN : s.getLast? = some N) (h : 1 < nf) (hT : 0 < T) (hkk : List.Forall₂ (· ≤ ·) kap kap') :
    ∃ b b', ndBetaPiecewise s kap none none nf T = .ok b ∧ ndBetaPiecewise s kap' none none nf T = .ok b' ∧ 0 < b ∧ b ≤ b' := by
  have hN1 : 1 < N := h1 N (List.mem_of_getLast? hN)
  have hk' : ∀ k ∈ kap', 0 < k := by
    clear hl
    induction hkk with
    | nil => simp
    | cons a _ ih =>
      intro k hm
      rcases List.mem_cons.1 hm with rfl | hm
      · exact lt_of_lt_of_le (hk _ (by simp)) a
      · exact ih (fun k hm => hk k (by simp [hm])) k hm
  have hl' : s.length = kap'.length := hl.trans hkk.length_eq
  obtain ⟨c, c0, hc0⟩ := step_low (s := s) h hk
  have cT := wT_cont N nf T one_pos (b := N)
  have hP := step_pow_profile (nf := nf) (kap := kap) hl h1 hi hN
  have hP' := step_pow_profile (nf := nf) (kap := kap') hl' h1 hi hN
  obtain ⟨k, k0, k1, hkl⟩ := min_pos_list kap hk
  have hpos : ∀ x, 0 < stepRatio s kap x := fun x => lt_of_lt_of_le k0 (stepRatio_ge k1 s kap hkl x)
  refine ⟨_, _, piecewise_value hl h1 hk hi hN h hT, piecewise_value hl' h1 hk' hi hN h hT, ?_, ?_⟩
  · exact average_head_pos hN1 hP cT c0 (fun x _ _ => hc0 x) (fun x a b => wT_pos h hT (by linarith) b.le)
  · refine average_head_mono hN1 hP hP' cT cT fun x a b => ?_
    exact mul_le_mul_of_nonneg_right (rpow_le_rpow (hpos x).le (stepRatio_mono hkk x) (inv_bounds h).1.le) (wT_pos h hT (by linarith) b.le).le

/-- **C156** More terms never raise `β`. -/
theorem C156_terms (s kap : List ℝ) (N nf : ℝ) (T T' : ℕ) (hl : s.length = kap.length) (h1 : ∀ x ∈ s, 1 < x) (hk : ∀ k ∈ kap, 0 < k) (hi : Increasing s)
    (hN : s.getLast? = some N) (h : 1 < nf) (hT : 0 < T) (hTT : T ≤ T') :
    ∃ b b', ndBetaPiecewise s kap none none nf T = .ok b ∧ ndBetaPiecewise s kap none none nf T' = .ok b' ∧ b' ≤ b := by
  have hN1 : 1 < N := h1 N (List.mem_of_getLast? hN)
  have hP := step_pow_profile (nf := nf) (kap := kap) hl h1 hi hN
  obtain ⟨c, c0, hc0⟩ := step_low (s := s) h hk
  obtain ⟨a0, a1⟩ := inv_bounds h
  refine ⟨_, _, piecewise_value hl h1 hk hi hN h hT, piecewise_value hl h1 hk hi hN h (by omega), ?_⟩
  refine average_head_mono hN1 hP hP (wT_cont N nf T' one_pos) (wT_cont N nf T one_pos) fun x a b => ?_
  obtain ⟨q0, q1⟩ := sq_ratio (show 0 < x by linarith) b.le
  exact mul_le_mul_of_nonneg_left (mul_le_mul_of_nonneg_left (bs_anti a0 a1 hT hTT q0 q1) (rpow_nonneg (by linarith) _)) (le_trans c0.le (hc0 x))

theorem bs_at_one {T : ℕ} (hT : 2 ≤ T) (x : ℝ) : bs 1 T x = 1 - x := by
  obtain ⟨k, rfl⟩ : ∃ k, T = k + 2 := ⟨T - 2, by omega⟩
  have hz : ∀ j, bc 1 (j + 2) = 0 := by
    intro j
    induction j with
    | zero => rw [bc_succ]; simp
    | succ j ih => rw [bc_succ, ih]; simp
  induction k with
  | zero => simp [bs, Finset.sum_range_succ, bc_zero, bc_succ]; ring
  | succ k ih =>
    have e : bs 1 (k + 1 + 2) x = bs 1 (k + 2) x + bc 1 (k + 2) * x ^ (k + 2) := by
      unfold bs; rw [show k + 1 + 2 = (k + 2) + 1 by ring, Finset.sum_range_succ]
    rw [e, hz, ih (by omega)]; ring

theorem bs_cont_a (T : ℕ) (x : ℝ) : Continuous fun a => bs a T x := by
  unfold bs bc poch
  apply continuous_finsetSum
  intro j _
  apply Continuous.mul _ continuous_const
  apply Continuous.div_const
  apply continuous_finsetProd
  intro i _
  fun_prop

/-- **C156** As the exponent goes to one the non-Darcian `β` goes to the Darcian `μ` — exactly, for any number of terms from two on. -/
theorem C156_darcy (s kap : List ℝ) (N : ℝ) (T : ℕ) (hl : s.length = kap.length) (h1 : ∀ x ∈ s, 1 < x) (hk : ∀ k ∈ kap, 0 < k) (hi : Increasing s)
    (hN : s.getLast? = some N) (hT : 2 ≤ T) :
    ∃ (b : ℝ → ℝ) (m : ℝ), (∀ nf, 1 < nf → ndBetaPiecewise s kap none none nf T = .ok (b nf)) ∧ muPiecewiseConstant s kap none none = .ok m ∧
      Tendsto b (𝓝[>] 1) (𝓝 m) := by
  have hN1 : 1 < N := h1 N (List.mem_of_getLast? hN)
  have hT0 : 0 < T := by omega
  refine ⟨_, _, fun nf h => piecewise_value hl h1 hk hi hN h hT0, C70_constant s kap N hl h1 hk hi hN, ?_⟩
  have hst : stepRatio s kap = profile ((cZones 1 s kap).map cPiece) := by funext x; exact step_profile 1 s kap x
  have hP1 : IsProfile N (stepRatio s kap) := by rw [hst]; exact isProfile (zones_tiles hl h1 hi hN)
  have hflux : ContinuousOn (fun x : ℝ => 1 / x - x / N ^ 2) (Icc 1 N) := by
    have := flux_cont N one_pos (lt_trans one_pos hN1)
    rwa [uIcc_of_le hN1.le] at this
  have em : muSpec N (stepRatio s kap) = average N (head (fun x => 1 / x - x / N ^ 2) (stepRatio s kap)) := rfl
  rw [em, average_head hN1 hP1 hflux]
  have hev : (fun nf => average N (head (wT N nf T) fun x => stepRatio s kap x ^ (1 / nf))) =ᶠ[𝓝[>] 1]
      fun nf => 1 / (N ^ 2 - 1) * ∫ x in (1 : ℝ)..N, stepRatio s kap x ^ (1 / nf) * ((N ^ 2 - x ^ 2) * wT N nf T x) := by
    filter_upwards [self_mem_nhdsWithin] with nf h
    exact average_head hN1 (step_pow_profile hl h1 hi hN) (wT_cont N nf T one_pos)
  refine Tendsto.congr' hev.symm (Tendsto.const_mul _ ?_)
  obtain ⟨K, hK1, hK⟩ := max_list kap
  have hr : ∀ x, 0 < stepRatio s kap x ∧ stepRatio s kap x ≤ K := by
    intro x
    rw [hst]
    exact profile_range (fun z hz => hk _ (cZones_kap z hz)) (fun z hz => hK _ (cZones_kap z hz)) hK1 x
  have hinv : Tendsto (fun nf : ℝ => 1 / nf) (𝓝[>] 1) (𝓝 1) := by
    have : ContinuousAt (fun nf : ℝ => 1 / nf) 1 := continuousAt_const.div continuousAt_id one_ne_zero
    have h2 := this.tendsto.mono_left (nhdsWithin_le_nhds (s := Ioi 1))
    simpa using h2
  apply intervalIntegral.tendsto_integral_filter_of_dominated_convergence (fun _ => K * (N ^ 2 * 1))
  · filter_upwards [self_mem_nhdsWithin] with nf h
    have cq : ContinuousOn (fun x : ℝ => N ^ 2 - x ^ 2) (Icc 1 N) := by fun_prop
    have := (step_pow_profile (nf := nf) (kap := kap) hl h1 hi hN).integrable.mul_continuousOn (f := fun x => stepRatio s kap x ^ (1 / nf)) (g := fun x => (N ^ 2 - x ^ 2) * wT N nf T x) (by
      rw [uIcc_of_le hN1.le]; exact cq.mul (wT_cont N nf T one_pos))
    rw [intervalIntegrable_iff] at this
    exact this.aestronglyMeasurable
  · filter_upwards [self_mem_nhdsWithin] with nf h
    have h : 1 < nf := h
    obtain ⟨a0, a1⟩ := inv_bounds h
    filter_upwards with x hx
    rw [uIoc_of_le hN1.le] at hx
    have hx0 : 0 < x := by linarith [hx.1]
    obtain ⟨q0, q1⟩ := sq_ratio hx0 hx.2
    have b1 : 0 ≤ stepRatio s kap x ^ (1 / nf) := rpow_nonneg (hr x).1.le _
    have b2 : stepRatio s kap x ^ (1 / nf) ≤ K := by
      calc _ ≤ K ^ (1 / nf) := rpow_le_rpow (hr x).1.le (hr x).2 a0.le
        _ ≤ K ^ (1 : ℝ) := rpow_le_rpow_of_exponent_le hK1 a1.le
        _ = K := rpow_one K
    have b3 : 0 ≤ N ^ 2 - x ^ 2 := by nlinarith [hx.1, hx.2]
    have b4 : N ^ 2 - x ^ 2 ≤ N ^ 2 := by nlinarith
    have b5 := (wT_pos h hT0 hx0 hx.2).le
    have b6 : wT N nf T x ≤ 1 := by
      unfold wT
      exact mul_le_one₀ (rpow_le_one_of_one_le_of_nonpos hx.1.le (by linarith)) (bs_pos a0 a1 hT0 q0 q1).le (bs_le_one a0 a1 T q0)
    rw [Real.norm_eq_abs, abs_of_nonneg (by positivity)]
    exact mul_le_mul b2 (mul_le_mul b4 b6 b5 (by positivity)) (by positivity) (by linarith)
  · exact intervalIntegrable_const
  · filter_upwards with x hx
    rw [uIoc_of_le hN1.le] at hx
    have hx0 : 0 < x := by linarith [hx.1]
    have t1 : Tendsto (fun nf : ℝ => stepRatio s kap x ^ (1 / nf)) (𝓝[>] 1) (𝓝 (stepRatio s kap x)) := by
      have := (continuousAt_const_rpow (b := 1) (hr x).1.ne').tendsto.comp hinv
      rw [rpow_one] at this
      exact this
    have t2 : Tendsto (fun nf : ℝ => x ^ (-(1 / nf))) (𝓝[>] 1) (𝓝 (x ^ (-1 : ℝ))) := by
      exact (continuousAt_const_rpow (b := -1) hx0.ne').tendsto.comp hinv.neg
    have t3 : Tendsto (fun nf : ℝ => bs (1 / nf) T ((x / N) ^ 2)) (𝓝[>] 1) (𝓝 (1 - (x / N) ^ 2)) := by
      have := ((bs_cont_a T ((x / N) ^ 2)).continuousAt (x := 1)).tendsto.comp hinv
      rw [bs_at_one hT] at this
      exact this
    have e : 1 / x - x / N ^ 2 = x ^ (-1 : ℝ) * (1 - (x / N) ^ 2) := by
      rw [rpow_neg_one]
      have : N ≠ 0 := by linarith
      field_simp
    rw [e]
    exact t1.mul ((t2.mul t3).const_mul _)

example : ∃ (b : ℝ → ℝ) (m : ℝ), (∀ nf, 1 < nf → ndBetaPiecewise [1.5, 3, 5] [2, 3, 1] none none nf 20 = .ok (b nf)) ∧
    muPiecewiseConstant [1.5, 3, 5] [2, 3, 1] none none = .ok m ∧ Tendsto b (𝓝[>] 1) (𝓝 m) :=
  C156_darcy [1.5, 3, 5] [2, 3, 1] 5 20 rfl (by norm_num) (by norm_num) ⟨by norm_num, by norm_num, trivial⟩ rfl (by norm_num)

end Geotecha.Smear
