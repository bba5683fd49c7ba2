import Verif.Smear.PropsU

/-! # C72: orderings; C73: drain parameters -/

set_option linter.unusedVariables false
namespace Geotecha.Smear
open MeasureTheory intervalIntegral Set Real Geotecha.Piecewise

/-! ## C72: more disturbance, larger parameter -/

theorem linear_ge_parabolic {s kap x : ℝ} (hk : 1 ≤ kap) (h1 : 1 ≤ x) : 1 ≤ parabolicSmear s kap x ∧ parabolicSmear s kap x ≤ linearSmear s kap x ∧
    linearSmear s kap x ≤ constantSmear s kap x := by
  have hk0 : 0 < kap := by linarith
  by_cases h : x < s
  · unfold parabolicSmear linearSmear constantSmear
    rw [if_pos h, if_pos h, if_pos h]
    have hs : 0 < s - 1 := by linarith
    have e : 1 / kap + (1 - 1 / kap) * ((x - 1) / (s - 1)) = 1 - (1 - 1 / kap) * ((s - x) / (s - 1)) := by field_simp; ring
    rw [e]
    have a : 0 ≤ (s - x) / (s - 1) := div_nonneg (by linarith) hs.le
    have b : (s - x) / (s - 1) ≤ 1 := by rw [div_le_one hs]; linarith
    have hi : 0 < 1 / kap := by positivity
    have hi1 : 1 / kap ≤ 1 := by rw [div_le_one hk0]; exact hk
    have hkk : 1 / (1 / kap) = kap := by simp
    generalize (s - x) / (s - 1) = t at *
    generalize 1 / kap = c at *
    have p1 : c ≤ 1 - (1 - c) * t := by nlinarith
    have p2 : 1 - (1 - c) * t ≤ 1 - (1 - c) * t ^ 2 := by
      have : t ^ 2 ≤ t := by nlinarith
      nlinarith
    have p3 : 1 - (1 - c) * t ^ 2 ≤ 1 := by nlinarith [sq_nonneg t]
    refine ⟨?_, one_div_le_one_div_of_le (lt_of_lt_of_le hi p1) p2, ?_⟩
    · rw [le_div_iff₀ (lt_of_lt_of_le hi (le_trans p1 p2))]; linarith
    · rw [← hkk]; exact one_div_le_one_div_of_le hi p1
  · unfold parabolicSmear linearSmear constantSmear
    rw [if_neg h, if_neg h, if_neg h]
    exact ⟨le_rfl, le_rfl, le_rfl⟩

/-- **C72** With the same extent and the same permeability at the drain, `kap ≥ 1`: ideal ≤ parabolic ≤ linear ≤ constant. -/
theorem C72_order (n s kap : ℝ) (hs : 1 ≤ s) (hsn : s < n) (hk : 1 ≤ kap) (hne : kap / (kap - 1) ≠ (s / (s - 1)) ^ 2)
    (c1 : Sharp s 1) (c2 : Sharp kap 1) (c3 : Sharp s kap) :
    ∃ a b c d, muIdeal n = .ok a ∧ muParabolic n s kap = .ok b ∧ muLinear n s kap = .ok c ∧ muConstant n s kap = .ok d ∧ 0 < a ∧ a ≤ b ∧ b ≤ c ∧ c ≤ d := by
  have hn : 1 < n := by linarith
  have hk0 : 0 < kap := by linarith
  obtain ⟨v, hv, _, hx⟩ := C69_parabolic n s kap hn hs hsn.le hk hne
  refine ⟨_, v, _, _, (C69_ideal n).1 hn, hv, C69_linear n s kap hs hsn hk0 c1 c2 c3, C69_constant n s kap hn hs hsn.le hk0, ?_, ?_, ?_, ?_⟩
  · exact mu_pos hn (isProfile_const n 1) 1 one_pos (fun _ _ _ => le_rfl)
  · rw [hx c1 c2]
    exact muSpec_mono hn (isProfile_const n 1) (isProfile_parabolic hs hsn.le hk0) (fun x h _ => (linear_ge_parabolic hk h).1)
  · rw [hx c1 c2]
    exact muSpec_mono hn (isProfile_parabolic hs hsn.le hk0) (isProfile_linear hs hsn.le hk0) (fun x h _ => (linear_ge_parabolic hk h).2.1)
  · exact muSpec_mono hn (isProfile_linear hs hsn.le hk0) (isProfile_constant hs hsn.le) (fun x h _ => (linear_ge_parabolic hk h).2.2)

/-- **C72** `mu_constant` grows with `kap`, and with `s` when `kap ≥ 1`. -/
theorem C72_constant_mono (n s s' kap kap' : ℝ) (hn : 1 < n) (hs : 1 ≤ s) (hss : s ≤ s') (hsn : s' ≤ n) (hk : 0 < kap) (hkk : kap ≤ kap') :
    (∃ a b, muConstant n s kap = .ok a ∧ muConstant n s kap' = .ok b ∧ a ≤ b) ∧
    (1 ≤ kap → ∃ a b, muConstant n s kap = .ok a ∧ muConstant n s' kap = .ok b ∧ a ≤ b) := by
  refine ⟨⟨_, _, C69_constant n s kap hn hs (by linarith) hk, C69_constant n s kap' hn hs (by linarith) (by linarith), ?_⟩, fun h1 =>
    ⟨_, _, C69_constant n s kap hn hs (by linarith) hk, C69_constant n s' kap hn (by linarith) hsn hk, ?_⟩⟩
  · refine muSpec_mono hn (isProfile_constant hs (by linarith)) (isProfile_constant hs (by linarith)) (fun x _ _ => ?_)
    unfold constantSmear
    split_ifs <;> linarith
  · refine muSpec_mono hn (isProfile_constant hs (by linarith)) (isProfile_constant (by linarith) hsn) (fun x _ _ => ?_)
    unfold constantSmear
    split_ifs <;> linarith

/-- **C72** `mu_piecewise_constant` grows with each `kap`. -/
theorem C72_piecewise_mono (s kap kap' : List ℝ) (N : ℝ) (hl : s.length = kap.length) (hk : ∀ k ∈ kap, 0 < k)
    (hle : List.Forall₂ (· ≤ ·) kap kap') (h1 : ∀ x ∈ s, 1 < x) (hi : Increasing s) (hN : s.getLast? = some N) :
    ∃ a b, muPiecewiseConstant s kap none none = .ok a ∧ muPiecewiseConstant s kap' none none = .ok b ∧ a ≤ b := by
  have hN1 : 1 < N := h1 N (List.mem_of_getLast? hN)
  have hl' : s.length = kap'.length := by rw [hl]; exact hle.length_eq
  have hk' : ∀ k ∈ kap', 0 < k := by
    clear hl hl'
    induction hle with
    | nil => simp
    | cons h _ ih =>
      intro k hm
      rcases List.mem_cons.1 hm with rfl | hm
      · exact lt_of_lt_of_le (hk _ (by simp)) h
      · exact ih (fun y hy => hk y (by simp [hy])) k hm
  refine ⟨_, _, C70_constant s kap N hl h1 hk hi hN, C70_constant s kap' N hl' h1 hk' hi hN, ?_⟩
  have hprof : ∀ ks : List ℝ, s.length = ks.length → IsProfile N (stepRatio s ks) := by
    intro ks hls
    have hT : Tiles 1 N ((cZones 1 s ks).map cPiece) := by
      apply cZones_tiles hls (increasing_cons hi h1)
      cases s with
      | nil => simp at hN
      | cons b s => rw [List.getLast?_cons_cons]; exact hN
    have hst : stepRatio s ks = profile ((cZones 1 s ks).map cPiece) := by funext x; exact step_profile 1 s ks x
    rw [hst]; exact isProfile hT
  refine muSpec_mono hN1 (hprof kap hl) (hprof kap' hl') (fun x _ _ => ?_)
  clear hN hi h1 hl hl' hk hk' hprof
  induction hle generalizing s with
  | nil => cases s <;> simp [stepRatio]
  | cons h _ ih =>
    cases s with
    | nil => simp [stepRatio]
    | cons b s =>
      simp only [stepRatio]
      split_ifs
      · exact h
      · exact ih s

/-! ## Wider spacing, slower drainage -/

theorem gfun_mono {x n₁ n₂ : ℝ} (hx : 1 ≤ x) (h1 : 1 < n₁) (hx1 : x ≤ n₁) (h12 : n₁ ≤ n₂) :
    (n₁ ^ 2 - x ^ 2) ^ 2 / (n₁ ^ 2 - 1) ≤ (n₂ ^ 2 - x ^ 2) ^ 2 / (n₂ ^ 2 - 1) := by
  have a : 0 < n₁ ^ 2 - 1 := by nlinarith
  have b : n₁ ^ 2 ≤ n₂ ^ 2 := by nlinarith
  have c : x ^ 2 ≤ n₁ ^ 2 := by nlinarith
  have d : 1 ≤ x ^ 2 := by nlinarith
  generalize n₁ ^ 2 = N at *
  generalize n₂ ^ 2 = M at *
  generalize x ^ 2 = X at *
  rw [div_le_div_iff₀ a (by linarith)]
  obtain ⟨p, rfl⟩ : ∃ p, M = N + p := ⟨M - N, by ring⟩
  obtain ⟨q, rfl⟩ : ∃ q, N = X + q := ⟨N - X, by ring⟩
  obtain ⟨y, rfl⟩ : ∃ y, X = 1 + y := ⟨X - 1, by ring⟩
  have hp : 0 ≤ p := by linarith
  have hq : 0 ≤ q := by linarith
  have hy : 0 ≤ y := by linarith
  have : (1 + y + q + p - (1 + y)) ^ 2 * (1 + y + q - 1) - (1 + y + q - (1 + y)) ^ 2 * (1 + y + q + p - 1)
      = p * (2 * q * y + q * q + p * y + p * q) := by ring
  have : 0 ≤ p * (2 * q * y + q * q + p * y + p * q) := by positivity
  linarith

theorem n2mu_eq {n : ℝ} (hn : 1 < n) {κ : ℝ → ℝ} (h : IsProfile n κ) : n ^ 2 * muSpec n κ = ∫ x in (1 : ℝ)..n, κ x * ((n ^ 2 - x ^ 2) ^ 2 / (n ^ 2 - 1) / x) := by
  obtain ⟨h0, h1⟩ := hn0 hn
  rw [muSpec_eq hn h, ← mul_assoc, ← intervalIntegral.integral_const_mul]
  apply intervalIntegral.integral_congr
  intro x hx
  rw [uIcc_of_le hn.le] at hx
  have hx0 : x ≠ 0 := by linarith [hx.1]
  simp only [weight]
  field_simp

theorem isProfile_restrict {n₁ n₂ : ℝ} (h1 : 1 ≤ n₁) (h12 : n₁ ≤ n₂) {κ : ℝ → ℝ} (h : IsProfile n₂ κ) : IsProfile n₁ κ := by
  obtain ⟨hi, S, hS, hc⟩ := h
  refine ⟨hi.mono_set ?_, S, hS, fun x hx => hc x ⟨⟨hx.1.1, lt_of_lt_of_le hx.1.2 h12⟩, hx.2⟩⟩
  rw [uIcc_of_le h1, uIcc_of_le (le_trans h1 h12)]
  exact Icc_subset_Icc le_rfl h12

/-- `n² μ` increases strictly with the outer radius. -/
theorem n2mu_strict {n₁ n₂ : ℝ} (h1 : 1 < n₁) (h12 : n₁ < n₂) {κ : ℝ → ℝ} (h : IsProfile n₂ κ) (hpos : ∀ x, 1 ≤ x → x < n₂ → 0 < κ x) :
    n₁ ^ 2 * muSpec n₁ κ < n₂ ^ 2 * muSpec n₂ κ := by
  have h2 : 1 < n₂ := by linarith
  rw [n2mu_eq h1 (isProfile_restrict h1.le h12.le h), n2mu_eq h2 h]
  have gc : ∀ n a b : ℝ, 1 ≤ a → a ≤ b → ContinuousOn (fun x : ℝ => (n ^ 2 - x ^ 2) ^ 2 / (n ^ 2 - 1) / x) (uIcc a b) := by
    intro n a b ha hab
    rw [uIcc_of_le hab]
    exact ContinuousOn.div (by fun_prop) continuousOn_id (fun x hx => by linarith [hx.1])
  have i1 : IntervalIntegrable (fun x => κ x * ((n₁ ^ 2 - x ^ 2) ^ 2 / (n₁ ^ 2 - 1) / x)) volume 1 n₁ :=
    (isProfile_restrict h1.le h12.le h).integrable.mul_continuousOn (gc n₁ 1 n₁ le_rfl h1.le)
  have i2 : IntervalIntegrable (fun x => κ x * ((n₂ ^ 2 - x ^ 2) ^ 2 / (n₂ ^ 2 - 1) / x)) volume 1 n₁ :=
    (isProfile_restrict h1.le h12.le h).integrable.mul_continuousOn (gc n₂ 1 n₁ le_rfl h1.le)
  have i3 : IntervalIntegrable (fun x => κ x * ((n₂ ^ 2 - x ^ 2) ^ 2 / (n₂ ^ 2 - 1) / x)) volume n₁ n₂ := by
    refine (h.integrable.mono_set ?_).mul_continuousOn (gc n₂ n₁ n₂ h1.le h12.le)
    rw [uIcc_of_le h12.le, uIcc_of_le h2.le]; exact Icc_subset_Icc h1.le le_rfl
  rw [← integral_add_adjacent_intervals i2 i3]
  have e1 : ∫ x in (1 : ℝ)..n₁, κ x * ((n₁ ^ 2 - x ^ 2) ^ 2 / (n₁ ^ 2 - 1) / x) ≤ ∫ x in (1 : ℝ)..n₁, κ x * ((n₂ ^ 2 - x ^ 2) ^ 2 / (n₂ ^ 2 - 1) / x) := by
    apply intervalIntegral.integral_mono_on_of_le_Ioo h1.le i1 i2
    intro x hx
    apply mul_le_mul_of_nonneg_left _ (hpos x hx.1.le (by linarith [hx.2])).le
    exact div_le_div_of_nonneg_right (gfun_mono hx.1.le h1 hx.2.le h12.le) (by linarith [hx.1])
  have e2 : 0 < ∫ x in n₁..n₂, κ x * ((n₂ ^ 2 - x ^ 2) ^ 2 / (n₂ ^ 2 - 1) / x) := by
    apply intervalIntegral.intervalIntegral_pos_of_pos_on i3 _ h12
    intro x hx
    have hx1 : 1 < x := by linarith [hx.1]
    apply mul_pos (hpos x hx1.le hx.2)
    have a : 0 < n₂ ^ 2 - x ^ 2 := by nlinarith [hx.2]
    have b : 0 < n₂ ^ 2 - 1 := by nlinarith
    positivity
  linarith

/-- `drain_eta` decreases strictly when the drain influence radius grows, the drain and its smear zone staying the same. -/
theorem eta_strict {re₁ re₂ rw : ℝ} (hrw : 0 < rw) (h1 : rw < re₁) (h12 : re₁ < re₂) {κ : ℝ → ℝ} (h : IsProfile (re₂ / rw) κ)
    (hpos : ∀ x, 1 ≤ x → x < re₂ / rw → 0 < κ x) {muw : ℝ} (hw : 0 ≤ muw) :
    drainEta re₂ (muSpec (re₂ / rw) κ) muw < drainEta re₁ (muSpec (re₁ / rw) κ) muw := by
  have n1 : 1 < re₁ / rw := by rw [lt_div_iff₀ hrw]; linarith
  have n12 : re₁ / rw < re₂ / rw := div_lt_div_of_pos_right h12 hrw
  have key := n2mu_strict n1 n12 h hpos
  have r1 : 0 < re₁ := by linarith
  have r2 : 0 < re₂ := by linarith
  have m1 : 0 ≤ muSpec (re₁ / rw) κ := muSpec_nonneg n1 (isProfile_restrict n1.le n12.le h) (fun x a b => (hpos x a (by linarith)).le)
  have m1' : 0 < muSpec (re₁ / rw) κ := by
    have hI := isProfile_restrict n1.le n12.le h
    rw [muSpec_eq n1 hI]
    obtain ⟨h0, h1'⟩ := hn0 n1
    apply mul_pos (div_pos (by positivity) (by nlinarith))
    apply intervalIntegral.intervalIntegral_pos_of_pos_on
    · exact hI.integrable.mul_continuousOn (weight_cont _ one_pos (by linarith))
    · intro x hx
      have hx0 : 0 < x := by linarith [hx.1]
      apply mul_pos (hpos x hx.1.le (by linarith [hx.2]))
      unfold weight
      have : x ^ 2 / (re₁ / rw) ^ 2 < 1 := by rw [div_lt_one (by positivity)]; nlinarith [hx.1, hx.2]
      have : 0 < 1 - x ^ 2 / (re₁ / rw) ^ 2 := by linarith
      positivity
    · exact n1
  unfold drainEta
  have e1 : re₁ ^ 2 * muSpec (re₁ / rw) κ < re₂ ^ 2 * muSpec (re₂ / rw) κ := by
    have := mul_lt_mul_of_pos_left key (by positivity : 0 < rw ^ 2)
    have a : ∀ r : ℝ, rw ^ 2 * ((r / rw) ^ 2 * muSpec (r / rw) κ) = r ^ 2 * muSpec (r / rw) κ := by intro r; field_simp
    rwa [a, a] at this
  have e2 : re₁ ^ 2 * muw ≤ re₂ ^ 2 * muw := by
    apply mul_le_mul_of_nonneg_right _ hw
    nlinarith
  rw [div_div, div_div]
  apply div_lt_div_of_pos_left two_pos
  · positivity
  · nlinarith

/-- The value of `drain_eta` at spacing `sp`: `re` from the spacing, `n = re/rw` (`calc_eta`, smear_zones.py:2704-2724, without subtracting the target). -/
noncomputable def etaAt (mu : ℝ → Except PyErr ℝ) (pattern : String) (rw muw sp : ℝ) : Except PyErr ℝ :=
  (reFromSpacing sp pattern).bind fun re => (mu (re / rw)).map fun m => drainEta re m muw

theorem factor_pos {pattern : String} {f : ℝ} (h : patternFactor pattern = .ok f) : 0 < f := by
  unfold patternFactor at h
  split at h
  · cases h
  · split_ifs at h <;> cases h <;> norm_num

/-- A `mu` function of one permeability profile, for outer radii from `lo` (included or not). -/
structure OneProfile (mu : ℝ → Except PyErr ℝ) (ok : ℝ → Prop) (κ : ℝ → ℝ) : Prop where
  value : ∀ n, ok n → mu n = .ok (muSpec n κ)
  gt : ∀ n, ok n → 1 < n
  profile : ∀ n, ok n → IsProfile n κ
  pos : ∀ x, 1 ≤ x → 0 < κ x

theorem eta_at_strict {mu : ℝ → Except PyErr ℝ} {ok : ℝ → Prop} {κ : ℝ → ℝ} (hm : OneProfile mu ok κ) {pattern : String} {f : ℝ} (hf : patternFactor pattern = .ok f)
    {rw muw sp₁ sp₂ : ℝ} (hrw : 0 < rw) (hw : 0 ≤ muw) (hsp : 0 < sp₁) (h12 : sp₁ < sp₂) (o1 : ok (f * sp₁ / rw)) (o2 : ok (f * sp₂ / rw)) :
    ∃ e₁ e₂, etaAt mu pattern rw muw sp₁ = .ok e₁ ∧ etaAt mu pattern rw muw sp₂ = .ok e₂ ∧ e₂ < e₁ := by
  have f0 := factor_pos hf
  refine ⟨_, _, ?_, ?_, eta_strict (re₁ := f * sp₁) (re₂ := f * sp₂) hrw ?_ (mul_lt_mul_of_pos_left h12 f0) (hm.profile _ o2) (fun x h _ => hm.pos x h) hw⟩
  · unfold etaAt reFromSpacing
    rw [if_neg (not_le.2 hsp), hf]
    simp only [Except.map, Except.bind]
    rw [hm.value _ o1]
  · unfold etaAt reFromSpacing
    rw [if_neg (not_le.2 (by linarith)), hf]
    simp only [Except.map, Except.bind]
    rw [hm.value _ o2]
  · have := hm.gt _ o1
    rwa [lt_div_iff₀ hrw, one_mul] at this

theorem one_ideal : OneProfile muIdeal (fun n => 1 < n) (fun _ => 1) :=
  ⟨fun n h => (C69_ideal n).1 h, fun _ h => h, fun n _ => isProfile_const n 1, fun _ _ => one_pos⟩

theorem one_constant {s kap : ℝ} (hs : 1 ≤ s) (hk : 0 < kap) : OneProfile (fun n => muConstant n s kap) (fun n => 1 < n ∧ s ≤ n) (constantSmear s kap) :=
  ⟨fun n h => C69_constant n s kap h.1 hs h.2 hk, fun _ h => h.1, fun n h => isProfile_constant hs h.2,
    fun x _ => by unfold constantSmear; split_ifs <;> linarith⟩

theorem one_linear {s kap : ℝ} (hs : 1 ≤ s) (hk : 0 < kap) (c1 : Sharp s 1) (c2 : Sharp kap 1) (c3 : Sharp s kap) :
    OneProfile (fun n => muLinear n s kap) (fun n => s < n) (linearSmear s kap) :=
  ⟨fun n h => C69_linear n s kap hs h hk c1 c2 c3, fun n h => by linarith, fun n h => isProfile_linear hs h.le hk, fun x h1 => by
    by_cases h : x < s
    · have hs1 : 1 < s := by linarith
      rw [linearSmear_eq hs1 hk h1 h]; exact div_pos hk (lin_pos hs1 hk h1 h.le)
    · unfold linearSmear; rw [if_neg h]; exact one_pos⟩

theorem one_parabolic {s kap : ℝ} (hs : 1 ≤ s) (hk : 1 ≤ kap) (hne : kap / (kap - 1) ≠ (s / (s - 1)) ^ 2) (c1 : Sharp s 1) (c2 : Sharp kap 1) :
    OneProfile (fun n => muParabolic n s kap) (fun n => 1 < n ∧ s ≤ n) (parabolicSmear s kap) :=
  ⟨fun n h => by
    obtain ⟨v, hv, _, hx⟩ := C69_parabolic n s kap h.1 hs h.2 hk hne
    try dsimp only
    rw [hv, hx c1 c2], fun n h => h.1, fun n h => isProfile_parabolic hs h.2 (by linarith),
    fun x h1 => lt_of_lt_of_le one_pos (linear_ge_parabolic hk h1).1⟩

/-- **C72** The target `eta` determines the spacing: for the ideal, constant, linear and parabolic smear zones wider spacing gives strictly smaller `eta`
(as long as the influence radius contains the smear zone), so two spacings with the same `eta` are equal. -/
theorem C72_spacing (pattern : String) (f : ℝ) (hf : patternFactor pattern = .ok f) (rw muw sp₁ sp₂ s kap : ℝ) (hrw : 0 < rw) (hw : 0 ≤ muw) (hsp : 0 < sp₁)
    (h12 : sp₁ < sp₂) (hs : 1 ≤ s) (hk : 0 < kap) (hn : s < f * sp₁ / rw) :
    (∃ a b, etaAt muIdeal pattern rw muw sp₁ = .ok a ∧ etaAt muIdeal pattern rw muw sp₂ = .ok b ∧ b < a) ∧
    (∃ a b, etaAt (fun n => muConstant n s kap) pattern rw muw sp₁ = .ok a ∧ etaAt (fun n => muConstant n s kap) pattern rw muw sp₂ = .ok b ∧ b < a) ∧
    (Sharp s 1 → Sharp kap 1 → Sharp s kap →
      ∃ a b, etaAt (fun n => muLinear n s kap) pattern rw muw sp₁ = .ok a ∧ etaAt (fun n => muLinear n s kap) pattern rw muw sp₂ = .ok b ∧ b < a) ∧
    (Sharp s 1 → Sharp kap 1 → 1 ≤ kap → kap / (kap - 1) ≠ (s / (s - 1)) ^ 2 →
      ∃ a b, etaAt (fun n => muParabolic n s kap) pattern rw muw sp₁ = .ok a ∧ etaAt (fun n => muParabolic n s kap) pattern rw muw sp₂ = .ok b ∧ b < a) := by
  have f0 := factor_pos hf
  have hlt : f * sp₁ / rw < f * sp₂ / rw := div_lt_div_of_pos_right (mul_lt_mul_of_pos_left h12 f0) hrw
  have n1 : 1 < f * sp₁ / rw := by linarith
  have n2 : s < f * sp₂ / rw := by linarith
  exact ⟨eta_at_strict one_ideal hf hrw hw hsp h12 n1 (by linarith : 1 < f * sp₂ / rw),
    eta_at_strict (one_constant hs hk) hf hrw hw hsp h12 ⟨n1, hn.le⟩ ⟨by linarith, n2.le⟩,
    fun c1 c2 c3 => eta_at_strict (one_linear hs hk c1 c2 c3) hf hrw hw hsp h12 hn n2,
    fun c1 c2 k1 hne => eta_at_strict (one_parabolic hs k1 hne c1 c2) hf hrw hw hsp h12 ⟨n1, hn.le⟩ ⟨by linarith, n2.le⟩⟩

/-- Step profile whose last value continues outwards. -/
noncomputable def stepOut (k : ℝ) : List ℝ → List ℝ → ℝ → ℝ
  | s :: ss, k' :: ks, x => if x < s then k' else stepOut k ss ks x
  | _, _, _ => k

theorem step_append (s kap : List ℝ) (hl : s.length = kap.length) (n k x : ℝ) (hx : x < n) : stepRatio (s ++ [n]) (kap ++ [k]) x = stepOut k s kap x := by
  induction s generalizing kap with
  | nil =>
    have : kap = [] := by simpa using hl.symm
    subst this
    simp [stepRatio, stepOut, hx]
  | cons a s ih =>
    cases kap with
    | nil => simp at hl
    | cons b kap =>
      simp only [List.cons_append, stepRatio, stepOut]
      rw [ih kap (by simpa using hl)]

theorem stepOut_pos {k : ℝ} (hk : 0 < k) (s kap : List ℝ) (h : ∀ y ∈ kap, 0 < y) (x : ℝ) : 0 < stepOut k s kap x := by
  induction s generalizing kap with
  | nil => cases kap <;> simpa [stepOut] using hk
  | cons a s ih =>
    cases kap with
    | nil => simpa [stepOut] using hk
    | cons b kap =>
      rw [stepOut]
      split_ifs
      · exact h b (by simp)
      · exact ih kap (fun y hy => h y (by simp [hy]))

theorem increasing_append {s : List ℝ} {N n : ℝ} (hi : Increasing s) (hN : s.getLast? = some N) (hn : N < n) : Increasing (s ++ [n]) := by
  induction s with
  | nil => simp at hN
  | cons a s ih =>
    cases s with
    | nil =>
      simp only [List.getLast?_singleton, Option.some.injEq] at hN
      exact ⟨by rw [hN]; exact hn, trivial⟩
    | cons b s =>
      rw [List.getLast?_cons_cons] at hN
      exact ⟨hi.1, ih hi.2 hN⟩

/-- **C72** The same for `mu_piecewise_constant` with the outer radius appended, any number of zones. -/
theorem C72_spacing_piecewise (pattern : String) (f : ℝ) (hf : patternFactor pattern = .ok f) (rw muw sp₁ sp₂ N : ℝ) (s kap : List ℝ) (hrw : 0 < rw) (hw : 0 ≤ muw)
    (hsp : 0 < sp₁) (h12 : sp₁ < sp₂) (hl : s.length = kap.length) (h1 : ∀ x ∈ s, 1 < x) (hk : ∀ k ∈ kap, 0 < k) (hi : Increasing s) (hN : s.getLast? = some N)
    (hn : N < f * sp₁ / rw) :
    ∃ a b, etaAt (fun n => muPiecewiseConstant s kap (some n) none) pattern rw muw sp₁ = .ok a ∧
      etaAt (fun n => muPiecewiseConstant s kap (some n) none) pattern rw muw sp₂ = .ok b ∧ b < a := by
  have f0 := factor_pos hf
  have hlt : f * sp₁ / rw < f * sp₂ / rw := div_lt_div_of_pos_right (mul_lt_mul_of_pos_left h12 f0) hrw
  have hN1 : 1 < N := h1 N (List.mem_of_getLast? hN)
  have hne : kap ≠ [] := by rintro rfl; simp at hl; subst hl; simp at hN
  have hlast : kap.getLastD 0 ∈ kap := by
    cases kap with
    | nil => exact absurd rfl hne
    | cons b kap => rw [List.getLastD_cons]; exact List.getLastD_mem_cons
  have hone : OneProfile (fun n => muPiecewiseConstant s kap (some n) none) (fun n => N < n) (stepOut (kap.getLastD 0) s kap) := by
    have hval : ∀ n, N < n → IsProfile n (stepRatio (s ++ [n]) (kap ++ [kap.getLastD 0])) ∧
        muPiecewiseConstant s kap (some n) none = .ok (muSpec n (stepRatio (s ++ [n]) (kap ++ [kap.getLastD 0]))) := by
      intro n hn
      have hx1 : ∀ x ∈ s ++ [n], 1 < x := by
        intro x hx
        rcases List.mem_append.1 hx with h | h
        · exact h1 x h
        · simp at h; rw [h]; linarith
      have hl' : (s ++ [n]).length = (kap ++ [kap.getLastD 0]).length := by simp [hl]
      constructor
      · have hT : Tiles 1 n ((cZones 1 (s ++ [n]) (kap ++ [kap.getLastD 0])).map cPiece) := by
          apply cZones_tiles hl' (increasing_cons (increasing_append hi hN hn) hx1)
          rw [show (1 : ℝ) :: (s ++ [n]) = (1 :: s) ++ [n] by simp, List.getLast?_append]; rfl
        have hst : stepRatio (s ++ [n]) (kap ++ [kap.getLastD 0]) = profile ((cZones 1 (s ++ [n]) (kap ++ [kap.getLastD 0])).map cPiece) := by
          funext x; exact step_profile 1 _ _ x
        rw [hst]; exact isProfile hT
      · rw [(C70_append s kap n none (Or.inl hne)).1]
        apply C70_constant _ _ n hl' hx1 _ (increasing_append hi hN hn) (by rw [List.getLast?_append]; rfl)
        intro k hk'
        rcases List.mem_append.1 hk' with h | h
        · exact hk k h
        · simp at h; rw [h]; exact hk _ (by simpa using hlast)
    refine ⟨fun n hn => ?_, fun n hn => by linarith, fun n hn => ?_, fun x _ => stepOut_pos (hk _ hlast) s kap hk x⟩
    · try dsimp only
      rw [(hval n hn).2]
      congr 1
      exact muSpec_congr (by linarith) (fun x _ h2 => step_append s kap hl n _ x h2)
    · exact isProfile_congr (by linarith) (fun x _ h2 => (step_append s kap hl n _ x h2).symm) (hval n hn).1
  exact eta_at_strict hone hf hrw hw hsp h12 hn (by linarith : N < f * sp₂ / rw)

/-! ## C73: drain parameters -/

/-- **C73** The influence circle has the area the drain serves: `sp²` for a square grid, `(√3/2) sp²` for a triangular one, to one part in 10¹³. -/
theorem C73_area (sp : ℝ) (hsp : 0 < sp) : (∃ re, reFromSpacing sp "Square" = .ok re ∧ |π * re ^ 2 - sp ^ 2| ≤ 1 / 10 ^ 13 * sp ^ 2) ∧
    (∃ re, reFromSpacing sp "Triangle" = .ok re ∧ |π * re ^ 2 - sqrt 3 / 2 * sp ^ 2| ≤ 1 / 10 ^ 13 * sp ^ 2) := by
  have p1 := pi_gt_d20
  have p2 := pi_lt_d20
  constructor
  · refine ⟨0.5641895835477563 * sp, by unfold reFromSpacing patternFactor; rw [if_neg (not_le.2 hsp)]; rfl, ?_⟩
    have e : π * (0.5641895835477563 * sp) ^ 2 - sp ^ 2 = (π * 0.5641895835477563 ^ 2 - 1) * sp ^ 2 := by ring
    rw [e, abs_mul, abs_of_pos (by positivity : 0 < sp ^ 2)]
    apply mul_le_mul_of_nonneg_right _ (by positivity)
    rw [abs_le]
    norm_num at p1 p2 ⊢
    constructor <;> linarith
  · refine ⟨0.525037567904332 * sp, by unfold reFromSpacing patternFactor; rw [if_neg (not_le.2 hsp)]; rfl, ?_⟩
    have e : π * (0.525037567904332 * sp) ^ 2 - sqrt 3 / 2 * sp ^ 2 = (π * 0.525037567904332 ^ 2 - sqrt 3 / 2) * sp ^ 2 := by ring
    rw [e, abs_mul, abs_of_pos (by positivity : 0 < sp ^ 2)]
    apply mul_le_mul_of_nonneg_right _ (by positivity)
    have s1 : (1.7320508075688772 : ℝ) ≤ sqrt 3 := by apply le_sqrt_of_sq_le; norm_num
    have s2 : sqrt 3 ≤ (1.7320508075688774 : ℝ) := by rw [sqrt_le_left (by norm_num)]; norm_num
    rw [abs_le]
    norm_num at p1 p2 s1 s2 ⊢
    constructor <;> linarith

/-- **C73** Only the first letter of the pattern counts, in either case; anything else, and any non-positive spacing, is refused. -/
theorem C73_pattern (c : Char) (cs : List Char) (sp : ℝ) (hsp : 0 < sp) :
    ((c = 't' ∨ c = 'T') → reFromSpacing sp (String.ofList (c :: cs)) = reFromSpacing sp "Triangle") ∧
    ((c = 's' ∨ c = 'S') → reFromSpacing sp (String.ofList (c :: cs)) = reFromSpacing sp "Square") ∧
    (c.toUpper ≠ 'T' → c.toUpper ≠ 'S' → reFromSpacing sp (String.ofList (c :: cs)) = .error .valueError) ∧
    (∀ pat, ∀ x ≤ 0, reFromSpacing x pat = .error .valueError) := by
  refine ⟨?_, ?_, ?_, ?_⟩
  · rintro (rfl | rfl) <;> (unfold reFromSpacing patternFactor; rw [if_neg (not_le.2 hsp), if_neg (not_le.2 hsp)]; simp only [String.toList_ofList]; rfl)
  · rintro (rfl | rfl) <;> (unfold reFromSpacing patternFactor; rw [if_neg (not_le.2 hsp), if_neg (not_le.2 hsp)]; simp only [String.toList_ofList]; rfl)
  · intro h1 h2
    unfold reFromSpacing patternFactor
    rw [if_neg (not_le.2 hsp)]
    simp only [String.toList_ofList, if_neg h1, if_neg h2]
    rfl
  · intro pat x hx
    unfold reFromSpacing
    rw [if_pos hx]

/-- **C73** Without a depth, `mu_well_resistance` is the mean over the drain's length of its values at depths. -/
theorem C73_well_mean (kh qw n H : ℝ) (hn : 1 < n) (hH : H ≠ 0) : ∃ (f : ℝ → ℝ) (m : ℝ), (∀ z, muWell kh qw n H (some z) = .ok (f z)) ∧
    muWell kh qw n H none = .ok m ∧ m = (∫ z in (0 : ℝ)..H, f z) / H := by
  refine ⟨fun z => kh / qw * π * z * (2 * H - z) * (1 - 1 / n ^ 2), 2 * kh * H ^ 2 / 3 / qw * π * (1 - 1 / n ^ 2), fun z => ?_, ?_, ?_⟩
  · unfold muWell; rw [if_neg (not_le.2 hn)]
  · unfold muWell; rw [if_neg (not_le.2 hn)]
  · have e : (fun z : ℝ => kh / qw * π * z * (2 * H - z) * (1 - 1 / n ^ 2)) = fun z => (kh / qw * π * (1 - 1 / n ^ 2)) * (2 * H * z - z ^ 2) := by
      funext z; ring
    rw [e, intervalIntegral.integral_const_mul, intervalIntegral.integral_sub (Continuous.intervalIntegrable (by fun_prop) _ _)
      (Continuous.intervalIntegrable (by fun_prop) _ _), intervalIntegral.integral_const_mul, integral_id, integral_pow]
    push_cast
    field_simp
    ring

end Geotecha.Smear
