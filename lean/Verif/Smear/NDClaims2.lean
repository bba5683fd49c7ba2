import Verif.Smear.NDClaims

/-! # Non-Darcian smear zone functions: the rest of C154, C155 -/

set_option autoImplicit false
set_option linter.unusedVariables false
namespace Geotecha.Smear
open MeasureTheory intervalIntegral Set Real Filter Topology
open Geotecha (PyErr)

theorem zones_tendsto {n nf : ℝ} (hn : 1 < n) (h : 1 < nf) {zs : List CZone} (ht : Tiles 1 n (zs.map cPiece)) {K : ℝ}
    (hk : ∀ z ∈ zs, 0 < z.kap) (hK : ∀ z ∈ zs, z.kap ≤ K) (h1 : 1 ≤ K) :
    Tendsto (fun T => ndSum n nf T [] zs / (n ^ 2 - 1)) atTop (𝓝 (betaSpec n nf (profile (zs.map cPiece)))) := by
  rw [tendsto_iff_dist_tendsto_zero]
  refine squeeze_zero' (Eventually.of_forall fun _ => dist_nonneg) ?_ (betaTol_tendsto hn h (K ^ (1 / nf)))
  filter_upwards [eventually_gt_atTop 0] with T hT
  obtain ⟨a, b⟩ := zones_beta hn h hT ht hk hK h1
  rw [Real.dist_eq, abs_of_nonneg (by linarith)]
  exact b

theorem max_list (ks : List ℝ) : ∃ K, 1 ≤ K ∧ ∀ k ∈ ks, k ≤ K := by
  induction ks with
  | nil => exact ⟨1, le_rfl, by simp⟩
  | cons k ks ih =>
    obtain ⟨K, h1, h2⟩ := ih
    refine ⟨max k K, le_max_of_le_right h1, ?_⟩
    intro y hy
    rcases List.mem_cons.1 hy with rfl | hy
    · exact le_max_left _ _
    · exact (h2 y hy).trans (le_max_right _ _)

/-- **C154** With more and more terms the values converge to the mean head of power-law flow. -/
theorem C154_converges (s kap : List ℝ) (N nf : ℝ) (hl : s.length = kap.length) (h1 : ∀ x ∈ s, 1 < x) (hk : ∀ k ∈ kap, 0 < k) (hi : Increasing s)
    (hN : s.getLast? = some N) (h : 1 < nf) :
    ∃ b : ℕ → ℝ, (∀ T, 0 < T → ndBetaPiecewise s kap none none nf T = .ok (b T)) ∧ Tendsto b atTop (𝓝 (betaSpec N nf (stepRatio s kap))) := by
  have hN1 : 1 < N := h1 N (List.mem_of_getLast? hN)
  have ht := zones_tiles (kap := kap) hl h1 hi hN
  have hst : stepRatio s kap = profile ((cZones 1 s kap).map cPiece) := by funext x; exact step_profile 1 s kap x
  obtain ⟨K, hK1, hK⟩ := max_list kap
  refine ⟨fun T => ndSum N nf T [] (cZones 1 s kap) / (N ^ 2 - 1), ?_, ?_⟩
  · intro T hT
    unfold ndBetaPiecewise
    rw [ndZones_ok hl h1 hk hi hN h]
    simp only [Bind.bind, Except.bind, pure, Except.pure, if_neg hT.ne']
  · rw [hst]
    exact zones_tendsto hN1 h ht (fun z hz => hk _ (cZones_kap z hz)) (fun z hz => hK _ (cZones_kap z hz)) hK1

/-- **C154** What is refused. -/
theorem C154_refuses (arr arrS : Bool) (n s kap nf : ℝ) (ss ks : List ℝ) (T : ℕ) :
    ((n ≤ 1 ∨ nf ≤ 1) → ndBetaIdeal arr n nf T = .error .valueError) ∧
    ((n ≤ 1 ∨ s < 1 ∨ kap < 1 ∨ nf ≤ 1) → ndBetaConstant arr arrS n s kap nf T = .error .valueError) ∧
    ((ss.length ≠ ks.length ∨ (∃ x ∈ ss, x ≤ 1) ∨ (∃ k ∈ ks, k ≤ 0) ∨ ¬ Increasing ss ∨ nf ≤ 1) → ndBetaPiecewise ss ks none none nf T = .error .valueError) := by
  refine ⟨?_, ?_, ?_⟩
  · intro h
    unfold ndBetaIdeal
    split_ifs <;> simp_all
  · intro h
    unfold ndBetaConstant
    split_ifs <;> simp_all
  · intro h
    have : ndZones ss ks none none nf = .error .valueError := by
      unfold ndZones extend
      rw [if_neg (by simp)]
      dsimp only
      by_cases a : ss.length = ks.length
      · by_cases b : ∃ x ∈ ss, x ≤ 1
        · rw [if_neg (by simpa using a), if_pos b]
        · by_cases c : ∃ k ∈ ks, k ≤ 0
          · rw [if_neg (by simpa using a), if_neg b, if_pos c]
          · by_cases d : Increasing ss
            · by_cases e : nf ≤ 1
              · rw [if_neg (by simpa using a), if_neg b, if_neg c, if_neg (by simpa using d), if_pos e]
              · exact absurd h (by simp only [not_or]; exact ⟨not_not.2 a, b, c, not_not.2 d, e⟩)
            · rw [if_neg (by simpa using a), if_neg b, if_neg c, if_pos d]
      · rw [if_pos a]
    unfold ndBetaPiecewise
    rw [this]
    rfl

/-- **C154** Giving `n` (and perhaps `kap_m`) appends a zone; without `kap_m` the last `kap` is repeated. -/
theorem C154_append (s kap si : List ℝ) (n nf uavg uw muw : ℝ) (kapm : Option ℝ) (T : ℕ) (h : kap ≠ [] ∨ kapm.isSome) :
    ndBetaPiecewise s kap (some n) kapm nf T = ndBetaPiecewise (s ++ [n]) (kap ++ [kapm.getD (kap.getLastD 0)]) none none nf T ∧
    ndU s kap si uavg uw muw (some n) kapm nf T = ndU (s ++ [n]) (kap ++ [kapm.getD (kap.getLastD 0)]) si uavg uw muw none none nf T := by
  have hb : ¬ ((some n).isSome = true ∧ kapm = none ∧ kap = []) := by
    rintro ⟨_, rfl, h3⟩
    rcases h with h | h
    · exact h h3
    · simp at h
  have : ndZones s kap (some n) kapm nf = ndZones (s ++ [n]) (kap ++ [kapm.getD (kap.getLastD 0)]) none none nf := by
    unfold ndZones
    rw [if_neg hb, if_neg (by simp)]
    rfl
  unfold ndBetaPiecewise ndU
  rw [this]
  exact ⟨rfl, rfl⟩

theorem bs_gt {a : ℝ} (h0 : 0 < a) (h1 : a < 1) {T : ℕ} (hT : 0 < T) : ∃ d, 0 < d ∧ ∀ x, |x - 1| < d → 0 < bs a T x := by
  have := (bs_cont a T).continuousAt (x := 1)
  have hpos := bs_one_pos h0 h1 hT
  have h := this.eventually (lt_mem_nhds hpos)
  rw [Metric.eventually_nhds_iff] at h
  obtain ⟨d, hd, h⟩ := h
  exact ⟨d, hd, fun x hx => h (by rw [Real.dist_eq]; exact hx)⟩

/-- **C154** (defect) Unlike the Darcian `mu_constant`, `non_darcy_beta_constant` accepts a smear zone that reaches beyond the drain's influence, and for such a
zone gives a `β` smaller than that of a zone reaching exactly to the boundary. -/
theorem C154_beyond (arr arrS : Bool) (n kap nf : ℝ) (T : ℕ) (hn : 1 < n) (hk : 1 < kap) (h : 1 < nf) (hT : 0 < T) :
    (∀ s, n < s → muConstant n s kap = .error .valueError) ∧
    ∃ s b b', n < s ∧ ndBetaConstant arr arrS n s kap nf T = .ok b ∧ ndBetaConstant arr arrS n n kap nf T = .ok b' ∧ b < b' := by
  obtain ⟨h0, h1⟩ := inv_bounds h
  constructor
  · intro s hs
    unfold muConstant
    rw [if_pos (by unfold BadArgs; simp; right; right; right; exact hs)]
  obtain ⟨d, hd, hb⟩ := bs_gt h0 h1 hT
  have hn0 : (0 : ℝ) < n := by linarith
  set e := min 1 (d / 4) with he
  have he0 : 0 < e := by rw [he]; positivity
  have he1 : e ≤ 1 := min_le_left _ _
  have he4 : e ≤ d / 4 := min_le_right _ _
  have hw : ∀ x, n ≤ x → x ≤ n * (1 + e) → 0 < wT n nf T x := by
    intro x hx hx'
    apply mul_pos (rpow_pos_of_pos (by linarith) _)
    apply hb
    have q1 : 1 ≤ x / n := by rw [le_div_iff₀ hn0]; linarith
    have q2 : x / n ≤ 1 + e := by rw [div_le_iff₀ hn0]; linarith
    rw [abs_of_nonneg (by nlinarith)]
    nlinarith
  have hnb : n < n * (1 + e) := by nlinarith
  refine ⟨n * (1 + e), _, _, hnb, constant_sum hn (by linarith) hk.le h hT arr arrS, constant_sum hn hn.le hk.le h hT arr arrS, ?_⟩
  have hn2 : 0 < n ^ 2 - 1 := by nlinarith
  apply div_lt_div_of_pos_right _ hn2
  have hkp : 1 < kap ^ (1 / nf) := one_lt_rpow hk h0
  have hz : kap ^ (1 / nf) ≠ 0 := by linarith
  set B := n * (1 + e) with hB
  have hint := int_beta (n := n) h T hn0 hnb.le 1
  simp only [one_mul] at hint
  have hneg : ∫ x in n..B, (n ^ 2 - x ^ 2) * wT n nf T x < 0 := by
    have : 0 < ∫ x in n..B, (x ^ 2 - n ^ 2) * wT n nf T x := by
      apply intervalIntegral.intervalIntegral_pos_of_pos_on _ _ hnb
      · apply ContinuousOn.intervalIntegrable
        rw [uIcc_of_le hnb.le]
        exact (by fun_prop : Continuous fun x : ℝ => x ^ 2 - n ^ 2).continuousOn.mul (wT_cont n nf T hn0)
      · intro x hx
        exact mul_pos (by nlinarith [hx.1]) (hw x hx.1.le hx.2.le)
    have e1 : (fun x => (n ^ 2 - x ^ 2) * wT n nf T x) = fun x => -((x ^ 2 - n ^ 2) * wT n nf T x) := by funext x; ring
    rw [e1, intervalIntegral.integral_neg]
    linarith
  rw [hint] at hneg
  simp only [ndSum, ndPsi, List.map_nil, List.sum_nil, one_rpow, List.nil_append, List.map_cons, List.sum_cons]
  field_simp
  nlinarith

example : ∃ b : ℕ → ℝ, (∀ T, 0 < T → ndBetaPiecewise [1.5, 3, 5] [2, 3, 1] none none 1.3 T = .ok (b T)) ∧
    Tendsto b atTop (𝓝 (betaSpec 5 1.3 (stepRatio [1.5, 3, 5] [2, 3, 1]))) :=
  C154_converges [1.5, 3, 5] [2, 3, 1] 5 1.3 rfl (by norm_num) (by norm_num) ⟨by norm_num, by norm_num, trivial⟩ rfl (by norm_num)

/-! ## C155 -/

/-- The distribution the code computes, at one radius. -/
noncomputable def ndUval (s kap : List ℝ) (N uavg uw muw nf : ℝ) (T : ℕ) (r : ℝ) : ℝ :=
  (head (wT N nf T) (fun x => stepRatio s kap x ^ (1 / nf)) r + muw) *
    ((uavg - uw) / (average N (head (wT N nf T) fun x => stepRatio s kap x ^ (1 / nf)) + muw)) + uw

theorem mapM_ok_map {α β : Type} (f : α → Except PyErr β) (u : α → β) (l : List α) (h : ∀ x ∈ l, f x = .ok (u x)) : l.mapM f = .ok (l.map u) := by
  induction l with
  | nil => rfl
  | cons a l ih =>
    rw [List.mapM_cons, h a (by simp), ih fun x hx => h x (by simp [hx])]
    rfl

theorem ndU_eq {s kap : List ℝ} {N nf : ℝ} (uavg uw muw : ℝ) (hl : s.length = kap.length) (h1 : ∀ x ∈ s, 1 < x) (hk : ∀ k ∈ kap, 0 < k) (hi : Increasing s)
    (hN : s.getLast? = some N) (h : 1 < nf) {T : ℕ} (hT : 0 < T) (si : List ℝ) (hsi : ∀ x ∈ si, 1 ≤ x ∧ x ≤ N) :
    ndU s kap si uavg uw muw none none nf T = .ok (si.map (ndUval s kap N uavg uw muw nf T)) := by
  have hN1 : 1 < N := h1 N (List.mem_of_getLast? hN)
  have ht := zones_tiles (kap := kap) hl h1 hi hN
  have hpos : ∀ z ∈ cZones 1 s kap, 0 < z.kap := fun z hz => hk _ (cZones_kap z hz)
  have hst : stepRatio s kap = profile ((cZones 1 s kap).map cPiece) := by funext x; exact step_profile 1 s kap x
  have hne : cZones 1 s kap ≠ [] := by
    cases s with
    | nil => simp at hN
    | cons b s =>
      cases kap with
      | nil => simp at hl
      | cons k kap => simp [cZones]
  unfold ndU
  rw [ndZones_ok hl h1 hk hi hN h]
  simp only [Bind.bind, Except.bind]
  rw [if_neg (by push Not; exact hsi), if_neg hT.ne', zones_average hN1 h T ht hpos]
  apply mapM_ok_map
  intro r hr
  rw [ndStep_eq h T [] _ one_pos (pow_tiles ht) hpos (hsi r hr).1 (hsi r hr).2 hne]
  simp only [ndPsi, List.map_nil, List.sum_nil, zero_add]
  unfold ndUval head
  rw [hst]
  simp only [pow_profile]

theorem step_pow_profile {s kap : List ℝ} {N nf : ℝ} (hl : s.length = kap.length) (h1 : ∀ x ∈ s, 1 < x) (hi : Increasing s) (hN : s.getLast? = some N) :
    IsProfile N fun x => stepRatio s kap x ^ (1 / nf) := by
  have hst : stepRatio s kap = profile ((cZones 1 s kap).map cPiece) := by funext x; exact step_profile 1 s kap x
  rw [hst]
  exact zones_profile (zones_tiles hl h1 hi hN)

/-- Heads increase strictly where the ratio and the gradient are positive. -/
theorem head_strict {n c : ℝ} {κ w : ℝ → ℝ} (hn : 1 < n) (hP : IsProfile n κ) (hw : ContinuousOn w (Icc 1 n)) (hc : 0 < c) (hκ : ∀ x, 1 ≤ x → x < n → c ≤ κ x)
    (hw0 : ∀ x, 1 ≤ x → x < n → 0 < w x) {r r' : ℝ} (h1 : 1 ≤ r) (hrr : r < r') (hn' : r' ≤ n) : head w κ r < head w κ r' := by
  have hfi : IntervalIntegrable (fun x => κ x * w x) volume 1 n := hP.integrable.mul_continuousOn (by rwa [uIcc_of_le hn.le])
  have i1 : IntervalIntegrable (fun x => κ x * w x) volume 1 r := hfi.mono_set (by
    rw [uIcc_of_le h1, uIcc_of_le hn.le]; exact Icc_subset_Icc le_rfl (by linarith))
  have i2 : IntervalIntegrable (fun x => κ x * w x) volume r r' := hfi.mono_set (by
    rw [uIcc_of_le hrr.le, uIcc_of_le hn.le]; exact Icc_subset_Icc h1 hn')
  have e : head w κ r' = head w κ r + ∫ x in r..r', κ x * w x := by
    unfold head; rw [integral_add_adjacent_intervals i1 i2]
  have : 0 < ∫ x in r..r', κ x * w x := by
    apply intervalIntegral.intervalIntegral_pos_of_pos_on i2 _ hrr
    intro x hx
    exact mul_pos (lt_of_lt_of_le hc (hκ x (by linarith [hx.1]) (by linarith [hx.2]))) (hw0 x (by linarith [hx.1]) (by linarith [hx.2]))
  linarith

theorem average_head_pos {n c : ℝ} {κ w : ℝ → ℝ} (hn : 1 < n) (hP : IsProfile n κ) (hw : ContinuousOn w (Icc 1 n)) (hc : 0 < c) (hκ : ∀ x, 1 ≤ x → x < n → c ≤ κ x)
    (hw0 : ∀ x, 1 ≤ x → x < n → 0 < w x) : 0 < average n (head w κ) := by
  rw [average_head hn hP hw]
  have hn2 : 0 < n ^ 2 - 1 := by nlinarith
  apply mul_pos (by positivity)
  have cq : ContinuousOn (fun x : ℝ => n ^ 2 - x ^ 2) (Icc 1 n) := by fun_prop
  apply intervalIntegral.intervalIntegral_pos_of_pos_on (hP.integrable.mul_continuousOn (by rw [uIcc_of_le hn.le]; exact cq.mul hw)) _ hn
  intro x hx
  exact mul_pos (lt_of_lt_of_le hc (hκ x hx.1.le hx.2)) (mul_pos (by nlinarith [hx.1, hx.2]) (hw0 x hx.1.le hx.2))

theorem step_low {s kap : List ℝ} {nf : ℝ} (h : 1 < nf) (hk : ∀ k ∈ kap, 0 < k) : ∃ c, 0 < c ∧ ∀ x, c ≤ stepRatio s kap x ^ (1 / nf) := by
  obtain ⟨c, c0, c1, hc⟩ := min_pos_list kap hk
  exact ⟨c ^ (1 / nf), rpow_pos_of_pos c0 _, fun x => rpow_le_rpow c0.le (stepRatio_ge c1 s kap hc x) (inv_bounds h).1.le⟩

/-- **C155** `non_darcy_u_piecewise_constant`: one pressure distribution for all radii; it is continuous, has the given mean, starts at the drain with the
drain pressure plus the well loss, its increments follow the (truncated) gradient, and if the mean exceeds the drain pressure it increases outwards. -/
theorem C155_distribution (s kap : List ℝ) (N uavg uw muw nf : ℝ) (T : ℕ) (hl : s.length = kap.length) (h1 : ∀ x ∈ s, 1 < x) (hk : ∀ k ∈ kap, 0 < k)
    (hi : Increasing s) (hN : s.getLast? = some N) (h : 1 < nf) (hT : 0 < T) (hw : 0 ≤ muw) :
    ∃ u : ℝ → ℝ, (∀ si, (∀ x ∈ si, 1 ≤ x ∧ x ≤ N) → ndU s kap si uavg uw muw none none nf T = .ok (si.map u)) ∧
      ContinuousOn u (Icc 1 N) ∧ average N u = uavg ∧
      (∃ q, u 1 = uw + q * muw ∧ ∀ r, 1 ≤ r → r ≤ N → u r = u 1 + q * ∫ y in (1 : ℝ)..r, stepRatio s kap y ^ (1 / nf) *
        (y ^ (-(1 / nf)) * ∑ j ∈ Finset.range T, (∏ i ∈ Finset.range j, (-(1 / nf) + i)) / (j.factorial : ℝ) * ((y / N) ^ 2) ^ j)) ∧
      (uw < uavg → ∀ r r', 1 ≤ r → r < r' → r' ≤ N → u r < u r') := by
  have hN1 : 1 < N := h1 N (List.mem_of_getLast? hN)
  have hP := step_pow_profile (nf := nf) (kap := kap) hl h1 hi hN
  have cT := wT_cont N nf T one_pos (b := N)
  have hc := head_cont hN1.le hP cT
  obtain ⟨c, c0, hc0⟩ := step_low (s := s) h hk
  have hpos := average_head_pos hN1 hP cT c0 (fun x _ _ => hc0 x) (fun x a b => wT_pos h hT (by linarith) b.le)
  set A := average N (head (wT N nf T) fun x => stepRatio s kap x ^ (1 / nf)) with hA
  have e1 : head (wT N nf T) (fun x => stepRatio s kap x ^ (1 / nf)) 1 = 0 := by unfold head; simp
  have eu : ∀ r, ndUval s kap N uavg uw muw nf T r = (uavg - uw) / (A + muw) * head (wT N nf T) (fun x => stepRatio s kap x ^ (1 / nf)) r
      + ((uavg - uw) / (A + muw) * muw + uw) := fun r => by unfold ndUval; rw [← hA]; ring
  refine ⟨ndUval s kap N uavg uw muw nf T, fun si hsi => ndU_eq uavg uw muw hl h1 hk hi hN h hT si hsi, ?_, ?_, ⟨(uavg - uw) / (A + muw), ?_, ?_⟩, ?_⟩
  · apply ContinuousOn.congr _ (fun r _ => eu r)
    exact (continuousOn_const.mul hc).add continuousOn_const
  · have : ndUval s kap N uavg uw muw nf T = fun r => (uavg - uw) / (A + muw) * head (wT N nf T) (fun x => stepRatio s kap x ^ (1 / nf)) r
      + ((uavg - uw) / (A + muw) * muw + uw) := funext eu
    rw [this, average_affine hN1 hc, ← hA]
    have : A + muw ≠ 0 := by linarith
    field_simp
    ring
  · rw [eu, e1]; ring
  · intro r _ _
    rw [eu r, eu 1, e1]
    unfold head wT bs bc poch
    ring
  · intro hlt r r' a b d
    rw [eu, eu]
    have := head_strict hN1 hP cT c0 (fun x _ _ => hc0 x) (fun x a b => wT_pos h hT (by linarith) b.le) a b d
    have hq : 0 < (uavg - uw) / (A + muw) := div_pos (by linarith) (by linarith)
    have := mul_lt_mul_of_pos_left this hq
    linarith

/-- **C155** Refused: bad zones, and radii outside the annulus. -/
theorem C155_refuses (s kap si : List ℝ) (N uavg uw muw nf : ℝ) (T : ℕ) :
    ((s.length ≠ kap.length ∨ (∃ x ∈ s, x ≤ 1) ∨ (∃ k ∈ kap, k ≤ 0) ∨ ¬ Increasing s ∨ nf ≤ 1) → ndU s kap si uavg uw muw none none nf T = .error .valueError) ∧
    (s.getLast? = some N → (∃ x ∈ si, x < 1 ∨ N < x) → ndU s kap si uavg uw muw none none nf T = .error .valueError) := by
  have hbad : (s.length ≠ kap.length ∨ (∃ x ∈ s, x ≤ 1) ∨ (∃ k ∈ kap, k ≤ 0) ∨ ¬ Increasing s ∨ nf ≤ 1) → ndU s kap si uavg uw muw none none nf T = .error .valueError := by
    intro h
    have := (C154_refuses false false 2 2 2 nf s kap T).2.2 h
    unfold ndBetaPiecewise at this
    unfold ndU
    cases hz : ndZones s kap none none nf with
    | error e =>
      rw [hz] at this
      simp only [Bind.bind, Except.bind] at this ⊢
      exact congrArg _ (Except.error.inj this)
    | ok p =>
      rw [hz] at this
      simp only [Bind.bind, Except.bind, pure, Except.pure] at this
      split_ifs at this
      exact absurd (Except.error.inj this) (by simp)
  refine ⟨hbad, ?_⟩
  intro hN hx
  by_cases hb : s.length ≠ kap.length ∨ (∃ x ∈ s, x ≤ 1) ∨ (∃ k ∈ kap, k ≤ 0) ∨ ¬ Increasing s ∨ nf ≤ 1
  · exact hbad hb
  · push Not at hb
    unfold ndU
    rw [ndZones_ok hb.1 hb.2.1 hb.2.2.1 hb.2.2.2.1 hN hb.2.2.2.2]
    simp only [Bind.bind, Except.bind]
    rw [if_pos hx]

theorem head_error {n nf : ℝ} (hn : 1 < n) (h : 1 < nf) {T : ℕ} (hT : 0 < T) {κ : ℝ → ℝ} (hP : IsProfile n κ) (h0 : ∀ x, 1 ≤ x → x < n → 0 ≤ κ x) {K : ℝ}
    (hK : ∀ x, 1 ≤ x → x < n → κ x ≤ K) {r : ℝ} (hr : 1 ≤ r) (hrn : r ≤ n) :
    |head (wT n nf T) κ r - head (wE n nf) κ r| ≤ K * (T : ℝ) ^ (-(1 / nf)) * (r - 1) := by
  have cT := wT_cont n nf T one_pos (b := n)
  have cE := wE_cont n h one_pos hn.le
  have hsub : uIcc 1 r ⊆ uIcc 1 n := by rw [uIcc_of_le hr, uIcc_of_le hn.le]; exact Icc_subset_Icc le_rfl hrn
  have i1 : IntervalIntegrable (fun x => κ x * wT n nf T x) volume 1 r :=
    (hP.integrable.mul_continuousOn (by rw [uIcc_of_le hn.le]; exact cT)).mono_set hsub
  have i2 : IntervalIntegrable (fun x => κ x * wE n nf x) volume 1 r :=
    (hP.integrable.mul_continuousOn (by rw [uIcc_of_le hn.le]; exact cE)).mono_set hsub
  unfold head
  rw [← intervalIntegral.integral_sub i1 i2, ← Real.norm_eq_abs]
  have hK0 : 0 ≤ K := le_trans (h0 1 le_rfl hn) (hK 1 le_rfl hn)
  have hp : 0 ≤ (T : ℝ) ^ (-(1 / nf)) := rpow_nonneg (Nat.cast_nonneg T) _
  have := intervalIntegral.norm_integral_le_of_norm_le_const_ae (a := 1) (b := r) (f := fun x => κ x * wT n nf T x - κ x * wE n nf x) (C := K * (T : ℝ) ^ (-(1 / nf)))
    (by
      have : ∀ᵐ x ∂(volume : Measure ℝ), x ≠ r := by rw [ae_iff]; simp
      filter_upwards [this] with x hxr hx
      rw [uIoc_of_le hr] at hx
      have hlt : x < n := lt_of_lt_of_le (lt_of_le_of_ne hx.2 hxr) hrn
      obtain ⟨a, b⟩ := wT_error h hT hx.1.le hlt.le
      have hq : (x / n) ^ (2 * T) ≤ 1 := pow_le_one₀ (div_nonneg (by linarith [hx.1]) (by linarith)) (by
        rw [div_le_one (by linarith)]; linarith [hx.2])
      have hq2 := mul_le_mul_of_nonneg_right hq hp
      rw [← mul_sub, Real.norm_eq_abs, abs_of_nonneg (mul_nonneg (h0 x hx.1.le hlt) (by unfold wE; linarith))]
      apply mul_le_mul (hK x hx.1.le hlt) (by unfold wE; linarith) (by unfold wE; linarith) hK0)
  rwa [abs_of_nonneg (show (0 : ℝ) ≤ r - 1 by linarith)] at this

/-- **C155** With more and more terms the pressures converge to the distribution of power-law flow. -/
theorem C155_converges (s kap : List ℝ) (N uavg uw muw nf r : ℝ) (hl : s.length = kap.length) (h1 : ∀ x ∈ s, 1 < x) (hk : ∀ k ∈ kap, 0 < k)
    (hi : Increasing s) (hN : s.getLast? = some N) (h : 1 < nf) (hw : 0 ≤ muw) (hr : 1 ≤ r) (hrN : r ≤ N) :
    ∃ u : ℕ → ℝ, (∀ T, 0 < T → ndU s kap [r] uavg uw muw none none nf T = .ok [u T]) ∧
      Tendsto u atTop (𝓝 (uw + (uavg - uw) / (betaSpec N nf (stepRatio s kap) + muw) * (ndHead N nf (stepRatio s kap) r + muw))) := by
  have hN1 : 1 < N := h1 N (List.mem_of_getLast? hN)
  have hP := step_pow_profile (nf := nf) (kap := kap) hl h1 hi hN
  obtain ⟨c, c0, hc0⟩ := step_low (s := s) h hk
  obtain ⟨k, k0, k1, hkk⟩ := min_pos_list kap hk
  have hpos : ∀ x, 0 < stepRatio s kap x := fun x => lt_of_lt_of_le k0 (stepRatio_ge k1 s kap hkk x)
  refine ⟨fun T => ndUval s kap N uavg uw muw nf T r, fun T hT => by
    rw [ndU_eq uavg uw muw hl h1 hk hi hN h hT [r] (by simpa using ⟨hr, hrN⟩)]; rfl, ?_⟩
  have hst : stepRatio s kap = profile ((cZones 1 s kap).map cPiece) := by funext x; exact step_profile 1 s kap x
  have ht := zones_tiles (kap := kap) hl h1 hi hN
  have hzk : ∀ z ∈ cZones 1 s kap, 0 < z.kap := fun z hz => hk _ (cZones_kap z hz)
  obtain ⟨K, hK1, hK⟩ := max_list kap
  have hA : Tendsto (fun T => average N (head (wT N nf T) fun x => stepRatio s kap x ^ (1 / nf))) atTop (𝓝 (betaSpec N nf (stepRatio s kap))) := by
    have := zones_tendsto hN1 h ht hzk (fun z hz => hK _ (cZones_kap z hz)) hK1
    rw [hst]
    refine this.congr fun T => ?_
    exact zones_average hN1 h T ht hzk
  have hB : 0 < betaSpec N nf (stepRatio s kap) := by
    have e : betaSpec N nf (stepRatio s kap) = average N (head (wE N nf) fun x => stepRatio s kap x ^ (1 / nf)) :=
      average_congr hN1.le fun r a b => ndHead_eq (fun x _ _ => (hpos x).le) a b
    rw [e]
    refine average_head_pos hN1 hP (wE_cont N h one_pos hN1.le) c0 (fun x _ _ => hc0 x) fun x a b => ?_
    apply rpow_pos_of_pos
    have hx : 0 < x := by linarith
    rw [sub_pos, div_lt_div_iff₀ (by positivity) hx]
    nlinarith
  have hH : Tendsto (fun T => head (wT N nf T) (fun x => stepRatio s kap x ^ (1 / nf)) r) atTop (𝓝 (ndHead N nf (stepRatio s kap) r)) := by
    rw [ndHead_eq (fun x _ _ => (hpos x).le) hr hrN, tendsto_iff_dist_tendsto_zero]
    have hb : Tendsto (fun T : ℕ => K ^ (1 / nf) * (T : ℝ) ^ (-(1 / nf)) * (r - 1)) atTop (𝓝 0) := by
      have h1 : Tendsto (fun T : ℕ => (T : ℝ) ^ (-(1 / nf))) atTop (𝓝 0) :=
        (tendsto_rpow_neg_atTop (inv_bounds h).1).comp tendsto_natCast_atTop_atTop
      simpa using (h1.const_mul (K ^ (1 / nf))).mul_const (r - 1)
    refine squeeze_zero' (Eventually.of_forall fun _ => dist_nonneg) ?_ hb
    filter_upwards [eventually_gt_atTop 0] with T hT
    rw [Real.dist_eq]
    refine head_error hN1 h hT hP (fun x _ _ => rpow_nonneg (hpos x).le _) (fun x _ _ => ?_) hr hrN
    rw [hst]
    have := profile_range hzk (fun z hz => hK _ (cZones_kap z hz)) hK1 x
    exact rpow_le_rpow this.1.le this.2 (inv_bounds h).1.le
  have := ((hH.add_const muw).mul ((tendsto_const_nhds (x := uavg - uw)).div (hA.add_const muw) (by linarith))).add_const uw
  refine Tendsto.congr (fun T => ?_) (this.trans_eq ?_) |> id
  · rfl
  · congr 1; ring

example : ∃ u : ℝ → ℝ, (∀ si, (∀ x ∈ si, 1 ≤ x ∧ x ≤ 5) → ndU [1.5, 3, 5] [2, 3, 1] si 1 0 0 none none 1.3 20 = .ok (si.map u)) ∧ average 5 u = 1 := by
  obtain ⟨u, a, _, b, _⟩ := C155_distribution [1.5, 3, 5] [2, 3, 1] 5 1 0 0 1.3 20 rfl (by norm_num) (by norm_num) ⟨by norm_num, by norm_num, trivial⟩ rfl (by norm_num)
    (by norm_num) le_rfl
  exact ⟨u, a, b⟩

end Geotecha.Smear
