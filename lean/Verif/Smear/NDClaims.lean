import Verif.Smear.NDLemmas

/-! # Non-Darcian smear zone functions: claims C152-C154 -/

set_option autoImplicit false
set_option linter.unusedVariables false
namespace Geotecha.Smear
open MeasureTheory intervalIntegral Set Real Filter Topology
open Geotecha (PyErr)

theorem g_ok (arr : Bool) {r n nf : ℝ} {T : ℕ} (hr : 1 ≤ r) (hn : 1 < n) (h : 1 < nf) (hT : 0 < T) : g arr r n nf T = .ok (gRec r n nf T) := by
  unfold g
  rw [if_neg (not_lt.2 hr), if_neg (not_le.2 hn), if_neg (not_le.2 h)]
  cases arr
  · simp [hT.ne']
  · simp [gRec_eq h]

theorem gbar_ok (arr : Bool) {r n nf : ℝ} {T : ℕ} (hr : 1 ≤ r) (hn : 1 < n) (h : 1 < nf) (hT : 0 < T) : gbar arr r n nf T = .ok (gbarRec r n nf T) := by
  unfold gbar
  rw [if_neg (not_lt.2 hr), if_neg (not_le.2 hn), if_neg (not_le.2 h)]
  cases arr
  · simp [hT.ne']
  · simp [gbarRec_eq h]

/-! ## C152 -/

/-- **C152** With numbers (recursion) and with arrays (series) `_g` and `_gbar` give the same, for every positive number of terms. -/
theorem C152_same (r n nf : ℝ) (T : ℕ) (hT : 0 < T) : g true r n nf T = g false r n nf T ∧ gbar true r n nf T = gbar false r n nf T := by
  by_cases hr : r < 1
  · unfold g gbar; simp [hr]
  by_cases hn : n ≤ 1
  · unfold g gbar; simp [hr, hn]
  by_cases h : nf ≤ 1
  · unfold g gbar; simp [hr, hn, h]
  push Not at hr hn h
  rw [g_ok _ hr hn h hT, g_ok _ hr hn h hT, gbar_ok _ hr hn h hT, gbar_ok _ hr hn h hT]
  exact ⟨rfl, rfl⟩

/-- **C152** What is refused, and nothing else, given a term. -/
theorem C152_refuses (arr : Bool) (r n nf : ℝ) (T : ℕ) (hT : 0 < T) :
    (g arr r n nf T = .error .valueError ↔ (r < 1 ∨ n ≤ 1 ∨ nf ≤ 1)) ∧ (gbar arr r n nf T = .error .valueError ↔ (r < 1 ∨ n ≤ 1 ∨ nf ≤ 1)) := by
  by_cases hr : r < 1
  · unfold g gbar; simp [hr]
  by_cases hn : n ≤ 1
  · unfold g gbar; simp [hr, hn]
  by_cases h : nf ≤ 1
  · unfold g gbar; simp [hr, hn, h]
  rw [g_ok _ (not_lt.1 hr) (not_le.1 hn) (not_le.1 h) hT, gbar_ok _ (not_lt.1 hr) (not_le.1 hn) (not_le.1 h) hT]
  simp [hr, hn, h]

/-- **C152** With no terms an array gives zeros and a number an `IndexError`. -/
theorem C152_empty (r n nf : ℝ) (hr : 1 ≤ r) (hn : 1 < n) (h : 1 < nf) :
    g true r n nf 0 = .ok 0 ∧ gbar true r n nf 0 = .ok 0 ∧ g false r n nf 0 = .error .indexError ∧ gbar false r n nf 0 = .error .indexError := by
  unfold g gbar
  simp [not_lt.2 hr, not_le.2 hn, not_le.2 h, gSeries, gbarSeries]

example : g true 1.5 5 1.3 20 = g false 1.5 5 1.3 20 ∧ g true 1.5 5 1.3 20 ≠ .error .valueError :=
  ⟨(C152_same _ _ _ _ (by norm_num)).1, fun h => by
    have := (C152_refuses true 1.5 5 1.3 20 (by norm_num)).1.1 h
    norm_num at this⟩

/-! ## C153 -/

/-- **C153** `_g` is an antiderivative of `y ^ (-1/nf)` times the first `T` terms of the binomial series of `(1 - (y/n)²) ^ (1/nf)`, `_gbar` is an
antiderivative of `y` times `_g`. -/
theorem C153_derivative (arr : Bool) (n nf : ℝ) (T : ℕ) (hn : 1 < n) (h : 1 < nf) (hT : 0 < T) :
    ∃ G Gb : ℝ → ℝ, (∀ r, 1 ≤ r → g arr r n nf T = .ok (G r) ∧ gbar arr r n nf T = .ok (Gb r)) ∧
      ∀ y, 1 ≤ y →
        HasDerivAt G (y ^ (-(1 / nf)) * ∑ j ∈ Finset.range T, (∏ i ∈ Finset.range j, (-(1 / nf) + i)) / (j.factorial : ℝ) * ((y / n) ^ 2) ^ j) y ∧
        HasDerivAt Gb (y * G y) y :=
  ⟨fun r => gRec r n nf T, fun r => gbarRec r n nf T, fun r hr => ⟨g_ok arr hr hn h hT, gbar_ok arr hr hn h hT⟩,
    fun y hy => ⟨gRec_deriv (by linarith) h T, gbarRec_deriv (by linarith) h T⟩⟩

/-- **C153** The derivative of `_g` is never less than the exact gradient `(1/y - y/n²) ^ (1/nf)` and exceeds it by at most
`(y/n) ^ (2 T) / T ^ (1/nf)`. -/
theorem C153_error (arr : Bool) (n nf : ℝ) (T : ℕ) (hn : 1 < n) (h : 1 < nf) (hT : 0 < T) :
    ∃ G G' : ℝ → ℝ, (∀ r, 1 ≤ r → g arr r n nf T = .ok (G r)) ∧
      ∀ y, 1 ≤ y → y ≤ n → HasDerivAt G (G' y) y ∧ (1 / y - y / n ^ 2) ^ (1 / nf) ≤ G' y ∧
        G' y - (1 / y - y / n ^ 2) ^ (1 / nf) ≤ (y / n) ^ (2 * T) * (T : ℝ) ^ (-(1 / nf)) :=
  ⟨fun r => gRec r n nf T, wT n nf T, fun r hr => g_ok arr hr hn h hT,
    fun y hy hyn => ⟨gRec_deriv (by linarith) h T, wT_error h hT hy hyn⟩⟩

/-- **C153** For radii in the annulus the values of `_g` converge (differences from the value at the drain) to the integral of the exact gradient. -/
theorem C153_converges (arr : Bool) (n nf r : ℝ) (hn : 1 < n) (h : 1 < nf) (hr : 1 ≤ r) (hrn : r ≤ n) :
    ∃ G : ℕ → ℝ → ℝ, (∀ T, 0 < T → ∀ r, 1 ≤ r → g arr r n nf T = .ok (G T r)) ∧
      Tendsto (fun T => G T r - G T 1) atTop (𝓝 (∫ y in (1 : ℝ)..r, (1 / y - y / n ^ 2) ^ (1 / nf))) := by
  refine ⟨fun T r => gRec r n nf T, fun T hT r hr => g_ok arr hr hn h hT, ?_⟩
  have hb : Tendsto (fun T : ℕ => (r - 1) * (T : ℝ) ^ (-(1 / nf))) atTop (𝓝 0) := by
    have h1 : Tendsto (fun T : ℕ => (T : ℝ) ^ (-(1 / nf))) atTop (𝓝 0) :=
      (tendsto_rpow_neg_atTop (inv_bounds h).1).comp tendsto_natCast_atTop_atTop
    simpa using h1.const_mul (r - 1)
  rw [tendsto_iff_dist_tendsto_zero]
  refine squeeze_zero' (Eventually.of_forall fun _ => dist_nonneg) ?_ hb
  filter_upwards [eventually_gt_atTop 0] with T hT
  have e := int_wT (n := n) h T one_pos hr 1
  simp only [one_mul] at e
  have cT := (wT_cont n nf T one_pos (b := r))
  have cE := (wE_cont n h one_pos hr)
  have i1 : IntervalIntegrable (wT n nf T) volume 1 r := ContinuousOn.intervalIntegrable (by rwa [uIcc_of_le hr])
  have i2 : IntervalIntegrable (wE n nf) volume 1 r := ContinuousOn.intervalIntegrable (by rwa [uIcc_of_le hr])
  have e2 : ∫ y in (1 : ℝ)..r, (1 / y - y / n ^ 2) ^ (1 / nf) = ∫ y in (1 : ℝ)..r, wE n nf y := rfl
  rw [← e, e2, dist_eq_norm, ← intervalIntegral.integral_sub i1 i2]
  have := intervalIntegral.norm_integral_le_of_norm_le_const (a := 1) (b := r) (f := fun x => wT n nf T x - wE n nf x) (C := (T : ℝ) ^ (-(1 / nf)))
    (by
      intro x hx
      rw [uIoc_of_le hr] at hx
      obtain ⟨a, b⟩ := wT_error h hT hx.1.le (hx.2.trans hrn)
      rw [Real.norm_eq_abs, abs_of_nonneg (by unfold wE; linarith)]
      have hq : (x / n) ^ (2 * T) ≤ 1 := pow_le_one₀ (div_nonneg (by linarith [hx.1]) (by linarith)) (by
        rw [div_le_one (by linarith)]; linarith [hx.2])
      have hp : 0 ≤ (T : ℝ) ^ (-(1 / nf)) := rpow_nonneg (Nat.cast_nonneg T) _
      have := mul_le_mul_of_nonneg_right hq hp
      unfold wE
      linarith)
  rw [abs_of_nonneg (by linarith)] at this
  linarith

example : ∃ G : ℕ → ℝ → ℝ, (∀ T, 0 < T → ∀ r, 1 ≤ r → g false r 5 1.3 T = .ok (G T r)) ∧
    Tendsto (fun T => G T 2 - G T 1) atTop (𝓝 (∫ y in (1 : ℝ)..2, (1 / y - y / 5 ^ 2) ^ (1 / (1.3 : ℝ)))) :=
  C153_converges false 5 1.3 2 (by norm_num) (by norm_num) (by norm_num) (by norm_num)

/-! ## C154 -/

/-- The code's value for given zones. -/
theorem zones_average {n nf : ℝ} (hn : 1 < n) (h : 1 < nf) (T : ℕ) {zs : List CZone} (ht : Tiles 1 n (zs.map cPiece)) (hk : ∀ z ∈ zs, 0 < z.kap) :
    ndSum n nf T [] zs / (n ^ 2 - 1) = average n (head (wT n nf T) fun x => profile (zs.map cPiece) x ^ (1 / nf)) := by
  have ht' := pow_tiles (nf := nf) ht
  have e : (fun x => profile (zs.map cPiece) x ^ (1 / nf)) = profile (zs.map (powPiece nf)) := by funext x; exact pow_profile nf zs x
  have cq : ContinuousOn (fun x : ℝ => n ^ 2 - x ^ 2) (Icc 1 n) := by fun_prop
  rw [e, average_head hn (isProfile ht') (wT_cont n nf T one_pos), profile_integral ht' (w := fun x => (n ^ 2 - x ^ 2) * wT n nf T x) (cq.mul (wT_cont n nf T one_pos)),
    ndSum_eq h T [] zs one_pos ht' hk]
  simp only [ndPsi, List.map_nil, List.sum_nil, zero_mul, add_zero]
  ring

theorem zones_profile {n nf : ℝ} {zs : List CZone} (ht : Tiles 1 n (zs.map cPiece)) : IsProfile n fun x => profile (zs.map cPiece) x ^ (1 / nf) := by
  have e : (fun x => profile (zs.map cPiece) x ^ (1 / nf)) = profile (zs.map (powPiece nf)) := by funext x; exact pow_profile nf zs x
  rw [e]; exact isProfile (pow_tiles ht)

theorem profile_range {zs : List CZone} {K : ℝ} (hk : ∀ z ∈ zs, 0 < z.kap) (hK : ∀ z ∈ zs, z.kap ≤ K) (h1 : 1 ≤ K) (x : ℝ) :
    0 < profile (zs.map cPiece) x ∧ profile (zs.map cPiece) x ≤ K := by
  induction zs with
  | nil => simp [profile, h1]
  | cons z zs ih =>
    simp only [List.map_cons, profile, cPiece]
    split_ifs
    · exact ⟨hk z (by simp), hK z (by simp)⟩
    · exact ih (fun y hy => hk y (by simp [hy])) (fun y hy => hK y (by simp [hy]))

theorem zones_beta {n nf : ℝ} (hn : 1 < n) (h : 1 < nf) {T : ℕ} (hT : 0 < T) {zs : List CZone} (ht : Tiles 1 n (zs.map cPiece)) {K : ℝ}
    (hk : ∀ z ∈ zs, 0 < z.kap) (hK : ∀ z ∈ zs, z.kap ≤ K) (h1 : 1 ≤ K) :
    betaSpec n nf (profile (zs.map cPiece)) ≤ ndSum n nf T [] zs / (n ^ 2 - 1) ∧
    ndSum n nf T [] zs / (n ^ 2 - 1) - betaSpec n nf (profile (zs.map cPiece)) ≤ betaTol n nf (K ^ (1 / nf)) T := by
  have hr := fun x => profile_range hk hK h1 x
  have ha := (inv_bounds h).1
  have e : betaSpec n nf (profile (zs.map cPiece)) = average n (head (wE n nf) fun x => profile (zs.map cPiece) x ^ (1 / nf)) :=
    average_congr hn.le fun r a b => ndHead_eq (fun x _ _ => (hr x).1.le) a b
  rw [e, zones_average hn h T ht hk]
  exact beta_error hn h hT (zones_profile ht) (fun x _ _ => rpow_nonneg (hr x).1.le _) (fun x _ _ => rpow_le_rpow (hr x).1.le (hr x).2 ha.le)

theorem ideal_sum {n nf : ℝ} (hn : 1 < n) (h : 1 < nf) {T : ℕ} (hT : 0 < T) (arr : Bool) :
    ndBetaIdeal arr n nf T = .ok (ndSum n nf T [] [⟨1, n, 1⟩] / (n ^ 2 - 1)) := by
  unfold ndBetaIdeal
  rw [if_neg (not_le.2 hn), if_neg (not_le.2 h), g_ok arr le_rfl hn h hT, gbar_ok arr hn.le hn h hT, gbar_ok arr le_rfl hn h hT]
  simp only [Bind.bind, Except.bind, pure, Except.pure, ndSum, ndPsi, List.map_nil, List.sum_nil, one_rpow]
  congr 1
  ring

theorem constant_sum {n s kap nf : ℝ} (hn : 1 < n) (hs : 1 ≤ s) (hk : 1 ≤ kap) (h : 1 < nf) {T : ℕ} (hT : 0 < T) (arr arrS : Bool) :
    ndBetaConstant arr arrS n s kap nf T = .ok (ndSum n nf T [] [⟨1, s, kap⟩, ⟨s, n, 1⟩] / (n ^ 2 - 1)) := by
  unfold ndBetaConstant
  rw [if_neg (not_le.2 hn), if_neg (not_lt.2 hs), if_neg (not_lt.2 hk), if_neg (not_le.2 h), g_ok arr le_rfl hn h hT, gbar_ok arr hn.le hn h hT,
    gbar_ok arr le_rfl hn h hT, g_ok _ hs hn h hT, gbar_ok _ hs hn h hT]
  have hz : kap ^ (1 / nf) ≠ 0 := (rpow_pos_of_pos (by linarith) _).ne'
  simp only [Bind.bind, Except.bind, pure, Except.pure, ndSum, ndPsi, List.map_nil, List.sum_nil, one_rpow, List.nil_append, List.map_cons, List.sum_cons]
  congr 1
  field_simp
  ring

theorem ideal_tiles {n : ℝ} (hn : 1 < n) : Tiles 1 n ([(⟨1, n, 1⟩ : CZone)].map cPiece) := ⟨rfl, hn.le, continuousOn_const, rfl⟩

theorem constant_tiles {n s kap : ℝ} (hs : 1 ≤ s) (hsn : s ≤ n) : Tiles 1 n ([(⟨1, s, kap⟩ : CZone), ⟨s, n, 1⟩].map cPiece) :=
  ⟨rfl, hs, continuousOn_const, rfl, hsn, continuousOn_const, rfl⟩

theorem constant_profile {n s kap : ℝ} : profile ([(⟨1, s, kap⟩ : CZone), ⟨s, n, 1⟩].map cPiece) = constantSmear s kap := by
  funext x
  simp [profile, cPiece, constantSmear]

theorem ideal_profile {n : ℝ} : profile ([(⟨1, n, 1⟩ : CZone)].map cPiece) = fun _ => 1 := by
  funext x
  simp [profile, cPiece]

/-- **C154** `non_darcy_beta_ideal`: the mean head for the gradient of `_g`; at least the exact `β`, and above it by no more than `betaTol`. -/
theorem C154_ideal (arr : Bool) (n nf : ℝ) (T : ℕ) (hn : 1 < n) (h : 1 < nf) (hT : 0 < T) :
    ∃ b, ndBetaIdeal arr n nf T = .ok b ∧
      b = average n (fun r => ∫ y in (1 : ℝ)..r, y ^ (-(1 / nf)) * ∑ j ∈ Finset.range T, (∏ i ∈ Finset.range j, (-(1 / nf) + i)) / (j.factorial : ℝ) * ((y / n) ^ 2) ^ j) ∧
      betaSpec n nf (fun _ => 1) ≤ b ∧ b - betaSpec n nf (fun _ => 1) ≤ 2 * n ^ 3 / ((n ^ 2 - 1) * ((2 * T + 1) * (2 * T + 3))) * (T : ℝ) ^ (-(1 / nf)) := by
  refine ⟨_, ideal_sum hn h hT arr, ?_, ?_⟩
  · rw [zones_average hn h T (ideal_tiles hn) (by simp), ideal_profile]
    simp only [one_rpow]
    unfold head
    simp only [one_mul]
    rfl
  · have := zones_beta hn h hT (ideal_tiles hn) (K := 1) (by simp) (by simp) le_rfl
    rw [ideal_profile] at this
    unfold betaTol at this
    simpa using this

/-- **C154** `non_darcy_beta_constant`: likewise for a smear zone of constant permeability that ends inside the annulus. -/
theorem C154_constant (arr arrS : Bool) (n s kap nf : ℝ) (T : ℕ) (hn : 1 < n) (hs : 1 ≤ s) (hsn : s ≤ n) (hk : 1 ≤ kap) (h : 1 < nf) (hT : 0 < T) :
    ∃ b, ndBetaConstant arr arrS n s kap nf T = .ok b ∧
      b = average n (fun r => ∫ y in (1 : ℝ)..r, constantSmear s kap y ^ (1 / nf) *
        (y ^ (-(1 / nf)) * ∑ j ∈ Finset.range T, (∏ i ∈ Finset.range j, (-(1 / nf) + i)) / (j.factorial : ℝ) * ((y / n) ^ 2) ^ j)) ∧
      betaSpec n nf (constantSmear s kap) ≤ b ∧
      b - betaSpec n nf (constantSmear s kap) ≤ kap ^ (1 / nf) * (2 * n ^ 3 / ((n ^ 2 - 1) * ((2 * T + 1) * (2 * T + 3)))) * (T : ℝ) ^ (-(1 / nf)) := by
  have hpos : ∀ z ∈ [(⟨1, s, kap⟩ : CZone), ⟨s, n, 1⟩], 0 < z.kap := by simp; linarith
  refine ⟨_, constant_sum hn hs hk h hT arr arrS, ?_, ?_⟩
  · rw [zones_average hn h T (constant_tiles hs hsn) hpos, constant_profile]
    rfl
  · have := zones_beta hn h hT (constant_tiles hs hsn) (K := kap) hpos (by simpa using hk) hk
    rw [constant_profile] at this
    exact this

theorem ndZones_ok {s kap : List ℝ} {N nf : ℝ} (hl : s.length = kap.length) (h1 : ∀ x ∈ s, 1 < x) (hk : ∀ k ∈ kap, 0 < k) (hi : Increasing s)
    (hN : s.getLast? = some N) (h : 1 < nf) : ndZones s kap none none nf = .ok (N, cZones 1 s kap) := by
  unfold ndZones extend
  rw [if_neg (by simp)]
  dsimp only
  rw [if_neg (by simpa using hl), if_neg (by push Not; exact h1), if_neg (by push Not; exact hk), if_neg (by simpa using hi), if_neg (not_le.2 h), hN]

theorem zones_tiles {s kap : List ℝ} {N : ℝ} (hl : s.length = kap.length) (h1 : ∀ x ∈ s, 1 < x) (hi : Increasing s) (hN : s.getLast? = some N) :
    Tiles 1 N ((cZones 1 s kap).map cPiece) := by
  apply cZones_tiles hl (increasing_cons hi h1)
  cases s with
  | nil => simp at hN
  | cons b s => rw [List.getLast?_cons_cons]; exact hN

/-- **C154** `non_darcy_beta_piecewise_constant`: likewise for any number of zones. -/
theorem C154_piecewise (s kap : List ℝ) (N nf K : ℝ) (T : ℕ) (hl : s.length = kap.length) (h1 : ∀ x ∈ s, 1 < x) (hk : ∀ k ∈ kap, 0 < k) (hi : Increasing s)
    (hN : s.getLast? = some N) (h : 1 < nf) (hT : 0 < T) (hK : ∀ k ∈ kap, k ≤ K) (hK1 : 1 ≤ K) :
    ∃ b, ndBetaPiecewise s kap none none nf T = .ok b ∧
      b = average N (fun r => ∫ y in (1 : ℝ)..r, stepRatio s kap y ^ (1 / nf) *
        (y ^ (-(1 / nf)) * ∑ j ∈ Finset.range T, (∏ i ∈ Finset.range j, (-(1 / nf) + i)) / (j.factorial : ℝ) * ((y / N) ^ 2) ^ j)) ∧
      betaSpec N nf (stepRatio s kap) ≤ b ∧
      b - betaSpec N nf (stepRatio s kap) ≤ K ^ (1 / nf) * (2 * N ^ 3 / ((N ^ 2 - 1) * ((2 * T + 1) * (2 * T + 3)))) * (T : ℝ) ^ (-(1 / nf)) := by
  have hN1 : 1 < N := h1 N (List.mem_of_getLast? hN)
  have ht := zones_tiles (kap := kap) hl h1 hi hN
  have hpos : ∀ z ∈ cZones 1 s kap, 0 < z.kap := fun z hz => hk _ (cZones_kap z hz)
  have hst : stepRatio s kap = profile ((cZones 1 s kap).map cPiece) := by funext x; exact step_profile 1 s kap x
  refine ⟨ndSum N nf T [] (cZones 1 s kap) / (N ^ 2 - 1), ?_, ?_, ?_⟩
  · unfold ndBetaPiecewise
    rw [ndZones_ok hl h1 hk hi hN h]
    simp only [Bind.bind, Except.bind, pure, Except.pure, if_neg hT.ne']
  · rw [zones_average hN1 h T ht hpos, hst]
    rfl
  · rw [hst]
    exact zones_beta hN1 h hT ht hpos (fun z hz => hK _ (cZones_kap z hz)) hK1

end Geotecha.Smear
