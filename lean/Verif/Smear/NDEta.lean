import Verif.Smear.NDClaims3

/-! # C157: `non_darcy_drain_eta` -/

set_option autoImplicit false
set_option linter.unusedVariables false
namespace Geotecha.Smear
open MeasureTheory intervalIntegral Set Real Filter Topology
open Geotecha (PyErr)

/-- Equal-strain radial drainage with power-law flow, in real radii: `u` is the pore pressure between the drain (radius `rw`, pressure `uw`) and the
boundary (radius `re`), `i` the hydraulic gradient, `k / κ (r / rw)` the local permeability.  Below the limiting gradient `iL` the velocity is
`k i ^ nf / (nf iL ^ (nf - 1))`, and what flows through the cylinder of radius `r` is what the soil outside loses in volume, `rate` being the
strain rate. -/
structure IsPowerFlow (re rw k gamw iL nf uw rate : ℝ) (κ u : ℝ → ℝ) : Prop where
  flow : ∃ i : ℝ → ℝ, (∀ r, rw ≤ r → r ≤ re → u r = uw + gamw * ∫ y in rw..r, i y) ∧
    ∀ r, rw < r → r < re → 0 ≤ i r ∧ 2 * π * r * (k / κ (r / rw) * i r ^ nf / (nf * iL ^ (nf - 1))) = π * (re ^ 2 - r ^ 2) * rate

/-- Mean pressure between drain and boundary. -/
noncomputable def meanPressure (re rw : ℝ) (u : ℝ → ℝ) : ℝ := (∫ r in rw..re, 2 * π * r * u r) / (π * (re ^ 2 - rw ^ 2))

theorem mean_scale {re rw : ℝ} (hw : 0 < rw) (hr : rw < re) (u : ℝ → ℝ) : meanPressure re rw u = average (re / rw) fun x => u (rw * x) := by
  unfold meanPressure average
  have e : ∫ r in rw..re, 2 * π * r * u r = rw * ∫ x in (1 : ℝ)..(re / rw), 2 * π * (rw * x) * u (rw * x) := by
    have := intervalIntegral.mul_integral_comp_mul_left (a := 1) (b := re / rw) (f := fun r => 2 * π * r * u r) rw
    rw [this, mul_one, mul_div_cancel₀ _ hw.ne']
  have e2 : ∫ x in (1 : ℝ)..(re / rw), 2 * π * (rw * x) * u (rw * x) = 2 * π * rw * ∫ x in (1 : ℝ)..(re / rw), x * u (rw * x) := by
    rw [← intervalIntegral.integral_const_mul]
    congr 1
    funext x
    ring
  rw [e, e2]
  have h1 : re ^ 2 - rw ^ 2 ≠ 0 := by nlinarith
  have h2 : (re / rw) ^ 2 - 1 = (re ^ 2 - rw ^ 2) / rw ^ 2 := by field_simp
  rw [h2]
  have := pi_ne_zero
  field_simp

/-- **C157** The law behind the formula: with the exact `β` the strain rate is `(ū - uw) ^ nf (k / gamw) eta`. -/
theorem C157_law (re rw k gamw iL nf uw rate : ℝ) (κ u : ℝ → ℝ) (hw : 0 < rw) (hr : rw < re) (hk : 0 < k) (hg : 0 < gamw) (hi : 0 < iL) (hnf : 1 < nf)
    (hrate : 0 ≤ rate) (hκ : ∀ x, 1 ≤ x → x < re / rw → 0 < κ x) (hP : IsProfile (re / rw) fun x => κ x ^ (1 / nf)) (hβ : 0 < betaSpec (re / rw) nf κ)
    (hu : IsPowerFlow re rw k gamw iL nf uw rate κ u) :
    rate = (meanPressure re rw u - uw) ^ nf * (k / gamw) * ndEtaF re iL gamw nf (betaSpec (re / rw) nf κ) rw := by
  obtain ⟨i, hu1, hi1⟩ := hu.flow
  have hnf0 : 0 < nf := by linarith
  set n := re / rw with hn
  have hn1 : 1 < n := by rw [hn, lt_div_iff₀ hw]; linarith
  have hre : re = rw * n := by rw [hn]; field_simp
  set M := nf * iL ^ (nf - 1) * rate * rw * n ^ 2 / (2 * k) with hM
  have hiL : 0 < iL ^ (nf - 1) := rpow_pos_of_pos hi _
  have hM0 : 0 ≤ M := by rw [hM]; positivity
  set C := M ^ (1 / nf) with hC
  have hgrad : ∀ x, 1 < x → x < n → i (rw * x) = C * (κ x * (1 / x - x / n ^ 2)) ^ (1 / nf) := by
    intro x a b
    have hx0 : 0 < x := by linarith
    obtain ⟨p0, p1⟩ := hi1 (rw * x) (by nlinarith) (by rw [hre]; nlinarith)
    have e : rw * x / rw = x := by field_simp
    rw [e] at p1
    have hκx := hκ x a.le b
    have hf := flux_nonneg hx0 b.le
    have key : i (rw * x) ^ nf = M * (κ x * (1 / x - x / n ^ 2)) := by
      rw [hM]
      have hp := pi_pos
      have hn0 : n ≠ 0 := by linarith
      rw [hre] at p1
      field_simp at p1 ⊢
      linear_combination p1
    have := congrArg (fun t => t ^ (1 / nf)) key
    rw [← rpow_mul p0, mul_one_div_cancel hnf0.ne', rpow_one, mul_rpow hM0 (mul_nonneg hκx.le hf)] at this
    exact this
  have hhead : ∀ x, 1 ≤ x → x ≤ n → u (rw * x) = gamw * rw * C * ndHead n nf κ x + uw := by
    intro x a b
    rw [hu1 (rw * x) (by nlinarith) (by rw [hre]; nlinarith)]
    have e := intervalIntegral.mul_integral_comp_mul_left (a := 1) (b := x) (f := i) rw
    rw [mul_one] at e
    have e2 : ∫ y in (1 : ℝ)..x, i (rw * y) = C * ndHead n nf κ x := by
      unfold ndHead
      rw [← intervalIntegral.integral_const_mul]
      apply intervalIntegral.integral_congr_ae
      have : ∀ᵐ y ∂(volume : Measure ℝ), y ≠ x := by rw [ae_iff]; simp
      filter_upwards [this] with y hy hm
      rw [uIoc_of_le a] at hm
      exact hgrad y hm.1 (lt_of_lt_of_le (lt_of_le_of_ne hm.2 hy) b)
    rw [← e, e2]
    ring
  have hcont : ContinuousOn (ndHead n nf κ) (Icc 1 n) :=
    (head_cont hn1.le hP (wE_cont n hnf one_pos hn1.le)).congr fun r hr => ndHead_eq (fun x a b => (hκ x a b).le) hr.1 hr.2
  have hmean : meanPressure re rw u - uw = gamw * rw * C * betaSpec n nf κ := by
    rw [mean_scale hw hr, ← hn, average_congr hn1.le (v := fun x => gamw * rw * C * ndHead n nf κ x + uw) hhead, average_affine hn1 hcont]
    unfold betaSpec
    ring
  have hC0 : 0 ≤ C := rpow_nonneg hM0 _
  have hCn : C ^ nf = M := by rw [hC, ← rpow_mul hM0, one_div_mul_cancel hnf0.ne', rpow_one]
  rw [hmean, show gamw * rw * C * betaSpec n nf κ = (rw * gamw) * (C * betaSpec n nf κ) by ring, mul_rpow (by positivity) (by positivity),
    mul_rpow hC0 hβ.le, hCn]
  unfold ndEtaF
  have hsplit : (rw * gamw) ^ nf = (rw * gamw) ^ (nf - 1) * (rw * gamw) := by
    rw [rpow_sub_one (by positivity)]; field_simp
  rw [hsplit, hM, hre]
  have h1 : (rw * gamw) ^ (nf - 1) ≠ 0 := (rpow_pos_of_pos (by positivity) _).ne'
  have h2 : betaSpec n nf κ ^ nf ≠ 0 := (rpow_pos_of_pos hβ _).ne'
  have h3 : n ≠ 0 := by linarith
  field_simp

theorem eta_anti {re iL gamw nf b b' rw : ℝ} (hre : 0 < re) (hi : 0 < iL) (hg : 0 < gamw) (hnf : 1 < nf) (hw : 0 < rw) (hb : 0 < b) (hbb : b ≤ b') :
    ndEtaF re iL gamw nf b' rw ≤ ndEtaF re iL gamw nf b rw := by
  unfold ndEtaF
  have h1 : 0 < (rw * gamw) ^ (nf - 1) := rpow_pos_of_pos (by positivity) _
  have h2 : 0 < iL ^ (nf - 1) := rpow_pos_of_pos hi _
  have h3 : 0 < b ^ nf := rpow_pos_of_pos hb _
  have h4 : b ^ nf ≤ b' ^ nf := rpow_le_rpow hb.le hbb (by linarith)
  apply div_le_div_of_nonneg_left (by norm_num) (by positivity)
  gcongr

theorem eta_cont {re iL gamw nf b rw : ℝ} (hre : 0 < re) (hi : 0 < iL) (hg : 0 < gamw) (hnf : 1 < nf) (hw : 0 < rw) (hb : 0 < b) :
    ContinuousAt (fun b => ndEtaF re iL gamw nf b rw) b := by
  unfold ndEtaF
  have h1 : 0 < (rw * gamw) ^ (nf - 1) := rpow_pos_of_pos (by positivity) _
  have h2 : 0 < iL ^ (nf - 1) := rpow_pos_of_pos hi _
  have h3 : 0 < b ^ nf := rpow_pos_of_pos hb _
  apply ContinuousAt.div continuousAt_const _ (by positivity)
  exact ((((continuousAt_const).mul (continuousAt_id.rpow_const (Or.inl hb.ne'))).mul continuousAt_const).mul continuousAt_const).mul continuousAt_const

theorem beta_pos {n nf : ℝ} (hn : 1 < n) (h : 1 < nf) {zs : List CZone} (ht : Tiles 1 n (zs.map cPiece)) (hk : ∀ z ∈ zs, 0 < z.kap) :
    0 < betaSpec n nf (profile (zs.map cPiece)) := by
  obtain ⟨c, c0, c1, hc⟩ := min_pos_list (zs.map fun z => z.kap) (by simpa using hk)
  have hlow : ∀ x, c ≤ profile (zs.map cPiece) x := by
    intro x
    clear ht hk
    induction zs with
    | nil => simpa [profile] using c1
    | cons z zs ih =>
      simp only [List.map_cons, profile, cPiece]
      split_ifs
      · exact hc _ (by simp)
      · exact ih (fun k hk => hc k (by simp at hk ⊢; tauto))
  have e : betaSpec n nf (profile (zs.map cPiece)) = average n (head (wE n nf) fun x => profile (zs.map cPiece) x ^ (1 / nf)) :=
    average_congr hn.le fun r a b => ndHead_eq (fun x _ _ => (c0.le.trans (hlow x))) a b
  rw [e]
  refine average_head_pos hn (zones_profile ht) (wE_cont n h one_pos hn.le) (rpow_pos_of_pos c0 (1 / nf))
    (fun x _ _ => rpow_le_rpow c0.le (hlow x) (inv_bounds h).1.le) fun x a b => ?_
  apply rpow_pos_of_pos
  have hx : 0 < x := by linarith
  rw [sub_pos, div_lt_div_iff₀ (by positivity) hx]
  nlinarith

theorem eta_zones {re iL gamw n nf : ℝ} (hre : 0 < re) (hi : 0 < iL) (hg : 0 < gamw) (hn : 1 < n) (h : 1 < nf) {zs : List CZone}
    (ht : Tiles 1 n (zs.map cPiece)) (hk : ∀ z ∈ zs, 0 < z.kap) :
    (∀ T, 0 < T → 0 < ndEtaF re iL gamw nf (ndSum n nf T [] zs / (n ^ 2 - 1)) (re / n) ∧
      ndEtaF re iL gamw nf (ndSum n nf T [] zs / (n ^ 2 - 1)) (re / n) ≤ ndEtaF re iL gamw nf (betaSpec n nf (profile (zs.map cPiece))) (re / n)) ∧
    Tendsto (fun T => ndEtaF re iL gamw nf (ndSum n nf T [] zs / (n ^ 2 - 1)) (re / n)) atTop
      (𝓝 (ndEtaF re iL gamw nf (betaSpec n nf (profile (zs.map cPiece))) (re / n))) := by
  have hb := beta_pos hn h ht hk
  have hrw : 0 < re / n := div_pos hre (by linarith)
  obtain ⟨K, hK1, hK⟩ := max_list (zs.map fun z => z.kap)
  have hK' : ∀ z ∈ zs, z.kap ≤ K := fun z hz => hK _ (List.mem_map_of_mem hz)
  refine ⟨fun T hT => ⟨?_, ?_⟩, ?_⟩
  · have := (zones_beta hn h hT ht hk hK' hK1).1
    unfold ndEtaF
    have h1 : 0 < (re / n * gamw) ^ (nf - 1) := rpow_pos_of_pos (by positivity) _
    have h2 : 0 < iL ^ (nf - 1) := rpow_pos_of_pos hi _
    have h3 : 0 < (ndSum n nf T [] zs / (n ^ 2 - 1)) ^ nf := rpow_pos_of_pos (by linarith) _
    positivity
  · exact eta_anti hre hi hg h hrw hb (zones_beta hn h hT ht hk hK' hK1).1
  · exact (eta_cont hre hi hg h hrw hb).tendsto.comp (zones_tendsto hn h ht hk hK' hK1)

theorem ndEta_num {re iL gamw n nf b : ℝ} (hn : n ≠ 0) {kwn : Option NArg} {args : List NArg}
    (ha : kwn = some (.num n) ∨ (kwn = none ∧ ∃ l, args = .num n :: l)) :
    ndEta re iL gamw (.ok b) kwn args (some nf) = .ok [ndEtaF re iL gamw nf b (re / n)] := by
  rcases ha with rfl | ⟨rfl, l, rfl⟩ <;>
  · unfold ndEta
    simp [Bind.bind, Except.bind, pure, Except.pure, hn]

/-- **C157** `non_darcy_drain_eta` with the ideal, the constant and the piecewise-constant `β` and `n` a number, given by keyword or as first positional
argument: positive, at most the value for the exact `β` (which by `C157_law` is the one of the physical law), and converging to it. -/
theorem C157_value (arr arrS : Bool) (re iL gamw n nf : ℝ) (hre : 0 < re) (hi : 0 < iL) (hg : 0 < gamw) (hn : 1 < n) (h : 1 < nf)
    (kwn : Option NArg) (args : List NArg) (ha : kwn = some (.num n) ∨ (kwn = none ∧ ∃ l, args = .num n :: l)) :
    (∃ η : ℕ → ℝ, (∀ T, 0 < T → ndEta re iL gamw (ndBetaIdeal arr n nf T) kwn args (some nf) = .ok [η T] ∧ 0 < η T ∧
        η T ≤ ndEtaF re iL gamw nf (betaSpec n nf fun _ => 1) (re / n)) ∧ Tendsto η atTop (𝓝 (ndEtaF re iL gamw nf (betaSpec n nf fun _ => 1) (re / n)))) ∧
    (∀ s kap, 1 ≤ s → s ≤ n → 1 ≤ kap → ∃ η : ℕ → ℝ, (∀ T, 0 < T → ndEta re iL gamw (ndBetaConstant arr arrS n s kap nf T) kwn args (some nf) = .ok [η T] ∧ 0 < η T ∧
        η T ≤ ndEtaF re iL gamw nf (betaSpec n nf (constantSmear s kap)) (re / n)) ∧
        Tendsto η atTop (𝓝 (ndEtaF re iL gamw nf (betaSpec n nf (constantSmear s kap)) (re / n)))) ∧
    (∀ s kap : List ℝ, s.length = kap.length → (∀ x ∈ s, 1 < x) → (∀ k ∈ kap, 0 < k) → Increasing s → s.getLast? = some n →
      ∃ η : ℕ → ℝ, (∀ T, 0 < T → ndEta re iL gamw (ndBetaPiecewise s kap none none nf T) kwn args (some nf) = .ok [η T] ∧ 0 < η T ∧
        η T ≤ ndEtaF re iL gamw nf (betaSpec n nf (stepRatio s kap)) (re / n)) ∧
        Tendsto η atTop (𝓝 (ndEtaF re iL gamw nf (betaSpec n nf (stepRatio s kap)) (re / n)))) := by
  have hn0 : n ≠ 0 := by linarith
  refine ⟨?_, ?_, ?_⟩
  · have := eta_zones hre hi hg hn h (ideal_tiles hn) (by simp)
    rw [ideal_profile] at this
    refine ⟨_, fun T hT => ⟨?_, this.1 T hT⟩, this.2⟩
    rw [ideal_sum hn h hT]
    exact ndEta_num hn0 ha
  · intro s kap hs hsn hk
    have := eta_zones hre hi hg hn h (constant_tiles (kap := kap) hs hsn) (by simp; linarith)
    rw [constant_profile] at this
    refine ⟨_, fun T hT => ⟨?_, this.1 T hT⟩, this.2⟩
    rw [constant_sum hn hs hk h hT]
    exact ndEta_num hn0 ha
  · intro s kap hl h1 hk hinc hN
    have hst : stepRatio s kap = profile ((cZones 1 s kap).map cPiece) := by funext x; exact step_profile 1 s kap x
    have := eta_zones hre hi hg hn h (zones_tiles (kap := kap) hl h1 hinc hN) (fun z hz => hk _ (cZones_kap z hz))
    rw [← hst] at this
    refine ⟨_, fun T hT => ⟨?_, this.1 T hT⟩, this.2⟩
    have e : ndBetaPiecewise s kap none none nf T = .ok (ndSum n nf T [] (cZones 1 s kap) / (n ^ 2 - 1)) := by
      unfold ndBetaPiecewise
      rw [ndZones_ok hl h1 hk hinc hN h]
      simp only [Bind.bind, Except.bind, pure, Except.pure, if_neg hT.ne']
    rw [e]
    exact ndEta_num hn0 ha

/-- **C157** (defects) `nflow` must be a keyword argument although every `β` function has a default; with the piecewise-constant `β` and `n` only as the last
radius, the first positional argument is the radii: a list is a `TypeError`, no positional argument an `IndexError`, and an array gives one value per zone
boundary, all but the last of which belong to a wrong (larger) drain radius and are too small. -/
theorem C157_first_argument (re iL gamw nf : ℝ) (s kap : List ℝ) (T : ℕ) (beta : Except PyErr ℝ) (kwn : NArg) (hx : ∀ x, kwn = .num x → x ≠ 0) :
    (∀ x, kwn = .num x → ndEta re iL gamw beta (some kwn) [] none = .error .other) ∧
    ndEta re iL gamw (ndBetaPiecewise s kap none none nf T) none [.list s, .list kap] (some nf) = .error .typeError ∧
    ndEta re iL gamw (ndBetaPiecewise s kap none none nf T) none [] (some nf) = .error .indexError ∧
    (∀ b, ndBetaPiecewise s kap none none nf T = .ok b → 0 < b → 0 < re → 0 < iL → 0 < gamw → 1 < nf → ∀ N, s.getLast? = some N → (∀ x ∈ s, 1 < x) →
      ndEta re iL gamw (ndBetaPiecewise s kap none none nf T) none [.arr s, .arr kap] (some nf) = .ok (s.map fun x => ndEtaF re iL gamw nf b (re / x)) ∧
      ∀ x ∈ s, x < N → ndEtaF re iL gamw nf b (re / x) < ndEtaF re iL gamw nf b (re / N)) := by
  refine ⟨?_, rfl, rfl, ?_⟩
  · intro x e
    subst e
    unfold ndEta
    simp [Bind.bind, Except.bind, hx x rfl]
  · intro b hb hb0 hre hi hg hnf N hN h1
    rw [hb]
    constructor
    · unfold ndEta
      simp [Bind.bind, Except.bind, pure, Except.pure, Function.comp_def]
    · intro x hx hxN
      have hx1 := h1 x hx
      have hx0 : 0 < x := by linarith
      have hN0 : 0 < N := by linarith
      unfold ndEtaF
      have h2 : 0 < iL ^ (nf - 1) := rpow_pos_of_pos hi _
      have h3 : 0 < b ^ nf := rpow_pos_of_pos hb0 _
      have h4 : 0 < (re / N * gamw) ^ (nf - 1) := rpow_pos_of_pos (by positivity) _
      have h5 : (re / N * gamw) ^ (nf - 1) < (re / x * gamw) ^ (nf - 1) := by
        apply rpow_lt_rpow (by positivity) _ (by linarith)
        apply mul_lt_mul_of_pos_right _ hg
        exact div_lt_div_of_pos_left hre hx0 hxN
      apply div_lt_div_of_pos_left (by norm_num) (by positivity)
      gcongr

/-- Such flows exist for every strain rate and every profile. -/
theorem powerFlow_exists {re rw k gamw iL nf uw rate : ℝ} {κ : ℝ → ℝ} (hw : 0 < rw) (hk : 0 < k) (hi : 0 < iL) (hnf : 1 < nf) (hrate : 0 ≤ rate)
    (hκ : ∀ x, 0 < κ x) : ∃ u, IsPowerFlow re rw k gamw iL nf uw rate κ u := by
  set i : ℝ → ℝ := fun r => (κ (r / rw) * (nf * iL ^ (nf - 1)) * rate * (re ^ 2 - r ^ 2) / (2 * r * k)) ^ (1 / nf) with hi'
  refine ⟨fun r => uw + gamw * ∫ y in rw..r, i y, ⟨i, fun r _ _ => rfl, ?_⟩⟩
  intro r a b
  have hr0 : 0 < r := by linarith
  have hq : 0 ≤ re ^ 2 - r ^ 2 := by nlinarith
  have hiL : 0 < iL ^ (nf - 1) := rpow_pos_of_pos hi _
  have hκr := hκ (r / rw)
  have hnf0 : 0 < nf := by linarith
  have hb : 0 ≤ κ (r / rw) * (nf * iL ^ (nf - 1)) * rate * (re ^ 2 - r ^ 2) / (2 * r * k) := by positivity
  refine ⟨rpow_nonneg hb _, ?_⟩
  have e : i r ^ nf = κ (r / rw) * (nf * iL ^ (nf - 1)) * rate * (re ^ 2 - r ^ 2) / (2 * r * k) := by
    simp only [hi']
    rw [← rpow_mul hb, one_div_mul_cancel hnf0.ne', rpow_one]
  rw [e]
  field_simp

example : ∃ u, IsPowerFlow 1.5 0.1 1 10 10 1.3 0 1 (fun _ => 1) u ∧
    (1 : ℝ) = (meanPressure 1.5 0.1 u - 0) ^ (1.3 : ℝ) * (1 / 10) * ndEtaF 1.5 10 10 1.3 (betaSpec (1.5 / 0.1) 1.3 fun _ => 1) 0.1 := by
  obtain ⟨u, hu⟩ := powerFlow_exists (re := 1.5) (rw := 0.1) (k := 1) (gamw := 10) (iL := 10) (nf := 1.3) (uw := 0) (rate := 1) (κ := fun _ => 1)
    (by norm_num) (by norm_num) (by norm_num) (by norm_num) (by norm_num) (by norm_num)
  have hb : 0 < betaSpec (1.5 / 0.1) 1.3 fun _ => 1 := by
    have := beta_pos (n := 1.5 / 0.1) (nf := 1.3) (by norm_num) (by norm_num) (ideal_tiles (by norm_num)) (by simp)
    rwa [ideal_profile] at this
  exact ⟨u, hu, C157_law 1.5 0.1 1 10 10 1.3 0 1 _ u (by norm_num) (by norm_num) (by norm_num) (by norm_num) (by norm_num) (by norm_num) (by norm_num) (by norm_num)
    (by simp only [one_rpow]; exact isProfile_const _ _) hb hu⟩

example : ∃ η : ℕ → ℝ, (∀ T, 0 < T → ndEta 1.5 10 10 (ndBetaIdeal false 15 1.3 T) (some (.num 15)) [] (some 1.3) = .ok [η T] ∧ 0 < η T ∧
    η T ≤ ndEtaF 1.5 10 10 1.3 (betaSpec 15 1.3 fun _ => 1) (1.5 / 15)) ∧ Tendsto η atTop (𝓝 (ndEtaF 1.5 10 10 1.3 (betaSpec 15 1.3 fun _ => 1) (1.5 / 15))) :=
  (C157_value false false 1.5 10 10 15 1.3 (by norm_num) (by norm_num) (by norm_num) (by norm_num) (by norm_num) _ [] (Or.inl rfl)).1

example : ∃ s b b', (5 : ℝ) < s ∧ ndBetaConstant false false 5 s 2 1.3 20 = .ok b ∧ ndBetaConstant false false 5 5 2 1.3 20 = .ok b' ∧ b < b' :=
  (C154_beyond false false 5 2 1.3 20 (by norm_num) (by norm_num) (by norm_num) (by norm_num)).2

example : ndU [1.5, 3, 5] [2, 3, 1] [2, 6] 1 0 0 none none 1.3 20 = .error .valueError :=
  (C155_refuses [1.5, 3, 5] [2, 3, 1] [2, 6] 5 1 0 0 1.3 20).2 rfl ⟨6, by simp, by norm_num⟩

example : ∃ b b', ndBetaPiecewise [1.5, 3, 5] [2, 3, 1] none none 1.3 20 = .ok b ∧ ndBetaPiecewise [1.5, 3, 5] [4, 3, 2] none none 1.3 20 = .ok b' ∧ 0 < b ∧ b ≤ b' :=
  C156_mono [1.5, 3, 5] [2, 3, 1] [4, 3, 2] 5 1.3 20 rfl (by norm_num) (by norm_num) ⟨by norm_num, by norm_num, trivial⟩ rfl (by norm_num) (by norm_num)
    (by constructor <;> norm_num)

example : ndBetaPiecewise [2, 5] [3, 1] none none 1.3 20 = ndBetaConstant false false 5 2 3 1.3 20 :=
  (C156_zones false false 5 2 3 1.3 20 (by norm_num) (by norm_num) (by norm_num) (by norm_num) (by norm_num)).1

end Geotecha.Smear
