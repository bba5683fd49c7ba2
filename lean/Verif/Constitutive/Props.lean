import Verif.Constitutive.Model
import Mathlib.Analysis.SpecialFunctions.Pow.Deriv
import Mathlib.Analysis.SpecialFunctions.Log.Deriv
import Mathlib.Tactic.FieldSimp
import Mathlib.Tactic.LinearCombination
import Mathlib.Tactic.Ring
import Mathlib.Tactic.Positivity

set_option linter.unusedVariables false
namespace Geotecha.Const

/-! # C33 void ratio - permeability -/

theorem ten_pos : (0:ℝ) < 10 := by norm_num
theorem log10_pos : 0 < Real.log 10 := Real.log_pos (by norm_num)

theorem log10_pow (x : ℝ) : log10 ((10:ℝ)^x) = x := Real.logb_rpow ten_pos (by norm_num)
theorem pow_log10 {x : ℝ} (h : 0 < x) : (10:ℝ) ^ log10 x = x := Real.rpow_logb ten_pos (by norm_num) h

/-- The two directions are inverse to each other. -/
theorem C33_inverse (m : CkModel) (hC : m.Ck ≠ 0) (hk : 0 < m.ka) (e k : ℝ) :
    m.eFromK (m.kFromE e) = e ∧ (0 < k → m.kFromE (m.eFromK k) = k) := by
  unfold CkModel.eFromK CkModel.kFromE
  constructor
  · rw [mul_div_cancel_left₀ _ hk.ne', log10_pow]; field_simp; ring
  · intro hkk
    rw [show (m.ea + m.Ck * log10 (k / m.ka) - m.ea) / m.Ck = log10 (k / m.ka) by field_simp; ring,
      pow_log10 (by positivity)]
    field_simp

/-- Void ratio strictly increases with permeability (and back) when `Ck > 0`; permeability is always positive. -/
theorem C33_monotone (m : CkModel) (hC : 0 < m.Ck) (hk : 0 < m.ka) :
    StrictMonoOn m.eFromK (Set.Ioi 0) ∧ StrictMono m.kFromE ∧ ∀ e, 0 < m.kFromE e := by
  have hs : StrictMono m.kFromE := by
    intro a b hab
    unfold CkModel.kFromE
    refine mul_lt_mul_of_pos_left (Real.rpow_lt_rpow_of_exponent_lt (by norm_num) ?_) hk
    exact div_lt_div_of_pos_right (by linarith) hC
  refine ⟨?_, hs, fun e => mul_pos hk (Real.rpow_pos_of_pos ten_pos _)⟩
  intro a ha b hb hab
  unfold CkModel.eFromK
  have h1 : log10 (a / m.ka) < log10 (b / m.ka) :=
    Real.logb_lt_logb (by norm_num) (div_pos ha hk) (div_lt_div_of_pos_right hab hk)
  have := mul_lt_mul_of_pos_left h1 hC
  linarith

/-- The line passes through the given point and falls one `Ck` per decade. -/
theorem C33_decade (m : CkModel) (hk : 0 < m.ka) (k : ℝ) (h : 0 < k) : m.eFromK m.ka = m.ea ∧ m.eFromK (10 * k) = m.eFromK k + m.Ck := by
  unfold CkModel.eFromK
  constructor
  · rw [div_self hk.ne']; simp [log10]
  · rw [mul_div_assoc]
    unfold log10
    rw [Real.logb_mul (by norm_num) (by positivity), Real.logb_self_eq_one (by norm_num)]; ring

/-- The constant model never has an `e_from_k`, so its plotting method always fails for a non-empty grid. -/
theorem C33_constant (ka e k : ℝ) (x : ℝ) (xs : List ℝ) : constKFromE ka e = .ok ka ∧ constEFromK ka k = .error .valueError ∧
    constForPlotting ka (x :: xs) = .error .valueError := ⟨rfl, rfl, rfl⟩

/-! # C34 Darcy -/

theorem npSign_pos {x : ℝ} (h : 0 < x) : npSign x = 1 := by
  unfold npSign; rw [if_neg (not_lt.2 h.le), if_neg h.ne']
theorem npSign_neg {x : ℝ} (h : x < 0) : npSign x = -1 := if_pos h
theorem npSign_zero : npSign 0 = 0 := by simp [npSign]
theorem npSign_odd (x : ℝ) : npSign (-x) = -npSign x := by
  rcases lt_trichotomy x 0 with h | h | h
  · rw [npSign_neg h, npSign_pos (by linarith)]; ring
  · subst h; simp [npSign]
  · rw [npSign_pos h, npSign_neg (by linarith)]

theorem C34_inverse (k : ℝ) (hk : k ≠ 0) (i v : ℝ) : darcyI k (darcyV k i) = i ∧ darcyV k (darcyI k v) = v := by
  unfold darcyI darcyV; constructor <;> field_simp

/-- For a positive gradient `dv_di` is the derivative of `v_from_i`. -/
theorem C34_slope_partial (k i : ℝ) (h : 0 < i) : HasDerivAt (darcyV k) (darcyDv k i) i := by
  unfold darcyV darcyDv
  rw [npSign_pos h]
  simpa using (hasDerivAt_id i).const_mul k

/-- For every gradient that is zero or negative it is not: the claim is false there. -/
theorem C34_negation (k i : ℝ) (hk : k ≠ 0) (h : i ≤ 0) : ¬ HasDerivAt (darcyV k) (darcyDv k i) i := by
  intro hd
  have h1 : HasDerivAt (darcyV k) k i := by unfold darcyV; simpa using (hasDerivAt_id i).const_mul k
  have := hd.unique h1
  unfold darcyDv at this
  rcases h.lt_or_eq with h | h
  · rw [npSign_neg h] at this; apply hk; linarith
  · subst h; rw [npSign_zero] at this; apply hk; linarith

/-! # C36 Cc/Cr -/

theorem logb_eq (x : ℝ) : log10 x = Real.log x / Real.log 10 := rfl

/-- Void ratio as a function of `ln`. -/
theorem CcCr_e (m : CcCr) (s : ℝ) (p : ℝ) (hs : 0 < s) (hp : 0 < p) (ha : 0 < m.siga) :
    m.eFromStress s (some p) = m.ea - m.Cc * log10 (p / m.siga) - (if s ≤ p then m.Cr else m.Cc) * log10 (s / p) := by
  unfold CcCr.eFromStress
  simp only [Option.getD_some]
  unfold log10
  split_ifs with h
  · rw [max_eq_left h, Real.logb_div hp.ne' hs.ne', Real.logb_div hs.ne' hp.ne']; ring
  · have h := (not_le.1 h).le
    rw [max_eq_right h, Real.logb_div hs.ne' hs.ne', Real.logb_div hs.ne' ha.ne', Real.logb_div hp.ne' ha.ne', Real.logb_div hs.ne' hp.ne']
    ring

theorem exp_fact {C x : ℝ} (hC : C ≠ 0) (hx : 0 < x) (D : ℝ) : Real.exp (fact * (D * log10 x) / C) = x ^ (D / C) := by
  rw [Real.rpow_def_of_pos hx]
  congr 1
  unfold fact
  rw [logb_eq]
  have := log10_pos.ne'
  field_simp

/-- `stress_from_e` inverts `e_from_stress` at every preconsolidation stress, when recompression is not softer than
compression (`Cr ≤ Cc`). -/
theorem C36_inverse_partial (m : CcCr) (hr : 0 < m.Cr) (hrc : m.Cr ≤ m.Cc) (ha : 0 < m.siga) (s p : ℝ) (hs : 0 < s) (hp : 0 < p) :
    m.stressFromE (m.eFromStress s (some p)) (some p) = s := by
  have hc : 0 < m.Cc := lt_of_lt_of_le hr hrc
  rw [CcCr_e m s p hs hp ha]
  unfold CcCr.stressFromE
  simp only
  have hx : 0 < s / p := by positivity
  have e1 : ∀ D, m.ea - m.Cc * log10 (p / m.siga) - (m.ea - m.Cc * log10 (p / m.siga) - D) = D := fun D => by ring
  rw [e1, exp_fact hc.ne' hx, exp_fact hr.ne' hx]
  split_ifs with h
  · have hle : s / p ≤ 1 := (div_le_one hp).2 h
    have h1 : m.Cr / m.Cc ≤ 1 := (div_le_one hc).2 hrc
    have h2 : (s/p) ^ (1:ℝ) ≤ (s/p) ^ (m.Cr / m.Cc) := Real.rpow_le_rpow_of_exponent_ge hx hle h1
    rw [div_self hr.ne']
    rw [min_eq_right (by gcongr), Real.rpow_one]
    field_simp; ring
  · have hge : 1 ≤ s / p := (one_le_div hp).2 (not_le.1 h).le
    have h1 : 1 ≤ m.Cc / m.Cr := (one_le_div hr).2 hrc
    have h2 : (s/p) ^ (1:ℝ) ≤ (s/p) ^ (m.Cc / m.Cr) := Real.rpow_le_rpow_of_exponent_le hge h1
    rw [div_self hc.ne']
    rw [min_eq_left (by gcongr), Real.rpow_one]
    field_simp; ring

/-- Without that condition the claim is false: whenever `Cc < Cr` and the stress is not the preconsolidation stress, a
different stress is returned. -/
theorem C36_negation (m : CcCr) (hc : 0 < m.Cc) (hrc : m.Cc < m.Cr) (ha : 0 < m.siga) (s p : ℝ) (hs : 0 < s) (hp : 0 < p) (hne : s ≠ p) :
    m.stressFromE (m.eFromStress s (some p)) (some p) < s := by
  have hr : 0 < m.Cr := lt_trans hc hrc
  rw [CcCr_e m s p hs hp ha]
  unfold CcCr.stressFromE
  simp only
  have hx : 0 < s / p := by positivity
  have e1 : ∀ D, m.ea - m.Cc * log10 (p / m.siga) - (m.ea - m.Cc * log10 (p / m.siga) - D) = D := fun D => by ring
  rw [e1, exp_fact hc.ne' hx, exp_fact hr.ne' hx]
  have hfin : ∀ y : ℝ, y < s / p → p + p * (y - 1) < s := fun y hy => by
    have := (lt_div_iff₀ hp).1 hy; linarith
  split_ifs with h
  · have hlt : s / p < 1 := (div_lt_one hp).2 (lt_of_le_of_ne h hne)
    have h1 : 1 < m.Cr / m.Cc := (one_lt_div hc).2 hrc
    have h2 : (s/p) ^ (m.Cr / m.Cc) < (s/p) ^ (1:ℝ) := Real.rpow_lt_rpow_of_exponent_gt hx hlt h1
    rw [Real.rpow_one] at h2
    refine lt_of_le_of_lt ?_ (hfin _ h2)
    gcongr; exact min_le_left _ _
  · have hgt : 1 < s / p := (one_lt_div hp).2 (not_le.1 h)
    have h1 : m.Cc / m.Cr < 1 := (div_lt_one hr).2 hrc
    have h2 : (s/p) ^ (m.Cc / m.Cr) < (s/p) ^ (1:ℝ) := Real.rpow_lt_rpow_of_exponent_lt hgt h1
    rw [Real.rpow_one] at h2
    refine lt_of_le_of_lt ?_ (hfin _ h2)
    gcongr; exact min_le_right _ _

/-- Normally consolidated (no `pstress`): both directions invert each other. -/
theorem C36_normally_consolidated (m : CcCr) (hc : m.Cc ≠ 0) (ha : 0 < m.siga) (s e : ℝ) (hs : 0 < s) :
    m.stressFromE (m.eFromStress s none) none = s ∧ m.eFromStress (m.stressFromE e none) none = e := by
  have e1 : ∀ t, 0 < t → m.eFromStress t none = m.ea - m.Cc * log10 (t / m.siga) := by
    intro t ht
    unfold CcCr.eFromStress
    simp only [Option.getD_none, max_self]
    rw [div_self ht.ne']
    simp [log10]
  constructor
  · rw [e1 s hs]
    unfold CcCr.stressFromE
    simp only
    rw [show m.ea - (m.ea - m.Cc * log10 (s / m.siga)) = m.Cc * log10 (s / m.siga) by ring, exp_fact hc (by positivity), div_self hc,
      Real.rpow_one]
    field_simp
  · have hpos : 0 < m.stressFromE e none := by unfold CcCr.stressFromE; positivity
    rw [e1 _ hpos]
    unfold CcCr.stressFromE
    simp only
    rw [mul_div_cancel_left₀ _ ha.ne', logb_eq, Real.log_exp]
    unfold fact
    have := log10_pos.ne'
    field_simp; ring

/-- The void ratio is strictly decreasing in the stress and continuous, also across the preconsolidation stress. -/
theorem C36_decreasing (m : CcCr) (hr : 0 < m.Cr) (hc : 0 < m.Cc) (ha : 0 < m.siga) (p : ℝ) (hp : 0 < p) :
    StrictAntiOn (fun s => m.eFromStress s (some p)) (Set.Ioi 0) ∧ ContinuousOn (fun s => m.eFromStress s (some p)) (Set.Ioi 0) := by
  constructor
  · intro s hs t ht hst
    have hs : 0 < s := hs
    have ht : 0 < t := ht
    simp only
    rw [CcCr_e m s p hs hp ha, CcCr_e m t p ht hp ha]
    have hl : log10 (s / p) < log10 (t / p) := Real.logb_lt_logb (by norm_num) (by positivity) (by gcongr)
    have sgn_le : ∀ {x}, 0 < x → x ≤ p → log10 (x / p) ≤ 0 := fun hx h =>
      Real.logb_nonpos (by norm_num) (by positivity) ((div_le_one hp).2 h)
    have sgn_ge : ∀ {x}, p < x → 0 < log10 (x / p) := fun h =>
      Real.logb_pos (by norm_num) ((one_lt_div hp).2 h)
    split_ifs with h1 h2 h2
    · have := mul_lt_mul_of_pos_left hl hr; linarith
    · linarith
    · have a1 := mul_nonpos_of_nonneg_of_nonpos hr.le (sgn_le hs h2)
      have a2 := mul_pos hc (sgn_ge (not_le.1 h1))
      linarith
    · have := mul_lt_mul_of_pos_left hl hc; linarith
  · unfold CcCr.eFromStress log10 Real.logb
    simp only [Option.getD_some]
    have h0 : ∀ s ∈ Set.Ioi (0:ℝ), (max p s) / m.siga ≠ 0 := fun s hs => by
      have : 0 < max p s := lt_max_of_lt_left hp
      positivity
    have h1 : ∀ s ∈ Set.Ioi (0:ℝ), (max p s) / s ≠ 0 := fun s hs => by
      have : 0 < max p s := lt_max_of_lt_left hp
      have hs : (0:ℝ) < s := hs
      positivity
    have h2 : ∀ s ∈ Set.Ioi (0:ℝ), s ≠ 0 := fun s hs => (Set.mem_Ioi.1 hs).ne'
    have hmax : Continuous (fun s : ℝ => max p s) := by fun_prop
    refine ContinuousOn.add (ContinuousOn.sub continuousOn_const (continuousOn_const.mul (ContinuousOn.div_const (ContinuousOn.log ?_ h0) _)))
      (continuousOn_const.mul (ContinuousOn.div_const (ContinuousOn.log ?_ h1) _))
    · exact (hmax.div_const _).continuousOn
    · exact hmax.continuousOn.div continuousOn_id h2

/-- `av_from_stress` is minus the slope of `e_from_stress`, away from the preconsolidation stress. -/
theorem C36_slope (m : CcCr) (ha : 0 < m.siga) (s p : ℝ) (hs : 0 < s) (hp : 0 < p) (hne : s ≠ p) :
    HasDerivAt (fun s => m.eFromStress s (some p)) (-(m.avFromStress s (some p))) s := by
  have hbase : ∀ D : ℝ, HasDerivAt (fun s => m.ea - m.Cc * log10 (p / m.siga) - D * log10 (s / p)) (-(1 / Real.log 10 * D / s)) s := by
    intro D
    unfold log10 Real.logb
    have h1 : HasDerivAt (fun s : ℝ => s / p) (1 / p) s := (hasDerivAt_id s).div_const p
    have h2 := (h1.log (by positivity)).div_const (Real.log 10)
    have h3 := (h2.const_mul D).const_sub (m.ea - m.Cc * (Real.log (p / m.siga) / Real.log 10))
    refine h3.congr_deriv ?_
    have := log10_pos.ne'
    field_simp
  unfold CcCr.avFromStress
  simp only [Option.getD_some]
  rcases lt_or_gt_of_ne hne with h | h
  · rw [if_pos (by linarith)]
    refine (hbase m.Cr).congr_of_eventuallyEq ?_
    filter_upwards [Ioo_mem_nhds hs h] with t ht
    rw [CcCr_e m t p ht.1 hp ha, if_pos ht.2.le]
  · rw [if_neg (by linarith)]
    refine (hbase m.Cc).congr_of_eventuallyEq ?_
    filter_upwards [Ioi_mem_nhds h] with t ht
    rw [CcCr_e m t p (lt_trans hp ht) hp ha, if_neg (not_le.2 ht)]

/-- Normally consolidated (no `pstress`): `av_from_stress` is minus the slope; and at the preconsolidation stress itself it is
minus the slope for further loading (the compression slope). -/
theorem C36_slope_loading (m : CcCr) (ha : 0 < m.siga) (s : ℝ) (hs : 0 < s) :
    HasDerivAt (fun s => m.eFromStress s none) (-(m.avFromStress s none)) s ∧
    HasDerivWithinAt (fun t => m.eFromStress t (some s)) (-(m.avFromStress s (some s))) (Set.Ici s) s := by
  have hbase : HasDerivAt (fun t => m.ea - m.Cc * log10 (t / m.siga)) (-(1 / Real.log 10 * m.Cc / s)) s := by
    unfold log10 Real.logb
    have h1 : HasDerivAt (fun t : ℝ => t / m.siga) (1 / m.siga) s := (hasDerivAt_id s).div_const m.siga
    have h2 := (h1.log (by positivity)).div_const (Real.log 10)
    have h3 := (h2.const_mul m.Cc).const_sub m.ea
    refine h3.congr_deriv ?_
    have := log10_pos.ne'
    field_simp
  have e1 : ∀ t, 0 < t → m.eFromStress t none = m.ea - m.Cc * log10 (t / m.siga) := by
    intro t ht
    unfold CcCr.eFromStress
    simp only [Option.getD_none, max_self]
    rw [div_self ht.ne']
    simp [log10]
  have e2 : ∀ t, s ≤ t → m.eFromStress t (some s) = m.ea - m.Cc * log10 (t / m.siga) := by
    intro t ht
    have ht0 := lt_of_lt_of_le hs ht
    unfold CcCr.eFromStress
    simp only [Option.getD_some, max_eq_right ht]
    rw [div_self ht0.ne']
    simp [log10]
  unfold CcCr.avFromStress
  simp only [Option.getD_none, Option.getD_some, sub_self, lt_irrefl, if_false]
  constructor
  · refine hbase.congr_of_eventuallyEq ?_
    filter_upwards [Ioi_mem_nhds hs] with t ht
    exact e1 t ht
  · exact hbase.hasDerivWithinAt.congr (fun t ht => e2 t ht) (e2 s le_rfl)

/-- The linear model: both directions invert each other. -/
theorem C36_linear (av siga ea : ℝ) (h : av ≠ 0) (s e : ℝ) : avStress av siga ea (avE av siga ea s) = s ∧ avE av siga ea (avStress av siga ea e) = e := by
  unfold avStress avE
  constructor <;> field_simp <;> ring

/-! Non-vacuity -/
example : ∃ m : CcCr, 0 < m.Cr ∧ m.Cr ≤ m.Cc ∧ 0 < m.siga := ⟨⟨3, 1/2, 10, 5⟩, by norm_num, by norm_num, by norm_num⟩
example : ∃ m : CkModel, 0 < m.Ck ∧ 0 < m.ka := ⟨⟨3/2, 10, 4⟩, by norm_num, by norm_num⟩

end Geotecha.Const
