import Verif.Consol.Deng
import Verif.Consol.SpecDeng
import Verif.Smear.PropsU
import Mathlib.Analysis.SpecialFunctions.Log.Deriv
import Mathlib.Analysis.SpecialFunctions.Pow.Deriv
import Mathlib.Analysis.SpecialFunctions.ExpDeriv
import Mathlib.Analysis.SpecialFunctions.Integrals.Basic
import Mathlib.Analysis.Calculus.Deriv.MeanValue
import Mathlib.MeasureTheory.Integral.IntervalIntegral.FundThmCalculus
import Mathlib.Tactic.FieldSimp
import Mathlib.Tactic.Ring
import Mathlib.Tactic.Linarith

/-!
# C127-C129: `dengetal2013`
-/

set_option linter.unusedVariables false
open Real MeasureTheory
namespace Geotecha.Consol
open Geotecha (PyErr)
open Geotecha.Smear
namespace Deng

/-- Sensible arguments: a drain inside its zone of influence, positive soil parameters, a smear zone (if any) around the drain, and a
discharge capacity that is positive above the bottom of the layer. -/
structure Valid (o : Deng) : Prop where
  hrw : 0 < o.rw
  hre : o.rw < o.re
  hH : 0 < o.H
  hkw : 0 < o.kw0
  hkh : 0 < o.kh
  hmv : 0 < o.mv
  hgw : 0 < o.gamw
  hA1 : 0 < o.A1
  hA2 : 0 ≤ o.A2
  hA12 : o.A2 ≤ o.A1
  hA3 : 0 ≤ o.A3
  hsm : ∀ rs ks, o.rs = some rs → o.ks = some ks → o.rw ≤ rs ∧ rs ≤ o.re ∧ 0 < ks

theorem n_gt (o : Deng) (h : o.Valid) : 1 < o.n := by
  unfold n
  rw [lt_div_iff₀ h.hrw, one_mul]
  exact h.hre

theorem mu0_pos (o : Deng) (h : o.Valid) : ∃ m, o.mu0 = .ok m ∧ 0 < m := by
  have hn := o.n_gt h
  have hid : ∃ m, muIdeal o.n = .ok m ∧ 0 < m :=
    ⟨_, (C69_ideal o.n).1 hn, mu_pos hn (isProfile_const o.n 1) 1 one_pos (fun _ _ _ => le_rfl)⟩
  unfold mu0
  cases hk : o.ks with
  | none => exact hid
  | some ks =>
    cases hr : o.rs with
    | none => exact hid
    | some rs =>
      obtain ⟨h1, h2, h3⟩ := h.hsm rs ks hr hk
      have hs1 : 1 ≤ rs / o.rw := by rw [le_div_iff₀ h.hrw]; linarith
      have hs2 : rs / o.rw ≤ o.n := div_le_div_of_nonneg_right h2 h.hrw.le
      have hkap : 0 < o.kh / ks := div_pos h.hkh h3
      refine ⟨_, C69_constant _ _ _ hn hs1 hs2 hkap, ?_⟩
      refine mu_pos hn (isProfile_constant hs1 (by linarith)) (min (o.kh / ks) 1) (lt_min hkap one_pos) ?_
      intro x _ _
      unfold constantSmear
      split_ifs
      · exact min_le_left _ _
      · exact min_le_right _ _

theorem ch_pos (o : Deng) (h : o.Valid) : 0 < o.ch := div_pos (div_pos h.hkh h.hmv) h.hgw

theorem qw0_pos (o : Deng) (h : o.Valid) : 0 < o.qw0 := by
  unfold qw0
  have := h.hkw; have := h.hrw
  positivity

/-- Depths at which the code gives a number. -/
structure GoodDepth (o : Deng) (z : ℝ) : Prop where
  h0 : 0 ≤ z
  hH : z ≤ o.H
  htop : 0 < o.A3 → 0 < z
  hbot : o.A2 = o.A1 → z < o.H

/-- Depth part of the well resistance. -/
noncomputable def K (o : Deng) (z : ℝ) : ℝ := ∫ y in (0 : ℝ)..z, (o.H - y) / (o.A1 - o.A2 * y / o.H)

theorem den_pos (o : Deng) (h : o.Valid) {z : ℝ} (hz : z ≤ o.H) (hb : o.A2 = o.A1 → z < o.H) : 0 < o.A1 - o.A2 * z / o.H := by
  have h1 := h.hH; have h2 := h.hA1; have h3 := h.hA2
  rw [sub_pos, div_lt_iff₀ h1]
  rcases eq_or_lt_of_le h.hA12 with e | e
  · rw [e]
    exact mul_lt_mul_of_pos_left (hb e) h2
  · calc o.A2 * z ≤ o.A2 * o.H := mul_le_mul_of_nonneg_left hz h3
      _ < o.A1 * o.H := mul_lt_mul_of_pos_right e h1

theorem K_cont (o : Deng) (h : o.Valid) {z : ℝ} (h0 : 0 ≤ z) (hz : z ≤ o.H) (hb : o.A2 = o.A1 → z < o.H) :
    IntervalIntegrable (fun y => (o.H - y) / (o.A1 - o.A2 * y / o.H)) volume 0 z := by
  apply ContinuousOn.intervalIntegrable
  apply ContinuousOn.div (by fun_prop) (by fun_prop)
  intro y hy
  rw [Set.uIcc_of_le h0] at hy
  exact (o.den_pos h (hy.2.trans hz) (fun e => lt_of_le_of_lt hy.2 (hb e))).ne'

theorem K_pos (o : Deng) (h : o.Valid) {z : ℝ} (h0 : 0 < z) (hz : z ≤ o.H) (hb : o.A2 = o.A1 → z < o.H) : 0 < o.K z := by
  apply intervalIntegral.intervalIntegral_pos_of_pos_on (o.K_cont h h0.le hz hb) _ h0
  intro y hy
  exact div_pos (by linarith [hy.2]) (o.den_pos h (by linarith [hy.2]) (fun e => by linarith [hy.2]))

theorem K_nonneg (o : Deng) (h : o.Valid) {z : ℝ} (h0 : 0 ≤ z) (hz : z ≤ o.H) (hb : o.A2 = o.A1 → z < o.H) : 0 ≤ o.K z := by
  rcases eq_or_lt_of_le h0 with e | e
  · rw [← e]; unfold K; simp
  · exact (o.K_pos h e hz hb).le

theorem K_const (o : Deng) (h : o.Valid) (hA : o.A2 = 0) (z : ℝ) : o.K z = (2 * o.H * z - z ^ 2) / (2 * o.A1) := by
  have h1 := h.hA1.ne'
  have hF : ∀ y ∈ Set.uIcc 0 z, HasDerivAt (fun y => (2 * o.H * y - y ^ 2) / (2 * o.A1)) ((o.H - y) / (o.A1 - o.A2 * y / o.H)) y := by
    intro y _
    refine ((((hasDerivAt_id y).const_mul (2 * o.H)).sub (hasDerivAt_pow 2 y)).div_const (2 * o.A1)).congr_deriv ?_
    rw [hA]
    simp
    field_simp
  have hi : IntervalIntegrable (fun y => (o.H - y) / (o.A1 - o.A2 * y / o.H)) volume 0 z := by
    rw [hA]
    apply Continuous.intervalIntegrable
    simp
    fun_prop
  unfold K
  rw [intervalIntegral.integral_eq_sub_of_hasDerivAt hF hi]
  simp

theorem log_arg (o : Deng) (h : o.Valid) (z : ℝ) : 1 - o.A2 / o.A1 * z / o.H = (o.A1 - o.A2 * z / o.H) / o.A1 := by
  have h1 := h.hA1.ne'; have h2 := h.hH.ne'
  field_simp

theorem K_depth (o : Deng) (h : o.Valid) (hA : 0 < o.A2) {z : ℝ} (h0 : 0 ≤ z) (hz : z ≤ o.H) (hb : o.A2 = o.A1 → z < o.H) :
    o.K z = o.H ^ 2 / o.A2 ^ 2 * o.depthFn z := by
  have h1 := h.hA1.ne'; have h2 := h.hH.ne'
  have hF : ∀ y ∈ Set.uIcc 0 z, HasDerivAt (fun y => o.H ^ 2 / o.A2 ^ 2 * o.depthFn y) ((o.H - y) / (o.A1 - o.A2 * y / o.H)) y := by
    intro y hy
    rw [Set.uIcc_of_le h0] at hy
    have hd := o.den_pos h (hy.2.trans hz) (fun e => lt_of_le_of_lt hy.2 (hb e))
    have hlog : HasDerivAt (fun y => log (1 - o.A2 / o.A1 * y / o.H)) (-(o.A2 / o.A1 / o.H) / (1 - o.A2 / o.A1 * y / o.H)) y := by
      apply HasDerivAt.log
      · refine ((((hasDerivAt_id y).const_mul (o.A2 / o.A1)).div_const o.H).const_sub 1).congr_deriv ?_
        simp
      · rw [o.log_arg h]; exact (div_pos hd h.hA1).ne'
    have hlin : HasDerivAt (fun y => o.A2 * y / o.H) (o.A2 / o.H) y := by
      refine (((hasDerivAt_id y).const_mul o.A2).div_const o.H).congr_deriv ?_
      simp
    refine ((hlin.add (hlog.const_mul (o.A1 - o.A2))).const_mul (o.H ^ 2 / o.A2 ^ 2)).congr_deriv ?_
    rw [o.log_arg h]
    have hd' : o.A1 - o.A2 * y / o.H ≠ 0 := hd.ne'
    have e : o.A1 - o.A2 * y / o.H = (o.A1 * o.H - o.A2 * y) / o.H := by field_simp
    rw [e] at hd' ⊢
    have hd2 : o.A1 * o.H - o.A2 * y ≠ 0 := fun hc => hd' (by rw [hc]; simp)
    have hA' := hA.ne'
    obtain ⟨D, hD⟩ : ∃ D, D = o.A1 * o.H - o.A2 * y := ⟨_, rfl⟩
    have hy' : o.H - y = (D - (o.A1 - o.A2) * o.H) / o.A2 := by rw [hD]; field_simp; ring
    rw [hy', ← hD]
    rw [← hD] at hd2
    field_simp
    ring
  unfold K
  rw [intervalIntegral.integral_eq_sub_of_hasDerivAt hF (o.K_cont h h0 hz hb)]
  unfold depthFn
  simp

theorem resist_eq (o : Deng) (h : o.Valid) (z t : ℝ) :
    Spec.wellResistance o.kh o.H (fun y => Spec.qw o.kw0 o.rw o.A1 o.A2 o.A3 o.H y t) z = 2 * π * o.kh / o.qw0 * o.K z * exp (o.A3 * t) := by
  have h1 := (o.qw0_pos h).ne'
  unfold Spec.wellResistance Spec.qw K
  have : ∀ y, (o.H - y) / (o.kw0 * (o.A1 - o.A2 * y / o.H) * exp (-o.A3 * t) * (π * o.rw ^ 2)) =
      exp (o.A3 * t) / o.qw0 * ((o.H - y) / (o.A1 - o.A2 * y / o.H)) := by
    intro y
    unfold qw0
    rw [neg_mul, exp_neg]
    have := exp_ne_zero (o.A3 * t)
    rw [div_mul_div_comm]
    have e : o.kw0 * (o.A1 - o.A2 * y / o.H) * (exp (o.A3 * t))⁻¹ * (π * o.rw ^ 2) =
      (o.kw0 * π * o.rw ^ 2 * (o.A1 - o.A2 * y / o.H)) / exp (o.A3 * t) := by field_simp
    rw [e, div_div_eq_mul_div]
    ring
  simp only [this]
  rw [intervalIntegral.integral_const_mul]
  ring

theorem Th_hasDeriv (o : Deng) (t : ℝ) : HasDerivAt o.Th (o.ch / 4 / o.re ^ 2) t := by
  have : HasDerivAt (fun t => o.ch * t / 4 / o.re ^ 2) (o.ch * 1 / 4 / o.re ^ 2) t :=
    (((hasDerivAt_id t).const_mul o.ch).div_const 4).div_const (o.re ^ 2)
  rw [mul_one] at this
  exact this

theorem hansbo_exp (o : Deng) (h : o.Valid) (mu : ℝ) : Spec.IsHansbo o.ch o.re o.ui (fun _ => mu) fun t => o.ui * exp (-8 * o.Th t / mu) := by
  refine ⟨by simp [Th], fun t => ?_⟩
  refine ((((o.Th_hasDeriv t).const_mul (-8)).div_const mu).exp.const_mul o.ui).congr_deriv ?_
  ring

theorem hansbo_alp (o : Deng) (h : o.Valid) (hA3 : 0 < o.A3) (m W : ℝ) (hm : 0 < m) (hW : 0 < W) :
    Spec.IsHansbo o.ch o.re o.ui (fun t => m + W * exp (o.A3 * t)) (o.porAlp m (m / W)) := by
  have hc := o.ch_pos h
  have hre : 0 < o.re := h.hrw.trans h.hre
  have ha : 0 < m / W := div_pos hm hW
  have hx : ∀ t, o.a3 * o.Th t = o.A3 * t := by
    intro t
    unfold a3 Th
    have := hc.ne'; have := hre.ne'
    field_simp
  constructor
  · unfold porAlp
    have : -o.a3 * o.Th 0 = 0 := by rw [neg_mul, hx]; simp
    rw [this, exp_zero, mul_one, div_self (by positivity), one_rpow, mul_one]
  · intro t
    have hf : o.porAlp m (m / W) = fun t => o.ui * ((1 + m / W * exp (-(o.A3 * t))) / (1 + m / W)) ^ (8 / (o.a3 * m)) := by
      funext t
      unfold porAlp
      rw [neg_mul, hx]
    rw [hf]
    have hb : HasDerivAt (fun t => (1 + m / W * exp (-(o.A3 * t))) / (1 + m / W)) (m / W * (exp (-(o.A3 * t)) * -o.A3) / (1 + m / W)) t := by
      have : HasDerivAt (fun t => -(o.A3 * t)) (-o.A3) t := by
        have := ((hasDerivAt_id t).const_mul o.A3).fun_neg
        simpa using this
      exact ((this.exp.const_mul (m / W)).const_add 1).div_const _
    have hpos : 0 < (1 + m / W * exp (-(o.A3 * t))) / (1 + m / W) := by positivity
    refine ((hb.rpow_const (.inl hpos.ne')).const_mul o.ui).congr_deriv ?_
    have hr : ((1 + m / W * exp (-(o.A3 * t))) / (1 + m / W)) ^ (8 / (o.a3 * m) - 1) =
        ((1 + m / W * exp (-(o.A3 * t))) / (1 + m / W)) ^ (8 / (o.a3 * m)) / ((1 + m / W * exp (-(o.A3 * t))) / (1 + m / W)) := rpow_sub_one hpos.ne' _
    rw [hr]
    have hexp : exp (-(o.A3 * t)) = (exp (o.A3 * t))⁻¹ := exp_neg _
    dsimp only
    generalize ((1 + m / W * exp (-(o.A3 * t))) / (1 + m / W)) ^ (8 / (o.a3 * m)) = P
    rw [hexp]
    have hE := exp_pos (o.A3 * t)
    generalize exp (o.A3 * t) = E at *
    have h1 : 1 + m / W * E⁻¹ = (W * E + m) / (W * E) := by field_simp
    have h2 : 1 + m / W = (W + m) / W := by field_simp
    rw [h1, h2]
    unfold a3
    have := hc.ne'; have := hre.ne'; have := hA3.ne'; have := hm.ne'; have := hW.ne'; have := hE.ne'
    have h3 : W * E + m ≠ 0 := by positivity
    have h4 : m + W * E ≠ 0 := by positivity
    have h5 : W + m ≠ 0 := by positivity
    have h6 : m + W * E = W * E + m := add_comm _ _
    rw [h6]
    field_simp
    ring

/-- At every depth inside the layer (below the top when the capacity varies with time, above the bottom when it vanishes there) the function
returns the solution of Hansbo's equation with the well resistance of the drain of the documentation. -/
theorem C127_solution (o : Deng) (h : o.Valid) : ∃ m, o.mu0 = .ok m ∧ 0 < m ∧ ∃ u : ℝ → ℝ → ℝ,
    (∀ z, o.GoodDepth z → Spec.IsHansbo o.ch o.re o.ui
      (fun t => m + Spec.wellResistance o.kh o.H (fun y => Spec.qw o.kw0 o.rw o.A1 o.A2 o.A3 o.H y t) z) (u z)) ∧
    ∀ zs ts : List ℝ, (∀ z ∈ zs, o.GoodDepth z) → o.call zs ts = .ok (some (zs.map fun z => ts.map fun t => some (u z t))) := by
  obtain ⟨m, hm, hmp⟩ := o.mu0_pos h
  have hA1 := h.hA1; have hq := o.qw0_pos h
  have hkh := h.hkh
  have key : ∀ z, o.GoodDepth z → ∃ v : ℝ → ℝ, Spec.IsHansbo o.ch o.re o.ui
      (fun t => m + Spec.wellResistance o.kh o.H (fun y => Spec.qw o.kw0 o.rw o.A1 o.A2 o.A3 o.H y t) z) v ∧ ∀ t, o.entry m z t = some (v t) := by
    intro z hz
    simp only [o.resist_eq h]
    by_cases hA3 : o.A3 = 0
    · simp only [hA3, zero_mul, exp_zero, mul_one]
      by_cases hA2 : o.A2 = 0
      · refine ⟨_, o.hansbo_exp h _, fun t => ?_⟩
        unfold entry
        rw [if_pos ⟨hA3, hA2⟩]
        unfold porConst
        rw [o.K_const h hA2]
        dsimp only
        congr 5
        field_simp
      · have hA2' : 0 < o.A2 := lt_of_le_of_ne h.hA2 (Ne.symm hA2)
        refine ⟨_, o.hansbo_exp h _, fun t => ?_⟩
        unfold entry
        rw [if_neg (fun hc => hA2 hc.2), if_pos ⟨hA3, hA2'⟩, if_neg (by
          rw [o.log_arg h, not_le]; exact div_pos (o.den_pos h hz.hH hz.hbot) hA1)]
        unfold porDepth
        rw [o.K_depth h hA2' hz.h0 hz.hH hz.hbot]
        dsimp only
        congr 4
        field_simp
        ring
    · have hA3' : 0 < o.A3 := lt_of_le_of_ne h.hA3 (Ne.symm hA3)
      have hz0 := hz.htop hA3'
      have hK := o.K_pos h hz0 hz.hH hz.hbot
      have hW : 0 < 2 * π * o.kh / o.qw0 * o.K z := by positivity
      refine ⟨_, o.hansbo_alp h hA3' m _ hmp hW, fun t => ?_⟩
      unfold entry
      rw [if_neg (fun hc => hA3 hc.1), if_neg (fun hc => hA3 hc.1)]
      by_cases hA2 : o.A2 = 0
      · have hne : 2 * o.H * z - z ^ 2 ≠ 0 := by
          have h1 := hz.hH
          have : 0 < z * (2 * o.H - z) := by apply mul_pos hz0; linarith
          have h2 : 2 * o.H * z - z ^ 2 = z * (2 * o.H - z) := by ring
          rw [h2]
          exact this.ne'
        rw [if_pos ⟨hA3', hA2⟩, if_neg hne]
        congr 2
        unfold alpTime
        rw [o.K_const h hA2]
        field_simp
      · have hA2' : 0 < o.A2 := lt_of_le_of_ne h.hA2 (Ne.symm hA2)
        have hKd := o.K_depth h hA2' hz.h0 hz.hH hz.hbot
        have hne : o.depthFn z ≠ 0 := by
          intro hc
          rw [hKd, hc, mul_zero] at hK
          exact lt_irrefl _ hK
        rw [if_neg (fun hc => hA2 hc.2), if_neg (by
          rw [o.log_arg h, not_le]; exact div_pos (o.den_pos h hz.hH hz.hbot) hA1), if_neg hne]
        congr 2
        unfold alpDepthTime
        rw [hKd]
        have := h.hH.ne'
        field_simp
  classical
  refine ⟨m, hm, hmp, fun z => if hz : o.GoodDepth z then (key z hz).choose else fun _ => 0, fun z hz => ?_, fun zs ts hzs => ?_⟩
  · simp only [hz, dif_pos]
    exact (key z hz).choose_spec.1
  · unfold call
    rw [if_neg (not_lt.2 hA1.le), if_neg (not_lt.2 h.hA12), if_neg (not_lt.2 h.hA3), hm]
    dsimp only
    rw [if_neg (not_lt.2 h.hA2), if_neg (fun hc => hA1.ne' hc.1)]
    congr 2
    refine List.map_congr_left fun z hz => List.map_congr_left fun t _ => ?_
    simp only [hzs z hz, dif_pos]
    exact (key z (hzs z hz)).choose_spec.2 t

/-! ## C128 -/

/-- Consequences of Hansbo's equation with a resistance that is at least `m`. -/
theorem hansbo_bounds {ch re ui m : ℝ} (hch : 0 < ch) (hre : 0 < re) (hui : 0 ≤ ui) (hm : 0 < m) {mu u : ℝ → ℝ} (hmu : ∀ t, m ≤ mu t)
    (hu : Spec.IsHansbo ch re ui mu u) (hnn : ∀ t, 0 ≤ u t) :
    (∀ s t, s ≤ t → u t ≤ u s) ∧ ∀ t, 0 ≤ t → ui * exp (-(2 * ch / (re ^ 2 * m)) * t) ≤ u t ∧ u t ≤ ui := by
  have hanti : Antitone u := by
    apply antitone_of_deriv_nonpos (fun t => (hu.2 t).differentiableAt)
    intro t
    rw [(hu.2 t).deriv]
    have h1 : 0 ≤ u t / mu t := div_nonneg (hnn t) (hm.le.trans (hmu t))
    have h2 : 0 < 2 * ch / re ^ 2 := by positivity
    nlinarith
  refine ⟨fun s t h => hanti h, fun t ht => ⟨?_, (hanti ht).trans hu.1.le⟩⟩
  have hmono : Monotone fun t => u t * exp (2 * ch / (re ^ 2 * m) * t) := by
    have hd : ∀ t, HasDerivAt (fun t => u t * exp (2 * ch / (re ^ 2 * m) * t))
        (-(2 * ch / re ^ 2) * (u t / mu t) * exp (2 * ch / (re ^ 2 * m) * t) + u t * (exp (2 * ch / (re ^ 2 * m) * t) * (2 * ch / (re ^ 2 * m)))) t := by
      intro t
      have : HasDerivAt (fun t => 2 * ch / (re ^ 2 * m) * t) (2 * ch / (re ^ 2 * m)) t := by
        simpa using (hasDerivAt_id t).const_mul (2 * ch / (re ^ 2 * m))
      exact (hu.2 t).mul this.exp
    apply monotone_of_deriv_nonneg (fun t => (hd t).differentiableAt)
    intro t
    rw [(hd t).deriv]
    have h1 : u t / mu t ≤ u t / m := div_le_div_of_nonneg_left (hnn t) hm (hmu t)
    have h2 : 0 < 2 * ch / re ^ 2 := by positivity
    have h3 : 2 * ch / (re ^ 2 * m) * u t = 2 * ch / re ^ 2 * (u t / m) := by field_simp
    have hE := exp_pos (2 * ch / (re ^ 2 * m) * t)
    have : 0 ≤ exp (2 * ch / (re ^ 2 * m) * t) * (2 * ch / re ^ 2 * (u t / m) - 2 * ch / re ^ 2 * (u t / mu t)) := by
      apply mul_nonneg hE.le
      rw [← mul_sub]
      exact mul_nonneg h2.le (by linarith)
    rw [← h3] at this
    nlinarith
  have := hmono ht
  simp only [mul_zero, exp_zero, mul_one, hu.1] at this
  rw [neg_mul, exp_neg, ← div_eq_mul_inv, div_le_iff₀ (exp_pos _)]
  exact this

/-- What the function returns stays between `ui` and what an ideal drain (no well resistance) would leave, and never rises. -/
theorem C128_bounds (o : Deng) (h : o.Valid) (hui : 0 ≤ o.ui) (z : ℝ) (hz : o.GoodDepth z) : ∃ m, o.mu0 = .ok m ∧ ∃ v : ℝ → ℝ,
    (∀ ts, o.call [z] ts = .ok (some [ts.map fun t => some (v t)])) ∧ (∀ s t, s ≤ t → v t ≤ v s) ∧
    ∀ t, 0 ≤ t → o.ui * exp (-(2 * o.ch / (o.re ^ 2 * m)) * t) ≤ v t ∧ v t ≤ o.ui := by
  obtain ⟨m, hm, hmp, u, hu, hc⟩ := o.C127_solution h
  refine ⟨m, hm, u z, fun ts => by simpa using hc [z] ts (by simpa using hz), ?_⟩
  refine hansbo_bounds (o.ch_pos h) (h.hrw.trans h.hre) hui hmp (fun t => ?_) (hu z hz) ?_
  · rw [o.resist_eq h]
    have := o.K_nonneg h hz.h0 hz.hH hz.hbot
    have := o.qw0_pos h
    have := h.hkh
    have : 0 ≤ 2 * π * o.kh / o.qw0 * o.K z * exp (o.A3 * t) := by positivity
    linarith
  · intro t
    have hcall := hc [z] [t] (by simpa using hz)
    unfold call at hcall
    rw [if_neg (not_lt.2 h.hA1.le), if_neg (not_lt.2 h.hA12), if_neg (not_lt.2 h.hA3), hm] at hcall
    dsimp only at hcall
    rw [if_neg (not_lt.2 h.hA2), if_neg (fun hc => h.hA1.ne' hc.1)] at hcall
    simp only [List.map_cons, List.map_nil, Except.ok.injEq, Option.some.injEq, List.cons.injEq, and_true] at hcall
    have hnn : ∀ x, o.entry m z t = some x → 0 ≤ x := by
      intro x hx
      unfold entry at hx
      have e1 : ∀ w : ℝ, 0 ≤ o.ui * exp w := fun w => mul_nonneg hui (exp_pos _).le
      split_ifs at hx with c1 c2 c3 c4 c5 c6
      · rw [← Option.some.inj hx]; exact e1 _
      · rw [← Option.some.inj hx]; exact e1 _
      · rw [← Option.some.inj hx]
        unfold porAlp
        refine mul_nonneg hui (rpow_nonneg ?_ _)
        have : 0 ≤ o.alpTime m z := by
          unfold alpTime
          have h1 := o.qw0_pos h; have h2 := h.hA1; have h3 := h.hkh
          have h4 : 0 ≤ 2 * o.H * z - z ^ 2 := by nlinarith [hz.h0, hz.hH]
          positivity
        positivity
      · rw [← Option.some.inj hx]
        unfold porAlp
        refine mul_nonneg hui (rpow_nonneg ?_ _)
        have hA3 : o.A3 ≠ 0 := by
          intro hc
          rcases eq_or_lt_of_le h.hA2 with e | e
          · exact c1 ⟨hc, e.symm⟩
          · exact c2 ⟨hc, e⟩
        have hA3' : 0 < o.A3 := lt_of_le_of_ne h.hA3 (Ne.symm hA3)
        have hA2 : 0 < o.A2 := by
          rcases eq_or_lt_of_le h.hA2 with e | e
          · exact absurd ⟨hA3', e.symm⟩ c4
          · exact e
        have hK := o.K_pos h (hz.htop hA3') hz.hH hz.hbot
        rw [o.K_depth h hA2 hz.h0 hz.hH hz.hbot] at hK
        have hd : 0 < o.depthFn z := by
          have : 0 < o.H ^ 2 / o.A2 ^ 2 := by have := h.hH; positivity
          exact (mul_pos_iff_of_pos_left this).1 hK
        have : 0 ≤ o.alpDepthTime m z := by
          unfold alpDepthTime
          have h1 := o.qw0_pos h; have h2 := h.hH; have h3 := h.hkh
          positivity
        positivity
    exact hnn _ hcall

/-! ## C129: accepted arguments for which there is no number -/

theorem call_valid (o : Deng) (h : o.Valid) {m : ℝ} (hm : o.mu0 = .ok m) (zs ts : List ℝ) :
    o.call zs ts = .ok (some (zs.map fun z => ts.map fun t => o.entry m z t)) := by
  unfold call
  rw [if_neg (not_lt.2 h.hA1.le), if_neg (not_lt.2 h.hA12), if_neg (not_lt.2 h.hA3), hm]
  dsimp only
  rw [if_neg (not_lt.2 h.hA2), if_neg (fun hc => h.hA1.ne' hc.1)]

/-- Every other depth of the layer gives a nan: the top when the capacity decays in time (where the drain is ideal and the answer should be
`ui e^(-8 Th/mu)`), and the bottom when the capacity vanishes there. -/
theorem C129_nan_partial (o : Deng) (h : o.Valid) (z : ℝ) (h0 : 0 ≤ z) (hH : z ≤ o.H) (hbad : ¬ o.GoodDepth z) (ts : List ℝ) :
    (0 < o.A3 ∧ z = 0 ∨ o.A2 = o.A1 ∧ z = o.H) ∧ o.call [z] ts = .ok (some [ts.map fun _ => none]) := by
  have hcase : 0 < o.A3 ∧ z = 0 ∨ o.A2 = o.A1 ∧ z = o.H := by
    by_contra hc
    push Not at hc
    exact hbad ⟨h0, hH, fun ha => lt_of_le_of_ne h0 (Ne.symm (hc.1 ha)), fun ha => lt_of_le_of_ne hH (hc.2 ha)⟩
  refine ⟨hcase, ?_⟩
  obtain ⟨m, hm, hmp⟩ := o.mu0_pos h
  rw [o.call_valid h hm]
  have hnone : ∀ t, o.entry m z t = none := by
    intro t
    unfold entry
    have hA1 := h.hA1.ne'; have hHn := h.hH.ne'
    rcases hcase with ⟨ha, rfl⟩ | ⟨ha, rfl⟩
    · rw [if_neg (fun hc => ha.ne' hc.1), if_neg (fun hc => ha.ne' hc.1)]
      by_cases hA2 : o.A2 = 0
      · rw [if_pos ⟨ha, hA2⟩, if_pos (by ring)]
      · rw [if_neg (fun hc => hA2 hc.2)]
        rw [if_neg (by norm_num), if_pos (by unfold depthFn; simp)]
    · have hp : 0 < o.A2 := ha ▸ h.hA1
      have harg : 1 - o.A2 / o.A1 * o.H / o.H ≤ 0 := by rw [ha, div_self hA1, one_mul, div_self hHn]; norm_num
      rw [if_neg (fun hc => hp.ne' hc.2)]
      by_cases hA3 : o.A3 = 0
      · rw [if_pos ⟨hA3, hp⟩, if_pos harg]
      · rw [if_neg (fun hc => hA3 hc.1), if_neg (fun hc => hp.ne' hc.2), if_pos harg]
  simp [hnone]

/-- A negative `A2` (capacity growing with depth) is accepted but nothing is computed: the function returns `None`. -/
theorem C129_none_partial (o : Deng) (m : ℝ) (hm : o.mu0 = .ok m) (h1 : 0 ≤ o.A1) (h2 : o.A2 < 0) (h3 : 0 ≤ o.A3) (zs ts : List ℝ) :
    o.call zs ts = .ok none := by
  unfold call
  rw [if_neg (not_lt.2 h1), if_neg (by linarith), if_neg (not_lt.2 h3), hm]
  dsimp only
  rw [if_pos h2]

/-- What is refused. -/
theorem C129_refused (o : Deng) (zs ts : List ℝ) (h : o.A1 < 0 ∨ o.A1 < o.A2 ∨ o.A3 < 0 ∨ o.re / o.rw ≤ 1) : o.call zs ts = .error .valueError := by
  unfold call
  by_cases h1 : o.A1 < 0
  · rw [if_pos h1]
  by_cases h2 : o.A1 < o.A2
  · rw [if_neg h1, if_pos h2]
  by_cases h3 : o.A3 < 0
  · rw [if_neg h1, if_neg h2, if_pos h3]
  · rw [if_neg h1, if_neg h2, if_neg h3]
    have hn : o.n ≤ 1 := by
      rcases h with h | h | h | h
      · exact absurd h h1
      · exact absurd h h2
      · exact absurd h h3
      · exact h
    have hid : muIdeal o.n = .error .valueError := (C69_ideal o.n).2 hn
    have : o.mu0 = .error .valueError := by
      unfold mu0
      cases o.ks with
      | none => exact hid
      | some ks =>
        cases o.rs with
        | none => exact hid
        | some rs =>
          show muConstant _ _ _ = _
          unfold muConstant
          rw [if_pos (.inl hn)]
    rw [this]

/-- The example at the foot of the file (dengetal2013and2014.py:274-286) with a capacity that varies with depth and time. -/
example : (⟨0.035, 0.525, 1, 0.1, 0.5, 20, some 0.175, some (2e-8 / 1.8), 1e-3, 2e-8, 0.2e-3, 10, 1⟩ : Deng).Valid ∧
    (⟨0.035, 0.525, 1, 0.1, 0.5, 20, some 0.175, some (2e-8 / 1.8), 1e-3, 2e-8, 0.2e-3, 10, 1⟩ : Deng).GoodDepth 20 := by
  constructor
  · constructor <;> norm_num
  · constructor <;> norm_num

/-- One that meets the hypotheses of `C129_nan_partial` twice: top and bottom. -/
example : ¬ (⟨0.035, 0.525, 1, 1, 0.5, 20, none, none, 1e-3, 2e-8, 0.2e-3, 10, 1⟩ : Deng).GoodDepth 0 ∧
    ¬ (⟨0.035, 0.525, 1, 1, 0.5, 20, none, none, 1e-3, 2e-8, 0.2e-3, 10, 1⟩ : Deng).GoodDepth 20 :=
  ⟨fun h => lt_irrefl _ (h.htop (by norm_num)), fun h => lt_irrefl _ (h.hbot rfl)⟩

end Deng
end Geotecha.Consol
