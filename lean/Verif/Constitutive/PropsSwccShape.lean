import Verif.Constitutive.PropsSwcc
import Mathlib.Analysis.SpecialFunctions.Pow.Continuity
import Mathlib.Topology.Algebra.Order.Field

set_option linter.unusedVariables false
namespace Geotecha.Const
open Filter Topology

/-! # C99: shape of the water content curve -/

theorem corr_end {psir : ℝ} (hr : 0 < psir) : corrFactor psir none 1000000 = 0 := by
  have := (logend_pos hr).ne'
  simp only [corrFactor]
  rw [div_self this, sub_self]

theorem corr_anti {psir : ℝ} (hr : 0 < psir) : StrictAntiOn (corrFactor psir none) (Set.Ici 0) := by
  intro x hx y hy h
  have hx : 0 ≤ x := hx
  simp only [corrFactor]
  have : Real.log (1 + x / psir) < Real.log (1 + y / psir) := by
    apply Real.log_lt_log
    · positivity
    · have := div_lt_div_of_pos_right h hr
      linarith
  have := div_lt_div_of_pos_right this (logend_pos hr)
  linarith

theorem corr_zero (psir : ℝ) : corrFactor psir none 0 = 1 := by simp [corrFactor]

theorem corr_tendsto {psir : ℝ} (hr : 0 < psir) : Tendsto (corrFactor psir none) (𝓝[>] 0) (𝓝 1) := by
  have h : ContinuousAt (corrFactor psir none) 0 := by
    have : corrFactor psir none = fun x => 1 - Real.log (1 + x / psir) / Real.log (1 + 1000000 / psir) := rfl
    rw [this]
    have h1 : ContinuousAt (fun x : ℝ => Real.log (1 + x / psir)) 0 :=
      ContinuousAt.log (by fun_prop) (by norm_num)
    exact continuousAt_const.sub (h1.div_const _)
  have := h.tendsto
  rw [corr_zero] at this
  exact this.mono_left nhdsWithin_le_nhds

/-- the denominator of Fredlund-Xing -/
noncomputable def FX.den (s : FX) (psi : ℝ) : ℝ := Real.log (Real.exp 1 + (psi / s.a) ^ s.n) ^ s.m

theorem FX.den_gt {s : FX} (ha : 0 < s.a) (hm : 0 < s.m) {psi : ℝ} (hp : 0 < psi) : 1 < s.den psi :=
  Real.one_lt_rpow (FXlog_pos ha hp) hm

theorem FX.den_mono {s : FX} (ha : 0 < s.a) (hn : 0 < s.n) (hm : 0 < s.m) : StrictMonoOn s.den (Set.Ioi 0) := by
  intro x hx y hy h
  have hx : 0 < x := hx
  have hy : 0 < y := hy
  have h1 : (x / s.a) ^ s.n < (y / s.a) ^ s.n :=
    Real.rpow_lt_rpow (by positivity) (div_lt_div_of_pos_right h ha) hn
  have h0 : 0 < (x / s.a) ^ s.n := Real.rpow_pos_of_pos (by positivity) _
  refine Real.rpow_lt_rpow (by linarith [FXlog_pos (n := s.n) ha hx]) ?_ hm
  exact Real.log_lt_log (by linarith [Real.exp_pos 1]) (by linarith)

theorem FX.den_tendsto {s : FX} (ha : 0 < s.a) (hn : 0 < s.n) : Tendsto s.den (𝓝[>] 0) (𝓝 1) := by
  have h : ContinuousAt s.den 0 := by
    unfold FX.den
    have h1 : ContinuousAt (fun x : ℝ => (x / s.a) ^ s.n) 0 :=
      ContinuousAt.rpow_const (by fun_prop) (Or.inr hn.le)
    have h2 : ContinuousAt (fun x : ℝ => Real.log (Real.exp 1 + (x / s.a) ^ s.n)) 0 := by
      refine ContinuousAt.log (continuousAt_const.add h1) ?_
      simp [Real.zero_rpow hn.ne']
    refine ContinuousAt.rpow_const h2 (Or.inl ?_)
    simp [Real.zero_rpow hn.ne']
  have h0 : s.den 0 = 1 := by simp [FX.den, Real.zero_rpow hn.ne']
  have := h.tendsto
  rw [h0] at this
  exact this.mono_left nhdsWithin_le_nhds

/-- Fredlund-Xing with the computed correction: from zero suction to 10⁶ the water content falls strictly from the
saturated value to zero; past 10⁶ it is negative. -/
theorem C99_fredlund_xing (s : FX) (ha : 0 < s.a) (hn : 0 < s.n) (hm : 0 < s.m) (hw : 0 < s.ws) (hr : 0 < s.psir)
    (hc : s.correction = none) :
    StrictAntiOn s.w (Set.Ioc 0 1000000) ∧ Tendsto s.w (𝓝[>] 0) (𝓝 s.ws) ∧ s.w 1000000 = 0 ∧
      (∀ psi, 0 < psi → psi < 1000000 → 0 < s.w psi ∧ s.w psi < s.ws) ∧
      (∀ psi, 1000000 < psi → s.w psi < 0) := by
  have hww : ∀ x, s.w x = corrFactor s.psir none x * s.ws / s.den x := by
    intro x; unfold FX.w FX.den; rw [hc]
  have hca := corr_anti hr
  have hpos : ∀ x, 0 < x → x < 1000000 → 0 < corrFactor s.psir none x := by
    intro x h0 h1
    have := hca (show x ∈ Set.Ici 0 from h0.le) (show (1000000:ℝ) ∈ Set.Ici 0 by norm_num) h1
    rwa [corr_end hr] at this
  refine ⟨?_, ?_, ?_, ?_, ?_⟩
  · intro x hx y hy h
    have hdx := FX.den_gt ha hm hx.1
    have hdy := FX.den_gt ha hm hy.1
    have hd := FX.den_mono ha hn hm hx.1 hy.1 h
    have h1 := hca (show x ∈ Set.Ici 0 from hx.1.le) (show y ∈ Set.Ici 0 from hy.1.le) h
    have hcx := hpos x hx.1 (lt_of_lt_of_le h hy.2)
    rw [hww, hww]
    rw [div_lt_div_iff₀ (by linarith) (by linarith)]
    calc corrFactor s.psir none y * s.ws * s.den x < corrFactor s.psir none x * s.ws * s.den x := by
          gcongr
      _ ≤ corrFactor s.psir none x * s.ws * s.den y := by gcongr
  · have := ((corr_tendsto hr).mul_const s.ws).div (FX.den_tendsto ha hn) one_ne_zero
    simp only [one_mul, div_one] at this
    refine this.congr (fun x => (hww x).symm)
  · rw [hww, corr_end hr]; simp
  · intro psi h0 h1
    have hd := FX.den_gt ha hm h0
    have hcx := hpos psi h0 h1
    have hlt := hca (show (0:ℝ) ∈ Set.Ici 0 from le_refl (0:ℝ)) (show psi ∈ Set.Ici 0 from h0.le) h0
    rw [corr_zero] at hlt
    rw [hww]
    refine ⟨by positivity, ?_⟩
    rw [div_lt_iff₀ (by linarith)]
    nlinarith
  · intro psi h
    have h0 : 0 < psi := by linarith
    have hd := FX.den_gt ha hm h0
    have := hca (show (1000000:ℝ) ∈ Set.Ici 0 by norm_num) (show psi ∈ Set.Ici 0 from h0.le) h
    rw [corr_end hr] at this
    rw [hww]
    exact div_neg_of_neg_of_pos (mul_neg_of_neg_of_pos this hw) (by linarith)

example : (FX.mk 427 0.794 0.613 1 3000 none).w 1000000 = 0 :=
  (C99_fredlund_xing _ (by norm_num) (by norm_num) (by norm_num) (by norm_num) (by norm_num) rfl).2.2.1

/-- Fredlund-Xing with a manual correction `c > 0`: the water content falls strictly from `c·ws` and never reaches zero. -/
theorem C99_fredlund_xing_manual (s : FX) (ha : 0 < s.a) (hn : 0 < s.n) (hm : 0 < s.m) (hw : 0 < s.ws) (c : ℝ)
    (hc : s.correction = some c) (hc0 : 0 < c) :
    StrictAntiOn s.w (Set.Ioi 0) ∧ Tendsto s.w (𝓝[>] 0) (𝓝 (c * s.ws)) ∧
      (∀ psi, 0 < psi → 0 < s.w psi ∧ s.w psi < c * s.ws) := by
  have hww : ∀ x, s.w x = c * s.ws / s.den x := by
    intro x; unfold FX.w FX.den; rw [hc]; rfl
  refine ⟨?_, ?_, ?_⟩
  · intro x hx y hy h
    have hdx := FX.den_gt (s := s) ha hm hx
    rw [hww, hww]
    exact div_lt_div_of_pos_left (by positivity) (by linarith) (FX.den_mono ha hn hm hx hy h)
  · have := (tendsto_const_nhds (x := c * s.ws)).div (FX.den_tendsto ha hn) one_ne_zero
    rw [div_one] at this
    exact this.congr (fun x => (hww x).symm)
  · intro psi h0
    have hd := FX.den_gt (s := s) ha hm h0
    rw [hww]
    exact ⟨by positivity, div_lt_self (by positivity) hd⟩

example : StrictAntiOn (FX.mk 3000 1.5 1 60 1000000 (some 1)).w (Set.Ioi 0) :=
  (C99_fredlund_xing_manual _ (by norm_num) (by norm_num) (by norm_num) (by norm_num) 1 rfl (by norm_num)).1

/-! Pham and Fredlund -/

/-- the bracket of Pham-Fredlund -/
noncomputable def PF.br (s : PF) (psi : ℝ) : ℝ := (s.ws - s.s1 * log10 psi - s.wr) * s.a / (psi ^ s.b + s.a) + s.wr

theorem log10_mono {x y : ℝ} (hx : 0 < x) (h : x < y) : log10 x < log10 y :=
  Real.logb_lt_logb (by norm_num) hx h

theorem log10_end : log10 1000000 = 6 := by
  have : (1000000:ℝ) = 10 ^ (6:ℝ) := by norm_num
  rw [this, log10_pow]

/-- The room above the residual value stays positive down to 10⁶. -/
theorem PF.room {s : PF} (hs : 0 ≤ s.s1) (hroom : s.wr < s.ws - 6 * s.s1) {x : ℝ} (hx : 0 < x) (h1 : x ≤ 1000000) :
    0 < s.ws - s.s1 * log10 x - s.wr := by
  have : log10 x ≤ 6 := by
    rw [← log10_end]
    rcases h1.lt_or_eq with h | h
    · exact (log10_mono hx h).le
    · rw [h]
  nlinarith

theorem PF.br_pos {s : PF} (ha : 0 < s.a) (hwr : 0 ≤ s.wr) (hs : 0 ≤ s.s1) (hroom : s.wr < s.ws - 6 * s.s1)
    {x : ℝ} (hx : 0 < x) (h1 : x ≤ 1000000) : 0 < s.br x := by
  have := PF.room hs hroom hx h1
  have hb : 0 < x ^ s.b := Real.rpow_pos_of_pos hx _
  unfold PF.br
  positivity

theorem PF.br_anti {s : PF} (ha : 0 < s.a) (hb : 0 < s.b) (hs : 0 ≤ s.s1) (hroom : s.wr < s.ws - 6 * s.s1) :
    StrictAntiOn s.br (Set.Ioc 0 1000000) := by
  intro x hx y hy h
  have hrx := PF.room hs hroom hx.1 hx.2
  have hry := PF.room hs hroom hy.1 hy.2
  have hbx : 0 < x ^ s.b := Real.rpow_pos_of_pos hx.1 _
  have hb' : x ^ s.b < y ^ s.b := Real.rpow_lt_rpow hx.1.le h hb
  have hby : 0 < y ^ s.b := Real.rpow_pos_of_pos hy.1 _
  have hl := log10_mono hx.1 h
  unfold PF.br
  have : (s.ws - s.s1 * log10 y - s.wr) * s.a / (y ^ s.b + s.a) < (s.ws - s.s1 * log10 x - s.wr) * s.a / (x ^ s.b + s.a) := by
    rw [div_lt_div_iff₀ (by linarith) (by linarith)]
    calc (s.ws - s.s1 * log10 y - s.wr) * s.a * (x ^ s.b + s.a) < (s.ws - s.s1 * log10 y - s.wr) * s.a * (y ^ s.b + s.a) := by
          gcongr
      _ ≤ (s.ws - s.s1 * log10 x - s.wr) * s.a * (y ^ s.b + s.a) := by gcongr
  linarith

/-- Pham-Fredlund with the computed correction, when the straight part stays above the residual value up to 10⁶: the
water content falls strictly over the whole range, reaches zero at 10⁶, and from a suction of one on stays below `ws`.
The default residual suction is the one at which a fraction 1/3.7 of the mobile water is left. -/
theorem C99_pham_fredlund_partial (s : PF) (ha : 0 < s.a) (hb : 0 < s.b) (hwr : 0 ≤ s.wr) (hs : 0 ≤ s.s1)
    (hroom : s.wr < s.ws - 6 * s.s1) (hr : 0 < s.psir) (hc : s.correction = none) :
    StrictAntiOn s.w (Set.Ioc 0 1000000) ∧ s.w 1000000 = 0 ∧
      (∀ psi, 0 < psi → psi < 1000000 → 0 < s.w psi) ∧
      (∀ psi, 1 ≤ psi → psi ≤ 1000000 → s.w psi < s.ws) := by
  have hww : ∀ x, s.w x = corrFactor s.psir none x * s.br x := by
    intro x; unfold PF.w PF.br; rw [hc]
  have hca := corr_anti hr
  have hpos : ∀ x, 0 < x → x < 1000000 → 0 < corrFactor s.psir none x := by
    intro x h0 h1
    have := hca (show x ∈ Set.Ici 0 from h0.le) (show (1000000:ℝ) ∈ Set.Ici 0 by norm_num) h1
    rwa [corr_end hr] at this
  refine ⟨?_, ?_, ?_, ?_⟩
  · intro x hx y hy h
    have h1 := hca (show x ∈ Set.Ici 0 from hx.1.le) (show y ∈ Set.Ici 0 from hy.1.le) h
    have h2 := PF.br_anti ha hb hs hroom hx hy h
    have h3 := hpos x hx.1 (lt_of_lt_of_le h hy.2)
    have h4 := PF.br_pos ha hwr hs hroom hy.1 hy.2
    rw [hww, hww]
    calc corrFactor s.psir none y * s.br y < corrFactor s.psir none x * s.br y := by gcongr
      _ ≤ corrFactor s.psir none x * s.br x := by gcongr
  · rw [hww, corr_end hr, zero_mul]
  · intro psi h0 h1
    rw [hww]
    exact mul_pos (hpos psi h0 h1) (PF.br_pos ha hwr hs hroom h0 h1.le)
  · intro psi h1 h2
    have h0 : 0 < psi := by linarith
    have hlt := hca (show (0:ℝ) ∈ Set.Ici 0 from le_refl (0:ℝ)) (show psi ∈ Set.Ici 0 from h0.le) h0
    rw [corr_zero] at hlt
    have hbp := PF.br_pos ha hwr hs hroom h0 h2
    have hl0 : 0 ≤ log10 psi := Real.logb_nonneg (by norm_num) h1
    have hrm := PF.room hs hroom h0 h2
    have hP : 0 < psi ^ s.b := Real.rpow_pos_of_pos h0 _
    have hbr : s.br psi ≤ s.ws := by
      unfold PF.br
      have h5 : (s.ws - s.s1 * log10 psi - s.wr) * s.a / (psi ^ s.b + s.a) ≤ s.ws - s.s1 * log10 psi - s.wr := by
        rw [div_le_iff₀ (by linarith)]
        nlinarith
      nlinarith [mul_nonneg hs hl0]
    rw [hww]
    nlinarith

example : (PF.init 0.9 3100000 3.377 0.128 0.115 none none).w 1000000 = 0 :=
  (C99_pham_fredlund_partial _ (by norm_num [PF.init]) (by norm_num [PF.init]) (by norm_num [PF.init])
    (by norm_num [PF.init]) (by norm_num [PF.init]) (by simp only [PF.init]; positivity) rfl).2.1

theorem C99_default_residual_suction (ws a b wr s1 : ℝ) (c : Option ℝ) (ha : 0 < a) (hb : 0 < b) :
    let s := PF.init ws a b wr s1 none c
    0 < s.psir ∧ s.psir ^ b = 2.7 * a ∧ a / (s.psir ^ b + a) = 1 / 3.7 := by
  intro s
  have h : s.psir ^ b = 2.7 * a := by
    show ((2.7 * a) ^ (1 / b)) ^ b = 2.7 * a
    rw [← Real.rpow_mul (by positivity), one_div, inv_mul_cancel₀ hb.ne', Real.rpow_one]
  refine ⟨?_, h, ?_⟩
  · show (0:ℝ) < (2.7 * a) ^ (1 / b)
    positivity
  · rw [h]; field_simp; norm_num

example : (PF.init 0.262 3100000 3.377 0.128 0.115 none none).psir ^ (3.377:ℝ) = 2.7 * 3100000 :=
  (C99_default_residual_suction 0.262 3100000 3.377 0.128 0.115 none (by norm_num) (by norm_num)).2.1

/-- The bound `w ≤ ws` fails for Pham-Fredlund: with a sloping initial part the water content has no bound near
zero suction. -/
theorem C99_negation (s : PF) (ha : 0 < s.a) (hb : 0 < s.b) (hs : 0 < s.s1) (hr : 0 < s.psir)
    (hc : s.correction = none) : Tendsto s.w (𝓝[>] 0) atTop := by
  have hlog : Tendsto log10 (𝓝[>] 0) atBot := by
    have : log10 = fun x => (Real.log 10)⁻¹ * Real.log x := by
      funext x; show Real.log x / Real.log 10 = _; ring
    rw [this]
    exact (Real.tendsto_log_nhdsGT_zero).const_mul_atBot (inv_pos.mpr log10_pos)
  have h1 : Tendsto (fun x => s.ws - s.wr + s.s1 * (-log10 x)) (𝓝[>] 0) atTop :=
    tendsto_atTop_add_const_left _ _ (((tendsto_neg_atBot_atTop.comp hlog)).const_mul_atTop hs)
  have h2 : Tendsto (fun x : ℝ => s.a / (x ^ s.b + s.a)) (𝓝[>] 0) (𝓝 1) := by
    have hc : ContinuousAt (fun x : ℝ => s.a / (x ^ s.b + s.a)) 0 := by
      refine continuousAt_const.div ((ContinuousAt.rpow_const continuousAt_id (Or.inr hb.le)).add continuousAt_const) ?_
      simp [Real.zero_rpow hb.ne', ha.ne']
    have := hc.tendsto
    simp only [Real.zero_rpow hb.ne', zero_add, div_self ha.ne'] at this
    exact this.mono_left nhdsWithin_le_nhds
  have h3 := tendsto_atTop_add_const_right _ s.wr (h1.atTop_mul_pos one_pos h2)
  have h4 := h3.atTop_mul_pos one_pos (corr_tendsto hr)
  refine h4.congr (fun x => ?_)
  unfold PF.w
  rw [hc]
  ring

example : Tendsto (PF.init 0.262 3100000 3.377 0.128 0.115 none none).w (𝓝[>] 0) atTop :=
  C99_negation _ (by norm_num [PF.init]) (by norm_num [PF.init]) (by norm_num [PF.init])
    (by simp only [PF.init]; positivity) rfl

end Geotecha.Const
