import Verif.Constitutive.PropsSwccShape
import Mathlib.MeasureTheory.Integral.IntervalIntegral.FundThmCalculus
import Mathlib.MeasureTheory.Integral.IntervalIntegral.Basic
import Mathlib.Analysis.SpecialFunctions.ExpDeriv

set_option linter.unusedVariables false
namespace Geotecha.Const
open Filter Topology

/-! # C100: relative permeability from the curve -/

namespace SwccSpec

/-- The documented numerator/denominator integral (docstring of `k_from_psi`, swcc.py:336-343):
`∫_{ln lo}^{ln 10⁶} (θ(e^y) - θ₀)/e^y · θ'(e^y) dy`, with `θ'` the true derivative. -/
noncomputable def integral (θ : ℝ → ℝ) (θ0 lo : ℝ) : ℝ :=
  ∫ y in (Real.log lo)..(Real.log 1000000), (θ (Real.exp y) - θ0) / Real.exp y * deriv θ (Real.exp y)

/-- The documented relative permeability, with `θs` the saturated water content. -/
noncomputable def krel (θ : ℝ → ℝ) (θs aev psi : ℝ) : ℝ := integral θ (θ psi) psi / integral θ θs aev

end SwccSpec

/-- Midpoint sums of a continuous function converge to its integral. -/
theorem midpoint_tendsto {f : ℝ → ℝ} (hf : Continuous f) (a b : ℝ) :
    Tendsto (fun n : ℕ => (∑ j ∈ Finset.range n, f (kNode a b n j)) * ((b - a) / n)) atTop (𝓝 (∫ x in a..b, f x)) := by
  rw [Metric.tendsto_atTop]
  intro ε hε
  set M := |b - a| + 1 with hM
  have hMp : 0 < M := by positivity
  have huc : UniformContinuousOn f (Set.uIcc a b) :=
    isCompact_uIcc.uniformContinuousOn_of_continuous hf.continuousOn
  rw [Metric.uniformContinuousOn_iff] at huc
  obtain ⟨δ, hδ, h⟩ := huc (ε / M) (by positivity)
  obtain ⟨N, hN⟩ := exists_nat_gt (M / δ)
  refine ⟨N + 1, fun n hn => ?_⟩
  have hn0 : 0 < n := by omega
  have hnR : (0:ℝ) < n := by exact_mod_cast hn0
  set hh := (b - a) / n with hhd
  have hhM : |hh| < δ := by
    rw [hhd, abs_div, abs_of_pos hnR, div_lt_iff₀ hnR]
    have h1 : (N:ℝ) ≤ n := by exact_mod_cast (by omega : N ≤ n)
    rw [div_lt_iff₀ hδ] at hN
    nlinarith
  have hsplit : ∫ x in a..b, f x = ∑ j ∈ Finset.range n, ∫ x in (a + hh * j)..(a + hh * (j + 1 : ℕ)), f x := by
    rw [intervalIntegral.sum_integral_adjacent_intervals (a := fun j : ℕ => a + hh * j)
      (fun k _ => hf.intervalIntegrable _ _)]
    congr 1
    · simp
    · rw [hhd]; field_simp; ring
  have hmem : ∀ j < n, ∀ t : ℝ, 0 ≤ t → t ≤ 1 → a + hh * (j + t) ∈ Set.uIcc a b := by
    intro j hj t h0 h1
    have hj1 : (j:ℝ) + 1 ≤ n := by exact_mod_cast hj
    have hj0 : (0:ℝ) ≤ j := by positivity
    set u := ((j:ℝ) + t) / n with hu
    have hu0 : 0 ≤ u := by positivity
    have hu1 : u ≤ 1 := by rw [hu, div_le_one hnR]; linarith
    have : a + hh * (j + t) = a + (b - a) * u := by rw [hhd, hu]; ring
    rw [this, Set.mem_uIcc]
    rcases le_total a b with hab | hab
    · left; constructor <;> nlinarith
    · right; constructor <;> nlinarith
  have hterm : ∀ j ∈ Finset.range n,
      |f (kNode a b n j) * hh - ∫ x in (a + hh * j)..(a + hh * (j + 1 : ℕ)), f x| ≤ ε / M * |hh| := by
    intro j hj
    rw [Finset.mem_range] at hj
    have e1 : f (kNode a b n j) * hh = ∫ x in (a + hh * j)..(a + hh * (j + 1 : ℕ)), f (kNode a b n j) := by
      rw [intervalIntegral.integral_const]; push_cast; rw [smul_eq_mul]; ring
    rw [e1, ← intervalIntegral.integral_sub (by simp) (hf.intervalIntegrable _ _)]
    have hb := intervalIntegral.norm_integral_le_of_norm_le_const
      (a := a + hh * j) (b := a + hh * (j + 1 : ℕ)) (C := ε / M) (f := fun x => f (kNode a b n j) - f x) ?_
    · rw [Real.norm_eq_abs] at hb
      refine hb.trans (le_of_eq ?_)
      congr 2
      push_cast; ring
    · intro x hx
      have hx' : ∃ t : ℝ, 0 ≤ t ∧ t ≤ 1 ∧ x = a + hh * (j + t) := by
        have hx2 := Set.uIoc_subset_uIcc hx
        rw [Set.mem_uIcc] at hx2
        push_cast at hx2
        by_cases h0 : hh = 0
        · refine ⟨0, le_refl _, zero_le_one, ?_⟩
          rw [h0] at hx2 ⊢
          rcases hx2 with ⟨p, q⟩ | ⟨p, q⟩ <;> linarith
        · refine ⟨(x - a) / hh - j, ?_, ?_, by field_simp; ring⟩
          · rcases lt_or_gt_of_ne h0 with hneg | hpos
            · rw [sub_nonneg, le_div_iff_of_neg hneg]
              rcases hx2 with ⟨p, q⟩ | ⟨p, q⟩ <;> nlinarith
            · rw [sub_nonneg, le_div_iff₀ hpos]
              rcases hx2 with ⟨p, q⟩ | ⟨p, q⟩ <;> nlinarith
          · rcases lt_or_gt_of_ne h0 with hneg | hpos
            · rw [sub_le_iff_le_add, div_le_iff_of_neg hneg]
              rcases hx2 with ⟨p, q⟩ | ⟨p, q⟩ <;> nlinarith
            · rw [sub_le_iff_le_add, div_le_iff₀ hpos]
              rcases hx2 with ⟨p, q⟩ | ⟨p, q⟩ <;> nlinarith
      obtain ⟨t, t0, t1, rfl⟩ := hx'
      have hm1 := hmem j hj 0.5 (by norm_num) (by norm_num)
      have hm2 := hmem j hj t t0 t1
      refine (h _ hm1 _ hm2 ?_).le
      rw [Real.dist_eq, show a + hh * (j + 0.5) - (a + hh * (j + t)) = hh * (0.5 - t) by ring, abs_mul]
      have : |0.5 - t| ≤ 1 := by rw [abs_le]; constructor <;> norm_num at * <;> linarith
      nlinarith [abs_nonneg hh]
  rw [Real.dist_eq, hsplit, Finset.sum_mul, ← Finset.sum_sub_distrib]
  calc |∑ j ∈ Finset.range n, (f (kNode a b n j) * hh - ∫ x in (a + hh * j)..(a + hh * (j + 1 : ℕ)), f x)|
      ≤ ∑ j ∈ Finset.range n, |f (kNode a b n j) * hh - ∫ x in (a + hh * j)..(a + hh * (j + 1 : ℕ)), f x| :=
        Finset.abs_sum_le_sum_abs _ _
    _ ≤ ∑ j ∈ Finset.range n, ε / M * |hh| := Finset.sum_le_sum hterm
    _ = ε / M * |b - a| := by
        rw [Finset.sum_const, Finset.card_range, nsmul_eq_mul, hhd, abs_div, abs_of_pos hnR]
        field_simp
    _ < ε := by
        rw [div_mul_eq_mul_div, div_lt_iff₀ hMp]
        nlinarith [abs_nonneg (b - a)]

/-- What the permeability integrals need of a curve. -/
structure GoodCurve (w dw : ℝ → ℝ) : Prop where
  deriv : ∀ x, 0 < x → HasDerivAt w (dw x) x
  neg : ∀ x, 0 < x → x ≤ 1000000 → dw x < 0
  anti : StrictAntiOn w (Set.Ioc 0 1000000)
  cont : Continuous fun y => dw (Real.exp y)

theorem GoodCurve.contW {w dw : ℝ → ℝ} (g : GoodCurve w dw) : Continuous fun y => w (Real.exp y) := by
  rw [continuous_iff_continuousAt]
  intro y
  exact ContinuousAt.comp (g := w) (g.deriv _ (Real.exp_pos y)).continuousAt Real.continuous_exp.continuousAt

/-- the integrand of the model -/
noncomputable def kf (w dw : ℝ → ℝ) (w0 y : ℝ) : ℝ := (w (Real.exp y) - w0) * dw (Real.exp y) / Real.exp y

theorem GoodCurve.contF {w dw : ℝ → ℝ} (g : GoodCurve w dw) (w0 : ℝ) : Continuous (kf w dw w0) := by
  unfold kf
  exact ((g.contW.sub continuous_const).mul g.cont).div Real.continuous_exp (fun y => (Real.exp_pos y).ne')

theorem GoodCurve.spec {w dw : ℝ → ℝ} (g : GoodCurve w dw) (w0 lo : ℝ) :
    SwccSpec.integral w w0 lo = ∫ y in (Real.log lo)..(Real.log 1000000), kf w dw w0 y := by
  unfold SwccSpec.integral
  congr 1
  funext y
  rw [(g.deriv _ (Real.exp_pos y)).deriv]
  unfold kf; ring

/-- On `[ln psi, ln 10⁶]` the integrand with reference `w0 ≥ w psi` is nonnegative. -/
theorem GoodCurve.f_nonneg {w dw : ℝ → ℝ} (g : GoodCurve w dw) {psi w0 : ℝ} (hp : 0 < psi) (h0 : w psi ≤ w0) {y : ℝ}
    (h1 : Real.log psi ≤ y) (h2 : y ≤ Real.log 1000000) : 0 ≤ kf w dw w0 y := by
  have e1 : psi ≤ Real.exp y := (Real.log_le_iff_le_exp hp).mp h1
  have e2 : Real.exp y ≤ 1000000 := (Real.le_log_iff_exp_le (by norm_num)).mp h2
  have hm : w (Real.exp y) ≤ w psi :=
    g.anti.antitoneOn ⟨hp, e1.trans e2⟩ ⟨Real.exp_pos y, e2⟩ e1
  have hn := g.neg _ (Real.exp_pos y) e2
  unfold kf
  exact div_nonneg (mul_nonneg_of_nonpos_of_nonpos (by linarith) hn.le) (Real.exp_pos y).le

theorem GoodCurve.f_pos {w dw : ℝ → ℝ} (g : GoodCurve w dw) {psi w0 : ℝ} (hp : 0 < psi) (h0 : w psi ≤ w0) {y : ℝ}
    (h1 : Real.log psi < y) (h2 : y ≤ Real.log 1000000) : 0 < kf w dw w0 y := by
  have e1 : psi < Real.exp y := (Real.log_lt_iff_lt_exp hp).mp h1
  have e2 : Real.exp y ≤ 1000000 := (Real.le_log_iff_exp_le (by norm_num)).mp h2
  have hm : w (Real.exp y) < w psi := g.anti ⟨hp, e1.le.trans e2⟩ ⟨Real.exp_pos y, e2⟩ e1
  have hn := g.neg _ (Real.exp_pos y) e2
  unfold kf
  exact div_pos (mul_pos_of_neg_of_neg (by linarith) hn) (Real.exp_pos y)

theorem node_mem {lo hi : ℝ} (h : lo < hi) {n j : ℕ} (hj : j < n) : lo < kNode lo hi n j ∧ kNode lo hi n j < hi := by
  have hn : (0:ℝ) < n := by exact_mod_cast (by omega : 0 < n)
  have hj1 : (j:ℝ) + 1 ≤ n := by exact_mod_cast hj
  have hj0 : (0:ℝ) ≤ j := by positivity
  have e : kNode lo hi n j = lo + (hi - lo) * ((j + 0.5) / n) := by unfold kNode; ring
  have u0 : 0 < ((j:ℝ) + 0.5) / n := by positivity
  have u1 : ((j:ℝ) + 0.5) / n < 1 := by rw [div_lt_one hn]; norm_num; linarith
  rw [e]
  constructor <;> nlinarith

theorem kSum_eq (w dw : ℝ → ℝ) (w0 lo hi : ℝ) (n : ℕ) :
    kSum w dw w0 lo hi n = ∑ j ∈ Finset.range n, kf w dw w0 (kNode lo hi n j) := rfl

theorem log_lt_end {x : ℝ} (h0 : 0 < x) (h : x < 1000000) : Real.log x < Real.log 1000000 := Real.log_lt_log h0 h

theorem GoodCurve.sum_pos {w dw : ℝ → ℝ} (g : GoodCurve w dw) {psi w0 : ℝ} (hp : 0 < psi) (hp1 : psi < 1000000)
    (h0 : w psi ≤ w0) {n : ℕ} (hn : 0 < n) : 0 < kSum w dw w0 (Real.log psi) (Real.log 1000000) n := by
  rw [kSum_eq]
  refine Finset.sum_pos (fun j hj => ?_) ⟨0, Finset.mem_range.mpr hn⟩
  have := node_mem (log_lt_end hp hp1) (Finset.mem_range.mp hj)
  exact g.f_pos hp h0 this.1 this.2.le

theorem GoodCurve.int_pos {w dw : ℝ → ℝ} (g : GoodCurve w dw) {psi w0 : ℝ} (hp : 0 < psi) (hp1 : psi < 1000000)
    (h0 : w psi ≤ w0) : 0 < SwccSpec.integral w w0 psi := by
  rw [g.spec]
  refine intervalIntegral.intervalIntegral_pos_of_pos_on ((g.contF w0).intervalIntegrable _ _) ?_ (log_lt_end hp hp1)
  intro y hy
  exact g.f_pos hp h0 hy.1 hy.2.le

/-- Positive below 10⁶, zero at 10⁶, for every number of points. -/
theorem GoodCurve.comp_pos {w dw : ℝ → ℝ} (g : GoodCurve w dw) {wsat aev psi : ℝ} {n : ℕ} (hn : 0 < n)
    (ha : 0 < aev) (ha1 : aev < 1000000) (hws : w aev ≤ wsat) (hp : 0 < psi) (hp1 : psi < 1000000) :
    0 < kComp w dw wsat aev n psi := by
  have h1 := g.sum_pos hp hp1 (le_refl _) hn
  have h2 := g.sum_pos ha ha1 hws hn
  have l1 := log_lt_end hp hp1
  have l2 := log_lt_end ha ha1
  have hnR : (0:ℝ) < n := by exact_mod_cast hn
  exact div_pos (mul_pos h1 (div_pos (by linarith) hnR)) (mul_pos h2 (div_pos (by linarith) hnR))

theorem comp_end (w dw : ℝ → ℝ) (wsat aev : ℝ) (n : ℕ) : kComp w dw wsat aev n 1000000 = 0 := by
  simp [kComp]

theorem GoodCurve.comp_tendsto {w dw : ℝ → ℝ} (g : GoodCurve w dw) {wsat aev psi : ℝ}
    (ha : 0 < aev) (ha1 : aev < 1000000) (hws : w aev ≤ wsat) (hp : 0 < psi) :
    Tendsto (fun n => kComp w dw wsat aev n psi) atTop (𝓝 (SwccSpec.krel w wsat aev psi)) := by
  have h1 := midpoint_tendsto (g.contF (w psi)) (Real.log psi) (Real.log 1000000)
  have h2 := midpoint_tendsto (g.contF wsat) (Real.log aev) (Real.log 1000000)
  rw [← g.spec] at h1 h2
  exact h1.div h2 (g.int_pos ha ha1 hws).ne'

/-- The documented value falls with suction. -/
theorem GoodCurve.krel_anti {w dw : ℝ → ℝ} (g : GoodCurve w dw) {wsat aev : ℝ}
    (ha : 0 < aev) (ha1 : aev < 1000000) (hws : w aev ≤ wsat) :
    StrictAntiOn (SwccSpec.krel w wsat aev) (Set.Ioc 0 1000000) := by
  intro x hx y hy h
  refine div_lt_div_of_pos_right ?_ (g.int_pos ha ha1 hws)
  have hlog : Real.log x < Real.log y := Real.log_lt_log hx.1 h
  have hly : Real.log y ≤ Real.log 1000000 := Real.log_le_log hy.1 hy.2
  have hwxy := g.anti hx hy h
  rw [g.spec, g.spec, ← intervalIntegral.integral_add_adjacent_intervals
    ((g.contF (w x)).intervalIntegrable _ (Real.log y)) ((g.contF (w x)).intervalIntegrable _ _)]
  have h1 : 0 < ∫ t in (Real.log x)..(Real.log y), kf w dw (w x) t := by
    refine intervalIntegral.intervalIntegral_pos_of_pos_on ((g.contF _).intervalIntegrable _ _) ?_ hlog
    intro t ht
    exact g.f_pos hx.1 (le_refl _) ht.1 (ht.2.le.trans hly)
  have h2 : ∫ t in (Real.log y)..(Real.log 1000000), kf w dw (w y) t ≤
      ∫ t in (Real.log y)..(Real.log 1000000), kf w dw (w x) t := by
    refine intervalIntegral.integral_mono_on hly ((g.contF _).intervalIntegrable _ _)
      ((g.contF _).intervalIntegrable _ _) ?_
    intro t ht
    have hn := g.neg _ (Real.exp_pos t) ((Real.le_log_iff_exp_le (by norm_num)).mp ht.2)
    unfold kf
    refine div_le_div_of_nonneg_right ?_ (Real.exp_pos t).le
    nlinarith
  linarith

/-! The two curves are good. -/

theorem exp_pow_cont (a n : ℝ) (ha : 0 < a) : Continuous fun y => (Real.exp y / a) ^ n :=
  Continuous.rpow_const (by fun_prop) (fun y => Or.inl (by positivity))

theorem FX.good (s : FX) (ha : 0 < s.a) (hn : 0 < s.n) (hm : 0 < s.m) (hw : 0 < s.ws) (hr : 0 < s.psir)
    (hc : s.correction = none) : GoodCurve s.w s.dw where
  deriv := C98_fredlund_xing s ha hr
  anti := (C99_fredlund_xing s ha hn hm hw hr hc).1
  neg := by
    intro x hx h1
    have hcorr : 0 ≤ 1 - Real.log (x / s.psir + 1) / Real.log (1 + 1000000 / s.psir) := by
      have hca := (corr_anti hr).antitoneOn (show x ∈ Set.Ici 0 from hx.le) (show (1000000:ℝ) ∈ Set.Ici 0 by norm_num) h1
      rw [corr_end hr] at hca
      rw [add_comm]; exact hca
    have hP : 0 < (x / s.a) ^ s.n := Real.rpow_pos_of_pos (by positivity) _
    have hL := FXlog_pos (n := s.n) ha hx
    rw [add_comm] at hL
    have hL0 : 0 < Real.log ((x / s.a) ^ s.n + Real.exp 1) := by linarith
    have hQ : 0 < Real.log ((x / s.a) ^ s.n + Real.exp 1) ^ (-s.m) := Real.rpow_pos_of_pos hL0 _
    have hE := Real.exp_pos 1
    have hend := logend_pos hr
    unfold FX.dw
    rw [hc]
    simp only
    generalize Real.exp 1 = E at *
    generalize (x / s.a) ^ s.n = P at *
    generalize Real.log (P + E) = L at *
    generalize L ^ (-s.m) = Q at *
    generalize 1 - Real.log (x / s.psir + 1) / Real.log (1 + 1000000 / s.psir) = C at *
    have t1 : 0 ≤ s.m * s.n * s.ws * P * C * Q / (x * (P + E) * L) := by positivity
    have t2 : 0 < s.ws * Q / (s.psir * (x / s.psir + 1) * Real.log (1 + 1000000 / s.psir)) := by positivity
    have : -s.m * s.n * s.ws * P * C * Q / (x * (P + E) * L) = -(s.m * s.n * s.ws * P * C * Q / (x * (P + E) * L)) := by ring
    rw [this]; linarith
  cont := by
    unfold FX.dw
    rw [hc]
    simp only
    have hP := exp_pow_cont s.a s.n ha
    have hpos : ∀ y, 0 < (Real.exp y / s.a) ^ s.n := fun y => Real.rpow_pos_of_pos (by positivity) _
    have hL : Continuous fun y => Real.log ((Real.exp y / s.a) ^ s.n + Real.exp 1) :=
      Continuous.log (hP.add continuous_const) (fun y => (add_pos (hpos y) (Real.exp_pos 1)).ne')
    have hLpos : ∀ y, 0 < Real.log ((Real.exp y / s.a) ^ s.n + Real.exp 1) := fun y => by
      have := FXlog_pos (n := s.n) ha (Real.exp_pos y)
      rw [add_comm] at this; linarith
    have hQ : Continuous fun y => Real.log ((Real.exp y / s.a) ^ s.n + Real.exp 1) ^ (-s.m) :=
      Continuous.rpow_const hL (fun y => Or.inl (hLpos y).ne')
    have hJ : Continuous fun y => Real.log (Real.exp y / s.psir + 1) :=
      Continuous.log (by fun_prop) (fun y => by positivity)
    have hend := logend_pos hr
    refine Continuous.sub (Continuous.div ?_ ?_ ?_) (Continuous.div ?_ ?_ ?_)
    · exact (((continuous_const.mul hP).mul (continuous_const.sub (hJ.div_const _))).mul hQ)
    · exact (Real.continuous_exp.mul (hP.add continuous_const)).mul hL
    · intro y
      have := hpos y
      have := hLpos y
      positivity
    · exact continuous_const.mul hQ
    · fun_prop
    · intro y; positivity

theorem PF.good (s : PF) (ha : 0 < s.a) (hb : 0 < s.b) (hwr : 0 ≤ s.wr) (hs : 0 ≤ s.s1)
    (hroom : s.wr < s.ws - 6 * s.s1) (hr : 0 < s.psir) (hc : s.correction = none) : GoodCurve s.w s.dw where
  deriv := C98_pham_fredlund s ha hr
  anti := (C99_pham_fredlund_partial s ha hb hwr hs hroom hr hc).1
  neg := by
    intro x hx h1
    have hcorr : 0 ≤ 1 - Real.log (x / s.psir + 1) / Real.log (1 + 1000000 / s.psir) := by
      have hca := (corr_anti hr).antitoneOn (show x ∈ Set.Ici 0 from hx.le) (show (1000000:ℝ) ∈ Set.Ici 0 by norm_num) h1
      rw [corr_end hr] at hca
      rw [add_comm]; exact hca
    have hP : 0 < x ^ s.b := Real.rpow_pos_of_pos hx _
    have hroom' := PF.room hs hroom hx h1
    have hlog : log10 x = Real.log x / Real.log 10 := rfl
    have hR : 0 < -s.wr + s.ws - s.s1 * Real.log x / Real.log 10 := by
      rw [hlog] at hroom'
      have : s.s1 * (Real.log x / Real.log 10) = s.s1 * Real.log x / Real.log 10 := by ring
      linarith
    have h10 := log10_pos
    have hend := logend_pos hr
    unfold PF.dw
    rw [hc]
    simp only
    generalize x ^ s.b = P at *
    generalize -s.wr + s.ws - s.s1 * Real.log x / Real.log 10 = R at *
    generalize 1 - Real.log (x / s.psir + 1) / Real.log (1 + 1000000 / s.psir) = C at *
    have t1 : 0 ≤ s.a * s.b * P * R / (x * (s.a + P) ^ 2) := by positivity
    have t2 : 0 ≤ s.a * s.s1 / (Real.log 10 * x * (s.a + P)) := by positivity
    have t3 : 0 < (s.a * R / (s.a + P) + s.wr) / (s.psir * (x / s.psir + 1) * Real.log (1 + 1000000 / s.psir)) := by
      positivity
    have : -s.a * s.b * P * R / (x * (s.a + P) ^ 2) = -(s.a * s.b * P * R / (x * (s.a + P) ^ 2)) := by ring
    rw [this]
    nlinarith [mul_nonneg hcorr (add_nonneg t1 t2)]
  cont := by
    unfold PF.dw
    rw [hc]
    simp only [Real.log_exp]
    have hP : Continuous fun y => Real.exp y ^ s.b :=
      Continuous.rpow_const (by fun_prop) (fun y => Or.inl (Real.exp_pos y).ne')
    have hpos : ∀ y, 0 < Real.exp y ^ s.b := fun y => Real.rpow_pos_of_pos (Real.exp_pos y) _
    have hJ : Continuous fun y => Real.log (Real.exp y / s.psir + 1) :=
      Continuous.log (by fun_prop) (fun y => by positivity)
    have hend := logend_pos hr
    have h10 := log10_pos
    have hR : Continuous fun y => -s.wr + s.ws - s.s1 * y / Real.log 10 := by fun_prop
    have hD : Continuous fun y => s.a + Real.exp y ^ s.b := continuous_const.add hP
    refine Continuous.sub (Continuous.mul (continuous_const.sub (hJ.div_const _)) (Continuous.sub (Continuous.div ?_ ?_ ?_) (Continuous.div ?_ ?_ ?_))) (Continuous.div (Continuous.add (Continuous.div ?_ ?_ ?_) ?_) ?_ ?_)
    · exact (continuous_const.mul hP).mul hR
    · exact Real.continuous_exp.mul (hD.pow 2)
    · intro y; have := hpos y; positivity
    · exact continuous_const
    · exact (continuous_const.mul Real.continuous_exp).mul hD
    · intro y; have := hpos y; positivity
    · exact continuous_const.mul hR
    · exact hD
    · intro y; have := hpos y; positivity
    · exact continuous_const
    · fun_prop
    · intro y; positivity

theorem kOut_map (f : ℝ → ℝ) (x : ℝ) : kOut ([x].map f) = .scalar (f x) := rfl

/-- Arrays: two or more suctions give the array of the single-suction answers, in order; one suction gives a scalar. -/
theorem C100_arrays (s : FX) (t : PF) (aev : ℝ) (n : ℕ) (psi : List ℝ) :
    (∀ x, psi = [x] → s.k aev n psi = .scalar (kComp s.w s.dw s.ws aev n x) ∧
        t.k aev n psi = .scalar (kComp t.w t.dw (t.w aev) aev n x)) ∧
      (psi.length ≠ 1 → ∃ l m, s.k aev n psi = .array l ∧ t.k aev n psi = .array m ∧
        List.Forall₂ (fun x k => s.k aev n [x] = .scalar k) psi l ∧
        List.Forall₂ (fun x k => t.k aev n [x] = .scalar k) psi m) := by
  have key : ∀ (f : ℝ → ℝ), psi.length ≠ 1 → kOut (psi.map f) = .array (psi.map f) := by
    intro f h
    unfold kOut
    split
    · next x e =>
      exfalso; apply h
      have := congrArg List.length e
      simpa using this
    · rfl
  constructor
  · rintro x rfl; exact ⟨rfl, rfl⟩
  · intro h
    refine ⟨_, _, key _ h, key _ h, ?_, ?_⟩
    · rw [List.forall₂_map_right_iff]
      exact List.forall₂_same.mpr (fun x _ => rfl)
    · rw [List.forall₂_map_right_iff]
      exact List.forall₂_same.mpr (fun x _ => rfl)

/-- Fredlund-Xing: for every number of points the relative permeability is positive below 10⁶ and zero at 10⁶, and as
the number of points grows it converges to the documented ratio of integrals, which falls strictly with suction and is
below one from the air entry value on. -/
theorem C100_fredlund_xing (s : FX) (ha : 0 < s.a) (hn : 0 < s.n) (hm : 0 < s.m) (hw : 0 < s.ws) (hr : 0 < s.psir)
    (hc : s.correction = none) (aev : ℝ) (hv : 0 < aev) (hv1 : aev < 1000000) (psi : ℝ) (hp : 0 < psi)
    (hp1 : psi ≤ 1000000) :
    (∀ npts, 0 < npts → ∃ k, s.k aev npts [psi] = .scalar k ∧ 0 ≤ k ∧ (k = 0 ↔ psi = 1000000)) ∧
    (∃ k : ℕ → ℝ, (∀ npts, s.k aev npts [psi] = .scalar (k npts)) ∧
      Tendsto k atTop (𝓝 (SwccSpec.krel s.w s.ws aev psi))) ∧
    StrictAntiOn (SwccSpec.krel s.w s.ws aev) (Set.Ioc 0 1000000) ∧
    (aev ≤ psi → SwccSpec.krel s.w s.ws aev psi < 1) := by
  have g := s.good ha hn hm hw hr hc
  have hws := ((C99_fredlund_xing s ha hn hm hw hr hc).2.2.2.1 aev hv hv1).2
  have hanti := g.krel_anti hv hv1 hws.le
  refine ⟨?_, ⟨_, fun n => rfl, g.comp_tendsto hv hv1 hws.le hp⟩, hanti, ?_⟩
  · intro npts hnp
    refine ⟨_, rfl, ?_⟩
    rcases hp1.lt_or_eq with h | h
    · have := g.comp_pos hnp hv hv1 hws.le hp h
      exact ⟨this.le, ⟨fun e => absurd e this.ne', fun e => absurd e h.ne⟩⟩
    · subst h
      rw [comp_end]
      exact ⟨le_refl _, ⟨fun _ => rfl, fun _ => rfl⟩⟩
  · intro hle
    have h1 : SwccSpec.krel s.w s.ws aev psi ≤ SwccSpec.krel s.w s.ws aev aev :=
      hanti.antitoneOn ⟨hv, hv1.le⟩ ⟨hp, hp1⟩ hle
    refine lt_of_le_of_lt h1 ?_
    unfold SwccSpec.krel
    rw [div_lt_one (g.int_pos hv hv1 hws.le), g.spec, g.spec]
    refine intervalIntegral.integral_lt_integral_of_continuousOn_of_le_of_exists_lt (log_lt_end hv hv1)
      (g.contF _).continuousOn (g.contF _).continuousOn ?_ ?_
    · intro y hy
      have hng := g.neg _ (Real.exp_pos y) ((Real.le_log_iff_exp_le (by norm_num)).mp hy.2)
      unfold kf
      refine div_le_div_of_nonneg_right ?_ (Real.exp_pos y).le
      nlinarith
    · refine ⟨Real.log 1000000, ⟨(log_lt_end hv hv1).le, le_refl _⟩, ?_⟩
      have hng := g.neg _ (Real.exp_pos (Real.log 1000000)) ((Real.le_log_iff_exp_le (by norm_num)).mp le_rfl)
      unfold kf
      refine div_lt_div_of_pos_right ?_ (Real.exp_pos _)
      nlinarith

example : ∃ k : ℕ → ℝ, (∀ npts, (FX.mk 2.77 11.2 0.45 1 300 none).k 1 npts [4] = .scalar (k npts)) ∧
      Tendsto k atTop (𝓝 (SwccSpec.krel (FX.mk 2.77 11.2 0.45 1 300 none).w 1 1 4)) :=
  (C100_fredlund_xing _ (by norm_num) (by norm_num) (by norm_num) (by norm_num) (by norm_num) rfl 1 (by norm_num)
    (by norm_num) 4 (by norm_num) (by norm_num)).2.1

/-- Fredlund-Xing is not one at the air entry value: for every number of points it is below one there. -/
theorem C100_negation (s : FX) (ha : 0 < s.a) (hn : 0 < s.n) (hm : 0 < s.m) (hw : 0 < s.ws) (hr : 0 < s.psir)
    (hc : s.correction = none) (aev : ℝ) (hv : 0 < aev) (hv1 : aev < 1000000) (npts : ℕ) (hnp : 0 < npts) :
    ∃ k, s.k aev npts [aev] = .scalar k ∧ 0 < k ∧ k < 1 := by
  have g := s.good ha hn hm hw hr hc
  have hws := ((C99_fredlund_xing s ha hn hm hw hr hc).2.2.2.1 aev hv hv1).2
  refine ⟨_, rfl, g.comp_pos hnp hv hv1 hws.le hv hv1, ?_⟩
  have hd := g.sum_pos hv hv1 hws.le hnp
  have hnR : (0:ℝ) < npts := by exact_mod_cast hnp
  have hl := log_lt_end hv hv1
  have hdy : 0 < (Real.log 1000000 - Real.log aev) / npts := div_pos (by linarith) hnR
  unfold kComp
  simp only
  rw [mul_div_mul_right _ _ hdy.ne', div_lt_one hd, kSum_eq, kSum_eq]
  refine Finset.sum_lt_sum_of_nonempty ⟨0, Finset.mem_range.mpr hnp⟩ ?_
  intro j hj
  have hm := node_mem hl (Finset.mem_range.mp hj)
  have hng := g.neg _ (Real.exp_pos (kNode (Real.log aev) (Real.log 1000000) npts j))
    ((Real.le_log_iff_exp_le (by norm_num)).mp hm.2.le)
  unfold kf
  refine div_lt_div_of_pos_right ?_ (Real.exp_pos _)
  nlinarith

example : ∃ k, (FX.mk 2.77 11.2 0.45 1 300 none).k 1 500 [1] = .scalar k ∧ 0 < k ∧ k < 1 :=
  C100_negation _ (by norm_num) (by norm_num) (by norm_num) (by norm_num) (by norm_num) rfl 1 (by norm_num)
    (by norm_num) 500 (by norm_num)

/-- Pham-Fredlund: positive below 10⁶, zero at 10⁶ and exactly one at the air entry value for every number of points;
converges to the documented ratio with the water content at the air entry value as saturated value, a limit that falls
strictly with suction and lies below one past the air entry value. -/
theorem C100_pham_fredlund (s : PF) (ha : 0 < s.a) (hb : 0 < s.b) (hwr : 0 ≤ s.wr) (hs : 0 ≤ s.s1)
    (hroom : s.wr < s.ws - 6 * s.s1) (hr : 0 < s.psir) (hc : s.correction = none) (aev : ℝ) (hv : 0 < aev)
    (hv1 : aev < 1000000) (psi : ℝ) (hp : 0 < psi) (hp1 : psi ≤ 1000000) :
    (∀ npts, 0 < npts → ∃ k, s.k aev npts [psi] = .scalar k ∧ 0 ≤ k ∧ (k = 0 ↔ psi = 1000000) ∧
      (psi = aev → k = 1)) ∧
    (∃ k : ℕ → ℝ, (∀ npts, s.k aev npts [psi] = .scalar (k npts)) ∧
      Tendsto k atTop (𝓝 (SwccSpec.krel s.w (s.w aev) aev psi))) ∧
    StrictAntiOn (SwccSpec.krel s.w (s.w aev) aev) (Set.Ioc 0 1000000) ∧
    (aev < psi → SwccSpec.krel s.w (s.w aev) aev psi < 1) := by
  have g := s.good ha hb hwr hs hroom hr hc
  have hanti := g.krel_anti hv hv1 (le_refl _)
  refine ⟨?_, ⟨_, fun n => rfl, g.comp_tendsto hv hv1 (le_refl _) hp⟩, hanti, ?_⟩
  · intro npts hnp
    refine ⟨_, rfl, ?_⟩
    rcases hp1.lt_or_eq with h | h
    · have := g.comp_pos hnp hv hv1 (le_refl (s.w aev)) hp h
      refine ⟨this.le, ⟨fun e => absurd e this.ne', fun e => absurd e h.ne⟩, ?_⟩
      rintro rfl
      have hd := g.sum_pos hp h (le_refl _) hnp
      have hnR : (0:ℝ) < npts := by exact_mod_cast hnp
      have hdy : 0 < (Real.log 1000000 - Real.log psi) / npts := div_pos (by linarith [log_lt_end hp h]) hnR
      exact div_self (mul_pos hd hdy).ne'
    · subst h
      rw [comp_end]
      exact ⟨le_refl _, ⟨fun _ => rfl, fun _ => rfl⟩, fun e => absurd e hv1.ne'⟩
  · intro hlt
    refine lt_of_lt_of_eq (hanti ⟨hv, hv1.le⟩ ⟨hp, hp1⟩ hlt) ?_
    exact div_self (g.int_pos hv hv1 (le_refl _)).ne'

example : ∃ k, (PF.init 0.9 3100000 3.377 0.128 0.115 none none).k 0.001 500 [0.001] = .scalar k ∧ 0 ≤ k ∧
    (k = 0 ↔ (0.001:ℝ) = 1000000) ∧ ((0.001:ℝ) = 0.001 → k = 1) :=
  (C100_pham_fredlund _ (by norm_num [PF.init]) (by norm_num [PF.init]) (by norm_num [PF.init])
    (by norm_num [PF.init]) (by norm_num [PF.init]) (by simp only [PF.init]; positivity) rfl 0.001 (by norm_num)
    (by norm_num) 0.001 (by norm_num) (by norm_num)).1 500 (by norm_num)

end Geotecha.Const
