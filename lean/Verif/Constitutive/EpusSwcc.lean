import Verif.Constitutive.EpusRun
import Mathlib.Analysis.SpecialFunctions.Pow.Deriv
import Mathlib.Analysis.SpecialFunctions.Log.Deriv

/-!
# The water content curve, the pore-size distribution and the hysteresis of the EPUS model
-/

set_option autoImplicit false
set_option linter.unusedVariables false

namespace Geotecha.Epus

/-- Specification: the correction factor of Fredlund and Xing with residual suction `a ** (1/b)`. -/
noncomputable def corr (p : Par) (s : ℝ) : ℝ :=
  1 - Real.log (1 + s / p.a ^ (1 / p.b)) / Real.log (1 + 10 ^ 6 / p.a ^ (1 / p.b))

theorem neg_pow_ten (b : ℝ) : (10 : ℝ) ^ (-6 * b) = ((10 : ℝ) ^ (6 * b))⁻¹ := by
  rw [show -6 * b = -(6 * b) by ring, Real.rpow_neg (by norm_num)]

theorem wc_hasDerivAt (p : Par) (ha : 0 < p.a) (hg : p.Gs ≠ 0) {s : ℝ} (hs : 0 < s) :
    HasDerivAt (wc p)
      ((p.wsat - p.sl * Real.log s / (Real.log 10 * p.Gs) - p.wr) *
          (-p.a * p.b * s ^ p.b * ((10 : ℝ) ^ (-6 * p.b) * p.a + 1) / (s * (s ^ p.b + p.a) ^ 2)) -
        (p.a - p.a * s ^ p.b / (10 : ℝ) ^ (6 * p.b)) / (s ^ p.b + p.a) * (p.sl / (s * Real.log 10 * p.Gs))) s := by
  have hl : Real.log 10 ≠ 0 := (Real.log_pos (by norm_num)).ne'
  have hu : 0 < s ^ p.b := Real.rpow_pos_of_pos hs _
  have hK : (10 : ℝ) ^ (6 * p.b) ≠ 0 := (Real.rpow_pos_of_pos (by norm_num) _).ne'
  have h1 : HasDerivAt (fun x : ℝ => x ^ p.b) (p.b * s ^ p.b / s) s := by
    refine (Real.hasDerivAt_rpow_const (p := p.b) (Or.inl hs.ne')).congr_deriv ?_
    rw [Real.rpow_sub_one hs.ne']; ring
  have h2 : HasDerivAt (fun x : ℝ => p.wsat - p.sl * Real.logb 10 x / p.Gs - p.wr) (-(p.sl * (s⁻¹ / Real.log 10) / p.Gs)) s := by
    have := ((((Real.hasDerivAt_log hs.ne').div_const (Real.log 10)).const_mul p.sl).div_const p.Gs)
    exact ((this.const_sub p.wsat).sub_const p.wr)
  have h3 := (((h2.mul_const p.a).fun_mul ((h1.div_const ((10 : ℝ) ^ (6 * p.b))).const_sub 1)).fun_div
    (h1.add_const p.a) (by positivity))
  refine h3.congr_deriv ?_
  have hd : s ^ p.b + p.a ≠ 0 := by positivity
  rw [neg_pow_ten, Real.logb]
  generalize s ^ p.b = u at *
  generalize (10 : ℝ) ^ (6 * p.b) = K at *
  field_simp
  ring

theorem corr_hasDerivAt (p : Par) (ha : 0 < p.a) {s : ℝ} (hs : 0 < s) :
    HasDerivAt (corr p) (-(1 / (p.a ^ (1 / p.b) * (1 + s / p.a ^ (1 / p.b)) * Real.log (1 + 10 ^ 6 / p.a ^ (1 / p.b))))) s := by
  have hA : 0 < p.a ^ (1 / p.b) := Real.rpow_pos_of_pos ha _
  have h1 : HasDerivAt (fun x : ℝ => 1 + x / p.a ^ (1 / p.b)) (1 / p.a ^ (1 / p.b)) s :=
    ((hasDerivAt_id s).div_const _).const_add 1
  have hpos : 0 < 1 + s / p.a ^ (1 / p.b) := by positivity
  have := ((h1.log hpos.ne').div_const (Real.log (1 + 10 ^ 6 / p.a ^ (1 / p.b)))).const_sub 1
  refine this.congr_deriv ?_
  have hL : Real.log (1 + 10 ^ 6 / p.a ^ (1 / p.b)) ≠ 0 :=
    (Real.log_pos (by have : 0 < (10 : ℝ) ^ 6 / p.a ^ (1 / p.b) := by positivity
                      linarith)).ne'
  generalize p.a ^ (1 / p.b) = A at *
  have hA' : A + s ≠ 0 := by positivity
  field_simp

/-- The common factor of `Wc`. -/
theorem wc_temp (p : Par) (s : ℝ) : wc p s =
    (p.a - p.a * s ^ p.b / (10 : ℝ) ^ (6 * p.b)) / (s ^ p.b + p.a) *
      (p.wsat - p.sl * Real.log s / (Real.log 10 * p.Gs) - p.wr) := by
  unfold wc Real.logb
  rw [show p.sl * (Real.log s / Real.log 10) / p.Gs = p.sl * Real.log s / (Real.log 10 * p.Gs) by
    rw [mul_div_assoc', div_div]]
  ring

/-- **C198.**  `DWc` is not the derivative of `Wc`: it is the derivative of `(Wc + wr) * C`, the whole water content times
the Fredlund-Xing correction factor, at every positive suction. -/
theorem C198_DWc_is_derivative_of_corrected (p : Par) (ha : 0 < p.a) (hg : p.Gs ≠ 0) (s : ℝ) (hs : 0 < s) :
    HasDerivAt (fun x => (wc p x + p.wr) * corr p x) (dwc p s) s := by
  have := ((wc_hasDerivAt p ha hg hs).add_const p.wr).fun_mul (corr_hasDerivAt p ha hs)
  refine this.congr_deriv ?_
  rw [wc_temp]
  unfold dwc corr
  ring

/-- **C198, the documented derivative.**  `DWc` is documented as the derivative of `Wc`.  With no residual water content the
two already disagree at suction `10**6`: `DWc` is zero there, the derivative of `Wc` is not. -/
theorem C198_DWc_is_not_derivative (p : Par) (ha : 0 < p.a) (hb : 0 < p.b) (hg : p.Gs ≠ 0) (hwr : p.wr = 0)
    (hne : p.wsat * p.Gs ≠ 6 * p.sl) : ¬ HasDerivAt (wc p) (dwc p (10 ^ 6)) (10 ^ 6) := by
  intro h
  have h6 : (0 : ℝ) < 10 ^ 6 := by norm_num
  have hd := h.unique (wc_hasDerivAt p ha hg h6)
  have hl : Real.log 10 ≠ 0 := (Real.log_pos (by norm_num)).ne'
  have hlog : Real.log ((10 : ℝ) ^ 6) = 6 * Real.log 10 := by rw [Real.log_pow]; norm_num
  have hpow : ((10 : ℝ) ^ 6) ^ p.b = (10 : ℝ) ^ (6 * p.b) := by
    rw [← Real.rpow_natCast, ← Real.rpow_mul (by norm_num)]; norm_num
  have hA : 0 < p.a ^ (1 / p.b) := Real.rpow_pos_of_pos ha _
  have hL : Real.log (1 + 10 ^ 6 / p.a ^ (1 / p.b)) ≠ 0 :=
    (Real.log_pos (by have : 0 < (10 : ℝ) ^ 6 / p.a ^ (1 / p.b) := by positivity
                      linarith)).ne'
  unfold dwc at hd
  dsimp only at hd
  have hK : 0 < (10 : ℝ) ^ (6 * p.b) := Real.rpow_pos_of_pos (by norm_num) _
  rw [hlog, hpow, hwr, div_self hL, mul_div_cancel_right₀ _ hK.ne'] at hd
  simp only [sub_self, mul_zero, zero_div, zero_mul, add_zero, sub_zero] at hd
  have hX : p.wsat - p.sl * (6 * Real.log 10) / (Real.log 10 * p.Gs) ≠ 0 := by
    intro h0
    apply hne
    field_simp at h0
    linarith
  have hY : -p.a * p.b * (10 : ℝ) ^ (6 * p.b) * ((10 : ℝ) ^ (-6 * p.b) * p.a + 1) / (10 ^ 6 * ((10 : ℝ) ^ (6 * p.b) + p.a) ^ 2) ≠ 0 := by
    have : 0 < (10 : ℝ) ^ (-6 * p.b) := Real.rpow_pos_of_pos (by norm_num) _
    have h1 : 0 < p.a * p.b * (10 : ℝ) ^ (6 * p.b) * ((10 : ℝ) ^ (-6 * p.b) * p.a + 1) / (10 ^ 6 * ((10 : ℝ) ^ (6 * p.b) + p.a) ^ 2) := by
      positivity
    have h2 : -p.a * p.b * (10 : ℝ) ^ (6 * p.b) * ((10 : ℝ) ^ (-6 * p.b) * p.a + 1) / (10 ^ 6 * ((10 : ℝ) ^ (6 * p.b) + p.a) ^ 2) =
      -(p.a * p.b * (10 : ℝ) ^ (6 * p.b) * ((10 : ℝ) ^ (-6 * p.b) * p.a + 1) / (10 ^ 6 * ((10 : ℝ) ^ (6 * p.b) + p.a) ^ 2)) := by ring
    rw [h2]; linarith
  exact (mul_ne_zero hX hY) hd.symm

/-- **C198, the curve.**  `Wc` vanishes at suction `10**6`, and for `sl ≥ 0`, `Gs > 0` and `6 sl < (wsat - wr) Gs` it is
positive and strictly decreasing up to there. -/
theorem C198_Wc_shape (p : Par) (ha : 0 < p.a) (hb : 0 < p.b) (hg : 0 < p.Gs) (hsl : 0 ≤ p.sl)
    (hw : 6 * p.sl < (p.wsat - p.wr) * p.Gs) :
    wc p (10 ^ 6) = 0 ∧ (∀ s, 0 < s → s < 10 ^ 6 → 0 < wc p s) ∧ StrictAntiOn (wc p) (Set.Ioc 0 (10 ^ 6)) := by
  have hpow : ((10 : ℝ) ^ 6) ^ p.b = (10 : ℝ) ^ (6 * p.b) := by
    rw [← Real.rpow_natCast, ← Real.rpow_mul (by norm_num)]; norm_num
  have hK : 0 < (10 : ℝ) ^ (6 * p.b) := Real.rpow_pos_of_pos (by norm_num) _
  have l6 : Real.logb 10 ((10 : ℝ) ^ 6) = 6 := by
    rw [← Real.rpow_natCast, Real.logb_rpow (by norm_num) (by norm_num)]; norm_num
  have hX : ∀ s, 0 < s → s ≤ 10 ^ 6 → 0 < p.wsat - p.sl * Real.logb 10 s / p.Gs - p.wr := by
    intro s hs hs6
    have h1 : Real.logb 10 s ≤ 6 := by
      rw [← l6]; exact Real.logb_le_logb_of_le (by norm_num) hs hs6
    have h2 : p.sl * Real.logb 10 s / p.Gs ≤ 6 * p.sl / p.Gs := div_le_div_of_nonneg_right (by nlinarith) hg.le
    have h3 : 6 * p.sl / p.Gs < p.wsat - p.wr := by rw [div_lt_iff₀ hg]; exact hw
    linarith
  have hY : ∀ s, 0 < s → s < 10 ^ 6 → 0 < 1 - s ^ p.b / (10 : ℝ) ^ (6 * p.b) := by
    intro s hs hs6
    have : s ^ p.b < (10 : ℝ) ^ (6 * p.b) := by rw [← hpow]; exact Real.rpow_lt_rpow hs.le hs6 hb
    have := (div_lt_one hK).2 this
    linarith
  have h0 : wc p (10 ^ 6) = 0 := by
    unfold wc
    rw [hpow, div_self hK.ne', sub_self, mul_zero, zero_div]
  have hp : ∀ s, 0 < s → s < 10 ^ 6 → 0 < wc p s := by
    intro s hs hs6
    have := Real.rpow_pos_of_pos hs p.b
    exact div_pos (mul_pos (mul_pos (hX s hs hs6.le) ha) (hY s hs hs6)) (by positivity)
  refine ⟨h0, hp, ?_⟩
  rintro s ⟨hs, hs6⟩ t ⟨ht, ht6⟩ hst
  rcases eq_or_lt_of_le ht6 with rfl | ht6'
  · rw [h0]; exact hp s hs hst
  · have hu : s ^ p.b < t ^ p.b := Real.rpow_lt_rpow hs.le hst hb
    have hs0 := Real.rpow_pos_of_pos hs p.b
    have hx : p.wsat - p.sl * Real.logb 10 t / p.Gs - p.wr ≤ p.wsat - p.sl * Real.logb 10 s / p.Gs - p.wr := by
      have h1 : Real.logb 10 s ≤ Real.logb 10 t := Real.logb_le_logb_of_le (by norm_num) hs hst.le
      have : p.sl * Real.logb 10 s / p.Gs ≤ p.sl * Real.logb 10 t / p.Gs :=
        div_le_div_of_nonneg_right (mul_le_mul_of_nonneg_left h1 hsl) hg.le
      linarith
    have hy : 1 - t ^ p.b / (10 : ℝ) ^ (6 * p.b) < 1 - s ^ p.b / (10 : ℝ) ^ (6 * p.b) := by
      have := div_lt_div_of_pos_right hu hK
      linarith
    unfold wc
    have ht0 : 0 < p.wsat - p.sl * Real.logb 10 t / p.Gs - p.wr := hX t ht ht6
    have hty : 0 < 1 - t ^ p.b / (10 : ℝ) ^ (6 * p.b) := hY t ht ht6'
    apply div_lt_div₀'
    · exact (mul_lt_mul_of_pos_left hy (mul_pos ht0 ha)).le.trans
        (mul_le_mul_of_nonneg_right (mul_le_mul_of_nonneg_right hx ha.le) (hty.trans hy).le)
    · linarith
    · exact mul_pos (mul_pos (hX s hs hs6) ha) (hty.trans hy)
    · positivity

/-! ## C199: hysteresis and the compression indexes of the pore groups -/

/-- Specification: the water entry value in closed form, with `A = log10(a)/b` the air entry value at mid-curve and
`T = A + log10(2.7)/b` the point from which the tail is linear. -/
noncomputable def wevClosed (p : Par) (aev : ℝ) : ℝ :=
  if Real.logb 10 p.a / p.b + Real.logb 10 2.7 / p.b < aev then
    aev - (p.logDS - (p.logRS - 1) * (Real.logb 10 2.7 / p.b)) * (6 - aev) /
      (6 - (Real.logb 10 p.a / p.b + Real.logb 10 2.7 / p.b))
  else Real.logb 10 p.a / p.b - p.logDS + p.logRS * (aev - Real.logb 10 p.a / p.b)

theorem logb_rpow' {x : ℝ} (hx : 0 < x) (y : ℝ) : Real.logb 10 (x ^ y) = y * Real.logb 10 x :=
  Real.logb_rpow_eq_mul_logb_of_pos hx

/-- **C199, water entry value.**  The water entry value of every pore group in closed form. -/
theorem C199_wev_closed_form (p : Par) (ha : 0 < p.a) (hb : p.b ≠ 0) (hR : p.logRS ≠ 0) (aev : ℝ) :
    wevOf p aev = wevClosed p aev := by
  have hD : 0 < ((10 : ℝ) ^ p.logDS) ^ p.b := Real.rpow_pos_of_pos (Real.rpow_pos_of_pos (by norm_num) _) _
  have hbase : 0 < p.a / ((10 : ℝ) ^ p.logDS) ^ p.b := div_pos ha hD
  have hbw : 0 < (p.a / ((10 : ℝ) ^ p.logDS) ^ p.b) ^ (1 / p.logRS) := Real.rpow_pos_of_pos hbase _
  have l1 : Real.logb 10 ((p.a / ((10 : ℝ) ^ p.logDS) ^ p.b) ^ (1 / p.logRS)) =
      1 / p.logRS * (Real.logb 10 p.a - p.b * p.logDS) := by
    rw [logb_rpow' hbase, Real.logb_div ha.ne' hD.ne', logb_rpow' (Real.rpow_pos_of_pos (by norm_num) _),
      Real.logb_rpow (by norm_num) (by norm_num)]
  have lT : Real.logb 10 ((2.7 * p.a) ^ (1 / p.b)) = Real.logb 10 p.a / p.b + Real.logb 10 2.7 / p.b := by
    rw [logb_rpow' (by positivity), Real.logb_mul (by norm_num) ha.ne']; ring
  have l2 : Real.logb 10 ((2.7 * (p.a / ((10 : ℝ) ^ p.logDS) ^ p.b) ^ (1 / p.logRS)) ^ (1 / (p.b / p.logRS))) =
      p.logRS / p.b * (Real.logb 10 2.7 + 1 / p.logRS * (Real.logb 10 p.a - p.b * p.logDS)) := by
    rw [logb_rpow' (by positivity), Real.logb_mul (by norm_num) hbw.ne', l1, one_div_div]
  unfold wevOf wevClosed
  dsimp only
  rw [lT, l1, l2]
  split
  · congr 2
    congr 1
    field_simp
    ring
  · field_simp
    ring

/-- **C199, hysteresis.**  For `b > 0`, `logRS ≥ 1` and a tail point below `10**6`: every pore group with air entry value up
to `10**6` drains at or above the suction at which it refills, exactly when
`(logRS - 1) log10(2.7) / b ≤ logDS`. -/
theorem C199_hysteresis (p : Par) (ha : 0 < p.a) (hb : 0 < p.b) (hR : 1 ≤ p.logRS)
    (hT : Real.logb 10 p.a / p.b + Real.logb 10 2.7 / p.b < 6) :
    (∀ aev ≤ 6, wevOf p aev ≤ aev) ↔ (p.logRS - 1) * (Real.logb 10 2.7 / p.b) ≤ p.logDS := by
  have hL : 0 < Real.logb 10 2.7 / p.b := div_pos (Real.logb_pos (by norm_num) (by norm_num)) hb
  have hcf : ∀ aev, wevOf p aev = wevClosed p aev := C199_wev_closed_form p ha hb.ne' (by linarith)
  generalize hA : Real.logb 10 p.a / p.b = A at *
  generalize hLL : Real.logb 10 2.7 / p.b = L at *
  constructor
  · intro h
    have := h (A + L) hT.le
    rw [hcf] at this
    unfold wevClosed at this
    rw [hA, hLL, if_neg (lt_irrefl _)] at this
    linarith
  · intro h aev h6
    rw [hcf]
    unfold wevClosed
    rw [hA, hLL]
    split
    · have : 0 ≤ (p.logDS - (p.logRS - 1) * L) * (6 - aev) / (6 - (A + L)) :=
        div_nonneg (mul_nonneg (by linarith) (by linarith)) (by linarith)
      linarith
    · rename_i hc
      nlinarith [mul_nonneg (sub_nonneg.2 hR) (sub_nonneg.2 (not_lt.1 hc))]

/-- **C199, order of the pore groups.**  Under the same conditions larger air entry values have larger water entry values,
and both curves meet at `10**6`. -/
theorem C199_wev_increasing (p : Par) (ha : 0 < p.a) (hb : 0 < p.b) (hR : 1 ≤ p.logRS)
    (hT : Real.logb 10 p.a / p.b + Real.logb 10 2.7 / p.b < 6)
    (hD : (p.logRS - 1) * (Real.logb 10 2.7 / p.b) ≤ p.logDS) : StrictMono (wevOf p) ∧ wevOf p 6 = 6 := by
  have hcf : ∀ aev, wevOf p aev = wevClosed p aev := C199_wev_closed_form p ha hb.ne' (by linarith)
  generalize hA : Real.logb 10 p.a / p.b = A at *
  generalize hLL : Real.logb 10 2.7 / p.b = L at *
  have hk : 0 ≤ (p.logDS - (p.logRS - 1) * L) / (6 - (A + L)) := div_nonneg (by linarith) (by linarith)
  have e : ∀ x, wevOf p x = if A + L < x then x - (p.logDS - (p.logRS - 1) * L) / (6 - (A + L)) * (6 - x)
      else A - p.logDS + p.logRS * (x - A) := by
    intro x
    rw [hcf]; unfold wevClosed; rw [hA, hLL]
    split
    · ring
    · rfl
  have hkT : (p.logDS - (p.logRS - 1) * L) / (6 - (A + L)) * (6 - (A + L)) = p.logDS - (p.logRS - 1) * L :=
    div_mul_cancel₀ _ (by linarith)
  generalize (p.logDS - (p.logRS - 1) * L) / (6 - (A + L)) = k at *
  refine ⟨fun x y hxy => ?_, by rw [e, if_pos hT]; ring⟩
  rw [e, e]
  by_cases hx : A + L < x
  · rw [if_pos hx, if_pos (hx.trans hxy)]; nlinarith
  · rw [if_neg hx]
    by_cases hy : A + L < y
    · rw [if_pos hy]
      have h1 := not_lt.1 hx
      nlinarith [mul_nonneg (by linarith : 0 ≤ p.logRS) (sub_nonneg.2 h1), mul_nonneg hk (sub_nonneg.2 hy.le)]
    · rw [if_neg hy]; nlinarith

/-- **C199, volumes and dry index.**  Slurry pore group `i` has air entry value `minS + i·I`; on its virgin line at its own air entry suction
`s = 10^(minS + i·I)` it has its dry volume `(-Gs·DWc(s)·s·ln 10 - temp·Ccs)·I` (cut off at zero), it starts at the smallest suction with that volume
plus its virgin compression, and its dry index is to the saturated one as `Ccd` is to `Ccs`. -/
theorem C199_slurry_volumes (p : Par) (hC : p.Ccs ≠ 0) (e : Bool) (d w : List ℝ) (st : State) (h : slurry p e d w = .ok st)
    (i : ℕ) (hi : i < p.npoint) (q : Pore) (hq : st.f[i]? = some q) :
    let I := (p.maxS - p.minS) / p.npoint
    let s := (10 : ℝ) ^ (i * I + p.minS)
    let dry := (-p.Gs * dwc p s * s * Real.log 10 - (p.a - p.a * s ^ p.b / (10 : ℝ) ^ (6 * p.b)) / (s ^ p.b + p.a) * p.Ccs) * I
    q.AEV = i * I + p.minS ∧ q.Ccd * p.Ccs = q.Ccp * p.Ccd ∧ q.RVC = q.RV ∧ q.RV = dry + i * I * q.Ccp ∧
      changevolume p q.RV s s q.Ccp q.Csp = .ok (max 0 dry) := by
  intro I s dry
  have e1 := (slurry_inv h).1
  have hq' : q = slurryRow p i := by
    rw [e1] at hq
    simp only [List.getElem?_map, List.getElem?_range hi, Option.map_some] at hq
    exact (Option.some.inj hq).symm
  subst hq'
  have hs : 0 < s := Real.rpow_pos_of_pos (by norm_num) _
  have hlog : Real.logb 10 s = i * I + p.minS := Real.logb_rpow (by norm_num) (by norm_num)
  have hrv : (slurryRow p i).RV = dry + i * I * (slurryRow p i).Ccp := by
    show dry + ((i * I + p.minS) - p.minS) * (dryRow p i).Ccp = dry + i * I * (dryRow p i).Ccp
    ring
  refine ⟨rfl, ?_, rfl, hrv, ?_⟩
  · show (dryRow p i).Ccp * (p.Ccd / p.Ccs) * p.Ccs = (dryRow p i).Ccp * p.Ccd
    field_simp
  · unfold changevolume
    simp only [log10_pos hs, Bind.bind, Except.bind]
    rw [hlog, hrv]
    have e2 : dry + i * I * (slurryRow p i).Ccp - (i * I + p.minS - p.minS) * (slurryRow p i).Ccp + (i * I + p.minS - (i * I + p.minS)) * (slurryRow p i).Csp
        = dry := by ring
    rw [e2]
    split
    · rename_i hp; rw [max_eq_right hp.le]
    · rename_i hp; rw [max_eq_left (not_lt.1 hp)]

/-- **C199, indexes.**  With `a, b, Ccs > 0` and `0 ≤ Css ≤ Ccs` every slurry pore group has `0 ≤ Csp ≤ Ccp`, `0 < Ccp` and a
positive yield stress, is filled, and has never dried. -/
theorem C199_slurry_groups (p : Par) (ha : 0 < p.a) (hb : 0 < p.b) (hC : 0 < p.Ccs) (hS0 : 0 ≤ p.Css) (hS1 : p.Css ≤ p.Ccs)
    (hr : p.minS < p.maxS) (e : Bool) (d w : List ℝ) (st : State) (h : slurry p e d w = .ok st) :
    Indexed st ∧ (∀ q ∈ st.f, 0 < q.Ccp ∧ q.Csp * p.Ccs = q.Ccp * p.Css) ∧ AllWet st ∧ st.f.length = p.npoint := by
  have e1 := (slurry_inv h).1
  have key : ∀ i < p.npoint, 0 ≤ (slurryRow p i).Csp ∧ (slurryRow p i).Csp ≤ (slurryRow p i).Ccp ∧ 0 < (slurryRow p i).Ccp ∧
      (slurryRow p i).Csp * p.Ccs = (slurryRow p i).Ccp * p.Css := by
    intro i hi
    have hn : (0 : ℝ) < p.npoint := by exact_mod_cast (by omega : 0 < p.npoint)
    have hI : 0 < interval p := div_pos (by linarith) hn
    set aev : ℝ := i * interval p + p.minS with haev
    have hs := pow10_pos aev
    have hu : 0 < pow10 aev ^ p.b := Real.rpow_pos_of_pos hs _
    have h10 : 0 < (10 : ℝ) ^ (-6 * p.b) := Real.rpow_pos_of_pos (by norm_num) _
    have hsl : 0 < -ccSlope p (pow10 aev) := by
      unfold ccSlope
      have : 0 < p.a * p.b * pow10 aev ^ p.b * (p.a * (10 : ℝ) ^ (-6 * p.b) + 1) / (pow10 aev * (pow10 aev ^ p.b + p.a) ^ 2) := by
        positivity
      have e : -p.a * p.b * pow10 aev ^ p.b * (p.a * (10 : ℝ) ^ (-6 * p.b) + 1) / (pow10 aev * (pow10 aev ^ p.b + p.a) ^ 2) =
        -(p.a * p.b * pow10 aev ^ p.b * (p.a * (10 : ℝ) ^ (-6 * p.b) + 1) / (pow10 aev * (pow10 aev ^ p.b + p.a) ^ 2)) := by ring
      rw [e]; linarith
    have hdiff : 0 < pow10 (aev + interval p) - pow10 aev := by
      have : pow10 aev < pow10 (aev + interval p) := Real.rpow_lt_rpow_of_exponent_lt (by norm_num) (by linarith)
      linarith
    have c1 : (slurryRow p i).Ccp = -ccSlope p (pow10 aev) * p.Ccs * (pow10 (aev + interval p) - pow10 aev) := rfl
    have c2 : (slurryRow p i).Csp = -ccSlope p (pow10 aev) * p.Css * (pow10 (aev + interval p) - pow10 aev) := rfl
    rw [c1, c2]
    refine ⟨mul_nonneg (mul_nonneg hsl.le hS0) hdiff.le, ?_, mul_pos (mul_pos hsl hC) hdiff, by ring⟩
    exact mul_le_mul_of_nonneg_right (mul_le_mul_of_nonneg_left hS1 hsl.le) hdiff.le
  refine ⟨?_, ?_, ?_, ?_⟩
  · intro q hq
    rw [e1] at hq
    simp only [List.mem_map, List.mem_range] at hq
    obtain ⟨i, hi, rfl⟩ := hq
    exact ⟨(key i hi).1, (key i hi).2.1, by show (0 : ℝ) < 0.0001; norm_num⟩
  · intro q hq
    rw [e1] at hq
    simp only [List.mem_map, List.mem_range] at hq
    obtain ⟨i, hi, rfl⟩ := hq
    exact (key i hi).2.2
  · intro q hq
    rw [e1] at hq
    simp only [List.mem_map, List.mem_range] at hq
    obtain ⟨i, hi, rfl⟩ := hq
    exact ⟨rfl, rfl⟩
  · rw [e1]; simp

/-- **C199, histories.**  The ordering of the indexes survives every history, so the compression theorems apply in every
state reached from the slurry. -/
theorem C199_indexes_kept (p : Par) (ops : List Op) (st st' : State) (hi : Indexed st) (h : runOps p ops st = .ok st') :
    Indexed st' :=
  f2_mem_right (C187_history_invariants p ops st st' h).1 hi fun q q' hq hqq =>
    ⟨by rw [hqq.group.2.2.2.1]; exact hq.1, by rw [hqq.group.2.2.2.1, hqq.group.2.2.1]; exact hq.2.1,
      lt_of_lt_of_le hq.2.2 hqq.yield⟩

end Geotecha.Epus
