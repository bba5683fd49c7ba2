import Verif.Constitutive.PropsYG

/-! # C210, C211, C213, C214: constant stress, stress from void ratio, slopes, re-initialisation -/

set_option autoImplicit false
set_option linter.unusedVariables false

namespace Geotecha.YG
open Geotecha.Spec

/-! ### C210 -/

/-- **C210, holding the stress: the time does not matter.** `e_from_stress` at the stress the object is at gives the same
void ratio and the same object whatever the time increment. -/
theorem C210_hold_ignores_time (o : Obj) (i : Init) (hinit : o.init = some i) (dt dt' : ℝ) :
    eFromStress o o.estress (some dt) none = eFromStress o o.estress (some dt') none := by
  simp only [eFromStress, hinit, incOf, if_true]

/-- **C210, holding the stress: the number of calls matters.** `n` calls at the present stress add
`n (estress/estress0)/t0` to the creep integral, however long the increments. -/
theorem C210_hold_counts_calls (o : Obj) (i : Init) (hinit : o.init = some i) (dts : List ℝ) :
    ∃ es o', eSteps o (dts.map fun d => (o.estress, d)) = .ok (es, o') ∧
      o'.igral = o.igral + dts.length * (o.estress / i.s0 / i.t0) ∧ o'.estress = o.estress ∧ o'.init = some i ∧
      (dts ≠ [] → es.getLast? = some (voidRatio o.par i o'.igral o.estress)) := by
  induction dts generalizing o with
  | nil => exact ⟨[], o, rfl, by simp, rfl, hinit, fun h => absurd rfl h⟩
  | cons d r ih =>
    set o1 := o.advance (incOf o.par i o.estress o.estress d) o.estress with ho1
    obtain ⟨es, o', h1, h2, h3, h4, h5⟩ := ih o1 hinit
    refine ⟨voidRatio o.par i o1.igral o.estress :: es, o', ?_, ?_, h3, h4, ?_⟩
    · simp only [List.map_cons, eSteps, eFromStress_ok o i hinit]
      change (do let (es, o2) ← eSteps o1 (r.map fun d => (o1.estress, d)); return (_ :: es, o2)) = _
      rw [h1]; rfl
    · rw [h2, ho1]
      simp only [Obj.advance, incOf, if_true, List.length_cons]
      push_cast; ring
    · intro _
      by_cases hr : r = []
      · subst hr
        simp only [List.map_nil, eSteps] at h1
        cases h1
        rfl
      · have := h5 hr
        cases es with
        | nil => simp at this
        | cons a l => rw [List.getLast?_cons_cons]; exact this

/-- **C210, what it should be.** Under constant stress the rate law gives the void ratio with `dt/t0 (estress/estress0)**alpha`
added to the creep integral; the value returned by `e_from_stress` agrees with it only for the one time increment
`dt = (estress/estress0)**(1-alpha)`. -/
theorem C210_hold_wrong (p : Par) (h : p.soil.Good) (i : Init) (hi : i.Good p) (o : Obj) (hp : o.par = p)
    (hinit : o.init = some i) (hI : 0 ≤ o.igral) (hes : 0 < o.estress) (dt : ℝ) (hdt : 0 < dt) (E : ℝ → ℝ)
    (hE0 : E 0 = voidRatio p i o.igral o.estress) (hc : ContinuousOn E (Set.Icc 0 dt))
    (hr : ∀ t ∈ Set.Ioo 0 dt, YGRate p.soil (fun _ => o.estress) E t) :
    ∃ e o', eFromStress o o.estress (some dt) none = .ok (e, o') ∧
      (e = E dt ↔ dt = (o.estress / i.s0) ^ (1 - p.alpha)) ∧ (e < E dt ↔ dt < (o.estress / i.s0) ^ (1 - p.alpha)) := by
  have h0 := hi.s0
  have ht := hi.t0
  have hE := step_unique_gen h hi hdt (by linarith) (fun _ => o.estress) E
    (fun t => t * (1 / i.t0 * (o.estress / i.s0) ^ p.alpha)) (fun t _ => hes) continuousOn_const hE0 (by simp)
    (by fun_prop) (fun t _ => (((hasDerivAt_id t).mul_const _)).congr_deriv (by simp)) hc hr
  refine ⟨_, _, eFromStress_ok o i hinit _ _, ?_⟩
  rw [hE, hp]
  simp only [incOf, if_true, voidRatio]
  have hx : 0 < o.estress / i.s0 := div_pos hes h0
  set x := o.estress / i.s0 with hxd
  have hxa := Real.rpow_pos_of_pos hx p.alpha
  have hxe : x ^ (1 - p.alpha) = x / x ^ p.alpha := by rw [Real.rpow_sub hx, Real.rpow_one]
  have hpsi : 0 < p.psi := h.psi
  have A : 0 < o.igral + x / i.t0 + 1 := by positivity
  have B : 0 < o.igral + dt * (1 / i.t0 * x ^ p.alpha) + 1 := by positivity
  have e1 : dt = x ^ (1 - p.alpha) ↔ x / i.t0 = dt * (1 / i.t0 * x ^ p.alpha) := by
    rw [hxe]; constructor
    · rintro rfl; field_simp
    · intro hh; field_simp at hh ⊢; linarith
  have e2 : dt < x ^ (1 - p.alpha) ↔ dt * (1 / i.t0 * x ^ p.alpha) < x / i.t0 := by
    rw [hxe, lt_div_iff₀ hxa, show dt * (1 / i.t0 * x ^ p.alpha) = dt * x ^ p.alpha / i.t0 by ring, div_lt_div_iff_of_pos_right ht]
  rw [e1, e2]
  constructor
  · constructor
    · intro hh
      have : Real.log (o.igral + x / i.t0 + 1) = Real.log (o.igral + dt * (1 / i.t0 * x ^ p.alpha) + 1) := by
        have h3 : p.psi * Real.log (o.igral + x / i.t0 + 1) = p.psi * Real.log (o.igral + dt * (1 / i.t0 * x ^ p.alpha) + 1) := by
          linarith
        exact mul_left_cancel₀ hpsi.ne' h3
      have := Real.log_injOn_pos A B this
      linarith
    · intro hh; rw [hh]
  · have e3 : dt * (1 / i.t0 * x ^ p.alpha) < x / i.t0 ↔
        Real.log (o.igral + dt * (1 / i.t0 * x ^ p.alpha) + 1) < Real.log (o.igral + x / i.t0 + 1) := by
      rw [Real.log_lt_log_iff B A]; constructor <;> intro hh <;> linarith
    rw [e3]
    constructor
    · intro hh
      have : p.psi * Real.log (o.igral + dt * (1 / i.t0 * x ^ p.alpha) + 1) < p.psi * Real.log (o.igral + x / i.t0 + 1) := by
        linarith
      exact lt_of_mul_lt_mul_left this hpsi.le
    · intro hh
      have := mul_lt_mul_of_pos_left hh hpsi
      linarith

/-! ### C211 -/

/-- **C211, state after `stress_from_e`.** Whatever the iteration did, if `stress_from_e(e, dt)` returns, the returned
array contains the positive stress now stored in the object, and void ratio, stress and creep integral satisfy the soil's
equation exactly.  The creep integral grew by the increment for some stress `x`, which is not the returned stress in
general; when `x` is not the previous stress, every stress at which `e_from_stress` would give `e` lies between `x` and
the returned one. -/
theorem C211_state (p : Par) (h : p.soil.Good) (i : Init) (hi : i.Good p) (o : Obj) (hp : o.par = p)
    (hinit : o.init = some i) (hI : 0 ≤ o.igral) (hes : 0 < o.estress) (e dt : ℝ) (hdt : 0 < dt) (r : Ret) (o' : Obj)
    (hr : stressFromE o e dt = .ok (r, o')) :
    r.read o' = o'.estress ∧ 0 < o'.estress ∧ voidRatio p i o'.igral o'.estress = e ∧ o'.init = some i ∧ o'.par = p ∧
    ∃ x, 0 < x ∧ o'.igral = o.igral + incOf p i o.estress x dt ∧
      (x ≠ o.estress → ∀ y o'', 0 < y → y ≠ o.estress → eFromStress o y (some dt) none = .ok (e, o'') →
        y ∈ Set.uIcc x o'.estress) := by
  have hk : p.kap ≠ 0 := ne_of_gt h.kap
  have hkp : 0 < p.kap := h.kap
  have hpsi : 0 < p.psi := h.psi
  have h0 := hi.s0
  have ha := alpha_pos h
  have hfpos : ∀ x, 0 < fpFun o i e dt x := fun x => mul_pos (Real.exp_pos _) h0
  have hlast : ∀ (n : ℕ) (p0 : ℝ), ∀ x, fixedPoint (fpFun o i e dt) n p0 = some x → 0 < x := by
    intro n
    induction n with
    | zero => intro p0 x hx; cases hx
    | succ n ih =>
      intro p0 x hx
      rw [fixedPoint] at hx
      by_cases hc : |if p0 = 0 then fpFun o i e dt (fpFun o i e dt p0) else
          (fpFun o i e dt (fpFun o i e dt p0) - p0) / p0| < 1 / 1000
      · simp only [if_pos hc] at hx
        cases hx; exact hfpos _
      · simp only [if_neg hc] at hx
        exact ih _ _ hx
  simp only [stressFromE, hinit] at hr
  cases hfp : fixedPoint (fpFun o i e dt) 500 o.estress with
  | none => rw [hfp] at hr; cases hr
  | some x =>
    rw [hfp] at hr
    cases hr
    have hx := hlast _ _ _ hfp
    refine ⟨by simp [Ret.read], hfpos x, ?_, rfl, hp, x, hx, by rw [hp], ?_⟩
    · simp only [voidRatio, fpFun, hp]
      rw [mul_div_assoc, div_self h0.ne', mul_one, Real.log_exp,
        show 1 + incOf p i o.estress x dt + o.igral = o.igral + incOf p i o.estress x dt + 1 by ring]
      field_simp; ring
    · intro hxne y o'' hy hyne hey
      rw [eFromStress_ok o i hinit, hp] at hey
      injection hey with hey
      injection hey with hey _
      -- `y` is a fixed point, and the map decreases
      have hmono : ∀ a b, 0 < a → a ≤ b → a ≠ o.estress → b ≠ o.estress →
          incOf p i o.estress a dt ≤ incOf p i o.estress b dt := by
        intro a b h1 h2 h3 h4
        rw [incOf_eq_integral h hi hes h1 hdt h3, incOf_eq_integral h hi hes (h1.trans_le h2) hdt h4]
        have hcont : ∀ s, Continuous fun u : ℝ => 1 / i.t0 * ((o.estress + u * ((s - o.estress) / dt)) / i.s0) ^ p.alpha := by
          intro s
          refine continuous_const.mul ?_
          exact Continuous.rpow_const (by fun_prop) (fun x => Or.inr ha.le)
        refine intervalIntegral.integral_mono_on hdt.le ((hcont a).intervalIntegrable _ _) ((hcont b).intervalIntegrable _ _) ?_
        intro u hu
        refine mul_le_mul_of_nonneg_left ?_ (one_div_nonneg.2 hi.t0.le)
        refine Real.rpow_le_rpow (div_nonneg (lin_pos hes h1 hdt hu.1 hu.2).le h0.le) ?_ ha.le
        refine div_le_div_of_nonneg_right ?_ h0.le
        have : u * ((a - o.estress) / dt) ≤ u * ((b - o.estress) / dt) :=
          mul_le_mul_of_nonneg_left (div_le_div_of_nonneg_right (by linarith) hdt.le) hu.1
        linarith
      have hfy : fpFun o i e dt y = y := by
        simp only [fpFun, hp]
        have : (-(p.psi * Real.log (1 + incOf p i o.estress y dt + o.igral)) + i.e0 - e) / p.kap = Real.log (y / i.s0) := by
          rw [← hey, voidRatio, show 1 + incOf p i o.estress y dt + o.igral = o.igral + incOf p i o.estress y dt + 1 by ring]
          field_simp; ring
        rw [this, Real.exp_log (div_pos hy h0)]; field_simp
      have hfanti : ∀ a b, 0 < a → a ≤ b → a ≠ o.estress → b ≠ o.estress → fpFun o i e dt b ≤ fpFun o i e dt a := by
        intro a b h1 h2 h3 h4
        have hm := hmono a b h1 h2 h3 h4
        have hpa := incOf_pos h hi hes h1 hdt
        simp only [fpFun, hp]
        refine mul_le_mul_of_nonneg_right (Real.exp_le_exp.2 (div_le_div_of_nonneg_right ?_ hkp.le)) h0.le
        have := Real.log_le_log (by linarith : 0 < 1 + incOf p i o.estress a dt + o.igral)
          (by linarith : 1 + incOf p i o.estress a dt + o.igral ≤ 1 + incOf p i o.estress b dt + o.igral)
        have := mul_le_mul_of_nonneg_left this hpsi.le
        linarith
      simp only [Set.mem_uIcc]
      rcases le_total x y with hxy | hxy
      · left; exact ⟨hxy, by have := hfanti x y hx hxy hxne hyne; rwa [hfy] at this⟩
      · right; exact ⟨by have := hfanti y x hy hxy hyne hxne; rwa [hfy] at this, hxy⟩

/-- **C211, the result is overwritten.** The array returned by `stress_from_e` is a working array of the object: the next
call changes it, so that afterwards the earlier result reads as the later one. -/
theorem C211_result_overwritten (o o1 o2 : Obj) (i : Init) (hinit : o.init = some i) (e1 dt1 e2 dt2 : ℝ) (r1 r2 : Ret)
    (h1 : stressFromE o e1 dt1 = .ok (r1, o1)) (h2 : stressFromE o1 e2 dt2 = .ok (r2, o2)) :
    r1 = r2 ∧ r1.read o1 = o1.estress ∧ r1.read o2 = o2.estress := by
  simp only [stressFromE, hinit] at h1
  split at h1
  · cases h1
  · cases h1
    simp only [stressFromE, hinit] at h2
    split at h2
    · cases h2
    · cases h2
      exact ⟨rfl, by simp [Ret.read], by simp [Ret.read]⟩

/-- A soil with `psi = kap`, `lam = 3 kap`. -/
noncomputable def cycSoil : Par := ⟨3, 1, 1, 1, 10, 1⟩
/-- A normally consolidated state of it. -/
noncomputable def cycInit : Init := ⟨10, 1, 1, 1⟩
/-- The object in that state. -/
noncomputable def cycObj : Obj := ⟨cycSoil, some cycInit, 0, false, 1, 0, fun _ => 0, 1⟩

theorem cycSoil_good : cycSoil.soil.Good := by
  constructor <;> simp only [cycSoil, Par.soil] <;> norm_num

theorem cycInit_good : cycInit.Good cycSoil := by
  constructor
  · simp [cycInit]
  · simp [cycInit]
  · simp [cycInit]
  · simp [YGState, cycInit, cycSoil, Par.soil]

theorem cyc_construct : construct cycSoil none (some 1) (some 1) none = .ok ⟨cycSoil, some cycInit, 0, false, 1, 0, fun _ => 0, 1⟩ := by
  have hf : (fun k : ℕ => if k = 0 + 1 then (0:ℝ) else 0) = fun _ => 0 := by funext k; simp
  simp only [construct, initialConditions, cycSoil]
  norm_num
  simp only [Obj.store, Obj.setInit, cycInit, Real.log_one, Real.one_rpow]
  norm_num

theorem cyc_inc (x : ℝ) (hx : x ≠ 1) : incOf cycSoil cycInit 1 x (3/7) = (x ^ 2 + x + 1) / 7 := by
  have ha : cycSoil.alpha = 2 := by simp only [Par.alpha, cycSoil]; norm_num
  rw [incOf, if_neg hx, ha]
  simp only [cycInit]
  have h3 : ((2:ℝ) + 1) = ((3 : ℕ) : ℝ) := by norm_num
  rw [h3, Real.rpow_natCast, Real.rpow_natCast]
  have : x - 1 ≠ 0 := sub_ne_zero.2 hx
  field_simp
  ring

theorem cyc_fp (x : ℝ) (hx : 0 < 1 + incOf cycSoil cycInit 1 x (3/7)) :
    fpFun cycObj cycInit (10 - Real.log 8) (3/7) x = 8 / (1 + incOf cycSoil cycInit 1 x (3/7)) := by
  simp only [fpFun, cycObj, add_zero]
  simp only [cycSoil, cycInit] at *
  rw [show ((-(1 * Real.log (1 + incOf ⟨3, 1, 1, 1, 10, 1⟩ ⟨10, 1, 1, 1⟩ 1 x (3/7))) + 10 - (10 - Real.log 8)) / 1 : ℝ)
    = Real.log 8 - Real.log (1 + incOf ⟨3, 1, 1, 1, 10, 1⟩ ⟨10, 1, 1, 1⟩ 1 x (3/7)) by ring, Real.exp_sub, Real.exp_log (by norm_num),
    Real.exp_log hx, mul_one]

/-- **C211, a false answer without a warning.** The iteration can settle on an oscillation between two stresses and return
one of them: for this normally consolidated soil, `stress_from_e` returns the stress 2 for a void ratio that belongs to a
stress between 2 and 4 (and `e_from_stress` at 2 gives a different void ratio). -/
theorem C211_false_answer : ∃ (p : Par) (o o' : Obj) (i : Init) (e dt : ℝ) (r : Ret),
    p.soil.Good ∧ i.Good p ∧ construct p none (some 1) (some 1) none = .ok o ∧ o.init = some i ∧ 0 < dt ∧
    stressFromE o e dt = .ok (r, o') ∧ r.read o' = 2 ∧
    (∃ y o'', 2 < y ∧ y < 4 ∧ eFromStress o y (some dt) none = .ok (e, o'')) ∧
    (∀ o'', eFromStress o 2 (some dt) none ≠ .ok (e, o'')) := by
  have i1 : incOf cycSoil cycInit 1 1 (3/7) = 1 := by rw [incOf, if_pos rfl]; simp [cycInit]
  have i2 : incOf cycSoil cycInit 1 2 (3/7) = 1 := by rw [cyc_inc 2 (by norm_num)]; norm_num
  have i4 : incOf cycSoil cycInit 1 4 (3/7) = 3 := by rw [cyc_inc 4 (by norm_num)]; norm_num
  have f1 : fpFun cycObj cycInit (10 - Real.log 8) (3/7) 1 = 4 := by rw [cyc_fp _ (by rw [i1]; norm_num), i1]; norm_num
  have f2 : fpFun cycObj cycInit (10 - Real.log 8) (3/7) 2 = 4 := by rw [cyc_fp _ (by rw [i2]; norm_num), i2]; norm_num
  have f4 : fpFun cycObj cycInit (10 - Real.log 8) (3/7) 4 = 2 := by rw [cyc_fp _ (by rw [i4]; norm_num), i4]; norm_num
  have hfix : fixedPoint (fpFun cycObj cycInit (10 - Real.log 8) (3/7)) 500 cycObj.estress = some 4 := by
    have he : cycObj.estress = 1 := rfl
    rw [he]
    rw [fixedPoint]
    simp only [f1, f4]
    rw [if_neg (by norm_num), fixedPoint]
    simp only [f2, f4]
    rw [if_pos (by norm_num)]
  have hs : ∃ r o', stressFromE cycObj (10 - Real.log 8) (3/7) = .ok (r, o') ∧ r.read o' = 2 := by
    have hin : cycObj.init = some cycInit := rfl
    simp only [stressFromE, hin, hfix]
    refine ⟨_, _, rfl, ?_⟩
    simp [Ret.read, f4]
  obtain ⟨r, o', hr, hread⟩ := hs
  refine ⟨cycSoil, cycObj, o', cycInit, 10 - Real.log 8, 3/7, r, cycSoil_good, cycInit_good, cyc_construct, rfl, by norm_num, hr, hread, ?_, ?_⟩
  · have hcont : ContinuousOn (fun x : ℝ => x ^ 3 + x ^ 2 + 8 * x) (Set.Icc 2 4) := by fun_prop
    obtain ⟨y, hy, hey⟩ := intermediate_value_Ioo (by norm_num : (2:ℝ) ≤ 4) hcont (show (56:ℝ) ∈ Set.Ioo _ _ by norm_num)
    refine ⟨y, cycObj.advance (incOf cycObj.par cycInit cycObj.estress y (3/7)) y, hy.1, hy.2, ?_⟩
    rw [eFromStress_ok cycObj cycInit rfl]
    congr 2
    simp only [cycObj, zero_add]
    rw [cyc_inc y (by linarith [hy.1]), voidRatio]
    simp only [cycSoil, cycInit, one_mul, div_one]
    have hpos : 0 < (y ^ 2 + y + 1) / 7 + 1 := by have := hy.1; positivity
    have : Real.log 8 = Real.log y + Real.log ((y ^ 2 + y + 1) / 7 + 1) := by
      rw [← Real.log_mul (by linarith [hy.1]) hpos.ne']
      congr 1
      simp only at hey
      field_simp
      linarith
    linarith
  · intro o'' hc
    rw [eFromStress_ok cycObj cycInit rfl] at hc
    injection hc with hc
    injection hc with hc _
    simp only [cycObj, zero_add] at hc
    rw [i2, voidRatio] at hc
    simp only [cycSoil, cycInit, one_mul, div_one] at hc
    have h2 : Real.log 2 + Real.log (1 + 1) = Real.log 8 := by linarith
    rw [← Real.log_mul (by norm_num) (by norm_num)] at h2
    have := Real.log_injOn_pos (by norm_num : (2 * (1 + 1) : ℝ) ∈ Set.Ioi 0) (by norm_num : (8:ℝ) ∈ Set.Ioi 0) h2
    norm_num at this

/-! ### C213 -/

/-- Stepping keeps material and initial conditions. -/
theorem eSteps_init (steps : List (ℝ × ℝ)) : ∀ (o o' : Obj) (es : List ℝ), eSteps o steps = .ok (es, o') →
    o'.par = o.par ∧ o'.init = o.init ∧ es.length = steps.length := by
  induction steps with
  | nil => intro o o' es h; cases h; exact ⟨rfl, rfl, rfl⟩
  | cons a r ih =>
    obtain ⟨s, dt⟩ := a
    intro o o' es h
    cases hi : o.init with
    | none => simp only [eSteps, eFromStress, hi] at h; cases h
    | some i =>
      simp only [eSteps, eFromStress_ok o i hi] at h
      change (do let (es, o2) ← eSteps (o.advance _ s) r; return (_ :: es, o2)) = _ at h
      cases h1 : eSteps (o.advance (incOf o.par i o.estress s dt) s) r with
      | error e => rw [h1] at h; cases h
      | ok v =>
        obtain ⟨es1, o1⟩ := v
        rw [h1] at h
        cases h
        obtain ⟨a1, a2, a3⟩ := ih _ _ _ h1
        exact ⟨a1, by rw [a2, ← hi]; rfl, by simp [a3]⟩

/-- **C213, slope of the void ratio stress curve.** Let the soil follow its rate law, at a moment when the stress has rate
`r` and the void ratio is the one of the object.  Then `av_from_stress` with `estressdot = r` is minus the slope `de/dstress` if the
stress increases; if it decreases it exceeds it by twice the creep part (it has the wrong sign of the creep part).  Without
`estressdot` the value is a lower bound. -/
theorem C213_slope (p : Par) (h : p.soil.Good) (i : Init) (hi : i.Good p) (o : Obj) (hp : o.par = p)
    (hinit : o.init = some i) (hI : 0 ≤ o.igral) (σ E : ℝ → ℝ) (t r : ℝ) (hσ : 0 < σ t) (hd : HasDerivAt σ r t)
    (hE : E t = voidRatio p i o.igral (σ t)) (hrate : YGRate p.soil σ E t) :
    ∃ av av0 creep, avFromStress o (σ t) (some r) = .ok av ∧ avFromStress o (σ t) none = .ok av0 ∧ 0 < creep ∧
      (0 < r → HasDerivAt E (-av * r) t) ∧ (r < 0 → HasDerivAt E (-(av - 2 * (creep / |r|)) * r) t) ∧ av0 ≤ av := by
  have ht := hi.t0
  have h0 := hi.s0
  have hpsi : 0 < p.psi := h.psi
  have hid := rate_identity h hi hσ
  have hx := Real.rpow_pos_of_pos (div_pos hσ h0) p.alpha
  have hJ : 0 < o.igral + 1 := by linarith
  obtain ⟨s', d1, d2⟩ := hrate
  have hs' := d1.unique hd
  subst hs'
  simp only [Par.soil] at d2
  have key : p.psi / p.ta * Real.exp ((E t - p.ea) / p.psi) * (σ t / p.siga) ^ (p.lam / p.psi)
      = p.psi / i.t0 / (o.igral + 1) * (σ t / i.s0) ^ p.alpha := by
    rw [hE, voidRatio, show (i.e0 - p.kap * Real.log (σ t / i.s0) - p.psi * Real.log (o.igral + 1) - p.ea) / p.psi
      = (i.e0 - p.ea - p.kap * Real.log (σ t / i.s0)) / p.psi - Real.log (o.igral + 1) by field_simp; ring,
      Real.exp_sub, Real.exp_log hJ]
    calc _ = p.psi / (o.igral + 1) * (1 / p.ta * Real.exp ((i.e0 - p.ea - p.kap * Real.log (σ t / i.s0)) / p.psi) * (σ t / p.siga) ^ (p.lam / p.psi)) := by ring
      _ = _ := by rw [hid]; ring
  rw [key] at d2
  refine ⟨p.kap / σ t + p.psi / i.t0 / |s'| / (o.igral + 1) * (σ t / i.s0) ^ p.alpha, p.kap / σ t,
    p.psi / i.t0 / (o.igral + 1) * (σ t / i.s0) ^ p.alpha, by simp only [avFromStress, hinit, hp], by simp only [avFromStress, hp],
    by positivity, ?_, ?_, ?_⟩
  · intro hr
    refine d2.congr_deriv ?_
    rw [abs_of_pos hr]; field_simp; ring
  · intro hr
    refine d2.congr_deriv ?_
    have hr' : s' ≠ 0 := hr.ne
    rw [abs_of_neg hr]; field_simp; ring
  · have : 0 ≤ p.psi / i.t0 / |s'| / (o.igral + 1) * (σ t / i.s0) ^ p.alpha := by positivity
    linarith

/-! ### C214 -/

/-- **C214, initial void ratio.** Without a time increment `e_from_stress` gives the void ratio of the model without
creep if the stress does not exceed the preconsolidation stress; beyond it, it stays on the instant time line and is too
large by `(lam - kap) ln(estress/pstress)`. -/
theorem C214_initial_void_ratio (p : Par) (h : p.soil.Good) (o : Obj) (hp : o.par = p) (s ps : ℝ) (hs : 0 < s) (hps : 0 < ps) :
    ∃ e o', eFromStress o s none (some ps) = .ok (e, o') ∧
      e = (⟨Real.log 10 * p.lam, Real.log 10 * p.kap, p.siga, p.ea⟩ : Const.CcCr).eFromStress s (some ps)
        + (p.lam - p.kap) * max 0 (Real.log (s / ps)) := by
  have hsg : 0 < p.siga := h.siga
  have hl : Real.log 10 ≠ 0 := (Real.log_pos (by norm_num)).ne'
  simp only [eFromStress, initialConditions, Option.getD_some, hp]
  refine ⟨_, _, rfl, ?_⟩
  simp only [Const.CcCr.eFromStress, Option.getD_some, Const.log10, Real.logb]
  rcases le_total s ps with hle | hle
  · rw [max_eq_left hle, max_eq_left (Real.log_nonpos (div_pos hs hps).le ((div_le_one hps).2 hle))]
    field_simp; ring
  · rw [max_eq_right hle, max_eq_right (Real.log_nonneg ((one_le_div hps).2 hle)), div_self hs.ne', Real.log_one,
      Real.log_div hps.ne' hs.ne', Real.log_div hs.ne' hps.ne', Real.log_div hps.ne' hsg.ne', Real.log_div hs.ne' hsg.ne']
    field_simp; ring

/-- **C214, re-initialisation keeps the old creep.** Initialising an object again by `e_from_stress` without a time
increment does not clear the creep integral: the next increment gives a smaller void ratio than the same increment on a
new object with the same initial conditions. -/
theorem C214_reinit_keeps_creep (p : Par) (h : p.soil.Good) (o : Obj) (hp : o.par = p) (hI : 0 < o.igral) (s ps : ℝ)
    (hs : 0 < s) (hps : 0 < ps) (s1 dt : ℝ) (hs1 : 0 < s1) (hdt : 0 < dt) :
    ∃ e0 o1 e o2 o3 e' o4, eFromStress o s none (some ps) = .ok (e0, o1) ∧ eFromStress o1 s1 (some dt) none = .ok (e, o2) ∧
      construct p none (some s) (some ps) none = .ok o3 ∧ o3.init = o1.init ∧ eFromStress o3 s1 (some dt) none = .ok (e', o4) ∧ e < e' := by
  obtain ⟨i, hini⟩ := (C208_how_many p none (some s) (some ps) none).2.2.2 (by simp [List.countP_cons])
  obtain ⟨g1, g2, g3, g4, g5, g6, g7, g8⟩ := C208_consistent p h _ _ _ _ i (by rintro _ ⟨⟩; exact hs) (by rintro _ ⟨⟩; exact hps)
    (by rintro _ ⟨⟩) hini
  have hi : i.Good p := ⟨g1, g2, g3, g8⟩
  have hinc := incOf_pos h hi g1 hs1 hdt
  have hpsi : p.psi ≠ 0 := ne_of_gt h.psi
  have hpsi' : 0 < p.psi := h.psi
  have hc : construct p none (some s) (some ps) none
      = .ok (Obj.setInit ⟨p, none, 0, false, 0, 0, fun _ => 0, 0⟩ i) := by
    simp only [construct, if_neg hpsi, hini]; rfl
  have he : eFromStress o s none (some ps) = .ok (i.e0, o.setInit i) := by
    simp only [eFromStress, Option.getD_some, hp, hini]; rfl
  refine ⟨_, _, _, _, _, _, _, he, eFromStress_ok (o.setInit i) i rfl _ _, hc, rfl, eFromStress_ok _ i rfl _ _, ?_⟩
  simp only [Obj.setInit, voidRatio, hp]
  have := Real.log_lt_log (by linarith : (0:ℝ) < 0 + incOf p i i.s0 s1 dt + 1)
    (by linarith : 0 + incOf p i i.s0 s1 dt + 1 < o.igral + incOf p i i.s0 s1 dt + 1)
  have := mul_lt_mul_of_pos_left this hpsi'
  linarith

theorem eSteps_congr (steps : List (ℝ × ℝ)) : ∀ (o1 o2 : Obj), o1.par = o2.par → o1.init = o2.init → o1.igral = o2.igral →
    o1.estress = o2.estress → (eSteps o1 steps).map Prod.fst = (eSteps o2 steps).map Prod.fst := by
  induction steps with
  | nil => intro o1 o2 _ _ _ _; rfl
  | cons a r ih =>
    obtain ⟨s, dt⟩ := a
    intro o1 o2 hp hi hI hs
    simp only [eSteps]
    cases hi1 : o1.init with
    | none =>
      have hi2 : o2.init = none := by rw [← hi, hi1]
      simp only [eFromStress, hi1, hi2]
    | some i =>
      have hi2 : o2.init = some i := by rw [← hi, hi1]
      rw [eFromStress_ok o1 i hi1, eFromStress_ok o2 i hi2]
      have := ih (o1.advance (incOf o1.par i o1.estress s dt) s) (o2.advance (incOf o2.par i o2.estress s dt) s)
        hp (by simp [Obj.advance, hi]) (by simp [Obj.advance, hp, hI, hs]) rfl
      rw [hp, hs] at this ⊢
      rw [hI]
      change Except.map Prod.fst (do let (es, o) ← eSteps (o1.advance _ s) r; return (_ :: es, o))
        = Except.map Prod.fst (do let (es, o) ← eSteps (o2.advance _ s) r; return (_ :: es, o))
      cases h1 : eSteps (o1.advance (incOf o2.par i o2.estress s dt) s) r with
      | error e =>
        rw [h1] at this
        cases h2 : eSteps (o2.advance (incOf o2.par i o2.estress s dt) s) r with
        | error e' => rw [h2] at this; exact this
        | ok v => rw [h2] at this; cases this
      | ok v =>
        rw [h1] at this
        cases h2 : eSteps (o2.advance (incOf o2.par i o2.estress s dt) s) r with
        | error e' => rw [h2] at this; cases this
        | ok v' =>
          rw [h2] at this
          simp only [Except.map] at this
          injection this with this
          change Except.ok (_ :: v.1) = Except.ok (_ :: v'.1)
          rw [this]

/-- **C214, reset.** After `_reset_to_initial_conditions` any history of stress increments gives the same void ratios as
on an object newly made with the same initial conditions. -/
theorem C214_reset (p : Par) (hpsi : p.psi ≠ 0) (e0 s0 p0 t0 : Option ℝ) (new o : Obj) (i : Init)
    (hnew : construct p e0 s0 p0 t0 = .ok new) (hp : o.par = p) (hi : new.init = some i) (ho : o.init = some i) (steps : List (ℝ × ℝ)) :
    ∃ o', o.reset = .ok o' ∧ (eSteps o' steps).map Prod.fst = (eSteps new steps).map Prod.fst := by
  simp only [construct, if_neg hpsi] at hnew
  cases hini : initialConditions p e0 s0 p0 t0 with
  | error e => rw [hini] at hnew; cases hnew
  | ok v =>
    rw [hini] at hnew
    cases hnew
    cases v with
    | none => simp [Obj.store] at hi
    | some j =>
      simp only [Obj.store, Obj.setInit] at hi
      cases hi
      refine ⟨⟨o.par, some i, 0, false, i.s0, o.inc, o.heap, o.cur⟩, by simp only [Obj.reset, ho], ?_⟩
      exact eSteps_congr steps _ _ hp rfl rfl rfl

end Geotecha.YG
