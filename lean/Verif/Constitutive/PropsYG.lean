import Verif.Constitutive.PropsYGInit
import Mathlib.MeasureTheory.Integral.IntervalIntegral.FundThmCalculus
import Mathlib.Analysis.SpecialFunctions.Integrals.Basic
import Mathlib.Analysis.Calculus.MeanValue

/-! # C209, C210: stepping through a stress history -/

set_option autoImplicit false
set_option linter.unusedVariables false

namespace Geotecha.YG
open Geotecha.Spec

/-- The initial conditions describe a state of the soil. -/
structure Init.Good (p : Par) (i : Init) : Prop where
  s0 : 0 < i.s0
  p0 : 0 < i.p0
  t0 : 0 < i.t0
  state : YGState p.soil i.e0 i.s0 i.p0 i.t0

/-- Creep rate in the two forms: of the rate law and of the integral. -/
theorem rate_identity {p : Par} (h : p.soil.Good) {i : Init} (hi : i.Good p) {s : ℝ} (hs : 0 < s) :
    1 / p.ta * Real.exp ((i.e0 - p.ea - p.kap * Real.log (s / i.s0)) / p.psi) * (s / p.siga) ^ (p.lam / p.psi)
      = 1 / i.t0 * (s / i.s0) ^ p.alpha := by
  have hta : 0 < p.ta := h.ta
  have hsg : 0 < p.siga := h.siga
  have hpsi : p.psi ≠ 0 := ne_of_gt h.psi
  have h0 := hi.s0
  have hp := hi.p0
  have ht := hi.t0
  obtain ⟨h1, h2⟩ := hi.state
  simp only [Par.soil] at h1 h2
  rw [Real.log_div hp.ne' h0.ne', Real.log_div hp.ne' hsg.ne'] at h1
  rw [Real.log_div hp.ne' h0.ne', Real.log_div ht.ne' hta.ne'] at h2
  apply Real.log_injOn_pos
  · exact mul_pos (mul_pos (one_div_pos.2 hta) (Real.exp_pos _)) (Real.rpow_pos_of_pos (div_pos hs hsg) _)
  · exact mul_pos (one_div_pos.2 ht) (Real.rpow_pos_of_pos (div_pos hs h0) _)
  rw [Real.log_mul (mul_pos (one_div_pos.2 hta) (Real.exp_pos _)).ne' (Real.rpow_pos_of_pos (div_pos hs hsg) _).ne',
    Real.log_mul (one_div_pos.2 hta).ne' (Real.exp_pos _).ne', Real.log_exp, Real.log_rpow (div_pos hs hsg),
    Real.log_mul (one_div_pos.2 ht).ne' (Real.rpow_pos_of_pos (div_pos hs h0) _).ne', Real.log_rpow (div_pos hs h0),
    one_div, one_div, Real.log_inv, Real.log_inv, Real.log_div hs.ne' h0.ne', Real.log_div hs.ne' hsg.ne']
  unfold Par.alpha
  field_simp
  linear_combination h1 - h2

theorem eFromStress_ok (o : Obj) (i : Init) (hinit : o.init = some i) (s dt : ℝ) :
    eFromStress o s (some dt) none = .ok (voidRatio o.par i (o.igral + incOf o.par i o.estress s dt) s,
      o.advance (incOf o.par i o.estress s dt) s) := by
  simp only [eFromStress, hinit]

/-- The part of the increment up to time `u` of a linear change of stress. -/
noncomputable def incUpTo (p : Par) (i : Init) (prev s dt u : ℝ) : ℝ :=
  dt / (p.alpha + 1) * i.s0 / i.t0 / (s - prev)
    * (((prev + u * ((s - prev) / dt)) / i.s0) ^ (p.alpha + 1) - (prev / i.s0) ^ (p.alpha + 1))

theorem incUpTo_zero (p : Par) (i : Init) (prev s dt : ℝ) : incUpTo p i prev s dt 0 = 0 := by
  simp [incUpTo]

theorem incUpTo_end (p : Par) (i : Init) (prev s dt : ℝ) (hdt : 0 < dt) (hne : s ≠ prev) :
    incUpTo p i prev s dt dt = incOf p i prev s dt := by
  have : prev + dt * ((s - prev) / dt) = s := by field_simp; ring
  rw [incUpTo, incOf, if_neg hne, this]

theorem lin_pos {prev s dt u : ℝ} (hp : 0 < prev) (hs : 0 < s) (hdt : 0 < dt) (h0 : 0 ≤ u) (h1 : u ≤ dt) :
    0 < prev + u * ((s - prev) / dt) := by
  have : prev + u * ((s - prev) / dt) = ((dt - u) * prev + u * s) / dt := by field_simp; ring
  rw [this]
  apply div_pos _ hdt
  rcases eq_or_lt_of_le h0 with rfl | h
  · simpa using mul_pos hdt hp
  · exact add_pos_of_nonneg_of_pos (mul_nonneg (sub_nonneg.2 h1) hp.le) (mul_pos h hs)

theorem incUpTo_deriv {p : Par} (h : p.soil.Good) {i : Init} (hi : i.Good p) {prev s dt u : ℝ} (hdt : 0 < dt)
    (hne : s ≠ prev) (hpos : 0 < prev + u * ((s - prev) / dt)) :
    HasDerivAt (incUpTo p i prev s dt) (1 / i.t0 * ((prev + u * ((s - prev) / dt)) / i.s0) ^ p.alpha) u := by
  have ha := alpha_pos h
  have h0 := hi.s0
  have ht := hi.t0
  have hs : s - prev ≠ 0 := sub_ne_zero.2 hne
  have d1 : HasDerivAt (fun u : ℝ => (prev + u * ((s - prev) / dt)) / i.s0) ((s - prev) / dt / i.s0) u := by
    have := (((hasDerivAt_id u).mul_const ((s - prev) / dt)).const_add prev).div_const i.s0
    exact this.congr_deriv (by simp)
  have d2 := d1.rpow_const (p := p.alpha + 1) (Or.inl (div_pos hpos h0).ne')
  have d3 := (d2.sub_const ((prev / i.s0) ^ (p.alpha + 1))).const_mul (dt / (p.alpha + 1) * i.s0 / i.t0 / (s - prev))
  refine d3.congr_deriv ?_
  have : p.alpha + 1 - 1 = p.alpha := by ring
  rw [this]
  have : p.alpha + 1 ≠ 0 := by positivity
  field_simp

theorem incUpTo_cont {p : Par} (h : p.soil.Good) (i : Init) (prev s dt : ℝ) : Continuous (incUpTo p i prev s dt) := by
  have ha := alpha_pos h
  unfold incUpTo
  refine continuous_const.mul (Continuous.sub ?_ continuous_const)
  exact Continuous.rpow_const (by fun_prop) (fun x => Or.inr (by positivity))

theorem incOf_eq_integral {p : Par} (h : p.soil.Good) {i : Init} (hi : i.Good p) {prev s dt : ℝ} (hp : 0 < prev)
    (hs : 0 < s) (hdt : 0 < dt) (hne : s ≠ prev) :
    incOf p i prev s dt = ∫ u in (0:ℝ)..dt, 1 / i.t0 * ((prev + u * ((s - prev) / dt)) / i.s0) ^ p.alpha := by
  have ha := alpha_pos h
  rw [intervalIntegral.integral_eq_sub_of_hasDerivAt (f := incUpTo p i prev s dt), incUpTo_zero, incUpTo_end p i _ _ _ hdt hne, sub_zero]
  · intro u hu
    rw [Set.uIcc_of_le hdt.le] at hu
    exact incUpTo_deriv h hi hdt hne (lin_pos hp hs hdt hu.1 hu.2)
  · apply Continuous.intervalIntegrable
    refine continuous_const.mul ?_
    exact Continuous.rpow_const (by fun_prop) (fun x => Or.inr ha.le)

theorem incOf_pos {p : Par} (h : p.soil.Good) {i : Init} (hi : i.Good p) {prev s dt : ℝ} (hp : 0 < prev)
    (hs : 0 < s) (hdt : 0 < dt) : 0 < incOf p i prev s dt := by
  have ha := alpha_pos h
  by_cases hne : s = prev
  · rw [incOf, if_pos hne]; exact div_pos (div_pos hp hi.s0) hi.t0
  · rw [incOf_eq_integral h hi hp hs hdt hne]
    apply intervalIntegral.intervalIntegral_pos_of_pos_on _ _ hdt
    · apply Continuous.intervalIntegrable
      refine continuous_const.mul ?_
      exact Continuous.rpow_const (by fun_prop) (fun x => Or.inr ha.le)
    · intro u hu
      exact mul_pos (one_div_pos.2 hi.t0) (Real.rpow_pos_of_pos (div_pos (lin_pos hp hs hdt hu.1.le hu.2.le) hi.s0) _)

/-! ### The stress history of the specification -/

/-- Steps that can be taken from the stress `s`: positive stresses and times, no step at constant stress. -/
def Steps : ℝ → List (ℝ × ℝ) → Prop
  | _, [] => True
  | s, (s1, dt) :: r => 0 < s1 ∧ 0 < dt ∧ s1 ≠ s ∧ Steps s1 r

theorem stressPath_zero (s : ℝ) (steps : List (ℝ × ℝ)) (h : Steps s steps) : stressPath s steps 0 = s := by
  cases steps with
  | nil => rfl
  | cons a r => obtain ⟨s1, dt⟩ := a; rw [stressPath, if_pos h.2.1.le]; ring

theorem stressPath_pos (steps : List (ℝ × ℝ)) : ∀ (s : ℝ), 0 < s → Steps s steps → ∀ t, 0 ≤ t → 0 < stressPath s steps t := by
  induction steps with
  | nil => intro s hs _ t _; exact hs
  | cons a r ih =>
    obtain ⟨s1, dt⟩ := a
    intro s hs h t ht
    obtain ⟨h1, h2, h3, h4⟩ := h
    rw [stressPath]
    by_cases hle : t ≤ dt
    · rw [if_pos hle]; exact lin_pos hs h1 h2 ht hle
    · rw [if_neg hle]; exact ih s1 h1 h4 _ (by linarith [not_le.1 hle])

theorem stressPath_cont (steps : List (ℝ × ℝ)) : ∀ s : ℝ, Steps s steps → Continuous (stressPath s steps) := by
  induction steps with
  | nil => intro s _; exact continuous_const
  | cons a r ih =>
    obtain ⟨s1, dt⟩ := a
    intro s h
    obtain ⟨h1, h2, h3, h4⟩ := h
    have : stressPath s ((s1, dt) :: r) = fun t => if t ≤ dt then s + t * ((s1 - s) / dt) else stressPath s1 r (t - dt) := by
      funext t; rfl
    rw [this]
    refine Continuous.if_le (by fun_prop) ((ih s1 h4).comp (by fun_prop)) continuous_id continuous_const ?_
    intro x hx
    have hx : x = dt := hx
    rw [hx, sub_self, stressPath_zero s1 r h4]; field_simp; ring

theorem stressPath_deriv (steps : List (ℝ × ℝ)) : ∀ (s : ℝ), Steps s steps → ∀ t, t ∉ knots steps →
    ∃ s', HasDerivAt (stressPath s steps) s' t := by
  induction steps with
  | nil => intro s _ t _; exact ⟨0, hasDerivAt_const _ _⟩
  | cons a r ih =>
    obtain ⟨s1, dt⟩ := a
    intro s h t ht
    obtain ⟨h1, h2, h3, h4⟩ := h
    simp only [knots, List.mem_cons, List.mem_map, not_or, not_exists, not_and] at ht
    rcases lt_or_gt_of_ne ht.1 with hlt | hgt
    · refine ⟨(s1 - s) / dt, ?_⟩
      have d : HasDerivAt (fun u : ℝ => s + u * ((s1 - s) / dt)) ((s1 - s) / dt) t :=
        (((hasDerivAt_id t).mul_const ((s1 - s) / dt)).const_add s).congr_deriv (by simp)
      refine d.congr_of_eventuallyEq ?_
      filter_upwards [Iio_mem_nhds hlt] with u hu
      rw [stressPath, if_pos (le_of_lt hu)]
    · obtain ⟨s', hs'⟩ := ih s1 h4 (t - dt) (fun hm => ht.2 _ hm (by ring))
      refine ⟨s', ?_⟩
      have d := HasDerivAt.comp_sub_const t dt hs'
      refine d.congr_of_eventuallyEq ?_
      filter_upwards [Ioi_mem_nhds hgt] with u hu
      rw [stressPath, if_neg (not_le.2 hu)]

theorem knots_pos (steps : List (ℝ × ℝ)) : ∀ s : ℝ, Steps s steps → ∀ t ∈ knots steps, 0 < t := by
  induction steps with
  | nil => intro s _ t ht; simp [knots] at ht
  | cons a r ih =>
    obtain ⟨s1, dt⟩ := a
    intro s h t ht
    obtain ⟨h1, h2, h3, h4⟩ := h
    simp only [knots, List.mem_cons, List.mem_map] at ht
    rcases ht with rfl | ⟨u, hu, rfl⟩
    · exact h2
    · exact add_pos h2 (ih s1 h4 u hu)

/-- The total time of a list of steps. -/
def total (steps : List (ℝ × ℝ)) : ℝ := (steps.map Prod.snd).sum

theorem total_nonneg (steps : List (ℝ × ℝ)) : ∀ s : ℝ, Steps s steps → 0 ≤ total steps := by
  induction steps with
  | nil => intro s _; simp [total]
  | cons a r ih =>
    obtain ⟨s1, dt⟩ := a
    intro s h
    have := ih s1 h.2.2.2
    have h2 := h.2.1
    simp only [total, List.map_cons, List.sum_cons] at *
    linarith

/-! ### Solutions of the rate law -/

/-- `E` is a void ratio history of the soil along the steps, starting from the void ratio `e0`. -/
structure Follows (p : YGSoil) (s : ℝ) (steps : List (ℝ × ℝ)) (e0 : ℝ) (E : ℝ → ℝ) : Prop where
  start : E 0 = e0
  cont : ContinuousOn E (Set.Icc 0 (total steps))
  rate : ∀ t ∈ Set.Ioo 0 (total steps), t ∉ knots steps → YGRate p (stressPath s steps) E t

theorem voidRatio_exp {p : Par} (h : p.soil.Good) (i : Init) {I s : ℝ} (hI : 0 < I + 1) :
    Real.exp (-(voidRatio p i I s - i.e0 + p.kap * Real.log (s / i.s0)) / p.psi) = I + 1 := by
  have hpsi : p.psi ≠ 0 := ne_of_gt h.psi
  rw [voidRatio]
  rw [show -(i.e0 - p.kap * Real.log (s / i.s0) - p.psi * Real.log (I + 1) - i.e0 + p.kap * Real.log (s / i.s0)) / p.psi
    = Real.log (I + 1) by field_simp; ring, Real.exp_log hI]

theorem voidRatio_of_exp {p : Par} (h : p.soil.Good) (i : Init) {e I s : ℝ}
    (he : Real.exp (-(e - i.e0 + p.kap * Real.log (s / i.s0)) / p.psi) = I + 1) : e = voidRatio p i I s := by
  have hpsi : p.psi ≠ 0 := ne_of_gt h.psi
  have : Real.log (I + 1) = -(e - i.e0 + p.kap * Real.log (s / i.s0)) / p.psi := by rw [← he, Real.log_exp]
  rw [voidRatio, this]; field_simp; ring

/-- One change of stress, in terms of any antiderivative of the creep rate. -/
theorem step_unique_gen {p : Par} (h : p.soil.Good) {i : Init} (hi : i.Good p) {dt I : ℝ} (hdt : 0 < dt) (hI : 0 < I + 1)
    (σ E F : ℝ → ℝ) (hpos : ∀ t ∈ Set.Icc 0 dt, 0 < σ t) (hσc : ContinuousOn σ (Set.Icc 0 dt)) (hE0 : E 0 = voidRatio p i I (σ 0))
    (hF0 : F 0 = 0) (hFc : ContinuousOn F (Set.Icc 0 dt))
    (hFd : ∀ t ∈ Set.Ioo 0 dt, HasDerivAt F (1 / i.t0 * (σ t / i.s0) ^ p.alpha) t)
    (hc : ContinuousOn E (Set.Icc 0 dt)) (hr : ∀ t ∈ Set.Ioo 0 dt, YGRate p.soil σ E t) :
    E dt = voidRatio p i (I + F dt) (σ dt) := by
  have hpsi : p.psi ≠ 0 := ne_of_gt h.psi
  have h0 := hi.s0
  set G : ℝ → ℝ := fun t => Real.exp (-(E t - i.e0 + p.kap * Real.log (σ t / i.s0)) / p.psi) - F t with hG
  have hGc : ContinuousOn G (Set.Icc 0 dt) := by
    refine ContinuousOn.sub ?_ hFc
    refine Real.continuous_exp.comp_continuousOn ?_
    refine ContinuousOn.div_const (ContinuousOn.neg (ContinuousOn.add (hc.sub continuousOn_const) ?_)) _
    refine continuousOn_const.mul (ContinuousOn.log (hσc.div_const _) ?_)
    intro t ht
    exact (div_pos (hpos t ht) h0).ne'
  have hGd : ∀ t ∈ Set.Ioo 0 dt, HasDerivAt G 0 t := by
    intro t ht
    have htc : t ∈ Set.Icc 0 dt := ⟨ht.1.le, ht.2.le⟩
    obtain ⟨s', hs', he'⟩ := hr t ht
    simp only [Par.soil] at he'
    have hσp : 0 < σ t := hpos t htc
    have dl := (hs'.div_const i.s0).log (div_pos hσp h0).ne'
    have dy := (((he'.sub_const i.e0).add (dl.const_mul p.kap)).neg.div_const p.psi).exp
    have di := hFd t ht
    have hid := rate_identity h hi hσp
    refine (dy.sub di).congr_deriv ?_
    rw [← hid]
    have key : Real.exp ((i.e0 - p.ea - p.kap * Real.log (σ t / i.s0)) / p.psi)
        = Real.exp (-(E t - i.e0 + p.kap * Real.log (σ t / i.s0)) / p.psi) * Real.exp ((E t - p.ea) / p.psi) := by
      rw [← Real.exp_add]; congr 1; field_simp; ring
    rw [key]
    have hta : p.ta ≠ 0 := ne_of_gt h.ta
    simp only [Pi.add_apply, Pi.neg_apply]
    field_simp
    ring
  obtain ⟨c, hc1, hc2⟩ := exists_hasDerivAt_eq_slope G (fun _ => 0) hdt hGc hGd
  have hEq : G dt = G 0 := by
    have : G dt - G 0 = 0 := by
      have h2 := hc2.symm
      rw [div_eq_zero_iff] at h2
      rcases h2 with h2 | h2
      · exact h2
      · linarith
    linarith
  simp only [hG, hE0] at hEq
  rw [voidRatio_exp h i hI, hF0] at hEq
  apply voidRatio_of_exp h i
  linarith

/-- One linear change of stress. -/
theorem step_unique {p : Par} (h : p.soil.Good) {i : Init} (hi : i.Good p) {prev s dt I : ℝ} (hp : 0 < prev) (hs : 0 < s)
    (hdt : 0 < dt) (hne : s ≠ prev) (hI : 0 < I + 1) (σ E : ℝ → ℝ)
    (hσ : ∀ t ∈ Set.Icc 0 dt, σ t = prev + t * ((s - prev) / dt)) (hE0 : E 0 = voidRatio p i I prev)
    (hc : ContinuousOn E (Set.Icc 0 dt)) (hr : ∀ t ∈ Set.Ioo 0 dt, YGRate p.soil σ E t) :
    E dt = voidRatio p i (I + incOf p i prev s dt) s := by
  have e0' : σ 0 = prev := by rw [hσ 0 ⟨le_refl _, hdt.le⟩]; ring
  have e1' : σ dt = s := by rw [hσ dt ⟨hdt.le, le_refl _⟩]; field_simp; ring
  have := step_unique_gen h hi hdt hI σ E (incUpTo p i prev s dt)
    (fun t ht => by rw [hσ t ht]; exact lin_pos hp hs hdt ht.1 ht.2)
    (ContinuousOn.congr (f := fun t => prev + t * ((s - prev) / dt)) (by fun_prop) hσ) (by rw [e0']; exact hE0)
    (incUpTo_zero p i _ _ _) (incUpTo_cont h i prev s dt).continuousOn
    (fun t ht => by
      have htc : t ∈ Set.Icc 0 dt := ⟨ht.1.le, ht.2.le⟩
      rw [hσ t htc]; exact incUpTo_deriv h hi hdt hne (lin_pos hp hs hdt ht.1.le ht.2.le)) hc hr
  rwa [incUpTo_end p i _ _ _ hdt hne, e1'] at this

/-- Any solution of the rate law along the steps passes through the computed void ratios. -/
theorem steps_unique {p : Par} (h : p.soil.Good) {i : Init} (hi : i.Good p) (steps : List (ℝ × ℝ)) :
    ∀ (o : Obj) (E : ℝ → ℝ), o.par = p → o.init = some i → 0 < o.igral + 1 → 0 < o.estress → Steps o.estress steps →
      Follows p.soil o.estress steps (voidRatio p i o.igral o.estress) E →
      ∃ o', eSteps o steps = .ok ((knots steps).map E, o') := by
  induction steps with
  | nil => intro o E _ _ _ _ _ _; exact ⟨o, rfl⟩
  | cons a r ih =>
    obtain ⟨s1, dt⟩ := a
    intro o E hp hinit hI hs hst hF
    obtain ⟨h1, h2, h3, h4⟩ := hst
    have ht := total_nonneg r s1 h4
    have htot : total ((s1, dt) :: r) = dt + total r := by simp [total]
    have hstep : E dt = voidRatio p i (o.igral + incOf p i o.estress s1 dt) s1 := by
      refine step_unique h hi hs h1 h2 h3 hI (stressPath o.estress ((s1, dt) :: r)) E ?_ hF.start ?_ ?_
      · intro t ht'; rw [stressPath, if_pos ht'.2]
      · exact hF.cont.mono (Set.Icc_subset_Icc_right (by rw [htot]; linarith))
      · intro t ht'
        refine hF.rate t ⟨ht'.1, by rw [htot]; linarith [ht'.2]⟩ ?_
        simp only [knots, List.mem_cons, List.mem_map, not_or, not_exists, not_and]
        refine ⟨ht'.2.ne, fun u hu he => ?_⟩
        have := knots_pos r s1 h4 u hu
        linarith [ht'.2]
    have hinc := incOf_pos h hi hs h1 h2
    set o1 := o.advance (incOf o.par i o.estress s1 dt) s1 with ho1
    have hF' : Follows p.soil o1.estress r (voidRatio p i o1.igral o1.estress) (fun t => E (dt + t)) := by
      constructor
      · simp only [add_zero, hstep, ho1, Obj.advance]; rw [hp]
      · refine hF.cont.comp (by fun_prop) ?_
        intro t ht'
        rw [htot]; exact ⟨by linarith [ht'.1], by change dt + t ≤ _; linarith [ht'.2]⟩
      · intro t ht' hk
        obtain ⟨s', d1, d2⟩ := hF.rate (dt + t) ⟨by linarith [ht'.1], by rw [htot]; linarith [ht'.2]⟩ (by
          simp only [knots, List.mem_cons, List.mem_map, not_or, not_exists, not_and]
          refine ⟨by linarith [ht'.1], fun u hu he => hk ?_⟩
          have : u = t := by linarith
          rwa [this] at hu)
        have hv : stressPath o.estress ((s1, dt) :: r) (dt + t) = stressPath s1 r t := by
          rw [stressPath, if_neg (by linarith [ht'.1])]; congr 1; ring
        refine ⟨s', ?_, ?_⟩
        · refine (HasDerivAt.comp_const_add dt t d1).congr_of_eventuallyEq ?_
          filter_upwards [Ioi_mem_nhds ht'.1] with u hu
          rw [stressPath, if_neg (by have : 0 < u := hu; linarith)]; congr 1; ring
        · refine (HasDerivAt.comp_const_add dt t d2).congr_deriv ?_
          simp only [hv]; rfl
    obtain ⟨o', ho'⟩ := ih o1 (fun t => E (dt + t)) hp hinit
      (by simp only [ho1, Obj.advance]; rw [hp]; linarith) h1 h4 hF'
    · refine ⟨o', ?_⟩
      have : eFromStress o s1 (some dt) none = .ok (E dt, o1) := by
        simp only [eFromStress, hinit, hp, hstep, ho1]
      simp only [eSteps, this, knots, List.map_cons, List.map_map]
      change (do let (es, o2) ← eSteps o1 r; return (E dt :: es, o2)) = _
      rw [ho']
      rfl

/-- The closed form of a solution of the rate law along any stress history. -/
theorem closed_form {p : Par} (h : p.soil.Good) {i : Init} (hi : i.Good p) (steps : List (ℝ × ℝ)) (hst : Steps i.s0 steps) :
    Follows p.soil i.s0 steps i.e0 (fun t => i.e0 - p.kap * Real.log (stressPath i.s0 steps t / i.s0)
      - p.psi * Real.log (1 / i.t0 * (∫ u in (0:ℝ)..t, (stressPath i.s0 steps u / i.s0) ^ p.alpha) + 1)) := by
  have hpsi : p.psi ≠ 0 := ne_of_gt h.psi
  have hta : p.ta ≠ 0 := ne_of_gt h.ta
  have ha := alpha_pos h
  have h0 := hi.s0
  have ht0 := hi.t0
  have hpos := stressPath_pos steps i.s0 h0 hst
  have hcont := stressPath_cont steps i.s0 hst
  have hg : Continuous fun u => (stressPath i.s0 steps u / i.s0) ^ p.alpha :=
    Continuous.rpow_const (hcont.div_const _) (fun x => Or.inr ha.le)
  have hJd : ∀ t, HasDerivAt (fun t => ∫ u in (0:ℝ)..t, (stressPath i.s0 steps u / i.s0) ^ p.alpha)
      ((stressPath i.s0 steps t / i.s0) ^ p.alpha) t := fun t =>
    intervalIntegral.integral_hasDerivAt_right (hg.intervalIntegrable _ _) (hg.stronglyMeasurableAtFilter _ _) hg.continuousAt
  have hJ0 : ∀ t, 0 ≤ t → 0 < 1 / i.t0 * (∫ u in (0:ℝ)..t, (stressPath i.s0 steps u / i.s0) ^ p.alpha) + 1 := by
    intro t ht
    have : 0 ≤ ∫ u in (0:ℝ)..t, (stressPath i.s0 steps u / i.s0) ^ p.alpha :=
      intervalIntegral.integral_nonneg ht fun u hu => Real.rpow_nonneg (div_nonneg (hpos u hu.1).le h0.le) _
    positivity
  constructor
  · simp only [stressPath_zero _ _ hst, div_self h0.ne', Real.log_one, intervalIntegral.integral_same, mul_zero, zero_add,
      sub_zero]
  · intro t ht
    apply ContinuousAt.continuousWithinAt
    have c1 : ContinuousAt (fun t => Real.log (stressPath i.s0 steps t / i.s0)) t :=
      (hcont.continuousAt.div_const _).log (div_pos (hpos t ht.1) h0).ne'
    have c2 : ContinuousAt (fun t => Real.log (1 / i.t0 * (∫ u in (0:ℝ)..t, (stressPath i.s0 steps u / i.s0) ^ p.alpha) + 1)) t :=
      (((hJd t).continuousAt.const_mul _).add continuousAt_const).log (hJ0 t ht.1).ne'
    exact (continuousAt_const.sub (continuousAt_const.mul c1)).sub (continuousAt_const.mul c2)
  · intro t ht hk
    obtain ⟨s', hs'⟩ := stressPath_deriv steps i.s0 hst t hk
    have hp' := hpos t ht.1.le
    refine ⟨s', hs', ?_⟩
    have dl := (hs'.div_const i.s0).log (div_pos hp' h0).ne'
    have dj := (((hJd t).const_mul (1 / i.t0)).add_const 1).log (hJ0 t ht.1.le).ne'
    refine ((dl.const_mul p.kap).const_sub i.e0 |>.sub (dj.const_mul p.psi)).congr_deriv ?_
    have hid := rate_identity h hi hp'
    have hJ := hJ0 t ht.1.le
    set J := 1 / i.t0 * (∫ u in (0:ℝ)..t, (stressPath i.s0 steps u / i.s0) ^ p.alpha) + 1 with hJdef
    simp only [Par.soil]
    have key : Real.exp ((i.e0 - p.kap * Real.log (stressPath i.s0 steps t / i.s0) - p.psi * Real.log J - p.ea) / p.psi)
        = Real.exp ((i.e0 - p.ea - p.kap * Real.log (stressPath i.s0 steps t / i.s0)) / p.psi) / J := by
      rw [show (i.e0 - p.kap * Real.log (stressPath i.s0 steps t / i.s0) - p.psi * Real.log J - p.ea) / p.psi
        = (i.e0 - p.ea - p.kap * Real.log (stressPath i.s0 steps t / i.s0)) / p.psi - Real.log J by field_simp; ring,
        Real.exp_sub, Real.exp_log hJ]
    rw [key, ← hid]
    field_simp

/-- **C209, stepping is exact.** From the initial state, call `e_from_stress` with any sequence of positive stresses and
time increments, no two neighbouring stresses equal.  The void ratios returned are those of the soil's rate law along the
piecewise linear stress history through these stresses: that law has a solution, and every solution starting at the
initial void ratio takes exactly the returned values at the ends of the increments. -/
theorem C209_exact_solution (p : Par) (h : p.soil.Good) (i : Init) (hi : i.Good p) (o : Obj) (hp : o.par = p)
    (hinit : o.init = some i) (hI : o.igral = 0) (hes : o.estress = i.s0) (steps : List (ℝ × ℝ)) (hst : Steps i.s0 steps) :
    ∃ es o', eSteps o steps = .ok (es, o') ∧
      (∃ E, Follows p.soil i.s0 steps i.e0 E) ∧
      ∀ E, Follows p.soil i.s0 steps i.e0 E → es = (knots steps).map E := by
  have hv : voidRatio p i o.igral o.estress = i.e0 := by
    simp [voidRatio, hI, hes, div_self hi.s0.ne']
  have hcf := closed_form h hi steps hst
  have aux : ∀ E, Follows p.soil i.s0 steps i.e0 E → ∃ o', eSteps o steps = .ok ((knots steps).map E, o') := by
    intro E hE
    refine steps_unique h hi steps o E hp hinit (by rw [hI]; norm_num) (by rw [hes]; exact hi.s0) (by rw [hes]; exact hst) ?_
    rw [hv, hes]; exact hE
  obtain ⟨o', ho'⟩ := aux _ hcf
  refine ⟨_, o', ho', ⟨_, hcf⟩, ?_⟩
  intro E hE
  obtain ⟨o'', ho''⟩ := aux E hE
  rw [ho'] at ho''
  injection ho'' with h3
  injection h3

/-- **C209, subdivision.** Inserting a point on the straight line between two stresses changes nothing. -/
theorem C209_subdivision (p : Par) (h : p.soil.Good) (i : Init) (hi : i.Good p) (o : Obj) (hp : o.par = p)
    (hinit : o.init = some i) (s dt u : ℝ) (hs : 0 < s) (hes : 0 < o.estress) (hne : s ≠ o.estress) (hdt : 0 < dt) (h0 : 0 < u)
    (h1 : u < dt) :
    ∃ e1 o1 e o2 o3, eFromStress o (o.estress + u * ((s - o.estress) / dt)) (some u) none = .ok (e1, o1) ∧
      eFromStress o1 s (some (dt - u)) none = .ok (e, o2) ∧ eFromStress o s (some dt) none = .ok (e, o3) ∧
      o2.igral = o3.igral ∧ o2.estress = o3.estress := by
  have hm := lin_pos hes hs hdt h0.le h1.le
  set m := o.estress + u * ((s - o.estress) / dt) with hmdef
  have hslope : (s - o.estress) / dt ≠ 0 := div_ne_zero (sub_ne_zero.2 hne) hdt.ne'
  have hm1 : m ≠ o.estress := by
    intro hc; rw [hmdef] at hc
    have : u * ((s - o.estress) / dt) = 0 := by linarith
    rcases mul_eq_zero.1 this with h2 | h2
    · exact h0.ne' h2
    · exact hslope h2
  have hdu : 0 < dt - u := by linarith
  have hsm : s - m = (dt - u) * ((s - o.estress) / dt) := by rw [hmdef]; field_simp; ring
  have hm2 : s ≠ m := by
    intro hc
    have : (dt - u) * ((s - o.estress) / dt) = 0 := by rw [← hsm]; linarith
    rcases mul_eq_zero.1 this with h2 | h2
    · exact hdu.ne' h2
    · exact hslope h2
  have key : incOf p i o.estress m u + incOf p i m s (dt - u) = incOf p i o.estress s dt := by
    rw [incOf, if_neg hm1, incOf, if_neg hm2, incOf, if_neg hne, hsm]
    have e1 : m - o.estress = u * ((s - o.estress) / dt) := by rw [hmdef]; ring
    rw [e1]
    have : p.alpha + 1 ≠ 0 := by have := alpha_pos h; positivity
    have := hi.t0.ne'
    have h5 : s - o.estress ≠ 0 := sub_ne_zero.2 hne
    field_simp
    ring
  refine ⟨_, _, _, _, o.advance (incOf o.par i o.estress s dt) s, eFromStress_ok o i hinit _ _, eFromStress_ok (o.advance (incOf o.par i o.estress m u) m) i hinit _ _, ?_, ?_, ?_⟩
  rotate_left
  · simp only [Obj.advance]; rw [hp, ← key]; ring
  · simp only [Obj.advance]
  · rw [eFromStress_ok o i hinit]
    simp only [Obj.advance]
    rw [hp, ← key, ← add_assoc]

/-- **C209, more time, more creep.** Reaching the same stress in a longer increment gives a smaller void ratio. -/
theorem C209_longer_is_denser (p : Par) (h : p.soil.Good) (i : Init) (hi : i.Good p) (o : Obj) (hp : o.par = p)
    (hinit : o.init = some i) (hI : 0 ≤ o.igral) (s dt dt' : ℝ) (hs : 0 < s) (hes : 0 < o.estress) (hne : s ≠ o.estress) (hdt : 0 < dt)
    (hlt : dt < dt') :
    ∃ e o1 e' o2, eFromStress o s (some dt) none = .ok (e, o1) ∧ eFromStress o s (some dt') none = .ok (e', o2) ∧ e' < e := by
  refine ⟨_, _, _, _, eFromStress_ok o i hinit _ _, eFromStress_ok o i hinit _ _, ?_⟩
  rw [hp]
  have h1 := incOf_pos h hi hes hs hdt
  have h3 : incOf p i o.estress s dt' = dt' / dt * incOf p i o.estress s dt := by
    rw [incOf, if_neg hne, incOf, if_neg hne]
    have := hdt.ne'
    field_simp
  have h4 : incOf p i o.estress s dt < incOf p i o.estress s dt' := by
    rw [h3]
    have : 1 < dt' / dt := (one_lt_div hdt).2 hlt
    nlinarith
  simp only [voidRatio]
  have := Real.log_lt_log (by linarith : 0 < o.igral + incOf p i o.estress s dt + 1)
    (by linarith : o.igral + incOf p i o.estress s dt + 1 < o.igral + incOf p i o.estress s dt' + 1)
  have h6 : 0 < p.psi := h.psi
  nlinarith

end Geotecha.YG
