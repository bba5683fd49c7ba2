import Verif.Consol.Heat
import Verif.Consol.XieLeo
import Verif.Consol.SpecXie

/-!
# Properties of geotecha/consolidation/xieandleo2004.py, part 1

C107: the pore pressures solve the equations of large strain consolidation; C108: states before and after.
-/

open Real intervalIntegral Finset Filter Topology
namespace Geotecha.Consol
namespace XieLeo

theorem M_eq (k : ℕ) : M k = bigM k := by unfold M bigM; ring

variable (o : XieLeo)

theorem ser1 (a t : ℝ) : (∑ k ∈ range o.nterms, 2 / M k * sin (M k * (a / o.H)) * exp (-M k ^ 2 * o.Tv t)) =
    heat o.nterms o.H o.cv0 a t := by
  unfold heat sinSer heatC Tv dTv
  exact sum_congr rfl fun k _ => by rw [M_eq]; ring

theorem ser2 (a t : ℝ) : (∑ k ∈ range o.nterms, 2 / M k * sin (2 * M k * (a / o.H)) * exp (-4 * M k ^ 2 * o.Tv t)) =
    heat o.nterms (o.H / 2) o.cv0 a t := by
  unfold heat sinSer heatC Tv dTv
  refine sum_congr rfl fun k _ => ?_
  rw [M_eq, show 2 * bigM k * (a / o.H) = bigM k * (a / (o.H / 2)) by rw [div_div_eq_mul_div]; ring,
    show -4 * bigM k ^ 2 * (o.cv0 / o.H ^ 2 * t) = -bigM k ^ 2 * (o.cv0 / (o.H / 2) ^ 2 * t) by
      rw [div_pow, div_div_eq_mul_div]; ring]
  ring

theorem uPTIB_eq (a t : ℝ) : o.uPTIB a t = log (heat o.nterms o.H o.cv0 a t * (exp (o.mvl * o.qu) - 1) + 1) / o.mvl := by
  unfold uPTIB; rw [ser1]

theorem uPTPB_eq (a t : ℝ) : o.uPTPB a t = log (heat o.nterms (o.H / 2) o.cv0 a t * (exp (o.mvl * o.qu) - 1) + 1) / o.mvl := by
  unfold uPTPB; rw [ser2]

theorem ePTIB_eq (a t : ℝ) : o.ePTIB a t = heat o.nterms o.H o.cv0 a t * (o.e0 a - o.efinal a) + o.efinal a := by
  unfold ePTIB; rw [ser1]

theorem ePTPB_eq (a t : ℝ) : o.ePTPB a t = heat o.nterms (o.H / 2) o.cv0 a t * (o.e0 a - o.efinal a) + o.efinal a := by
  unfold ePTPB; rw [ser2]

/-- What a user has to supply: positive thickness, compressibility and unit weight of water, a permeability and a load that are not
negative, and soil everywhere (`1 + e0 > 0`). -/
structure Valid (o : XieLeo) : Prop where
  H : 0 < o.H
  mvl : 0 < o.mvl
  gamw : 0 < o.gamw
  kv0 : 0 ≤ o.kv0
  qu : 0 ≤ o.qu
  soil : ∀ a, 0 ≤ a → a ≤ o.H → 0 < 1 + o.e0 a

variable {o}

theorem Valid.cv0_nonneg (h : o.Valid) : 0 ≤ o.cv0 := div_nonneg h.kv0 (mul_pos h.mvl h.gamw).le

theorem Valid.E_nonneg (h : o.Valid) : 0 ≤ exp (o.mvl * o.qu) - 1 := by
  have := one_le_exp (mul_nonneg h.mvl.le h.qu); linarith

theorem Valid.arg_ge (h : o.Valid) (n : ℕ) {Hd a t : ℝ} (hd : 0 < Hd) (ha : 0 ≤ a) (ha2 : a ≤ 2 * Hd) (ht : 0 ≤ t) :
    1 ≤ heat n Hd o.cv0 a t * (exp (o.mvl * o.qu) - 1) + 1 := by
  have := mul_nonneg (heat_nonneg n hd (mul_nonneg (div_nonneg h.cv0_nonneg (sq_nonneg Hd)) ht) ha ha2) h.E_nonneg
  linarith

theorem e_eq (o : XieLeo) (S a : ℝ) : 1 + (S * (o.e0 a - o.efinal a) + o.efinal a) =
    (1 + o.e0 a) * (exp (-(o.mvl * o.qu)) * (S * (exp (o.mvl * o.qu) - 1) + 1)) := by
  unfold efinal
  have : exp (-(o.mvl * o.qu)) * exp (o.mvl * o.qu) = 1 := by rw [← exp_add]; simp
  rw [show -o.mvl * o.qu = -(o.mvl * o.qu) by ring]
  linear_combination (1 + o.e0 a) * (-S) * this

theorem continuous_e0 (o : XieLeo) : Continuous o.e0 := by unfold e0; fun_prop

/-- The pore pressure gradient. -/
noncomputable def uGrad (o : XieLeo) (Hd a t : ℝ) : ℝ :=
  heatG o.nterms Hd o.cv0 a t * (exp (o.mvl * o.qu) - 1) / (heat o.nterms Hd o.cv0 a t * (exp (o.mvl * o.qu) - 1) + 1) / o.mvl

theorem flux_eq (h : o.Valid) {Hd x t : ℝ} {e : ℝ → ℝ → ℝ}
    (he : e x t = heat o.nterms Hd o.cv0 x t * (o.e0 x - o.efinal x) + o.efinal x) (h1 : 0 < 1 + o.e0 x)
    (h2 : 0 < heat o.nterms Hd o.cv0 x t * (exp (o.mvl * o.qu) - 1) + 1) :
    Spec.flux o.kv0 o.gamw o.e0 e (o.uGrad Hd) x t = o.kv0 / o.gamw * (exp (-(o.mvl * o.qu)) * (heatG o.nterms Hd o.cv0 x t *
          (exp (o.mvl * o.qu) - 1) / o.mvl)) := by
  have hm := h.mvl.ne'
  have hg := h.gamw.ne'
  unfold Spec.flux uGrad
  rw [he, e_eq]
  generalize heat o.nterms Hd o.cv0 x t * (exp (o.mvl * o.qu) - 1) + 1 = W at *
  generalize heatG o.nterms Hd o.cv0 x t * (exp (o.mvl * o.qu) - 1) = G at *
  have h3 := (exp_pos (-(o.mvl * o.qu))).ne'
  have h1 := h1.ne'
  have h2 := h2.ne'
  generalize exp (-(o.mvl * o.qu)) = E at *
  field_simp

theorem solves (h : o.Valid) {Hd : ℝ} (hd : 0 < Hd) (hH : o.H ≤ 2 * Hd) {u e : ℝ → ℝ → ℝ}
    (hu : ∀ a t, u a t = log (heat o.nterms Hd o.cv0 a t * (exp (o.mvl * o.qu) - 1) + 1) / o.mvl)
    (he : ∀ a t, e a t = heat o.nterms Hd o.cv0 a t * (o.e0 a - o.efinal a) + o.efinal a) :
    Spec.LargeStrain o.kv0 o.mvl o.gamw o.qu o.H o.e0 u e (o.uGrad Hd) := by
  have hpos : ∀ a t, 0 ≤ a → a ≤ o.H → 0 ≤ t → 0 < heat o.nterms Hd o.cv0 a t * (exp (o.mvl * o.qu) - 1) + 1 :=
    fun a t ha ha2 ht => by have := h.arg_ge o.nterms hd ha (ha2.trans hH) ht; linarith
  have hm := h.mvl.ne'
  have hg := h.gamw.ne'
  have gradW : ∀ a t, HasDerivAt (fun a => heat o.nterms Hd o.cv0 a t * (exp (o.mvl * o.qu) - 1) + 1)
      (heatG o.nterms Hd o.cv0 a t * (exp (o.mvl * o.qu) - 1)) a := fun a t =>
    ((heat_grad o.nterms Hd o.cv0 a t).mul_const _).add_const _
  refine ⟨fun a t ha ha2 ht => ?_, fun a t ha ha2 ht => ?_, fun a t ha ha2 ht => ?_⟩
  · rw [he, e_eq, hu]
    rw [show -(o.mvl * (o.qu - log (heat o.nterms Hd o.cv0 a t * (exp (o.mvl * o.qu) - 1) + 1) / o.mvl)) =
      -(o.mvl * o.qu) + log (heat o.nterms Hd o.cv0 a t * (exp (o.mvl * o.qu) - 1) + 1) by field_simp; ring, exp_add,
      exp_log (hpos a t ha ha2 ht)]
  · have := ((gradW a t).log (hpos a t ha ha2 ht).ne').div_const o.mvl
    exact this.congr_of_eventuallyEq (Eventually.of_forall fun a => hu a t)
  · have hs := h.soil a ha ha2
    refine ⟨o.cv0 * heatGG o.nterms Hd o.cv0 a t * (o.e0 a - o.efinal a),
      o.kv0 / o.gamw * (exp (-(o.mvl * o.qu)) * (heatGG o.nterms Hd o.cv0 a t * (exp (o.mvl * o.qu) - 1) / o.mvl)), ?_, ?_, ?_⟩
    · refine (((heat_time o.nterms hd.ne' o.cv0 a t).mul_const (o.e0 a - o.efinal a)).add_const (o.efinal a)).congr_of_eventuallyEq ?_
      exact Eventually.of_forall fun t => he a t
    · have hf : HasDerivAt (fun a => o.kv0 / o.gamw * (exp (-(o.mvl * o.qu)) * (heatG o.nterms Hd o.cv0 a t *
          (exp (o.mvl * o.qu) - 1) / o.mvl))) (o.kv0 / o.gamw * (exp (-(o.mvl * o.qu)) *
            (heatGG o.nterms Hd o.cv0 a t * (exp (o.mvl * o.qu) - 1) / o.mvl))) a :=
        ((((heat_grad2 o.nterms Hd o.cv0 a t).mul_const _).div_const _).const_mul _).const_mul _
      refine hf.congr_of_eventuallyEq ?_
      have c1 : ∀ᶠ x in 𝓝 a, 0 < 1 + o.e0 x :=
        ((continuous_const.add o.continuous_e0).tendsto a).eventually (lt_mem_nhds hs)
      have c2 : ∀ᶠ x in 𝓝 a, 0 < heat o.nterms Hd o.cv0 x t * (exp (o.mvl * o.qu) - 1) + 1 :=
        (gradW a t).continuousAt.eventually (lt_mem_nhds (hpos a t ha ha2 ht))
      filter_upwards [c1, c2] with x h1 h2
      exact flux_eq h (he x t) h1 h2
    · have e1 : o.e0 a - o.efinal a = (1 + o.e0 a) * (1 - exp (-(o.mvl * o.qu))) := by
        unfold efinal; rw [show -o.mvl * o.qu = -(o.mvl * o.qu) by ring]; ring
      have e2 : exp (-(o.mvl * o.qu)) * exp (o.mvl * o.qu) = 1 := by rw [← exp_add]; simp
      rw [e1]
      unfold cv0
      have h1 := hs.ne'
      generalize heatGG o.nterms Hd (o.kv0 / (o.mvl * o.gamw)) a t = G at *
      have : exp (-(o.mvl * o.qu)) * (G * (exp (o.mvl * o.qu) - 1) / o.mvl) = G * (1 - exp (-(o.mvl * o.qu))) / o.mvl := by
        linear_combination (G / o.mvl) * e2
      rw [this]
      field_simp

/-- **C107**: the layer drained at its top only: whatever the number of terms, void ratios and pore pressures satisfy the equations of
large strain consolidation; at the top the pressure is zero, at the base its gradient; it is negative nowhere, and the argument of the
logarithm is at least one. -/
theorem C107_PTIB (o : XieLeo) (h : o.Valid) :
    (∃ ua, Spec.LargeStrain o.kv0 o.mvl o.gamw o.qu o.H o.e0 o.uPTIB o.ePTIB ua ∧ ∀ t, ua o.H t = 0) ∧
    (∀ t, o.uPTIB 0 t = 0) ∧ ∀ a t, 0 ≤ a → a ≤ o.H → 0 ≤ t → 0 ≤ o.uPTIB a t ∧
      1 ≤ (∑ k ∈ range o.nterms, 2 / M k * sin (M k * (a / o.H)) * exp (-M k ^ 2 * o.Tv t)) * (exp (o.mvl * o.qu) - 1) + 1 := by
  refine ⟨⟨_, solves h h.H (by linarith [h.H]) (o.uPTIB_eq) (o.ePTIB_eq), fun t => ?_⟩, fun t => ?_, fun a t ha ha2 ht => ?_⟩
  · unfold uGrad; rw [heatG_end _ h.H.ne']; simp
  · rw [uPTIB_eq, heat_top]; simp
  · have := h.arg_ge o.nterms h.H ha (by linarith [h.H]) ht
    refine ⟨?_, by rw [ser1]; exact this⟩
    rw [uPTIB_eq]; exact div_nonneg (log_nonneg this) h.mvl.le

/-- **C107**: the layer drained at both ends. -/
theorem C107_PTPB (o : XieLeo) (h : o.Valid) :
    (∃ ua, Spec.LargeStrain o.kv0 o.mvl o.gamw o.qu o.H o.e0 o.uPTPB o.ePTPB ua) ∧
    (∀ t, o.uPTPB 0 t = 0 ∧ o.uPTPB o.H t = 0) ∧ ∀ a t, 0 ≤ a → a ≤ o.H → 0 ≤ t → 0 ≤ o.uPTPB a t ∧
      1 ≤ (∑ k ∈ range o.nterms, 2 / M k * sin (2 * M k * (a / o.H)) * exp (-4 * M k ^ 2 * o.Tv t)) * (exp (o.mvl * o.qu) - 1) + 1 := by
  have hd : 0 < o.H / 2 := by linarith [h.H]
  refine ⟨⟨_, solves h hd (by linarith) (o.uPTPB_eq) (o.ePTPB_eq)⟩, fun t => ⟨?_, ?_⟩, fun a t ha ha2 ht => ?_⟩
  · rw [uPTPB_eq, heat_top]; simp
  · have := heat_far o.nterms hd.ne' o.cv0 t
    rw [show 2 * (o.H / 2) = o.H by ring] at this
    rw [uPTPB_eq, this]; simp
  · have := h.arg_ge o.nterms hd ha (by linarith) ht
    refine ⟨?_, by rw [ser2]; exact this⟩
    rw [uPTPB_eq]; exact div_nonneg (log_nonneg this) h.mvl.le

/-- The object of xieandleo2004.py:1151-1165 (figure 4; time in units in which `kv0 = 1`). -/
noncomputable def ex : XieLeo := ⟨100, 10, 10, 1, 1, 4 / 1000, 3, 11 / 4, 10, 100⟩

theorem ex_valid : ex.Valid := ⟨by norm_num [ex], by norm_num [ex], by norm_num [ex], by norm_num [ex], by norm_num [ex],
  fun a _ h => by norm_num [ex, e0] at h ⊢; linarith⟩

example : (∃ ua, Spec.LargeStrain ex.kv0 ex.mvl ex.gamw ex.qu ex.H ex.e0 ex.uPTIB ex.ePTIB ua ∧ ∀ t, ua ex.H t = 0) ∧
    ∃ ua, Spec.LargeStrain ex.kv0 ex.mvl ex.gamw ex.qu ex.H ex.e0 ex.uPTPB ex.ePTPB ua :=
  ⟨(C107_PTIB ex ex_valid).1, (C107_PTPB ex ex_valid).1⟩

/-! ## C108 -/

/-- **C108**: before the load: the effective stress is `qp` at the top, increases with depth at the rate of the submerged unit weight
`gamw (Gs - 1) / (1 + e)`, and the void ratio is what the soil's compressibility gives under that stress. -/
theorem C108_initial (o : XieLeo) (h : o.Valid) :
    o.initialEffectiveStress 0 = o.qp ∧
    (∀ a, 0 ≤ a → a ≤ o.H → HasDerivAt o.initialEffectiveStress (o.gamw * (o.Gs - 1) / (1 + o.e0 a)) a) ∧
    ∀ a, 0 ≤ a → a ≤ o.H → 1 + o.e0 a = (1 + o.e00) * exp (-(o.mvl * (o.initialEffectiveStress a - o.qp))) := by
  have h0 : 0 < 1 + o.e00 := by have := h.soil 0 le_rfl h.H.le; simpa [e0] using this
  have e : ∀ a, 1 + o.e00 - o.mvl * o.gamw * (o.Gs - 1) * a = 1 + o.e0 a := fun a => by unfold e0; ring
  have hm := h.mvl.ne'
  refine ⟨?_, fun a ha ha2 => ?_, fun a ha ha2 => ?_⟩
  · unfold initialEffectiveStress; simp [div_self h0.ne']
  · have hs := h.soil a ha ha2
    have hd : HasDerivAt (fun a => 1 + o.e0 a) (-(o.mvl * o.gamw * (o.Gs - 1))) a := by
      have := (((hasDerivAt_id a).const_mul (o.mvl * o.gamw * (o.Gs - 1))).const_sub o.e00).const_add 1
      exact this.congr_deriv (by simp)
    have hl := ((hd.fun_inv hs.ne').const_mul (1 + o.e00)).log (by positivity)
    have := (hl.const_mul (1 / o.mvl)).const_add o.qp
    refine (this.congr_of_eventuallyEq (Eventually.of_forall fun x => ?_)).congr_deriv ?_
    · simp only [initialEffectiveStress, e, div_eq_mul_inv]
    · field_simp
  · have hs := h.soil a ha ha2
    unfold initialEffectiveStress
    rw [e, add_sub_cancel_left, ← mul_assoc, mul_one_div_cancel hm, one_mul, exp_neg, exp_log (div_pos h0 hs)]
    field_simp

/-- **C108**: in the end (permeable soil) the pore pressure is zero and the void ratio the tabulated final one, for both kinds of
drainage. -/
theorem C108_final (o : XieLeo) (h : o.Valid) (hk : 0 < o.kv0) (a : ℝ) :
    Tendsto (o.uPTIB a) atTop (𝓝 0) ∧ Tendsto (o.uPTPB a) atTop (𝓝 0) ∧
    Tendsto (o.ePTIB a) atTop (𝓝 (o.efinal a)) ∧ Tendsto (o.ePTPB a) atTop (𝓝 (o.efinal a)) := by
  have hc : 0 < o.cv0 := div_pos hk (mul_pos h.mvl h.gamw)
  have h1 : 0 < o.cv0 / o.H ^ 2 := div_pos hc (pow_pos h.H 2)
  have h2 : 0 < o.cv0 / (o.H / 2) ^ 2 := div_pos hc (pow_pos (by linarith [h.H]) 2)
  have gu : ∀ {Hd : ℝ}, 0 < o.cv0 / Hd ^ 2 → Tendsto (fun t => log (heat o.nterms Hd o.cv0 a t * (exp (o.mvl * o.qu) - 1) + 1) / o.mvl)
      atTop (𝓝 0) := fun {Hd} hh => by
    have t1 := ((tendsto_heat o.nterms hh a).mul_const (exp (o.mvl * o.qu) - 1)).add_const 1
    simp only [zero_mul, zero_add] at t1
    have t2 := ((continuousAt_log one_ne_zero).tendsto.comp t1).div_const o.mvl
    simpa using t2
  have ge : ∀ {Hd : ℝ}, 0 < o.cv0 / Hd ^ 2 → Tendsto (fun t => heat o.nterms Hd o.cv0 a t * (o.e0 a - o.efinal a) + o.efinal a)
      atTop (𝓝 (o.efinal a)) := fun {Hd} hh => by
    have t1 := ((tendsto_heat o.nterms hh a).mul_const (o.e0 a - o.efinal a)).add_const (o.efinal a)
    simpa using t1
  exact ⟨(gu h1).congr fun t => (o.uPTIB_eq a t).symm, (gu h2).congr fun t => (o.uPTPB_eq a t).symm,
    (ge h1).congr fun t => (o.ePTIB_eq a t).symm, (ge h2).congr fun t => (o.ePTPB_eq a t).symm⟩

/-- **C108**: the final void ratio is what the soil's compressibility gives when the whole of `qu` has become effective, and the final
settlement is the sum of the final strains `(e0 - efinal) / (1 + e0)` over the layer. -/
theorem C108_final_state (o : XieLeo) (h : o.Valid) :
    (∀ a, 1 + o.efinal a = (1 + o.e0 a) * exp (-(o.mvl * o.qu))) ∧
    o.settlementFinal = ∫ a in (0:ℝ)..o.H, (o.e0 a - o.efinal a) / (1 + o.e0 a) := by
  have e1 : ∀ a, 1 + o.efinal a = (1 + o.e0 a) * exp (-(o.mvl * o.qu)) := fun a => by
    unfold efinal; rw [show -o.mvl * o.qu = -(o.mvl * o.qu) by ring]; ring
  refine ⟨e1, ?_⟩
  have : ∫ a in (0:ℝ)..o.H, (o.e0 a - o.efinal a) / (1 + o.e0 a) = ∫ a in (0:ℝ)..o.H, (1 - exp (-(o.mvl * o.qu))) := by
    refine intervalIntegral.integral_congr fun a ha => ?_
    rw [Set.uIcc_of_le h.H.le] at ha
    have hs := h.soil a ha.1 ha.2
    rw [show o.e0 a - o.efinal a = (1 + o.e0 a) * (1 - exp (-(o.mvl * o.qu))) by linarith [e1 a]]
    field_simp
  rw [this, intervalIntegral.integral_const]
  unfold settlementFinal
  rw [show -o.mvl * o.qu = -(o.mvl * o.qu) by ring]
  simp

theorem heat_mean_sq (Hd cv : ℝ) (hd : Hd ≠ 0) :
    Tendsto (fun n => ∫ z in (0:ℝ)..Hd, (1 - heat n Hd cv z 0) ^ 2) atTop (𝓝 0) := by
  have := C84_initial ⟨Hd, 0, 1, 1, 1⟩ hd
  refine this.congr fun n => ?_
  refine intervalIntegral.integral_congr fun z _ => ?_
  simp only [Layer.por, heat, sinSer, heatC, mul_zero, exp_zero, mul_one, one_mul]

theorem heat_mirror (n : ℕ) {Hd : ℝ} (hd : Hd ≠ 0) (cv a t : ℝ) : heat n Hd cv (2 * Hd - a) t = heat n Hd cv a t := by
  unfold heat sinSer
  refine sum_congr rfl fun k _ => ?_
  rw [show bigM k * ((2 * Hd - a) / Hd) = 2 * bigM k - bigM k * (a / Hd) by field_simp, sin_sub, sin_two_bigM, cos_two_bigM]
  ring

theorem heat_mean_sq2 (Hd cv : ℝ) (hd : Hd ≠ 0) :
    Tendsto (fun n => ∫ z in (0:ℝ)..(2 * Hd), (1 - heat n Hd cv z 0) ^ 2) atTop (𝓝 0) := by
  have h := (heat_mean_sq Hd cv hd).const_mul 2
  rw [mul_zero] at h
  refine h.congr fun n => ?_
  have hc : Continuous fun z => (1 - heat n Hd cv z 0) ^ 2 := by
    have := continuous_sinSer n Hd (heatC Hd cv 0); unfold heat; fun_prop
  rw [← intervalIntegral.integral_add_adjacent_intervals (hc.intervalIntegrable 0 Hd) (hc.intervalIntegrable Hd (2 * Hd))]
  have : ∫ z in Hd..(2 * Hd), (1 - heat n Hd cv z 0) ^ 2 = ∫ z in (0:ℝ)..Hd, (1 - heat n Hd cv z 0) ^ 2 := by
    have := intervalIntegral.integral_comp_sub_left (a := 0) (b := Hd) (fun z => (1 - heat n Hd cv z 0) ^ 2) (2 * Hd)
    simp only [heat_mirror n hd] at this
    rw [this]
    congr 1 <;> ring
  rw [this]; ring

/-- **C108**: the start: with more and more terms the strain at time zero approaches zero (in mean square over the layer), for both kinds
of drainage: the load is at first carried by the pore water. -/
theorem C108_start (o : XieLeo) (h : o.Valid) :
    Tendsto (fun n => ∫ a in (0:ℝ)..o.H, ((o.e0 a - { o with nterms := n }.ePTIB a 0) / (1 + o.e0 a)) ^ 2) atTop (𝓝 0) ∧
    Tendsto (fun n => ∫ a in (0:ℝ)..o.H, ((o.e0 a - { o with nterms := n }.ePTPB a 0) / (1 + o.e0 a)) ^ 2) atTop (𝓝 0) := by
  have key : ∀ (n : ℕ) (Hd : ℝ) (f : ℝ → ℝ), (∀ a, f a = heat n Hd o.cv0 a 0 * (o.e0 a - o.efinal a) + o.efinal a) →
      ∫ a in (0:ℝ)..o.H, ((o.e0 a - f a) / (1 + o.e0 a)) ^ 2 =
        (1 - exp (-(o.mvl * o.qu))) ^ 2 * ∫ a in (0:ℝ)..o.H, (1 - heat n Hd o.cv0 a 0) ^ 2 := fun n Hd f hf => by
    rw [← intervalIntegral.integral_const_mul]
    refine intervalIntegral.integral_congr fun a ha => ?_
    rw [Set.uIcc_of_le h.H.le] at ha
    have hs := h.soil a ha.1 ha.2
    have e1 := (C108_final_state o h).1 a
    rw [hf, ← mul_pow]
    congr 1
    rw [div_eq_iff hs.ne']
    have : o.efinal a = (1 + o.e0 a) * exp (-(o.mvl * o.qu)) - 1 := by linarith
    rw [this]; ring
  constructor
  · have := (heat_mean_sq o.H o.cv0 h.H.ne').const_mul ((1 - exp (-(o.mvl * o.qu))) ^ 2)
    rw [mul_zero] at this
    exact this.congr fun n => (key n o.H _ fun a => ePTIB_eq { o with nterms := n } a 0).symm
  · have := (heat_mean_sq2 (o.H / 2) o.cv0 (by linarith [h.H])).const_mul ((1 - exp (-(o.mvl * o.qu))) ^ 2)
    rw [mul_zero, show 2 * (o.H / 2) = o.H by ring] at this
    exact this.congr fun n => (key n (o.H / 2) _ fun a => ePTPB_eq { o with nterms := n } a 0).symm

example : ex.initialEffectiveStress 0 = 10 ∧ Tendsto (ex.uPTPB 3) atTop (𝓝 0) ∧ 1 + ex.efinal 0 = (1 + ex.e0 0) * exp (-(4 / 1000 * 100)) ∧
    Tendsto (fun n => ∫ a in (0:ℝ)..ex.H, ((ex.e0 a - { ex with nterms := n }.ePTPB a 0) / (1 + ex.e0 a)) ^ 2) atTop (𝓝 0) :=
  ⟨(C108_initial ex ex_valid).1, (C108_final ex ex_valid (by norm_num [ex]) 3).2.1, (C108_final_state ex ex_valid).1 0,
    (C108_start ex ex_valid).2⟩

end XieLeo
end Geotecha.Consol
