import Verif.Consol.XieLeoProps

/-!
# Properties of geotecha/consolidation/xieandleo2004.py, part 2

C109: settlement, position and velocity of the particles; C110: velocity of the water.
-/

open Real intervalIntegral Finset Filter Topology
namespace Geotecha.Consol
namespace XieLeo

variable {o : XieLeo}

theorem one_sub_exp_eq (o : XieLeo) : exp (-(o.mvl * o.qu)) * (exp (o.mvl * o.qu) - 1) = 1 - exp (-(o.mvl * o.qu)) := by
  have : exp (-(o.mvl * o.qu)) * exp (o.mvl * o.qu) = 1 := by rw [← exp_add]; simp
  linear_combination this

theorem strain_eq (o : XieLeo) {S a : ℝ} (hs : 1 + o.e0 a ≠ 0) :
    (o.e0 a - (S * (o.e0 a - o.efinal a) + o.efinal a)) / (1 + o.e0 a) = (1 - exp (-(o.mvl * o.qu))) * (1 - S) := by
  rw [div_eq_iff hs]
  unfold efinal
  rw [show -o.mvl * o.qu = -(o.mvl * o.qu) by ring]
  ring

theorem strain_integral (h : o.Valid) {Hd : ℝ} (hd : Hd ≠ 0) {e : ℝ → ℝ → ℝ}
    (he : ∀ a t, e a t = heat o.nterms Hd o.cv0 a t * (o.e0 a - o.efinal a) + o.efinal a) {a : ℝ} (ha : 0 ≤ a) (ha2 : a ≤ o.H) (t : ℝ) :
    ∫ x in a..o.H, (o.e0 x - e x t) / (1 + o.e0 x) = (1 - exp (-(o.mvl * o.qu))) * (o.H - a -
      Hd * (∑ k ∈ range o.nterms, heatC Hd o.cv0 t k / bigM k * cos (bigM k * (a / Hd))
      - ∑ k ∈ range o.nterms, heatC Hd o.cv0 t k / bigM k * cos (bigM k * (o.H / Hd)))) := by
  have : ∫ x in a..o.H, (o.e0 x - e x t) / (1 + o.e0 x) =
      ∫ x in a..o.H, (1 - exp (-(o.mvl * o.qu))) * (1 - heat o.nterms Hd o.cv0 x t) := by
    refine intervalIntegral.integral_congr fun x hx => ?_
    rw [Set.uIcc_of_le ha2] at hx
    have hs := h.soil x (ha.trans hx.1) hx.2
    rw [he]; exact strain_eq o hs.ne'
  rw [this, intervalIntegral.integral_const_mul, intervalIntegral.integral_sub (f := fun _ => (1:ℝ)) (g := fun x => heat o.nterms Hd o.cv0 x t) (by simp)
    ((continuous_sinSer _ _ _).intervalIntegrable _ _), heat_integral_grad _ hd]
  simp

theorem settlementPTIB_eq (h : o.Valid) {a : ℝ} (ha : 0 ≤ a) (ha2 : a ≤ o.H) (t : ℝ) :
    o.settlementPTIB a t = ∫ x in a..o.H, (o.e0 x - o.ePTIB x t) / (1 + o.e0 x) := by
  rw [strain_integral h h.H.ne' o.ePTIB_eq ha ha2]
  have e2 : ∑ k ∈ range o.nterms, heatC o.H o.cv0 t k / bigM k * cos (bigM k * (o.H / o.H)) = 0 :=
    sum_eq_zero fun k _ => by rw [div_self h.H.ne', mul_one, cos_bigM, mul_zero]
  rw [e2, sub_zero]
  have e1 : (∑ k ∈ range o.nterms, 2 / M k ^ 2 * cos (M k * (a / o.H)) * exp (-M k ^ 2 * o.Tv t)) =
      ∑ k ∈ range o.nterms, heatC o.H o.cv0 t k / bigM k * cos (bigM k * (a / o.H)) :=
    sum_congr rfl fun k _ => by unfold heatC Tv dTv; rw [M_eq]; have := bigM_ne k; field_simp
  unfold settlementPTIB
  rw [e1, show -o.mvl * o.qu = -(o.mvl * o.qu) by ring]
  have := h.H.ne'
  generalize ∑ k ∈ range o.nterms, heatC o.H o.cv0 t k / bigM k * cos (bigM k * (a / o.H)) = S
  field_simp
  ring

theorem settlementPTPB_eq (h : o.Valid) {a : ℝ} (ha : 0 ≤ a) (ha2 : a ≤ o.H) (t : ℝ) :
    o.settlementPTPB a t = ∫ x in a..o.H, (o.e0 x - o.ePTPB x t) / (1 + o.e0 x) := by
  have hH := h.H.ne'
  rw [strain_integral h (by positivity : o.H / 2 ≠ 0) o.ePTPB_eq ha ha2, ← sum_sub_distrib]
  have e1 : (∑ k ∈ range o.nterms, 1 / M k ^ 2 * (1 + cos (2 * M k * (a / o.H))) * exp (-4 * M k ^ 2 * o.Tv t)) =
      1 / 2 * ∑ k ∈ range o.nterms, (heatC (o.H / 2) o.cv0 t k / bigM k * cos (bigM k * (a / (o.H / 2))) -
        heatC (o.H / 2) o.cv0 t k / bigM k * cos (bigM k * (o.H / (o.H / 2)))) := by
    rw [mul_sum]
    refine sum_congr rfl fun k _ => ?_
    rw [show bigM k * (o.H / (o.H / 2)) = 2 * bigM k by field_simp, cos_two_bigM]
    unfold heatC Tv dTv
    rw [M_eq, show 2 * bigM k * (a / o.H) = bigM k * (a / (o.H / 2)) by rw [div_div_eq_mul_div]; ring,
      show -4 * bigM k ^ 2 * (o.cv0 / o.H ^ 2 * t) = -bigM k ^ 2 * (o.cv0 / (o.H / 2) ^ 2 * t) by
        rw [div_pow, div_div_eq_mul_div]; ring]
    have := bigM_ne k
    field_simp
    ring
  unfold settlementPTPB
  rw [e1, show -o.mvl * o.qu = -(o.mvl * o.qu) by ring]
  generalize ∑ k ∈ range o.nterms, (heatC (o.H / 2) o.cv0 t k / bigM k * cos (bigM k * (a / (o.H / 2))) -
        heatC (o.H / 2) o.cv0 t k / bigM k * cos (bigM k * (o.H / (o.H / 2)))) = S
  field_simp
  ring

theorem exp_time (c d t : ℝ) : HasDerivAt (fun t => exp (-c * (d * t))) (-(c * d) * exp (-c * (d * t))) t := by
  have h : HasDerivAt (fun t => -c * (d * t)) (-c * d) t := by
    have := ((hasDerivAt_id t).const_mul d).const_mul (-c)
    exact this.congr_deriv (by simp)
  exact h.exp.congr_deriv (by ring)

theorem vsPTIB_deriv (h : o.Valid) (a t : ℝ) : HasDerivAt (o.settlementPTIB a) (o.vsPTIB a t) t := by
  have hs : HasDerivAt (fun t => ∑ k ∈ range o.nterms, 2 / M k ^ 2 * cos (M k * (a / o.H)) * exp (-M k ^ 2 * o.Tv t))
      (∑ k ∈ range o.nterms, 2 / M k ^ 2 * cos (M k * (a / o.H)) * (-(M k ^ 2 * o.dTv) * exp (-M k ^ 2 * o.Tv t))) t :=
    HasDerivAt.fun_sum fun k _ => (exp_time (M k ^ 2) o.dTv t).const_mul _
  have := ((hs.fun_neg.add_const (1 - a / o.H)).mul_const (1 - exp (-o.mvl * o.qu))).mul_const o.H
  refine this.congr_deriv ?_
  unfold vsPTIB
  have e : -(∑ k ∈ range o.nterms, 2 / M k ^ 2 * cos (M k * (a / o.H)) * (-(M k ^ 2 * o.dTv) * exp (-M k ^ 2 * o.Tv t))) =
      2 * o.dTv * ∑ k ∈ range o.nterms, cos (M k * (a / o.H)) * exp (-M k ^ 2 * o.Tv t) := by
    rw [← sum_neg_distrib, mul_sum]
    exact sum_congr rfl fun k _ => by have : M k ≠ 0 := by rw [M_eq]; exact bigM_ne k
                                      field_simp
  rw [e]
  have := h.H.ne'
  unfold dTv
  generalize ∑ k ∈ range o.nterms, cos (M k * (a / o.H)) * exp (-M k ^ 2 * o.Tv t) = S
  field_simp

theorem vsPTPB_deriv (h : o.Valid) (a t : ℝ) : HasDerivAt (o.settlementPTPB a) (o.vsPTPB a t) t := by
  have hs : HasDerivAt (fun t => ∑ k ∈ range o.nterms, 1 / M k ^ 2 * (1 + cos (2 * M k * (a / o.H))) * exp (-4 * M k ^ 2 * o.Tv t))
      (∑ k ∈ range o.nterms, 1 / M k ^ 2 * (1 + cos (2 * M k * (a / o.H))) * (-(4 * M k ^ 2 * o.dTv) * exp (-4 * M k ^ 2 * o.Tv t))) t :=
    HasDerivAt.fun_sum fun k _ => by
      have := (exp_time (4 * M k ^ 2) o.dTv t).const_mul (1 / M k ^ 2 * (1 + cos (2 * M k * (a / o.H))))
      simp only [← neg_mul] at this
      simpa only [Tv, neg_mul] using this
  have := ((hs.fun_neg.add_const (1 - a / o.H)).mul_const (1 - exp (-o.mvl * o.qu))).mul_const o.H
  refine this.congr_deriv ?_
  unfold vsPTPB
  have e : -(∑ k ∈ range o.nterms, 1 / M k ^ 2 * (1 + cos (2 * M k * (a / o.H))) * (-(4 * M k ^ 2 * o.dTv) * exp (-4 * M k ^ 2 * o.Tv t))) =
      4 * o.dTv * ∑ k ∈ range o.nterms, (1 + cos (2 * M k * (a / o.H))) * exp (-4 * M k ^ 2 * o.Tv t) := by
    rw [← sum_neg_distrib, mul_sum]
    exact sum_congr rfl fun k _ => by have : M k ≠ 0 := by rw [M_eq]; exact bigM_ne k
                                      field_simp
  rw [e]
  have := h.H.ne'
  unfold dTv
  generalize ∑ k ∈ range o.nterms, (1 + cos (2 * M k * (a / o.H))) * exp (-4 * M k ^ 2 * o.Tv t) = S
  field_simp

theorem cosSer_settle (n : ℕ) {Hd : ℝ} (hd : Hd ≠ 0) (cv t a : ℝ) :
    HasDerivAt (fun a => Hd * ∑ k ∈ range n, heatC Hd cv t k / bigM k * cos (bigM k * (a / Hd))) (-heat n Hd cv a t) a := by
  have := (hasDerivAt_cosSer n Hd (fun k => heatC Hd cv t k / bigM k) a).const_mul Hd
  refine this.congr_deriv ?_
  unfold heat sinSer
  rw [mul_sum, ← sum_neg_distrib]
  refine sum_congr rfl fun k _ => ?_
  have := bigM_ne k
  field_simp

theorem xi_deriv (h : o.Valid) {Hd : ℝ} (hd : Hd ≠ 0) {e S : ℝ → ℝ → ℝ} {K : ℝ} {t : ℝ}
    (he : ∀ a t, e a t = heat o.nterms Hd o.cv0 a t * (o.e0 a - o.efinal a) + o.efinal a)
    (hS : ∀ a, S a t = (1 - exp (-(o.mvl * o.qu))) * (o.H - a - (Hd * ∑ k ∈ range o.nterms, heatC Hd o.cv0 t k / bigM k * cos (bigM k * (a / Hd)) - K)))
    {a : ℝ} (ha : 0 ≤ a) (ha2 : a ≤ o.H) :
    HasDerivAt (fun a => a + S a t) ((1 + e a t) / (1 + o.e0 a)) a := by
  have h1 := ((((hasDerivAt_id a).const_sub o.H).fun_sub ((cosSer_settle o.nterms hd o.cv0 t a).sub_const K)).const_mul
    (1 - exp (-(o.mvl * o.qu))))
  have h2 := (hasDerivAt_id a).fun_add h1
  refine (h2.congr_of_eventuallyEq (Eventually.of_forall fun x => by simp only [hS, id])).congr_deriv ?_
  have hs := (h.soil a ha ha2).ne'
  have := strain_eq o (S := heat o.nterms Hd o.cv0 a t) hs
  rw [← he] at this
  have e3 : (1 + e a t) / (1 + o.e0 a) = 1 - (o.e0 a - e a t) / (1 + o.e0 a) := by field_simp; ring
  rw [e3, this]; ring

theorem xiPTIB_deriv (h : o.Valid) {a : ℝ} (ha : 0 ≤ a) (ha2 : a ≤ o.H) (t : ℝ) :
    HasDerivAt (fun a => o.xiPTIB a t) ((1 + o.ePTIB a t) / (1 + o.e0 a)) a := by
  refine xi_deriv h h.H.ne' (K := 0) o.ePTIB_eq (fun a => ?_) ha ha2
  have e1 : (∑ k ∈ range o.nterms, 2 / M k ^ 2 * cos (M k * (a / o.H)) * exp (-M k ^ 2 * o.Tv t)) =
      ∑ k ∈ range o.nterms, heatC o.H o.cv0 t k / bigM k * cos (bigM k * (a / o.H)) :=
    sum_congr rfl fun k _ => by unfold heatC Tv dTv; rw [M_eq]; have := bigM_ne k; field_simp
  unfold settlementPTIB
  rw [e1, show -o.mvl * o.qu = -(o.mvl * o.qu) by ring]
  have := h.H.ne'
  generalize ∑ k ∈ range o.nterms, heatC o.H o.cv0 t k / bigM k * cos (bigM k * (a / o.H)) = S
  field_simp
  ring

theorem xiPTPB_deriv (h : o.Valid) {a : ℝ} (ha : 0 ≤ a) (ha2 : a ≤ o.H) (t : ℝ) :
    HasDerivAt (fun a => o.xiPTPB a t) ((1 + o.ePTPB a t) / (1 + o.e0 a)) a := by
  have hH := h.H.ne'
  refine xi_deriv h (by positivity : o.H / 2 ≠ 0)
    (K := -(o.H / 2 * ∑ k ∈ range o.nterms, heatC (o.H / 2) o.cv0 t k / bigM k)) o.ePTPB_eq (fun a => ?_) ha ha2
  have e1 : (∑ k ∈ range o.nterms, 1 / M k ^ 2 * (1 + cos (2 * M k * (a / o.H))) * exp (-4 * M k ^ 2 * o.Tv t)) =
      1 / 2 * (∑ k ∈ range o.nterms, heatC (o.H / 2) o.cv0 t k / bigM k * cos (bigM k * (a / (o.H / 2))) +
        ∑ k ∈ range o.nterms, heatC (o.H / 2) o.cv0 t k / bigM k) := by
    rw [← sum_add_distrib, mul_sum]
    refine sum_congr rfl fun k _ => ?_
    unfold heatC Tv dTv
    rw [M_eq, show 2 * bigM k * (a / o.H) = bigM k * (a / (o.H / 2)) by rw [div_div_eq_mul_div]; ring,
      show -4 * bigM k ^ 2 * (o.cv0 / o.H ^ 2 * t) = -bigM k ^ 2 * (o.cv0 / (o.H / 2) ^ 2 * t) by
        rw [div_pow, div_div_eq_mul_div]; ring]
    have := bigM_ne k
    field_simp
    ring
  unfold settlementPTPB
  rw [e1, show -o.mvl * o.qu = -(o.mvl * o.qu) by ring]
  generalize ∑ k ∈ range o.nterms, heatC (o.H / 2) o.cv0 t k / bigM k * cos (bigM k * (a / (o.H / 2))) = S
  generalize ∑ k ∈ range o.nterms, heatC (o.H / 2) o.cv0 t k / bigM k = R
  field_simp
  ring

theorem e_pos (h : o.Valid) {Hd : ℝ} (hd : 0 < Hd) (hH : o.H ≤ 2 * Hd) {e : ℝ → ℝ → ℝ}
    (he : ∀ a t, e a t = heat o.nterms Hd o.cv0 a t * (o.e0 a - o.efinal a) + o.efinal a) {a t : ℝ} (ha : 0 ≤ a) (ha2 : a ≤ o.H)
    (ht : 0 ≤ t) : 0 < 1 + e a t := by
  rw [he, e_eq]
  have := h.arg_ge o.nterms hd ha (ha2.trans hH) ht
  exact mul_pos (h.soil a ha ha2) (mul_pos (exp_pos _) (by linarith))

theorem strictMono_of_pos {f : ℝ → ℝ} {f' : ℝ → ℝ} {H : ℝ} (hf : ∀ a, 0 ≤ a → a ≤ H → HasDerivAt f (f' a) a)
    (hp : ∀ a, 0 ≤ a → a ≤ H → 0 < f' a) : StrictMonoOn f (Set.Icc 0 H) := by
  refine strictMonoOn_of_deriv_pos (convex_Icc 0 H) (fun a ha => (hf a ha.1 ha.2).continuousAt.continuousWithinAt) fun a ha => ?_
  rw [interior_Icc] at ha
  rw [(hf a ha.1.le ha.2.le).deriv]
  exact hp a ha.1.le ha.2.le

/-- **C109**, drained at the top: the settlement of a particle is the sum of the strains `(e0 - e) / (1 + e0)` below it, `xi` is its
position and moves at the velocity `vs`; the spacing of the particles is that of the void ratios and they stay in order above a base that does not
move; and `Us` is the settlement of the top in terms of the final one. -/
theorem C109_PTIB (o : XieLeo) (h : o.Valid) (t : ℝ) :
    (∀ a, 0 ≤ a → a ≤ o.H → o.settlementPTIB a t = ∫ x in a..o.H, (o.e0 x - o.ePTIB x t) / (1 + o.e0 x)) ∧
    (∀ a, HasDerivAt (o.xiPTIB a) (o.vsPTIB a t) t) ∧
    (∀ a, 0 ≤ a → a ≤ o.H → HasDerivAt (fun a => o.xiPTIB a t) ((1 + o.ePTIB a t) / (1 + o.e0 a)) a) ∧
    o.xiPTIB o.H t = o.H ∧ (0 ≤ t → StrictMonoOn (fun a => o.xiPTIB a t) (Set.Icc 0 o.H)) ∧
    o.usPTIB t * o.settlementFinal = o.settlementPTIB 0 t := by
  refine ⟨fun a ha ha2 => settlementPTIB_eq h ha ha2 t, fun a => ?_, fun a ha ha2 => xiPTIB_deriv h ha ha2 t, ?_, fun ht => ?_, ?_⟩
  · exact (vsPTIB_deriv h a t).const_add a
  · unfold xiPTIB; rw [settlementPTIB_eq h h.H.le le_rfl]; simp
  · refine strictMono_of_pos (fun a ha ha2 => xiPTIB_deriv h ha ha2 t) fun a ha ha2 => div_pos ?_ (h.soil a ha ha2)
    exact e_pos h h.H (by linarith [h.H]) o.ePTIB_eq ha ha2 ht
  · unfold usPTIB settlementFinal settlementPTIB
    simp only [zero_div, mul_zero, cos_zero, mul_one]
    ring

/-- **C109**, drained at top and base. -/
theorem C109_PTPB (o : XieLeo) (h : o.Valid) (t : ℝ) :
    (∀ a, 0 ≤ a → a ≤ o.H → o.settlementPTPB a t = ∫ x in a..o.H, (o.e0 x - o.ePTPB x t) / (1 + o.e0 x)) ∧
    (∀ a, HasDerivAt (o.xiPTPB a) (o.vsPTPB a t) t) ∧
    (∀ a, 0 ≤ a → a ≤ o.H → HasDerivAt (fun a => o.xiPTPB a t) ((1 + o.ePTPB a t) / (1 + o.e0 a)) a) ∧
    o.xiPTPB o.H t = o.H ∧ (0 ≤ t → StrictMonoOn (fun a => o.xiPTPB a t) (Set.Icc 0 o.H)) ∧
    o.usPTPB t * o.settlementFinal = o.settlementPTPB 0 t := by
  refine ⟨fun a ha ha2 => settlementPTPB_eq h ha ha2 t, fun a => ?_, fun a ha ha2 => xiPTPB_deriv h ha ha2 t, ?_, fun ht => ?_, ?_⟩
  · exact (vsPTPB_deriv h a t).const_add a
  · unfold xiPTPB; rw [settlementPTPB_eq h h.H.le le_rfl]; simp
  · refine strictMono_of_pos (fun a ha ha2 => xiPTPB_deriv h ha ha2 t) fun a ha ha2 => div_pos ?_ (h.soil a ha ha2)
    exact e_pos h (by linarith [h.H] : 0 < o.H / 2) (by linarith) o.ePTPB_eq ha ha2 ht
  · unfold usPTPB settlementFinal settlementPTPB
    simp only [zero_div, mul_zero, cos_zero, sub_zero]
    have : ∀ k, 1 / M k ^ 2 * (1 + 1) * exp (-4 * M k ^ 2 * o.Tv t) = 2 / M k ^ 2 * exp (-4 * M k ^ 2 * o.Tv t) := fun k => by ring
    simp only [this]
    ring

/-- **C109**: the total pore pressure is the excess pressure plus that of the water standing `Hw` above the initial surface at the particle's
present position. -/
theorem C109_total (o : XieLeo) (a t : ℝ) :
    o.totalPorePTIB a t = o.uPTIB a t + o.gamw * (o.Hw + o.xiPTIB a t) ∧
    o.totalPorePTPB a t = o.uPTPB a t + o.gamw * (o.Hw + o.xiPTPB a t) :=
  ⟨by unfold totalPorePTIB xiPTIB; ring, by unfold totalPorePTPB xiPTPB; ring⟩

example (t : ℝ) : ex.xiPTIB ex.H t = ex.H ∧ ex.usPTPB t * ex.settlementFinal = ex.settlementPTPB 0 t ∧
    ex.totalPorePTIB 0 t = ex.uPTIB 0 t + ex.gamw * (ex.Hw + ex.xiPTIB 0 t) :=
  ⟨(C109_PTIB ex ex_valid t).2.2.2.1, (C109_PTPB ex ex_valid t).2.2.2.2.2, (C109_total ex 0 t).1⟩

/-! ## C110 -/

theorem flux_heat (h : o.Valid) {Hd : ℝ} (hd : 0 < Hd) (hH : o.H ≤ 2 * Hd) {u e ua : ℝ → ℝ → ℝ}
    (hu : ∀ a t, u a t = log (heat o.nterms Hd o.cv0 a t * (exp (o.mvl * o.qu) - 1) + 1) / o.mvl)
    (he : ∀ a t, e a t = heat o.nterms Hd o.cv0 a t * (o.e0 a - o.efinal a) + o.efinal a)
    (hs : Spec.LargeStrain o.kv0 o.mvl o.gamw o.qu o.H o.e0 u e ua) {a t : ℝ} (ha : 0 ≤ a) (ha2 : a ≤ o.H) (ht : 0 ≤ t) :
    Spec.flux o.kv0 o.gamw o.e0 e ua a t = o.cv0 * (1 - exp (-(o.mvl * o.qu))) * heatG o.nterms Hd o.cv0 a t := by
  have e1 : ua a t = o.uGrad Hd a t := (hs.grad a t ha ha2 ht).unique ((solves h hd hH hu he).grad a t ha ha2 ht)
  have e2 : Spec.flux o.kv0 o.gamw o.e0 e ua a t = Spec.flux o.kv0 o.gamw o.e0 e (o.uGrad Hd) a t := by
    unfold Spec.flux; rw [e1]
  rw [e2, flux_eq h (he a t) (h.soil a ha ha2) (by have := h.arg_ge o.nterms hd ha (ha2.trans hH) ht; linarith), ← one_sub_exp_eq]
  unfold cv0
  have := h.mvl.ne'
  have := h.gamw.ne'
  field_simp

/-- **C110**, drained at the top: the particles sink as fast as water is squeezed up past them, `vs` being the flux of Darcy's law, and
`vw` is the speed at which the pore water (`e` parts to one part of solids) must rise to carry as much up as the solids carry down. -/
theorem C110_PTIB (o : XieLeo) (h : o.Valid) (ua : ℝ → ℝ → ℝ)
    (hs : Spec.LargeStrain o.kv0 o.mvl o.gamw o.qu o.H o.e0 o.uPTIB o.ePTIB ua) (a t : ℝ) (ha : 0 ≤ a) (ha2 : a ≤ o.H) (ht : 0 ≤ t) :
    o.vsPTIB a t = Spec.flux o.kv0 o.gamw o.e0 o.ePTIB ua a t ∧ (o.ePTIB a t ≠ 0 → o.ePTIB a t * o.vwPTIB a t = o.vsPTIB a t) := by
  refine ⟨?_, fun he => ?_⟩
  · rw [flux_heat h h.H (by linarith [h.H]) o.uPTIB_eq o.ePTIB_eq hs ha ha2 ht]
    unfold vsPTIB heatG cosSer heatC Tv dTv
    rw [show -o.mvl * o.qu = -(o.mvl * o.qu) by ring, mul_assoc, sum_mul, mul_sum]
    refine sum_congr rfl fun k _ => ?_
    rw [M_eq]
    have := bigM_ne k
    have := h.H.ne'
    field_simp
  · unfold vwPTIB vsPTIB; exact mul_div_cancel₀ _ he

theorem heatG_PTPB (h : o.Valid) (a t : ℝ) : heatG o.nterms (o.H / 2) o.cv0 a t =
    4 / o.H * ∑ k ∈ range o.nterms, cos (2 * M k * (a / o.H)) * exp (-4 * M k ^ 2 * o.Tv t) := by
  unfold heatG cosSer heatC Tv dTv
  rw [mul_sum]
  refine sum_congr rfl fun k _ => ?_
  rw [M_eq, show 2 * bigM k * (a / o.H) = bigM k * (a / (o.H / 2)) by rw [div_div_eq_mul_div]; ring,
      show -4 * bigM k ^ 2 * (o.cv0 / o.H ^ 2 * t) = -bigM k ^ 2 * (o.cv0 / (o.H / 2) ^ 2 * t) by
        rw [div_pow, div_div_eq_mul_div]; ring]
  have := bigM_ne k
  have := h.H.ne'
  field_simp
  ring

theorem flux_end (h : o.Valid) {ua : ℝ → ℝ → ℝ}
    (hs : Spec.LargeStrain o.kv0 o.mvl o.gamw o.qu o.H o.e0 o.uPTPB o.ePTPB ua) {t : ℝ} (ht : 0 ≤ t) :
    Spec.flux o.kv0 o.gamw o.e0 o.ePTPB ua o.H t =
      -((∑ k ∈ range o.nterms, exp (-4 * M k ^ 2 * o.Tv t)) * (1 - exp (-o.mvl * o.qu)) * (4 * o.cv0 / o.H)) := by
  rw [flux_heat h (by linarith [h.H] : 0 < o.H / 2) (by linarith) o.uPTPB_eq o.ePTPB_eq hs h.H.le le_rfl ht, heatG_PTPB h]
  have : ∀ k, cos (2 * M k * (o.H / o.H)) * exp (-4 * M k ^ 2 * o.Tv t) = -exp (-4 * M k ^ 2 * o.Tv t) := fun k => by
    rw [div_self h.H.ne', mul_one, M_eq, cos_two_bigM]; ring
  simp only [this, sum_neg_distrib]
  rw [show -o.mvl * o.qu = -(o.mvl * o.qu) by ring]
  ring

/-- **C110**, drained at top and base: `vs` is the flux up past the particle plus the flux out of the base.  With downward velocities
positive, a water velocity `v` carries, together with the solids, what leaves at the base when `e v + vs = (1 + e) qb`; the tabulated velocity exceeds that
one by `vs / (2 e)` (the second term of the formula has the factor 2 where `vs` has 4): it is right only where the solids do not
move. -/
theorem C110_PTPB_partial (o : XieLeo) (h : o.Valid) (ua : ℝ → ℝ → ℝ)
    (hs : Spec.LargeStrain o.kv0 o.mvl o.gamw o.qu o.H o.e0 o.uPTPB o.ePTPB ua) (a t : ℝ) (ha : 0 ≤ a) (ha2 : a ≤ o.H) (ht : 0 ≤ t) :
    o.vsPTPB a t = Spec.flux o.kv0 o.gamw o.e0 o.ePTPB ua a t - Spec.flux o.kv0 o.gamw o.e0 o.ePTPB ua o.H t ∧
    ∀ v, o.ePTPB a t ≠ 0 → o.ePTPB a t * v + o.vsPTPB a t = (1 + o.ePTPB a t) * -Spec.flux o.kv0 o.gamw o.e0 o.ePTPB ua o.H t →
      o.vwPTPB a t = v + o.vsPTPB a t / (2 * o.ePTPB a t) ∧ (o.vwPTPB a t = v ↔ o.vsPTPB a t = 0) := by
  refine ⟨?_, fun v he hv => ?_⟩
  · rw [flux_end h hs ht, flux_heat h (by linarith [h.H] : 0 < o.H / 2) (by linarith) o.uPTPB_eq o.ePTPB_eq hs ha ha2 ht, heatG_PTPB h]
    unfold vsPTPB
    rw [show -o.mvl * o.qu = -(o.mvl * o.qu) by ring]
    have : ∀ k, (1 + cos (2 * M k * (a / o.H))) * exp (-4 * M k ^ 2 * o.Tv t) =
      exp (-4 * M k ^ 2 * o.Tv t) + cos (2 * M k * (a / o.H)) * exp (-4 * M k ^ 2 * o.Tv t) := fun k => by ring
    simp only [this, sum_add_distrib]
    ring
  · rw [flux_end h hs ht, neg_neg] at hv
    have key : o.vwPTPB a t = v + o.vsPTPB a t / (2 * o.ePTPB a t) := by
      have e2 : o.vwF2 a t = o.vsPTPB a t / (2 * o.ePTPB a t) := by
        unfold vwF2 vsPTPB
        have := h.H.ne'
        generalize ∑ k ∈ range o.nterms, (1 + cos (2 * M k * (a / o.H))) * exp (-4 * M k ^ 2 * o.Tv t) = S
        field_simp
        ring
      have e1 : o.vwF1 a t = v + o.vsPTPB a t / o.ePTPB a t := by
        unfold vwF1
        rw [div_eq_iff he, add_mul, div_mul_cancel₀ _ he]
        linear_combination -hv
      unfold vwPTPB
      rw [e1, e2]
      field_simp
      ring
    refine ⟨key, ?_⟩
    rw [key]
    constructor
    · intro hz
      have : o.vsPTPB a t / (2 * o.ePTPB a t) = 0 := by linarith
      rcases div_eq_zero_iff.1 this with h0 | h0
      · exact h0
      · exact absurd h0 (mul_ne_zero two_ne_zero he)
    · intro hz; rw [hz]; simp

/-- **C110** fails for every loaded, permeable layer drained at both ends: at the top, at every time, the tabulated velocity is not the one
that conserves water. -/
theorem C110_PTPB_top_wrong (o : XieLeo) (h : o.Valid) (hq : 0 < o.qu) (hk : 0 < o.kv0) (hn : 0 < o.nterms) (ua : ℝ → ℝ → ℝ)
    (hs : Spec.LargeStrain o.kv0 o.mvl o.gamw o.qu o.H o.e0 o.uPTPB o.ePTPB ua) (t : ℝ) (ht : 0 ≤ t) (he : o.ePTPB 0 t ≠ 0) :
    o.ePTPB 0 t * o.vwPTPB 0 t + o.vsPTPB 0 t ≠ (1 + o.ePTPB 0 t) * -Spec.flux o.kv0 o.gamw o.e0 o.ePTPB ua o.H t := by
  intro hv
  have := ((C110_PTPB_partial o h ua hs 0 t le_rfl h.H.le ht).2 _ he hv).2.1 rfl
  have hp : 0 < o.vsPTPB 0 t := by
    unfold vsPTPB
    have h1 : 0 < ∑ k ∈ range o.nterms, (1 + cos (2 * M k * (0 / o.H))) * exp (-4 * M k ^ 2 * o.Tv t) := by
      refine sum_pos (fun k _ => ?_) ⟨0, mem_range.2 hn⟩
      simp only [zero_div, mul_zero, cos_zero]
      positivity
    have h2 : 0 < 1 - exp (-o.mvl * o.qu) := by
      have : exp (-o.mvl * o.qu) < 1 := by rw [exp_lt_one_iff]; have := mul_pos h.mvl hq; linarith
      linarith
    have h3 : 0 < o.cv0 := div_pos hk (mul_pos h.mvl h.gamw)
    have h4 := h.H
    positivity
  exact hp.ne' this

example (t : ℝ) (ht : 0 ≤ t) : ∃ ua, ex.vsPTIB 2 t = Spec.flux ex.kv0 ex.gamw ex.e0 ex.ePTIB ua 2 t := by
  obtain ⟨⟨ua, hs, _⟩, _⟩ := C107_PTIB ex ex_valid
  exact ⟨ua, (C110_PTIB ex ex_valid ua hs 2 t (by norm_num) (by norm_num [ex]) ht).1⟩

theorem ex_e_top (t : ℝ) : ex.ePTPB 0 t ≠ 0 := by
  rw [ePTPB_eq, heat_top, zero_mul, zero_add]
  unfold efinal e0 ex
  have h1 : exp (-(4 / 1000 : ℝ) * 100) > 1 / 2 := by
    have := add_one_le_exp (-(4 / 1000 : ℝ) * 100)
    norm_num at this ⊢; linarith
  norm_num at h1 ⊢
  linarith

example (t : ℝ) (ht : 0 ≤ t) : ∃ ua, ex.ePTPB 0 t * ex.vwPTPB 0 t + ex.vsPTPB 0 t ≠
    (1 + ex.ePTPB 0 t) * -Spec.flux ex.kv0 ex.gamw ex.e0 ex.ePTPB ua ex.H t := by
  obtain ⟨⟨ua, hs⟩, _⟩ := C107_PTPB ex ex_valid
  exact ⟨ua, C110_PTPB_top_wrong ex ex_valid (by norm_num [ex]) (by norm_num [ex]) (by norm_num [ex]) ua hs t ht (ex_e_top t)⟩

end XieLeo
end Geotecha.Consol
