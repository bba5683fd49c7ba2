import Verif.Consol.ZhuYinCoef
import Verif.Roots.Props
import Verif.Consol.SchiffmanProps

/-! # C141-C145: zhuandyin2012 -/

set_option linter.unusedVariables false
set_option linter.unusedSectionVars false
set_option autoImplicit false
open Real Finset MeasureTheory
namespace Geotecha.Consol
open Geotecha (PyErr)
namespace ZY

variable {o : ZY} {B : BesselFns} {r : Output} {rs : List ℝ}

/-- `fsolve` keeps its contract on the function that is searched. -/
def SolverOk (o : ZY) (B : BesselFns) (solve : ℝ → ℝ → ℝ → ℝ) : Prop := ∀ f, o.charEqn B = some f → Roots.Spec.Solves f solve

theorem tm_eq (h : o.Valid) {eta0 : ℝ} (h0 : 0 < eta0) (eta t : ℝ) : o.tm eta0 eta t = exp (-(o.rate eta * t)) := by
  have := h.kv0; have := h.mv0; have := h.gamw; have := h.H; have := pi_pos
  unfold tm dTv rate
  rw [n_s]
  congr 1
  field_simp
  ring

/-- What a finished call has gone through. -/
structure Run (o : ZY) (B : BesselFns) (r : Output) (rs : List ℝ) : Prop where
  len : rs.length = o.nterms
  sorted : rs.Pairwise (· < ·)
  root : ∀ e ∈ rs, o.IsRoot B e
  start : ∀ e ∈ rs, 0.001 < e
  por : r.por = o.z.map fun z => (o.tpor.getD o.t).map fun t => (rs.map fun e => o.cmPor B e * zmu B e o.nu o.nu (o.y z) * exp (-(o.rate e * t)) *
    (o.ui * o.y z ^ o.a)).sum
  doc : r.doc = o.t.map fun t => (rs.map fun e => o.cmDoc B e * exp (-(o.rate e * t))).sum * -(o.frNum / o.frDen) + 1
  settle : r.settle = o.t.map fun t => ((rs.map fun e => o.cmDoc B e * exp (-(o.rate e * t))).sum * -(o.frNum / o.frDen) + 1) * o.ui * o.mv0 *
    ((1 + o.alpha) ^ (1 + o.q) - 1) / (1 + o.q) * o.H / o.alpha

theorem unpack (h : o.Valid) {solve : ℝ → ℝ → ℝ → ℝ} (hs : o.SolverOk B solve) (hE : o.Ends B solve (.ok r)) : ∃ rs, Run o B r rs := by
  unfold Ends at hE
  rw [if_neg (show ¬(2 - o.n = 0) from h.n2)] at hE
  cases hf : o.charEqn B with
  | none => rw [hf] at hE; cases hE
  | some f =>
  rw [hf] at hE
  dsimp only at hE
  obtain ⟨e, _, he⟩ | ⟨rs, hR, hout⟩ := hE
  · cases he
  have h3 := Roots.C103_sound _ (hs f hf) (by norm_num [rootArgs]) (by norm_num [rootArgs]) rs hR
  unfold output at hout
  cases rs with
  | nil => cases hout
  | cons eta0 tl =>
  dsimp only at hout
  have hst : ∀ e ∈ eta0 :: tl, 0.001 < e := fun e he => (h3.2.2 e he).2
  have he0 : 0 < eta0 := lt_trans (by norm_num) (hst eta0 (by simp))
  by_cases hm : o.mv0 * o.gamw = 0
  · rw [if_pos hm] at hout; cases hout
  rw [if_neg hm] at hout
  by_cases hd : o.frDen = 0
  · rw [if_pos hd] at hout; cases hout
  rw [if_neg hd] at hout
  injection hout with hout
  refine ⟨eta0 :: tl, h3.1, h3.2.1, fun e he => ⟨f, hf, (h3.2.2 e he).1⟩, hst, ?_, ?_, ?_⟩
  · rw [hout]; unfold porAt; simp only [tm_eq h he0]; rfl
  · rw [hout]; unfold docAt; simp only [tm_eq h he0]
  · rw [hout]; unfold settleAt docAt; simp only [tm_eq h he0]

/-- The root of number `m`. -/
noncomputable def et (rs : List ℝ) (m : ℕ) : ℝ := rs.getD m 0

theorem et_mem {m : ℕ} (hm : m < rs.length) : et rs m ∈ rs := by
  unfold et; rw [List.getD_eq_getElem _ _ hm]; exact List.getElem_mem hm

theorem sum_et (rs : List ℝ) (g : ℝ → ℝ) : (rs.map g).sum = ∑ m ∈ range rs.length, g (et rs m) := by
  induction rs with
  | nil => simp
  | cons e tl ih =>
    rw [List.map_cons, List.sum_cons, List.length_cons, sum_range_succ', ih, add_comm]
    rfl

/-- The pore pressure for an initial pressure of one. -/
noncomputable def vsol (o : ZY) (B : BesselFns) (rs : List ℝ) (z t : ℝ) : ℝ :=
  ∑ m ∈ range rs.length, o.soil.total (o.w B (et rs m)) / o.soil.total (fun z => o.w B (et rs m) z ^ 2) * o.w B (et rs m) z * exp (-(o.rate (et rs m) * t))

section
variable (h : o.Valid) (hB : Spec.IsBessel B.J B.Y o.nu) (hc : o.drn = 0 → o.Clear) (R : Run o B r rs)
include h hB R

theorem et_pos {m : ℕ} (hm : m < rs.length) : 0 < et rs m := lt_trans (by norm_num) (R.start _ (et_mem hm))

theorem et_mode {m : ℕ} (hm : m < rs.length) : o.soil.Mode (o.rate (et rs m)) (o.w B (et rs m)) (o.wd B (et rs m)) :=
  mode h (et_pos h hB R hm) hB (R.root _ (et_mem hm))

theorem et_lt {m j : ℕ} (hmj : m < j) (hj : j < rs.length) : et rs m < et rs j := by
  have := List.pairwise_iff_getElem.1 R.sorted m j (hmj.trans hj) hj hmj
  unfold et
  rw [List.getD_eq_getElem _ _ hj, List.getD_eq_getElem _ _ (hmj.trans hj)]
  exact this

theorem rate_lt {e e' : ℝ} (h0 : 0 < e) (hlt : e < e') : o.rate e < o.rate e' := by
  have := h.kv0; have := h.mv0; have := h.gamw; have := h.H; have := s_ne h; have := h.alpha0
  unfold rate
  have : 0 < (o.s * o.alpha / o.H) ^ 2 := by positivity
  exact mul_lt_mul_of_pos_left (pow_lt_pow_left₀ hlt h0.le two_ne_zero) (by positivity)

theorem rates_lt {m j : ℕ} (hmj : m < j) (hj : j < rs.length) : o.rate (et rs m) < o.rate (et rs j) :=
  rate_lt h hB R (et_pos h hB R (hmj.trans hj)) (et_lt h hB R hmj hj)

theorem rates_ne : ∀ m < rs.length, ∀ j < rs.length, m ≠ j → o.rate (et rs m) ≠ o.rate (et rs j) := fun m hm j hj hne => by
  rcases lt_or_gt_of_ne hne with g | g
  · exact (rates_lt h hB R g hj).ne
  · exact (rates_lt h hB R g hm).ne'

theorem cont_mv : o.soil.Cont o.soil.mv := mv_cont (eta := 1) h one_pos hB

theorem v_solves : o.soil.Solves (o.soil.proj rs.length fun m => o.w B (et rs m)) (o.vsol B rs) := by
  refine ⟨fun z t => ∑ m ∈ range rs.length, o.soil.total (o.w B (et rs m)) / o.soil.total (fun z => o.w B (et rs m) z ^ 2) * o.wd B (et rs m) z *
      exp (-(o.rate (et rs m) * t)),
    fun z t => ∑ m ∈ range rs.length, o.soil.total (o.w B (et rs m)) / o.soil.total (fun z => o.w B (et rs m) z ^ 2) * o.w B (et rs m) z *
      (-o.rate (et rs m) * exp (-(o.rate (et rs m) * t))), fun z t h0 h1 => ⟨?_, ?_, ?_⟩, fun t => ⟨?_, fun hd => ?_, fun hd => ?_⟩, fun z => ?_⟩
  · unfold vsol
    refine HasDerivAt.fun_sum fun m hm => ?_
    exact (((et_mode h hB R (mem_range.1 hm)).slope z h0 h1).const_mul _).mul_const _
  · unfold vsol
    refine HasDerivAt.fun_sum fun m hm => ?_
    have : HasDerivAt (fun t => exp (-(o.rate (et rs m) * t))) (-o.rate (et rs m) * exp (-(o.rate (et rs m) * t))) t := by
      have := (((hasDerivAt_id t).const_mul (o.rate (et rs m))).neg).exp
      refine this.congr_deriv ?_
      simp only [id, mul_one]
      exact mul_comm _ _
    exact this.const_mul _
  · have : ∀ z', o.soil.kv z' / o.soil.gamw * (∑ m ∈ range rs.length, o.soil.total (o.w B (et rs m)) / o.soil.total (fun z => o.w B (et rs m) z ^ 2) *
        o.wd B (et rs m) z' * exp (-(o.rate (et rs m) * t))) = ∑ m ∈ range rs.length, o.soil.total (o.w B (et rs m)) /
          o.soil.total (fun z => o.w B (et rs m) z ^ 2) * exp (-(o.rate (et rs m) * t)) * (o.soil.kv z' / o.soil.gamw * o.wd B (et rs m) z') :=
      fun z' => by rw [mul_sum]; exact sum_congr rfl fun m _ => by ring
    simp only [this]
    rw [mul_sum]
    refine HasDerivAt.fun_sum fun m hm => ?_
    refine (((et_mode h hB R (mem_range.1 hm)).eqn z h0 h1).const_mul _).congr_deriv ?_
    ring
  · exact sum_eq_zero fun m hm => by
      have : o.w B (et rs m) 0 = 0 := (et_mode h hB R (mem_range.1 hm)).fits.top
      rw [this]; ring
  · exact sum_eq_zero fun m hm => by
      have : o.w B (et rs m) o.soil.H = 0 := (et_mode h hB R (mem_range.1 hm)).fits.bot.1 hd
      rw [this]; ring
  · exact sum_eq_zero fun m hm => by
      have : o.wd B (et rs m) o.soil.H = 0 := (et_mode h hB R (mem_range.1 hm)).fits.bot.2 hd
      rw [this]; ring
  · unfold vsol Spec.Vary.proj
    exact sum_congr rfl fun m _ => by simp

theorem v_cont (t : ℝ) : o.soil.Cont fun z => o.vsol B rs z t := by
  unfold vsol
  exact continuousOn_finsetSum _ fun m hm => (continuousOn_const.mul (et_mode h hB R (mem_range.1 hm)).cont).mul continuousOn_const

/-- Share of a mode in the final settlement. -/
noncomputable def share (V : Spec.Vary) (Z : ℝ → ℝ) : ℝ := V.total Z ^ 2 / V.total fun z => Z z ^ 2

theorem total_v (t : ℝ) : o.soil.total (fun z => 1 - o.vsol B rs z t) = o.soil.total (fun _ => 1) -
    ∑ m ∈ range rs.length, share o.soil (o.w B (et rs m)) * exp (-(o.rate (et rs m) * t)) := by
  rw [Spec.Vary.total_sub (V := o.soil) (f := fun _ => 1) h.H (cont_mv h hB R) continuousOn_const (v_cont h hB R t)]
  congr 1
  unfold vsol
  rw [Spec.Vary.total_sum (V := o.soil) (f := fun m z => o.soil.total (o.w B (et rs m)) / o.soil.total (fun z => o.w B (et rs m) z ^ 2) *
    o.w B (et rs m) z * exp (-(o.rate (et rs m) * t))) h.H (cont_mv h hB R)
    fun m hm => (continuousOn_const.mul (et_mode h hB R hm).cont).mul continuousOn_const]
  refine sum_congr rfl fun m _ => ?_
  have e : o.soil.total (fun z => o.soil.total (o.w B (et rs m)) / o.soil.total (fun z => o.w B (et rs m) z ^ 2) *
      o.w B (et rs m) z * exp (-(o.rate (et rs m) * t))) = o.soil.total (fun z => (o.soil.total (o.w B (et rs m)) / o.soil.total (fun z => o.w B (et rs m) z ^ 2) *
      exp (-(o.rate (et rs m) * t))) * o.w B (et rs m) z) := Spec.Vary.total_congr (V := o.soil) h.H fun z _ _ => by ring
  rw [e, Spec.Vary.total_mul]
  unfold share
  ring

theorem total_one_pos : 0 < o.soil.total (fun _ => 1) := by
  refine intervalIntegral.intervalIntegral_pos_of_pos_on (Spec.Vary.int_ok (V := o.soil) h.H (cont_mv h hB R) continuousOn_const) (fun z hz => ?_) h.H
  rw [mul_one]
  exact mul_pos h.mv0 (rpow_pos_of_pos (x_pos h hz.1.le hz.2.le) _)

include hc

theorem por_eq : r.por = o.z.map fun z => (o.tpor.getD o.t).map fun t => o.ui * o.vsol B rs z t := by
  rw [R.por]
  refine List.map_congr_left fun z _ => List.map_congr_left fun t _ => ?_
  rw [sum_et]
  unfold vsol
  rw [mul_sum]
  refine sum_congr rfl fun m hm => ?_
  have hm' := mem_range.1 hm
  rw [coef_por h (et_pos h hB R hm') hB (R.root _ (et_mem hm')) hc]
  unfold w
  ring

theorem doc_eq : r.doc = o.t.map fun t => o.soil.total (fun z => 1 - o.vsol B rs z t) / o.soil.total (fun _ => 1) := by
  rw [R.doc]
  refine List.map_congr_left fun t _ => ?_
  have h1 := total_one_pos h hB R
  rw [total_v h hB R, sub_div, div_self h1.ne', sum_et, sum_div, mul_neg, ← sub_eq_neg_add, sum_mul]
  congr 1
  refine sum_congr rfl fun m hm => ?_
  have hm' := mem_range.1 hm
  have := coef_doc h (et_pos h hB R hm') hB (R.root _ (et_mem hm')) hc
  unfold share
  calc _ = (o.frNum / o.frDen * o.cmDoc B (et rs m)) * exp (-(o.rate (et rs m) * t)) := by ring
    _ = _ := by rw [this]; ring

theorem settle_eq : r.settle = o.t.map fun t => o.soil.total fun z => o.ui - o.ui * o.vsol B rs z t := by
  have hd := doc_eq h hB hc R
  rw [R.doc] at hd
  rw [R.settle]
  refine List.map_congr_left fun t ht => ?_
  have := List.map_inj_left.1 hd t ht
  rw [this]
  have h1 := total_one_pos h hB R
  have e : o.soil.total (fun z => o.ui - o.ui * o.vsol B rs z t) = o.ui * o.soil.total (fun z => 1 - o.vsol B rs z t) := by
    rw [← Spec.Vary.total_mul]; exact Spec.Vary.total_congr (V := o.soil) h.H fun z _ _ => by ring
  rw [e]
  calc _ = o.soil.total (fun z => 1 - o.vsol B rs z t) / o.soil.total (fun _ => 1) * o.ui *
      (o.mv0 * ((1 + o.alpha) ^ (1 + o.q) - 1) / (1 + o.q) * o.H / o.alpha) := by ring
    _ = _ := by rw [← total_one h]; field_simp
end

end ZY
end Geotecha.Consol
