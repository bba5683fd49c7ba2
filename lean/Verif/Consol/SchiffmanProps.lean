import Verif.Consol.SchiffmanMode
import Verif.Consol.TangProps
import Verif.Roots.Props

/-! # schiffmanandstein1970: from the modes to the output -/

set_option linter.unusedVariables false
open Real Finset MeasureTheory
namespace Geotecha.Consol
open Geotecha (PyErr)
open Geotecha.Piecewise Geotecha.Speccon

theorem sumM_ok {α : Type} {f : α → Except PyErr ℝ} {g : α → ℝ} : ∀ {l : List α}, (∀ a ∈ l, f a = .ok (g a)) → sumM f l = .ok (l.map g).sum
  | [], _ => rfl
  | a :: l, h => by
    unfold sumM
    rw [h a (by simp), sumM_ok fun b hb => h b (by simp [hb])]
    rfl

theorem mapM_choose {α β : Type} [Inhabited β] {f : α → Except PyErr β} {l : List α} {out : List β} (h : l.mapM f = .ok out) :
    ∃ g : α → β, (∀ a ∈ l, f a = .ok (g a)) ∧ out = l.map g := by
  refine ⟨fun a => match f a with | .ok v => v | .error _ => default, ?_⟩
  induction l generalizing out with
  | nil => exact ⟨by simp, by cases h; rfl⟩
  | cons a l ih =>
    rw [List.mapM_cons] at h
    cases ha : f a with
    | error e => rw [ha] at h; cases h
    | ok v =>
      cases hl : l.mapM f with
      | error e => rw [ha, hl] at h; cases h
      | ok w =>
        rw [ha, hl] at h
        cases h
        obtain ⟨h1, h2⟩ := ih hl
        refine ⟨?_, ?_⟩
        · intro b hb
          rcases List.mem_cons.1 hb with rfl | hb
          · simp only [ha]
          · exact h1 b hb
        · rw [List.map_cons, ha, ← h2]

theorem sum_map_getD {α : Type} (d : α) (g : α → ℝ) : ∀ l : List α, (l.map g).sum = ∑ m ∈ range l.length, g (l.getD m d)
  | [] => by simp
  | a :: l => by
    rw [List.map_cons, List.sum_cons, sum_map_getD d g l, List.length_cons, sum_range_succ']
    simp [add_comm]

namespace SS
variable {o : SS}

/-! ## Integrals of a term -/

theorem zf_cont (o : SS) (q : Term) (i : ℕ) : Continuous (o.zf q i) := by unfold zf; fun_prop

theorem zlayer_sub (o : SS) (i : ℕ) : o.zlayer i - o.hh i = o.column.depth i := by
  rw [zlayer_eq, Spec.Column.depth_succ]; exact add_sub_cancel_right _ _

theorem zint_eq (o : SS) (q : Term) (i : ℕ) (hb : o.beta q.b0 i ≠ 0) :
    o.zint q i = ∫ z in o.column.depth i..o.column.depth (i + 1), o.zf q i z := by
  set b := o.beta q.b0 i with hbd
  have hder : ∀ z ∈ Set.uIcc (o.column.depth i) (o.column.depth (i + 1)),
      HasDerivAt (fun z => q.B i * sin (b * z) / b - q.C i * cos (b * z) / b) (o.zf q i z) z := fun z _ => by
    have hbz : HasDerivAt (fun z => b * z) b z := by simpa using (hasDerivAt_id z).const_mul b
    refine (((hbz.sin.const_mul (q.B i)).div_const b).sub ((hbz.cos.const_mul (q.C i)).div_const b)).congr_deriv ?_
    unfold zf
    rw [← hbd]
    field_simp
    ring
  rw [intervalIntegral.integral_eq_sub_of_hasDerivAt hder ((o.zf_cont q i).intervalIntegrable _ _)]
  unfold zint
  rw [zlayer_sub, zlayer_eq, ← hbd]
  ring

theorem z2int_eq (o : SS) (q : Term) (i : ℕ) (hb : o.beta q.b0 i ≠ 0) :
    o.z2int q i = ∫ z in o.column.depth i..o.column.depth (i + 1), o.zf q i z ^ 2 := by
  set b := o.beta q.b0 i with hbd
  have hder : ∀ z ∈ Set.uIcc (o.column.depth i) (o.column.depth (i + 1)),
      HasDerivAt (fun z => q.B i ^ 2 * (z / 2 + sin (b * z) * cos (b * z) / (2 * b)) + q.C i ^ 2 * (z / 2 - sin (b * z) * cos (b * z) / (2 * b)) -
        q.B i * q.C i * cos (b * z) ^ 2 / b) (o.zf q i z ^ 2) z := fun z _ => by
    have hbz : HasDerivAt (fun z => b * z) b z := by simpa using (hasDerivAt_id z).const_mul b
    have h1 := ((hbz.sin.mul hbz.cos).div_const (2 * b))
    have h2 := (hasDerivAt_id z).div_const 2
    have h3 := (((hbz.cos.pow 2).const_mul (q.B i * q.C i)).div_const b)
    refine ((((h2.add h1).const_mul (q.B i ^ 2)).add ((h2.sub h1).const_mul (q.C i ^ 2))).sub h3).congr_deriv ?_
    unfold zf
    rw [← hbd]
    have := sin_sq_add_cos_sq (b * z)
    generalize sin (b * z) = S at *
    generalize cos (b * z) = C at *
    field_simp
    simp only [Nat.add_one_sub_one, pow_one, Nat.cast_ofNat]
    have e : C ^ 2 = 1 - S ^ 2 := by linarith
    linear_combination (q.B i ^ 2 + q.C i ^ 2) * (-1) * this + 0
  rw [intervalIntegral.integral_eq_sub_of_hasDerivAt hder (((o.zf_cont q i).pow 2).intervalIntegrable _ _)]
  unfold z2int
  rw [zlayer_sub, zlayer_eq, ← hbd]
  have e1 := sin_sq_add_cos_sq (b * o.column.depth i)
  have e2 := sin_sq_add_cos_sq (b * o.column.depth (i + 1))
  generalize o.column.depth i = d1 at *
  generalize o.column.depth (i + 1) = d2 at *
  linear_combination (-(q.B i ^ 2 + q.C i ^ 2) * d1 / 2) * e1 + ((q.B i ^ 2 + q.C i ^ 2) * d2 / 2) * e2

theorem am_eq (h : o.Valid) (q : Term) (hq : 0 < q.b0) :
    o.am q = o.column.total (o.zf q) / o.column.total (fun i z => o.zf q i z ^ 2) := by
  unfold am Spec.Column.total
  congr 1
  · exact sum_congr rfl fun i hi => by rw [o.zint_eq q i (beta_pos h hq (mem_range.1 hi)).ne']; rfl
  · exact sum_congr rfl fun i hi => by rw [o.z2int_eq q i (beta_pos h hq (mem_range.1 hi)).ne']; rfl

theorem total_sq_pos (h : o.Valid) (q : Term) (hq : 0 < q.b0) (hC : q.C (o.nl - 1) = 1) : 0 < o.column.total (fun i z => o.zf q i z ^ 2) := by
  have hn : 0 < o.nl := h.nl
  have hd : ∀ i < o.nl, o.column.depth i < o.column.depth (i + 1) := fun i hi => by
    rw [Spec.Column.depth_succ]; have := hh_pos h hi; show _ < _ + o.hh i; linarith
  unfold Spec.Column.total
  refine sum_pos' (fun i hi => ?_) ⟨o.nl - 1, mem_range.2 (by show o.nl - 1 < o.nl; omega), ?_⟩
  · have hi := mem_range.1 hi
    exact mul_nonneg (m_pos h hi).le (intervalIntegral.integral_nonneg (hd i hi).le fun z _ => sq_nonneg _)
  · have hi : o.nl - 1 < o.nl := by omega
    refine mul_pos (m_pos h hi) ?_
    generalize hj : o.nl - 1 = i at *
    have hlt := hd i hi
    refine intervalIntegral.integral_pos hlt ((o.zf_cont q i).pow 2).continuousOn (fun z _ => sq_nonneg _) ?_
    by_contra hcon
    push Not at hcon
    have hz : ∀ z ∈ Set.Icc (o.column.depth i) (o.column.depth (i + 1)), o.zf q i z = 0 := fun z hz =>
      pow_eq_zero_iff (two_ne_zero) |>.1 (le_antisymm (hcon z hz) (sq_nonneg _))
    set c := (o.column.depth i + o.column.depth (i + 1)) / 2 with hc
    have hcI : c ∈ Set.Ioo (o.column.depth i) (o.column.depth (i + 1)) := ⟨by rw [hc]; linarith, by rw [hc]; linarith⟩
    have hd0 : o.zd q i c = 0 := by
      refine HasDerivAt.unique (o.zf_deriv q i c) ((hasDerivAt_const c (0:ℝ)).congr_of_eventuallyEq ?_)
      filter_upwards [Ioo_mem_nhds hcI.1 hcI.2] with z hz'
      exact hz z ⟨hz'.1.le, hz'.2.le⟩
    have hz0 := hz c ⟨hcI.1.le, hcI.2.le⟩
    have hb := beta_pos h hq hi
    unfold zd at hd0
    unfold zf at hz0
    rw [hC] at hd0 hz0
    have e := sin_sq_add_cos_sq (o.beta q.b0 i * c)
    have hd1 : -q.B i * sin (o.beta q.b0 i * c) + cos (o.beta q.b0 i * c) = 0 := by
      have : o.beta q.b0 i * (-q.B i * sin (o.beta q.b0 i * c) + cos (o.beta q.b0 i * c)) = 0 := by linear_combination hd0
      exact (mul_eq_zero.1 this).resolve_left hb.ne'
    generalize sin (o.beta q.b0 i * c) = S at *
    generalize cos (o.beta q.b0 i * c) = K at *
    have : (1:ℝ) = 0 := by linear_combination S * hz0 + K * hd1 - e
    exact one_ne_zero this

/-! ## Time -/

theorem calcTm_eq (p : PolyLine ℝ) (cv beta t : ℝ) {T P : List ℝ} (hx : p.getX.1 = .ok T) (hy : p.getY.1 = .ok P) :
    calcTm p cv beta t = pEDload .scalar p none 1 (cv * beta ^ 2) t := by
  unfold calcTm pEDload edloadLinear
  rw [hx, hy]
  simp only [Bind.bind, Except.bind]
  cases loadSegments T P t with
  | error e => rfl
  | ok g =>
    simp only [pure, Except.pure]
    congr 1
    congr 1
    · congr 1
      · congr 2; funext k; unfold EDl_sl_s
        rw [show -cv * beta ^ 2 * (t - T.getD k 0) = -1 * (cv * beta ^ 2) * (t - T.getD k 0) by ring, mul_comm]
      · congr 2; funext k; unfold EDl_rc_s
        rw [show -beta ^ 2 * cv * (t - T.getD k 0) = -1 * (cv * beta ^ 2) * (t - T.getD k 0) by ring,
          show -T.getD k 0 + T.getD (k+1) 0 = T.getD (k+1) 0 - T.getD k 0 by ring]
        generalize exp _ = E
        simp only [div_eq_mul_inv, mul_inv]; ring
    · congr 2; funext k; unfold EDl_rl_s
      rw [show -beta ^ 2 * cv * (t - T.getD k 0) = -1 * (cv * beta ^ 2) * (t - T.getD k 0) by ring,
        show -beta ^ 2 * cv * (t - T.getD (k+1) 0) = -1 * (cv * beta ^ 2) * (t - T.getD (k+1) 0) by ring,
        show -T.getD k 0 + T.getD (k+1) 0 = T.getD (k+1) 0 - T.getD k 0 by ring]
      generalize exp (-1 * (cv * beta ^ 2) * (t - T.getD k 0)) = E
      generalize exp _ = E'
      simp only [div_eq_mul_inv, mul_inv]; ring

/-- The time function of the terms, the same in all layers. -/
theorem tm_ok (h : o.Valid) {s tend : ℝ} {load : ℝ → ℝ} {load0 : ℝ} (hl : LoadHistory o.load none s tend load load0) :
    ∃ D : ℝ → ℝ → ℝ, ∀ b, 0 < b → (∀ x y, IntervalIntegrable (D b) volume x y) ∧
      (∀ co, ∀ t i, i < o.nl → s ≤ t → t ≤ tend → o.tm t i ⟨b, co⟩ = .ok (D b t)) ∧
      ∀ t, s ≤ t → t ≤ tend → D b t + o.cv 0 * b ^ 2 * ∫ r in s..t, D b r = load t - load0 := by
  have key : ∀ b, ∃ D : ℝ → ℝ, 0 < b → (∀ x y, IntervalIntegrable D volume x y) ∧
      (∀ co, ∀ t i, i < o.nl → s ≤ t → t ≤ tend → o.tm t i ⟨b, co⟩ = .ok (D t)) ∧
      ∀ t, s ≤ t → t ≤ tend → D t + o.cv 0 * b ^ 2 * ∫ r in s..t, D r = load t - load0 := fun b => by
    by_cases hb : 0 < b
    · have hc := cv_pos h (i := 0) h.nl
      obtain ⟨D, h1, h2, h3⟩ := hl.solve.2.2.2 1 (o.cv 0 * b ^ 2) (by positivity)
      refine ⟨D, fun _ => ⟨h1, fun co t i hi ht1 ht2 => ?_, fun t ht1 ht2 => ?_⟩⟩
      · obtain ⟨T, P, hx, hy, _⟩ := hl.ex
        unfold tm
        rw [calcTm_eq _ _ _ _ hx hy]
        dsimp only
        rw [beta_rate h hb hi, h2 .scalar t ht1 ht2]
      · have := h3 t ht1 ht2
        rwa [one_mul] at this
    · exact ⟨fun _ => 0, fun h => absurd h hb⟩
  choose D hD using key
  exact ⟨D, hD⟩

/-! ## Layers -/

theorem depth_lt (h : o.Valid) {i j : ℕ} (hij : i < j) (hj : j ≤ o.nl) : o.column.depth i < o.column.depth j := by
  induction j with
  | zero => omega
  | succ j ih =>
    have e := o.column.depth_succ j
    have hp := hh_pos h (i := j) (by omega)
    have : o.column.h j = o.hh j := rfl
    rcases Nat.lt_succ_iff_lt_or_eq.1 hij with hlt | rfl
    · have := ih hlt (by omega); rw [e]; linarith
    · rw [e]; linarith

theorem depth_le (h : o.Valid) {i j : ℕ} (hij : i ≤ j) (hj : j ≤ o.nl) : o.column.depth i ≤ o.column.depth j := by
  rcases hij.lt_or_eq with hlt | rfl
  · exact (depth_lt h hlt hj).le
  · exact le_refl _

theorem filter_range_lt (N i : ℕ) (hi : i ≤ N) (p : ℕ → Bool) (hp : ∀ j < N, p j = true ↔ j < i) : ((List.range N).filter p).length = i := by
  have e : (List.range N).filter p = (List.range N).filter (fun j => decide (j < i)) :=
    List.filter_congr fun j hj => by
      have := hp j (List.mem_range.1 hj)
      by_cases hji : j < i
      · simp [hji, this.2 hji]
      · simp only [hji, decide_false]; exact Bool.eq_false_iff.2 fun hh => hji (this.1 hh)
  rw [e]
  have : ∀ N, i ≤ N → ((List.range N).filter (fun j => decide (j < i))).length = i := by
    intro N hN
    induction N with
    | zero => have : i = 0 := by omega
              subst this; rfl
    | succ N ih =>
      rw [List.range_succ, List.filter_append, List.length_append]
      rcases Nat.lt_or_eq_of_le hN with hlt | rfl
      · rw [ih (by omega)]; simp [show ¬ N < i by omega]
      · have : (List.range N).filter (fun j => decide (j < N + 1)) = List.range N :=
          List.filter_eq_self.2 fun j hj => by have := List.mem_range.1 hj; simp; omega
        rw [this]; simp
  exact this N hi

/-- The layer the code looks in. -/
theorem layerOf_eq (h : o.Valid) {z : ℝ} {i : ℕ} (hi : i < o.nl) (h1 : o.column.depth i < z ∨ (i = 0 ∧ 0 ≤ z)) (h2 : z ≤ o.column.depth (i + 1)) :
    o.layerOf z = i := by
  unfold layerOf
  refine filter_range_lt _ i (by rw [h.hlen]; exact hi.le) _ fun j hj => ?_
  rw [h.hlen] at hj
  have hj : j < o.nl := hj
  rw [decide_eq_true_iff, zlayer_eq]
  constructor
  · intro hz
    by_contra hc
    have := depth_le h (i := i + 1) (j := j + 1) (by omega) (by omega)
    linarith
  · intro hz
    rcases h1 with h1 | ⟨h1, _⟩
    · have := depth_le h (i := j + 1) (j := i) (by omega) (by omega)
      linarith
    · omega

/-- Each depth lies in a layer. -/
theorem layer_ex (h : o.Valid) {z : ℝ} (h0 : 0 ≤ z) (h1 : z ≤ o.column.depth o.nl) :
    ∃ i < o.nl, (o.column.depth i < z ∨ (i = 0 ∧ 0 ≤ z)) ∧ z ≤ o.column.depth (i + 1) := by
  have hn : 0 < o.nl := h.nl
  have : ∀ N, 0 < N → z ≤ o.column.depth N → ∃ i < N, (o.column.depth i < z ∨ (i = 0 ∧ 0 ≤ z)) ∧ z ≤ o.column.depth (i + 1) := by
    intro N hN
    induction N with
    | zero => omega
    | succ N ih =>
      intro hz
      by_cases hlt : o.column.depth N < z
      · exact ⟨N, by omega, Or.inl hlt, hz⟩
      · by_cases hN0 : N = 0
        · subst hN0; exact ⟨0, by omega, Or.inr ⟨rfl, h0⟩, hz⟩
        · obtain ⟨i, hi, hh⟩ := ih (by omega) (not_lt.1 hlt)
          exact ⟨i, by omega, hh⟩
  exact this o.nl hn h1

end SS
end Geotecha.Consol
