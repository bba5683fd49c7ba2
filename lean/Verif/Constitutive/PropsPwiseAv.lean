import Verif.Constitutive.PropsPwise
import Mathlib.Analysis.SpecialFunctions.Log.Base
import Mathlib.Analysis.SpecialFunctions.Pow.Deriv

/-! # C57: the compressibility `av_from_stress` of the piecewise linear model is minus the slope of `e_from_stress` -/

set_option linter.unusedVariables false
namespace Geotecha.Const

theorem seg_exists {l : List (ℝ × ℝ)} (hi : Inc l) {m : ℝ} (h1 : ∃ a ∈ l, a.1 < m) (h2 : ∃ a ∈ l, m ≤ a.1) :
    ∃ l1 p q l2, l = l1 ++ p :: q :: l2 ∧ p.1 < m ∧ m ≤ q.1 := by
  induction l with
  | nil => obtain ⟨a, ha, _⟩ := h1; simp at ha
  | cons p l ih =>
    have hp : p.1 < m := by
      obtain ⟨a, ha, ham⟩ := h1
      rcases List.mem_cons.1 ha with rfl | ha
      · exact ham
      · exact lt_trans ((List.pairwise_cons.1 hi).1 a ha) ham
    have h2' : ∃ a ∈ l, m ≤ a.1 := by
      obtain ⟨a, ha, ham⟩ := h2
      rcases List.mem_cons.1 ha with rfl | ha
      · exact absurd hp (not_lt.2 ham)
      · exact ⟨a, ha, ham⟩
    cases l with
    | nil => obtain ⟨a, ha, _⟩ := h2'; simp at ha
    | cons q r =>
      by_cases hq : q.1 < m
      · obtain ⟨l1, p', q', l2, e, h3, h4⟩ := ih hi.tail ⟨q, by simp, hq⟩ h2'
        exact ⟨p :: l1, p', q', l2, by rw [e]; rfl, h3, h4⟩
      · exact ⟨[], p, q, r, rfl, hp, not_lt.1 hq⟩

theorem interp_seg {l1 l2 : List (ℝ × ℝ)} {p q : ℝ × ℝ} (hi : Inc (l1 ++ p :: q :: l2)) {x : ℝ} (h1 : p.1 ≤ x) (h2 : x ≤ q.1) :
    npInterp x (l1 ++ p :: q :: l2) = p.2 + (q.2 - p.2) / (q.1 - p.1) * (x - p.1) := by
  have hpq : p.1 < q.1 := by
    have := (List.pairwise_append.1 hi).2.1
    exact (List.pairwise_cons.1 this).1 q (by simp)
  have hd := sub_pos.2 hpq
  refine interp_of_onGraph hi ?_
  have hs : OnSeg p q x (p.2 + (q.2 - p.2) / (q.1 - p.1) * (x - p.1)) :=
    ⟨(x - p.1) / (q.1 - p.1), div_nonneg (by linarith) hd.le, (div_le_one hd).2 (by linarith), by field_simp; ring, by field_simp⟩
  clear hi
  induction l1 with
  | nil => exact Or.inl hs
  | cons a l1 ih =>
    cases l1 with
    | nil => exact Or.inr ih
    | cons b l1 => exact Or.inr ih

theorem searchsorted_seg {l1 l2 : List (ℝ × ℝ)} {p q : ℝ × ℝ} (hi : Inc (l1 ++ p :: q :: l2)) {m : ℝ} (h1 : p.1 < m) (h2 : m ≤ q.1) :
    searchsorted ((l1 ++ p :: q :: l2).map Prod.fst) m = l1.length + 1 := by
  unfold searchsorted
  induction l1 with
  | nil => simp [List.takeWhile, h1, not_lt.2 h2]
  | cons a l1 ih =>
    have ha : a.1 < m := lt_trans ((List.pairwise_cons.1 hi).1 p (by simp)) h1
    have := ih (List.pairwise_cons.1 hi).2
    rw [List.cons_append, List.map_cons, List.takeWhile_cons_of_pos (by simpa using ha), List.length_cons, this, List.length_cons]

theorem getD_seg (l1 l2 : List (ℝ × ℝ)) (p q : ℝ × ℝ) (f : ℝ × ℝ → ℝ) :
    ((l1 ++ p :: q :: l2).map f).getD l1.length 0 = f p ∧ ((l1 ++ p :: q :: l2).map f).getD (l1.length + 1) 0 = f q := by
  constructor
  · rw [List.getD_eq_getElem?_getD]; simp
  · rw [List.getD_eq_getElem?_getD]; simp [List.getElem?_append_right]

/-- The increasing list the code interpolates in. -/
noncomputable def sorted (d : PwData) : List (ℝ × ℝ) := if anyDiffNonpos d.xs then (List.zip d.X d.Y).reverse else List.zip d.X d.Y

theorem sorted_inc {d : PwData} (ok : PwOk d) : Inc (sorted d) := by
  unfold sorted
  rcases ok.mx with h | h
  · rw [anyDiff_inc h]; exact inc_zip ((X_order ok).1 h)
  · have := inc_zip_rev (ys := d.Y) ((X_order ok).2 h)
    split_ifs with hb
    · exact this
    · have hl : d.xs.length ≤ 1 := by
        match hx : d.xs with
        | [] => simp
        | [a] => simp
        | a :: b :: r => rw [hx] at h hb; exact absurd (anyDiff_dec h) hb
      rwa [single_rev (X_len d) hl] at this

theorem sorted_interp (d : PwData) (x : ℝ) : interpSl d.xs d.X d.Y x = npInterp x (sorted d) := rfl

theorem sorted_fst {d : PwData} (ok : PwOk d) : (if anyDiffNonpos d.xs then d.X.reverse else d.X) = (sorted d).map Prod.fst := by
  have : (List.zip d.X d.Y).map Prod.fst = d.X := List.map_fst_zip (by rw [X_len, Y_len, ok.len])
  unfold sorted; split_ifs
  · rw [List.map_reverse, this]
  · rw [this]

theorem sorted_snd {d : PwData} (ok : PwOk d) : (if anyDiffNonpos d.xs then d.Y.reverse else d.Y) = (sorted d).map Prod.snd := by
  have : (List.zip d.X d.Y).map Prod.snd = d.Y := List.map_snd_zip (by rw [X_len, Y_len, ok.len])
  unfold sorted; split_ifs
  · rw [List.map_reverse, this]
  · rw [this]

theorem X_eq (d : PwData) : d.X = d.xs.map (tr d.xlog) := by unfold PwData.X tr; cases d.xlog <;> simp

theorem mem_sorted {d : PwData} (ok : PwOk d) {a : ℝ} (h : a ∈ d.xs) : ∃ p ∈ sorted d, p.1 = tr d.xlog a := by
  have : tr d.xlog a ∈ (sorted d).map Prod.fst := by
    rw [← sorted_fst ok]
    have : tr d.xlog a ∈ d.X := by rw [X_eq]; exact List.mem_map_of_mem h
    split_ifs <;> simpa using this
  obtain ⟨p, hp, e⟩ := List.mem_map.1 this
  exact ⟨p, hp, e⟩

theorem sorted_mem {d : PwData} (ok : PwOk d) {p : ℝ × ℝ} (h : p ∈ sorted d) : ∃ a ∈ d.xs, p.1 = tr d.xlog a := by
  have : p.1 ∈ (sorted d).map Prod.fst := List.mem_map_of_mem h
  rw [← sorted_fst ok] at this
  have : p.1 ∈ d.X := by split_ifs at this <;> simpa using this
  rw [X_eq] at this
  obtain ⟨a, ha, e⟩ := List.mem_map.1 this
  exact ⟨a, ha, e.symm⟩

/-- The slope of the transformed void ratio. -/
noncomputable def segSlope (p q : ℝ × ℝ) : ℝ := (p.2 - q.2) / (q.1 - p.1)

/-- What the code computes when the past maximum lies in the half open segment `(p, q]`. -/
theorem av_seg {d : PwData} (ok : PwOk d) (Cr s : ℝ) (ps : Option ℝ) {l1 l2 : List (ℝ × ℝ)} {p q : ℝ × ℝ} (hl : sorted d = l1 ++ p :: q :: l2)
    (h1 : p.1 < tr d.xlog (max (ps.getD s) s)) (h2 : tr d.xlog (max (ps.getD s) s) ≤ q.1) :
    d.avFromStress Cr s ps = .ok ((if tr d.xlog (max (ps.getD s) s) > tr d.xlog s then Cr else segSlope p q) *
      (if d.ylog then fact * (10:ℝ) ^ (p.2 - segSlope p q * (tr d.xlog (max (ps.getD s) s) - p.1) + Cr * (tr d.xlog (max (ps.getD s) s) - tr d.xlog s)) else 1) /
      (if d.xlog then fact * (10:ℝ) ^ (tr d.xlog s) else 1)) := by
  have hi := sorted_inc ok
  rw [hl] at hi
  unfold PwData.avFromStress
  simp only [sorted_fst ok, sorted_snd ok, hl, searchsorted_seg hi h1 h2]
  rw [if_neg (by simp)]
  simp only [Nat.succ_ne_zero, if_false, Nat.add_sub_cancel, (getD_seg l1 l2 p q Prod.fst).1, (getD_seg l1 l2 p q Prod.fst).2,
    (getD_seg l1 l2 p q Prod.snd).1, (getD_seg l1 l2 p q Prod.snd).2]
  rfl

/-- Derivative of `untr ∘ (linear) ∘ tr`. -/
theorem deriv_untr_tr (xl yl : Bool) (f : ℝ → ℝ) (C s : ℝ) (hs : xl = true → 0 < s) (hf : HasDerivAt f (-C) (tr xl s)) :
    HasDerivAt (fun s => untr yl (f (tr xl s))) (-(C * (if yl then fact * (10:ℝ) ^ (f (tr xl s)) else 1) / (if xl then fact * (10:ℝ) ^ tr xl s else 1))) s := by
  have hlog : Real.log 10 ≠ 0 := log10_pos.ne'
  have htr : HasDerivAt (tr xl) (1 / (if xl then fact * (10:ℝ) ^ tr xl s else 1)) s := by
    cases xl with
    | false =>
      have e : tr false = id := by funext x; rfl
      rw [e]; simpa using hasDerivAt_id s
    | true =>
      have hpos := hs rfl
      have := (Real.hasDerivAt_log hpos.ne').div_const (Real.log 10)
      have e : tr true = fun x => Real.log x / Real.log 10 := by funext x; rfl
      rw [e]
      refine HasDerivAt.congr_deriv this ?_
      rw [if_pos rfl, show (fun x => Real.log x / Real.log 10) s = log10 s from rfl, pow_log10 hpos]
      unfold fact; field_simp
  have hcomp : HasDerivAt (fun s => f (tr xl s)) (-C * (1 / (if xl then fact * (10:ℝ) ^ tr xl s else 1))) s := hf.comp s htr
  cases yl with
  | false =>
    simp only [untr, Bool.false_eq_true, if_false]
    convert hcomp using 1; ring
  | true =>
    have := hcomp.const_rpow (a := (10:ℝ)) (by norm_num)
    simp only [untr, if_true]
    convert this using 1
    unfold fact; ring

/-- **C57** on the compression line (no preconsolidation stress given, or already exceeded), between data points. -/
theorem C57_compression {sa ea : List ℝ} {xl yl : Bool} (h : DataOk sa ea xl yl) {d : PwData} (hd : pwInit sa ea xl yl = .ok d)
    (Cr : ℝ) {s : ℝ} (ps : Option ℝ) (hps : ∀ p, ps = some p → p < s) (h1 : ∃ a ∈ sa, a < s) (h2 : ∃ a ∈ sa, s < a) (h3 : s ∉ sa) :
    ∃ av, d.avFromStress Cr s ps = .ok av ∧ HasDerivAt (fun s => d.eFromStress Cr s ps) (-av) s := by
  have ok := pwInit_PwOk h hd
  have hf := pwInit_fields hd
  have e1 : d.xs = sa := by rw [hf]
  have hpos : d.xlog = true → 0 < s := fun b => by
    obtain ⟨a, ha, has⟩ := h1
    exact lt_trans (ok.px b a (by rw [e1]; exact ha)) has
  have hmax : max (ps.getD s) s = s := by
    cases ps with
    | none => simp
    | some p => exact max_eq_right (hps p rfl).le
  have hi := sorted_inc ok
  obtain ⟨l1, p, q, l2, hl, hp, hq⟩ := seg_exists hi (m := tr d.xlog s)
    (by obtain ⟨a, ha, has⟩ := h1; obtain ⟨p, hp, e⟩ := mem_sorted ok (a := a) (by rw [e1]; exact ha)
        exact ⟨p, hp, by rw [e]; exact tr_lt (fun b => ok.px b a (by rw [e1]; exact ha)) has⟩)
    (by obtain ⟨a, ha, has⟩ := h2; obtain ⟨p, hp, e⟩ := mem_sorted ok (a := a) (by rw [e1]; exact ha)
        exact ⟨p, hp, by rw [e]; exact tr_le hpos has.le⟩)
  have hq' : tr d.xlog s < q.1 := by
    refine lt_of_le_of_ne hq fun hc => h3 ?_
    obtain ⟨a, ha, e⟩ := sorted_mem ok (p := q) (by rw [hl]; simp)
    rw [e] at hc
    have := congrArg (untr d.xlog) hc
    rw [untr_tr hpos, untr_tr (fun b => ok.px b a ha)] at this
    rw [this, ← e1]; exact ha
  have hav := av_seg ok Cr s ps hl (by rw [hmax]; exact hp) (by rw [hmax]; exact hq)
  refine ⟨_, hav, ?_⟩
  rw [hmax]
  simp only [gt_iff_lt, lt_irrefl, if_false, sub_self, mul_zero, add_zero]
  rw [hl] at hi
  -- near `s` the void ratio is the transformed linear function
  have hlin : HasDerivAt (fun x => p.2 - segSlope p q * (x - p.1)) (-segSlope p q) (tr d.xlog s) := by
    have := (((hasDerivAt_id (tr d.xlog s)).sub_const p.1).const_mul (segSlope p q)).const_sub p.2
    simpa using this
  have hD := deriv_untr_tr d.xlog d.ylog _ _ s hpos hlin
  refine hD.congr_of_eventuallyEq ?_
  have hcont : ContinuousAt (tr d.xlog) s := by
    cases hb : d.xlog with
    | false => exact continuousAt_id
    | true => exact (Real.continuousAt_log (hpos hb).ne').div_const _
  have hps' : ∀ᶠ t in nhds s, max (ps.getD t) t = t := by
    cases ps with
    | none => simp
    | some p => filter_upwards [eventually_gt_nhds (hps p rfl)] with t ht using max_eq_right ht.le
  filter_upwards [hcont.eventually (eventually_gt_nhds hp), hcont.eventually (eventually_lt_nhds hq'), hps'] with t ht1 ht2 ht3
  unfold PwData.eFromStress
  simp only [ht3, sub_self, mul_zero, add_zero]
  rw [sorted_interp, hl, interp_seg hi ht1.le ht2.le]
  congr 1
  unfold segSlope
  have : q.1 - p.1 ≠ 0 := by
    have := lt_trans hp hq'
    exact (sub_pos.2 this).ne'
  field_simp; ring

/-- **C57** on the recompression line: below the preconsolidation stress. -/
theorem C57_recompression {sa ea : List ℝ} {xl yl : Bool} (h : DataOk sa ea xl yl) {d : PwData} (hd : pwInit sa ea xl yl = .ok d)
    (Cr : ℝ) {s p : ℝ} (hsp : s < p) (hpos : xl = true → 0 < s) (h1 : ∃ a ∈ sa, a < p) (h2 : ∃ a ∈ sa, p ≤ a) :
    ∃ av, d.avFromStress Cr s (some p) = .ok av ∧ HasDerivAt (fun s => d.eFromStress Cr s (some p)) (-av) s := by
  have ok := pwInit_PwOk h hd
  have hf := pwInit_fields hd
  have e1 : d.xs = sa := by rw [hf]
  have hpos : d.xlog = true → 0 < s := by rw [hf]; exact hpos
  have hposp : d.xlog = true → 0 < p := fun b => lt_trans (hpos b) hsp
  have hmax : max ((some p).getD s) s = p := max_eq_left hsp.le
  have hi := sorted_inc ok
  obtain ⟨l1, u, q, l2, hl, hu, hq⟩ := seg_exists hi (m := tr d.xlog p)
    (by obtain ⟨a, ha, has⟩ := h1; obtain ⟨p, hp, e⟩ := mem_sorted ok (a := a) (by rw [e1]; exact ha)
        exact ⟨p, hp, by rw [e]; exact tr_lt (fun b => ok.px b a (by rw [e1]; exact ha)) has⟩)
    (by obtain ⟨a, ha, has⟩ := h2; obtain ⟨p, hp, e⟩ := mem_sorted ok (a := a) (by rw [e1]; exact ha)
        exact ⟨p, hp, by rw [e]; exact tr_le hposp has⟩)
  have hav := av_seg ok Cr s (some p) hl (by rw [hmax]; exact hu) (by rw [hmax]; exact hq)
  refine ⟨_, hav, ?_⟩
  rw [hmax, if_pos (tr_lt hpos hsp)]
  rw [hl] at hi
  have hlin : HasDerivAt (fun x => u.2 - segSlope u q * (tr d.xlog p - u.1) + Cr * (tr d.xlog p - x)) (-Cr) (tr d.xlog s) := by
    have := (((hasDerivAt_id (tr d.xlog s)).const_sub (tr d.xlog p)).const_mul Cr).const_add (u.2 - segSlope u q * (tr d.xlog p - u.1))
    simpa using this
  have hD := deriv_untr_tr d.xlog d.ylog _ _ s hpos hlin
  refine hD.congr_of_eventuallyEq ?_
  filter_upwards [eventually_lt_nhds hsp] with t ht
  unfold PwData.eFromStress
  simp only [Option.getD_some, max_eq_left ht.le]
  rw [sorted_interp, hl, interp_seg hi hu.le hq]
  congr 2
  unfold segSlope
  have : q.1 - u.1 ≠ 0 := by
    have := lt_of_lt_of_le hu hq
    exact (sub_pos.2 this).ne'
  field_simp; ring

theorem takeWhile_all {l : List ℝ} {f : ℝ → Bool} (h : ∀ a ∈ l, f a = true) : l.takeWhile f = l := by
  induction l with
  | nil => rfl
  | cons a l ih => rw [List.takeWhile_cons_of_pos (h a (by simp)), ih (fun b hb => h b (by simp [hb]))]

/-- **C57** beyond the last data point there is no segment: an `IndexError` is raised (whereas `e_from_stress` clamps). -/
theorem C57_beyond {sa ea : List ℝ} {xl yl : Bool} (h : DataOk sa ea xl yl) {d : PwData} (hd : pwInit sa ea xl yl = .ok d)
    (Cr : ℝ) {s : ℝ} (ps : Option ℝ) (hb : ∀ a ∈ sa, a < max (ps.getD s) s) : d.avFromStress Cr s ps = .error .indexError := by
  have ok := pwInit_PwOk h hd
  have hf := pwInit_fields hd
  have e1 : d.xs = sa := by rw [hf]
  unfold PwData.avFromStress
  simp only [sorted_fst ok]
  rw [if_pos]
  unfold searchsorted
  rw [takeWhile_all]
  intro a ha
  obtain ⟨p, hp, rfl⟩ := List.mem_map.1 ha
  obtain ⟨a, ha, e⟩ := sorted_mem ok hp
  rw [e]
  simpa using tr_lt (fun b => ok.px b a ha) (hb a (by rw [← e1]; exact ha))

/-- **C57, the defect**: at the lowest data point the index wraps around, and the value returned is the slope of the secant from the
first to the last data point. -/
theorem C57_negation : ∃ d, pwInit [1, 2, 4] [5, 4, 3] false false = .ok d ∧ DataOk [1, 2, 4] [5, 4, 3] false false ∧
    d.avFromStress 0.1 1 none = .ok (2 / 3) ∧ d.avFromStress 0.1 1.5 none = .ok 1 ∧ d.avFromStress 0.1 2 none = .ok 1 ∧
    d.avFromStress 0.1 3 none = .ok (1 / 2) := by
  refine ⟨⟨[1, 2, 4], [5, 4, 3], false, false⟩, by norm_num [pwInit], ⟨by simp, Or.inl (by norm_num), Or.inr (by norm_num), by simp, by simp⟩, ?_⟩
  have hb : anyDiffNonpos [1, 2, 4] = false := anyDiff_inc (by norm_num)
  refine ⟨?_, ?_, ?_, ?_⟩ <;>
  · simp only [PwData.avFromStress, PwData.X, PwData.Y, tr, hb, searchsorted]
    norm_num [List.takeWhile]

/-! ## The hypotheses are met -/

theorem sample_ok : DataOk [1, 2, 4] [5, 4, 3] false false :=
  ⟨by simp, Or.inl (by norm_num), Or.inr (by norm_num), by simp, by simp⟩

/-- Decreasing stresses on a logarithmic axis. -/
theorem sample_log_ok : DataOk [100, 10] [1, 2] true false :=
  ⟨by simp, Or.inr (by norm_num), Or.inl (by norm_num), fun _ a ha => by
    simp at ha; rcases ha with rfl | rfl <;> norm_num, by simp⟩

theorem sample_flatter : Flatter (1 / 10) [1, 2, 4] [5, 4, 3] false false := by
  intro p hp q hq h
  simp only [List.zip_cons_cons, List.zip_nil_right, List.mem_cons, List.not_mem_nil, or_false] at hp hq
  rcases hp with rfl | rfl | rfl <;> rcases hq with rfl | rfl | rfl <;> first | (exfalso; norm_num at h; done) | norm_num [tr]

example : ∃ d, pwInit [1, 2, 4] [5, 4, 3] false false = .ok d ∧ d.stressFromE (1 / 10) (d.eFromStress (1 / 10) 1.5 (some 3)) (some 3) = 1.5 :=
  ⟨_, pwInit_ok sample_ok, C56_stress_recovered sample_ok (pwInit_ok sample_ok) (by norm_num) sample_flatter
    ⟨⟨1, by simp, by norm_num⟩, 4, by simp, by norm_num⟩ ⟨⟨1, by simp, by norm_num⟩, 4, by simp, by norm_num⟩⟩

example : ∃ d, pwInit [100, 10] [1, 2] true false = .ok d ∧ d.kFromE (d.eFromK 20) = 20 ∧ d.eFromK 10 = 2 :=
  ⟨_, pwInit_ok sample_log_ok, C55_k_recovered sample_log_ok (pwInit_ok sample_log_ok) ⟨⟨10, by simp, by norm_num⟩, 100, by simp, by norm_num⟩,
    (C55_through_data sample_log_ok (pwInit_ok sample_log_ok) (by simp)).1⟩

example : ∃ d, pwInit [1, 2, 4] [5, 4, 3] false false = .ok d ∧ ∃ av, d.avFromStress (1 / 10) 3 (some 2) = .ok av ∧
    HasDerivAt (fun s => d.eFromStress (1 / 10) s (some 2)) (-av) 3 :=
  ⟨_, pwInit_ok sample_ok, C57_compression sample_ok (pwInit_ok sample_ok) _ (some 2) (by intro p hp; cases hp; norm_num)
    ⟨1, by simp, by norm_num⟩ ⟨4, by simp, by norm_num⟩ (by norm_num)⟩

end Geotecha.Const
