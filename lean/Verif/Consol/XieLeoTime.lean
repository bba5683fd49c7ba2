import Verif.Consol.XieLeoFlow
import Mathlib.Analysis.Convex.SpecificFunctions.Basic
import Mathlib.Analysis.Real.Pi.Bounds

/-!
# Properties of geotecha/consolidation/xieandleo2004.py, part 3

C111: degree of consolidation by settlement and its inverse; C112: degree of consolidation by pore pressure; C113: stresses.
-/

open Real intervalIntegral Finset Filter Topology
namespace Geotecha.Consol
namespace XieLeo

variable {o : XieLeo}

/-- `Us` with the exponent's factor (1 or 4) left open. -/
noncomputable def usGen (n : ℕ) (c t : ℝ) : ℝ := (∑ k ∈ range n, 2 / bigM k ^ 2 * exp (-(bigM k ^ 2 * c * t))) * (-1) + 1

theorem usPTIB_eq (o : XieLeo) (t : ℝ) : o.usPTIB t = usGen o.nterms o.dTv t := by
  unfold usPTIB usGen Tv; simp only [M_eq]
  congr 2; exact sum_congr rfl fun k _ => by congr 2; ring

theorem usPTPB_eq (o : XieLeo) (t : ℝ) : o.usPTPB t = usGen o.nterms (4 * o.dTv) t := by
  unfold usPTPB usGen Tv; simp only [M_eq]
  congr 2; exact sum_congr rfl fun k _ => by congr 2; ring

theorem usGen_strictMono {n : ℕ} (hn : 0 < n) {c : ℝ} (hc : 0 < c) : StrictMono (usGen n c) := fun s t hst => by
  unfold usGen
  have : ∑ k ∈ range n, 2 / bigM k ^ 2 * exp (-(bigM k ^ 2 * c * t)) < ∑ k ∈ range n, 2 / bigM k ^ 2 * exp (-(bigM k ^ 2 * c * s)) := by
    refine sum_lt_sum_of_nonempty ⟨0, mem_range.2 hn⟩ fun k _ => ?_
    have hM := bigM_pos k
    refine mul_lt_mul_of_pos_left (exp_lt_exp.2 ?_) (by positivity)
    have : 0 < bigM k ^ 2 * c := by positivity
    nlinarith
  linarith

theorem usGen_lt_one {n : ℕ} (hn : 0 < n) (c t : ℝ) : usGen n c t < 1 := by
  unfold usGen
  have : 0 < ∑ k ∈ range n, 2 / bigM k ^ 2 * exp (-(bigM k ^ 2 * c * t)) :=
    sum_pos (fun k _ => by have := bigM_pos k; positivity) ⟨0, mem_range.2 hn⟩
  linarith

theorem usGen_pos (n : ℕ) {c t : ℝ} (hc : 0 ≤ c * t) : 0 < usGen n c t := by
  unfold usGen
  have h1 : ∑ k ∈ range n, 2 / bigM k ^ 2 * exp (-(bigM k ^ 2 * c * t)) ≤ ∑ k ∈ range n, 2 / bigM k ^ 2 :=
    sum_le_sum fun k _ => by
      have hM := bigM_pos k
      have : exp (-(bigM k ^ 2 * c * t)) ≤ 1 := by
        rw [exp_le_one_iff]; have : 0 ≤ bigM k ^ 2 * (c * t) := by positivity
        nlinarith
      have h2 : 0 < 2 / bigM k ^ 2 := by positivity
      nlinarith
  have h2 : ∑ k ∈ range (n + 1), 2 / bigM k ^ 2 ≤ 1 :=
    sum_le_hasSum _ (fun k _ => by have := bigM_pos k; positivity) hasSum_two_div_sq
  rw [sum_range_succ] at h2
  have : 0 < 2 / bigM n ^ 2 := by have := bigM_pos n; positivity
  linarith

theorem usGen_tendsto (n : ℕ) {c : ℝ} (hc : 0 < c) : Tendsto (usGen n c) atTop (𝓝 1) := by
  unfold usGen
  have h : ∀ k : ℕ, Tendsto (fun t : ℝ => 2 / bigM k ^ 2 * exp (-(bigM k ^ 2 * c * t))) atTop (𝓝 (2 / bigM k ^ 2 * 0)) := fun k => by
    refine Tendsto.const_mul _ (tendsto_exp_atBot.comp (tendsto_neg_atTop_atBot.comp ?_))
    exact tendsto_id.const_mul_atTop (mul_pos (pow_pos (bigM_pos k) 2) hc)
  have := ((tendsto_finsetSum (range n) fun k _ => h k).mul_const (-1)).add_const 1
  simpa using this

theorem Valid.dTv_pos (h : o.Valid) (hk : 0 < o.kv0) : 0 < o.dTv := div_pos (div_pos hk (mul_pos h.mvl h.gamw)) (pow_pos h.H 2)

/-- **C111**: the degree of consolidation by settlement increases strictly with time, is positive from time zero on, always less than one,
and tends to one; two-way drainage consolidates as far in a quarter of the time. -/
theorem C111_range (o : XieLeo) (h : o.Valid) (hk : 0 < o.kv0) (hn : 0 < o.nterms) :
    StrictMono o.usPTIB ∧ StrictMono o.usPTPB ∧ (∀ t, 0 ≤ t → 0 < o.usPTIB t ∧ 0 < o.usPTPB t) ∧ (∀ t, o.usPTIB t < 1 ∧ o.usPTPB t < 1) ∧
    Tendsto o.usPTIB atTop (𝓝 1) ∧ Tendsto o.usPTPB atTop (𝓝 1) ∧ ∀ t, o.usPTPB t = o.usPTIB (4 * t) := by
  have hc := h.dTv_pos hk
  have hc4 : 0 < 4 * o.dTv := by linarith
  have e1 : o.usPTIB = usGen o.nterms o.dTv := funext o.usPTIB_eq
  have e2 : o.usPTPB = usGen o.nterms (4 * o.dTv) := funext o.usPTPB_eq
  rw [e1, e2]
  refine ⟨usGen_strictMono hn hc, usGen_strictMono hn hc4, fun t ht => ⟨usGen_pos _ (by positivity), usGen_pos _ (by positivity)⟩,
    fun t => ⟨usGen_lt_one hn _ _, usGen_lt_one hn _ _⟩, usGen_tendsto _ hc, usGen_tendsto _ hc4, fun t => ?_⟩
  unfold usGen
  congr 2; exact sum_congr rfl fun k _ => by congr 2; ring

/-! ### Interpolation in a table of an increasing function -/

theorem npInterp_low {x : ℝ} {l : List (ℝ × ℝ)} {p : ℝ × ℝ} (h : x < p.1) : Const.npInterp x (p :: l) = p.2 := by
  cases l with
  | nil => rfl
  | cons q r => unfold Const.npInterp; rw [if_pos h]

/-- Between two entries the interpolated value lies between their ordinates. -/
theorem npInterp_bracket (f : ℝ → ℝ) (hf : StrictMono f) : ∀ (ts : List ℝ) (t0 x : ℝ), (t0 :: ts).IsChain (· < ·) →
    f t0 ≤ x → (∀ tl ∈ (t0 :: ts).getLast?, x ≤ f tl) →
    ∃ (i : ℕ) (a b : ℝ), (t0 :: ts)[i]? = some a ∧ ((t0 :: ts)[i + 1]? = some b ∨ b = a) ∧ f a ≤ x ∧ x ≤ f b ∧
      a ≤ Const.npInterp x ((t0 :: ts).map fun t => (f t, t)) ∧ Const.npInterp x ((t0 :: ts).map fun t => (f t, t)) ≤ b
  | [], t0, x, _, h0, hl => ⟨0, t0, t0, rfl, Or.inr rfl, h0, hl t0 rfl, le_rfl, le_rfl⟩
  | t1 :: ts, t0, x, hch, h0, hl => by
    have h01 : t0 < t1 := by
      cases hch with | cons_cons h _ => exact h
    have hch' : (t1 :: ts).IsChain (· < ·) := by cases hch with | cons_cons _ h => exact h
    simp only [List.map_cons]
    by_cases hx : x < f t1
    · refine ⟨0, t0, t1, rfl, Or.inl rfl, h0, hx.le, ?_⟩
      unfold Const.npInterp
      rw [if_neg (not_lt.2 h0), if_pos hx]
      have hd : 0 < f t1 - f t0 := by linarith [hf h01]
      dsimp only
      have e : (t1 - t0) / (f t1 - f t0) * (x - f t0) = (t1 - t0) * ((x - f t0) / (f t1 - f t0)) := by ring
      rw [e]
      have q0 : 0 ≤ (x - f t0) / (f t1 - f t0) := div_nonneg (by linarith) hd.le
      have q1 : (x - f t0) / (f t1 - f t0) ≤ 1 := by rw [div_le_one hd]; linarith
      constructor <;> nlinarith
    · push Not at hx
      have e : Const.npInterp x ((f t0, t0) :: (f t1, t1) :: ts.map fun t => (f t, t)) =
          Const.npInterp x ((t1 :: ts).map fun t => (f t, t)) := by
        conv_lhs => unfold Const.npInterp
        rw [if_neg (not_lt.2 h0), if_neg (not_lt.2 hx)]
        rfl
      rw [e]
      obtain ⟨i, a, b, ha, hb, r⟩ := npInterp_bracket f hf ts t1 x hch' hx (by
        intro tl htl; exact hl tl (by simpa [List.getLast?_cons_cons] using htl))
      exact ⟨i + 1, a, b, by simpa using ha, by simpa using hb, r⟩

theorem npInterp_high (f : ℝ → ℝ) (hf : StrictMono f) : ∀ (ts : List ℝ) (t0 x : ℝ), (t0 :: ts).IsChain (· < ·) →
    (∀ tl ∈ (t0 :: ts).getLast?, f tl ≤ x) → ∀ tl ∈ (t0 :: ts).getLast?, Const.npInterp x ((t0 :: ts).map fun t => (f t, t)) = tl
  | [], t0, x, _, _, tl, h => by simp at h; subst h; rfl
  | t1 :: ts, t0, x, hch, hl, tl, h => by
    have h01 : t0 < t1 := by cases hch with | cons_cons h _ => exact h
    have hch' : (t1 :: ts).IsChain (· < ·) := by cases hch with | cons_cons _ h => exact h
    rw [List.getLast?_cons_cons] at h hl
    have hmem : ∀ s ∈ t1 :: ts, s ≤ tl := fun s hs => by
      have hp : (t1 :: ts).Pairwise (· < ·) := List.isChain_iff_pairwise.1 hch'
      have hsp : ∃ l, t1 :: ts = l ++ [tl] := by
        have := List.getLast?_eq_some_iff.1 h
        exact this
      obtain ⟨l, hl'⟩ := hsp
      rw [hl'] at hp hs
      rcases List.mem_append.1 hs with h1 | h1
      · exact ((List.pairwise_append.1 hp).2.2 s h1 tl (by simp)).le
      · simp at h1; exact h1.le
    have hx1 : f t1 ≤ x := (hf.monotone (hmem t1 (by simp))).trans (hl tl h)
    have hx0 : f t0 ≤ x := (hf h01).le.trans hx1
    have e : Const.npInterp x ((t0 :: t1 :: ts).map fun t => (f t, t)) =
        Const.npInterp x ((t1 :: ts).map fun t => (f t, t)) := by
      simp only [List.map_cons]
      conv_lhs => unfold Const.npInterp
      rw [if_neg (not_lt.2 hx0), if_neg (not_lt.2 hx1)]
    rw [e]
    exact npInterp_high f hf ts t1 x hch' hl tl h

/-- The times of the table: `d` times their `i`-th is `1e-4 * 10^(5 i / 499)`. -/
theorem logspace_get {d : ℝ} (hd : 0 < d) (i : ℕ) (hi : i < 500) :
    (logspace (0.0001 / d) (10 / d) 500)[i]? = some (0.0001 / d * (10 : ℝ) ^ (5 / 499 * (i : ℝ))) := by
  unfold logspace
  rw [List.getElem?_map, List.getElem?_range hi, Option.map_some, Option.some_inj]
  have h10 : log 10 ≠ 0 := (log_pos (by norm_num)).ne'
  have hlo : (0:ℝ) < 0.0001 / d := by positivity
  have h1 : log (10 / d) / log 10 - log (0.0001 / d) / log 10 = 5 := by
    rw [← sub_div, ← log_div (by positivity) hlo.ne', show 10 / d / (0.0001 / d) = (10:ℝ) ^ 5 by field_simp; norm_num, log_pow]
    field_simp
    norm_num
  rw [h1, rpow_add (by norm_num)]
  congr 1
  · rw [rpow_def_of_pos (by norm_num), mul_div_cancel₀ _ h10, exp_log hlo]
  · congr 1; push_cast; ring

set_option exponentiation.threshold 600 in
theorem ratio_lt : (10 : ℝ) ^ ((5 : ℝ) / 499) < 1.0234 := by
  have h : ((10 : ℝ) ^ ((5 : ℝ) / 499)) ^ 499 = 10 ^ 5 := by
    rw [← rpow_natCast, ← rpow_mul (by norm_num)]
    norm_num
  by_contra hn
  push Not at hn
  have : (1.0234 : ℝ) ^ 499 ≤ ((10 : ℝ) ^ ((5 : ℝ) / 499)) ^ 499 := by gcongr
  rw [h] at this
  norm_num at this

/-- Entry `i` of the table. -/
noncomputable def knot (d : ℝ) (i : ℕ) : ℝ := 0.0001 / d * (10 : ℝ) ^ ((5 : ℝ) / 499 * (i : ℝ))

theorem knot_succ {d : ℝ} (hd : 0 < d) (i : ℕ) : knot d i < knot d (i + 1) ∧ knot d (i + 1) - knot d i ≤ 0.0234 * knot d i := by
  unfold knot
  have e : (10 : ℝ) ^ ((5 : ℝ) / 499 * ((i + 1 : ℕ) : ℝ)) = (10 : ℝ) ^ ((5 : ℝ) / 499 * (i : ℝ)) * (10 : ℝ) ^ ((5 : ℝ) / 499) := by
    rw [← rpow_add (by norm_num)]; congr 1; push_cast; ring
  rw [e]
  have h1 : (1:ℝ) < (10 : ℝ) ^ ((5 : ℝ) / 499) := one_lt_rpow (by norm_num) (by norm_num)
  have h2 := ratio_lt
  have h3 : 0 < 0.0001 / d * (10 : ℝ) ^ ((5 : ℝ) / 499 * (i : ℝ)) := by positivity
  constructor <;> nlinarith

theorem logspace_eq {d : ℝ} (hd : 0 < d) : logspace (0.0001 / d) (10 / d) 500 = (List.range 500).map (knot d) := by
  refine List.ext_getElem? fun i => ?_
  by_cases hi : i < 500
  · rw [logspace_get hd i hi, List.getElem?_map, List.getElem?_range hi]; rfl
  · rw [List.getElem?_eq_none (by unfold logspace; rw [List.length_map, List.length_range]; exact not_lt.1 hi),
      List.getElem?_eq_none (by rw [List.length_map, List.length_range]; exact not_lt.1 hi)]

theorem knot_zero (d : ℝ) : knot d 0 = 0.0001 / d := by unfold knot; simp
theorem knot_last {d : ℝ} (hd : 0 < d) : knot d 499 = 10 / d := by
  unfold knot; norm_num; ring

theorem knot_strictMono {d : ℝ} (hd : 0 < d) : StrictMono (knot d) := strictMono_nat_of_lt_succ fun i => (knot_succ hd i).1

theorem table_chain {d : ℝ} (hd : 0 < d) (n : ℕ) : ((List.range n).map (knot d)).IsChain (· < ·) := by
  rw [List.isChain_map]
  exact List.isChain_iff_pairwise.2 ((List.pairwise_lt_range (n := n)).imp fun h => knot_strictMono hd h)

theorem table_cons (d : ℝ) : (List.range 500).map (knot d) = knot d 0 :: ((List.range 499).map fun i => knot d (i + 1)) := by
  rw [List.range_succ_eq_map, List.map_cons, List.map_map]; rfl

theorem table_last {d : ℝ} : ((List.range 500).map (knot d)).getLast? = some (knot d 499) := by
  rw [show (500 : ℕ) = 499 + 1 from rfl, List.range_succ, List.map_append, List.map_cons, List.map_nil, List.getLast?_append]; rfl

/-- Interpolating the times in the table of an increasing `f` inverts `f` with an error of at most 2.34 % between the ends of the table. -/
theorem inverse (f : ℝ → ℝ) (hf : StrictMono f) {d : ℝ} (hd : 0 < d) {t : ℝ} (h1 : 0.0001 / d ≤ t) (h2 : t ≤ 10 / d) :
    |Const.npInterp (f t) ((logspace (0.0001 / d) (10 / d) 500).map fun t => (f t, t)) - t| ≤ 0.0234 * t := by
  have hch := table_chain hd 500
  have hla : ∀ tl ∈ ((List.range 500).map (knot d)).getLast?, f t ≤ f tl := fun tl htl => by
    rw [table_last] at htl; cases htl; rw [knot_last hd]; exact hf.monotone h2
  rw [logspace_eq hd]
  rw [table_cons] at hch hla
  obtain ⟨i, a, b, ha, hb, hfa, hfb, r1, r2⟩ := npInterp_bracket f hf _ _ (f t) hch (hf.monotone (by rw [knot_zero]; exact h1)) hla
  rw [← table_cons] at ha hb r1 r2
  have hat := hf.le_iff_le.1 hfa
  have hbt := hf.le_iff_le.1 hfb
  have hi : i < 500 := by by_contra hn; rw [List.getElem?_eq_none (by rw [List.length_map, List.length_range]; exact not_lt.1 hn)] at ha; cases ha
  have ea : a = knot d i := by rw [List.getElem?_map, List.getElem?_range hi] at ha; simpa using ha.symm
  have hba : b - a ≤ 0.0234 * a := by
    rcases hb with hb | hb
    · have hi2 : i + 1 < 500 := by by_contra hn; rw [List.getElem?_eq_none (by rw [List.length_map, List.length_range]; exact not_lt.1 hn)] at hb; cases hb
      have eb : b = knot d (i + 1) := by rw [List.getElem?_map, List.getElem?_range hi2] at hb; simpa using hb.symm
      rw [ea, eb]; exact (knot_succ hd i).2
    · have : 0 < a := by rw [ea]; unfold knot; positivity
      rw [hb]; linarith
  rw [abs_le]
  constructor <;> linarith

theorem inverse_ends (f : ℝ → ℝ) (hf : StrictMono f) {d : ℝ} (hd : 0 < d) (x : ℝ) :
    (x ≤ f (0.0001 / d) → Const.npInterp x ((logspace (0.0001 / d) (10 / d) 500).map fun t => (f t, t)) = 0.0001 / d) ∧
    (f (10 / d) ≤ x → Const.npInterp x ((logspace (0.0001 / d) (10 / d) 500).map fun t => (f t, t)) = 10 / d) := by
  have hch := table_chain hd 500
  rw [logspace_eq hd]
  constructor
  · intro hx
    rw [← knot_zero] at hx ⊢
    rw [table_cons]
    rcases hx.lt_or_eq with h | h
    · rw [List.map_cons]; exact npInterp_low h
    · rw [show (499 : ℕ) = 498 + 1 from rfl, List.range_succ_eq_map, List.map_cons, List.map_cons, List.map_cons]
      unfold Const.npInterp
      have := hf ((knot_succ hd 0).1)
      rw [if_neg (not_lt.2 h.ge), if_pos (by rw [h]; exact this), h]
      simp
  · intro hx
    have hla : ∀ tl ∈ ((List.range 500).map (knot d)).getLast?, f tl ≤ x := fun tl htl => by
      rw [table_last] at htl; cases htl; rw [knot_last hd]; exact hx
    have hla2 : knot d 499 ∈ ((List.range 500).map (knot d)).getLast? := by rw [table_last]; rfl
    rw [table_cons] at hch hla hla2 ⊢
    rw [npInterp_high f hf _ _ x hch hla _ hla2, knot_last hd]

/-- **C111**: the time looked up for the degree of consolidation reached at a time `t` is `t` to within 2.34 %, if the time factor of `t` is
between 0.0001 and 10. -/
theorem C111_inverse (o : XieLeo) (h : o.Valid) (hk : 0 < o.kv0) (hn : 0 < o.nterms) (t : ℝ) (h1 : 0.0001 ≤ o.Tv t) (h2 : o.Tv t ≤ 10) :
    |o.tFromUsPTIB (o.usPTIB t) - t| ≤ 0.0234 * t ∧ |o.tFromUsPTPB (o.usPTPB t) - t| ≤ 0.0234 * t := by
  have hd := h.dTv_pos hk
  obtain ⟨m1, m2, _⟩ := C111_range o h hk hn
  have e1 : 0.0001 / o.dTv ≤ t := by rw [div_le_iff₀ hd]; unfold Tv at h1; linarith
  have e2 : t ≤ 10 / o.dTv := by rw [le_div_iff₀ hd]; unfold Tv at h2; linarith
  exact ⟨inverse o.usPTIB m1 hd e1 e2, inverse o.usPTPB m2 hd e1 e2⟩

/-- **C111**: outside the table: for any smaller degree of consolidation, zero included, the time returned is that of time factor 0.0001,
for any greater one that of time factor 10. -/
theorem C111_ends (o : XieLeo) (h : o.Valid) (hk : 0 < o.kv0) (hn : 0 < o.nterms) (us : ℝ) :
    (us ≤ o.usPTIB (0.0001 / o.dTv) → o.tFromUsPTIB us = 0.0001 / o.dTv) ∧ (o.usPTIB (10 / o.dTv) ≤ us → o.tFromUsPTIB us = 10 / o.dTv) ∧
    (us ≤ o.usPTPB (0.0001 / o.dTv) → o.tFromUsPTPB us = 0.0001 / o.dTv) ∧ (o.usPTPB (10 / o.dTv) ≤ us → o.tFromUsPTPB us = 10 / o.dTv) := by
  have hd := h.dTv_pos hk
  obtain ⟨m1, m2, _⟩ := C111_range o h hk hn
  exact ⟨(inverse_ends o.usPTIB m1 hd us).1, (inverse_ends o.usPTIB m1 hd us).2, (inverse_ends o.usPTPB m2 hd us).1,
    (inverse_ends o.usPTPB m2 hd us).2⟩

example : StrictMono ex.usPTPB ∧ |ex.tFromUsPTIB (ex.usPTIB 4) - 4| ≤ 0.0234 * 4 ∧ ex.tFromUsPTPB 0 = 0.0001 / ex.dTv ∧
    ex.tFromUsPTPB 1 = 10 / ex.dTv := by
  have hk : 0 < ex.kv0 := by norm_num [ex]
  have hn : 0 < ex.nterms := by norm_num [ex]
  have r := C111_range ex ex_valid hk hn
  have hd := ex_valid.dTv_pos hk
  refine ⟨r.2.1, (C111_inverse ex ex_valid hk hn 4 ?_ ?_).1, (C111_ends ex ex_valid hk hn 0).2.2.1 ?_, (C111_ends ex ex_valid hk hn 1).2.2.2 ?_⟩
  · norm_num [ex, Tv, dTv, cv0]
  · norm_num [ex, Tv, dTv, cv0]
  · exact (r.2.2.1 _ (by positivity)).2.le
  · exact (r.2.2.2.1 _).2.le

/-! ## C112 -/

theorem chord {x S : ℝ} (h0 : 0 ≤ S) (h1 : S ≤ 1) : S * x ≤ log (S * (exp x - 1) + 1) := by
  have hc := convexOn_exp.2 (Set.mem_univ x) (Set.mem_univ 0) h0 (sub_nonneg.2 h1) (by ring)
  simp only [smul_eq_mul, mul_zero, add_zero, exp_zero, mul_one] at hc
  have e : S * exp x + (1 - S) = S * (exp x - 1) + 1 := by ring
  rw [e] at hc
  have hp : 0 < S * (exp x - 1) + 1 := lt_of_lt_of_le (exp_pos _) hc
  rw [le_log_iff_exp_le hp]
  exact hc

theorem up_le (h : o.Valid) (hq : 0 < o.qu) {Hd : ℝ} (hd : 0 < Hd) (hH : o.H ≤ 2 * Hd) {u : ℝ → ℝ → ℝ} {t : ℝ} (ht : 0 ≤ t)
    (hu : ∀ a t, u a t = log (heat o.nterms Hd o.cv0 a t * (exp (o.mvl * o.qu) - 1) + 1) / o.mvl)
    (hle : ∀ a, 0 ≤ a → a ≤ o.H → u a t ≤ o.qu) :
    o.qu * ∫ a in (0:ℝ)..o.H, heat o.nterms Hd o.cv0 a t ≤ ∫ a in (0:ℝ)..o.H, u a t := by
  rw [← intervalIntegral.integral_const_mul]
  have hm := h.mvl
  have hpos : ∀ a, 0 ≤ a → a ≤ o.H → 1 ≤ heat o.nterms Hd o.cv0 a t * (exp (o.mvl * o.qu) - 1) + 1 :=
    fun a ha ha2 => h.arg_ge o.nterms hd ha (ha2.trans hH) ht
  have c0 : Continuous fun a => heat o.nterms Hd o.cv0 a t := continuous_sinSer _ _ _
  have c1 : ContinuousOn (fun a => u a t) (Set.uIcc 0 o.H) := by
    rw [Set.uIcc_of_le h.H.le]
    have : ContinuousOn (fun a => log (heat o.nterms Hd o.cv0 a t * (exp (o.mvl * o.qu) - 1) + 1) / o.mvl) (Set.Icc 0 o.H) :=
      ((ContinuousOn.log (by fun_prop) fun a ha => by have := hpos a ha.1 ha.2; positivity)).div_const _
    exact this.congr fun a _ => hu a t
  refine intervalIntegral.integral_mono_on h.H.le ((continuous_const.mul c0).intervalIntegrable _ _) c1.intervalIntegrable fun a ha => ?_
  have h0 := heat_nonneg o.nterms hd (mul_nonneg (div_nonneg h.cv0_nonneg (sq_nonneg Hd)) ht) ha.1 (ha.2.trans hH)
  have hl := hle a ha.1 ha.2
  rw [hu] at hl ⊢
  have hE : 0 < exp (o.mvl * o.qu) - 1 := by
    have : 1 < exp (o.mvl * o.qu) := one_lt_exp_iff.2 (mul_pos hm hq); linarith
  have hS : heat o.nterms Hd o.cv0 a t ≤ 1 := by
    rw [div_le_iff₀ hm] at hl
    have h1 := exp_le_exp.2 hl
    rw [exp_log (by have := hpos a ha.1 ha.2; linarith), mul_comm o.qu] at h1
    nlinarith
  rw [le_div_iff₀ hm]
  have := chord (x := o.mvl * o.qu) h0 hS
  linarith

/-- **C112**: the degree of consolidation by pore pressure is never more than one; and at any time when the pore pressure exceeds the
load `qu` nowhere it is not ahead of that by settlement: at large strain settlement runs ahead of the dissipation of pressure. -/
theorem C112_PTIB (o : XieLeo) (h : o.Valid) (hq : 0 < o.qu) (t : ℝ) (ht : 0 ≤ t) :
    o.upPTIB t ≤ 1 ∧ ((∀ a, 0 ≤ a → a ≤ o.H → o.uPTIB a t ≤ o.qu) → o.upPTIB t ≤ o.usPTIB t) := by
  have hH := h.H
  have hHq : 0 < o.H * o.qu := mul_pos hH hq
  refine ⟨?_, fun hle => ?_⟩
  · unfold upPTIB
    have : 0 ≤ ∫ a in (0:ℝ)..o.H, o.uPTIB a t :=
      intervalIntegral.integral_nonneg hH.le fun a ha => ((C107_PTIB o h).2.2 a t ha.1 ha.2 ht).1
    have := mul_nonneg (one_div_pos.2 hHq).le this
    linarith
  · have h1 := up_le h hq hH (by linarith) ht o.uPTIB_eq hle
    have h2 : ∫ a in (0:ℝ)..o.H, heat o.nterms o.H o.cv0 a t = o.H * (1 - o.usPTIB t) := by
      unfold heat
      rw [integral_sinSer _ hH.ne', usPTIB_eq]
      unfold usGen heatC dTv
      rw [show 1 - ((∑ k ∈ range o.nterms, 2 / bigM k ^ 2 * exp (-(bigM k ^ 2 * (o.cv0 / o.H ^ 2) * t))) * -1 + 1) =
        ∑ k ∈ range o.nterms, 2 / bigM k ^ 2 * exp (-(bigM k ^ 2 * (o.cv0 / o.H ^ 2) * t)) by ring]
      congr 1
      refine sum_congr rfl fun k _ => ?_
      rw [show -bigM k ^ 2 * (o.cv0 / o.H ^ 2 * t) = -(bigM k ^ 2 * (o.cv0 / o.H ^ 2) * t) by ring]
      have := bigM_ne k
      field_simp
    rw [h2] at h1
    unfold upPTIB
    have h3 : 1 - o.usPTIB t ≤ 1 / (o.H * o.qu) * ∫ a in (0:ℝ)..o.H, o.uPTIB a t := by
      rw [one_div, ← div_eq_inv_mul, le_div_iff₀ hHq]; linarith
    linarith

/-- **C112**, drained at both ends. -/
theorem C112_PTPB (o : XieLeo) (h : o.Valid) (hq : 0 < o.qu) (t : ℝ) (ht : 0 ≤ t) :
    o.upPTPB t ≤ 1 ∧ ((∀ a, 0 ≤ a → a ≤ o.H → o.uPTPB a t ≤ o.qu) → o.upPTPB t ≤ o.usPTPB t) := by
  have hH := h.H
  have hHq : 0 < o.H * o.qu := mul_pos hH hq
  refine ⟨?_, fun hle => ?_⟩
  · unfold upPTPB
    have : 0 ≤ ∫ a in (0:ℝ)..o.H, o.uPTPB a t :=
      intervalIntegral.integral_nonneg hH.le fun a ha => ((C107_PTPB o h).2.2 a t ha.1 ha.2 ht).1
    have := mul_nonneg (one_div_pos.2 hHq).le this
    linarith
  · have h1 := up_le h hq (by linarith : 0 < o.H / 2) (by linarith) ht o.uPTPB_eq hle
    have h2 : ∫ a in (0:ℝ)..o.H, heat o.nterms (o.H / 2) o.cv0 a t = o.H * (1 - o.usPTPB t) := by
      rw [heat_integral_grad _ (by positivity), ← sum_sub_distrib, usPTPB_eq]
      unfold usGen heatC dTv
      rw [show 1 - ((∑ k ∈ range o.nterms, 2 / bigM k ^ 2 * exp (-(bigM k ^ 2 * (4 * (o.cv0 / o.H ^ 2)) * t))) * -1 + 1) =
        ∑ k ∈ range o.nterms, 2 / bigM k ^ 2 * exp (-(bigM k ^ 2 * (4 * (o.cv0 / o.H ^ 2)) * t)) by ring, mul_sum, mul_sum]
      refine sum_congr rfl fun k _ => ?_
      rw [show bigM k * (o.H / (o.H / 2)) = 2 * bigM k by field_simp, cos_two_bigM, zero_div, mul_zero, cos_zero,
        show -bigM k ^ 2 * (o.cv0 / (o.H / 2) ^ 2 * t) = -(bigM k ^ 2 * (4 * (o.cv0 / o.H ^ 2)) * t) by
          rw [div_pow, div_div_eq_mul_div]; ring]
      have := bigM_ne k
      field_simp
      ring
    rw [h2] at h1
    unfold upPTPB
    have h3 : 1 - o.usPTPB t ≤ 1 / (o.H * o.qu) * ∫ a in (0:ℝ)..o.H, o.uPTPB a t := by
      rw [one_div, ← div_eq_inv_mul, le_div_iff₀ hHq]; linarith
    linarith

theorem heat_le_one (n : ℕ) {Hd cv a t : ℝ} (hT : 2 / π ≤ cv / Hd ^ 2 * t) : heat n Hd cv a t ≤ 1 := by
  have hT0 : 0 < cv / Hd ^ 2 * t := lt_of_lt_of_le (by positivity) hT
  set T := cv / Hd ^ 2 * t
  have h0 : bigM 0 = π / 2 := by unfold bigM; norm_num; ring
  have hk : ∀ k, heatC Hd cv t k * sin (bigM k * (a / Hd)) ≤ 2 / bigM k ^ 2 := fun k => by
    have hM := bigM_pos k
    have hM0 : π / 2 ≤ bigM k := h0 ▸ bigM_mono (Nat.zero_le k)
    have e1 : exp (-bigM k ^ 2 * T) ≤ 1 / (bigM k ^ 2 * T) := by
      rw [neg_mul, exp_neg, one_div]
      have := add_one_le_exp (bigM k ^ 2 * T)
      exact inv_anti₀ (by positivity) (by linarith)
    have e2 : 1 / (bigM k ^ 2 * T) ≤ 1 / bigM k := by
      refine one_div_le_one_div_of_le hM ?_
      have : 1 ≤ bigM k * T := by
        have h1 : π / 2 * (2 / π) ≤ bigM k * T := mul_le_mul hM0 hT (by positivity) hM.le
        rwa [show π / 2 * (2 / π) = 1 by have := pi_pos.ne'; field_simp] at h1
      nlinarith
    calc heatC Hd cv t k * sin (bigM k * (a / Hd)) ≤ heatC Hd cv t k * 1 :=
          mul_le_mul_of_nonneg_left (sin_le_one _) (heatC_nonneg _ _ _ _)
      _ ≤ 2 / bigM k * (1 / bigM k) := by
          rw [mul_one]; exact mul_le_mul_of_nonneg_left (e1.trans e2) (by positivity)
      _ = 2 / bigM k ^ 2 := by ring
  unfold heat sinSer
  refine (sum_le_sum fun k _ => hk k).trans ?_
  exact sum_le_hasSum _ (fun k _ => by have := bigM_pos k; positivity) hasSum_two_div_sq

theorem u_le (h : o.Valid) {S : ℝ} (h0 : 0 ≤ S) (h1 : S ≤ 1) : log (S * (exp (o.mvl * o.qu) - 1) + 1) / o.mvl ≤ o.qu := by
  rw [div_le_iff₀ h.mvl]
  have hE := h.E_nonneg
  have : S * (exp (o.mvl * o.qu) - 1) + 1 ≤ exp (o.mvl * o.qu) := by nlinarith
  have hp : 0 < S * (exp (o.mvl * o.qu) - 1) + 1 := by positivity
  calc _ ≤ log (exp (o.mvl * o.qu)) := log_le_log hp this
    _ = o.qu * o.mvl := by rw [log_exp]; ring

/-- **C112**: whatever the number of terms, from the time factor `2 / pi` on (a quarter of it when drained at both ends) the pore pressure
exceeds the load nowhere, so settlement is ahead. -/
theorem C112_late (o : XieLeo) (h : o.Valid) (hq : 0 < o.qu) (t : ℝ) (ht : 0 ≤ t) :
    (2 / π ≤ o.Tv t → o.upPTIB t ≤ o.usPTIB t) ∧ (2 / π ≤ 4 * o.Tv t → o.upPTPB t ≤ o.usPTPB t) := by
  refine ⟨fun hT => (C112_PTIB o h hq t ht).2 fun a ha ha2 => ?_, fun hT => (C112_PTPB o h hq t ht).2 fun a ha ha2 => ?_⟩
  · rw [uPTIB_eq]
    exact u_le h (heat_nonneg _ h.H (mul_nonneg (div_nonneg h.cv0_nonneg (sq_nonneg _)) ht) ha (by linarith [h.H])) (heat_le_one _ hT)
  · rw [uPTPB_eq]
    refine u_le h (heat_nonneg _ (by linarith [h.H] : 0 < o.H / 2) (mul_nonneg (div_nonneg h.cv0_nonneg (sq_nonneg _)) ht) ha (by linarith))
      (heat_le_one _ (hT.trans_eq ?_))
    unfold Tv dTv
    rw [div_pow, div_div_eq_mul_div]; ring

example : ex.upPTPB 4 ≤ 1 ∧ ex.upPTIB 4 ≤ ex.usPTIB 4 ∧ ex.upPTPB 4 ≤ ex.usPTPB 4 := by
  have hq : 0 < ex.qu := by norm_num [ex]
  have hT : 2 / π ≤ ex.Tv 4 := by
    rw [show ex.Tv 4 = 1 by norm_num [ex, Tv, dTv, cv0], div_le_one pi_pos]; linarith [pi_gt_three]
  have r := C112_late ex ex_valid hq 4 (by norm_num)
  exact ⟨(C112_PTPB ex ex_valid hq 4 (by norm_num)).1, r.1 hT, r.2 (by linarith [show 0 < 2 / π by positivity])⟩

/-! ## C113 -/

/-- **C113**, what holds: were the module's name `qu` bound to the load of the object, the effective stress would be the initial one plus
load less excess pore pressure, and the total stress the sum of effective stress and total pore pressure.  Missing: it is bound to
nothing. -/
theorem C113_if_bound_partial (o : XieLeo) (a t : ℝ) :
    o.effectiveStressPTIB (some o.qu) a t = .ok (o.initialEffectiveStress a + (o.qu - o.uPTIB a t)) ∧
    o.effectiveStressPTPB (some o.qu) a t = .ok (o.initialEffectiveStress a + (o.qu - o.uPTPB a t)) ∧
    (∀ g, o.totalStressPTIB g a t = (o.effectiveStressPTIB g a t).map (· + o.totalPorePTIB a t)) ∧
    ∀ g, o.totalStressPTPB g a t = (o.effectiveStressPTPB g a t).map (· + o.totalPorePTPB a t) := by
  refine ⟨?_, ?_, fun g => ?_, fun g => ?_⟩
  · unfold effectiveStressPTIB; simp only; congr 1; ring
  · unfold effectiveStressPTPB; simp only; congr 1; ring
  · cases g with
    | none => rfl
    | some q => unfold totalStressPTIB effectiveStressPTIB totalPorePTIB; simp only [Except.map]; congr 1; ring
  · cases g with
    | none => rfl
    | some q => unfold totalStressPTPB effectiveStressPTPB totalPorePTPB; simp only [Except.map]; congr 1; ring

/-- **C113** fails for every object, depth and time: effective and total stress raise, for both kinds of drainage. -/
theorem C113_always_raises (o : XieLeo) (a t : ℝ) :
    o.effectiveStressPTIB moduleQu a t = .error .other ∧ o.effectiveStressPTPB moduleQu a t = .error .other ∧
    o.totalStressPTIB moduleQu a t = .error .other ∧ o.totalStressPTPB moduleQu a t = .error .other := ⟨rfl, rfl, rfl, rfl⟩

example : ex.effectiveStressPTIB (some 100) 0 0 = .ok (ex.initialEffectiveStress 0 + (100 - ex.uPTIB 0 0)) :=
  (C113_if_bound_partial ex 0 0).1

end XieLeo
end Geotecha.Consol
