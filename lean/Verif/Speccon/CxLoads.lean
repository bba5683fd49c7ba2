import Verif.Speccon.CxForms
import Verif.Speccon.PropsHarm

/-!
# Time parts of the loads with complex eigenvalues (C184)

`Eload_linear` and `Eload_sinlinear` of `geotecha/speccon/integrals.py` as they are called by the analytical
solution of `SpecBeam`: the eigenvalues are complex, everything else is real.
-/
set_option autoImplicit false
set_option linter.unusedVariables false
open Complex intervalIntegral MeasureTheory
namespace Geotecha.Speccon.Cx
open Geotecha.Spec Geotecha.Piecewise Geotecha.Speccon

theorem integral_congr_Ioo_c {f g : ℝ → ℂ} {p q : ℝ} (hpq : p ≤ q) (h : ∀ z, p < z → z < q → f z = g z) :
    ∫ z in p..q, f z = ∫ z in p..q, g z := by
  rw [integral_of_le hpq, integral_of_le hpq, integral_Ioc_eq_integral_Ioo, integral_Ioc_eq_integral_Ioo]
  exact setIntegral_congr_fun measurableSet_Ioo (fun z hz => h z hz.1 hz.2)

theorem intervalIntegrable_congr_Ioo_c {f g : ℝ → ℂ} {p q : ℝ} (hpq : p ≤ q) (hg : Continuous g)
    (h : ∀ z, p < z → z < q → f z = g z) : IntervalIntegrable f volume p q := by
  rw [intervalIntegrable_iff_integrableOn_Ioo_of_le hpq]
  have h1 := (intervalIntegrable_iff_integrableOn_Ioo_of_le hpq).1 (hg.intervalIntegrable (μ := volume) p q)
  exact h1.congr_fun (fun z hz => (h z hz.1 hz.2).symm) measurableSet_Ioo

theorem sum_filter_range (p : ℕ → Bool) (f : ℕ → ℂ) (n : ℕ) :
    (((List.range n).filter p).map f).sum = ∑ k ∈ Finset.range n, if p k then f k else 0 := by
  induction n with
  | zero => simp
  | succ n ih =>
    rw [List.range_succ, List.filter_append, List.map_append, List.sum_append, ih, Finset.sum_range_succ]
    by_cases h : p n <;> simp [h]

theorem sum_opt_range (o : Option ℕ) (q : ℕ → Prop) [DecidablePred q] (f : ℕ → ℂ) (n : ℕ) (ho : ∀ i, o = some i → i < n) :
    ((match o with | some i => if q i then [i] else [] | none => []).map f).sum
      = ∑ k ∈ Finset.range n, if (o = some k ∧ q k) then f k else 0 := by
  cases o with
  | none => simp
  | some i =>
    have hi := ho i rfl
    simp only [Option.some.injEq]
    by_cases h : q i
    · rw [Finset.sum_eq_single i]
      · simp [h]
      · intro b _ hb; rw [if_neg]; rintro ⟨h1, _⟩; exact hb h1.symm
      · intro hn; exact absurd (Finset.mem_range.2 hi) hn
    · simp only [h, if_false, List.map_nil, List.sum_nil]
      symm
      apply Finset.sum_eq_zero
      intro k _
      rw [if_neg]; rintro ⟨rfl, h2⟩; exact h h2

theorem min_adj {X : ℕ → ℝ} {F : ℝ → ℂ} {t : ℝ} (n : ℕ) (hi : ∀ k, k < n → IntervalIntegrable F volume (X k) (X (k+1)))
    (hm : ∀ k, k < n → X k ≤ X (k+1)) :
    ∑ k ∈ Finset.range n, ∫ z in (min (X k) t)..(min (X (k+1)) t), F z = ∫ z in (min (X 0) t)..(min (X n) t), F z := by
  refine sum_integral_adjacent_intervals (a := fun k => min (X k) t) (fun k hk => ?_)
  have h1 := hm k hk
  rcases le_total t (X k) with h | h
  · rw [min_eq_right h, min_eq_right (h.trans h1)]
  · rw [min_eq_left h]
    rcases le_total t (X (k+1)) with h' | h'
    · rw [min_eq_right h']
      exact (hi k hk).mono_set (by rw [Set.uIcc_of_le h, Set.uIcc_of_le h1]; exact Set.Icc_subset_Icc_right h')
    · rw [min_eq_left h']; exact hi k hk

/-- Sum over the segments before and containing `t` = integral up to `t`. -/
theorem load_engine {T P : List ℝ} (hs : SortedLe T) (hT : 0 < T.length) (hr : NoRepeat T P) {F : ℝ → ℂ} {G : ℕ → ℝ → ℂ}
    (hG : ∀ k, Continuous (G k))
    (hF : ∀ k, k + 1 < T.length → ∀ z, nth T k < z → z < nth T (k+1) → F z = G k z)
    (hout : ∀ z, z < nth T 0 ∨ nth T (T.length - 1) < z → F z = 0)
    {s t : ℝ} (hs0 : s ≤ nth T 0) (hst : s ≤ t) (cc cl rc rl : ℕ → ℂ)
    (hcc : ∀ k, k + 1 < T.length → nth T k < nth T (k+1) → nth P k = nth P (k+1) → cc k = ∫ z in (nth T k)..t, G k z)
    (hcl : ∀ k, k + 1 < T.length → nth T k < nth T (k+1) → nth P k = nth P (k+1) → cl k = ∫ z in (nth T k)..(nth T (k+1)), G k z)
    (hrc : ∀ k, k + 1 < T.length → nth T k < nth T (k+1) → nth P k ≠ nth P (k+1) → rc k = ∫ z in (nth T k)..t, G k z)
    (hrl : ∀ k, k + 1 < T.length → nth T k < nth T (k+1) → nth P k ≠ nth P (k+1) → rl k = ∫ z in (nth T k)..(nth T (k+1)), G k z) :
    ((match segmentContaining T t false with
        | some i => if i ∈ startIndexOfRamps T P then [] else [i]
        | none => []).map cc).sum +
    ((segmentsLessThan T t ((segs T).filter (fun i => decide (nth P (i+1) - nth P i = 0))) false).map cl).sum +
    ((match segmentContaining T t false with
        | some i => if i ∈ startIndexOfRamps T P then [i] else []
        | none => []).map rc).sum +
    ((segmentsLessThan T t (startIndexOfRamps T P) false).map rl).sum = ∫ z in s..t, F z := by
  classical
  have hmono : ∀ k, k < T.length - 1 → nth T k ≤ nth T (k+1) := fun k hk => nth_mono hs (by omega) (by omega)
  have hint : ∀ k, k < T.length - 1 → IntervalIntegrable F volume (nth T k) (nth T (k+1)) := fun k hk =>
    intervalIntegrable_congr_Ioo_c (hmono k hk) (hG k) (hF k (by omega))
  have hO : ∀ i, segmentContaining T t false = some i → i < T.length - 1 := fun i hi => by
    have := (segmentContaining_false_some hi).1; omega
  have hmatch : (match segmentContaining T t false with
        | some i => if i ∈ startIndexOfRamps T P then [] else [i]
        | none => []) = (match segmentContaining T t false with
        | some i => if i ∉ startIndexOfRamps T P then [i] else []
        | none => []) := by
    cases segmentContaining T t false with
    | none => rfl
    | some i => simp only [ite_not]
  rw [hmatch, sum_opt_range _ _ _ _ hO, sum_opt_range _ _ _ _ hO]
  unfold segmentsLessThan startIndexOfRamps segs
  rw [List.filter_filter, List.filter_filter, sum_filter_range, sum_filter_range, ← Finset.sum_add_distrib,
    ← Finset.sum_add_distrib, ← Finset.sum_add_distrib]
  have hmain : ∫ z in s..t, F z = ∫ z in (min (nth T 0) t)..(min (nth T (T.length - 1)) t), F z := by
    have z1 : ∫ z in s..(min (nth T 0) t), F z = 0 := by
      rw [integral_congr_Ioo_c (g := fun _ => 0) (le_min hs0 hst) (fun z h1 h2 => hout z (Or.inl (lt_of_lt_of_le h2 (min_le_left _ _))))]
      simp
    have i1 : IntervalIntegrable F volume s (min (nth T 0) t) :=
      intervalIntegrable_congr_Ioo_c (g := fun _ => 0) (le_min hs0 hst) continuous_const
        (fun z h1 h2 => hout z (Or.inl (lt_of_lt_of_le h2 (min_le_left _ _))))
    have z2 : ∫ z in (min (nth T (T.length - 1)) t)..t, F z = 0 := by
      rcases le_total t (nth T (T.length - 1)) with h | h
      · rw [min_eq_right h]; simp
      · rw [min_eq_left h, integral_congr_Ioo_c (g := fun _ => 0) h (fun z h1 h2 => hout z (Or.inr h1))]
        simp
    have i2 : IntervalIntegrable F volume (min (nth T (T.length - 1)) t) t := by
      rcases le_total t (nth T (T.length - 1)) with h | h
      · rw [min_eq_right h]
      · rw [min_eq_left h]
        exact intervalIntegrable_congr_Ioo_c (g := fun _ => 0) h continuous_const (fun z h1 h2 => hout z (Or.inr h1))
    have i3 : IntervalIntegrable F volume (min (nth T 0) t) (min (nth T (T.length - 1)) t) := by
      have : IntervalIntegrable F volume (nth T 0) (nth T (T.length - 1)) :=
        IntervalIntegrable.trans_iterate (a := nth T) (fun k hk => hint k hk)
      have hle : nth T 0 ≤ nth T (T.length - 1) := nth_mono hs (by omega) (by omega)
      rcases le_total t (nth T 0) with h | h
      · rw [min_eq_right h, min_eq_right (h.trans hle)]
      · rw [min_eq_left h]
        exact this.mono_set (by
          rw [Set.uIcc_of_le (le_min hle h), Set.uIcc_of_le hle]; exact Set.Icc_subset_Icc_right (min_le_left _ _))
    rw [← integral_add_adjacent_intervals (i1.trans i3) i2, ← integral_add_adjacent_intervals i1 i3, z1, z2]
    ring
  rw [hmain, ← min_adj (T.length - 1) hint hmono]
  refine Finset.sum_congr rfl (fun k hk => ?_)
  have hk := Finset.mem_range.1 hk
  have hk1 : k + 1 < T.length := by omega
  have hmk := hmono k hk
  simp only [List.mem_filter, List.mem_range, hk, true_and, Bool.and_eq_true, decide_eq_true_iff, Bool.false_eq_true, if_false]
  have hpiece : ∀ q, nth T k ≤ q → q ≤ nth T (k+1) → ∫ z in (nth T k)..q, F z = ∫ z in (nth T k)..q, G k z := fun q h1 h2 =>
    integral_congr_Ioo_c h1 (fun z g1 g2 => hF k hk1 z g1 (lt_of_lt_of_le g2 h2))
  rcases hmk.eq_or_lt with heq | hlt
  · -- vertical segment
    have hc : segmentContaining T t false ≠ some k := by
      intro hc
      have := (segTest_iff hs hk1 t).1 (segmentContaining_false_some hc).2.1
      linarith [this.1]
    have hP : nth P k ≠ nth P (k+1) := fun h => hr k hk1 ⟨heq, h⟩
    rw [if_neg (fun h => hc h.1), if_neg (fun h => hP (sub_eq_zero.1 h.2).symm), if_neg (fun h => hc h.1),
      if_neg (fun h => h.2.1 (sub_eq_zero.2 heq.symm)), ← heq]
    simp
  · have hne : nth T (k+1) - nth T k ≠ 0 := by linarith
    have hcont : nth T k < t → t ≤ nth T (k+1) → segmentContaining T t false = some k := by
      intro h1 h2
      rcases ho : segmentContaining T t false with _ | i
      · have := segmentContaining_none ho k hk1
        rw [(segTest_iff hs hk1 t).2 ⟨hlt, h1.le, h2⟩] at this
        exact absurd this (by simp)
      · obtain ⟨p1, p2, p3⟩ := segmentContaining_false_some ho
        have g := (segTest_iff hs p1 t).1 p2
        rcases lt_trichotomy i k with h | h | h
        · have := nth_mono hs (show i + 1 ≤ k by omega) (by omega)
          linarith [g.2.2]
        · rw [h]
        · have := p3 k h
          rw [(segTest_iff hs hk1 t).2 ⟨hlt, h1.le, h2⟩] at this
          exact absurd this (by simp)
    have hcont' : segmentContaining T t false = some k → nth T k ≤ t ∧ t ≤ nth T (k+1) := fun h =>
      ((segTest_iff hs hk1 t).1 (segmentContaining_false_some h).2.1).2
    by_cases hP : nth P k = nth P (k+1)
    · have hP0 : nth P (k+1) - nth P k = 0 := sub_eq_zero.2 hP.symm
      simp only [hne, hP0, ne_eq, not_true_eq_false, not_false_eq_true, and_false, and_true, if_false, add_zero]
      rcases lt_or_ge (nth T (k+1)) t with h | h
      · rw [if_neg (fun h' => by linarith [(hcont' h').2]), if_pos h, zero_add, hcl k hk1 hlt hP,
          min_eq_left (hlt.le.trans h.le), min_eq_left h.le, hpiece _ hmk le_rfl]
      · rw [if_neg (not_lt.2 h), min_eq_right h, add_zero]
        rcases lt_or_ge (nth T k) t with h' | h'
        · rw [if_pos (hcont h' h), min_eq_left h'.le, hcc k hk1 hlt hP, hpiece _ h'.le h]
        · rw [min_eq_right h', integral_same]
          split_ifs with h''
          · have : t = nth T k := le_antisymm h' (hcont' h'').1
            rw [hcc k hk1 hlt hP, this, integral_same]
          · rfl
    · have hP0 : nth P (k+1) - nth P k ≠ 0 := sub_ne_zero.2 (Ne.symm hP)
      simp only [hne, hP0, ne_eq, not_true_eq_false, not_false_eq_true, and_false, and_true, and_self, if_false, zero_add]
      rcases lt_or_ge (nth T (k+1)) t with h | h
      · rw [if_neg (fun h' => by linarith [(hcont' h').2]), if_pos h, zero_add, hrl k hk1 hlt hP,
          min_eq_left (hlt.le.trans h.le), min_eq_left h.le, hpiece _ hmk le_rfl]
      · rw [if_neg (not_lt.2 h), min_eq_right h, add_zero]
        rcases lt_or_ge (nth T k) t with h' | h'
        · rw [if_pos (hcont h' h), min_eq_left h'.le, hrc k hk1 hlt hP, hpiece _ h'.le h]
        · rw [min_eq_right h', integral_same]
          split_ifs with h''
          · have : t = nth T k := le_antisymm h' (hcont' h'').1
            rw [hrc k hk1 hlt hP, this, integral_same]
          · rfl


/-- `Eload_linear`, integrals.py:2666-2926, one entry: time `t`, eigenvalue `eig`. -/
noncomputable def eloadLinear (impl : Impl) (T P : List ℝ) (dT t : ℝ) (eig : ℂ) : Except PyErr ℂ := do
  let g ← loadSegments T P t
  let a (l : List ℝ) (k : ℕ) : ℂ := ((l.getD k 0 : ℝ) : ℂ)
  pure (
    (g.constantsContaining.map (fun k => (match impl with | .scalar => El_cc_s | .vectorized => El_cc_v)
      (a T k) (a P k) eig t dT)).sum +
    (g.constantsLess.map (fun k => (match impl with | .scalar => El_cl_s | .vectorized => El_cl_v)
      (a T k) (a T (k+1)) (a P k) eig t dT)).sum +
    (g.rampsContaining.map (fun k => (match impl with | .scalar => El_rc_s | .vectorized => El_rc_v)
      (a T k) (a T (k+1)) (a P k) (a P (k+1)) eig t dT)).sum +
    (g.rampsLess.map (fun k => (match impl with | .scalar => El_rl_s | .vectorized => El_rl_v)
      (a T k) (a T (k+1)) (a P k) (a P (k+1)) eig t dT)).sum)

/-- `Eload_coslinear`, integrals.py:3101-4323, with complex eigenvalues: the result array is a real one, so that the first
`A[i, :] += …` (one for each kind of segment that is not empty) raises `TypeError` (integrals.py:3774-3800).  Entries
without any segment stay zero.  `implementation='scalar'` uses `math.exp`: not modelled (an error). -/
noncomputable def eloadCos (impl : Impl) (T P : List ℝ) (omega phase dT t : ℝ) (eig : ℂ) : Except PyErr ℂ := do
  let g ← loadSegments T P t
  if g.constantsContaining = [] ∧ g.constantsLess = [] ∧ g.rampsContaining = [] ∧ g.rampsLess = [] then pure 0
  else match impl with
    | .vectorized => .error .typeError
    | .scalar => .error .other

/-- `Eload_sinlinear`, integrals.py:5569-6694, one entry; `pEload_sinlinear` (integrals.py:866-964) calls it with the points of a PolyLine. -/
noncomputable def eloadSin (impl : Impl) (T P : List ℝ) (omega phase dT t : ℝ) (eig : ℂ) : Except PyErr ℂ := do
  let g ← loadSegments T P t
  let a (l : List ℝ) (k : ℕ) : ℂ := ((l.getD k 0 : ℝ) : ℂ)
  pure (
    (g.constantsContaining.map (fun k => (match impl with | .scalar => Es_cc_s | .vectorized => Es_cc_v)
      (a T k) (a P k) omega phase eig t dT)).sum +
    (g.constantsLess.map (fun k => (match impl with | .scalar => Es_cl_s | .vectorized => Es_cl_v)
      (a T k) (a T (k+1)) (a P k) omega phase eig t dT)).sum +
    (g.rampsContaining.map (fun k => (match impl with | .scalar => Es_rc_s | .vectorized => Es_rc_v)
      (a T k) (a T (k+1)) (a P k) (a P (k+1)) omega phase eig t dT)).sum +
    (g.rampsLess.map (fun k => (match impl with | .scalar => Es_rl_s | .vectorized => Es_rl_v)
      (a T k) (a T (k+1)) (a P k) (a P (k+1)) omega phase eig t dT)).sum)

theorem lin_c (p0 p1 t0 t1 z : ℝ) : ((p0 + (p1 - p0)/(t1 - t0)*(z - t0) : ℝ) : ℂ) =
    (p0:ℂ) + ((p1:ℂ) - p0)/((t1:ℂ) - t0)*((z:ℂ) - t0) := by push_cast; ring

/-- **C184.** `Eload_linear` with a complex eigenvalue (not zero): the convolution of the load with the (oscillating)
decay, with both implementations. -/
theorem C184_Eload_linear_complex (impl : Impl) (T P : List ℝ) (dT s t : ℝ) (eig : ℂ) (load : ℝ → ℝ) (hT : 0 < T.length) (hs : SortedLe T)
    (hl : LoadCurve load T P) (hr : NoRepeatedPoint T P) (hc : (dT : ℂ) * eig ≠ 0) (hs0 : s ≤ T[0]) (hst : s ≤ t) :
    eloadLinear impl T P dT t eig = .ok (∫ τ in s..t, (load τ : ℂ) * exp (-(dT * eig) * (t - τ))) := by
  have hlen := hl.len
  have eT : ∀ k (hk : k < T.length), T[k] = nth T k := fun k hk => (nth_eq_getElem hk).symm
  have eP : ∀ k (hk : k < P.length), P[k] = nth P k := fun k hk => (nth_eq_getElem hk).symm
  unfold eloadLinear
  rw [loadSegments_eq (noRepeat_of hlen hr)]
  simp only [bind, Except.bind, pure, Except.pure]
  congr 1
  refine load_engine hs hT (noRepeat_of hlen hr)
    (G := fun k τ => (((nth P k : ℝ) : ℂ) + (((nth P (k+1) : ℝ) : ℂ) - ((nth P k : ℝ) : ℂ))/(((nth T (k+1) : ℝ) : ℂ) - ((nth T k : ℝ) : ℂ))*((τ:ℂ) - ((nth T k : ℝ) : ℂ))) * exp (-(dT*eig)*((t:ℂ) - τ)))
    (fun k => by fun_prop) ?_ ?_ (by rw [← eT 0 hT]; exact hs0) hst _ _ _ _ ?_ ?_ ?_ ?_
  · intro k hk z h1 h2
    have := hl.seg k hk z (by rw [eT]; exact h1) (by rw [eT]; exact h2)
    rw [this]
    simp only [line, eT, eP, lin_c]
  · intro z hz
    rw [hl.out hT z (by rw [eT, eT]; exact hz), ofReal_zero, zero_mul]
  · intro k hk hlt hP
    have := (El_forms (P0 := ((nth P k : ℝ) : ℂ)) (P1 := ((nth P k : ℝ) : ℂ)) (t := t) hc (ofReal_injective.ne hlt.ne)).2.2.1
    rw [← hP]
    cases impl <;> exact this
  · intro k hk hlt hP
    have := (El_forms (P0 := ((nth P k : ℝ) : ℂ)) (P1 := ((nth P k : ℝ) : ℂ)) (t := t) hc (ofReal_injective.ne hlt.ne)).2.2.2
    rw [← hP]
    cases impl <;> exact this
  · intro k hk hlt hP
    have := (El_forms (P0 := ((nth P k : ℝ) : ℂ)) (P1 := ((nth P (k+1) : ℝ) : ℂ)) (t := t) hc (ofReal_injective.ne hlt.ne)).1
    cases impl <;> exact this
  · intro k hk hlt hP
    have := (El_forms (P0 := ((nth P k : ℝ) : ℂ)) (P1 := ((nth P (k+1) : ℝ) : ℂ)) (t := t) hc (ofReal_injective.ne hlt.ne)).2.1
    cases impl <;> exact this

set_option maxHeartbeats 2000000 in
/-- **C184.** `Eload_sinlinear` with a complex eigenvalue (not zero, and not at resonance: not `±iω/dT`): the convolution of
`load(τ) sin(ω τ + φ)` with the (oscillating) decay, with both implementations. -/
theorem C184_Eload_sin_complex (impl : Impl) (T P : List ℝ) (omega phase dT s t : ℝ) (eig : ℂ) (load : ℝ → ℝ) (hT : 0 < T.length) (hs : SortedLe T)
    (hl : LoadCurve load T P) (hr : NoRepeatedPoint T P) (hc : (dT : ℂ) * eig ≠ 0) (hq : ((dT : ℂ) * eig) ^ 2 + (omega : ℂ) ^ 2 ≠ 0)
    (hs0 : s ≤ T[0]) (hst : s ≤ t) :
    eloadSin impl T P omega phase dT t eig =
      .ok (∫ τ in s..t, ((load τ * Real.sin (omega * τ + phase) : ℝ) : ℂ) * exp (-(dT * eig) * (t - τ))) := by
  have hlen := hl.len
  have eT : ∀ k (hk : k < T.length), T[k] = nth T k := fun k hk => (nth_eq_getElem hk).symm
  have eP : ∀ k (hk : k < P.length), P[k] = nth P k := fun k hk => (nth_eq_getElem hk).symm
  unfold eloadSin
  rw [loadSegments_eq (noRepeat_of hlen hr)]
  simp only [bind, Except.bind, pure, Except.pure]
  congr 1
  refine load_engine hs hT (noRepeat_of hlen hr)
    (G := fun k τ => (((nth P k : ℝ) : ℂ) + (((nth P (k+1) : ℝ) : ℂ) - ((nth P k : ℝ) : ℂ))/(((nth T (k+1) : ℝ) : ℂ) - ((nth T k : ℝ) : ℂ))*((τ:ℂ) - ((nth T k : ℝ) : ℂ))) * sin (omega * τ + phase) * exp (-(dT*eig)*((t:ℂ) - τ)))
    (fun k => by fun_prop) ?_ ?_ (by rw [← eT 0 hT]; exact hs0) hst _ _ _ _ ?_ ?_ ?_ ?_
  · intro k hk z h1 h2
    have := hl.seg k hk z (by rw [eT]; exact h1) (by rw [eT]; exact h2)
    rw [this]
    simp only [line, eT, eP, ofReal_mul, lin_c, ofReal_sin]
    rw [ofReal_add (omega * z), ofReal_mul]
  · intro z hz
    rw [hl.out hT z (by rw [eT, eT]; exact hz), zero_mul, ofReal_zero, zero_mul]
  · intro k hk hlt hP
    have := Es_cc (P0 := ((nth P k : ℝ) : ℂ)) (P1 := ((nth P k : ℝ) : ℂ)) (t := t) (omega := omega) (phase := phase) hc hq (ofReal_injective.ne hlt.ne)
    rw [← hP]
    cases impl
    · exact this
    · exact (show Es_cc_v = Es_cc_s from rfl) ▸ this
  · intro k hk hlt hP
    have := Es_cl (P0 := ((nth P k : ℝ) : ℂ)) (P1 := ((nth P k : ℝ) : ℂ)) (t := t) (omega := omega) (phase := phase) hc hq (ofReal_injective.ne hlt.ne)
    rw [← hP]
    cases impl
    · exact this
    · exact (show Es_cl_v = Es_cl_s from rfl) ▸ this
  · intro k hk hlt hP
    have := Es_rc (P0 := ((nth P k : ℝ) : ℂ)) (P1 := ((nth P (k+1) : ℝ) : ℂ)) (t := t) (omega := omega) (phase := phase) hc hq (ofReal_injective.ne hlt.ne)
    cases impl
    · exact this
    · exact (show Es_rc_v = Es_rc_s from rfl) ▸ this
  · intro k hk hlt hP
    have := Es_rl (P0 := ((nth P k : ℝ) : ℂ)) (P1 := ((nth P (k+1) : ℝ) : ℂ)) (t := t) (omega := omega) (phase := phase) hc hq (ofReal_injective.ne hlt.ne)
    cases impl
    · exact this
    · exact (show Es_rl_v = Es_rl_s from rfl) ▸ this

/-- **C184.** `Eload_coslinear` (default implementation) cannot be used with complex eigenvalues: it raises `TypeError` as soon
as one of the times is after the start of the load. -/
theorem C184_Eload_cos_complex_fails (T P : List ℝ) (omega phase dT t : ℝ) (eig : ℂ) (hT : 0 < T.length) (hlen : P.length = T.length)
    (hs : SortedLe T) (hr : NoRepeatedPoint T P) (hlast : T[0] < T[T.length - 1]) (ht : T[0] < t) :
    eloadCos .vectorized T P omega phase dT t eig = .error .typeError := by
  have eT : ∀ k (hk : k < T.length), T[k] = nth T k := fun k hk => (nth_eq_getElem hk).symm
  rw [eT] at hlast ht
  rw [eT] at hlast
  unfold eloadCos
  rw [loadSegments_eq (noRepeat_of hlen hr)]
  simp only [bind, Except.bind]
  rw [if_neg]
  rintro ⟨h1, h2, h3, h4⟩
  have key := Speccon.load_engine (F := fun z => if nth T 0 ≤ z ∧ z ≤ nth T (T.length - 1) then 1 else 0) hs hT (noRepeat_of hlen hr)
    (G := fun k z => 1) (fun k => continuous_const) (fun k hk z z1 z2 => ?_) (fun z hz => ?_) (le_refl (nth T 0)) ht.le
    (fun k => ∫ z in (nth T k)..t, (1:ℝ)) (fun k => ∫ z in (nth T k)..(nth T (k+1)), (1:ℝ)) (fun k => ∫ z in (nth T k)..t, (1:ℝ))
    (fun k => ∫ z in (nth T k)..(nth T (k+1)), (1:ℝ)) (fun _ _ _ _ => rfl) (fun _ _ _ _ => rfl) (fun _ _ _ _ => rfl) (fun _ _ _ _ => rfl)
  · rw [h1, h2, h3, h4] at key
    simp only [List.map_nil, List.sum_nil, add_zero] at key
    set b := min t (nth T (T.length - 1)) with hb
    have hlt : nth T 0 < b := lt_min ht hlast
    have e1 : ∫ z in (nth T 0)..b, (if nth T 0 ≤ z ∧ z ≤ nth T (T.length - 1) then (1:ℝ) else 0) = b - nth T 0 := by
      rw [Speccon.integral_congr_Ioo' (g := fun _ => 1) hlt.le (fun z z1 z2 => if_pos ⟨z1.le, z2.le.trans (min_le_right _ _)⟩)]
      simp
    have e2 : ∫ z in b..t, (if nth T 0 ≤ z ∧ z ≤ nth T (T.length - 1) then (1:ℝ) else 0) = 0 := by
      rcases le_total t (nth T (T.length - 1)) with h | h
      · rw [hb, min_eq_left h]; simp
      · rw [Speccon.integral_congr_Ioo' (g := fun _ => 0) (min_le_left _ _) (fun z z1 z2 => if_neg (by
          rw [min_eq_right h] at z1
          rintro ⟨_, h'⟩
          exact absurd z1 (not_lt.2 h')))]
        simp
    have i1 : IntervalIntegrable (fun z => if nth T 0 ≤ z ∧ z ≤ nth T (T.length - 1) then (1:ℝ) else 0) volume (nth T 0) b :=
      Speccon.intervalIntegrable_congr_Ioo' (g := fun _ => 1) hlt.le continuous_const (fun z z1 z2 => if_pos ⟨z1.le, z2.le.trans (min_le_right _ _)⟩)
    have i2 : IntervalIntegrable (fun z => if nth T 0 ≤ z ∧ z ≤ nth T (T.length - 1) then (1:ℝ) else 0) volume b t := by
      rcases le_total t (nth T (T.length - 1)) with h | h
      · rw [hb, min_eq_left h]
      · exact Speccon.intervalIntegrable_congr_Ioo' (g := fun _ => 0) (min_le_left _ _) continuous_const (fun z z1 z2 => if_neg (by
          rw [hb, min_eq_right h] at z1
          rintro ⟨_, h'⟩
          exact absurd z1 (not_lt.2 h')))
    rw [← integral_add_adjacent_intervals i1 i2, e1, e2] at key
    linarith
  · have m1 := nth_mono hs (show 0 ≤ k by omega) (by omega : k < T.length)
    have m2 := nth_mono hs (show k + 1 ≤ T.length - 1 by omega) (by omega)
    exact if_pos ⟨m1.trans z1.le, z2.le.trans m2⟩
  · refine if_neg ?_
    rintro ⟨g1, g2⟩
    rcases hz with hz | hz <;> linarith

end Geotecha.Speccon.Cx
