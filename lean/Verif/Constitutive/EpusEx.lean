import Verif.Constitutive.EpusRun
import Verif.Constitutive.EpusSwcc
import Verif.Constitutive.EpusRepro
import Verif.Constitutive.EpusElastic

/-!
# EPUS: the hypotheses of the theorems are met, and loading past yield

The parameters are those of the examples in epus.py with the default discretisation (1000 pore groups, 400 table
entries, suctions from `10**-3` to `10**6`).
-/

set_option autoImplicit false
set_option linter.unusedVariables false

namespace Geotecha.Epus

/-- The parameters of the doctests of epus.py (epus.py:262-318) with the defaults of `EPUS.__init__`, epus.py:149-156. -/
noncomputable def docPar : Par where
  wsat := 0.262
  a := 3100000
  b := 3.377
  wr := 0.128
  sl := 0.115
  logDS := 0.6
  logRS := 2
  Ccs := 0.115
  Css := 0.019
  Ccd := 0.055
  Gs := 2.7
  assumption := 1
  beta := 0.1
  pm := 1
  poreShape := 1
  K0 := 1
  npoint := 1000
  numSr := 400
  maxS := 6
  minS := -3

theorem docPar_runs : Runs docPar where
  b := by norm_num [docPar]
  logRS := by norm_num [docPar]
  Ccs := by norm_num [docPar]
  K0 := by norm_num [docPar]
  numSr := by norm_num [docPar]
  range := by norm_num [docPar]
  temp2 := by
    intro i hi h
    have h1 : (706800 : ℝ) = 1035 * i := by
      simp only [docPar] at h
      push_cast at h
      norm_num at h
      linarith
    have h2 : 706800 = 1035 * i := by exact_mod_cast h1
    omega

theorem pow10_doc : pow10 docPar.minS = 1 / 1000 ∧ pow10 docPar.maxS = 1000000 := by
  constructor
  · unfold pow10
    rw [show docPar.minS = -((3 : ℕ) : ℝ) by norm_num [docPar], Real.rpow_neg (by norm_num), Real.rpow_natCast]
    norm_num
  · unfold pow10
    rw [show docPar.maxS = ((6 : ℕ) : ℝ) by norm_num [docPar], Real.rpow_natCast]
    norm_num

/-- The tables of a new object, epus.py:198-199. -/
noncomputable def zeros : List ℝ := List.replicate docPar.numSr 0

/-- Tables left by some other run. -/
noncomputable def ones : List ℝ := List.replicate docPar.numSr 1

theorem zeros_len : zeros.length = docPar.numSr := List.length_replicate
theorem ones_len : ones.length = docPar.numSr := List.length_replicate

/-- A stress path: load to 20, dry to 1000, wet to 30, unload to 5. -/
def docPath : List PathStep := [⟨true, 20, 50⟩, ⟨false, 1000, 100⟩, ⟨false, 30, 100⟩, ⟨true, 5, 20⟩]

theorem docPath_in : ∀ s ∈ docPath, StepIn docPar s := by
  intro s hs
  simp only [docPath, List.mem_cons, List.not_mem_nil, or_false] at hs
  rcases hs with rfl | rfl | rfl | rfl <;>
    refine ⟨by norm_num, by norm_num, fun h => ?_⟩ <;> simp [pow10_doc] at h ⊢ <;> norm_num

/-- C193, C194, C195, C197 on the documented parameters: the run completes, its outputs are in range, its path is the
requested one and it does not depend on the tables of an earlier run. -/
example : ∃ st out, calresults docPar docPath zeros zeros = .ok (st, out) ∧
    out.length = 4 ∧ (∀ l ∈ out, ∀ x ∈ l, 0 ≤ x.Sr ∧ x.Sr ≤ 1) ∧
    out.map (fun l => l.map fun x => (x.ss, x.st)) = specPath (1 / 1000) (1 / 1000 / 1000) docPath ∧
    calresults docPar docPath ones ones = .ok (st, out) := by
  obtain ⟨st, out, h, hl⟩ := C193_calresults_succeeds docPar docPar_runs docPath docPath_in zeros
    zeros zeros_len zeros_len
  refine ⟨st, out, h, hl, fun l hl x hx => ?_, ?_, ?_⟩
  · have := C194_outputs_in_range docPar (by norm_num [docPar]) (by norm_num [docPar]) (by norm_num [docPar]) _ _ _ _ _ h l hl
      x hx
    exact ⟨this.2.2.1, this.2.2.2.1⟩
  · rw [C195_recorded_path docPar _ _ _ _ _ h, pow10_doc.1]
  · rw [← h]
    exact (C197_rerun_reproducible docPar (by norm_num [docPar]) docPath _ _ _ _ ones_len zeros_len ones_len zeros_len).2 rfl

/-- C194_loading_keeps_saturated: a path of stress steps only. -/
example : ∃ st out, calresults docPar [⟨true, 20, 50⟩, ⟨true, 5, 20⟩] zeros zeros =
    .ok (st, out) ∧ ∀ l ∈ out, ∀ x ∈ l, x.e ≠ 0 → x.Sr = 1 := by
  obtain ⟨st, out, h, hl⟩ := C193_calresults_succeeds docPar docPar_runs [⟨true, 20, 50⟩, ⟨true, 5, 20⟩] (by
    intro s hs
    apply docPath_in
    simp only [docPath, List.mem_cons, List.not_mem_nil, or_false] at hs ⊢
    tauto) zeros zeros zeros_len zeros_len
  exact ⟨st, out, h, C194_loading_keeps_saturated docPar (by norm_num [docPar]) _ (by simp) _ _ _ _ h⟩

/-- C196_tables_in_range and C196_reference_in_range: the tables of the documented soil. -/
example : ∃ st, degreeSat docPar false zeros zeros = .ok st ∧
    (∀ r ∈ st.Srdry, 0 ≤ r ∧ r ≤ 1) ∧ ∀ r ∈ st.Srwet, 0 ≤ r ∧ r ≤ 1 := by
  obtain ⟨st, h, _⟩ := degreeSat_total docPar_runs false (d := zeros) (w := zeros)
    zeros_len zeros_len
  have := C196_tables_in_range docPar (by norm_num [docPar]) false _ _ zeros_len zeros_len st h
  exact ⟨st, h, this.2.2.1, this.2.2.2⟩

/-- C196_dry_lookup_off_by_one, C196_wet_lookup_exact, C196_lookup_outside on a table of 400 different entries. -/
example : rfSr docPar ((List.range 400).map fun k : ℕ => (k : ℝ)) (pow10 ((docPar.maxS - docPar.minS) / docPar.numSr * (7 : ℕ) + docPar.minS)) = .ok 6 ∧
    rfSr docPar ((List.range 400).map fun k : ℕ => (k : ℝ)) (pow10 (docPar.maxS - (docPar.maxS - docPar.minS) / docPar.numSr * (7 : ℕ))) = .ok 392 ∧
    rfSr docPar ((List.range 400).map fun k : ℕ => (k : ℝ)) (pow10 7) = .error .indexError := by
  refine ⟨?_, ?_, ?_⟩
  · have := C196_dry_lookup_off_by_one docPar ((List.range 400).map fun k : ℕ => (k : ℝ)) (by norm_num [docPar])
      (by norm_num [docPar]) (by simp [docPar]) 7 (by norm_num) (by simp)
    simp only [List.getElem_map, List.getElem_range] at this
    norm_num at this ⊢
    exact this
  · have := C196_wet_lookup_exact docPar ((List.range 400).map fun k : ℕ => (k : ℝ)) (by norm_num [docPar])
      (by norm_num [docPar]) (by simp [docPar]) 7 (by norm_num [docPar])
    simp only [List.getElem_map, List.getElem_range] at this
    rw [show docPar.numSr - 1 - 7 = 392 from rfl] at this
    norm_num at this ⊢
    exact this
  · refine (C196_lookup_outside docPar _ (by norm_num [docPar]) (by norm_num [docPar]) (by simp [docPar]) 7).1 ?_
    simp only [docPar]; norm_num

/-- The volumes of the groups of the documented soil: the tenth group. -/
example : ∃ s0 q, slurry docPar false zeros zeros = .ok s0 ∧ s0.f[10]? = some q ∧ q.RVC = q.RV ∧ q.Ccd * docPar.Ccs = q.Ccp * docPar.Ccd := by
  obtain ⟨s0, h0, v0⟩ := slurry_total docPar_runs false (d := zeros) (w := zeros) zeros_len zeros_len
  obtain ⟨_, _, _, l0⟩ := C199_slurry_groups docPar (by norm_num [docPar]) (by norm_num [docPar]) (by norm_num [docPar])
    (by norm_num [docPar]) (by norm_num [docPar]) (by norm_num [docPar]) false _ _ s0 h0
  have hn : docPar.npoint = 1000 := rfl
  have hl : 10 < s0.f.length := by rw [l0, hn]; norm_num
  obtain ⟨_, c2, c3, _⟩ := C199_slurry_volumes docPar (by norm_num [docPar]) false _ _ s0 h0 10 (by rw [hn]; norm_num) _
    (List.getElem?_eq_getElem hl)
  exact ⟨s0, _, h0, List.getElem?_eq_getElem hl, c3, c2⟩

/-- C187-C191 on a history of the documented soil that starts from the slurry: drying to 1000, wetting to 30, loading to
20 and unloading to 5 succeeds, leaves the indexes of the pore groups alone, the volumes are functions of the state, and
after it unloading further expands, drying compresses and an unload-reload cycle is elastic. -/
example : ∃ s0 s1, slurry docPar false zeros zeros = .ok s0 ∧
    runOps docPar [.dry 1000, .wet 30, .load 20, .unload 5] s0 = .ok s1 ∧ s1.f.length = 1000 ∧
    List.Forall₂ Evolves s0.f s1.f ∧ Settled docPar s1 ∧ Indexed s1 ∧
    (∃ s2, unloading docPar 2 s1 = .ok s2 ∧ voids s1.f ≤ voids s2.f) ∧
    (∃ s2, drying docPar 1000 s1 = .ok s2 ∧ voids s2.f ≤ voids s1.f) ∧
    (∃ s2 s3, unloading docPar 2 s1 = .ok s2 ∧ loading docPar s1.Stress s2 = .ok s3 ∧
      List.Forall₂ (fun q q' => q.Filled = true → s1.Suction + s1.Stress ≤ q.YieldSt → q' = q) s1.f s3.f) := by
  obtain ⟨s0, h0, v0⟩ := slurry_total docPar_runs false (d := zeros) (w := zeros)
    zeros_len zeros_len
  obtain ⟨i0, _, _, l0⟩ := C199_slurry_groups docPar (by norm_num [docPar]) (by norm_num [docPar]) (by norm_num [docPar])
    (by norm_num [docPar]) (by norm_num [docPar]) (by norm_num [docPar]) false _ _ s0 h0
  obtain ⟨s1, h1, v1⟩ := C193_histories_succeed docPar [.dry 1000, .wet 30, .load 20, .unload 5] (by
    intro o ho
    simp only [List.mem_cons, List.not_mem_nil, or_false] at ho
    rcases ho with rfl | rfl | rfl | rfl <;> simp [OpIn, pow10_doc] <;> norm_num) s0 v0
  have ev := (C187_history_invariants docPar _ s0 s1 h1).1
  have st1 := C189_volume_is_state_function docPar _ (by simp) s0 s1 h1
  have ix1 := C199_indexes_kept docPar _ s0 s1 i0 h1
  have hfin : s1.Suction = 30 ∧ s1.Stress = 5 := by
    have h := h1
    unfold runOps at h
    simp only [List.foldlM_cons, List.foldlM_nil, Op.run, bind_ok, pure, Except.pure] at h
    obtain ⟨a, ha, b, hb, c, hc, d, hd, hh⟩ := h
    simp only [Except.ok.injEq] at hh
    subst hh
    exact ⟨by rw [(unloading_inv hd).2.1, (loading_inv hc).2.1, (wetting_inv hb).2.1], (unloading_inv hd).2.2.1⟩
  obtain ⟨s2, h2, v2⟩ := op_total (o := .unload 2) v1 (by norm_num [OpIn])
  obtain ⟨s3, h3, v3⟩ := op_total (o := .dry 1000) v1 (by simp [OpIn, pow10_doc]; norm_num)
  obtain ⟨s4, h4, v4⟩ := op_total (o := .load s1.Stress) v2 v1.stress
  have h2' : unloading docPar 2 s1 = .ok s2 := h2
  have h3' : drying docPar 1000 s1 = .ok s3 := h3
  have h4' : loading docPar s1.Stress s2 = .ok s4 := h4
  refine ⟨s0, s1, h0, h1, by rw [← ev.length_eq, l0]; rfl, ev, st1, ix1, ⟨s2, h2', ?_⟩, ⟨s3, h3', ?_⟩, s2, s4, h2', h4', ?_⟩
  · exact (C190_unloading_never_compresses docPar 2 s1 s2 st1 ix1 (by rw [hfin.2]; norm_num) h2').2
  · exact (C190_drying_never_expands docPar 1000 s1 s3 st1 ix1 (by rw [hfin.1]; norm_num)
      (by have := v1.suction; have := v1.stress; linarith) h3').2
  · exact (C191_unload_reload_is_elastic docPar 2 s1 s2 s4 st1 h2' h4').1

/-- C190_loading_compresses_saturated, C190_wetting_swells_saturated, C191_saturated_cycle_closes and C191_loading_subdivision:
a saturated group of the slurry after loading. -/
example : ∃ s0 s1 s2, slurry docPar false zeros zeros = .ok s0 ∧
    loading docPar 20 s0 = .ok s1 ∧ (∀ q ∈ s1.f, q.Filled = true ∧ s1.Suction + s1.Stress ≤ q.YieldSt) ∧ Settled docPar s1 ∧
    loading docPar 40 s1 = .ok s2 ∧ voids s2.f ≤ voids s1.f := by
  obtain ⟨s0, h0, v0⟩ := slurry_total docPar_runs false (d := zeros) (w := zeros)
    zeros_len zeros_len
  obtain ⟨i0, _, wet0, l0⟩ := C199_slurry_groups docPar (by norm_num [docPar]) (by norm_num [docPar]) (by norm_num [docPar])
    (by norm_num [docPar]) (by norm_num [docPar]) (by norm_num [docPar]) false _ _ s0 h0
  obtain ⟨s1, h1, v1⟩ := op_total (o := .load 20) v0 (by norm_num [OpIn])
  obtain ⟨s2, h2, v2⟩ := op_total (o := .load 40) v1 (by norm_num [OpIn])
  have h1' : loading docPar 20 s0 = .ok s1 := h1
  have h2' : loading docPar 40 s1 = .ok s2 := h2
  have hr : runOps docPar [.load 20] s0 = .ok s1 := by
    unfold runOps; rw [List.foldlM_cons, h1, ok_bind]; rfl
  have st1 := C189_volume_is_state_function docPar _ (by simp) s0 s1 hr
  have ix1 := C199_indexes_kept docPar _ s0 s1 i0 hr
  have key : ∀ q ∈ s1.f, q.Filled = true ∧ s1.Suction + s1.Stress ≤ q.YieldSt := by
    refine f2_mem_right (loading_inv h1').1 (P := fun q => q.Filled = true) (fun q hq => (wet0 q hq).1) ?_
    rintro q q' hf ⟨e, h⟩
    rcases loadPore_inv h with ⟨_, g, hy, _, _, hv, hf', _⟩ | ⟨hf', _⟩ | ⟨hf', _⟩
    · refine ⟨hf', ?_⟩
      rw [hy, (loading_inv h1').2.1, (loading_inv h1').2.2.1, add_comm]
      exact le_max_left _ _
    · rw [hf] at hf'; exact absurd hf' (by simp)
    · rw [hf] at hf'; exact absurd hf' (by simp)
  refine ⟨s0, s1, s2, h0, h1', key, st1, h2', ?_⟩
  exact (C190_loading_compresses_saturated docPar 40 s1 s2 st1 ix1 (fun q hq => (key q hq).1)
    (by rw [(loading_inv h1').2.2.1]; norm_num) (by have := v1.suction; have := v1.stress; linarith) h2').2

/-! ## C192: loading past yield -/

/-- The soil of `C192_loading_past_yield`: parameters for which the changed suction is easy to compute. -/
noncomputable def pastPar : Par where
  wsat := 1
  a := 1000
  b := 1
  wr := 0
  sl := 1
  logDS := 0
  logRS := 1
  Ccs := 1
  Css := 0
  Ccd := 1
  Gs := 1
  assumption := 1
  beta := 0
  pm := 1
  poreShape := 3 / 2
  K0 := 1
  npoint := 1
  numSr := 2
  maxS := 6
  minS := -3

/-- **C192, loading can leave a group stressed beyond its yield stress.**  When loading fills a dry group its yield stress
becomes the new net stress plus the water entry value at the reference state, while the group then carries the new net
stress plus the current suction; water fills the group at suctions above the reference water entry value when loading
has shrunk it.  Here the group ends with yield stress 10 under an acting stress of 10.5, so the elastic branch is used
beyond yield. -/
theorem C192_loading_past_yield : ∃ (p : Par) (st st' : State) (x : ℝ), 0 < st.Stress ∧ st.Stress < x ∧
    loading p x st = .ok st' ∧ ∃ q ∈ st'.f, q.Filled = true ∧ q.YieldSt < st'.Stress + st'.Suction := by
  have p0 : pow10 0 = 1 := by simp [pow10]
  have l1 : log10 1 = .ok 0 := by simp [log10]
  have l2 : log10 2 = .ok (Real.logb 10 2) := by norm_num [log10]
  have l10 : log10 10 = .ok 1 := by
    have : Real.logb 10 (10 : ℝ) = 1 := Real.logb_self_eq_one (by norm_num)
    simp [log10, this]
  have hc : changeWetSuction pastPar 1 10 1 1 = .ok (1 / 2, false) := by
    unfold changeWetSuction
    rw [if_neg (by norm_num), if_neg (by norm_num [pastPar]), if_neg (by norm_num [pastPar]), l1, ok_bind]
    rw [if_neg (by norm_num [pastPar]), l10, ok_bind, show (1 : ℝ) + 1 = 2 by norm_num, l2, ok_bind]
    dsimp only
    rw [if_neg (by norm_num [pastPar]), if_neg (by norm_num [pastPar])]
    norm_num [pastPar]
  have hv : ∃ v, changevolume pastPar 1 10 (3 / 2 + 9) 1 0 = .ok v := by
    unfold changevolume
    rw [l10, ok_bind]
    have : log10 (3 / 2 + 9 : ℝ) = .ok (Real.logb 10 (3 / 2 + 9)) := by unfold log10; rw [if_pos (by norm_num)]
    rw [this, ok_bind]
    dsimp only
    split <;> exact ⟨_, rfl⟩
  obtain ⟨v, hv⟩ := hv
  let q : Pore := ⟨0, 0, 1, 0, 1, 1, 1, false, 1, 0, 0, false⟩
  let q' : Pore := ⟨0, 0, 1, 0, 1, 1, 10, true, v, 0, 0, false⟩
  have hl : loadPore pastPar 1 (3 / 2) 1 9 q = .ok (q', false) := by
    unfold loadPore
    simp only [q, p0]
    rw [if_neg (by simp), show raise (9 + 1) 1 = (10 : ℝ) by norm_num [raise], hc, ok_bind]
    dsimp only
    rw [if_pos (by norm_num), hv, ok_bind]
  refine ⟨pastPar, ⟨[q], 3 / 2, 1, 1, 1, false, [], []⟩, ⟨[q'], 3 / 2, 9, 1, 1, false, [], []⟩, 9, by norm_num, by norm_num,
    ?_, q', by simp, rfl, ?_⟩
  · unfold loading
    dsimp only
    rw [List.mapM_cons, hl, ok_bind]
    rfl
  · simp only [q']; norm_num

/-! ## C198, C199: hypotheses met -/

theorem logb_doc : Real.logb 10 docPar.a < 7 ∧ 0 < Real.logb 10 2.7 ∧ Real.logb 10 2.7 < 1 := by
  refine ⟨?_, Real.logb_pos (by norm_num) (by norm_num), ?_⟩
  · rw [Real.logb_lt_iff_lt_rpow (by norm_num) (by norm_num [docPar]), show (7 : ℝ) = ((7 : ℕ) : ℝ) by norm_num,
      Real.rpow_natCast]
    norm_num [docPar]
  · rw [Real.logb_lt_iff_lt_rpow (by norm_num) (by norm_num)]; norm_num

/-- C199: the documented soil has the hysteresis and an increasing water entry value. -/
example : (∀ aev ≤ 6, wevOf docPar aev ≤ aev) ∧ StrictMono (wevOf docPar) ∧ wevOf docPar 6 = 6 := by
  obtain ⟨h1, h2, h3⟩ := logb_doc
  have hT : Real.logb 10 docPar.a / docPar.b + Real.logb 10 2.7 / docPar.b < 6 := by
    rw [← add_div, div_lt_iff₀ (by norm_num [docPar])]
    simp only [docPar] at h1 ⊢
    norm_num at h1 ⊢
    norm_num at h3
    linarith
  have hD : (docPar.logRS - 1) * (Real.logb 10 2.7 / docPar.b) ≤ docPar.logDS := by
    have : Real.logb 10 2.7 / docPar.b ≤ 1 / docPar.b :=
      div_le_div_of_nonneg_right h3.le (by norm_num [docPar])
    have e : docPar.logRS - 1 = 1 := by norm_num [docPar]
    rw [e, one_mul]
    refine this.trans ?_
    norm_num [docPar]
  have ha : 0 < docPar.a := by norm_num [docPar]
  have hb : 0 < docPar.b := by norm_num [docPar]
  have hR : 1 ≤ docPar.logRS := by norm_num [docPar]
  exact ⟨(C199_hysteresis docPar ha hb hR hT).2 hD, C199_wev_increasing docPar ha hb hR hT hD⟩

/-- C198: a soil without residual water content, to which the shape theorem and the two derivative theorems apply. -/
example : ∃ p : Par, 0 < p.a ∧ 0 < p.b ∧ 0 < p.Gs ∧ p.wr = 0 ∧ 0 ≤ p.sl ∧ 6 * p.sl < (p.wsat - p.wr) * p.Gs ∧
    wc p (10 ^ 6) = 0 ∧ ¬ HasDerivAt (wc p) (dwc p (10 ^ 6)) (10 ^ 6) := by
  let p : Par := ⟨0.5, 3100000, 3.377, 0, 0.115, 0.6, 2, 0.115, 0.019, 0.055, 2.7, 1, 0.1, 1, 1, 1, 1000, 400, 6, -3⟩
  have hw : 6 * p.sl < (p.wsat - p.wr) * p.Gs := by norm_num [p]
  exact ⟨p, by norm_num [p], by norm_num [p], by norm_num [p], rfl, by norm_num [p], hw,
    (C198_Wc_shape p (by norm_num [p]) (by norm_num [p]) (by norm_num [p]) (by norm_num [p]) hw).1,
    C198_DWc_is_not_derivative p (by norm_num [p]) (by norm_num [p]) (by norm_num [p]) rfl (by norm_num [p])⟩

end Geotecha.Epus
