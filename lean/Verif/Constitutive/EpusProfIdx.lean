import Verif.Constitutive.EpusProf
import Verif.Constitutive.EpusEx
import Verif.Constitutive.PropsSwccDisc

/-! # EPUS profiles: compression indexes and permeabilities (C206, C207) -/

set_option autoImplicit false
set_option linter.unusedVariables false

namespace Geotecha.Epus

/-! ## C206: compression indexes -/

theorem indexes_inv {p : PPar} {N npp : ℕ} {dsig dpsi : ℝ} {rows : List Row} {l : List Idx}
    (h : compressionIndexes p N npp dsig dpsi rows = .ok l) :
    List.Forall₂ (fun r i => ∃ a b, endPoint (withNpoint p.epus N) (sigPath (withNpoint p.epus N) npp dsig r) = .ok a ∧
      endPoint (withNpoint p.epus N) (psiPath (withNpoint p.epus N) npp dpsi r) = .ok b ∧
      i = indexRow dsig dpsi r (r.setPt a) (r.setPt b)) rows l := by
  unfold compressionIndexes at h
  dsimp only at h
  rw [bind_ok] at h
  obtain ⟨a, ha, h⟩ := h
  rw [bind_ok] at h
  obtain ⟨b, hb, h⟩ := h
  simp only [Except.ok.injEq] at h
  subst h
  have fa := mapM_f2 ha
  have fb := mapM_f2 hb
  clear ha hb
  induction fa generalizing b with
  | nil => cases fb; exact .nil
  | cons h1 _ ih =>
    cases fb with
    | cons h2 fb =>
      refine .cons ?_ (ih _ fb)
      rw [bind_ok] at h1 h2
      obtain ⟨x, hx, h1⟩ := h1
      obtain ⟨y, hy, h2⟩ := h2
      simp only [Except.ok.injEq] at h1 h2
      exact ⟨x, y, hx, hy, by rw [← h1, ← h2]⟩

/-- **C206, additivity.**  The indexes of every depth satisfy `m1a + m1w = m1s` and `m2a + m2w = m2s`, and there is one set
of indexes per depth. -/
theorem C206_additive (p : PPar) (N npp : ℕ) (dsig dpsi : ℝ) (rows : List Row) (l : List Idx)
    (h : compressionIndexes p N npp dsig dpsi rows = .ok l) :
    l.length = rows.length ∧ ∀ i ∈ l, i.m1a + i.m1w = i.m1s ∧ i.m2a + i.m2w = i.m2s := by
  have hf := indexes_inv h
  refine ⟨hf.length_eq.symm, f2_mem_right hf (P := fun _ => True) (fun _ _ => trivial) ?_⟩
  rintro r i _ ⟨a, b, _, _, rfl⟩
  exact ⟨by simp [indexRow], by simp [indexRow]⟩

/-- The end of a path of stress steps is saturated. -/
theorem endPoint_saturated {q : Par} (hg : q.Gs ≠ 0) {path : List PathStep} (hp : ∀ s ∈ path, s.ist = true) {x : Pt}
    (h : endPoint q path = .ok x) : x.e ≠ 0 → x.Sr = 1 := by
  obtain ⟨st, out, l, h1, h2, h3⟩ := endPoint_inv h
  exact C194_loading_keeps_saturated q hg path hp _ _ st out h1 l (List.mem_of_getLast? h2) x (List.mem_of_getLast? h3)

/-- **C206, saturated soil.**  Where the suction is at most `10**MinSuction` and the depth is saturated (`Sr e = e`), the air
index `m1a` is zero, and so is `m2a` where the pore pressure exceeds `dpsi` by `10**MinSuction` or more. -/
theorem C206_saturated (p : PPar) (N npp : ℕ) (hg : p.epus.Gs ≠ 0) (dsig dpsi : ℝ) (rows : List Row) (l : List Idx)
    (h : compressionIndexes p N npp dsig dpsi rows = .ok l) :
    List.Forall₂ (fun r i => r.ss ≤ pow10 p.epus.minS → r.Sr * r.e = r.e →
      i.m1a = 0 ∧ (0 ≤ r.uw → pow10 p.epus.minS ≤ r.uw - dpsi → i.m2a = 0)) rows l := by
  refine (indexes_inv h).imp fun r i ⟨a, b, ha, hb, hi⟩ hs hsr => ?_
  have hs : r.ss ≤ pow10 (withNpoint p.epus N).minS := hs
  have sat : ∀ x : Pt, (x.e ≠ 0 → x.Sr = 1) → (r.setPt x).Sr * (r.setPt x).e = (r.setPt x).e := by
    intro x hx
    show (if 1 < x.Sr then 1 else x.Sr) * x.e = x.e
    by_cases he : x.e = 0
    · rw [he]; simp
    · rw [hx he]; simp
  have zero : ∀ (x y d : ℝ), (x - y) / (1 + y) / d - (x - y) / (1 + y) / d = 0 := fun _ _ _ => sub_self _
  constructor
  · have := endPoint_saturated (q := withNpoint p.epus N) hg (by
      intro s hs'
      unfold sigPath basePath at hs'
      rw [if_pos hs] at hs'
      simp only [List.cons_append, List.nil_append, List.mem_cons, List.not_mem_nil, or_false] at hs'
      rcases hs' with rfl | rfl <;> rfl) ha
    rw [hi]
    show _ - ((r.setPt a).Sr * (r.setPt a).e - r.Sr * r.e) / (1 + r.e) / dsig = 0
    rw [sat a this, hsr]
    exact sub_self _
  · intro hu hd
    have hd : pow10 (withNpoint p.epus N).minS ≤ r.uw - dpsi := hd
    have := endPoint_saturated (q := withNpoint p.epus N) hg (by
      intro s hs'
      unfold psiPath basePath at hs'
      rw [if_pos hs, if_neg (not_lt.2 hu), if_pos hd] at hs'
      simp only [List.cons_append, List.nil_append, List.mem_cons, List.not_mem_nil, or_false] at hs'
      rcases hs' with rfl | rfl <;> rfl) hb
    rw [hi]
    show _ - ((r.setPt b).Sr * (r.setPt b).e - r.Sr * r.e) / (1 + r.e) / dpsi = 0
    rw [sat b this, hsr]
    exact sub_self _

/-- A path with a target that is not positive fails. -/
theorem calresults_bad {q : Par} {path : List PathStep} {d w : List ℝ} (hb : ∃ s ∈ path, s.vl ≤ 0) (r : State × List (List Pt)) :
    calresults q path d w ≠ .ok r := by
  intro h
  obtain ⟨st, out⟩ := r
  obtain ⟨e, d', w', s0, g, hs0, hg', _, _⟩ := calresults_inv h
  obtain ⟨s, hs, hv⟩ := hb
  have key : ∀ (path : List PathStep) (g g' : Prog), s ∈ path → path.foldlM (calStep q) g = .ok g' → False := by
    intro path
    induction path with
    | nil => intro g g' hs _; cases hs
    | cons t path ih =>
      intro g g' hs h
      rw [List.foldlM_cons, bind_ok] at h
      obtain ⟨g1, h1, h⟩ := h
      rcases List.mem_cons.1 hs with rfl | hs
      · have := (calStep_inv h1).1
        linarith
      · exact ih g1 g' hs h
  exact key path _ g hs hg'

/-- **C206, the gap just below the water table.**  At a depth whose pore pressure exceeds `dpsi` by less than
`10**MinSuction` (or equals it), the suction target `dpsi - uw` of the partial-suction step is not positive and the
calculation of all indexes fails. -/
theorem C206_gap_fails (p : PPar) (N npp : ℕ) (dsig dpsi : ℝ) (rows : List Row)
    (hgap : ∃ r ∈ rows, 0 ≤ r.uw ∧ dpsi ≤ r.uw ∧ r.uw < dpsi + pow10 p.epus.minS) (l : List Idx) :
    compressionIndexes p N npp dsig dpsi rows ≠ .ok l := by
  intro h
  obtain ⟨r, hr, h0, h1, h2⟩ := hgap
  have hf := indexes_inv h
  have : ∃ i, ∃ a b, endPoint (withNpoint p.epus N) (sigPath (withNpoint p.epus N) npp dsig r) = .ok a ∧
      endPoint (withNpoint p.epus N) (psiPath (withNpoint p.epus N) npp dpsi r) = .ok b ∧
      i = indexRow dsig dpsi r (r.setPt a) (r.setPt b) := by
    clear h
    induction hf with
    | nil => cases hr
    | cons hh _ ih =>
      rcases List.mem_cons.1 hr with rfl | hr
      · exact ⟨_, hh⟩
      · exact ih hr
  obtain ⟨i, a, b, _, hb, _⟩ := this
  obtain ⟨st, out, _, hc, _⟩ := endPoint_inv hb
  refine calresults_bad ?_ _ hc
  have e : psiPath (withNpoint p.epus N) npp dpsi r = basePath (withNpoint p.epus N) npp r ++
      [⟨true, stOf (withNpoint p.epus N) r + r.uw, npp⟩, ⟨false, dpsi - r.uw, npp⟩] := by
    unfold psiPath
    rw [if_neg (not_lt.2 h0), if_neg]
    show ¬ pow10 p.epus.minS ≤ r.uw - dpsi
    linarith
  exact ⟨⟨false, dpsi - r.uw, npp⟩, by rw [e]; simp, by show dpsi - r.uw ≤ 0; linarith⟩

/-- **C206, an ordinary profile in the gap.**  Whenever `dpsi` equals the pore pressure one fifth of the depth spacing below
the water table, and that point lies inside the profile, the indexes of the computed profile cannot be calculated: with
the defaults `nz=10`, `gamw=10`, `dpsi=1` a profile 4.5 deep is such a case. -/
theorem C206_ordinary_profile_fails (p : PPar) (hb0 : 0 ≤ p.epus.beta) (hb1 : p.epus.beta ≤ 1) (hg : 0 < p.epus.Gs)
    (hH : 0 < p.H) (c : CalcState) (rows : List Row) (h : profileCalc p = .ok c) (hr : c.profile = some rows) (dsig dpsi : ℝ)
    (hd : 0 ≤ dpsi) (heq : p.H / ((c.nzNow.toNat : ℝ) - 1) / 5 * p.gamw = dpsi)
    (hin : 0 < p.zw + p.H / ((c.nzNow.toNat : ℝ) - 1) / 5) (hin' : p.zw + p.H / ((c.nzNow.toNat : ℝ) - 1) / 5 < p.H)
    (N npp : ℕ) (l : List Idx) : compressionIndexes p N npp dsig dpsi rows ≠ .ok l := by
  obtain ⟨h1, h2, h3⟩ := C204_profile p hb0 hb1 hg c rows h hr
  have hn : 2 ≤ c.nzNow := by
    by_contra hcon
    obtain ⟨e, he⟩ := (C203_depths p c.nzNow hH).1 (by omega)
    rw [he] at h1; simp at h1
  obtain ⟨zs, a0, a1, a2, a3, a4, a5⟩ := (C203_depths p c.nzNow hH).2 hn
  rw [h1, Except.ok.injEq] at a0
  subst a0
  have hz := (a5 (p.zw + p.H / ((c.nzNow.toNat : ℝ) - 1) / 5)).2 (Or.inr ⟨hin, hin', Or.inr (Or.inr rfl)⟩)
  obtain ⟨r, hr', hrz⟩ := List.mem_map.1 hz
  have hu : r.uw = dpsi := by
    rw [(h2 r hr').uw, hrz, ← heq]; ring
  have := pow10_pos p.epus.minS
  exact C206_gap_fails p N npp dsig dpsi rows ⟨r, hr', by rw [hu]; exact hd, hu.ge, by rw [hu]; linarith⟩ l

/-- **C206, elsewhere it succeeds.**  With parameters for which EPUS runs, `dsig` and `dpsi` positive, every depth outside the
gap and all suctions (also after adding `dpsi`) in the range, the indexes are calculated. -/
theorem C206_succeeds (p : PPar) (N npp : ℕ) (hn : 2 ≤ npp) (hq : Runs (withNpoint p.epus N)) (dsig dpsi : ℝ) (hs : 0 < dsig)
    (hd : 0 < dpsi) (rows : List Row)
    (hrow : ∀ r ∈ rows, r.ss ≤ pow10 p.epus.maxS ∧
      (r.uw < 0 → pow10 p.epus.minS ≤ r.ss + dpsi ∧ r.ss + dpsi ≤ pow10 p.epus.maxS) ∧
      (0 ≤ r.uw → pow10 p.epus.minS ≤ r.uw - dpsi ∨ (pow10 p.epus.minS ≤ dpsi - r.uw ∧ dpsi - r.uw ≤ pow10 p.epus.maxS))) :
    ∃ l, compressionIndexes p N npp dsig dpsi rows = .ok l := by
  have hst : ∀ r, 0 < stOf (withNpoint p.epus N) r := fun r => stOf_pos _ r
  obtain ⟨a, ha⟩ := mapM_total (l := rows) (f := fun r => do
    let x ← endPoint (withNpoint p.epus N) (sigPath (withNpoint p.epus N) npp dsig r)
    .ok (r.setPt x)) (by
    intro r hr
    obtain ⟨x, hx⟩ := endPoint_total hq (path := sigPath (withNpoint p.epus N) npp dsig r) (by simp [sigPath]) (by
      intro s hs'
      unfold sigPath at hs'
      rcases List.mem_append.1 hs' with h | h
      · exact basePath_in hn (hrow r hr).1 s h
      · simp only [List.mem_cons, List.not_mem_nil, or_false] at h
        subst h
        exact ⟨hn, by dsimp only; omega, by have := hst r; dsimp only; linarith, by simp⟩)
    rw [hx, ok_bind]; exact ⟨_, rfl⟩)
  obtain ⟨b, hb⟩ := mapM_total (l := rows) (f := fun r => do
    let x ← endPoint (withNpoint p.epus N) (psiPath (withNpoint p.epus N) npp dpsi r)
    .ok (r.setPt x)) (by
    intro r hr
    obtain ⟨c1, c2, c3⟩ := hrow r hr
    have hp := pow10_pos p.epus.minS
    obtain ⟨x, hx⟩ := endPoint_total hq (path := psiPath (withNpoint p.epus N) npp dpsi r) (by
      unfold psiPath; simp [basePath_ne]) (by
      intro s hs'
      unfold psiPath at hs'
      rcases List.mem_append.1 hs' with h | h
      · exact basePath_in hn c1 s h
      · split at h <;> rename_i hu
        · simp only [List.mem_cons, List.not_mem_nil, or_false] at h
          subst h
          obtain ⟨d1, d2⟩ := c2 hu
          exact ⟨hn, by dsimp only; omega, lt_of_lt_of_le hp d1, fun _ => ⟨d1, d2⟩⟩
        · split at h <;> rename_i hv
          · simp only [List.mem_cons, List.not_mem_nil, or_false] at h
            subst h
            exact ⟨hn, by dsimp only; omega, by have := hst r; dsimp only; linarith, by simp⟩
          · push Not at hu
            simp only [List.mem_cons, List.not_mem_nil, or_false] at h
            rcases c3 hu with d | ⟨d1, d2⟩
            · exact absurd d hv
            · rcases h with rfl | rfl
              · exact ⟨hn, by dsimp only; omega, by have := hst r; dsimp only; linarith, by simp⟩
              · exact ⟨hn, by dsimp only; omega, lt_of_lt_of_le hp d1, fun _ => ⟨d1, d2⟩⟩)
    rw [hx, ok_bind]; exact ⟨_, rfl⟩)
  unfold compressionIndexes
  dsimp only
  rw [ha, ok_bind, hb, ok_bind]
  exact ⟨_, rfl⟩

/-! ## C207: permeabilities -/

/-- **C207, water permeability.**  One value per depth; where the suction is at most `10**MinSuction` it is the saturated
permeability at the void ratio of that depth. -/
theorem C207_water (p : PPar) (N npp nsw : ℕ) (ksat : ℝ → ℝ) (rows : List Row) (k : List ℝ)
    (h : waterPermeability p N npp nsw ksat rows = .ok k) :
    List.Forall₂ (fun r x => (∃ kr, krRow (withNpoint p.epus N) npp nsw r = .ok kr ∧ x = ksat r.e * kr) ∧
      (r.ss ≤ pow10 p.epus.minS → x = ksat r.e)) rows k := by
  refine (mapM_f2 h).imp fun r x h => ?_
  rw [bind_ok] at h
  obtain ⟨kr, hk, h⟩ := h
  simp only [Except.ok.injEq] at h
  refine ⟨⟨kr, hk, h.symm⟩, fun hs => ?_⟩
  have hs : r.ss ≤ pow10 (withNpoint p.epus N).minS := hs
  unfold krRow at hk
  rw [if_pos hs] at hk
  simp only [Except.ok.injEq] at hk
  rw [← h, ← hk, mul_one]

/-- **C207, air permeability of a computed profile.**  For a fitting parameter `qfit > 0` and a dry permeability that is not
negative, the air permeability of every depth lies between zero and the dry permeability at its void ratio, vanishes where
the soil is saturated and equals the dry value where it is dry. -/
theorem C207_air (p : PPar) (hb0 : 0 ≤ p.epus.beta) (hb1 : p.epus.beta ≤ 1) (hg : 0 < p.epus.Gs) (c : CalcState)
    (rows : List Row) (h : profileCalc p = .ok c) (hr : c.profile = some rows) (kd : ℝ → ℝ) (hkd : ∀ e, 0 ≤ e → 0 ≤ kd e)
    (qfit : ℝ) (hq : 0 < qfit) :
    List.Forall₂ (fun r k => 0 ≤ k ∧ k ≤ kd r.e ∧ (r.Sr = 1 → k = 0) ∧ (r.Sr = 0 → k = kd r.e)) rows
      (airPermeability kd qfit rows) := by
  obtain ⟨_, hfin, _⟩ := C204_profile p hb0 hb1 hg c rows h hr
  obtain ⟨k0, k1, _, kb⟩ := Const.C102_air qfit hq
  unfold airPermeability
  rw [List.forall₂_map_right_iff]
  refine List.forall₂_same.2 fun r hr' => ?_
  have hf := hfin r hr'
  obtain ⟨a, b⟩ := kb r.Sr hf.Sr0 hf.Sr1
  have hk := hkd r.e hf.e
  refine ⟨mul_nonneg hk a, by nlinarith, fun h => by rw [h, k1, mul_zero], fun h => by rw [h, k0, mul_one]⟩

/-! ## Hypotheses met -/

/-- A profile of the documented soil: 4.5 deep, water table at depth 2, default discretisation. -/
noncomputable def docProf : PPar := ⟨docPar, 4.5, 2, 1, 10, 10, 1000, 100, [1], [1], [1], 0.01, 0.000001, 100, none⟩

theorem refined_one (n : ℕ) : refined 1 (n : ℤ) = n := by
  unfold refined pyInt
  rw [if_pos (by simp)]
  simp

theorem docProf_runs : ProfRuns docProf := by
  refine ⟨by norm_num [docProf], by norm_num [docProf], by norm_num [docProf], ?_, ?_⟩
  · show (2 : ℝ) * 10 ≤ pow10 docPar.maxS
    rw [pow10_doc.2]; norm_num
  · intro f hf
    simp only [docProf, List.zip_cons_cons, List.zip_nil_right, List.mem_cons, List.not_mem_nil, or_false] at hf
    subst hf
    have a := refined_one 10
    have b := refined_one 100
    have c := refined_one 1000
    simp only [docProf]
    push_cast at a b c
    rw [a, b, c]
    exact ⟨by norm_num, by norm_num, by norm_num, docPar_runs⟩

/-- C201-C207 on the documented soil: the calculation completes, the surface stress is the surcharge, and this ordinary
profile is in the gap, so its compression indexes cannot be calculated with the default `dpsi = 1`. -/
example : ∃ c rows, profileCalc docProf = .ok c ∧ c.profile = some rows ∧ c.niter.length = 1 ∧
    (∃ r, rows.head? = some r ∧ r.z = 0 ∧ r.st = 1) ∧ (∀ r ∈ rows, 0 < r.ss) ∧
    ∀ l, compressionIndexes docProf 1000 100 1 1 rows ≠ .ok l := by
  obtain ⟨c, hc⟩ := C201_always_completes docProf docProf_runs
  have hit := (C202_refinements docProf c hc).1
  have hprof : ∃ rows, c.profile = some rows ∧ c.nzNow = 10 ∧ c.nppNow = 100 := by
    have h := hc
    unfold profileCalc at h
    simp only [docProf, List.zip_cons_cons, List.zip_nil_right] at h
    rw [List.foldlM_cons, bind_ok] at h
    obtain ⟨c1, h1, h⟩ := h
    simp only [List.foldlM_nil, pure, Except.pure, Except.ok.injEq] at h
    subst h
    obtain ⟨_, _, r, _, _, _, _, _, _, _, rfl⟩ := refineStep_inv h1
    exact ⟨r.1, rfl, by exact_mod_cast refined_one 10, by exact_mod_cast refined_one 100⟩
  obtain ⟨rows, hr, hnz, hnpp⟩ := hprof
  refine ⟨c, rows, hc, hr, by rw [hit]; rfl, ?_, ?_, ?_⟩
  · exact (C204_in_range docProf (by norm_num [docProf, docPar]) (by norm_num [docProf, docPar]) (by norm_num [docProf, docPar])
      (by norm_num [docProf]) (by norm_num [docProf]) (by norm_num [docProf]) c rows hc hr).2.1
  · intro r hr'
    refine (C205_suction docProf ?_ c rows hc hr (by rw [hnpp]; norm_num) r hr').2
    show pow10 docPar.minS ≤ 999998
    rw [pow10_doc.1]; norm_num
  · intro l
    refine C206_ordinary_profile_fails docProf (by norm_num [docProf, docPar]) (by norm_num [docProf, docPar])
      (by norm_num [docProf, docPar]) (by norm_num [docProf]) c rows hc hr 1 1 (by norm_num) ?_ ?_ ?_ 1000 100 l <;>
    · rw [hnz, show (((10 : ℤ).toNat : ℕ) : ℝ) = 10 from by rw [show (10 : ℤ).toNat = 10 from rfl]; norm_num]; norm_num [docProf]

/-- C206_succeeds, C206_saturated: a saturated depth well below the water table. -/
example : ∃ l, compressionIndexes docProf 1000 100 1 1 [⟨4, 20, 20, 0, 60, 1, 0.37, 1, 0.5⟩] = .ok l ∧
    ∀ i ∈ l, i.m1a = 0 ∧ i.m2a = 0 ∧ i.m1w = i.m1s := by
  obtain ⟨l, hl⟩ := C206_succeeds docProf 1000 100 (by norm_num) docPar_runs 1 1 (by norm_num) (by norm_num)
    [⟨4, 20, 20, 0, 60, 1, 0.37, 1, 0.5⟩] (by
      intro r hr
      simp only [List.mem_cons, List.not_mem_nil, or_false] at hr
      subst hr
      have e1 : pow10 docProf.epus.maxS = 1000000 := pow10_doc.2
      have e2 : pow10 docProf.epus.minS = 1 / 1000 := pow10_doc.1
      rw [e1, e2]
      norm_num)
  refine ⟨l, hl, ?_⟩
  have hs := C206_saturated docProf 1000 100 (by norm_num [docProf, docPar]) 1 1 _ l hl
  have ha := (C206_additive docProf 1000 100 1 1 _ l hl).2
  cases hs with
  | cons h1 h2 =>
    cases h2
    have e2 : pow10 docProf.epus.minS = 1 / 1000 := pow10_doc.1
    rw [e2] at h1
    obtain ⟨b1, b2⟩ := h1 (by norm_num) (by norm_num)
    intro i hi
    obtain ⟨c1, c2⟩ := ha i hi
    simp only [List.mem_cons, List.not_mem_nil, or_false] at hi
    subst hi
    exact ⟨b1, b2 (by norm_num) (by norm_num), by linarith⟩

/-- C201_silent_nonconvergence: the same profile started from a constant stress of 100 with one iteration allowed. -/
example : ∃ c rows, profileCalc { docProf with maxIter := 1, initialStress := some [(0, 100), (4.5, 100)] } = .ok c ∧
    c.niter = [1] ∧ c.profile = some rows ∧ rows.head?.map (·.st) = some 1 := by
  have hp : ProfRuns { docProf with maxIter := 1, initialStress := some [(0, 100), (4.5, 100)] } :=
    ⟨docProf_runs.H, docProf_runs.gamw, by norm_num, docProf_runs.dry, docProf_runs.refine⟩
  obtain ⟨c, blank, rows, h1, h2, h3, _, _, h4⟩ := C201_silent_nonconvergence _ hp 100 rfl rfl (by norm_num [docProf]) 1 1 1 rfl rfl
    rfl (by norm_num [docProf])
  exact ⟨c, rows, h1, h2, h3, h4⟩

end Geotecha.Epus
