import Verif.Constitutive.EpusProfBase

/-! # EPUS profiles: depths, convergence, unit weight, stress, suction (C201-C205) -/

set_option autoImplicit false
set_option linter.unusedVariables false

namespace Geotecha.Epus

/-! ## C203: the depths -/

/-- Specification: the depths of a profile with `nz` regular points: the regular points, and near the water table three more
points (one fifth of the spacing apart) where they fall strictly inside the profile. -/
def IsDepth (H zw : ℝ) (nz : ℕ) (z : ℝ) : Prop :=
  (∃ i : ℕ, i < nz ∧ z = i * H / (nz - 1)) ∨
  (0 < z ∧ z < H ∧ (z = zw - H / (nz - 1) / 5 ∨ z = zw ∨ z = zw + H / (nz - 1) / 5))

/-- **C203, depths.**  The depths of a profile are strictly increasing, run from 0 to `H`, and are exactly the regular points
and the points at and beside the water table.  Fewer than two regular points are rejected. -/
theorem C203_depths (p : PPar) (nz : ℤ) (hH : 0 < p.H) :
    (nz < 2 → ∃ e, depths p nz = .error e) ∧
    (2 ≤ nz → ∃ zs, depths p nz = .ok zs ∧ zs.Pairwise (· < ·) ∧ zs.head? = some 0 ∧ zs.getLast? = some p.H ∧
      (∀ z ∈ zs, 0 ≤ z ∧ z ≤ p.H) ∧ ∀ z, z ∈ zs ↔ IsDepth p.H p.zw nz.toNat z) := by
  constructor
  · intro h
    unfold depths
    by_cases h0 : nz < 0
    · rw [if_pos h0]; exact ⟨_, rfl⟩
    · rw [if_neg h0, if_pos h]; exact ⟨_, rfl⟩
  · intro h
    unfold depths
    rw [if_neg (by omega), if_neg (by omega)]
    have hn2 : 2 ≤ nz.toNat := by omega
    generalize nz.toNat = n at hn2
    have hn : (0 : ℝ) < (n : ℝ) - 1 := by have : (2 : ℝ) ≤ n := by exact_mod_cast hn2
                                          linarith
    dsimp only
    refine ⟨_, rfl, ?_⟩
    set L := linspaceH p.H n ++ [p.zw - (p.H / ((n : ℝ) - 1) - 0) / 5, p.zw, p.zw + (p.H / ((n : ℝ) - 1) - 0) / 5].filter
      (fun z => decide (0 < z) && decide (z < p.H)) with hL
    have hmem : ∀ z, z ∈ sortUnique L ↔ z ∈ L := by intro z; simp [sortUnique]
    have hiff : ∀ z, z ∈ sortUnique L ↔ IsDepth p.H p.zw n z := by
      intro z
      rw [hmem, hL]
      simp only [linspaceH, List.mem_append, List.mem_map, List.mem_range, List.mem_filter, List.mem_cons, List.not_mem_nil,
        or_false, Bool.and_eq_true, decide_eq_true_eq, sub_zero, IsDepth]
      constructor
      · rintro (⟨i, hi, rfl⟩ | ⟨h1, h2, h3⟩)
        · exact Or.inl ⟨i, hi, by ring⟩
        · exact Or.inr ⟨h2, h3, h1⟩
      · rintro (⟨i, hi, rfl⟩ | ⟨h2, h3, h1⟩)
        · exact Or.inl ⟨i, hi, by ring⟩
        · exact Or.inr ⟨h1, h2, h3⟩
    have hb : ∀ z ∈ sortUnique L, 0 ≤ z ∧ z ≤ p.H := by
      intro z hz
      rcases (hiff z).1 hz with ⟨i, hi, rfl⟩ | ⟨h1, h2, _⟩
      · have hi' : (i : ℝ) ≤ (n : ℝ) - 1 := by
          have : (i : ℝ) + 1 ≤ n := by exact_mod_cast hi
          linarith
        refine ⟨by positivity, ?_⟩
        rw [div_le_iff₀ hn]
        nlinarith
      · exact ⟨h1.le, h2.le⟩
    have hsort : (sortUnique L).Pairwise (· < ·) := by
      unfold sortUnique
      exact Finset.sortedLT_sort _ |>.pairwise
    have h0 : (0 : ℝ) ∈ sortUnique L := (hiff 0).2 (Or.inl ⟨0, by omega, by simp⟩)
    have hHm : p.H ∈ sortUnique L := (hiff p.H).2 (Or.inl ⟨n - 1, by omega, by
      rw [Nat.cast_sub (by omega)]
      field_simp
      push_cast
      ring⟩)
    refine ⟨hsort, ?_, ?_, hb, hiff⟩
    · generalize sortUnique L = S at h0 hb hsort
      cases S with
      | nil => cases h0
      | cons a S =>
        simp only [List.head?_cons, Option.some.injEq]
        rcases List.mem_cons.1 h0 with h | h
        · exact h.symm
        · have := (List.pairwise_cons.1 hsort).1 _ h
          have := (hb a (by simp)).1
          linarith
    · generalize sortUnique L = S at hHm hb hsort
      rcases List.eq_nil_or_concat S with rfl | ⟨S, a, rfl⟩
      · cases hHm
      · simp only [List.concat_eq_append, List.getLast?_append, List.getLast?_singleton, Option.some_or, Option.some.injEq]
        simp only [List.concat_eq_append] at hHm hb hsort
        rcases List.mem_append.1 hHm with h | h
        · have := (List.pairwise_append.1 hsort).2.2 _ h a (by simp)
          have := (hb a (by simp)).2
          linarith
        · exact (by simpa using h : p.H = a).symm

/-! ## The rows of a finished calculation -/

theorem refineStep_inv {p : PPar} {c c' : CalcState} {f : ℝ × ℝ × ℝ} (h : refineStep p c f = .ok c') :
    ∃ blank rows r, blankProfile p (refined f.1 p.nz) = .ok blank ∧
      List.Forall₂ (fun b r => r = b.setSt r.st) blank rows ∧
      (c.profile = none → rows = initStress p blank) ∧
      p.maxIter ≠ 0 ∧ 0 ≤ refined f.1 p.Npoint ∧ 0 ≤ refined f.1 p.npp ∧
      iterate p (refined f.1 p.Npoint).toNat (refined f.1 p.npp).toNat p.maxIter 0 rows = .ok r ∧
      c' = ⟨some r.1, c.niter ++ [r.2 + 1], refined f.1 p.nz, refined f.1 p.Npoint, refined f.1 p.npp⟩ := by
  unfold refineStep at h
  rw [bind_ok] at h
  obtain ⟨blank, hb, h⟩ := h
  split at h
  · simp at h
  · rename_i hm
    split at h
    · simp at h
    · rename_i hneg
      push Not at hneg
      rw [bind_ok] at h
      obtain ⟨r, hr, h⟩ := h
      split at h
      · simp at h
      · simp only [Except.ok.injEq] at h
        refine ⟨blank, _, r, hb, ?_, ?_, hm, hneg.1, hneg.2, hr, h.symm⟩
        · have set_f2 : ∀ (g : Row → ℝ) (l : List Row), List.Forall₂ (fun b r => r = b.setSt r.st) l (l.map fun b => b.setSt (g b)) := by
            intro g l
            induction l with
            | nil => exact .nil
            | cons a l ih => exact .cons rfl ih
          unfold startRows
          cases c.profile with
          | none =>
            dsimp only
            unfold initStress
            cases p.initialStress with
            | none => exact set_f2 _ _
            | some pts => exact set_f2 _ _
          | some old => exact set_f2 _ _
        · intro hc; rw [hc]; rfl

/-- The last refinement of a calculation. -/
theorem profileCalc_last {p : PPar} {c : CalcState} {rows : List Row} (h : profileCalc p = .ok c) (hr : c.profile = some rows) :
    ∃ f ∈ List.zip p.nzRefine (List.zip p.NpointRefine p.nppRefine), ∃ blank rows0 j, blankProfile p (refined f.1 p.nz) = .ok blank ∧
      List.Forall₂ (fun b r => r = b.setSt r.st) blank rows0 ∧ p.maxIter ≠ 0 ∧
      iterate p (refined f.1 p.Npoint).toNat (refined f.1 p.npp).toNat p.maxIter 0 rows0 = .ok (rows, j) ∧
      c.nzNow = refined f.1 p.nz ∧ c.NpointNow = refined f.1 p.Npoint ∧ c.nppNow = refined f.1 p.npp := by
  unfold profileCalc at h
  generalize List.zip p.nzRefine (List.zip p.NpointRefine p.nppRefine) = L at h
  have key : ∀ (L M : List (ℝ × ℝ × ℝ)) (c0 c : CalcState), L.foldlM (refineStep p) c0 = .ok c →
      (∀ rows, c0.profile = some rows → ∃ f ∈ M, ∃ blank rows0 j, blankProfile p (refined f.1 p.nz) = .ok blank ∧
        List.Forall₂ (fun b r => r = b.setSt r.st) blank rows0 ∧ p.maxIter ≠ 0 ∧
        iterate p (refined f.1 p.Npoint).toNat (refined f.1 p.npp).toNat p.maxIter 0 rows0 = .ok (rows, j) ∧
        c0.nzNow = refined f.1 p.nz ∧ c0.NpointNow = refined f.1 p.Npoint ∧ c0.nppNow = refined f.1 p.npp) →
      (∀ rows, c.profile = some rows → ∃ f ∈ M ++ L, ∃ blank rows0 j, blankProfile p (refined f.1 p.nz) = .ok blank ∧
        List.Forall₂ (fun b r => r = b.setSt r.st) blank rows0 ∧ p.maxIter ≠ 0 ∧
        iterate p (refined f.1 p.Npoint).toNat (refined f.1 p.npp).toNat p.maxIter 0 rows0 = .ok (rows, j) ∧
        c.nzNow = refined f.1 p.nz ∧ c.NpointNow = refined f.1 p.Npoint ∧ c.nppNow = refined f.1 p.npp) := by
    intro L
    induction L with
    | nil =>
      intro M c0 c h hi
      simp [List.foldlM, pure, Except.pure] at h
      subst h; simpa using hi
    | cons f L ih =>
      intro M c0 c h hi
      rw [List.foldlM_cons, bind_ok] at h
      obtain ⟨c1, h1, h⟩ := h
      have := ih (M ++ [f]) c1 c h (by
        intro rows hrows
        obtain ⟨blank, rows0, r, a1, a2, _, a3, _, _, a4, rfl⟩ := refineStep_inv h1
        simp only [Option.some.injEq] at hrows
        subst hrows
        exact ⟨f, by simp, blank, rows0, r.2, a1, a2, a3, a4, rfl, rfl, rfl⟩)
      simpa using this
  have := key L [] _ c h (by simp) rows hr
  simpa using this

/-- Specification: a row of a finished profile. -/
structure Finished (p : PPar) (r : Row) : Prop where
  uw : r.uw = (r.z - p.zw) * p.gamw
  e : 0 ≤ r.e
  Sr0 : 0 ≤ r.Sr
  Sr1 : r.Sr ≤ 1
  gam : r.gam = (p.epus.Gs + r.Sr * r.e) / (1 + r.e) * p.gamw

/-- Specification: total stress at depth number `i`: the surcharge plus the trapezoidal integral of the unit weight. -/
noncomputable def totalStress (q0 : ℝ) (rows : List Row) (i : ℕ) : ℝ :=
  q0 + ∑ k ∈ Finset.range i, ((rows.map (·.z)).getD (k + 1) 0 - (rows.map (·.z)).getD k 0) *
    (((rows.map (·.gam)).getD (k + 1) 0 + (rows.map (·.gam)).getD k 0) / 2)

theorem overburden_get : ∀ (l : List Row) (s : ℝ) (r : Row) (i : ℕ), i ≤ l.length →
    (overburden s r l)[i]? = some (totalStress s (r :: l) i)
  | [], s, r, i, hi => by
    have : i = 0 := by simpa using hi
    subst this; simp [overburden, totalStress]
  | a :: l, s, r, 0, hi => by simp [overburden, totalStress]
  | a :: l, s, r, i + 1, hi => by
    simp only [overburden, List.getElem?_cons_succ]
    rw [overburden_get l _ a i (by simpa using hi)]
    simp only [totalStress, Finset.sum_range_succ', List.map_cons, List.getD_cons_succ, List.getD_cons_zero]
    congr 1
    ring

theorem stress_get (p : PPar) (rows : List Row) (i : ℕ) (r' : Row) (h : (stressFromOverburden p rows)[i]? = some r') :
    r'.st = totalStress p.q0 (stressFromOverburden p rows) i - max 0 r'.uw := by
  have hz : ∀ (rows : List Row), (stressFromOverburden p rows).map (·.z) = rows.map (·.z) ∧
      (stressFromOverburden p rows).map (·.gam) = rows.map (·.gam) := by
    intro rows
    have := stress_f2 p rows
    generalize stressFromOverburden p rows = m at this
    induction this with
    | nil => simp
    | cons h _ ih => simp only [List.map_cons]; rw [ih.1, ih.2, h]; exact ⟨rfl, rfl⟩
  have ht : totalStress p.q0 (stressFromOverburden p rows) i = totalStress p.q0 rows i := by
    unfold totalStress; rw [(hz rows).1, (hz rows).2]
  rw [ht]
  cases rows with
  | nil => simp [stressFromOverburden] at h
  | cons r l =>
    simp only [stressFromOverburden, List.getElem?_zipWith] at h
    have hlt : i ≤ l.length := by
      by_contra hcon
      rw [List.getElem?_eq_none (by simp; omega)] at h
      simp at h
    rw [overburden_get l p.q0 r i hlt] at h
    cases hx : (r :: l)[i]? with
    | none => rw [hx] at h; simp at h
    | some x =>
      rw [hx] at h
      simp only [Option.some.injEq] at h
      subst h
      show buoyant x.uw _ = _ - max 0 x.uw
      unfold buoyant
      split <;> rename_i hu
      · rw [max_eq_right hu.le]
      · rw [max_eq_left (not_lt.1 hu)]; ring

theorem depth_map {l m : List Row} {R : Row → Row → Prop} (h : List.Forall₂ R l m) (hR : ∀ a b, R a b → b.z = a.z) :
    m.map (·.z) = l.map (·.z) := by
  induction h with
  | nil => rfl
  | cons h _ ih => simp only [List.map_cons]; rw [ih, hR _ _ h]

theorem calc_rows {p : PPar} (hb0 : 0 ≤ p.epus.beta) (hb1 : p.epus.beta ≤ 1) (hg : 0 < p.epus.Gs) {c : CalcState}
    {rows : List Row} (h : profileCalc p = .ok c) (hr : c.profile = some rows) :
    depths p c.nzNow = .ok (rows.map (·.z)) ∧ (∀ r ∈ rows, Finished p r) ∧ ∃ mid, rows = stressFromOverburden p mid := by
  obtain ⟨f, hf, blank, rows0, j, h1, h2, h3, h4, h5, h6, h7⟩ := profileCalc_last h hr
  unfold blankProfile at h1
  rw [bind_ok] at h1
  obtain ⟨zs, hzs, h1⟩ := h1
  simp only [Except.ok.injEq] at h1
  have hz0 : rows0.map (·.z) = zs ∧ ∀ r ∈ rows0, r.uw = (r.z - p.zw) * p.gamw := by
    constructor
    · rw [depth_map h2 (fun a b h => by rw [h]; rfl), ← h1, List.map_map]
      conv_rhs => rw [← List.map_id zs]
      rfl
    · refine f2_mem_right h2 (P := fun b : Row => b.uw = (b.z - p.zw) * p.gamw) ?_ ?_
      · intro b hb
        rw [← h1] at hb
        obtain ⟨z, _, rfl⟩ := List.mem_map.1 hb
        rfl
      · intro b r hb hr; rw [hr]; exact hb
  obtain ⟨m, hm⟩ : ∃ m, p.maxIter = m + 1 := ⟨p.maxIter - 1, by omega⟩
  rw [hm] at h4
  have hinv := iterate_inv (fun l : List Row => l.map (·.z) = zs ∧ ∀ r ∈ l, r.uw = (r.z - p.zw) * p.gamw) (by
    rintro l l' ⟨a1, a2⟩ hs
    have := (profStep_rows hs).1
    refine ⟨by rw [depth_map this (fun a b ⟨x, h⟩ => h.2.1)]; exact a1, f2_mem_right this a2 ?_⟩
    rintro r r' hu ⟨x, _, b1, b2, _⟩
    rw [b1, b2]; exact hu) (m + 1) 0 rows0 (rows, j) hz0 h4
  obtain ⟨_, _, prev, hp, _⟩ := iterate_count m 0 rows0 (rows, j) h4
  obtain ⟨hf2, mid, hmid⟩ := profStep_rows hp
  refine ⟨by rw [h5, hzs, hinv.1], ?_, mid, hmid⟩
  have := f2_mem_right hf2 (P := fun _ => True) (Q := fun r' => 0 ≤ r'.e ∧ 0 ≤ r'.Sr ∧ r'.Sr ≤ 1 ∧
    r'.gam = (p.epus.Gs + r'.Sr * r'.e) / (1 + r'.e) * p.gamw) (fun _ _ => trivial) (by
      rintro r r' _ ⟨x, hx, _, _, _, b4, b5, b6⟩
      obtain ⟨c1, c2, c3, c4⟩ := endPoint_bounds (q := withNpoint p.epus (refined f.1 p.Npoint).toNat) hb0 hb1 hg hx
      rw [if_neg (by linarith)] at b5
      exact ⟨by rw [b4]; exact c1, by rw [b5]; exact c3, by rw [b5]; exact c4, b6⟩)
  intro r hr
  obtain ⟨d1, d2, d3, d4⟩ := this r hr
  exact ⟨hinv.2 r hr, d1, d2, d3, d4⟩

/-! ## C204: unit weight and stress -/

/-- **C204, the finished profile.**  After `calc` every depth has the hydrostatic pore pressure, saturation between 0 and 1,
a void ratio that is not negative and the unit weight `(Gs + Sr e)/(1 + e) * gamw` of these; the stress is the surcharge
plus the trapezoidal integral of that unit weight, minus the pore pressure where that is positive. -/
theorem C204_profile (p : PPar) (hb0 : 0 ≤ p.epus.beta) (hb1 : p.epus.beta ≤ 1) (hg : 0 < p.epus.Gs) (c : CalcState)
    (rows : List Row) (h : profileCalc p = .ok c) (hr : c.profile = some rows) :
    depths p c.nzNow = .ok (rows.map (·.z)) ∧ (∀ r ∈ rows, Finished p r) ∧
    ∀ i r, rows[i]? = some r → r.st = totalStress p.q0 rows i - max 0 r.uw := by
  obtain ⟨h1, h2, mid, h3⟩ := calc_rows hb0 hb1 hg h hr
  refine ⟨h1, h2, fun i r hi => ?_⟩
  rw [h3] at hi ⊢
  exact stress_get p mid i r hi

/-- The unit weight lies between that of water and that of the solids. -/
theorem density_bounds {p : PPar} (hg : 1 ≤ p.epus.Gs) (hw : 0 ≤ p.gamw) {r : Row} (h : Finished p r) :
    p.gamw * r.Sr ≤ r.gam ∧ r.gam ≤ p.epus.Gs * p.gamw ∧ (r.Sr = 1 → p.gamw ≤ r.gam) ∧ 0 ≤ r.gam := by
  have h1 : 0 < 1 + r.e := by have := h.e; linarith
  have e0 := h.e
  have s0 := h.Sr0
  have s1 := h.Sr1
  have a : r.Sr ≤ (p.epus.Gs + r.Sr * r.e) / (1 + r.e) := by
    rw [le_div_iff₀ h1]; nlinarith
  have b : (p.epus.Gs + r.Sr * r.e) / (1 + r.e) ≤ p.epus.Gs := by
    rw [div_le_iff₀ h1]; nlinarith
  rw [h.gam]
  refine ⟨by nlinarith, mul_le_mul_of_nonneg_right b hw, fun hs => ?_, mul_nonneg (s0.trans a) hw⟩
  rw [hs] at a
  rw [hs]
  nlinarith

theorem sum_bounds {lo hi : ℝ} (rows : List Row) (hs : (rows.map (·.z)).Pairwise (· < ·)) (hl : ∀ r ∈ rows, lo ≤ r.gam ∧ r.gam ≤ hi)
    (i : ℕ) (hi' : i < rows.length) (q0 : ℝ) :
    q0 + lo * ((rows.map (·.z)).getD i 0 - (rows.map (·.z)).getD 0 0) ≤ totalStress q0 rows i ∧
      totalStress q0 rows i ≤ q0 + hi * ((rows.map (·.z)).getD i 0 - (rows.map (·.z)).getD 0 0) := by
  induction i with
  | zero => simp [totalStress]
  | succ i ih =>
    obtain ⟨a, b⟩ := ih (by omega)
    have e : totalStress q0 rows (i + 1) = totalStress q0 rows i + ((rows.map (·.z)).getD (i + 1) 0 - (rows.map (·.z)).getD i 0) *
        (((rows.map (·.gam)).getD (i + 1) 0 + (rows.map (·.gam)).getD i 0) / 2) := by
      unfold totalStress; rw [Finset.sum_range_succ]; ring
    have hz : (rows.map (·.z)).getD i 0 < (rows.map (·.z)).getD (i + 1) 0 := by
      have := List.pairwise_iff_getElem.1 hs i (i + 1) (by simp; omega) (by simp; omega) (by omega)
      simp only [List.getD_eq_getElem?_getD]
      rw [List.getElem?_eq_getElem (by simp; omega), List.getElem?_eq_getElem (by simp; omega)]
      exact this
    have hgam : ∀ k, k < rows.length → lo ≤ (rows.map (·.gam)).getD k 0 ∧ (rows.map (·.gam)).getD k 0 ≤ hi := by
      intro k hk
      simp only [List.getD_eq_getElem?_getD]
      rw [List.getElem?_eq_getElem (by simpa using hk)]
      simp only [List.getElem_map, Option.getD_some]
      exact hl _ (List.getElem_mem _)
    obtain ⟨c1, c2⟩ := hgam i (by omega)
    obtain ⟨d1, d2⟩ := hgam (i + 1) hi'
    rw [e]
    constructor <;> nlinarith

/-- **C204, unit weights and stresses in range.**  For a soil with `Gs ≥ 1`: unit weights lie between 0 and `Gs gamw`, and
are at least `gamw` where the soil is saturated; the surface stress is the surcharge; and the stress never exceeds the
surcharge plus the weight of solid rock less the positive pore pressure. -/
theorem C204_in_range (p : PPar) (hb0 : 0 ≤ p.epus.beta) (hb1 : p.epus.beta ≤ 1) (hg : 1 ≤ p.epus.Gs) (hw : 0 ≤ p.gamw)
    (hH : 0 < p.H) (hzw : 0 ≤ p.zw) (c : CalcState) (rows : List Row) (h : profileCalc p = .ok c) (hr : c.profile = some rows) :
    (∀ r ∈ rows, 0 ≤ r.gam ∧ r.gam ≤ p.epus.Gs * p.gamw ∧ (r.Sr = 1 → p.gamw ≤ r.gam)) ∧
    (∃ r, rows.head? = some r ∧ r.z = 0 ∧ r.st = p.q0) ∧
    (∀ r ∈ rows, p.q0 - max 0 r.uw ≤ r.st ∧ r.st ≤ p.q0 + p.epus.Gs * p.gamw * r.z - max 0 r.uw) ∧
    ((∀ r ∈ rows, r.Sr = 1) → ∀ r ∈ rows, p.q0 + p.gamw * min r.z p.zw ≤ r.st) := by
  obtain ⟨h1, h2, h3⟩ := C204_profile p hb0 hb1 (by linarith) c rows h hr
  have hn : 2 ≤ c.nzNow := by
    by_contra hcon
    obtain ⟨e, he⟩ := (C203_depths p c.nzNow hH).1 (by omega)
    rw [he] at h1; simp at h1
  obtain ⟨zs, a0, a1, a2, a3, a4, a5⟩ := (C203_depths p c.nzNow hH).2 hn
  rw [h1, Except.ok.injEq] at a0
  subst a0
  have hd : ∀ r ∈ rows, 0 ≤ r.gam ∧ r.gam ≤ p.epus.Gs * p.gamw ∧ (r.Sr = 1 → p.gamw ≤ r.gam) := fun r hr =>
    have := density_bounds hg hw (h2 r hr); ⟨this.2.2.2, this.2.1, this.2.2.1⟩
  have hz0 : (rows.map (·.z)).getD 0 0 = 0 := by
    cases rows with
    | nil => rfl
    | cons r l => simpa using a2
  have hget : ∀ i r, rows[i]? = some r → (rows.map (·.z)).getD i 0 = r.z := by
    intro i r hi
    simp [List.getD_eq_getElem?_getD, hi]
  refine ⟨hd, ?_, ?_, ?_⟩
  · cases rows with
    | nil => simp at a2
    | cons r l =>
      have hz : r.z = 0 := by simpa using a2
      refine ⟨r, rfl, hz, ?_⟩
      rw [h3 0 r rfl, (h2 r (by simp)).uw, hz]
      rw [max_eq_left (by nlinarith)]
      simp [totalStress]
  · intro r hr'
    obtain ⟨i, hi, hri⟩ := List.getElem_of_mem hr'
    have hi' : rows[i]? = some r := by rw [List.getElem?_eq_getElem hi, hri]
    obtain ⟨b1, b2⟩ := sum_bounds rows a1 (fun r hr => ⟨(hd r hr).1, (hd r hr).2.1⟩) i hi p.q0
    rw [hz0, hget i r hi'] at b1 b2
    rw [h3 i r hi']
    constructor <;> linarith
  · intro hsat r hr'
    obtain ⟨i, hi, hri⟩ := List.getElem_of_mem hr'
    have hi' : rows[i]? = some r := by rw [List.getElem?_eq_getElem hi, hri]
    obtain ⟨b1, b2⟩ := sum_bounds rows a1 (fun r hr => ⟨(hd r hr).2.2 (hsat r hr), (hd r hr).2.1⟩) i hi p.q0
    rw [hz0, hget i r hi'] at b1
    rw [h3 i r hi', (h2 r hr').uw]
    rcases le_total r.z p.zw with hzz | hzz
    · rw [min_eq_left hzz, max_eq_left (by nlinarith)]; linarith
    · rw [min_eq_right hzz, max_eq_right (by nlinarith)]; nlinarith

/-! ## C205: the suction of the finished profile -/

theorem clampVal_le (x : ℝ) : clampVal x ≤ x := by
  unfold clampVal; split
  · linarith
  · exact le_rfl

theorem clamp_idem (x : ℝ) : clampVal (clampVal x) = clampVal x := by
  unfold clampVal
  by_cases h : 999999 ≤ x
  · rw [if_pos h, if_neg (by norm_num)]
  · rw [if_neg h, if_neg h]

theorem clamp_max {m s : ℝ} (hm : m ≤ 999998) : clampVal (max m (clampVal (max m s))) = clampVal (max m s) := by
  unfold clampVal
  by_cases h : 999999 ≤ max m s
  · rw [if_pos h, max_eq_right hm, if_neg (by norm_num)]
  · rw [if_neg h, max_eq_right (le_max_left _ _), if_neg h]

/-- **C205, the reported suction.**  The profile after `calc` does not report zero suction below the water table: every depth
gets the suction of its stress path, which is at least `10**MinSuction` (and 999998 for 999999 or more); above the water
table, at suctions in the range, it is the hydrostatic suction. -/
theorem C205_suction (p : PPar) (hm : pow10 p.epus.minS ≤ 999998) (c : CalcState) (rows : List Row)
    (h : profileCalc p = .ok c) (hr : c.profile = some rows) (hn : 2 ≤ c.nppNow) :
    ∀ r ∈ rows, r.ss = clampVal (max (pow10 p.epus.minS) ((p.zw - r.z) * p.gamw)) ∧ 0 < r.ss := by
  obtain ⟨f, hf, blank, rows0, j, h1, h2, h3, h4, h5, h6, h7⟩ := profileCalc_last h hr
  unfold blankProfile at h1
  rw [bind_ok] at h1
  obtain ⟨zs, hzs, h1⟩ := h1
  simp only [Except.ok.injEq] at h1
  have hmp := pow10_pos p.epus.minS
  rw [h7] at hn
  obtain ⟨m, hmm⟩ : ∃ m, p.maxIter = m + 1 := ⟨p.maxIter - 1, by omega⟩
  rw [hmm] at h4
  set P : Row → Prop := fun r => clampVal (max (pow10 p.epus.minS) r.ss) = clampVal (max (pow10 p.epus.minS) ((p.zw - r.z) * p.gamw))
    with hP
  have h0 : ∀ r ∈ rows0, P r := by
    refine f2_mem_right h2 (P := P) ?_ ?_
    · intro b hb
      rw [← h1] at hb
      obtain ⟨z, _, rfl⟩ := List.mem_map.1 hb
      show clampVal (max _ (if (z - p.zw) * p.gamw < 0 then -((z - p.zw) * p.gamw) else 0)) = clampVal (max _ ((p.zw - z) * p.gamw))
      congr 1
      split <;> rename_i hu
      · congr 1; ring
      · rw [max_eq_left hmp.le, max_eq_left]
        push Not at hu; linarith [show (p.zw - z) * p.gamw = -((z - p.zw) * p.gamw) by ring]
    · intro b r hb hr; rw [hr]; exact hb
  have hstep : ∀ l l' : List Row, (∀ r ∈ l, P r) →
      profStep p (refined f.1 p.Npoint).toNat (refined f.1 p.npp).toNat l = .ok l' →
      ∀ r ∈ l', r.ss = clampVal (max (pow10 p.epus.minS) ((p.zw - r.z) * p.gamw)) := by
    intro l l' hl hs
    refine f2_mem_right (profStep_rows hs).1 hl ?_
    rintro r r' hr ⟨x, hx, b1, b2, b3, _⟩
    have := (endPoint_reach hx (basePath_steps (by omega))).1
    rw [basePath_reach] at this
    rw [b3, this, b1]
    exact hr
  have hstep' : ∀ l l' : List Row, (∀ r ∈ l, P r) →
      profStep p (refined f.1 p.Npoint).toNat (refined f.1 p.npp).toNat l = .ok l' → ∀ r ∈ l', P r := by
    intro l l' hl hs r hr
    rw [hP]
    dsimp only
    rw [hstep l l' hl hs r hr, clamp_max hm]
  have key : ∀ (fuel j : ℕ) (l : List Row) (r : List Row × ℕ), (∀ r ∈ l, P r) →
      iterate p (refined f.1 p.Npoint).toNat (refined f.1 p.npp).toNat (fuel + 1) j l = .ok r →
      ∀ x ∈ r.1, x.ss = clampVal (max (pow10 p.epus.minS) ((p.zw - x.z) * p.gamw)) := by
    intro fuel
    induction fuel with
    | zero =>
      intro j l r hl hi
      unfold iterate at hi
      rw [bind_ok] at hi
      obtain ⟨l', a1, hi⟩ := hi
      have := hstep l l' hl a1
      split at hi
      · simp only [Except.ok.injEq] at hi
        subst hi; exact this
      · unfold iterate at hi
        simp only [Except.ok.injEq] at hi
        subst hi; exact this
    | succ fuel ih =>
      intro j l r hl hi
      unfold iterate at hi
      rw [bind_ok] at hi
      obtain ⟨l', a1, hi⟩ := hi
      split at hi
      · simp only [Except.ok.injEq] at hi
        subst hi; exact hstep l l' hl a1
      · exact ih (j + 1) l' r (hstep' l l' hl a1) hi
  intro r hr
  have e := key m 0 rows0 (rows, j) h0 h4 r hr
  refine ⟨e, ?_⟩
  rw [e]
  unfold clampVal
  split
  · norm_num
  · exact lt_of_lt_of_le hmp (le_max_left _ _)

/-! ## C202: refinement -/

/-- **C202, two refinement lists have no effect.**  `Npoint_refine` and `npp_refine` are documented as the refinement of the
number of pore groups and of points per step, but every number is refined by `nz_refine`: lists of the same lengths give
the same calculation. -/
theorem C202_refine_lists_ignored (p : PPar) (a b : List ℝ) (ha : a.length = p.NpointRefine.length)
    (hb : b.length = p.nppRefine.length) :
    profileCalc { p with NpointRefine := a, nppRefine := b } = profileCalc p := by
  have hstep : ∀ (c : CalcState) (f g : ℝ × ℝ × ℝ), f.1 = g.1 →
      refineStep { p with NpointRefine := a, nppRefine := b } c f = refineStep p c g := by
    intro c f g hfg
    have hit : ∀ (N n fuel j : ℕ) (rows : List Row),
        iterate { p with NpointRefine := a, nppRefine := b } N n fuel j rows = iterate p N n fuel j rows := by
      intro N n fuel
      induction fuel with
      | zero => intro j rows; rfl
      | succ fuel ih =>
        intro j rows
        unfold iterate
        simp only [ih]
        rfl
    unfold refineStep
    rw [hfg]
    simp only [hit]
    rfl
  have hfold : ∀ (l m : List (ℝ × ℝ × ℝ)), l.map (·.1) = m.map (·.1) → ∀ c,
      l.foldlM (refineStep { p with NpointRefine := a, nppRefine := b }) c = m.foldlM (refineStep p) c := by
    intro l
    induction l with
    | nil => intro m hm c; cases m with
      | nil => rfl
      | cons => simp at hm
    | cons f l ih =>
      intro m hm c
      cases m with
      | nil => simp at hm
      | cons g m =>
        simp only [List.map_cons, List.cons.injEq] at hm
        rw [List.foldlM_cons, List.foldlM_cons, hstep c f g hm.1]
        exact bind_congr fun c' => ih m hm.2 c'
  refine hfold _ _ ?_ _
  have hz : ∀ (x : List ℝ) (y : List (ℝ × ℝ)), (List.zip x y).map (·.1) = x.take y.length := by
    intro x
    induction x with
    | nil => intro y; simp
    | cons u x ih => intro y; cases y with
      | nil => simp
      | cons v y => simp [ih]
  rw [hz, hz, List.length_zip, List.length_zip, ha, hb]

/-- **C202, how many refinements.**  The number of refinements is the length of the shortest of the three lists, so lists
that are too short silently end the calculation before the final refinement. -/
theorem C202_refinements (p : PPar) (c : CalcState) (h : profileCalc p = .ok c) :
    c.niter.length = min p.nzRefine.length (min p.NpointRefine.length p.nppRefine.length) ∧
    ∀ n ∈ c.niter, 1 ≤ n ∧ n ≤ p.maxIter := by
  unfold profileCalc at h
  have key : ∀ (L : List (ℝ × ℝ × ℝ)) (c0 c : CalcState), (∀ n ∈ c0.niter, 1 ≤ n ∧ n ≤ p.maxIter) →
      L.foldlM (refineStep p) c0 = .ok c → c.niter.length = c0.niter.length + L.length ∧ ∀ n ∈ c.niter, 1 ≤ n ∧ n ≤ p.maxIter := by
    intro L
    induction L with
    | nil =>
      intro c0 c h0 h
      simp [List.foldlM, pure, Except.pure] at h
      subst h; exact ⟨rfl, h0⟩
    | cons f L ih =>
      intro c0 c h0 h
      rw [List.foldlM_cons, bind_ok] at h
      obtain ⟨c1, h1, h⟩ := h
      obtain ⟨blank, rows0, r, a1, a2, _, a3, _, _, a4, rfl⟩ := refineStep_inv h1
      obtain ⟨m, hmm⟩ : ∃ m, p.maxIter = m + 1 := ⟨p.maxIter - 1, by omega⟩
      rw [hmm] at a4
      obtain ⟨_, b2, _⟩ := iterate_count m 0 rows0 r a4
      obtain ⟨d1, d2⟩ := ih _ c (by
        intro n hn
        simp only [List.mem_append, List.mem_singleton] at hn
        rcases hn with hn | rfl
        · exact h0 n hn
        · omega) h
      refine ⟨?_, d2⟩
      have e1 : (c0.niter ++ [r.2 + 1]).length = c0.niter.length + 1 := by simp
      have e2 : (f :: L).length = L.length + 1 := rfl
      rw [e2, d1]
      show (c0.niter ++ [r.2 + 1]).length + L.length = _
      rw [e1]; ring
  have := key _ _ c (by simp) h
  simpa using this

/-! ## C201: convergence -/

/-- Specification: arguments for which every EPUS run of a profile completes. -/
structure ProfRuns (p : PPar) : Prop where
  H : 0 < p.H
  gamw : 0 ≤ p.gamw
  maxIter : p.maxIter ≠ 0
  dry : p.zw * p.gamw ≤ pow10 p.epus.maxS
  refine : ∀ f ∈ List.zip p.nzRefine (List.zip p.NpointRefine p.nppRefine), 2 ≤ refined f.1 p.nz ∧ 2 ≤ refined f.1 p.npp ∧
    0 ≤ refined f.1 p.Npoint ∧ Runs (withNpoint p.epus (refined f.1 p.Npoint).toNat)

theorem profStep_total {p : PPar} {N npp : ℕ} (hq : Runs (withNpoint p.epus N)) (hn : 2 ≤ npp) (rows : List Row)
    (hs : ∀ r ∈ rows, r.ss ≤ pow10 p.epus.maxS) :
    ∃ rows', profStep p N npp rows = .ok rows' ∧ ∀ r ∈ rows', r.ss ≤ pow10 p.epus.maxS := by
  obtain ⟨mid, hmid⟩ := mapM_total (f := epusRow (withNpoint p.epus N) npp) (l := rows) (by
    intro r hr
    obtain ⟨x, hx⟩ := endPoint_total hq (basePath_ne _ npp r) (basePath_in hn (hs r hr))
    unfold epusRow
    rw [hx, ok_bind]; exact ⟨_, rfl⟩)
  have hok : profStep p N npp rows = .ok (stressFromOverburden p (mid.map (densityRow p))) := by
    unfold profStep; rw [hmid, ok_bind]
  refine ⟨_, hok, ?_⟩
  refine f2_mem_right (profStep_rows hok).1 hs ?_
  rintro r r' hr ⟨x, hx, _, _, b3, _⟩
  have := (endPoint_reach hx (basePath_steps hn)).1
  rw [basePath_reach] at this
  rw [b3, this]
  refine (clampVal_le _).trans (max_le ?_ hr)
  have hlt : p.epus.minS < p.epus.maxS := hq.range
  exact Real.rpow_le_rpow_of_exponent_le (by norm_num) hlt.le

theorem refineStep_total {p : PPar} (hp : ProfRuns p) (c : CalcState) (f : ℝ × ℝ × ℝ)
    (hf : f ∈ List.zip p.nzRefine (List.zip p.NpointRefine p.nppRefine)) : ∃ c', refineStep p c f = .ok c' := by
  obtain ⟨h1, h2, h3, h4⟩ := hp.refine f hf
  obtain ⟨zs, a0, _, _, _, a4, _⟩ := (C203_depths p (refined f.1 p.nz) hp.H).2 h1
  unfold refineStep
  have hb : blankProfile p (refined f.1 p.nz) = .ok (zs.map (blankRow p)) := by
    unfold blankProfile; rw [a0, ok_bind]
  dsimp only
  rw [hb, ok_bind]
  rw [if_neg hp.maxIter, if_neg (by omega)]
  have hblank : ∀ r ∈ zs.map (blankRow p), r.ss ≤ pow10 p.epus.maxS := by
    intro r hr
    obtain ⟨z, hz, rfl⟩ := List.mem_map.1 hr
    show (if (z - p.zw) * p.gamw < 0 then -((z - p.zw) * p.gamw) else 0) ≤ _
    split
    · have := mul_nonneg (a4 z hz).1 hp.gamw
      have := hp.dry
      linarith [show -((z - p.zw) * p.gamw) = p.zw * p.gamw - z * p.gamw by ring]
    · exact (pow10_pos _).le
  have hset : ∀ (g : Row → ℝ), ∀ r ∈ (zs.map (blankRow p)).map (fun b => b.setSt (g b)), r.ss ≤ pow10 p.epus.maxS := by
    intro g r hr
    obtain ⟨b, hb, rfl⟩ := List.mem_map.1 hr
    exact hblank b hb
  have hrows : ∀ r ∈ startRows p c.profile (zs.map (blankRow p)),
      r.ss ≤ pow10 p.epus.maxS := by
    unfold startRows
    cases c.profile with
    | none =>
      dsimp only
      unfold initStress
      cases p.initialStress with
      | none => exact hset _
      | some pts => exact hset _
    | some old => exact hset _
  obtain ⟨r, hr, _⟩ := iterate_total (p := p) (N := (refined f.1 p.Npoint).toNat) (npp := (refined f.1 p.npp).toNat)
    (fun l => ∀ r ∈ l, r.ss ≤ pow10 p.epus.maxS) (fun rows h => profStep_total h4 (by omega) rows h) p.maxIter 0 _ hrows
  obtain ⟨m, hmm⟩ : ∃ m, p.maxIter = m + 1 := ⟨p.maxIter - 1, by have := hp.maxIter; omega⟩
  have hr' := hr
  rw [hmm] at hr'
  obtain ⟨_, b2, _⟩ := iterate_count m 0 _ r hr'
  rw [hr, ok_bind, if_neg (by omega)]
  exact ⟨_, rfl⟩

/-- **C201, `calc` always completes.**  For arguments that keep the EPUS runs in range, `calc` completes whether or not the
stresses have converged: the error "Maximum iterations reached" is never raised. -/
theorem C201_always_completes (p : PPar) (hp : ProfRuns p) : ∃ c, profileCalc p = .ok c := by
  unfold profileCalc
  have key : ∀ (L : List (ℝ × ℝ × ℝ)) (c0 : CalcState),
      (∀ f ∈ L, f ∈ List.zip p.nzRefine (List.zip p.NpointRefine p.nppRefine)) → ∃ c, L.foldlM (refineStep p) c0 = .ok c := by
    intro L
    induction L with
    | nil => intro c0 _; exact ⟨c0, rfl⟩
    | cons f L ih =>
      intro c0 hL
      obtain ⟨c1, h1⟩ := refineStep_total hp c0 f (hL f (by simp))
      rw [List.foldlM_cons, h1, ok_bind]
      exact ih c1 fun g hg => hL g (by simp [hg])
  exact key _ _ fun f hf => hf

/-- **C201, convergence is only reported by a small count.**  If the last refinement took fewer than `max_iter` iterations,
the stresses of the last two iterations agree within the tolerances; the profile is then a fixed point of one iteration to
that accuracy. -/
theorem C201_converged (p : PPar) (c : CalcState) (rows : List Row) (h : profileCalc p = .ok c) (hr : c.profile = some rows) :
    ∃ n prev, c.niter.getLast? = some n ∧ profStep p c.NpointNow.toNat c.nppNow.toNat prev = .ok rows ∧
      (n < p.maxIter → List.Forall₂ (fun a b : Row => |a.st - b.st| ≤ p.atol + p.rtol * |b.st|) prev rows) := by
  have close : ∀ {prev rows : List Row}, prev.length = rows.length →
      allclose p.atol p.rtol (prev.map (·.st)) (rows.map (·.st)) = true →
      List.Forall₂ (fun a b : Row => |a.st - b.st| ≤ p.atol + p.rtol * |b.st|) prev rows := by
    intro prev
    induction prev with
    | nil => intro rows hl _; cases rows with
      | nil => exact .nil
      | cons => simp at hl
    | cons a l ih =>
      intro rows hl hc
      cases rows with
      | nil => simp at hl
      | cons b m =>
        simp only [allclose, List.map_cons, List.zipWith_cons_cons, List.all_cons, id, Bool.and_eq_true, decide_eq_true_eq] at hc
        exact .cons hc.1 (ih (by simpa using hl) (by simpa [allclose] using hc.2))
  unfold profileCalc at h
  have key : ∀ (L : List (ℝ × ℝ × ℝ)) (c0 c : CalcState),
      (∀ rows, c0.profile = some rows → ∃ n prev, c0.niter.getLast? = some n ∧
        profStep p c0.NpointNow.toNat c0.nppNow.toNat prev = .ok rows ∧
        (n < p.maxIter → List.Forall₂ (fun a b : Row => |a.st - b.st| ≤ p.atol + p.rtol * |b.st|) prev rows)) →
      L.foldlM (refineStep p) c0 = .ok c →
      (∀ rows, c.profile = some rows → ∃ n prev, c.niter.getLast? = some n ∧
        profStep p c.NpointNow.toNat c.nppNow.toNat prev = .ok rows ∧
        (n < p.maxIter → List.Forall₂ (fun a b : Row => |a.st - b.st| ≤ p.atol + p.rtol * |b.st|) prev rows)) := by
    intro L
    induction L with
    | nil =>
      intro c0 c h0 h
      simp [List.foldlM, pure, Except.pure] at h
      subst h; exact h0
    | cons f L ih =>
      intro c0 c h0 h
      rw [List.foldlM_cons, bind_ok] at h
      obtain ⟨c1, h1, h⟩ := h
      refine ih c1 c ?_ h
      obtain ⟨blank, rows0, r, a1, a2, _, a3, _, _, a4, rfl⟩ := refineStep_inv h1
      intro rows hrows
      simp only [Option.some.injEq] at hrows
      subst hrows
      obtain ⟨m, hmm⟩ : ∃ m, p.maxIter = m + 1 := ⟨p.maxIter - 1, by omega⟩
      rw [hmm] at a4
      obtain ⟨_, b2, prev, b3, b4⟩ := iterate_count m 0 rows0 r a4
      refine ⟨r.2 + 1, prev, by simp, b3, fun hlt => close ?_ (b4 (by omega))⟩
      exact (profStep_rows b3).1.length_eq
  exact key _ _ c (by simp) h rows hr

/-- **C201, non-convergence is silent.**  Start from an initial stress whose surface value is further from the surcharge than
the tolerances and allow one iteration: the stress at the surface moves by more than the tolerances, and `calc` returns
without an error, reporting one iteration. -/
theorem C201_silent_nonconvergence (p : PPar) (hp : ProfRuns p) (s0 : ℝ) (hi : p.initialStress = some [(0, s0), (p.H, s0)])
    (hm : p.maxIter = 1) (hzw : 0 ≤ p.zw) (f g k : ℝ) (hf : p.nzRefine = [f]) (hg : p.NpointRefine = [g]) (hk : p.nppRefine = [k])
    (hfar : p.atol + p.rtol * |p.q0| < |s0 - p.q0|) :
    ∃ c blank rows, profileCalc p = .ok c ∧ c.niter = [1] ∧ c.profile = some rows ∧ blankProfile p c.nzNow = .ok blank ∧
      (initStress p blank).head?.map (·.st) = some s0 ∧ rows.head?.map (·.st) = some p.q0 := by
  have hz : List.zip p.nzRefine (List.zip p.NpointRefine p.nppRefine) = [(f, g, k)] := by rw [hf, hg, hk]; rfl
  obtain ⟨c, hc⟩ := refineStep_total hp ⟨none, [], 0, 0, 0⟩ (f, g, k) (by rw [hz]; simp)
  have hcalc : profileCalc p = .ok c := by
    unfold profileCalc; rw [hz, List.foldlM_cons, hc, ok_bind]; rfl
  obtain ⟨blank, rows0, r, a1, a2, a2', a3, _, _, a4, rfl⟩ := refineStep_inv hc
  obtain ⟨h1, _⟩ := hp.refine (f, g, k) (by rw [hz]; simp)
  obtain ⟨zs, z0, z1, z2, _, z4, _⟩ := (C203_depths p (refined f p.nz) hp.H).2 h1
  have hb : blank = zs.map (blankRow p) := by
    unfold blankProfile at a1
    rw [z0, ok_bind] at a1
    simpa using a1.symm
  have hrows0 : rows0 = initStress p blank := a2' rfl
  obtain ⟨zt, rfl⟩ : ∃ zt, zs = 0 :: zt := by
    cases zs with
    | nil => simp at z2
    | cons a l => exact ⟨l, by simp at z2; rw [z2]⟩
  rw [hm] at a4
  obtain ⟨_, b2, prev, b3, _⟩ := iterate_count 0 0 rows0 r a4
  have hj : r.2 = 0 := by omega
  have hstep : profStep p (refined f p.Npoint).toNat (refined f p.npp).toNat rows0 = .ok r.1 := by
    have h := a4
    unfold iterate at h
    rw [bind_ok] at h
    obtain ⟨l', c1, h⟩ := h
    split at h
    · simp only [Except.ok.injEq] at h
      rw [← h]; exact c1
    · unfold iterate at h
      simp only [Except.ok.injEq] at h
      rw [← h]; exact c1
  refine ⟨_, blank, r.1, hcalc, by simp [hj], rfl, a1, ?_, ?_⟩
  · rw [hb]
    unfold initStress
    rw [hi]
    simp only [List.map_cons, List.head?_cons, Option.map_some, Option.some.injEq]
    show Const.npInterp 0 [(0, s0), (p.H, s0)] = s0
    simp [Const.npInterp, hp.H]
  · obtain ⟨hf2, mid, hmid⟩ := profStep_rows hstep
    have hne : r.1 ≠ [] := by
      intro h
      have := hf2.length_eq
      rw [hrows0, hb, h] at this
      unfold initStress at this
      rw [hi] at this
      simp at this
    obtain ⟨x, l, hx⟩ := List.exists_cons_of_ne_nil hne
    have hst := stress_get p mid 0 x (by rw [← hmid, hx]; rfl)
    have huw : x.uw ≤ 0 := by
      rw [hx, hrows0, hb] at hf2
      unfold initStress at hf2
      rw [hi] at hf2
      simp only [List.map_cons] at hf2
      obtain ⟨⟨y, _, _, e2, _⟩, _⟩ := List.forall₂_cons.1 hf2
      rw [e2]
      show (0 - p.zw) * p.gamw ≤ 0
      have := hp.gamw
      nlinarith
    rw [hx]
    simp only [List.head?_cons, Option.map_some, Option.some.injEq]
    rw [hst, max_eq_left huw]
    simp [totalStress]

end Geotecha.Epus
