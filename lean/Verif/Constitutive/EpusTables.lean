import Verif.Constitutive.EpusOut

/-!
# The reference saturation tables of the EPUS model, and reproducibility of `Calresults`
-/

set_option autoImplicit false
set_option linter.unusedVariables false

namespace Geotecha.Epus

theorem foldlM_range_inv {β : Type} {f : β → ℕ → Except PyErr β} (P : ℕ → β → Prop) (n : ℕ)
    (hs : ∀ i b b', i < n → P i b → f b i = .ok b' → P (i + 1) b') (b b' : β) (hb : P 0 b)
    (h : (List.range n).foldlM f b = .ok b') : P n b' := by
  induction n generalizing b' with
  | zero => simp [pure, Except.pure] at h; subst h; exact hb
  | succ n ih =>
    rw [List.range_succ, List.foldlM_append, bind_ok] at h
    obtain ⟨c, hc, h⟩ := h
    simp only [List.foldlM_cons, List.foldlM_nil] at h
    rw [bind_ok] at h
    obtain ⟨c', hc', h⟩ := h
    simp only [pure, Except.pure, Except.ok.injEq] at h
    subst h
    exact hs n c c' (by omega) (ih (fun i b b' hi => hs i b b' (by omega)) c hc) hc'

theorem filled_bounds {f : List Pore} (h : ∀ q ∈ f, 0 ≤ q.RVC) : 0 ≤ filledVoids f ∧ filledVoids f ≤ voids f := by
  unfold filledVoids voids
  induction f with
  | nil => simp
  | cons q f ih =>
    obtain ⟨i1, i2⟩ := ih fun q hq => h q (by simp [hq])
    have hq := h q (by simp)
    simp only [List.map_cons, List.sum_cons]
    split <;> constructor <;> linarith

theorem filled_gs {p : Par} (hg : p.Gs ≠ 0) (f : List Pore) :
    (f.map fun q => if q.Filled then q.RVC / p.Gs else 0).sum * p.Gs = filledVoids f := by
  unfold filledVoids
  induction f with
  | nil => simp
  | cons q f ih =>
    simp only [List.map_cons, List.sum_cons, add_mul, ih]
    congr 1
    split
    · exact div_mul_cancel₀ _ hg
    · exact zero_mul _

theorem ratio_bounds {f : List Pore} (h : ∀ q ∈ f, 0 ≤ q.RVC) :
    0 ≤ filledVoids f / voids f ∧ filledVoids f / voids f ≤ 1 := by
  obtain ⟨h1, h2⟩ := filled_bounds h
  exact ⟨div_nonneg h1 (h1.trans h2), div_le_one_of_le₀ h2 (h1.trans h2)⟩

theorem srDryStep_inv {p : Par} {st st' : State} {i : ℕ} (h : srDryStep p st i = .ok st') :
    ∃ s1, drying p (pow10 ((p.maxS - p.minS) / p.numSr * i + p.minS)) st = .ok s1 ∧ st'.f = s1.f ∧
      st'.Srdry = st.Srdry.set i (filledVoids s1.f / voids s1.f) ∧ st'.Srwet = st.Srwet := by
  unfold srDryStep at h
  rw [bind_ok] at h
  obtain ⟨s1, h1, h⟩ := h
  cases h
  obtain ⟨_, _, _, _, _, h6, h7⟩ := drying_inv h1
  exact ⟨s1, h1, rfl, by rw [h6], h7⟩

theorem srWetStep_inv {p : Par} (hg : p.Gs ≠ 0) {st st' : State} {i : ℕ} (h : srWetStep p st i = .ok st') :
    ∃ s1, wetting p (pow10 (p.maxS - (p.maxS - p.minS) / p.numSr * i)) st = .ok s1 ∧ st'.f = s1.f ∧
      st'.Srwet = st.Srwet.set (p.numSr - 1 - i) (filledVoids s1.f / voids s1.f) ∧ st'.Srdry = st.Srdry := by
  unfold srWetStep at h
  rw [bind_ok] at h
  obtain ⟨s1, h1, h⟩ := h
  cases h
  obtain ⟨_, _, _, _, _, h6, h7⟩ := wetting_inv h1
  refine ⟨s1, h1, rfl, ?_, h6⟩
  show s1.Srwet.set _ _ = _
  rw [h7, filled_gs hg]

/-- **C196, the tables are saturations.**  Whatever the tables contained before, after `DegreeofsaturationSWCC` both have
their `NumSr` entries and every entry lies between 0 and 1. -/
theorem C196_tables_in_range (p : Par) (hg : p.Gs ≠ 0) (e : Bool) (d w : List ℝ) (hd : d.length = p.numSr)
    (hw : w.length = p.numSr) (st : State) (h : degreeSat p e d w = .ok st) :
    st.Srdry.length = p.numSr ∧ st.Srwet.length = p.numSr ∧ (∀ r ∈ st.Srdry, 0 ≤ r ∧ r ≤ 1) ∧
      ∀ r ∈ st.Srwet, 0 ≤ r ∧ r ≤ 1 := by
  unfold degreeSat at h
  rw [bind_ok] at h
  obtain ⟨s0, h0, h⟩ := h
  rw [bind_ok] at h
  obtain ⟨s1, h1, h2⟩ := h
  have hs0 := (slurry_inv h0).1
  have hpre : PreOk s0 := by
    rw [hs0]; intro q hq
    simp only [List.mem_map] at hq
    obtain ⟨i, _, rfl⟩ := hq
    exact Or.inl rfl
  have k1 := foldlM_range_inv (fun i (s : State) => PreOk s ∧ s.Srdry.length = p.numSr ∧ s.Srwet.length = p.numSr ∧
      ∀ k (hk : k < s.Srdry.length), k < i → 0 ≤ s.Srdry[k] ∧ s.Srdry[k] ≤ 1) p.numSr (by
    rintro i s s' hi ⟨a1, a2, a3, a4⟩ hs
    obtain ⟨t, ht, hf, hsd, hsw⟩ := srDryStep_inv hs
    have hv := op_volumes (o := .dry _) a1 ht
    refine ⟨fun q hq => Or.inr (hv q (hf ▸ hq)), by rw [hsd, List.length_set, a2], by rw [hsw, a3], ?_⟩
    intro k hk hki
    simp only [hsd, List.getElem_set]
    split
    · exact ratio_bounds hv
    · exact a4 k _ (by omega)) s0 s1 ⟨hpre, by rw [hs0]; exact hd, by rw [hs0]; exact hw, by intro k hk h; omega⟩ h1
  have k2 := foldlM_range_inv (fun i (s : State) => PreOk s ∧ s.Srdry = s1.Srdry ∧ s.Srwet.length = p.numSr ∧
      ∀ k (hk : k < s.Srwet.length), p.numSr - i ≤ k → 0 ≤ s.Srwet[k] ∧ s.Srwet[k] ≤ 1) p.numSr (by
    rintro i s s' hi ⟨a1, a2, a3, a4⟩ hs
    obtain ⟨t, ht, hf, hsw, hsd⟩ := srWetStep_inv hg hs
    have hv := op_volumes (o := .wet _) a1 ht
    refine ⟨fun q hq => Or.inr (hv q (hf ▸ hq)), by rw [hsd, a2], by rw [hsw, List.length_set, a3], ?_⟩
    intro k hk hki
    simp only [hsw, List.getElem_set]
    split
    · exact ratio_bounds hv
    · exact a4 k _ (by omega)) s1 st ⟨k1.1, rfl, k1.2.2.1, by intro k hk h; omega⟩ h2
  refine ⟨by rw [k2.2.1, k1.2.1], k2.2.2.1, ?_, ?_⟩
  · intro r hr
    rw [k2.2.1] at hr
    obtain ⟨k, hk, rfl⟩ := List.getElem_of_mem hr
    exact k1.2.2.2 k hk (by rw [k1.2.1] at hk; exact hk)
  · intro r hr
    obtain ⟨k, hk, rfl⟩ := List.getElem_of_mem hr
    exact k2.2.2.2 k hk (by omega)

/-- The position `RfSr_value` computes for a suction `10**l`. -/
theorem rfSr_pos (p : Par) (tab : List ℝ) (l : ℝ) (hn : 2 ≤ p.numSr) (hr : p.minS < p.maxS) :
    rfSr p tab (pow10 l) = pyGet tab (pyInt ((l - p.minS) / ((p.maxS - p.minS) / ((p.numSr : ℝ) - 1)))) := by
  have hn' : (2 : ℝ) ≤ p.numSr := by exact_mod_cast hn
  unfold rfSr
  rw [log10_pos (pow10_pos _), ok_bind, if_neg (by linarith),
    if_neg (div_pos (by linarith) (by linarith) : 0 < (p.maxS - p.minS) / ((p.numSr : ℝ) - 1)).ne', logb_pow10]

theorem pyInt_of {x : ℝ} {k : ℕ} (h1 : (k : ℝ) ≤ x) (h2 : x < k + 1) : pyInt x = (k : ℤ) := by
  unfold pyInt
  rw [if_pos (le_trans (Nat.cast_nonneg k) h1), Int.floor_eq_iff]
  exact ⟨by exact_mod_cast h1, by exact_mod_cast h2⟩

/-- **C196, the drying table is read one entry off.**  At the suction where entry `i ≥ 1` of the drying table was computed,
`RfSr_value` returns entry `i - 1`: the table is built with `NumSr` intervals and read with `NumSr - 1`. -/
theorem C196_dry_lookup_off_by_one (p : Par) (tab : List ℝ) (hn : 2 ≤ p.numSr) (hr : p.minS < p.maxS)
    (hl : tab.length = p.numSr) (i : ℕ) (h1 : 1 ≤ i) (hi : i < tab.length) :
    rfSr p tab (pow10 ((p.maxS - p.minS) / p.numSr * i + p.minS)) = .ok tab[i - 1] := by
  have hn' : (2 : ℝ) ≤ p.numSr := by exact_mod_cast hn
  have hi' : (i : ℝ) < p.numSr := by rw [← hl]; exact_mod_cast hi
  have h1' : (1 : ℝ) ≤ i := by exact_mod_cast h1
  have hpos : (((p.maxS - p.minS) / p.numSr * i + p.minS) - p.minS) / ((p.maxS - p.minS) / ((p.numSr : ℝ) - 1)) =
      i - i / p.numSr := by
    have a1 : p.maxS - p.minS ≠ 0 := by linarith
    have a2 : (p.numSr : ℝ) ≠ 0 := by linarith
    have a3 : (p.numSr : ℝ) - 1 ≠ 0 := by linarith
    field_simp
    ring
  rw [rfSr_pos p tab _ hn hr, hpos, pyInt_of (k := i - 1), pyGet_nat tab (i - 1) (by omega)]
  · rw [Nat.cast_sub h1, Nat.cast_one]
    have : (i : ℝ) / p.numSr ≤ 1 := div_le_one_of_le₀ hi'.le (by linarith)
    linarith
  · rw [Nat.cast_sub h1, Nat.cast_one]
    have : 0 < (i : ℝ) / p.numSr := div_pos (by linarith) (by linarith)
    linarith

/-- **C196, the wetting table is read back exactly** at the suctions where it was computed. -/
theorem C196_wet_lookup_exact (p : Par) (tab : List ℝ) (hn : 2 ≤ p.numSr) (hr : p.minS < p.maxS)
    (hl : tab.length = p.numSr) (i : ℕ) (hi : i < p.numSr) :
    rfSr p tab (pow10 (p.maxS - (p.maxS - p.minS) / p.numSr * i)) = .ok (tab[p.numSr - 1 - i]'(by omega)) := by
  have hn' : (2 : ℝ) ≤ p.numSr := by exact_mod_cast hn
  have hi' : (i : ℝ) + 1 ≤ p.numSr := by exact_mod_cast hi
  have hi0 : (0 : ℝ) ≤ i := Nat.cast_nonneg i
  have hpos : ((p.maxS - (p.maxS - p.minS) / p.numSr * i) - p.minS) / ((p.maxS - p.minS) / ((p.numSr : ℝ) - 1)) =
      (p.numSr - 1 - i) + i / p.numSr := by
    have a1 : p.maxS - p.minS ≠ 0 := by linarith
    have a2 : (p.numSr : ℝ) ≠ 0 := by linarith
    have a3 : (p.numSr : ℝ) - 1 ≠ 0 := by linarith
    field_simp
    ring
  have hc : ((p.numSr - 1 - i : ℕ) : ℝ) = (p.numSr : ℝ) - 1 - i := by
    rw [Nat.cast_sub (by omega), Nat.cast_sub (by omega), Nat.cast_one]
  rw [rfSr_pos p tab _ hn hr, hpos, pyInt_of (k := p.numSr - 1 - i), pyGet_nat tab _ (by omega)]
  · rw [hc]
    have : 0 ≤ (i : ℝ) / p.numSr := div_nonneg hi0 (by linarith)
    linarith
  · rw [hc]
    have : (i : ℝ) / p.numSr < 1 := (div_lt_one (by linarith)).2 (by linarith)
    linarith

/-- **C196, outside the range.**  Above the tabulated range by one table step or more the lookup raises IndexError; below it
by `k ≥ 1` whole steps it silently reads the `k`-th entry from the *other* end of the table. -/
theorem C196_lookup_outside (p : Par) (tab : List ℝ) (hn : 2 ≤ p.numSr) (hr : p.minS < p.maxS)
    (hl : tab.length = p.numSr) (l : ℝ) :
    ((p.numSr : ℝ) ≤ (l - p.minS) / ((p.maxS - p.minS) / ((p.numSr : ℝ) - 1)) →
      rfSr p tab (pow10 l) = .error .indexError) ∧
    (∀ (k : ℕ) (hk1 : 1 ≤ k) (hk : k ≤ p.numSr),
      -(k + 1 : ℝ) < (l - p.minS) / ((p.maxS - p.minS) / ((p.numSr : ℝ) - 1)) →
      (l - p.minS) / ((p.maxS - p.minS) / ((p.numSr : ℝ) - 1)) ≤ -k →
      rfSr p tab (pow10 l) = .ok (tab[p.numSr - k]'(by omega))) := by
  rw [rfSr_pos p tab _ hn hr]
  refine ⟨fun h => ?_, fun k hk1 hk h1 h2 => ?_⟩
  · have hx0 : 0 ≤ (l - p.minS) / ((p.maxS - p.minS) / ((p.numSr : ℝ) - 1)) := le_trans (Nat.cast_nonneg _) h
    unfold pyInt pyGet
    rw [if_pos hx0]
    have hfl : (p.numSr : ℤ) ≤ ⌊(l - p.minS) / ((p.maxS - p.minS) / ((p.numSr : ℝ) - 1))⌋ := Int.le_floor.2 (by exact_mod_cast h)
    rw [if_pos (by omega), List.getElem?_eq_none (by omega)]
  · have hk' : (1 : ℝ) ≤ k := by exact_mod_cast hk1
    have hx : ¬ 0 ≤ (l - p.minS) / ((p.maxS - p.minS) / ((p.numSr : ℝ) - 1)) := by linarith
    have hce : ⌈(l - p.minS) / ((p.maxS - p.minS) / ((p.numSr : ℝ) - 1))⌉ = -(k : ℤ) := by
      rw [Int.ceil_eq_iff]
      push_cast
      exact ⟨by linarith, h2⟩
    unfold pyInt pyGet
    rw [if_neg hx, hce, if_neg (by omega), if_pos (by omega)]
    have hkk : (- -(k : ℤ)).toNat = k := by omega
    simp only [hkk, hl]
    rw [List.getElem?_eq_getElem (by omega)]

/-- **C196, reference saturation.**  The reference saturation and the branch after drying: on the drying branch it follows
the drying table; off it, it is the smaller of itself and the table value, and the branch is drying again exactly when the
table value is smaller. -/
theorem C196_drying_reference (p : Par) (ss : ℝ) (st st' : State) (hc : st.Curveon ∈ [1, 2, 3])
    (h : drying p ss st = .ok st') : ∃ r, rfSr p st.Srdry ss = .ok r ∧ st'.Curveon ∈ [1, 2, 3] ∧
      (st.Curveon = 1 → st'.RefSr = r ∧ st'.Curveon = 1) ∧
      (st.Curveon ≠ 1 → st'.RefSr = min st.RefSr r ∧ (st'.Curveon = 1 ↔ r < st.RefSr) ∧ st'.Curveon ≠ 3) := by
  have h := (drying_inv h).2.2.2.1
  unfold dryRef at h
  split at h <;> rename_i h1
  · rw [bind_ok] at h
    obtain ⟨r, hr, h⟩ := h
    simp only [Except.ok.injEq, Prod.mk.injEq] at h
    refine ⟨r, hr, by simp [← h.1], fun _ => ⟨h.2.symm, h.1.symm⟩, fun hn => absurd h1 hn⟩
  · split at h <;> rename_i h2
    · rw [bind_ok] at h
      obtain ⟨r, hr, h⟩ := h
      refine ⟨r, hr, ?_⟩
      split at h <;> rename_i hle
      · simp only [Except.ok.injEq, Prod.mk.injEq] at h
        exact ⟨by simp [← h.1], fun h' => absurd h' h1, fun _ => ⟨by rw [← h.2, min_eq_left hle], by simp [← h.1, hle],
          by simp [← h.1]⟩⟩
      · simp only [Except.ok.injEq, Prod.mk.injEq] at h
        exact ⟨by simp [← h.1], fun h' => absurd h' h1, fun _ => ⟨by rw [← h.2, min_eq_right (not_le.1 hle).le],
          by simp [← h.1, not_le.1 hle], by simp [← h.1]⟩⟩
    · simp at hc; omega

/-- **C196, reference saturation after wetting**: the mirror image with the larger of the two values. -/
theorem C196_wetting_reference (p : Par) (ss : ℝ) (st st' : State) (hc : st.Curveon ∈ [1, 2, 3])
    (h : wetting p ss st = .ok st') : ∃ r, rfSr p st.Srwet ss = .ok r ∧ st'.Curveon ∈ [1, 2, 3] ∧
      (st.Curveon = 3 → st'.RefSr = r ∧ st'.Curveon = 3) ∧
      (st.Curveon ≠ 3 → st'.RefSr = max st.RefSr r ∧ (st'.Curveon = 3 ↔ st.RefSr < r) ∧ st'.Curveon ≠ 1) := by
  have h := (wetting_inv h).2.2.2.1
  unfold wetRef at h
  split at h <;> rename_i h1
  · rw [bind_ok] at h
    obtain ⟨r, hr, h⟩ := h
    refine ⟨r, hr, ?_⟩
    split at h <;> rename_i hle
    · simp only [Except.ok.injEq, Prod.mk.injEq] at h
      exact ⟨by simp [← h.1], fun h' => by omega, fun _ => ⟨by rw [← h.2, max_eq_left hle], by simp [← h.1, hle],
        by simp [← h.1]⟩⟩
    · simp only [Except.ok.injEq, Prod.mk.injEq] at h
      exact ⟨by simp [← h.1], fun h' => by omega, fun _ => ⟨by rw [← h.2, max_eq_right (not_le.1 hle).le],
        by simp [← h.1, not_le.1 hle], by simp [← h.1]⟩⟩
  · split at h <;> rename_i h2
    · rw [bind_ok] at h
      obtain ⟨r, hr, h⟩ := h
      simp only [Except.ok.injEq, Prod.mk.injEq] at h
      exact ⟨r, hr, by simp [← h.1], fun _ => ⟨h.2.symm, h.1.symm⟩, fun hn => absurd h2 hn⟩
    · simp at hc; omega

theorem pyGet_mem {l : List ℝ} {i : ℤ} {v : ℝ} (h : pyGet l i = .ok v) : v ∈ l := by
  unfold pyGet at h
  split at h
  · split at h
    · rename_i hv; cases h; exact List.mem_of_getElem? hv
    · cases h
  · split at h
    · split at h
      · rename_i hv; cases h; exact List.mem_of_getElem? hv
      · cases h
    · cases h

theorem rfSr_mem {p : Par} {l : List ℝ} {ss v : ℝ} (h : rfSr p l ss = .ok v) : v ∈ l := by
  unfold rfSr at h
  rw [bind_ok] at h
  obtain ⟨_, _, h⟩ := h
  split at h
  · cases h
  split at h
  · cases h
  exact pyGet_mem h

/-- **C196, histories.**  With tables of saturations, the reference saturation stays between 0 and 1 and the branch stays
one of drying, scanning, wetting, along every history. -/
theorem C196_reference_in_range (p : Par) (ops : List Op) (st st' : State) (hc : st.Curveon ∈ [1, 2, 3])
    (h0 : 0 ≤ st.RefSr ∧ st.RefSr ≤ 1) (hd : ∀ r ∈ st.Srdry, 0 ≤ r ∧ r ≤ 1) (hw : ∀ r ∈ st.Srwet, 0 ≤ r ∧ r ≤ 1)
    (h : runOps p ops st = .ok st') : st'.Curveon ∈ [1, 2, 3] ∧ 0 ≤ st'.RefSr ∧ st'.RefSr ≤ 1 := by
  have := foldlM_inv (fun s : State => (s.Curveon ∈ [1, 2, 3] ∧ 0 ≤ s.RefSr ∧ s.RefSr ≤ 1) ∧ s.Srdry = st.Srdry ∧
    s.Srwet = st.Srwet) (by
    rintro b o b' ⟨⟨a1, a2, a3⟩, a4, a5⟩ ho
    obtain ⟨_, t1, t2, _⟩ := op_evolves ho
    refine ⟨?_, t1.trans a4, t2.trans a5⟩
    cases o with
    | dry ss =>
      obtain ⟨r, hr, k1, k2, k3⟩ := C196_drying_reference p ss b b' a1 ho
      have hb := hd r (a4 ▸ rfSr_mem hr)
      refine ⟨k1, ?_⟩
      by_cases hb1 : b.Curveon = 1
      · rw [(k2 hb1).1]; exact hb
      · rw [(k3 hb1).1]; exact ⟨le_min a2 hb.1, (min_le_left _ _).trans a3⟩
    | wet ss =>
      obtain ⟨r, hr, k1, k2, k3⟩ := C196_wetting_reference p ss b b' a1 ho
      have hb := hw r (a5 ▸ rfSr_mem hr)
      refine ⟨k1, ?_⟩
      by_cases hb1 : b.Curveon = 3
      · rw [(k2 hb1).1]; exact hb
      · rw [(k3 hb1).1]; exact ⟨a2.trans (le_max_left _ _), max_le a3 hb.2⟩
    | load x =>
      obtain ⟨_, _, _, k1, k2, _⟩ := loading_inv ho
      rw [k1, k2]; exact ⟨a1, a2, a3⟩
    | unload x =>
      obtain ⟨_, _, _, k1, k2, _⟩ := unloading_inv ho
      rw [k1, k2]; exact ⟨a1, a2, a3⟩) ops st st' ⟨⟨hc, h0⟩, rfl, rfl⟩ h
  exact this.1

end Geotecha.Epus
