import Verif.Constitutive.EpusRepro

/-!
# `Calresults` succeeds on every stress path inside the suction range
-/

set_option autoImplicit false
set_option linter.unusedVariables false

namespace Geotecha.Epus

/-- Specification: parameters `Calresults` can run with.  `temp2` must not vanish at any tabulated air entry value. -/
structure Runs (p : Par) : Prop where
  b : p.b ≠ 0
  logRS : p.logRS ≠ 0
  Ccs : p.Ccs ≠ 0
  K0 : 0 < 2 * p.K0 + 1
  numSr : 2 ≤ p.numSr
  range : p.minS < p.maxS
  temp2 : ∀ i < p.npoint, p.wsat * p.Gs - p.Ccs * (i * ((p.maxS - p.minS) / p.npoint) + p.minS) - p.wr * p.Gs ≠ 0

/-- Specification: a step of a stress path that stays inside the suction range. -/
def StepIn (p : Par) (s : PathStep) : Prop :=
  s.npp ≠ 1 ∧ 0 < s.vl ∧ (s.ist = false → pow10 p.minS ≤ s.vl ∧ s.vl ≤ pow10 p.maxS)

theorem slurry_total {p : Par} (hp : Runs p) (e : Bool) {d w : List ℝ} (hd : d.length = p.numSr) (hw : w.length = p.numSr) :
    ∃ st, slurry p e d w = .ok st ∧ Valid p st := by
  have h1 : ∃ f, dryPoreSize p = .ok f := by
    unfold dryPoreSize
    split
    · exact ⟨_, rfl⟩
    · rw [if_neg (by rintro (h | h | h); exacts [hp.Ccs h, hp.logRS h, hp.b h])]; exact ⟨_, rfl⟩
  obtain ⟨f, hf⟩ := h1
  refine ⟨⟨(List.range p.npoint).map (slurryRow p), pow10 p.minS, pow10 p.minS / 1000, 1, 1, e, d, w⟩,
    by unfold slurry; rw [hf, ok_bind], hp.b, hp.numSr, hp.range, hd, hw, pow10_pos _,
    div_pos (pow10_pos _) (by norm_num), ?_⟩
  intro q hq
  simp only [List.mem_map, List.mem_range] at hq
  obtain ⟨i, hi, rfl⟩ := hq
  exact ⟨by show (0 : ℝ) < 0.0001; norm_num, hp.temp2 i hi⟩

theorem foldlM_range_total {β : Type} {f : β → ℕ → Except PyErr β} (P : β → Prop) (n : ℕ)
    (hs : ∀ i b, i < n → P b → ∃ b', f b i = .ok b' ∧ P b') (b : β) (hb : P b) :
    ∃ b', (List.range n).foldlM f b = .ok b' ∧ P b' := by
  induction n with
  | zero => exact ⟨b, rfl, hb⟩
  | succ n ih =>
    obtain ⟨c, hc, hP⟩ := ih fun i b hi => hs i b (by omega)
    obtain ⟨c', hc', hP'⟩ := hs n c (by omega) hP
    refine ⟨c', ?_, hP'⟩
    rw [List.range_succ, List.foldlM_append, hc, ok_bind]
    simp only [List.foldlM_cons, List.foldlM_nil, hc']
    rfl

theorem pow10_mono {x y : ℝ} (h : x ≤ y) : pow10 x ≤ pow10 y := Real.rpow_le_rpow_of_exponent_le (by norm_num) h

theorem degreeSat_total {p : Par} (hp : Runs p) (e : Bool) {d w : List ℝ} (hd : d.length = p.numSr) (hw : w.length = p.numSr) :
    ∃ st, degreeSat p e d w = .ok st ∧ Valid p st := by
  obtain ⟨s0, h0, v0⟩ := slurry_total hp e hd hw
  have hn : (0 : ℝ) < p.numSr := by have := hp.numSr; exact_mod_cast (by omega : 0 < p.numSr)
  have hI : 0 < (p.maxS - p.minS) / p.numSr := div_pos (by linarith [hp.range]) hn
  have hIn : (p.maxS - p.minS) / p.numSr * p.numSr = p.maxS - p.minS := div_mul_cancel₀ _ hn.ne'
  have bnd : ∀ i < p.numSr, 0 ≤ (p.maxS - p.minS) / p.numSr * i ∧ (p.maxS - p.minS) / p.numSr * i ≤ p.maxS - p.minS := by
    intro i hi
    have : (i : ℝ) ≤ p.numSr := by exact_mod_cast hi.le
    exact ⟨mul_nonneg hI.le (Nat.cast_nonneg _), (mul_le_mul_of_nonneg_left this hI.le).trans hIn.le⟩
  obtain ⟨s1, h1, v1⟩ := foldlM_range_total (f := srDryStep p) (Valid p) p.numSr (by
    intro i s hi hv
    obtain ⟨b1, b2⟩ := bnd i hi
    obtain ⟨t, ht, vt⟩ := op_total (o := .dry (pow10 ((p.maxS - p.minS) / p.numSr * i + p.minS))) hv
      ⟨pow10_mono (by linarith), pow10_mono (by linarith)⟩
    have ht' : drying p (pow10 ((p.maxS - p.minS) / p.numSr * i + p.minS)) s = .ok t := ht
    unfold srDryStep
    rw [ht', ok_bind]
    exact ⟨_, rfl, vt.b, vt.numSr, vt.range, by simp [vt.dryLen], vt.wetLen, vt.suction, vt.stress, vt.pores⟩) s0 v0
  obtain ⟨s2, h2, v2⟩ := foldlM_range_total (f := srWetStep p) (Valid p) p.numSr (by
    intro i s hi hv
    obtain ⟨b1, b2⟩ := bnd i hi
    obtain ⟨t, ht, vt⟩ := op_total (o := .wet (pow10 (p.maxS - (p.maxS - p.minS) / p.numSr * i))) hv
      ⟨pow10_mono (by linarith), pow10_mono (by linarith)⟩
    have ht' : wetting p (pow10 (p.maxS - (p.maxS - p.minS) / p.numSr * i)) s = .ok t := ht
    unfold srWetStep
    rw [ht', ok_bind]
    exact ⟨_, rfl, vt.b, vt.numSr, vt.range, vt.dryLen, by simp [vt.wetLen], vt.suction, vt.stress, vt.pores⟩) s1 v1
  exact ⟨s2, by unfold degreeSat; rw [h0, ok_bind, h1, ok_bind, h2], v2⟩

theorem pathValue_between {c v A B : ℝ} {n j : ℕ} (hc : pow10 A ≤ c) (hc' : c ≤ pow10 B) (hv : pow10 A ≤ v)
    (hv' : v ≤ pow10 B) (hn : n ≠ 1) (hj : j < n) : pow10 A ≤ pathValue c v n j ∧ pathValue c v n j ≤ pow10 B := by
  have c0 : 0 < c := lt_of_lt_of_le (pow10_pos _) hc
  have v0 : 0 < v := lt_of_lt_of_le (pow10_pos _) hv
  have a1 : A ≤ Real.logb 10 c := by
    have := Real.logb_le_logb_of_le (b := 10) (by norm_num) (pow10_pos _) hc; rwa [logb_pow10] at this
  have a2 : Real.logb 10 c ≤ B := by
    have := Real.logb_le_logb_of_le (b := 10) (by norm_num) c0 hc'; rwa [logb_pow10] at this
  have a3 : A ≤ Real.logb 10 v := by
    have := Real.logb_le_logb_of_le (b := 10) (by norm_num) (pow10_pos _) hv; rwa [logb_pow10] at this
  have a4 : Real.logb 10 v ≤ B := by
    have := Real.logb_le_logb_of_le (b := 10) (by norm_num) v0 hv'; rwa [logb_pow10] at this
  have hn1 : (0 : ℝ) < (n : ℝ) - 1 := by
    have : (2 : ℝ) ≤ n := by exact_mod_cast (by omega : 2 ≤ n)
    linarith
  have hj1 : (j : ℝ) ≤ (n : ℝ) - 1 := by
    have : (j : ℝ) + 1 ≤ n := by exact_mod_cast hj
    linarith
  have t0 : 0 ≤ (j : ℝ) / ((n : ℝ) - 1) := div_nonneg (Nat.cast_nonneg _) hn1.le
  have t1 : (j : ℝ) / ((n : ℝ) - 1) ≤ 1 := (div_le_one hn1).2 hj1
  have e : (j : ℝ) * ((Real.logb 10 v - Real.logb 10 c) / ((n : ℝ) - 1)) + Real.logb 10 c =
      (1 - (j : ℝ) / ((n : ℝ) - 1)) * Real.logb 10 c + (j : ℝ) / ((n : ℝ) - 1) * Real.logb 10 v := by ring
  unfold pathValue
  rw [e]
  constructor
  · apply pow10_mono; nlinarith
  · apply pow10_mono; nlinarith

theorem calStep_total {p : Par} (hp : Runs p) (g : Prog) (stp : PathStep) (hs : StepIn p stp)
    (hg : Valid p g.st ∧ pow10 p.minS ≤ g.cs ∧ g.cs ≤ pow10 p.maxS ∧ 0 < g.ct) :
    ∃ g', calStep p g stp = .ok g' ∧ Valid p g'.st ∧ pow10 p.minS ≤ g'.cs ∧ g'.cs ≤ pow10 p.maxS ∧ 0 < g'.ct := by
  obtain ⟨hv, hc1, hc2, hct⟩ := hg
  obtain ⟨hn, hvl, hss⟩ := hs
  have hcs : 0 < g.cs := lt_of_lt_of_le (pow10_pos _) hc1
  have hcv : 0 < cvStress p := div_pos hp.K0 (by norm_num)
  unfold calStep
  rw [log10_pos hvl, ok_bind, if_neg hn]
  split <;> rename_i hi
  · obtain ⟨r, hr, hvr⟩ := foldlM_range_total (f := stressPt p g.cs g.ct stp) (fun x => Valid p x.1) stp.npp (by
      intro j x hj hx
      have hpos : 0 < pathValue g.ct stp.vl stp.npp j * cvStress p := mul_pos (pow10_pos _) hcv
      unfold stressPt
      dsimp only
      split
      · obtain ⟨t, ht, vt⟩ := op_total (o := .load (pathValue g.ct stp.vl stp.npp j * cvStress p)) hx hpos
        have ht' : loading p (pathValue g.ct stp.vl stp.npp j * cvStress p) x.1 = .ok t := ht
        rw [ht', ok_bind]; exact ⟨_, rfl, vt⟩
      · obtain ⟨t, ht, vt⟩ := op_total (o := .unload (pathValue g.ct stp.vl stp.npp j * cvStress p)) hx hpos
        have ht' : unloading p (pathValue g.ct stp.vl stp.npp j * cvStress p) x.1 = .ok t := ht
        rw [ht', ok_bind]; exact ⟨_, rfl, vt⟩) (g.st, []) hv
    rw [log10_pos hct, ok_bind, hr, ok_bind]
    exact ⟨_, rfl, hvr, hc1, hc2, hvl⟩
  · obtain ⟨v1, v2⟩ := hss (by simpa using hi)
    obtain ⟨r, hr, hvr⟩ := foldlM_range_total (f := suctionPt p g.cs g.ct stp) (fun x => Valid p x.1) stp.npp (by
      intro j x hj hx
      have hb := pathValue_between hc1 hc2 v1 v2 hn hj
      unfold suctionPt
      dsimp only
      split
      · obtain ⟨t, ht, vt⟩ := op_total (o := .dry (pathValue g.cs stp.vl stp.npp j)) hx hb
        have ht' : drying p (pathValue g.cs stp.vl stp.npp j) x.1 = .ok t := ht
        rw [ht', ok_bind]; exact ⟨_, rfl, vt⟩
      · obtain ⟨t, ht, vt⟩ := op_total (o := .wet (pathValue g.cs stp.vl stp.npp j)) hx hb
        have ht' : wetting p (pathValue g.cs stp.vl stp.npp j) x.1 = .ok t := ht
        rw [ht', ok_bind]; exact ⟨_, rfl, vt⟩) (g.st, []) hv
    rw [log10_pos hcs, ok_bind, hr, ok_bind]
    exact ⟨_, rfl, hvr, v1, v2, hct⟩

/-- **C193, `Calresults`.**  With valid parameters `Calresults` completes on every stress path whose steps have positive
targets, suction targets in `[10**MinSuction, 10**MaxSuction]` and a number of points different from 1, whatever is in the
reference tables before. -/
theorem C193_calresults_succeeds (p : Par) (hp : Runs p) (path : List PathStep) (hpath : ∀ s ∈ path, StepIn p s)
    (d w : List ℝ) (hd : d.length = p.numSr) (hw : w.length = p.numSr) :
    ∃ st out, calresults p path d w = .ok (st, out) ∧ out.length = path.length := by
  have h0 : ∃ s0, startTables p d w = .ok s0 ∧ s0.Srdry.length = p.numSr ∧ s0.Srwet.length = p.numSr := by
    unfold startTables
    split
    · obtain ⟨s, hs, v⟩ := degreeSat_total hp false hd hw
      exact ⟨s, hs, v.dryLen, v.wetLen⟩
    · exact ⟨_, rfl, hd, hw⟩
  obtain ⟨s0, hs0, hd0, hw0⟩ := h0
  obtain ⟨s1, hs1, v1⟩ := slurry_total hp s0.errocc hd0 hw0
  have e1 := (slurry_inv hs1).1
  have key : ∀ (path : List PathStep) (g : Prog), (∀ s ∈ path, StepIn p s) →
      (Valid p g.st ∧ pow10 p.minS ≤ g.cs ∧ g.cs ≤ pow10 p.maxS ∧ 0 < g.ct) →
      ∃ g', path.foldlM (calStep p) g = .ok g' ∧ g'.pts.length = g.pts.length + path.length := by
    intro path
    induction path with
    | nil => intro g _ _; exact ⟨g, rfl, by simp⟩
    | cons s path ih =>
      intro g hall hg
      obtain ⟨g1, h1, hg1⟩ := calStep_total hp g s (hall s (by simp)) hg
      obtain ⟨g2, h2, hl⟩ := ih g1 (fun s hs => hall s (by simp [hs])) hg1
      obtain ⟨_, _, r, _, hpts, _⟩ := calStep_inv h1
      refine ⟨g2, by rw [List.foldlM_cons, h1, ok_bind, h2], ?_⟩
      rw [hl, hpts]; simp; omega
  obtain ⟨g, hg, hl⟩ := key path ⟨s1, s1.Suction, s1.Stress, []⟩ hpath ⟨v1, by rw [e1], by
    rw [e1]; exact pow10_mono hp.range.le, v1.stress⟩
  refine ⟨g.st, _, by unfold calresults; rw [hs0, ok_bind, hs1, ok_bind, hg, ok_bind], ?_⟩
  rw [List.length_map, hl]; simp

/-- **C193, the defaults do not run.**  With `logRS = 0`, its documented default, and at least one pore group, `Calresults`
raises ZeroDivisionError for every stress path, every soil and every other setting. -/
theorem C193_default_logRS_fails (p : Par) (hn : p.npoint ≠ 0) (h : p.logRS = 0) (path : List PathStep) (d w : List ℝ) :
    calresults p path d w = .error .zeroDivision := by
  have hs : ∀ (e : Bool) (d w : List ℝ), slurry p e d w = .error .zeroDivision := by
    intro e d w
    unfold slurry dryPoreSize
    rw [if_neg hn, if_pos (Or.inr (Or.inl h))]
    rfl
  unfold calresults startTables
  split
  · unfold degreeSat; rw [hs]; rfl
  · rw [ok_bind, hs]; rfl

end Geotecha.Epus
