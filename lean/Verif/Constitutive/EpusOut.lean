import Verif.Constitutive.EpusTotal

/-!
# What `Calresults` records, for every stress path
-/

set_option autoImplicit false
set_option linter.unusedVariables false

namespace Geotecha.Epus

theorem f2_mem_right {α β : Type} {R : α → β → Prop} {P : α → Prop} {Q : β → Prop} {l : List α} {r : List β}
    (h : List.Forall₂ R l r) (hP : ∀ a ∈ l, P a) (hPQ : ∀ a b, P a → R a b → Q b) : ∀ b ∈ r, Q b := by
  intro b hb
  obtain ⟨a, ha, hab⟩ := mem_of_f2 h b hb
  exact hPQ a b (hP a ha) hab

/-- Every group is filled or has a non-negative volume. -/
def PreOk (st : State) : Prop := ∀ q ∈ st.f, q.Filled = true ∨ 0 ≤ q.RVC

theorem op_volumes {p : Par} {o : Op} {st st' : State} (hpre : PreOk st) (h : o.run p st = .ok st') :
    ∀ q ∈ st'.f, 0 ≤ q.RVC := by
  have hset := op_settled h
  intro q' hq'
  by_cases hf : q'.Filled = true
  · rw [hset q' hq' hf]; exact vol_nonneg _ _ _ _ _ _
  · have hf' : q'.Filled = false := by simpa using hf
    cases o with
    | dry ss =>
      obtain ⟨q, hq, e, h⟩ := mem_of_f2 (drying_inv h).1 q' hq'
      rcases dryPore_inv h with ⟨hd, rfl, _⟩ | ⟨_, g, c1, c2, _, _, _, hy, _, _, hv, _⟩ | ⟨_, g, c1, _, _, hy, _, _, hv, hf'', _⟩
      · rcases hpre q' hq with h | h
        · exact absurd h hf
        · exact h
      · rw [hv]; exact vol_nonneg _ _ _ _ _ _
      · rw [hv]; exact vol_nonneg _ _ _ _ _ _
    | wet ss =>
      obtain ⟨q, hq, e, h⟩ := mem_of_f2 (wetting_inv h).1 q' hq'
      rcases wetPore_inv h with ⟨_, g, hy, _, _, hv, hff, ha, _⟩ | ⟨_, g, c, _, _, hy, _, _, hv, hff, ha, _⟩ | ⟨hd, c, _, _, hs, _⟩
      · rw [hv]; exact vol_nonneg _ _ _ _ _ _
      · rw [hv]; exact vol_nonneg _ _ _ _ _ _
      · refine (staysDry_evolves hs).volume ?_
        rcases hpre q hq with h | h
        · rw [hd] at h; exact absurd h (by simp)
        · exact h
    | load x =>
      obtain ⟨q, hq, e, h⟩ := mem_of_f2 (loading_inv h).1 q' hq'
      rcases loadPore_inv h with ⟨_, g, hy, _, _, hv, hff, ha, _⟩ | ⟨_, g, c, _, _, hy, _, _, hv, hff, ha, _⟩ | ⟨hd, c, _, _, hs, _⟩
      · rw [hv]; exact vol_nonneg _ _ _ _ _ _
      · rw [hv]; exact vol_nonneg _ _ _ _ _ _
      · refine (staysDry_evolves hs).volume ?_
        rcases hpre q hq with h | h
        · rw [hd] at h; exact absurd h (by simp)
        · exact h
    | unload x =>
      obtain ⟨q, hq, e, h⟩ := mem_of_f2 (unloading_inv h).1 q' hq'
      rcases unloadPore_inv h with ⟨_, ⟨hd, rfl⟩ | ⟨_, g, hy, _, _, hv, _⟩⟩
      · rcases hpre q' hq with h | h
        · exact absurd h hf
        · exact h
      · rw [hv]; exact vol_nonneg _ _ _ _ _ _

theorem water_bounds {p : Par} (hb0 : 0 ≤ p.beta) (hb1 : p.beta ≤ 1) (hg : 0 < p.Gs) {f : List Pore}
    (h : ∀ q ∈ f, 0 ≤ q.RVC) : 0 ≤ voids f ∧ 0 ≤ waterContent p f ∧ waterContent p f * p.Gs ≤ voids f := by
  unfold voids waterContent
  induction f with
  | nil => simp
  | cons q f ih =>
    obtain ⟨i1, i2, i3⟩ := ih fun q hq => h q (by simp [hq])
    have hq := h q (by simp)
    have hd : 0 ≤ q.RVC / p.Gs := div_nonneg hq hg.le
    have hd' : q.RVC / p.Gs * p.Gs = q.RVC := div_mul_cancel₀ _ hg.ne'
    simp only [List.map_cons, List.sum_cons]
    refine ⟨by linarith, ?_, ?_⟩
    · have : 0 ≤ (if q.Filled then (if q.Airentrapped then q.RVC / p.Gs * (1 - p.beta) else q.RVC / p.Gs) else 0 : ℝ) := by
        split
        · split
          · exact mul_nonneg hd (by linarith)
          · exact hd
        · exact le_rfl
      linarith
    · rw [add_mul]
      have : (if q.Filled then (if q.Airentrapped then q.RVC / p.Gs * (1 - p.beta) else q.RVC / p.Gs) else 0 : ℝ) * p.Gs ≤ q.RVC := by
        split
        · split
          · rw [mul_right_comm, hd']; nlinarith
          · rw [hd']
        · rw [zero_mul]; exact hq
      linarith

/-- A recorded point before the final loop: void ratio and water content of some soil without negative volumes. -/
def RawOk (p : Par) (d : Pt) : Prop := 0 ≤ d.e ∧ 0 ≤ d.w ∧ d.w * p.Gs ≤ d.e

theorem suctionPt_op {p : Par} {cs ct : ℝ} {stp : PathStep} {acc r : State × List Pt} {j : ℕ}
    (h : suctionPt p cs ct stp acc j = .ok r) :
    ∃ o : Op, (o = .dry (pathValue cs stp.vl stp.npp j) ∨ o = .wet (pathValue cs stp.vl stp.npp j)) ∧
      o.run p acc.1 = .ok r.1 ∧
      r.2 = acc.2 ++ [⟨pathValue cs stp.vl stp.npp j, ct, voids r.1.f, waterContent p r.1.f, 0, 0⟩] := by
  unfold suctionPt at h
  dsimp only at h
  rw [bind_ok] at h
  obtain ⟨st, h1, h⟩ := h
  cases h
  split at h1
  · exact ⟨.dry _, Or.inl rfl, h1, rfl⟩
  · exact ⟨.wet _, Or.inr rfl, h1, rfl⟩

theorem stressPt_op {p : Par} {cs ct : ℝ} {stp : PathStep} {acc r : State × List Pt} {j : ℕ}
    (h : stressPt p cs ct stp acc j = .ok r) :
    ∃ o : Op, (o = .load (pathValue ct stp.vl stp.npp j * cvStress p) ∨ o = .unload (pathValue ct stp.vl stp.npp j * cvStress p)) ∧
      o.run p acc.1 = .ok r.1 ∧
      r.2 = acc.2 ++ [⟨cs, pathValue ct stp.vl stp.npp j, voids r.1.f, waterContent p r.1.f, 0, 0⟩] := by
  unfold stressPt at h
  dsimp only at h
  rw [bind_ok] at h
  obtain ⟨st, h1, h⟩ := h
  cases h
  split at h1
  · exact ⟨.load _, Or.inl rfl, h1, rfl⟩
  · exact ⟨.unload _, Or.inr rfl, h1, rfl⟩

/-- The two kinds of step, inverted. -/
theorem calStep_inv {p : Par} {g g' : Prog} {stp : PathStep} (h : calStep p g stp = .ok g') :
    0 < stp.vl ∧ stp.npp ≠ 1 ∧ ∃ r : State × List Pt, g'.st = r.1 ∧ g'.pts = g.pts ++ [r.2] ∧
      ((stp.ist = true ∧ 0 < g.ct ∧ (List.range stp.npp).foldlM (stressPt p g.cs g.ct stp) (g.st, []) = .ok r ∧
        g'.cs = g.cs ∧ g'.ct = stp.vl) ∨
       (stp.ist = false ∧ 0 < g.cs ∧ (List.range stp.npp).foldlM (suctionPt p g.cs g.ct stp) (g.st, []) = .ok r ∧
        g'.cs = stp.vl ∧ g'.ct = g.ct)) := by
  unfold calStep at h
  rw [bind_ok] at h
  obtain ⟨l, hl, h⟩ := h
  have hvl := (log10_ok.1 hl).1
  split at h
  · cases h
  rename_i hn
  refine ⟨hvl, hn, ?_⟩
  split at h <;> rename_i hi
  · rw [bind_ok] at h
    obtain ⟨l2, hl2, h⟩ := h
    rw [bind_ok] at h
    obtain ⟨r, hr, h⟩ := h
    cases h
    exact ⟨r, rfl, rfl, Or.inl ⟨hi, (log10_ok.1 hl2).1, hr, rfl, rfl⟩⟩
  · rw [bind_ok] at h
    obtain ⟨l2, hl2, h⟩ := h
    rw [bind_ok] at h
    obtain ⟨r, hr, h⟩ := h
    cases h
    exact ⟨r, rfl, rfl, Or.inr ⟨by simpa using hi, (log10_ok.1 hl2).1, hr, rfl, rfl⟩⟩

theorem slurry_inv {p : Par} {e : Bool} {d w : List ℝ} {st : State} (h : slurry p e d w = .ok st) :
    st = ⟨(List.range p.npoint).map (slurryRow p), pow10 p.minS, pow10 p.minS / 1000, 1, 1, e, d, w⟩ ∧
      (p.npoint ≠ 0 → p.Ccs ≠ 0 ∧ p.logRS ≠ 0 ∧ p.b ≠ 0) := by
  unfold slurry at h
  rw [bind_ok] at h
  obtain ⟨f, hf, h⟩ := h
  cases h
  refine ⟨rfl, fun hn => ?_⟩
  unfold dryPoreSize at hf
  rw [if_neg hn] at hf
  split at hf
  · cases hf
  · rename_i hc; push Not at hc; exact hc

theorem slurryRow_filled (p : Par) (i : ℕ) : (slurryRow p i).Filled = true ∧ (slurryRow p i).Airentrapped = false := ⟨rfl, rfl⟩

theorem calresults_inv {p : Par} {path : List PathStep} {d w : List ℝ} {st : State} {out : List (List Pt)}
    (h : calresults p path d w = .ok (st, out)) :
    ∃ (e : Bool) (d' w' : List ℝ) (s0 : State) (g : Prog), slurry p e d' w' = .ok s0 ∧
      path.foldlM (calStep p) ⟨s0, s0.Suction, s0.Stress, []⟩ = .ok g ∧ st = g.st ∧
      out = g.pts.map fun l => l.map (finishPt p) := by
  unfold calresults at h
  rw [bind_ok] at h
  obtain ⟨st0, _, h⟩ := h
  rw [bind_ok] at h
  obtain ⟨s0, hs0, h⟩ := h
  rw [bind_ok] at h
  obtain ⟨g, hg, h⟩ := h
  cases h
  exact ⟨_, _, _, s0, g, hs0, hg, rfl, rfl⟩

theorem mem_append_single {α : Type} {P : α → Prop} {l : List α} {x : α} (hl : ∀ a ∈ l, P a) (hx : P x) :
    ∀ a ∈ l ++ [x], P a := by
  intro a ha
  rcases List.mem_append.1 ha with h | h
  · exact hl a h
  · rw [List.mem_singleton.1 h]; exact hx

theorem fold_raw {p : Par} (hb0 : 0 ≤ p.beta) (hb1 : p.beta ≤ 1) (hg : 0 < p.Gs)
    {F : State × List Pt → ℕ → Except PyErr (State × List Pt)}
    (hF : ∀ acc j r, F acc j = .ok r → ∃ o : Op, o.run p acc.1 = .ok r.1 ∧
      ∃ d : Pt, d.e = voids r.1.f ∧ d.w = waterContent p r.1.f ∧ r.2 = acc.2 ++ [d])
    (l : List ℕ) (acc r : State × List Pt) (hpre : PreOk acc.1) (hacc : ∀ d ∈ acc.2, RawOk p d)
    (h : l.foldlM F acc = .ok r) : PreOk r.1 ∧ ∀ d ∈ r.2, RawOk p d := by
  refine foldlM_inv (fun b : State × List Pt => PreOk b.1 ∧ ∀ d ∈ b.2, RawOk p d) ?_ l acc r ⟨hpre, hacc⟩ h
  rintro b j b' ⟨h1, h2⟩ hb
  obtain ⟨o, ho, d, hd, hw, hr⟩ := hF b j b' hb
  have hv := op_volumes h1 ho
  refine ⟨fun q hq => Or.inr (hv q hq), ?_⟩
  rw [hr]
  exact mem_append_single h2 (by unfold RawOk; rw [hd, hw]; exact water_bounds hb0 hb1 hg hv)

theorem path_raw {p : Par} (hb0 : 0 ≤ p.beta) (hb1 : p.beta ≤ 1) (hg : 0 < p.Gs) {path : List PathStep} {g g' : Prog}
    (hpre : PreOk g.st) (hpts : ∀ l ∈ g.pts, ∀ d ∈ l, RawOk p d) (h : path.foldlM (calStep p) g = .ok g') :
    PreOk g'.st ∧ ∀ l ∈ g'.pts, ∀ d ∈ l, RawOk p d := by
  refine foldlM_inv (fun b : Prog => PreOk b.st ∧ ∀ l ∈ b.pts, ∀ d ∈ l, RawOk p d) ?_ path g g' ⟨hpre, hpts⟩ h
  rintro b stp b' ⟨h1, h2⟩ hb
  obtain ⟨_, _, r, hr1, hr2, hc⟩ := calStep_inv hb
  have key : PreOk r.1 ∧ ∀ d ∈ r.2, RawOk p d := by
    rcases hc with ⟨_, _, hf, _⟩ | ⟨_, _, hf, _⟩
    · refine fold_raw hb0 hb1 hg ?_ _ _ _ h1 (by simp) hf
      intro acc j r h
      obtain ⟨o, _, ho, hr⟩ := stressPt_op h
      exact ⟨o, ho, _, rfl, rfl, hr⟩
    · refine fold_raw hb0 hb1 hg ?_ _ _ _ h1 (by simp) hf
      intro acc j r h
      obtain ⟨o, _, ho, hr⟩ := suctionPt_op h
      exact ⟨o, ho, _, rfl, rfl, hr⟩
  refine ⟨by rw [hr1]; exact key.1, ?_⟩
  rw [hr2]
  exact mem_append_single h2 key.2

/-- **C194.**  Whatever the stress path, every recorded point has a non-negative void ratio and water content, a degree
of saturation between 0 and 1 (when the void ratio is not zero), and a volumetric water content `w Gs / (1 + e)` between
0 and the porosity `e / (1 + e)`, provided `0 ≤ beta ≤ 1` and `Gs > 0`.  No condition on the SWCC, the indexes or the
path is needed. -/
theorem C194_outputs_in_range (p : Par) (hb0 : 0 ≤ p.beta) (hb1 : p.beta ≤ 1) (hg : 0 < p.Gs) (path : List PathStep)
    (d w : List ℝ) (st : State) (out : List (List Pt)) (h : calresults p path d w = .ok (st, out)) :
    ∀ l ∈ out, ∀ x ∈ l, 0 ≤ x.e ∧ 0 ≤ x.w ∧ 0 ≤ x.Sr ∧ x.Sr ≤ 1 ∧ 0 ≤ x.vw ∧ x.vw ≤ x.e / (1 + x.e) ∧ x.vw < 1 ∧
      (x.e ≠ 0 → x.Sr * x.e = x.w * p.Gs ∧ x.vw = x.w * p.Gs / (1 + x.e)) := by
  obtain ⟨e, d', w', s0, g, hs0, hg', rfl, rfl⟩ := calresults_inv h
  have hpre : PreOk s0 := by
    rw [(slurry_inv hs0).1]
    intro q hq
    simp only [List.mem_map] at hq
    obtain ⟨i, _, rfl⟩ := hq
    exact Or.inl rfl
  have hraw := (path_raw hb0 hb1 hg (g := ⟨s0, s0.Suction, s0.Stress, []⟩) hpre (by simp) hg').2
  intro l hl x hx
  obtain ⟨l0, hl0, rfl⟩ := List.mem_map.1 hl
  obtain ⟨y, hy, rfl⟩ := List.mem_map.1 hx
  obtain ⟨h1, h2, h3⟩ := hraw l0 hl0 y hy
  have hw : 0 ≤ y.w * p.Gs := mul_nonneg h2 hg.le
  have hS0 : 0 ≤ y.w * p.Gs / y.e := div_nonneg hw h1
  have hS1 : y.w * p.Gs / y.e ≤ 1 := div_le_one_of_le₀ h3 h1
  have e1 : 0 < y.e + 1 := by linarith
  refine ⟨h1, h2, hS0, hS1, ?_, ?_, ?_, ?_⟩
  · exact div_nonneg (mul_nonneg hS0 h1) e1.le
  · show y.w * p.Gs / y.e * y.e / (y.e + 1) ≤ y.e / (1 + y.e)
    rw [add_comm 1]
    exact div_le_div_of_nonneg_right (by nlinarith) e1.le
  · show y.w * p.Gs / y.e * y.e / (y.e + 1) < 1
    rw [div_lt_one e1]; nlinarith
  · intro he
    have : y.w * p.Gs / y.e * y.e = y.w * p.Gs := div_mul_cancel₀ _ he
    refine ⟨this, ?_⟩
    show y.w * p.Gs / y.e * y.e / (y.e + 1) = y.w * p.Gs / (1 + y.e)
    rw [this, add_comm]

/-! ### A slurry that is only loaded and unloaded stays saturated -/

def AllWet (st : State) : Prop := ∀ q ∈ st.f, q.Filled = true ∧ q.Airentrapped = false

theorem op_allWet {p : Par} {o : Op} {st st' : State} (ho : ∀ s, o ≠ .dry s) (hw : AllWet st) (h : o.run p st = .ok st') :
    AllWet st' := by
  cases o with
  | dry s => exact absurd rfl (ho s)
  | wet s =>
    exact f2_mem_right (C188_wetting_fills p s st st' h) hw fun q q' hq hr => ⟨hr.1 hq.1, by rw [hr.2.2, hq.2]⟩
  | load s =>
    exact f2_mem_right (C188_loading_fills p s st st' h) hw fun q q' hq hr => ⟨hr.1 hq.1, by rw [hr.2.2, hq.2]⟩
  | unload s =>
    exact f2_mem_right (C188_unloading_elastic p s st st' h) hw fun q q' hq hr => ⟨by rw [hr.1, hq.1], by rw [hr.2.2.1, hq.2]⟩

theorem allWet_water {p : Par} (hg : p.Gs ≠ 0) {f : List Pore} (h : ∀ q ∈ f, q.Filled = true ∧ q.Airentrapped = false) :
    waterContent p f * p.Gs = voids f := by
  unfold waterContent voids
  induction f with
  | nil => simp
  | cons q f ih =>
    simp only [List.map_cons, List.sum_cons]
    rw [add_mul, ih fun q hq => h q (by simp [hq]), (h q (by simp)).1, (h q (by simp)).2]
    simp [hg]

/-- **C194, saturation.**  Along a stress path made of net stress changes only, the soil stays saturated: every recorded
degree of saturation is exactly 1 (when the void ratio is not zero). -/
theorem C194_loading_keeps_saturated (p : Par) (hg : p.Gs ≠ 0) (path : List PathStep) (hpath : ∀ s ∈ path, s.ist = true)
    (d w : List ℝ) (st : State) (out : List (List Pt)) (h : calresults p path d w = .ok (st, out)) :
    ∀ l ∈ out, ∀ x ∈ l, x.e ≠ 0 → x.Sr = 1 := by
  obtain ⟨e, d', w', s0, g, hs0, hg', rfl, rfl⟩ := calresults_inv h
  have hw0 : AllWet s0 := by
    rw [(slurry_inv hs0).1]
    intro q hq
    simp only [List.mem_map] at hq
    obtain ⟨i, _, rfl⟩ := hq
    exact ⟨rfl, rfl⟩
  have key : ∀ (path : List PathStep) (g g' : Prog), (∀ s ∈ path, s.ist = true) → AllWet g.st →
      (∀ l ∈ g.pts, ∀ d ∈ l, d.w * p.Gs = d.e) → path.foldlM (calStep p) g = .ok g' →
      AllWet g'.st ∧ ∀ l ∈ g'.pts, ∀ d ∈ l, d.w * p.Gs = d.e := by
    intro path
    induction path with
    | nil =>
      intro g g' _ h1 h2 h
      simp [List.foldlM, pure, Except.pure] at h; subst h; exact ⟨h1, h2⟩
    | cons stp path ih =>
      intro g g' hall h1 h2 h
      rw [List.foldlM_cons, bind_ok] at h
      obtain ⟨g1, hg1, h⟩ := h
      obtain ⟨_, _, r, hr1, hr2, hc⟩ := calStep_inv hg1
      rcases hc with ⟨_, _, hf, _⟩ | ⟨hi, _⟩
      · have := foldlM_inv (fun b : State × List Pt => AllWet b.1 ∧ ∀ d ∈ b.2, d.w * p.Gs = d.e) (by
          rintro b j b' ⟨k1, k2⟩ hb
          obtain ⟨o, ho, hrun, hr⟩ := stressPt_op hb
          have hw := op_allWet (by rcases ho with rfl | rfl <;> simp) k1 hrun
          refine ⟨hw, ?_⟩
          rw [hr]
          exact mem_append_single k2 (allWet_water hg hw)) _ _ _ ⟨h1, by simp⟩ hf
        refine ih g1 g' (fun s hs => hall s (by simp [hs])) (by rw [hr1]; exact this.1) ?_ h
        rw [hr2]
        exact mem_append_single h2 this.2
      · rw [hall stp (by simp)] at hi; exact absurd hi (by simp)
  have := (key path _ g hpath hw0 (by simp) hg').2
  intro l hl x hx he
  obtain ⟨l0, hl0, rfl⟩ := List.mem_map.1 hl
  obtain ⟨y, hy, rfl⟩ := List.mem_map.1 hx
  show y.w * p.Gs / y.e = 1
  rw [this l0 hl0 y hy]
  exact div_self he

/-! ## C195: the points of the path -/

/-- Specification: point `j` of `n` points spaced evenly on a log scale from `c` to `v`. -/
noncomputable def geometric (c v : ℝ) (n j : ℕ) : ℝ := c * (v / c) ^ ((j : ℝ) / ((n : ℝ) - 1))

theorem pathValue_geometric {c v : ℝ} (hc : 0 < c) (hv : 0 < v) (n j : ℕ) : pathValue c v n j = geometric c v n j := by
  unfold pathValue geometric pow10
  rw [Real.rpow_add (by norm_num), Real.rpow_logb (by norm_num) (by norm_num) hc, mul_comm]
  congr 1
  rw [← Real.logb_div hv.ne' hc.ne', show (j : ℝ) * (Real.logb 10 (v / c) / ((n : ℝ) - 1)) =
    Real.logb 10 (v / c) * ((j : ℝ) / ((n : ℝ) - 1)) by ring, Real.rpow_mul (by norm_num),
    Real.rpow_logb (by norm_num) (by norm_num) (div_pos hv hc)]

theorem geometric_first (c v : ℝ) (n : ℕ) : geometric c v n 0 = c := by simp [geometric]

theorem geometric_last {c v : ℝ} (hc : 0 < c) {n : ℕ} (hn : 2 ≤ n) : geometric c v n (n - 1) = v := by
  unfold geometric
  have : ((n : ℝ) - 1) ≠ 0 := by have : (2 : ℝ) ≤ n := by exact_mod_cast hn
                                 linarith
  rw [Nat.cast_sub (by omega), Nat.cast_one, div_self this, Real.rpow_one, mul_div_cancel₀ _ hc.ne']

/-- The recorded suctions and stresses, by recursion on the path, from the current suction `cs` and net stress `ct`. -/
noncomputable def specPath : ℝ → ℝ → List PathStep → List (List (ℝ × ℝ))
  | _, _, [] => []
  | cs, ct, s :: l =>
    if s.ist then
      ((List.range s.npp).map fun j : ℕ => (clampVal cs, clampVal (geometric ct s.vl s.npp j))) :: specPath cs s.vl l
    else
      ((List.range s.npp).map fun j : ℕ => (clampVal (geometric cs s.vl s.npp j), clampVal ct)) :: specPath s.vl ct l

theorem fold_range_pts {F : State × List Pt → ℕ → Except PyErr (State × List Pt)} {u : ℕ → ℝ × ℝ}
    (hF : ∀ acc j r, F acc j = .ok r → ∃ d : Pt, (d.ss, d.st) = u j ∧ r.2 = acc.2 ++ [d])
    (l : List ℕ) (acc r : State × List Pt) (h : l.foldlM F acc = .ok r) :
    r.2.map (fun d => (d.ss, d.st)) = acc.2.map (fun d => (d.ss, d.st)) ++ l.map u := by
  induction l generalizing acc with
  | nil => simp [List.foldlM, pure, Except.pure] at h; subst h; simp
  | cons a l ih =>
    rw [List.foldlM_cons, bind_ok] at h
    obtain ⟨b, hb, h⟩ := h
    obtain ⟨d, hd, hr⟩ := hF acc a b hb
    rw [ih b h, hr]
    simp [hd]

theorem path_pts {p : Par} : ∀ (path : List PathStep) (g g' : Prog), path.foldlM (calStep p) g = .ok g' →
    g'.pts.map (fun l => l.map fun d => ((finishPt p d).ss, (finishPt p d).st)) =
      g.pts.map (fun l => l.map fun d => ((finishPt p d).ss, (finishPt p d).st)) ++ specPath g.cs g.ct path
  | [], g, g', h => by
    simp [List.foldlM, pure, Except.pure] at h; subst h; simp [specPath]
  | stp :: path, g, g', h => by
    rw [List.foldlM_cons, bind_ok] at h
    obtain ⟨g1, hg1, h⟩ := h
    obtain ⟨hvl, _, r, hr1, hr2, hc⟩ := calStep_inv hg1
    rw [path_pts path g1 g' h, hr2]
    have hmap : ∀ l : List Pt, l.map (fun d => ((finishPt p d).ss, (finishPt p d).st)) =
        (l.map fun d => (d.ss, d.st)).map fun x => (clampVal x.1, clampVal x.2) := by
      intro l; rw [List.map_map]; rfl
    rcases hc with ⟨hi, hct, hf, hcs', hct'⟩ | ⟨hi, hcs, hf, hcs', hct'⟩
    · have := fold_range_pts (u := fun j => (g.cs, geometric g.ct stp.vl stp.npp j)) (by
        intro acc j r h
        obtain ⟨o, _, _, hr⟩ := stressPt_op h
        exact ⟨_, by rw [pathValue_geometric hct hvl], hr⟩) _ _ _ hf
      rw [hcs', hct', specPath, if_pos hi]
      simp only [List.map_append, List.map_cons, List.map_nil, List.append_assoc, List.singleton_append]
      rw [hmap r.2, this]
      simp
    · have := fold_range_pts (u := fun j => (geometric g.cs stp.vl stp.npp j, g.ct)) (by
        intro acc j r h
        obtain ⟨o, _, _, hr⟩ := suctionPt_op h
        exact ⟨_, by rw [pathValue_geometric hcs hvl], hr⟩) _ _ _ hf
      rw [hcs', hct', specPath, if_neg (by simp [hi])]
      simp only [List.map_append, List.map_cons, List.map_nil, List.append_assoc, List.singleton_append]
      rw [hmap r.2, this]
      simp

/-- **C195.**  The suctions and net stresses recorded along a stress path: step by step, `npp` points spaced evenly on a
log scale from the value reached before to the target of the step, the other variable held, values of 999999 or more
replaced by 999998; the path starts at suction `10**MinSuction` and net stress `10**MinSuction/1000`. -/
theorem C195_recorded_path (p : Par) (path : List PathStep) (d w : List ℝ) (st : State) (out : List (List Pt))
    (h : calresults p path d w = .ok (st, out)) :
    out.map (fun l => l.map fun x => (x.ss, x.st)) = specPath (pow10 p.minS) (pow10 p.minS / 1000) path := by
  obtain ⟨e, d', w', s0, g, hs0, hg', rfl, rfl⟩ := calresults_inv h
  have := path_pts path _ g hg'
  have hs := (slurry_inv hs0).1
  rw [List.map_map]
  simp only [List.map_nil, List.nil_append] at this
  rw [show s0.Suction = pow10 p.minS by rw [hs], show s0.Stress = pow10 p.minS / 1000 by rw [hs]] at this
  rw [← this]
  apply List.map_congr_left
  intro l _
  simp only [Function.comp, List.map_map]
  rfl

/-- **C195, shape of a step.**  A step of `n ≥ 2` points from `c` to `v` starts at `c`, ends at `v`, and has constant
ratios between neighbours; it increases when `c < v`. -/
theorem C195_step_shape (c v : ℝ) (hc : 0 < c) (hv : 0 < v) (n : ℕ) (hn : 2 ≤ n) :
    geometric c v n 0 = c ∧ geometric c v n (n - 1) = v ∧
    (∀ j, geometric c v n (j + 1) = geometric c v n j * (v / c) ^ (1 / ((n : ℝ) - 1))) ∧
    (c < v → StrictMono (geometric c v n)) ∧ (v < c → StrictAnti (geometric c v n)) := by
  have hn' : (2 : ℝ) ≤ n := by exact_mod_cast hn
  have h1 : 0 < (n : ℝ) - 1 := by linarith
  refine ⟨geometric_first c v n, geometric_last hc hn, fun j => ?_, fun h i j hij => ?_, fun h i j hij => ?_⟩
  · unfold geometric
    rw [mul_assoc, ← Real.rpow_add (div_pos hv hc)]
    congr 2
    push_cast; ring
  · unfold geometric
    apply mul_lt_mul_of_pos_left _ hc
    apply Real.rpow_lt_rpow_of_exponent_lt ((one_lt_div hc).2 h)
    exact div_lt_div_of_pos_right (by exact_mod_cast hij) h1
  · unfold geometric
    apply mul_lt_mul_of_pos_left _ hc
    apply Real.rpow_lt_rpow_of_exponent_gt (div_pos hv hc) ((div_lt_one hc).2 h)
    exact div_lt_div_of_pos_right (by exact_mod_cast hij) h1

end Geotecha.Epus
