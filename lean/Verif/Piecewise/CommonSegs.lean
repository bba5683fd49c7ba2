import Verif.Piecewise.PropsMerge
import Verif.Speccon.Spec

/-!
# Depth profiles: PolyLines on `[0, 1]` and `polyline_make_x_common` in segment form
-/

set_option linter.unusedVariables false
set_option linter.unusedSectionVars false

namespace Geotecha.Piecewise
open Geotecha.Spec

/-- `polyline_make_x_common(*p_lines)` on `PolyLine` objects: the `x` and `y` of each are read
(piecewise_linear_1d.py:2587-2607). -/
def commonLines {K : Type} [Field K] [LinearOrder K] (ps : List (PolyLine K)) : Except PyErr (List (PolyLine K)) := do
  let ls ← ps.mapM (fun p => do
    let xy ← p.getXY.1
    pure (xy.map Prod.fst, xy.map Prod.snd))
  makeXCommon ls

section
variable {K : Type} [Field K] [LinearOrder K] [IsStrictOrderedRing K]

theorem pieces_mem_mem {pts : List (K × K)} {s : Seg K} (h : s ∈ pieces pts) : s.1 ∈ pts ∧ s.2 ∈ pts := by
  unfold pieces at h
  have := (List.mem_filter.1 h).1
  exact ⟨(List.of_mem_zip this).1, List.mem_of_mem_tail (List.of_mem_zip this).2⟩

/-- No abscissa lies strictly inside a piece. -/
theorem pieces_no_inside : ∀ {pts : List (K × K)}, SortedLe (pts.map Prod.fst) → ∀ s ∈ pieces pts,
    ∀ r ∈ pts, r.1 ≤ s.1.1 ∨ s.2.1 ≤ r.1 := by
  intro pts
  induction pts with
  | nil => intro _ s hs r hr; simp at hr
  | cons p l ih =>
    intro h s hs r hr
    cases l with
    | nil => simp [pieces] at hs
    | cons q l =>
      have hq := sorted_head_le h
      have hs' : SortedLe ((q :: l).map Prod.fst) := (List.pairwise_cons.1 h).2
      rw [pieces_cons] at hs
      have hcase : s = (p, q) ∨ s ∈ pieces (q :: l) := by
        by_cases e : p.1 ≠ q.1
        · rw [if_pos (by simpa using e)] at hs
          simpa using hs
        · rw [if_neg (by simpa using e)] at hs
          exact Or.inr (by simpa using hs)
      clear hs
      rcases hcase with rfl | hs
      · rcases List.mem_cons.1 hr with rfl | hr
        · left; exact le_refl _
        · right
          rcases List.mem_cons.1 hr with rfl | hr
          · exact le_refl _
          · exact sorted_head_le hs' r hr
      · rcases List.mem_cons.1 hr with rfl | hr
        · left; exact hq _ (pieces_mem_mem hs).1
        · exact ih hs' s hs r hr

/-- Inside a piece the curve is the piece. -/
theorem polyLeft_piece : ∀ {pts : List (K × K)}, SortedLe (pts.map Prod.fst) → ∀ s ∈ pieces pts, ∀ z,
    s.1.1 < z → z < s.2.1 → polyLeft pts z = line s.1 s.2 z := by
  intro pts
  induction pts with
  | nil => intro _ s hs; simp [pieces] at hs
  | cons p l ih =>
    intro h s hs z h1 h2
    cases l with
    | nil => simp [pieces] at hs
    | cons q l =>
      have hq := sorted_head_le h
      have hs' : SortedLe ((q :: l).map Prod.fst) := (List.pairwise_cons.1 h).2
      rw [pieces_cons] at hs
      have hcase : (s = (p, q) ∧ p.1 ≠ q.1) ∨ s ∈ pieces (q :: l) := by
        by_cases e : p.1 ≠ q.1
        · rw [if_pos (by simpa using e)] at hs
          rcases (by simpa using hs : s = (p, q) ∨ s ∈ pieces (q :: l)) with h | h
          · exact Or.inl ⟨h, e⟩
          · exact Or.inr h
        · rw [if_neg (by simpa using e)] at hs
          exact Or.inr (by simpa using hs)
      have hp1 : p.1 ≤ s.1.1 := by
        rcases hcase with ⟨rfl, _⟩ | hs
        · exact le_refl _
        · exact hq _ (pieces_mem_mem hs).1
      rw [polyLeft, if_neg (not_lt.2 (le_of_lt (lt_of_le_of_lt hp1 h1)))]
      rcases hcase with ⟨rfl, e⟩ | hs
      · rw [if_pos ⟨lt_of_le_of_ne (hq q (by simp)) e, le_of_lt h2⟩]
      · have hq1 : q.1 ≤ s.1.1 := by
          rcases List.mem_cons.1 (pieces_mem_mem hs).1 with e | e
          · rw [e]
          · exact sorted_head_le hs' _ e
        rw [if_neg (by rintro ⟨_, h4⟩; exact absurd (lt_of_le_of_lt hq1 h1) (not_lt.2 h4))]
        exact ih hs' s hs z h1 h2

theorem pieces_first : ∀ {pts : List (K × K)} (h : pieces pts ≠ []) (h0 : pts ≠ []), SortedLe (pts.map Prod.fst) →
    ((pieces pts).head h).1.1 = (pts.head h0).1 := by
  intro pts
  induction pts with
  | nil => intro h h0; exact absurd rfl h0
  | cons p l ih =>
    intro h h0 hs
    cases l with
    | nil => simp [pieces] at h
    | cons q l =>
      have hs' : SortedLe ((q :: l).map Prod.fst) := (List.pairwise_cons.1 hs).2
      by_cases e : p.1 ≠ q.1
      · have : pieces (p :: q :: l) = (p, q) :: pieces (q :: l) := by
          rw [pieces_cons, if_pos (by simpa using e)]
        simp only [this, List.head_cons]
      · have hpc : pieces (p :: q :: l) = pieces (q :: l) := by
          rw [pieces_cons, if_neg (by simpa using e)]
        simp only [hpc, List.head_cons]
        rw [ih (by rw [← hpc]; exact h) (by simp) hs']
        exact (not_not.1 e).symm

theorem pieces_lastx : ∀ {pts : List (K × K)} (h : pieces pts ≠ []) (h0 : pts ≠ []), SortedLe (pts.map Prod.fst) →
    ((pieces pts).getLast h).2.1 = (pts.getLast h0).1 := by
  intro pts
  induction pts with
  | nil => intro h h0; exact absurd rfl h0
  | cons p l ih =>
    intro h h0 hs
    cases l with
    | nil => simp [pieces] at h
    | cons q l =>
      have hs' : SortedLe ((q :: l).map Prod.fst) := (List.pairwise_cons.1 hs).2
      rw [List.getLast_cons (by simp)]
      by_cases e : pieces (q :: l) = []
      · have hall := pieces_eq_nil e
        have : pieces (p :: q :: l) = [(p, q)] := by
          rw [pieces_cons, e] at h ⊢
          by_cases e' : p.1 ≠ q.1
          · rw [if_pos (by simpa using e')]
          · rw [if_neg (by simpa using e')] at h; exact absurd rfl h
        simp only [this, List.getLast_singleton]
        exact (hall _ (List.getLast_mem _)).symm
      · rw [← ih e (by simp) hs']
        by_cases e' : p.1 ≠ q.1
        · have : pieces (p :: q :: l) = (p, q) :: pieces (q :: l) := by
            rw [pieces_cons, if_pos (by simpa using e')]
          simp only [this, List.getLast_cons e]
        · have : pieces (p :: q :: l) = pieces (q :: l) := by
            rw [pieces_cons, if_neg (by simpa using e')]
          simp only [this]

theorem emit_cases (v a b : K) : (emit v a b = [(v, a), (v, b)]) ∨ emit v a b = [(v, a)] := by
  unfold emit; split_ifs <;> simp

/-- The pieces of an emitted line have the grid intervals as abscissae. -/
theorem pieces_emitAll_x : ∀ {xs : List K}, xs.Pairwise (· < ·) → ∀ (L R : K → K),
    (pieces (emitAll xs L R)).map (·.1.1) = xs.dropLast ∧ (pieces (emitAll xs L R)).map (·.2.1) = xs.tail := by
  intro xs
  induction xs with
  | nil => intro _ L R; simp [emitAll, pieces]
  | cons v l ih =>
    intro h L R
    have hl := (List.pairwise_cons.1 h)
    cases l with
    | nil =>
      have : emitAll [v] L R = emit v (L v) (R v) := by simp [emitAll]
      rw [this]
      rcases emit_cases v (L v) (R v) with e | e <;> rw [e] <;> simp [pieces]
    | cons w l =>
      have ihl := ih hl.2 L R
      have hvw : v ≠ w := ne_of_lt (hl.1 w (by simp))
      have hcons : ∃ c r, emitAll (w :: l) L R = c :: r ∧ c.1 = w := by
        rcases emit_cases w (L w) (R w) with e | e <;> simp [emitAll, e]
      obtain ⟨c, r, hc, hcw⟩ := hcons
      have hstep : emitAll (v :: w :: l) L R = emit v (L v) (R v) ++ emitAll (w :: l) L R := by simp [emitAll]
      rw [hstep]
      have hvc : ∀ a : K, (pieces ((v, a) :: emitAll (w :: l) L R)) = ((v, a), c) :: pieces (emitAll (w :: l) L R) := by
        intro a
        rw [hc, pieces_cons, if_pos (by simpa [hcw] using hvw)]
      rcases emit_cases v (L v) (R v) with e | e
      · rw [e, List.cons_append, List.cons_append, List.nil_append, pieces_cons, if_neg (by simp), hvc]
        simp only [List.nil_append, List.map_cons, ihl.1, ihl.2, List.dropLast_cons_cons, List.tail_cons, hcw]
        exact ⟨trivial, by simp⟩
      · rw [e, List.cons_append, List.nil_append, hvc]
        simp only [List.map_cons, ihl.1, ihl.2, List.dropLast_cons_cons, List.tail_cons, hcw]
        exact ⟨trivial, by simp⟩

end

/-! ## Profiles on `[0, 1]` -/

/-- Different numbers of `S` are at least the PolyLine tolerance apart. -/
def TolSep (S : Set ℝ) : Prop := ∀ a ∈ S, ∀ b ∈ S, a ≠ b → (1/100000 : ℝ) + 1/100000000 * |b| ≤ |a - b|

/-- The `PolyLine` `p` is a profile over `[0, 1]` with curve `f`, all its abscissae in `S` and all its steps larger
than the PolyLine tolerance. -/
structure Profile (S : Set ℝ) (p : PolyLine ℝ) (f : ℝ → ℝ) : Prop where
  ex : ∃ pts : List (ℝ × ℝ), p.getXY.1 = .ok pts ∧ p.getSegs.1 = .ok (toSegs4 (pieces pts)) ∧
    SortedLe (pts.map Prod.fst) ∧ (∃ h : pts ≠ [], (pts.head h).1 = 0 ∧ (pts.getLast h).1 = 1) ∧
    (∀ q ∈ pts, q.1 ∈ S) ∧ (∀ q ∈ pts, RealStep (firstAt pts q.1) (lastAt pts q.1)) ∧
    ∀ z, 0 < z → z < 1 → (∀ q ∈ pts, q.1 ≠ z) → f z = polyLeft pts z

theorem pieces_ne_nil {pts : List (ℝ × ℝ)} (h : pts ≠ []) (h0 : (pts.head h).1 = 0) (h1 : (pts.getLast h).1 = 1) :
    pieces pts ≠ [] := by
  cases pts with
  | nil => exact absurd rfl h
  | cons q r =>
    intro e
    have := pieces_eq_nil e _ (List.getLast_mem h)
    simp only [List.head_cons] at h0
    rw [h1, h0] at this
    norm_num at this

/-- The four arrays of contiguous segments from 0 to 1 are layers filling `[0, 1]`. -/
theorem layered_of {L : List (Seg ℝ)} (hc : Contiguous L) (hne : L ≠ []) (h0 : (L.head hne).1.1 = 0)
    (h1 : (L.getLast hne).2.1 = 1) : Layered (L.map (·.1.1)) (L.map (·.2.1)) 0 1 where
  pos := by simpa using List.length_pos_iff.2 hne
  len := by simp
  first := by
    rw [List.getElem_map]
    rw [← h0, List.head_eq_getElem]
  last := by
    rw [List.getElem_map]
    rw [← h1, List.getLast_eq_getElem]
    simp
  joined := by
    intro k hk
    rw [List.getElem_map, List.getElem_map]
    exact List.isChain_iff_getElem.1 hc.1 k (by simpa using hk)
  thick := by
    intro k hk
    rw [List.getElem_map, List.getElem_map]
    exact hc.2 _ (List.getElem_mem _)

theorem Profile.segs {S : Set ℝ} {p : PolyLine ℝ} {f : ℝ → ℝ} (h : Profile S p f) :
    ∃ s, p.getSegs.1 = .ok s ∧ Layered s.x1 s.x2 0 1 ∧ LinearIn f s.y1 s.y2 s.x1 s.x2 := by
  obtain ⟨pts, _, hs, hsort, ⟨hne, h0, h1⟩, _, _, hf⟩ := h.ex
  have hpn := pieces_ne_nil hne h0 h1
  refine ⟨_, hs, layered_of (pieces_contiguous hsort) hpn (by rw [pieces_first hpn hne hsort, h0])
    (by rw [pieces_lastx hpn hne hsort, h1]), by simp [toSegs4], by simp [toSegs4], by simp [toSegs4], ?_⟩
  intro k hk z hz1 hz2
  simp only [toSegs4, List.getElem_map] at hz1 hz2 ⊢
  simp only [toSegs4, List.length_map] at hk
  have hmem : (pieces pts)[k] ∈ pieces pts := List.getElem_mem _
  have hin := pieces_mem_mem hmem
  have hb : ∀ q ∈ pts, 0 ≤ q.1 ∧ q.1 ≤ 1 := by
    intro q hq
    constructor
    · rw [← h0]
      cases pts with
      | nil => exact absurd rfl hne
      | cons a l =>
        rcases List.mem_cons.1 hq with rfl | hq
        · exact le_refl _
        · exact sorted_head_le hsort q hq
    · rw [← h1]
      obtain ⟨i, hi, rfl⟩ := List.mem_iff_getElem.1 hq
      rw [List.getLast_eq_getElem]
      rcases Nat.lt_or_ge i (pts.length - 1) with h | h
      · have := (List.pairwise_iff_getElem.1 hsort) i (pts.length - 1) (by simpa using hi) (by simp; omega) h
        simpa using this
      · have : i = pts.length - 1 := by omega
        subst this; exact le_refl _
  rw [hf z (lt_of_le_of_lt (hb _ hin.1).1 hz1) (lt_of_lt_of_le hz2 (hb _ hin.2).2) (by
    intro q hq e
    rcases pieces_no_inside hsort _ hmem q hq with h | h
    · rw [e] at h; linarith
    · rw [e] at h; linarith), polyLeft_piece hsort _ hmem z hz1 hz2]
  rfl

theorem corners_head {L : List (Seg ℝ)} (hne : L ≠ []) : ∃ c, corners L = (L.head hne).1 :: c := by
  match L with
  | [] => exact absurd rfl hne
  | [s] => exact ⟨_, rfl⟩
  | s :: t :: r => rw [corners]; split <;> exact ⟨_, rfl⟩

theorem corners_last : ∀ {L : List (Seg ℝ)} (hne : L ≠ []), (corners L).getLast? = some (L.getLast hne).2 := by
  intro L
  induction L with
  | nil => intro h; exact absurd rfl h
  | cons s L ih =>
    intro _
    match L with
    | [] => rfl
    | t :: r =>
      have := ih (by simp)
      obtain ⟨c, hc⟩ := corners_head (L := t :: r) (by simp)
      rw [corners, hc]
      rw [hc] at this
      split <;> simpa [List.getLast?_cons] using this

theorem corners_sorted : ∀ {L : List (Seg ℝ)}, Contiguous L → SortedLe ((corners L).map Prod.fst) := by
  intro L
  induction L with
  | nil => intro _; simp [corners, SortedLe]
  | cons s L ih =>
    intro h
    match L with
    | [] =>
      have := h.2 s (by simp)
      simp [corners, SortedLe, this.le]
    | t :: r =>
      have ih' := ih ⟨List.IsChain.tail h.1, fun u hu => h.2 u (by simp [hu])⟩
      have h1 := h.2 s (by simp)
      have h2 : s.2.1 = t.1.1 := (List.isChain_cons_cons.1 h.1).1
      obtain ⟨c, hc⟩ := corners_head (L := t :: r) (by simp)
      have hle : ∀ q ∈ corners (t :: r), s.2.1 ≤ q.1 := by
        intro q hq
        rw [hc] at hq ih'
        rcases List.mem_cons.1 hq with rfl | hq
        · exact h2.le
        · rw [h2]; exact sorted_head_le ih' q hq
      have hmap : ∀ v ∈ (corners (t :: r)).map Prod.fst, s.2.1 ≤ v := by
        intro v hv
        obtain ⟨q, hq, rfl⟩ := List.mem_map.1 hv
        exact hle q hq
      unfold SortedLe at ih' ⊢
      rw [corners]
      split
      · rw [List.map_cons, List.map_cons, List.pairwise_cons, List.pairwise_cons]
        refine ⟨?_, hmap, ih'⟩
        intro v hv
        rcases List.mem_cons.1 hv with rfl | hv
        · exact h1.le
        · exact h1.le.trans (hmap v hv)
      · rw [List.map_cons, List.pairwise_cons]
        exact ⟨fun v hv => h1.le.trans (hmap v hv), ih'⟩

/-- `PolyLine(x1, x2, y1, y2)` with contiguous segments from 0 to 1 is a profile. -/
theorem profile_ofSegs {S : Set ℝ} {L : List (Seg ℝ)} (hc : Contiguous L) (hne : L ≠ []) (h0 : (L.head hne).1.1 = 0)
    (h1 : (L.getLast hne).2.1 = 1) (hS : ∀ q ∈ corners L, q.1 ∈ S)
    (hst : ∀ q ∈ corners L, RealStep (firstAt (corners L) q.1) (lastAt (corners L) q.1)) {p : PolyLine ℝ}
    (hp : PolyLine.ofSegs (toSegs4 L) = .ok p) : Profile S p (polyLeft (corners L)) := by
  have e : p = ⟨none, false, false, some (toSegs4 L)⟩ := by
    unfold PolyLine.ofSegs at hp
    rw [if_neg (by simp [toSegs4])] at hp
    simpa using hp.symm
  subst e
  have hpc := pieces_corners (K := ℝ) hc.1 (fun s hs => (hc.2 s hs).ne)
  obtain ⟨c, hcor⟩ := corners_head hne
  have hcn : corners L ≠ [] := by rw [hcor]; simp
  refine ⟨corners L, ?_, by rw [hpc]; rfl, corners_sorted hc, ⟨hcn, ?_, ?_⟩, hS, hst, fun z _ _ _ => rfl⟩
  · unfold PolyLine.getXY
    simp only [convertToXY_eq hne (segs4_check hc), zip_fst_snd]
  · have : (corners L).head? = some (L.head hne).1 := by rw [hcor]; rfl
    rw [List.head?_eq_some_head hcn, Option.some.injEq] at this
    rw [this, h0]
  · have := corners_last hne
    rw [List.getLast?_eq_some_getLast hcn, Option.some.injEq] at this
    rw [this, h1]

/-- `PolyLine(xy)` (and so `PolyLine(x, y)`) with non-decreasing abscissae from 0 to 1 is a profile. -/
theorem profile_ofPts {S : Set ℝ} {pts : List (ℝ × ℝ)} (hsort : SortedLe (pts.map Prod.fst)) (hne : pts ≠ [])
    (h0 : (pts.head hne).1 = 0) (h1 : (pts.getLast hne).1 = 1) (hS : ∀ q ∈ pts, q.1 ∈ S)
    (hst : ∀ q ∈ pts, RealStep (firstAt pts q.1) (lastAt pts q.1)) (a b : Bool) :
    Profile S ⟨some pts, a, b, none⟩ (polyLeft pts) := by
  refine ⟨pts, rfl, ?_, hsort, ⟨hne, h0, h1⟩, hS, hst, fun z _ _ _ => rfl⟩
  simp only [PolyLine.getSegs, PolyLine.getX, PolyLine.getXY, PolyLine.getY]
  rw [convertToSegs_eq (by simp), zip_fst_snd]

theorem Profile.congr {S : Set ℝ} {p : PolyLine ℝ} {f g : ℝ → ℝ} (h : Profile S p f) (hfg : ∀ z, 0 < z → z < 1 → f z = g z) :
    Profile S p g := by
  obtain ⟨pts, a, b, c, d, e, f', g'⟩ := h.ex
  exact ⟨pts, a, b, c, d, e, f', fun z h1 h2 h3 => by rw [← hfg z h1 h2]; exact g' z h1 h2 h3⟩

theorem mapM_ok_ex {α β : Type} {f : α → Except PyErr β} : ∀ {l : List α}, (∀ a ∈ l, ∃ b, f a = .ok b) →
    ∃ out, l.mapM f = .ok out ∧ out.length = l.length ∧ ∀ k (h : k < l.length) (h' : k < out.length), f l[k] = .ok out[k] := by
  intro l
  induction l with
  | nil => intro _; exact ⟨[], rfl, rfl, fun k h => by simp at h⟩
  | cons a l ih =>
    intro h
    obtain ⟨b, hb⟩ := h a (by simp)
    obtain ⟨out, h1, h2, h3⟩ := ih (fun a ha => h a (by simp [ha]))
    refine ⟨b :: out, by rw [List.mapM_cons, hb, h1]; rfl, by simp [h2], ?_⟩
    intro k hk hk'
    cases k with
    | zero => simpa using hb
    | succ k => simpa using h3 k (by simpa using hk) (by simpa using hk')

/-- `polyline_make_x_common` on profiles: it succeeds, all results have the same segment abscissae, and each result is
a profile with the same curve as the original. -/
theorem common_profiles {S : Set ℝ} (hS : TolSep S) (ps : List (PolyLine ℝ)) (fs : List (ℝ → ℝ)) (hl : fs.length = ps.length)
    (hp : ∀ k (h : k < ps.length), Profile S ps[k] (fs[k]'(by omega))) (hne : ps ≠ []) :
    ∃ out, commonLines ps = .ok out ∧ ∃ ho : out.length = ps.length, ∃ zt zb,
      ∀ k (h : k < ps.length), Profile S (out[k]'(by omega)) (fs[k]'(by omega)) ∧
        ∃ y1 y2, (out[k]'(by omega)).getSegs.1 = .ok ⟨zt, zb, y1, y2⟩ := by
  obtain ⟨ls, hls, hlen, hget⟩ := mapM_ok_ex (f := fun p : PolyLine ℝ => (do
      let xy ← p.getXY.1
      pure (xy.map Prod.fst, xy.map Prod.snd) : Except PyErr (List ℝ × List ℝ))) (l := ps) (by
    intro p hpm
    obtain ⟨k, hk, rfl⟩ := List.mem_iff_getElem.1 hpm
    obtain ⟨pts, h1, _⟩ := (hp k hk).ex
    exact ⟨_, by rw [h1]; rfl⟩)
  have hpt : ∀ k (h : k < ls.length), ∃ pts, ls[k] = (pts.map Prod.fst, pts.map Prod.snd) ∧ ptsOf ls[k] = pts ∧
      SortedLe (pts.map Prod.fst) ∧ (∃ h : pts ≠ [], (pts.head h).1 = 0 ∧ (pts.getLast h).1 = 1) ∧
      (∀ q ∈ pts, q.1 ∈ S) ∧ (∀ q ∈ pts, RealStep (firstAt pts q.1) (lastAt pts q.1)) ∧
      ∀ z, 0 < z → z < 1 → (∀ q ∈ pts, q.1 ≠ z) → (fs[k]'(by omega)) z = polyLeft pts z := by
    intro k hk
    obtain ⟨pts, h1, _, h3, h4, h5, h6, h7⟩ := (hp k (by omega)).ex
    have := hget k (by omega) hk
    rw [h1] at this
    have e : ls[k] = (pts.map Prod.fst, pts.map Prod.snd) := by
      simpa [bind, Except.bind, pure, Except.pure] using this.symm
    exact ⟨pts, e, by rw [e]; exact zip_fst_snd pts, h3, h4, h5, h6, h7⟩
  have hprop : ∀ k (hk : k < ls.length), ProperLine ls[k] ∧ Ascending ls[k] ls[k] := by
    intro k hk
    obtain ⟨pts, e, _, hs, ⟨hn, h0, h1⟩, _⟩ := hpt k hk
    refine ⟨⟨by rw [e]; simp, 0, ?_, 1, ?_, zero_lt_one⟩, Or.inl ⟨by rw [e]; exact hs, rfl⟩⟩
    · rw [e, ← h0]; exact List.mem_map.2 ⟨_, List.head_mem hn, rfl⟩
    · rw [e, ← h1]; exact List.mem_map.2 ⟨_, List.getLast_mem hn, rfl⟩
  have hsep : WellSeparated ls := by
    intro l hl m hm a ha b hb hab
    obtain ⟨i, hi, rfl⟩ := List.mem_iff_getElem.1 hl
    obtain ⟨j, hj, rfl⟩ := List.mem_iff_getElem.1 hm
    obtain ⟨pts, e, _, _, _, hs1, _⟩ := hpt i hi
    obtain ⟨pts', e', _, _, _, hs2, _⟩ := hpt j hj
    rw [e] at ha
    rw [e'] at hb
    obtain ⟨q, hq, rfl⟩ := List.mem_map.1 ha
    obtain ⟨q', hq', rfl⟩ := List.mem_map.1 hb
    exact hS _ (hs1 q hq) _ (hs2 q' hq') hab
  obtain ⟨xs, hxp, hxm, hpl, hlen2, hmain⟩ := makeXCommon_core ls ls rfl hprop hsep
  refine ⟨_, by unfold commonLines; rw [hls]; exact hmain, by simp [hlen], xs.dropLast, xs.tail, ?_⟩
  intro k hk
  have hk' : k < ls.length := by omega
  have e : ls.getD k ([], []) = ls[k] := by
    rw [List.getD_eq_getElem?_getD, List.getElem?_eq_getElem hk']; rfl
  simp only [List.getElem_map, List.getElem_range, e]
  set out := emitAll xs (firstAt (ptsOf ls[k])) (lastAt (ptsOf ls[k])) with hout
  obtain ⟨pts, epts, ept, hsort, ⟨hn, h0, h1⟩, hSin, hst, hf⟩ := hpt k hk'
  have hos : SortedLe (out.map Prod.fst) := emitAll_sorted hxp _ _
  have honil : out ≠ [] := by intro h; have := hlen2 k hk'; rw [← hout, h] at this; simp at this
  have hxS : ∀ v ∈ xs, v ∈ S ∧ 0 ≤ v ∧ v ≤ 1 := by
    intro v hv
    obtain ⟨l, hl, hvl⟩ := (hxm v).1 hv
    obtain ⟨i, hi, rfl⟩ := List.mem_iff_getElem.1 hl
    obtain ⟨pts', e', _, hs', ⟨hn', h0', h1'⟩, hs2, _⟩ := hpt i hi
    rw [e'] at hvl
    obtain ⟨q, hq, rfl⟩ := List.mem_map.1 hvl
    refine ⟨hs2 q hq, ?_, ?_⟩
    · rw [← h0']
      cases pts' with
      | nil => exact absurd rfl hn'
      | cons a l =>
        rcases List.mem_cons.1 hq with rfl | hq
        · exact le_refl _
        · exact sorted_head_le hs' q hq
    · rw [← h1']
      obtain ⟨i, hi, rfl⟩ := List.mem_iff_getElem.1 hq
      rw [List.getLast_eq_getElem]
      rcases Nat.lt_or_ge i (pts'.length - 1) with h | h
      · have := (List.pairwise_iff_getElem.1 hs') i (pts'.length - 1) (by simpa using hi) (by simp; omega) h
        simpa using this
      · have : i = pts'.length - 1 := by omega
        subst this; exact le_refl _
  have hx0 : (0:ℝ) ∈ xs := by
    refine (hxm 0).2 ⟨ls[k], List.getElem_mem _, ?_⟩
    rw [epts, ← h0]; exact List.mem_map.2 ⟨_, List.head_mem hn, rfl⟩
  have hx1 : (1:ℝ) ∈ xs := by
    refine (hxm 1).2 ⟨ls[k], List.getElem_mem _, ?_⟩
    rw [epts, ← h1]; exact List.mem_map.2 ⟨_, List.getLast_mem hn, rfl⟩
  have homem : ∀ q ∈ out, q.1 ∈ xs := fun q hq => (mem_emitAll_fst xs _ _ q.1).1 ⟨q, hq, rfl⟩
  have hreal : ∀ v ∈ xs, RealStep (firstAt (ptsOf ls[k]) v) (lastAt (ptsOf ls[k]) v) := by
    intro v hv
    rw [ept]
    by_cases hvk : ∃ q ∈ pts, q.1 = v
    · obtain ⟨q, hq, rfl⟩ := hvk
      exact hst q hq
    · left
      have hne : ∀ p ∈ pts, p.1 ≠ v := by
        intro p hp he; exact hvk ⟨p, hp, he⟩
      rw [firstAt_not_mem hne, lastAt_not_mem hne]
  refine ⟨⟨out, rfl, ?_, hos, ⟨honil, ?_, ?_⟩, fun q hq => (hxS _ (homem q hq)).1, ?_, ?_⟩, ?_⟩
  · simp only [PolyLine.getSegs, PolyLine.getX, PolyLine.getXY, PolyLine.getY]
    rw [convertToSegs_eq (by simp), zip_fst_snd]
  · refine le_antisymm ?_ (hxS _ (homem _ (List.head_mem _))).2.1
    obtain ⟨q, hq, he⟩ := (mem_emitAll_fst xs (firstAt (ptsOf ls[k])) (lastAt (ptsOf ls[k])) 0).2 hx0
    rw [← hout] at hq
    revert hos honil hq
    generalize out = o
    intro hos hon hq
    cases o with
    | nil => exact absurd rfl hon
    | cons a l =>
      rw [← he]
      rcases List.mem_cons.1 hq with rfl | hq
      · exact le_refl _
      · exact sorted_head_le hos q hq
  · refine le_antisymm (hxS _ (homem _ (List.getLast_mem _))).2.2 ?_
    obtain ⟨q, hq, he⟩ := (mem_emitAll_fst xs (firstAt (ptsOf ls[k])) (lastAt (ptsOf ls[k])) 1).2 hx1
    rw [← hout] at hq
    rw [← he]
    obtain ⟨i, hi, rfl⟩ := List.mem_iff_getElem.1 hq
    rw [List.getLast_eq_getElem]
    rcases Nat.lt_or_ge i (out.length - 1) with h | h
    · have := (List.pairwise_iff_getElem.1 hos) i (out.length - 1) (by simpa using hi) (by simp; omega) h
      simpa using this
    · have : i = out.length - 1 := by omega
      subst this; exact le_refl _
  · intro q hq
    have hv := homem q hq
    rw [hout, firstAt_emitAll hxp _ _ hv, lastAt_emitAll hxp _ _ hv (hreal _ hv)]
    exact hreal _ hv
  · intro z hz0 hz1 hzq
    have hzx : z ∉ xs := by
      intro h
      obtain ⟨q, hq, he⟩ := (mem_emitAll_fst xs (firstAt (ptsOf ls[k])) (lastAt (ptsOf ls[k])) z).2 h
      exact hzq q hq he
    have hzp : ∀ q ∈ pts, q.1 ≠ z := by
      intro q hq he
      refine hzx ((hxm z).2 ⟨ls[k], List.getElem_mem _, ?_⟩)
      rw [epts, ← he]; exact List.mem_map.2 ⟨q, hq, rfl⟩
    rw [hf z hz0 hz1 hzp]
    obtain ⟨c, d, u, hu, w, hw, H⟩ := polyLeft_grid hxp (List.ne_nil_of_mem hx0) hzx
    rw [H out hos honil homem, H pts hsort hn (fun q hq => (hxm _).2 ⟨ls[k], List.getElem_mem _, by
      rw [epts]; exact List.mem_map.2 ⟨q, hq, rfl⟩⟩)]
    rw [hout, lastAt_emitAll hxp _ _ hu (hreal _ hu), firstAt_emitAll hxp _ _ hw, ept]
  · obtain ⟨e1, e2⟩ := pieces_emitAll_x hxp (firstAt (ptsOf ls[k])) (lastAt (ptsOf ls[k]))
    rw [← hout] at e1 e2
    refine ⟨(pieces out).map (·.1.2), (pieces out).map (·.2.2), ?_⟩
    simp only [PolyLine.getSegs, PolyLine.getX, PolyLine.getXY, PolyLine.getY]
    rw [convertToSegs_eq (by simp), zip_fst_snd, toSegs4, e1, e2]

end Geotecha.Piecewise
