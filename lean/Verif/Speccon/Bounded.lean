import Verif.Speccon.Props
import Verif.Piecewise.CommonSegs

/-!
# Bounded measurable functions on `[0, 1]` (helpers: integrability of products of profiles)
-/

set_option linter.unusedVariables false
open Real intervalIntegral MeasureTheory
namespace Geotecha.Speccon
open Geotecha.Spec Geotecha.Piecewise

/-- Measurable and almost everywhere bounded on `(a, b]`. -/
structure BddOn (f : ℝ → ℝ) (a b : ℝ) : Prop where
  meas : AEStronglyMeasurable f (volume.restrict (Set.Ioc a b))
  bdd : ∃ C, ∀ᵐ z ∂volume.restrict (Set.Ioc a b), ‖f z‖ ≤ C

theorem BddOn.mul {f g : ℝ → ℝ} {a b : ℝ} (hf : BddOn f a b) (hg : BddOn g a b) : BddOn (fun z => f z * g z) a b := by
  obtain ⟨C, hC⟩ := hf.bdd
  obtain ⟨D, hD⟩ := hg.bdd
  refine ⟨hf.meas.mul hg.meas, C * D, ?_⟩
  filter_upwards [hC, hD] with z h1 h2
  rw [norm_mul]
  exact mul_le_mul h1 h2 (norm_nonneg _) ((norm_nonneg _).trans h1)

theorem BddOn.add {f g : ℝ → ℝ} {a b : ℝ} (hf : BddOn f a b) (hg : BddOn g a b) : BddOn (fun z => f z + g z) a b := by
  obtain ⟨C, hC⟩ := hf.bdd
  obtain ⟨D, hD⟩ := hg.bdd
  refine ⟨hf.meas.add hg.meas, C + D, ?_⟩
  filter_upwards [hC, hD] with z h1 h2
  exact (norm_add_le _ _).trans (add_le_add h1 h2)

theorem BddOn.of_continuous {f : ℝ → ℝ} (hf : Continuous f) (a b : ℝ) : BddOn f a b := by
  refine ⟨hf.aestronglyMeasurable, ?_⟩
  obtain ⟨C, hC⟩ := (isCompact_Icc (a := a) (b := b)).exists_bound_of_continuousOn hf.continuousOn
  refine ⟨C, ?_⟩
  filter_upwards [ae_restrict_mem measurableSet_Ioc] with z hz
  exact hC z ⟨hz.1.le, hz.2⟩

theorem BddOn.sum {ι : Type} {s : Finset ι} {f : ι → ℝ → ℝ} {a b : ℝ} (h : ∀ i ∈ s, BddOn (f i) a b) :
    BddOn (fun z => ∑ i ∈ s, f i z) a b := by
  classical
  induction s using Finset.induction_on with
  | empty => simpa using BddOn.of_continuous continuous_const a b
  | insert i s hi ih =>
    simp only [Finset.sum_insert hi]
    exact (h i (by simp)).add (ih (fun j hj => h j (by simp [hj])))

theorem BddOn.listSum {ι : Type} {l : List ι} {f : ι → ℝ → ℝ} {a b : ℝ} (h : ∀ i ∈ l, BddOn (f i) a b) :
    BddOn (fun z => (l.map (fun i => f i z)).sum) a b := by
  induction l with
  | nil => simpa using BddOn.of_continuous continuous_const a b
  | cons i s ih =>
    simp only [List.map_cons, List.sum_cons]
    exact (h i (by simp)).add (ih (fun j hj => h j (by simp [hj])))

theorem BddOn.int {f : ℝ → ℝ} {a b : ℝ} (hab : a ≤ b) (hf : BddOn f a b) : IntervalIntegrable f volume a b := by
  rw [intervalIntegrable_iff_integrableOn_Ioc_of_le hab]
  obtain ⟨C, hC⟩ := hf.bdd
  exact Integrable.of_bound hf.meas C hC

theorem BddOn.congr_Ioo {f g : ℝ → ℝ} {a b : ℝ} (hg : BddOn g a b) (h : ∀ z, a < z → z < b → f z = g z) : BddOn f a b := by
  have hae : f =ᵐ[volume.restrict (Set.Ioc a b)] g := by
    rw [← restrict_Ioo_eq_restrict_Ioc]
    filter_upwards [ae_restrict_mem measurableSet_Ioo] with z hz
    exact h z hz.1 hz.2
  obtain ⟨C, hC⟩ := hg.bdd
  refine ⟨hg.meas.congr hae.symm, C, ?_⟩
  filter_upwards [hae, hC] with z h1 h2
  rw [h1]; exact h2

theorem BddOn.trans {f : ℝ → ℝ} {a b c : ℝ} (hab : a ≤ b) (hbc : b ≤ c) (h1 : BddOn f a b) (h2 : BddOn f b c) : BddOn f a c := by
  obtain ⟨C, hC⟩ := h1.bdd
  obtain ⟨D, hD⟩ := h2.bdd
  have e := Set.Ioc_union_Ioc_eq_Ioc hab hbc
  refine ⟨by rw [← e]; exact aestronglyMeasurable_union_iff.2 ⟨h1.meas, h2.meas⟩, max C D, ?_⟩
  rw [← e, ae_restrict_union_iff]
  exact ⟨hC.mono (fun z h => h.trans (le_max_left _ _)), hD.mono (fun z h => h.trans (le_max_right _ _))⟩

/-- A property of intervals that holds for every layer and for adjacent intervals together holds for the whole. -/
theorem layered_rec {Q : ℝ → ℝ → Prop} {zt zb : List ℝ} {top bot : ℝ} (h : Layered zt zb top bot)
    (ht : ∀ a b c, a ≤ b → b ≤ c → Q a b → Q b c → Q a c)
    (hk : ∀ k, k < zt.length → Q (zt.getD k 0) (zb.getD k 0)) : Q top bot := by
  have hlen := h.len
  have gt : ∀ k (hk : k < zt.length), zt.getD k 0 = zt[k] := fun k hk => by simp [hk]
  have gb : ∀ k (hk : k < zt.length), zb.getD k 0 = zb[k] := fun k hk => by
    rw [List.getD_eq_getElem?_getD, List.getElem?_eq_getElem (by omega)]; rfl
  have hle : ∀ k, k < zt.length → zt.getD k 0 ≤ zb.getD k 0 := fun k hk => by
    rw [gt k hk, gb k hk]; exact (h.thick k hk).le
  have main : ∀ k, k < zt.length → top ≤ zb.getD k 0 ∧ Q top (zb.getD k 0) := by
    intro k
    induction k with
    | zero =>
      intro hk'
      have := hk 0 hk'
      have h2 := hle 0 hk'
      rw [gt 0 hk', h.first] at this h2
      exact ⟨h2, this⟩
    | succ k ih =>
      intro hk'
      obtain ⟨h1, h2⟩ := ih (by omega)
      have e : zb.getD k 0 = zt.getD (k+1) 0 := by rw [gb k (by omega), gt (k+1) hk', h.joined k hk']
      rw [e] at h1 h2
      exact ⟨h1.trans (hle _ hk'), ht _ _ _ h1 (hle _ hk') h2 (hk _ hk')⟩
  have hp := h.pos
  have := (main (zt.length - 1) (by omega)).2
  rw [gb _ (by omega)] at this
  rwa [h.last] at this

theorem linearIn_bdd {f : ℝ → ℝ} {y1 y2 zt zb : List ℝ} {top bot : ℝ} (h : Layered zt zb top bot) (hf : LinearIn f y1 y2 zt zb) :
    BddOn f top bot := by
  refine layered_rec (Q := BddOn f) h (fun a b c h1 h2 => BddOn.trans h1 h2) (fun k hk => ?_)
  refine (BddOn.of_continuous (f := fun z => y1.getD k 0 + slope y1 y2 zt zb k * (z - zt.getD k 0)) (by fun_prop) _ _).congr_Ioo ?_
  exact fun z h1 h2 => linearIn_getD hf k hk z h1 h2

theorem Profile.bdd {S : Set ℝ} {p : PolyLine ℝ} {f : ℝ → ℝ} (h : Profile S p f) : BddOn f 0 1 := by
  obtain ⟨s, _, h1, h2⟩ := h.segs
  exact linearIn_bdd h1 h2

/-! ## Straight lines on the layers of a profile -/

theorem polyLeft_on_line {c d z : ℝ} : ∀ {pts : List (ℝ × ℝ)} (hne : pts ≠ []), (∀ q ∈ pts, q.2 = c + d * q.1) →
    SortedLe (pts.map Prod.fst) → (pts.head hne).1 ≤ z → z ≤ (pts.getLast hne).1 → polyLeft pts z = c + d * z := by
  intro pts
  induction pts with
  | nil => intro h; exact absurd rfl h
  | cons p pts ih =>
    intro hne hl hs h1 h2
    match pts with
    | [] =>
      simp only [List.head_cons, List.getLast_singleton] at h1 h2
      rw [polyLeft, hl p (by simp), le_antisymm h2 h1]
    | q :: r =>
      simp only [List.head_cons] at h1
      have hs' : SortedLe ((q :: r).map Prod.fst) := (List.pairwise_cons.1 hs).2
      have hpq : p.1 ≤ q.1 := (List.pairwise_cons.1 hs).1 q.1 (by simp)
      rw [polyLeft, if_neg (not_lt.2 h1)]
      split_ifs with h
      · rw [line, hl p (by simp), hl q (by simp)]
        have : q.1 - p.1 ≠ 0 := by linarith [h.1]
        field_simp
        ring
      · refine ih (by simp) (fun q hq => hl q (by simp [hq])) hs' ?_ (by simpa using h2)
        simp only [List.head_cons]
        by_contra hc
        rw [not_le] at hc
        exact h ⟨lt_of_le_of_lt h1 hc, hc.le⟩

theorem firstAt_on_line {c d v : ℝ} {pts : List (ℝ × ℝ)} (hl : ∀ q ∈ pts, q.2 = c + d * q.1) (hv : ∃ q ∈ pts, q.1 = v) :
    firstAt pts v = c + d * v ∧ lastAt pts v = c + d * v := by
  obtain ⟨q, hq, rfl⟩ := hv
  constructor
  · unfold firstAt
    split
    · rename_i p hp
      have h1 := List.mem_of_find?_eq_some hp
      have h2 := List.find?_some hp
      rw [hl p h1, of_decide_eq_true h2]
    · rename_i hp
      rw [List.find?_eq_none] at hp
      exact absurd (decide_eq_true rfl) (hp q hq)
  · unfold lastAt
    split
    · rename_i p hp
      have h1 := List.mem_of_find?_eq_some hp
      have h2 := List.find?_some hp
      rw [hl p (List.mem_reverse.1 h1), of_decide_eq_true h2]
    · rename_i hp
      rw [List.find?_eq_none] at hp
      exact absurd (decide_eq_true rfl) (hp q (List.mem_reverse.2 hq))

theorem corners_mem : ∀ {L : List (Seg ℝ)} {q : ℝ × ℝ}, q ∈ corners L → ∃ s ∈ L, q = s.1 ∨ q = s.2 := by
  intro L
  induction L with
  | nil => intro q hq; simp [corners] at hq
  | cons s L ih =>
    intro q hq
    match L with
    | [] =>
      simp only [corners, List.mem_cons, List.not_mem_nil, or_false] at hq
      exact ⟨s, by simp, hq⟩
    | t :: r =>
      rw [corners] at hq
      split at hq
      · rcases List.mem_cons.1 hq with h | h
        · exact ⟨s, by simp, Or.inl h⟩
        · rcases List.mem_cons.1 h with h | h
          · exact ⟨s, by simp, Or.inr h⟩
          · obtain ⟨u, hu, h⟩ := ih h
            exact ⟨u, by simp [List.mem_cons.1 hu], h⟩
      · rcases List.mem_cons.1 hq with h | h
        · exact ⟨s, by simp, Or.inl h⟩
        · obtain ⟨u, hu, h⟩ := ih h
          exact ⟨u, by simp [List.mem_cons.1 hu], h⟩

/-- The segments of a profile with the heights replaced by those of a straight line. -/
theorem profile_line {S : Set ℝ} {p : PolyLine ℝ} {f : ℝ → ℝ} (h : Profile S p f) :
    ∃ s, p.getSegs.1 = .ok s ∧ Layered s.x1 s.x2 0 1 ∧ LinearIn f s.y1 s.y2 s.x1 s.x2 ∧ s.x2.getLast? = some 1 ∧
      ∀ g : ℝ → ℝ, ∀ c d, (∀ x, g x = c + d * x) →
      ∃ q, PolyLine.ofSegs ⟨s.x1, s.x2, s.x1.map g, s.x2.map g⟩ = .ok q ∧ Profile S q g := by
  obtain ⟨s, hs, hlay, hlin⟩ := h.segs
  obtain ⟨pts, _, hs', hsort, ⟨hne, h0, h1⟩, hS, _, _⟩ := h.ex
  rw [hs] at hs'
  cases hs'
  have hpn := pieces_ne_nil hne h0 h1
  refine ⟨_, hs, hlay, hlin, ?_, ?_⟩
  · have := pieces_lastx hpn hne hsort
    simp only [toSegs4, List.getLast?_map, List.getLast?_eq_some_getLast hpn, Option.map_some, this, h1]
  · intro g c d hg
    set L : List (Seg ℝ) := (pieces pts).map (fun s => ((s.1.1, g s.1.1), (s.2.1, g s.2.1))) with hL
    have e : (⟨(toSegs4 (pieces pts)).x1, (toSegs4 (pieces pts)).x2, (toSegs4 (pieces pts)).x1.map g, (toSegs4 (pieces pts)).x2.map g⟩
        : Segs4 ℝ) = toSegs4 L := by
      simp [toSegs4, hL, Function.comp_def]
    rw [e]
    have hpc := pieces_contiguous hsort
    have hc : Contiguous L := by
      refine ⟨?_, ?_⟩
      · rw [hL, List.isChain_map]; exact hpc.1
      · intro s hs
        obtain ⟨u, hu, rfl⟩ := List.mem_map.1 hs
        exact hpc.2 u hu
    have hLn : L ≠ [] := by simpa [hL] using hpn
    have hl : ∀ q ∈ corners L, q.2 = c + d * q.1 ∧ q.1 ∈ S := by
      intro q hq
      obtain ⟨s, hs, hq⟩ := corners_mem hq
      obtain ⟨u, hu, rfl⟩ := List.mem_map.1 hs
      have := pieces_mem_mem hu
      rcases hq with rfl | rfl
      · exact ⟨hg _, hS u.1 this.1⟩
      · exact ⟨hg _, hS u.2 this.2⟩
    have hh0 : (L.head hLn).1.1 = 0 := by
      have := pieces_first hpn hne hsort
      rw [h0] at this
      simp only [hL, List.head_map]; exact this
    have hh1 : (L.getLast hLn).2.1 = 1 := by
      have := pieces_lastx hpn hne hsort
      rw [h1] at this
      simp only [hL, List.getLast_map]; exact this
    obtain ⟨q, hq⟩ : ∃ q, PolyLine.ofSegs (toSegs4 L) = .ok q := ⟨_, by unfold PolyLine.ofSegs; rw [if_neg (by simp [toSegs4])]⟩
    refine ⟨q, hq, (profile_ofSegs hc hLn hh0 hh1 (fun q hq => (hl q hq).2) ?_ hq).congr ?_⟩
    · intro q hq
      have := firstAt_on_line (fun q hq => (hl q hq).1) ⟨q, hq, rfl⟩
      rw [this.1, this.2]; exact Or.inl rfl
    · intro z hz0 hz1
      obtain ⟨t, hcor⟩ := corners_head hLn
      have hcn : corners L ≠ [] := by rw [hcor]; simp
      have a0 : (corners L).head? = some (L.head hLn).1 := by rw [hcor]; rfl
      rw [List.head?_eq_some_head hcn, Option.some.injEq] at a0
      have a1 := corners_last hLn
      rw [List.getLast?_eq_some_getLast hcn, Option.some.injEq] at a1
      rw [hg z]
      exact polyLeft_on_line hcn (fun q hq => (hl q hq).1) (corners_sorted hc) (by rw [a0, hh0]; exact hz0.le)
        (by rw [a1, hh1]; exact hz1.le)

end Geotecha.Speccon
