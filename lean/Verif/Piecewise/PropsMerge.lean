import Verif.Piecewise.Merge2
import Verif.Piecewise.PropsPoly

set_option linter.unusedSectionVars false
set_option linter.unusedSimpArgs false
set_option linter.unusedVariables false

namespace Geotecha.Spec
variable {K : Type} [Field K] [LinearOrder K]

/-- A monotone line `a` (abscissae, ordinates) read from left to right is `a'`.  Descending data that
begin with a vertical step are excluded (see `C14_negation`). -/
def Ascending (a a' : List K × List K) : Prop :=
  (a.1.Pairwise (· ≤ ·) ∧ a' = a) ∨
  (a.1.Pairwise (· ≥ ·) ∧ a' = (a.1.reverse, a.2.reverse) ∧ a.1.getD 0 0 ≠ a.1.getD 1 0)

/-- Number of abscissae equals number of ordinates, and the abscissae are not all equal. -/
def ProperLine (a : List K × List K) : Prop := a.1.length = a.2.length ∧ ∃ u ∈ a.1, ∃ v ∈ a.1, u < v

/-- The points of a line. -/
abbrev ptsOf (a : List K × List K) : List (K × K) := a.1.zip a.2

/-- Any two different abscissae of the lines are at least the PolyLine tolerance apart. -/
def WellSeparated (ls : List (List K × List K)) : Prop :=
  ∀ l ∈ ls, ∀ m ∈ ls, ∀ a ∈ l.1, ∀ b ∈ m.1, a ≠ b → (1/100000 : K) + 1/100000000 * |b| ≤ |a - b|

/-- A step from `p` to `q` is either no step or larger than the PolyLine tolerance. -/
def RealStep (p q : K) : Prop := p = q ∨ |p - q| > (1/100000 : K) + 1/100000000 * |q|

end Geotecha.Spec

namespace Geotecha.Piecewise
open Geotecha.Spec
variable {K : Type} [Field K] [LinearOrder K] [IsStrictOrderedRing K]

/-- If nearly collinear means exactly collinear, and no two points nearly coincide, dropping superfluous
points does not change the curve. -/
theorem C10_curve_unchanged (x y x' y' : List K) (atol : K) (hx : x.Pairwise (· ≤ ·)) (h0 : 0 < x.length)
    (h : removeSuperfluous x y atol = .ok (x', y'))
    (hd : ∀ i k, i < k → k < x.length →
      (1/100000000)^2 < (x.getD k 0 - x.getD i 0)^2 + (y.getD k 0 - y.getD i 0)^2)
    (hex : ∀ i k j, i < k → k < j → j < x.length →
      NearLine (x.getD i 0, y.getD i 0) (x.getD j 0, y.getD j 0) (x.getD k 0, y.getD k 0) atol →
      (x.getD j 0 - x.getD i 0) * (y.getD k 0 - y.getD i 0) = (y.getD j 0 - y.getD i 0) * (x.getD k 0 - x.getD i 0))
    (t : K) (ht : t ∉ x) : polyLeft (x'.zip y') t = polyLeft (x.zip y) t := by
  have hl := (C10_subsequence x y x' y' atol h0 h).1
  have hk' := (C10_subsequence x y x' y' atol h0 h).2
  obtain ⟨ks, hks, hh, hla, rfl, rfl, hgap⟩ := C10_dropped_near_line_partial x y x' y' atol h0 h hd
  have hbound : ∀ k ∈ ks, k < x.length := by
    intro k hk
    obtain ⟨i, hi, rfl⟩ := List.mem_iff_getElem.1 hk
    have h1 : ks[ks.length - 1]'(by omega) = x.length - 1 := by
      rw [List.getLast?_eq_getElem?, List.getElem?_eq_getElem (by omega)] at hla
      simpa using hla
    rcases Nat.lt_or_eq_of_le (show i ≤ ks.length - 1 by omega) with h2 | h2
    · have := List.pairwise_iff_getElem.1 hks i (ks.length - 1) hi (by omega) h2
      omega
    · subst h2; omega
  have hpos : 0 < ks.length := by
    rcases ks with _ | ⟨a, r⟩
    · simp at hh
    · simp
  have hfirst : ks[0] = 0 := by
    rw [List.head?_eq_getElem?, List.getElem?_eq_getElem hpos] at hh
    simpa using hh
  have hlast : ks[ks.length - 1] = x.length - 1 := by
    rw [List.getLast?_eq_getElem?, List.getElem?_eq_getElem (by omega)] at hla
    simpa using hla
  have en : ∀ (z : List K) i (hi : i < ks.length), nth (ks.map (fun k => z.getD k 0)) i = nth z ks[i] := by
    intro z i hi
    rw [nth_eq_getElem (by simpa using hi), List.getElem_map]
  have hs' : SortedLe (ks.map (fun k => x.getD k 0)) := by
    unfold SortedLe
    rw [List.pairwise_map]
    refine List.Pairwise.imp_of_mem ?_ hks
    intro i j hi hj hij
    exact nth_mono hx (le_of_lt hij) (hbound j hj)
  have hl' : (ks.map (fun k => x.getD k 0)).length = (ks.map (fun k => y.getD k 0)).length := by simp
  have hne : ∀ i (hi : i < x.length), nth x i ≠ t := by
    intro i hi he; exact ht (he ▸ nth_mem hi)
  rcases lt_or_ge t (nth x 0) with hlow | hlow
  · rw [polyLeft_below hl' (by simpa using hpos) (by rw [en _ 0 hpos, hfirst]; exact hlow),
      polyLeft_below hl h0 hlow, en _ 0 hpos, hfirst]
  · rcases lt_or_ge (nth x (x.length - 1)) t with hhigh | hhigh
    · have hm : (ks.map (fun k => x.getD k 0)).length - 1 = ks.length - 1 := by simp
      rw [polyLeft_above hs' hl' (by simpa using hpos) (by rw [hm, en _ (ks.length - 1) (by omega), hlast]; exact hhigh),
        polyLeft_above hx hl h0 hhigh, ← hl', hm, en _ (ks.length - 1) (by omega), hlast, hl]
    · have hlt0 : nth x 0 < t := lt_of_le_of_ne hlow (hne 0 h0)
      have hlt1 : t < nth x (x.length - 1) := lt_of_le_of_ne hhigh (Ne.symm (hne _ (by omega)))
      obtain ⟨j, hj, hj1, hj2, hj3⟩ := exists_seg hx (by intro h; rw [h] at h0; simp at h0) hlow hhigh (lt_trans hlt0 hlt1)
      have hj2' : nth x j < t := lt_of_le_of_ne hj2 (hne j (by omega))
      have hj3' : t < nth x (j+1) := lt_of_le_of_ne hj3 (Ne.symm (hne _ hj))
      -- the kept indices around j
      have hfind : ∀ m, m < ks.length → j < ks[m]! → ∃ i, ∃ hi : i + 1 < ks.length, ks[i] ≤ j ∧ j < ks[i+1] := by
        intro m
        induction m with
        | zero => intro hm hlt; rw [getElem!_pos ks 0 hm, hfirst] at hlt; omega
        | succ m ih =>
          intro hm hlt
          by_cases hc : j < ks[m]!
          · exact ih (by omega) hc
          · rw [getElem!_pos ks m (by omega)] at hc
            rw [getElem!_pos ks (m+1) hm] at hlt
            exact ⟨m, hm, by omega, hlt⟩
      obtain ⟨i, hi, hi1, hi2⟩ := hfind (ks.length - 1) (by omega) (by rw [getElem!_pos ks _ (by omega), hlast]; omega)
      have hb := hbound ks[i+1] (List.getElem_mem _)
      have hxa : nth x ks[i] ≤ nth x j := nth_mono hx hi1 (by omega)
      have hxb : nth x (j+1) ≤ nth x ks[i+1] := nth_mono hx hi2 hb
      rw [polyLeft_eq_line hx hl hj hj1 hj2 hj3 (by
        intro m hm _
        exact lt_of_le_of_lt (nth_mono hx (show m + 1 ≤ j by omega) (by omega)) hj2')]
      rw [polyLeft_eq_line hs' hl' (j := i) (by simpa using hi) (by rw [en _ i (by omega), en _ (i+1) hi]; linarith)
        (by rw [en _ i (by omega)]; linarith) (by rw [en _ (i+1) hi]; linarith) (by
          intro m hm _
          have hlen : m + 1 < ks.length := by omega
          rw [en _ (m+1) hlen]
          have : ks[m+1] ≤ ks[i] := by
            rcases Nat.lt_or_eq_of_le (show m + 1 ≤ i by omega) with h | h
            · exact le_of_lt (List.pairwise_iff_getElem.1 hks (m+1) i hlen (by omega) h)
            · subst h; exact le_rfl
          have h3 := nth_mono hx this (by omega)
          linarith)]
      simp only [en _ i (by omega), en _ (i+1) hi]
      -- both corner points of the small segment are on the long line
      have hcol : ∀ k, ks[i] ≤ k → k ≤ ks[i+1] →
          (nth x ks[i+1] - nth x ks[i]) * (nth y k - nth y ks[i]) = (nth y ks[i+1] - nth y ks[i]) * (nth x k - nth x ks[i]) := by
        intro k hk1 hk2
        rcases Nat.lt_or_eq_of_le hk1 with h1 | h1
        · rcases Nat.lt_or_eq_of_le hk2 with h2 | h2
          · exact hex _ _ _ h1 h2 hb (hgap i hi k h1 h2)
          · subst h2; ring
        · subst h1; ring
      have c1 := hcol j hi1 (by omega)
      have c2 := hcol (j+1) (by omega) hi2
      have hD : nth x ks[i+1] - nth x ks[i] ≠ 0 := ne_of_gt (by linarith)
      have hd' : nth x (j+1) - nth x j ≠ 0 := ne_of_gt (by linarith)
      have y1 : nth y j = nth y ks[i] + (nth y ks[i+1] - nth y ks[i]) / (nth x ks[i+1] - nth x ks[i]) * (nth x j - nth x ks[i]) := by
        field_simp; linear_combination c1
      have y2 : nth y (j+1) = nth y ks[i] + (nth y ks[i+1] - nth y ks[i]) / (nth x ks[i+1] - nth x ks[i]) * (nth x (j+1) - nth x ks[i]) := by
        field_simp; linear_combination c2
      unfold line
      simp only
      rw [y1, y2]
      field_simp
      ring

theorem mapM_ok {α β : Type} {f : α → Except PyErr β} {g : α → β} {l : List α} (h : ∀ a ∈ l, f a = .ok (g a)) :
    l.mapM f = .ok (l.map g) := by
  induction l with
  | nil => rfl
  | cons a l ih =>
    rw [List.mapM_cons, h a (by simp), ih (fun b hb => h b (by simp [hb]))]
    rfl

theorem proper_reverse {a : List K × List K} (h : ProperLine a) : ProperLine (a.1.reverse, a.2.reverse) := by
  obtain ⟨hl, u, hu, v, hv, huv⟩ := h
  exact ⟨by simpa using hl, u, by simpa using hu, v, by simpa using hv, huv⟩

theorem proper_nth_lt {a : List K × List K} (h : ProperLine a) (hs : SortedLe a.1) :
    nth a.1 0 < nth a.1 (a.1.length - 1) := by
  obtain ⟨_, u, ha, v, hb, hab⟩ := h
  obtain ⟨i, hi, rfl⟩ := List.mem_iff_getElem.1 ha
  obtain ⟨j, hj, rfl⟩ := List.mem_iff_getElem.1 hb
  rw [← nth_eq_getElem hi, ← nth_eq_getElem hj] at hab
  exact lt_of_le_of_lt (nth_mono hs (Nat.zero_le i) hi)
    (lt_of_lt_of_le hab (nth_mono hs (by omega) (by omega)))

theorem two_le_of_proper {a : List K × List K} (h : ProperLine a) : ∃ x0 x1 r, a.1 = x0 :: x1 :: r := by
  obtain ⟨_, u, hu, v, hv, huv⟩ := h
  rcases ha : a.1 with _ | ⟨x0, _ | ⟨x1, r⟩⟩
  · rw [ha] at hu; simp at hu
  · rw [ha] at hu hv; simp at hu hv; subst hu; subst hv; exact absurd huv (lt_irrefl _)
  · exact ⟨x0, x1, r, rfl⟩

theorem orient_eq {a a' : List K × List K} (h : ProperLine a) (ha : Ascending a a') :
    orient a.1 a.2 = .ok a' ∧ monotoneX a.1 = true ∧ SortedLe a'.1 ∧ ProperLine a' := by
  obtain ⟨x0, x1, r, hx⟩ := two_le_of_proper h
  rcases ha with ⟨hs, rfl⟩ | ⟨hs, rfl, hne⟩
  · have hi : isInitiallyIncreasing a'.1 = .ok true := by
      rw [hx]
      by_cases h01 : x0 = x1
      · subst h01
        apply C20_leading_repeat
        obtain ⟨_, u, hu, v, hv, huv⟩ := h
        rw [hx] at hu hv
        by_contra hcon
        push Not at hcon
        have : ∀ b ∈ x0 :: x0 :: r, b = x0 := by
          intro b hb
          simp at hb
          rcases hb with rfl | hb
          · rfl
          · exact hcon b hb
        rw [this u hu, this v hv] at huv
        exact lt_irrefl _ huv
      · rw [C20_initially_increasing_partial _ _ _ h01]
        congr 1
        rw [hx, List.pairwise_cons] at hs
        simpa using lt_of_le_of_ne (hs.1 x1 (by simp)) h01
    refine ⟨?_, ?_, hs, h⟩
    · simp [orient, hi, bind, Except.bind, pure, Except.pure]
    · simp [monotoneX, (nonDecreasing_iff _).2 hs]
  · have h01 : x0 ≠ x1 := by simpa [hx] using hne
    have hi : isInitiallyIncreasing a.1 = .ok false := by
      rw [hx, C20_initially_increasing_partial _ _ _ h01]
      congr 1
      rw [hx, List.pairwise_cons] at hs
      simpa using hs.1 x1 (by simp)
    refine ⟨?_, ?_, ?_, proper_reverse h⟩
    · simp [orient, hi, bind, Except.bind, pure, Except.pure]
    · simp [monotoneX, (nonIncreasing_iff _).2 hs]
    · exact List.pairwise_reverse.2 hs

theorem clean_props {a a' : List K × List K} {tol : K} (hp : ProperLine a) (hs : SortedLe a.1)
    (h : removeSuperfluous a.1 a.2 tol = .ok a') :
    SortedLe a'.1 ∧ ProperLine a' ∧ ∀ v ∈ a'.1, v ∈ a.1 := by
  have h0 : 0 < a.1.length := by
    obtain ⟨x0, x1, r, hx⟩ := two_le_of_proper hp
    rw [hx]; simp
  obtain ⟨hl, ks, k1, k2, k3, k4, k5, k6⟩ := C10_subsequence a.1 a.2 a'.1 a'.2 tol h0 h
  have hlt := proper_nth_lt hp hs
  refine ⟨?_, ⟨by rw [k5, k6]; simp, nth a.1 0, ?_, nth a.1 (a.1.length - 1), ?_, hlt⟩, ?_⟩
  · rw [k5]
    unfold SortedLe
    rw [List.pairwise_map]
    refine List.Pairwise.imp_of_mem ?_ k1
    intro i j hi hj hij
    exact nth_mono hs (le_of_lt hij) (k2 j hj)
  · rw [k5]; exact List.mem_map.2 ⟨0, List.mem_of_head? k3, rfl⟩
  · rw [k5]; exact List.mem_map.2 ⟨_, List.mem_of_getLast? k4, rfl⟩
  · intro v hv
    rw [k5] at hv
    obtain ⟨k, hk, rfl⟩ := List.mem_map.1 hv
    exact nth_mem (k2 k hk)

theorem clean_exists (a : List K × List K) (hp : ProperLine a) (tol : K) :
    ∃ a', removeSuperfluous a.1 a.2 tol = .ok a' := by
  unfold removeSuperfluous
  simp only [hp.1, ne_eq, not_true_eq_false, if_false]
  split_ifs <;> exact ⟨_, rfl⟩

theorem ptsOf_fst {a : List K × List K} (h : ProperLine a) : (ptsOf a).map Prod.fst = a.1 :=
  List.map_fst_zip (le_of_eq h.1)

theorem ptsOf_ne {a : List K × List K} (h : ProperLine a) : ptsOf a ≠ [] := by
  intro he
  have := ptsOf_fst h
  rw [he] at this
  obtain ⟨_, u, hu, _⟩ := h
  rw [← this] at hu; simp at hu

theorem ptsOf_mem {a : List K × List K} {p : K × K} (hp : p ∈ ptsOf a) : p.1 ∈ a.1 :=
  (List.of_mem_zip hp).1

/-- visited abscissae when the lines are well separated: exactly the abscissae of the lines -/
theorem visit_all {ls : List (List K × List K)} (hsep : Separated ls) :
    ∃ xs, visit (sortRows (dataOf ls)) (sortRows (dataOf ls)).length 0 = some xs ∧ xs.Pairwise (· < ·) ∧
      ∀ v, v ∈ xs ↔ ∃ l ∈ ls, v ∈ l.1 := by
  obtain ⟨xs, hv, hp, h1, h2⟩ := visit_spec (sortRows_x (dataOf ls)) (sortRows (dataOf ls)).length 0 (by omega)
  refine ⟨xs, hv, hp, ?_⟩
  have hx : ∀ v ∈ xs, ∃ l ∈ ls, v ∈ l.1 := by
    intro v hv
    obtain ⟨m, hm, _, rfl⟩ := h1 v hv
    have : (sortRows (dataOf ls))[m] ∈ dataOf ls := (sortRows_perm _).mem_iff.1 (List.getElem_mem hm)
    rw [mem_dataOf] at this
    obtain ⟨k, hk, i, hi, he⟩ := this
    refine ⟨ls[k], List.getElem_mem _, ?_⟩
    rw [he]; exact nth_mem hi
  intro v
  refine ⟨hx v, ?_⟩
  rintro ⟨l, hl, hvl⟩
  obtain ⟨k, hk, rfl⟩ := List.mem_iff_getElem.1 hl
  obtain ⟨i, hi, rfl⟩ := List.mem_iff_getElem.1 hvl
  have hr : (⟨nth ls[k].1 i, nth ls[k].2 i, k, i⟩ : Row K) ∈ dataOf ls := (mem_dataOf _ _).2 ⟨k, hk, i, hi, rfl⟩
  have hr' := (sortRows_perm _).mem_iff.2 hr
  obtain ⟨m, hm, he⟩ := List.mem_iff_getElem.1 hr'
  obtain ⟨w, hw, _, hc⟩ := h2 m hm (by omega)
  rw [he] at hc
  have := (close_iff_eq hsep hr (hx w hw)).1 hc
  simp only at this
  rw [← nth_eq_getElem hi, this]
  exact hw

/-! ## C14 sums and differences of PolyLines -/

/-- `s = 1`: sum, `s = -1`: difference. -/
theorem addSub_core (s : K) {a b a1 b1 a2 b2 : List K × List K} (pa : ProperLine a) (pb : ProperLine b)
    (ha : Ascending a a1) (hb : Ascending b b1)
    (ca : removeSuperfluous a1.1 a1.2 (1/100000000) = .ok a2)
    (cb : removeSuperfluous b1.1 b1.2 (1/100000000) = .ok b2)
    (hsep : WellSeparated [a2, b2])
    (hstep : ∀ v, v ∈ a2.1 ∨ v ∈ b2.1 → RealStep (firstAt (ptsOf a2) v + s * firstAt (ptsOf b2) v)
      (lastAt (ptsOf a2) v + s * lastAt (ptsOf b2) v)) :
    ∃ pts, addSub (fun u v => u + s * v) a b = PolyLine.ofXY pts ∧ 2 ≤ pts.length ∧
      (pts.map Prod.fst).Pairwise (· ≤ ·) ∧
      (∀ v, v ∈ pts.map Prod.fst ↔ v ∈ a2.1 ∨ v ∈ b2.1) ∧
      (∀ v, v ∈ a2.1 ∨ v ∈ b2.1 →
        firstAt pts v = firstAt (ptsOf a2) v + s * firstAt (ptsOf b2) v ∧
        lastAt pts v = lastAt (ptsOf a2) v + s * lastAt (ptsOf b2) v) ∧
      (∀ t, ¬ (t ∈ a2.1 ∨ t ∈ b2.1) →
        polyLeft pts t = polyLeft (ptsOf a2) t + s * polyLeft (ptsOf b2) t) := by
  obtain ⟨oa, ma, sa, pa1⟩ := orient_eq pa ha
  obtain ⟨ob, mb, sb, pb1⟩ := orient_eq pb hb
  obtain ⟨sa2, pa2, -⟩ := clean_props pa1 sa ca
  obtain ⟨sb2, pb2, -⟩ := clean_props pb1 sb cb
  obtain ⟨xs, hv, hxp, hxm⟩ := visit_all (ls := [a2, b2]) hsep
  have hxm' : ∀ v, v ∈ xs ↔ v ∈ a2.1 ∨ v ∈ b2.1 := by intro v; rw [hxm]; simp
  set L : K → K := fun v => firstAt (ptsOf a2) v + s * firstAt (ptsOf b2) v with hL
  set R : K → K := fun v => lastAt (ptsOf a2) v + s * lastAt (ptsOf b2) v with hR
  have hpts : addSub (fun u v => u + s * v) a b = PolyLine.ofXY (emitAll xs L R) := by
    unfold addSub
    have h1 : ∀ x ∈ xs, (do
        let v1 ← groupVals (sortRows (dataOf [a2, b2])) 0 a2 x
        let v2 ← groupVals (sortRows (dataOf [a2, b2])) 1 b2 x
        pure (emit x (v1.1 + s * v2.1) (v1.2 + s * v2.2)) : Except PyErr (List (K × K))) = .ok (emit x (L x) (R x)) := by
      intro x hx
      have e1 := groupVals_eq (ls := [a2, b2]) hsep (k := 0) (by simp) (v := x) ((hxm x).1 hx) pa2.1 sa2 (proper_nth_lt pa2 sa2)
      have e2 := groupVals_eq (ls := [a2, b2]) hsep (k := 1) (by simp) (v := x) ((hxm x).1 hx) pb2.1 sb2 (proper_nth_lt pb2 sb2)
      simp only [List.getElem_cons_zero, List.getElem_cons_succ] at e1 e2
      rw [e1, e2]; rfl
    have h2 := mapM_ok h1
    simp only [ma, mb, and_self, not_true_eq_false, if_false, oa, ob, ca, cb, bind, Except.bind, hv]
    simp only [bind, Except.bind] at h2
    rw [h2]
    simp only [emitAll, List.flatMap_def]
  have hne : xs ≠ [] := by
    obtain ⟨_, u, hu, _⟩ := pa2
    intro h
    have := (hxm' u).2 (Or.inl hu)
    rw [h] at this; simp at this
  have hlen : 2 ≤ (emitAll xs L R).length := by
    obtain ⟨_, u, hu, w, hw, huw⟩ := pa2
    obtain ⟨p, hp, rfl⟩ := (mem_emitAll_fst xs L R u).2 ((hxm' u).2 (Or.inl hu))
    obtain ⟨q, hq, rfl⟩ := (mem_emitAll_fst xs L R w).2 ((hxm' w).2 (Or.inl hw))
    rcases he : emitAll xs L R with _ | ⟨c, _ | ⟨d, r⟩⟩
    · rw [he] at hp; simp at hp
    · rw [he] at hp hq; simp at hp hq; subst hp; subst hq; exact absurd huw (lt_irrefl _)
    · simp
  have hat : ∀ v ∈ xs, firstAt (emitAll xs L R) v = L v ∧ lastAt (emitAll xs L R) v = R v := by
    intro v hv
    exact ⟨firstAt_emitAll hxp L R hv, lastAt_emitAll hxp L R hv (hstep v ((hxm' v).1 hv))⟩
  refine ⟨emitAll xs L R, hpts, hlen, emitAll_sorted hxp L R, ?_, ?_, ?_⟩
  · intro v
    rw [← hxm', ← mem_emitAll_fst xs L R]
    simp
  · intro v hv
    exact hat v ((hxm' v).2 hv)
  · intro t ht
    rw [← hxm'] at ht
    obtain ⟨c, d, u, hu, w, hw, H⟩ := polyLeft_grid hxp hne ht
    rw [H _ (emitAll_sorted hxp L R) (by intro h; rw [h] at hlen; simp at hlen)
        (fun p hp => (mem_emitAll_fst xs L R p.1).1 ⟨p, hp, rfl⟩),
      H (ptsOf a2) (by rw [ptsOf_fst pa2]; exact sa2) (ptsOf_ne pa2) (fun p hp => (hxm' _).2 (Or.inl (ptsOf_mem hp))),
      H (ptsOf b2) (by rw [ptsOf_fst pb2]; exact sb2) (ptsOf_ne pb2) (fun p hp => (hxm' _).2 (Or.inr (ptsOf_mem hp))),
      (hat u hu).2, (hat w hw).1]
    simp only [hL, hR]
    ring

/-- The sum `p + q` of two monotone PolyLines: its abscissae are those of the (cleaned) operands, the
values before and after a possible step are the sums of those of the operands, and everywhere else it is
the pointwise sum. `a1`, `b1` are the operands read from left to right, `a2`, `b2` those after
`remove_superfluous_from_x_y` (see C10). -/
theorem C14_sum (a b a1 b1 a2 b2 : List K × List K) (pa : ProperLine a) (pb : ProperLine b)
    (ha : Ascending a a1) (hb : Ascending b b1)
    (ca : removeSuperfluous a1.1 a1.2 (1/100000000) = .ok a2)
    (cb : removeSuperfluous b1.1 b1.2 (1/100000000) = .ok b2)
    (hsep : WellSeparated [a2, b2])
    (hstep : ∀ v, v ∈ a2.1 ∨ v ∈ b2.1 → RealStep (firstAt (ptsOf a2) v + firstAt (ptsOf b2) v)
      (lastAt (ptsOf a2) v + lastAt (ptsOf b2) v)) :
    ∃ p pts, addSub (· + ·) a b = .ok p ∧ (p.step .readXY).1 = .pts pts ∧
      (∀ v, v ∈ pts.map Prod.fst ↔ v ∈ a2.1 ∨ v ∈ b2.1) ∧
      (∀ v, v ∈ a2.1 ∨ v ∈ b2.1 →
        firstAt pts v = firstAt (ptsOf a2) v + firstAt (ptsOf b2) v ∧
        lastAt pts v = lastAt (ptsOf a2) v + lastAt (ptsOf b2) v) ∧
      (∀ t, t ∉ a2.1 → t ∉ b2.1 → polyLeft pts t = polyLeft (ptsOf a2) t + polyLeft (ptsOf b2) t) := by
  obtain ⟨pts, h1, h2, -, h4, h5, h6⟩ := addSub_core (1:K) pa pb ha hb ca cb hsep (by simpa using hstep)
  have e : (fun u v : K => u + 1 * v) = (· + ·) := by funext u v; ring
  rw [e] at h1
  refine ⟨_, pts, h1.trans (by rw [PolyLine.ofXY, if_neg (by omega)]), rfl, h4, by simpa using h5, ?_⟩
  intro t ht1 ht2
  simpa using h6 t (by tauto)

/-- The difference `p - q`. -/
theorem C14_difference (a b a1 b1 a2 b2 : List K × List K) (pa : ProperLine a) (pb : ProperLine b)
    (ha : Ascending a a1) (hb : Ascending b b1)
    (ca : removeSuperfluous a1.1 a1.2 (1/100000000) = .ok a2)
    (cb : removeSuperfluous b1.1 b1.2 (1/100000000) = .ok b2)
    (hsep : WellSeparated [a2, b2])
    (hstep : ∀ v, v ∈ a2.1 ∨ v ∈ b2.1 → RealStep (firstAt (ptsOf a2) v - firstAt (ptsOf b2) v)
      (lastAt (ptsOf a2) v - lastAt (ptsOf b2) v)) :
    ∃ p pts, addSub (· - ·) a b = .ok p ∧ (p.step .readXY).1 = .pts pts ∧
      (∀ v, v ∈ pts.map Prod.fst ↔ v ∈ a2.1 ∨ v ∈ b2.1) ∧
      (∀ v, v ∈ a2.1 ∨ v ∈ b2.1 →
        firstAt pts v = firstAt (ptsOf a2) v - firstAt (ptsOf b2) v ∧
        lastAt pts v = lastAt (ptsOf a2) v - lastAt (ptsOf b2) v) ∧
      (∀ t, t ∉ a2.1 → t ∉ b2.1 → polyLeft pts t = polyLeft (ptsOf a2) t - polyLeft (ptsOf b2) t) := by
  have e0 : ∀ u v : K, u + -1 * v = u - v := by intro u v; ring
  obtain ⟨pts, h1, h2, -, h4, h5, h6⟩ := addSub_core (-1:K) pa pb ha hb ca cb hsep (by
    intro v hv; rw [e0, e0]; exact hstep v hv)
  have e : (fun u v : K => u + -1 * v) = (· - ·) := by funext u v; ring
  rw [e] at h1
  refine ⟨_, pts, h1.trans (by rw [PolyLine.ofXY, if_neg (by omega)]), rfl, h4, ?_, ?_⟩
  · intro v hv; have := h5 v hv; rw [e0, e0] at this; exact this
  · intro t ht1 ht2
    rw [h6 t (by tauto), e0]

/-- For operands whose nearly collinear points are exactly collinear, the sum is the pointwise sum of the
operands themselves. -/
theorem C14_sum_of_operands (a b a1 b1 : List K × List K) (pa : ProperLine a) (pb : ProperLine b)
    (ha : Ascending a a1) (hb : Ascending b b1)
    (hsep : WellSeparated [a1, b1])
    (hd : ∀ l ∈ [a1, b1], ∀ i k, i < k → k < l.1.length →
      (1/100000000)^2 < (l.1.getD k 0 - l.1.getD i 0)^2 + (l.2.getD k 0 - l.2.getD i 0)^2)
    (hex : ∀ l ∈ [a1, b1], ∀ i k j, i < k → k < j → j < l.1.length →
      NearLine (l.1.getD i 0, l.2.getD i 0) (l.1.getD j 0, l.2.getD j 0) (l.1.getD k 0, l.2.getD k 0) (1/100000000) →
      (l.1.getD j 0 - l.1.getD i 0) * (l.2.getD k 0 - l.2.getD i 0) =
        (l.2.getD j 0 - l.2.getD i 0) * (l.1.getD k 0 - l.1.getD i 0))
    (hstep : ∀ a2 b2, removeSuperfluous a1.1 a1.2 (1/100000000) = .ok a2 →
      removeSuperfluous b1.1 b1.2 (1/100000000) = .ok b2 → ∀ v, v ∈ a2.1 ∨ v ∈ b2.1 →
      RealStep (firstAt (ptsOf a2) v + firstAt (ptsOf b2) v) (lastAt (ptsOf a2) v + lastAt (ptsOf b2) v)) :
    ∃ p pts, addSub (· + ·) a b = .ok p ∧ (p.step .readXY).1 = .pts pts ∧
      ∀ t, t ∉ a1.1 → t ∉ b1.1 → polyLeft pts t = polyLeft (ptsOf a1) t + polyLeft (ptsOf b1) t := by
  obtain ⟨oa, ma, sa, pa1⟩ := orient_eq pa ha
  obtain ⟨ob, mb, sb, pb1⟩ := orient_eq pb hb
  obtain ⟨a2, ca⟩ := clean_exists a1 pa1 (1/100000000)
  obtain ⟨b2, cb⟩ := clean_exists b1 pb1 (1/100000000)
  obtain ⟨sa2, pa2, suba⟩ := clean_props pa1 sa ca
  obtain ⟨sb2, pb2, subb⟩ := clean_props pb1 sb cb
  have hsep2 : WellSeparated [a2, b2] := by
    have sub : ∀ l ∈ [a2, b2], ∃ m ∈ [a1, b1], ∀ v ∈ l.1, v ∈ m.1 := by
      intro l hl
      simp at hl
      rcases hl with rfl | rfl
      · exact ⟨a1, by simp, suba⟩
      · exact ⟨b1, by simp, subb⟩
    intro l hl m hm u hu v hv huv
    obtain ⟨l', hl', sl⟩ := sub l hl
    obtain ⟨m', hm', sm⟩ := sub m hm
    exact hsep l' hl' m' hm' u (sl u hu) v (sm v hv) huv
  obtain ⟨p, pts, h1, h2, h3, h4, h5⟩ := C14_sum a b a1 b1 a2 b2 pa pb ha hb ca cb hsep2 (hstep a2 b2 ca cb)
  refine ⟨p, pts, h1, h2, ?_⟩
  intro t hta htb
  have l1 : 0 < a1.1.length := by obtain ⟨x0, x1, r, hx⟩ := two_le_of_proper pa1; rw [hx]; simp
  have l2 : 0 < b1.1.length := by obtain ⟨x0, x1, r, hx⟩ := two_le_of_proper pb1; rw [hx]; simp
  rw [h5 t (fun h => hta (suba t h)) (fun h => htb (subb t h))]
  congr 1
  · exact C10_curve_unchanged a1.1 a1.2 a2.1 a2.2 _ sa l1 ca (hd a1 (by simp)) (hex a1 (by simp)) t hta
  · exact C10_curve_unchanged b1.1 b1.2 b2.1 b2.2 _ sb l2 cb (hd b1 (by simp)) (hex b1 (by simp)) t htb

/-- Lines with switchbacks raise `TypeError`. -/
theorem C14_switchbacks (op : K → K → K) (a b : List K × List K)
    (h : ¬ ((a.1.Pairwise (· ≤ ·) ∨ a.1.Pairwise (· ≥ ·)) ∧ (b.1.Pairwise (· ≤ ·) ∨ b.1.Pairwise (· ≥ ·)))) :
    addSub op a b = .error .typeError := by
  unfold addSub
  rw [if_pos]
  rw [← nonDecreasing_iff, ← nonIncreasing_iff, ← nonDecreasing_iff, ← nonIncreasing_iff] at h
  simp only [monotoneX, Bool.or_eq_true]
  tauto

/-- Descending data that begin with a vertical step are added wrongly: the line falling from (2, 1) to
(0, 0), with a step from 5 to 1 at 2, plus the zero line takes the value 5/2 at 1 instead of 1/2. -/
theorem C14_negation : addSub (· + ·) (([2, 2, 0], [5, 1, 0]) : List ℚ × List ℚ) ([0, 3], [0, 0]) =
      .ok ⟨some [(0, 0), (2, 5), (2, 1), (3, 5)], false, false, none⟩ ∧
    polyLeft ([(0, 0), (2, 5), (2, 1), (3, 5)] : List (ℚ × ℚ)) 1 = 5/2 ∧
    polyLeft (([0, 2, 2] : List ℚ).zip [0, 1, 5]) 1 = 1/2 := by decide +kernel

-- non-vacuity: a line with a step plus a descending ramp
example : addSub (· + ·) (([0, 1, 1, 3], [0, 2, 5, 5]) : List ℚ × List ℚ) ([4, 2], [4, 0]) =
    .ok ⟨some [(0, 0), (1, 2), (1, 5), (2, 5), (3, 7), (4, 9)], false, false, none⟩ := by decide +kernel

example : ProperLine (([0, 1, 1, 3], [0, 2, 5, 5]) : List ℚ × List ℚ) ∧
    ProperLine (([4, 2], [4, 0]) : List ℚ × List ℚ) ∧
    Ascending (([0, 1, 1, 3], [0, 2, 5, 5]) : List ℚ × List ℚ) ([0, 1, 1, 3], [0, 2, 5, 5]) ∧
    Ascending (([4, 2], [4, 0]) : List ℚ × List ℚ) ([2, 4], [0, 4]) ∧
    WellSeparated [(([0, 1, 1, 3], [0, 2, 5, 5]) : List ℚ × List ℚ), ([2, 4], [0, 4])] ∧
    removeSuperfluous ([0, 1, 1, 3] : List ℚ) [0, 2, 5, 5] (1/100000000) = .ok ([0, 1, 1, 3], [0, 2, 5, 5]) ∧
    (∀ v ∈ ([0, 1, 1, 3, 2, 4] : List ℚ), RealStep
      (firstAt (ptsOf (([0, 1, 1, 3], [0, 2, 5, 5]) : List ℚ × List ℚ)) v + firstAt (ptsOf (([2, 4], [0, 4]) : List ℚ × List ℚ)) v)
      (lastAt (ptsOf (([0, 1, 1, 3], [0, 2, 5, 5]) : List ℚ × List ℚ)) v + lastAt (ptsOf (([2, 4], [0, 4]) : List ℚ × List ℚ)) v)) := by
  unfold ProperLine Ascending WellSeparated RealStep
  decide +kernel

/-! ## C13 polyline_make_x_common -/

theorem mapM_inv {α β : Type} {f : α → Except PyErr β} {g : α → β} {l : List α} {out : List β}
    (h : l.mapM f = .ok out) (hg : ∀ a ∈ l, ∀ b, f a = .ok b → g a = b) : out = l.map g := by
  induction l generalizing out with
  | nil => rw [List.mapM_nil] at h; simp [pure, Except.pure] at h; simp [h]
  | cons a l ih =>
    rw [List.mapM_cons] at h
    rcases hf : f a with e | b
    · rw [hf] at h; simp [bind, Except.bind] at h
    · rw [hf] at h
      rcases hm : l.mapM f with e | bs
      · rw [hm] at h; simp [bind, Except.bind] at h
      · rw [hm] at h
        simp [bind, Except.bind, pure, Except.pure] at h
        rw [← h, ih hm (fun a ha => hg a (by simp [ha])), List.map_cons, hg a (by simp) b hf]

theorem mapM_ok_mem {α β : Type} {f : α → Except PyErr β} {l : List α} {out : List β}
    (h : l.mapM f = .ok out) : out.length = l.length ∧ ∀ b ∈ out, ∃ a ∈ l, f a = .ok b := by
  induction l generalizing out with
  | nil => rw [List.mapM_nil] at h; simp [pure, Except.pure] at h; simp [h]
  | cons a l ih =>
    rw [List.mapM_cons] at h
    rcases hf : f a with e | b
    · rw [hf] at h; simp [bind, Except.bind] at h
    · rw [hf] at h
      rcases hm : l.mapM f with e | bs
      · rw [hm] at h; simp [bind, Except.bind] at h
      · rw [hm] at h
        simp [bind, Except.bind, pure, Except.pure] at h
        obtain ⟨h1, h2⟩ := ih hm
        subst h
        refine ⟨by simp [h1], ?_⟩
        intro c hc
        rcases List.mem_cons.1 hc with rfl | hc
        · exact ⟨a, by simp, hf⟩
        · obtain ⟨a', ha', hf'⟩ := h2 c hc
          exact ⟨a', by simp [ha'], hf'⟩

/-- Whenever it succeeds, there is one result per line and all results have the same abscissae, in
increasing order. -/
theorem C13_same_grid (ls : List (List K × List K)) (out : List (PolyLine K)) (h : makeXCommon ls = .ok out) :
    out.length = ls.length ∧ ∃ xs : List K, xs.Pairwise (· < ·) ∧ ∀ p ∈ out, ∃ pts,
      (p.step .readXY).1 = .pts pts ∧ (pts.map Prod.fst).Pairwise (· ≤ ·) ∧ ∀ v, v ∈ pts.map Prod.fst ↔ v ∈ xs := by
  unfold makeXCommon at h
  rcases hm : ls.mapM (fun l => if monotoneX l.1 = true then orient l.1 l.2 else (.error .typeError : Except PyErr (List K × List K))) with e | ls'
  · rw [hm] at h; simp [bind, Except.bind] at h
  · rw [hm] at h
    obtain ⟨xs, hv, hxp, -, -⟩ := visit_spec (sortRows_x (dataOf ls')) (sortRows (dataOf ls')).length 0 (by omega)
    simp only [bind, Except.bind, hv] at h
    obtain ⟨hlen, hmem⟩ := mapM_ok_mem h
    refine ⟨by rw [hlen, List.length_range, (mapM_ok_mem hm).1], xs, hxp, ?_⟩
    intro p hp
    obtain ⟨k, -, hk⟩ := hmem p hp
    rcases hin : xs.mapM (fun x => do
        let v ← groupVals (sortRows (dataOf ls')) k (ls'.getD k ([], [])) x
        pure (emit x v.1 v.2) : K → Except PyErr (List (K × K))) with e | pnts
    · simp only [bind, Except.bind] at hin
      rw [hin] at hk; simp at hk
    · have hin' := hin
      simp only [bind, Except.bind] at hin'
      rw [hin'] at hk
      simp only at hk
      have hpn := mapM_inv hin (g := fun x => emit x
          ((groupVals (sortRows (dataOf ls')) k (ls'.getD k ([], [])) x).toOption.getD (0, 0)).1
          ((groupVals (sortRows (dataOf ls')) k (ls'.getD k ([], [])) x).toOption.getD (0, 0)).2) (by
        intro x _ b hb
        rcases hgv : groupVals (sortRows (dataOf ls')) k (ls'.getD k ([], [])) x with e | v
        · rw [hgv] at hb; simp [bind, Except.bind] at hb
        · rw [hgv] at hb
          simp only [bind, Except.bind, pure, Except.pure, Except.ok.injEq] at hb
          rw [← hb]; rfl)
      unfold PolyLine.ofXY at hk
      split_ifs at hk with hlen2
      simp only [Except.ok.injEq] at hk
      subst hk
      refine ⟨pnts.flatten, rfl, ?_, ?_⟩
      · rw [hpn]
        exact emitAll_sorted hxp _ _
      · intro v
        rw [hpn]
        have := mem_emitAll_fst xs (fun x => ((groupVals (sortRows (dataOf ls')) k (ls'.getD k ([], [])) x).toOption.getD (0, 0)).1)
          (fun x => ((groupVals (sortRows (dataOf ls')) k (ls'.getD k ([], [])) x).toOption.getD (0, 0)).2) v
        rw [← this, List.mem_map]
        exact Iff.rfl

/-- The points of every returned line, on the common abscissae `xs`. -/
theorem makeXCommon_core (ls ls' : List (List K × List K)) (hlen : ls'.length = ls.length)
    (hp : ∀ k (hk : k < ls.length), ProperLine ls[k] ∧ Ascending ls[k] (ls'[k]'(by omega)))
    (hsep : WellSeparated ls') :
    ∃ xs : List K, xs.Pairwise (· < ·) ∧ (∀ v, v ∈ xs ↔ ∃ l ∈ ls', v ∈ l.1) ∧
      (∀ k (hk : k < ls'.length), ProperLine ls'[k] ∧ SortedLe ls'[k].1) ∧
      (∀ k (hk : k < ls'.length), 2 ≤ (emitAll xs (firstAt (ptsOf ls'[k])) (lastAt (ptsOf ls'[k]))).length) ∧
      makeXCommon ls = .ok ((List.range ls'.length).map (fun k =>
      (⟨some (emitAll xs (firstAt (ptsOf (ls'.getD k ([], [])))) (lastAt (ptsOf (ls'.getD k ([], []))))), false, false, none⟩ : PolyLine K))) := by
  obtain ⟨xs, hv, hxp, hxm⟩ := visit_all (ls := ls') hsep
  have hor : ls.mapM (fun l => if monotoneX l.1 = true then orient l.1 l.2 else (.error .typeError : Except PyErr (List K × List K))) = .ok ls' := by
    have hgen : ∀ (l l' : List (List K × List K)) (hlen : l'.length = l.length),
        (∀ k (hk : k < l.length), ProperLine l[k] ∧ Ascending l[k] (l'[k]'(by omega))) →
        l.mapM (fun l => if monotoneX l.1 = true then orient l.1 l.2 else (.error .typeError : Except PyErr (List K × List K))) = .ok l' := by
      intro l
      induction l with
      | nil => intro l' hl' _; have : l' = [] := List.length_eq_zero_iff.1 (by simpa using hl'); subst this; rfl
      | cons a l ih =>
        intro l' hl' hh
        rcases l' with _ | ⟨a', l'⟩
        · simp at hl'
        · have h0 := hh 0 (by simp)
          simp only [List.getElem_cons_zero] at h0
          have ho := orient_eq h0.1 h0.2
          rw [List.mapM_cons, if_pos ho.2.1, ho.1, ih l' (by simpa using hl') (by
            intro k hk
            have := hh (k+1) (by simp; omega)
            simpa using this)]
          rfl
    exact hgen ls ls' hlen hp
  have hprop : ∀ k (hk : k < ls'.length), ProperLine ls'[k] ∧ SortedLe ls'[k].1 := by
    intro k hk
    have := orient_eq (hp k (by omega)).1 (hp k (by omega)).2
    exact ⟨this.2.2.2, this.2.2.1⟩
  -- the points of line k
  have hline : ∀ k (hk : k < ls'.length), 2 ≤ (emitAll xs (firstAt (ptsOf ls'[k])) (lastAt (ptsOf ls'[k]))).length ∧
      (xs.mapM (fun x => do
        let v ← groupVals (sortRows (dataOf ls')) k (ls'.getD k ([], [])) x
        pure (emit x v.1 v.2) : K → Except PyErr (List (K × K)))) =
      .ok (xs.map (fun x => emit x (firstAt (ptsOf ls'[k]) x) (lastAt (ptsOf ls'[k]) x))) := by
    intro k hk
    constructor
    · obtain ⟨⟨_, u, hu, w, hw, huw⟩, _⟩ := hprop k hk
      obtain ⟨p, hp, rfl⟩ := (mem_emitAll_fst xs (firstAt (ptsOf ls'[k])) (lastAt (ptsOf ls'[k])) u).2 ((hxm u).2 ⟨ls'[k], List.getElem_mem _, hu⟩)
      obtain ⟨q, hq, rfl⟩ := (mem_emitAll_fst xs (firstAt (ptsOf ls'[k])) (lastAt (ptsOf ls'[k])) w).2 ((hxm w).2 ⟨ls'[k], List.getElem_mem _, hw⟩)
      rcases he : emitAll xs (firstAt (ptsOf ls'[k])) (lastAt (ptsOf ls'[k])) with _ | ⟨c, _ | ⟨d, r⟩⟩
      · rw [he] at hp; simp at hp
      · rw [he] at hp hq; simp at hp hq; subst hp; subst hq; exact absurd huw (lt_irrefl _)
      · simp
    · apply mapM_ok
      intro x hx
      rw [List.getD_eq_getElem?_getD, List.getElem?_eq_getElem hk]
      simp only [Option.getD_some]
      rw [groupVals_eq hsep hk ((hxm x).1 hx) (hprop k hk).1.1 (hprop k hk).2 (proper_nth_lt (hprop k hk).1 (hprop k hk).2)]
      rfl
  have hmain : makeXCommon ls = .ok ((List.range ls'.length).map (fun k =>
      (⟨some (emitAll xs (firstAt (ptsOf (ls'.getD k ([], [])))) (lastAt (ptsOf (ls'.getD k ([], []))))), false, false, none⟩ : PolyLine K))) := by
    unfold makeXCommon
    rw [hor]
    simp only [bind, Except.bind, hv]
    apply mapM_ok
    intro k hk
    rw [List.mem_range] at hk
    have := (hline k hk).2
    simp only [bind, Except.bind] at this
    rw [this]
    simp only
    have e : ls'.getD k ([], []) = ls'[k] := by
      rw [List.getD_eq_getElem?_getD, List.getElem?_eq_getElem hk]; rfl
    rw [PolyLine.ofXY, if_neg, e]
    · simp only [emitAll, List.flatMap_def]
    · have h2 := (hline k hk).1
      simp only [emitAll, List.flatMap_def] at h2
      omega
  exact ⟨xs, hxp, hxm, hprop, fun k hk => (hline k hk).1, hmain⟩

/-- On well separated lines with real steps it succeeds, the common abscissae are all abscissae of all
lines, and every returned line is the same curve as the original one. -/
theorem C13_same_curves (ls ls' : List (List K × List K)) (hlen : ls'.length = ls.length) (h0 : ls ≠ [])
    (hp : ∀ k (hk : k < ls.length), ProperLine ls[k] ∧ Ascending ls[k] (ls'[k]'(by omega)))
    (hsep : WellSeparated ls')
    (hstep : ∀ l ∈ ls', ∀ v ∈ l.1, RealStep (firstAt (ptsOf l) v) (lastAt (ptsOf l) v)) :
    ∃ out, makeXCommon ls = .ok out ∧ ∃ hout : out.length = ls'.length, ∀ k (hk : k < ls'.length), ∃ pts,
      ((out[k]'(by omega)).step .readXY).1 = .pts pts ∧
      (∀ v, v ∈ pts.map Prod.fst ↔ ∃ l ∈ ls', v ∈ l.1) ∧
      (∀ v, (∃ l ∈ ls', v ∈ l.1) →
        firstAt pts v = firstAt (ptsOf ls'[k]) v ∧ lastAt pts v = lastAt (ptsOf ls'[k]) v) ∧
      ∀ t, (∀ l ∈ ls', t ∉ l.1) → polyLeft pts t = polyLeft (ptsOf ls'[k]) t := by
  obtain ⟨xs, hxp, hxm, hprop, hline, hmain⟩ := makeXCommon_core ls ls' hlen hp hsep
  refine ⟨_, hmain, by simp, ?_⟩
  intro k hk
  have e : ls'.getD k ([], []) = ls'[k] := by
    rw [List.getD_eq_getElem?_getD, List.getElem?_eq_getElem hk]; rfl
  refine ⟨emitAll xs (firstAt (ptsOf ls'[k])) (lastAt (ptsOf ls'[k])), ?_, ?_, ?_, ?_⟩
  · simp only [List.getElem_map, List.getElem_range, e]; rfl
  · intro v
    rw [← hxm, ← mem_emitAll_fst xs (firstAt (ptsOf ls'[k])) (lastAt (ptsOf ls'[k])), List.mem_map]
  · intro v hv
    have hvx := (hxm v).2 hv
    refine ⟨firstAt_emitAll hxp _ _ hvx, lastAt_emitAll hxp _ _ hvx ?_⟩
    by_cases hvk : v ∈ ls'[k].1
    · exact hstep ls'[k] (List.getElem_mem _) v hvk
    · left
      have hne : ∀ p ∈ ptsOf ls'[k], p.1 ≠ v := by
        intro p hp he; exact hvk (he ▸ ptsOf_mem hp)
      rw [firstAt_not_mem hne, lastAt_not_mem hne]
  · intro t ht
    have htx : t ∉ xs := by
      intro h; obtain ⟨l, hl, h2⟩ := (hxm t).1 h; exact ht l hl h2
    have hne : xs ≠ [] := by
      obtain ⟨⟨_, u, hu, _⟩, _⟩ := hprop k hk
      intro h
      have := (hxm u).2 ⟨_, List.getElem_mem _, hu⟩
      rw [h] at this; simp at this
    obtain ⟨c, d, u, hu, w, hw, H⟩ := polyLeft_grid hxp hne htx
    have hlen2 := hline k hk
    rw [H _ (emitAll_sorted hxp _ _) (by intro h; rw [h] at hlen2; simp at hlen2)
        (fun p hp => (mem_emitAll_fst xs _ _ p.1).1 ⟨p, hp, rfl⟩),
      H (ptsOf ls'[k]) (by rw [ptsOf_fst (hprop k hk).1]; exact (hprop k hk).2) (ptsOf_ne (hprop k hk).1)
        (fun p hp => (hxm _).2 ⟨_, List.getElem_mem _, ptsOf_mem hp⟩)]
    congr 1
    · congr 1
      refine lastAt_emitAll hxp _ _ hu ?_
      by_cases hvk : u ∈ ls'[k].1
      · exact hstep ls'[k] (List.getElem_mem _) u hvk
      · left
        have hne : ∀ p ∈ ptsOf ls'[k], p.1 ≠ u := by
          intro p hp he; exact hvk (he ▸ ptsOf_mem hp)
        rw [firstAt_not_mem hne, lastAt_not_mem hne]
    · congr 1
      exact firstAt_emitAll hxp _ _ hw

example : makeXCommon [(([0, 1, 1, 3], [0, 2, 5, 5]) : List ℚ × List ℚ), ([4, 2], [4, 0])] =
    .ok [⟨some [(0, 0), (1, 2), (1, 5), (2, 5), (3, 5), (4, 5)], false, false, none⟩,
      ⟨some [(0, 0), (1, 0), (2, 0), (3, 2), (4, 4)], false, false, none⟩] := by decide +kernel

example : (∀ l ∈ [(([0, 1, 1, 3], [0, 2, 5, 5]) : List ℚ × List ℚ), ([2, 4], [0, 4])], ∀ v ∈ l.1,
    RealStep (firstAt (ptsOf l) v) (lastAt (ptsOf l) v)) := by
  unfold RealStep
  decide +kernel

end Geotecha.Piecewise
