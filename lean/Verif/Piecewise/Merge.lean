import Verif.Piecewise.ModelPoly
import Verif.Piecewise.Convert
import Verif.Piecewise.Mono

set_option linter.unusedSectionVars false
set_option linter.unusedSimpArgs false
set_option linter.unusedVariables false

namespace Geotecha.Piecewise
open Geotecha.Spec
variable {K : Type} [Field K] [LinearOrder K] [IsStrictOrderedRing K]

/-! ### Polyline values between abscissae -/

theorem line_const (u w c t : K) : line (u, c) (w, c) t = c := by simp [line]

theorem line_of_line {p q : K × K} {u w t : K} (h : u ≠ w) :
    line (u, line p q u) (w, line p q w) t = line p q t := by
  unfold line
  have : w - u ≠ 0 := sub_ne_zero.2 (Ne.symm h)
  simp only
  field_simp
  ring

theorem line_at_left (p q : K × K) : line p q p.1 = p.2 := by simp [line]
theorem line_at_right {p q : K × K} (h : p.1 < q.1) : line p q q.1 = q.2 := by
  unfold line
  have : q.1 - p.1 ≠ 0 := sub_ne_zero.2 (ne_of_gt h)
  field_simp; ring

theorem find?_eq_none_of {pts : List (K × K)} {v : K} (h : ∀ p ∈ pts, p.1 ≠ v) :
    pts.find? (fun p => decide (p.1 = v)) = none := by
  rw [List.find?_eq_none]; intro p hp; simpa using h p hp

theorem firstAt_not_mem {pts : List (K × K)} {v : K} (h : ∀ p ∈ pts, p.1 ≠ v) : firstAt pts v = polyLeft pts v := by
  unfold firstAt; rw [find?_eq_none_of h]
theorem lastAt_not_mem {pts : List (K × K)} {v : K} (h : ∀ p ∈ pts, p.1 ≠ v) : lastAt pts v = polyLeft pts v := by
  unfold lastAt; rw [find?_eq_none_of (by intro p hp; exact h p (by simpa using hp))]

theorem lastAt_cons_of_mem {p : K × K} {l : List (K × K)} {v : K} (h : ∃ q ∈ l, q.1 = v) :
    lastAt (p :: l) v = lastAt l v := by
  unfold lastAt
  rw [List.reverse_cons, List.find?_append]
  obtain ⟨q, hq, hv⟩ := h
  have : (l.reverse.find? (fun p => decide (p.1 = v))).isSome := by
    rw [List.find?_isSome]; exact ⟨q, by simpa using hq, by simpa using hv⟩
  obtain ⟨q', hq'⟩ := Option.isSome_iff_exists.1 this
  rw [hq']; simp

theorem lastAt_cons_of_not_mem {p : K × K} {l : List (K × K)} (h : ∀ q ∈ l, q.1 ≠ p.1) :
    lastAt (p :: l) p.1 = p.2 := by
  unfold lastAt
  rw [List.reverse_cons, List.find?_append, find?_eq_none_of (by intro q hq; exact h q (by simpa using hq))]
  simp

theorem firstAt_head (p : K × K) (l : List (K × K)) : firstAt (p :: l) p.1 = p.2 := by
  simp [firstAt]

theorem polyLeft_lt {p : K × K} {l : List (K × K)} {t : K} (h : t < p.1) : polyLeft (p :: l) t = p.2 := by
  cases l with
  | nil => rfl
  | cons q r => simp [polyLeft, h]

theorem sorted_head_le {p : K × K} {l : List (K × K)} (h : SortedLe ((p :: l).map Prod.fst)) : ∀ q ∈ l, p.1 ≤ q.1 := by
  intro q hq
  exact (List.pairwise_cons.1 h).1 q.1 (List.mem_map.2 ⟨q, hq, rfl⟩)

/-- Between two neighbouring grid abscissae the polyline is the straight line between the value after
the left one and the value before the right one. -/
theorem polyLeft_between : ∀ {pts : List (K × K)} (hs : SortedLe (pts.map Prod.fst)) (hn : pts ≠ []) {u w t : K}
    (h1 : u < t) (h2 : t < w) (hno : ∀ p ∈ pts, p.1 ≤ u ∨ w ≤ p.1),
    polyLeft pts t = line (u, lastAt pts u) (w, firstAt pts w) t := by
  intro pts
  induction pts with
  | nil => intro _ h; exact absurd rfl h
  | cons p l ih =>
    intro hs _ u w t h1 h2 hno
    cases l with
    | nil =>
      have e1 : lastAt [p] u = p.2 := by unfold lastAt; by_cases h : p.1 = u <;> simp [h, polyLeft]
      have e2 : firstAt [p] w = p.2 := by unfold firstAt; by_cases h : p.1 = w <;> simp [h, polyLeft]
      rw [e1, e2, line_const]; rfl
    | cons q r =>
      have hle := sorted_head_le hs
      have hs' : SortedLe ((q :: r).map Prod.fst) := (List.pairwise_cons.1 hs).2
      by_cases ht : t < p.1
      · have hw : w ≤ p.1 := by
          rcases hno p (by simp) with h | h
          · linarith
          · exact h
        have e1 : lastAt (p :: q :: r) u = p.2 := by
          rw [lastAt_not_mem, polyLeft_lt (by linarith)]
          intro a ha
          rcases List.mem_cons.1 ha with rfl | ha
          · intro h; linarith
          · have := hle a ha; intro h; linarith
        have e2 : firstAt (p :: q :: r) w = p.2 := by
          rcases eq_or_lt_of_le hw with h | h
          · subst h; exact firstAt_head _ _
          · rw [firstAt_not_mem, polyLeft_lt h]
            intro a ha
            rcases List.mem_cons.1 ha with rfl | ha
            · intro h; linarith
            · have := hle a ha; intro h; linarith
        rw [e1, e2, line_const, polyLeft_lt ht]
      · push Not at ht
        have hpu : p.1 ≤ u := by
          rcases hno p (by simp) with h | h
          · exact h
          · linarith
        by_cases hc : p.1 < q.1 ∧ t ≤ q.1
        · have hqw : w ≤ q.1 := by
            rcases hno q (by simp) with h | h
            · linarith [hc.2]
            · exact h
          have hq : ∀ a ∈ q :: r, q.1 ≤ a.1 := by
            intro a ha
            rcases List.mem_cons.1 ha with rfl | ha
            · exact le_rfl
            · exact sorted_head_le hs' a ha
          have e1 : lastAt (p :: q :: r) u = line p q u := by
            rcases eq_or_lt_of_le hpu with h | h
            · subst h
              rw [lastAt_cons_of_not_mem, line_at_left]
              intro a ha h
              have := hq a ha; linarith [hc.1]
            · rw [lastAt_not_mem]
              · have h1' : ¬ u < p.1 := not_lt.2 hpu
                have h2' : u ≤ q.1 := by linarith
                simp [polyLeft, h1', h2', hc.1]
              · intro a ha
                rcases List.mem_cons.1 ha with rfl | ha
                · exact ne_of_lt h
                · have := hq a ha; intro h; linarith
          have e2 : firstAt (p :: q :: r) w = line p q w := by
            rcases eq_or_lt_of_le hqw with h | h
            · subst h
              rw [line_at_right hc.1]
              have : p.1 ≠ q.1 := ne_of_lt hc.1
              simp [firstAt, List.find?_cons, this]
            · rw [firstAt_not_mem]
              · have h1' : ¬ w < p.1 := by intro h; linarith
                simp [polyLeft, h1', hqw, hc.1]
              · intro a ha
                rcases List.mem_cons.1 ha with rfl | ha
                · intro h; linarith
                · have := hq a ha; intro h; linarith
          rw [e1, e2, line_of_line (ne_of_lt (lt_trans h1 h2))]
          simp [polyLeft, not_lt.2 ht, hc]
        · have hqt : q.1 ≤ t := by
            by_contra h
            push Not at h
            apply hc
            refine ⟨?_, le_of_lt h⟩
            linarith
          have hqu : q.1 ≤ u := by
            rcases hno q (by simp) with h | h
            · exact h
            · linarith
          have e0 : polyLeft (p :: q :: r) t = polyLeft (q :: r) t := by
            simp [polyLeft, not_lt.2 ht, hc]
          have e2 : firstAt (p :: q :: r) w = firstAt (q :: r) w := by
            have hpw : p.1 ≠ w := by intro h; linarith
            unfold firstAt
            rw [List.find?_cons, decide_eq_false hpw]
            simp only
            have h1' : ¬ w < p.1 := by intro h; linarith
            have h2' : ¬ w ≤ q.1 := by intro h; linarith
            have : polyLeft (p :: q :: r) w = polyLeft (q :: r) w := by
              simp [polyLeft, h1', h2']
            rw [this]
          have e1 : lastAt (p :: q :: r) u = lastAt (q :: r) u := by
            by_cases hm : ∃ a ∈ q :: r, a.1 = u
            · exact lastAt_cons_of_mem hm
            · push Not at hm
              have hqu' : q.1 < u := lt_of_le_of_ne hqu (hm q (by simp))
              have hpq := hle q (by simp)
              have h1' : ¬ u < p.1 := not_lt.2 hpu
              have h2' : ¬ u ≤ q.1 := not_le.2 hqu'
              rw [lastAt_not_mem hm, lastAt_not_mem]
              · simp [polyLeft, h1', h2']
              · intro a ha
                rcases List.mem_cons.1 ha with rfl | ha
                · intro h; linarith
                · exact hm a ha
          rw [e0, e1, e2]
          exact ih hs' (by simp) h1 h2 (fun a ha => hno a (by simp at ha ⊢; tauto))

theorem polyLeft_before {pts : List (K × K)} (hs : SortedLe (pts.map Prod.fst)) (hn : pts ≠ []) {w t : K}
    (h : t < w) (hno : ∀ p ∈ pts, w ≤ p.1) : polyLeft pts t = firstAt pts w := by
  cases pts with
  | nil => exact absurd rfl hn
  | cons p l =>
    rw [polyLeft_lt (lt_of_lt_of_le h (hno p (by simp)))]
    rcases eq_or_lt_of_le (hno p (by simp)) with h' | h'
    · rw [h', firstAt_head]
    · rw [firstAt_not_mem, polyLeft_lt h']
      intro a ha
      rcases List.mem_cons.1 ha with rfl | ha
      · exact ne_of_gt h'
      · exact ne_of_gt (lt_of_lt_of_le h' (sorted_head_le hs a ha))

theorem polyLeft_after : ∀ {pts : List (K × K)} (hs : SortedLe (pts.map Prod.fst)) (hn : pts ≠ []) {u t : K}
    (h : u < t) (hno : ∀ p ∈ pts, p.1 ≤ u), polyLeft pts t = lastAt pts u := by
  intro pts
  induction pts with
  | nil => intro _ h; exact absurd rfl h
  | cons p l ih =>
    intro hs _ u t h hno
    cases l with
    | nil => unfold lastAt; by_cases h : p.1 = u <;> simp [h, polyLeft]
    | cons q r =>
      have hp := hno p (by simp)
      have hq := hno q (by simp)
      have h1 : ¬ t < p.1 := by intro h; linarith
      have h2 : ¬ t ≤ q.1 := by intro h; linarith
      have e0 : polyLeft (p :: q :: r) t = polyLeft (q :: r) t := by simp [polyLeft, h1, h2]
      rw [e0, ih (List.pairwise_cons.1 hs).2 (by simp) h (fun a ha => hno a (by simp at ha ⊢; tauto))]
      symm
      by_cases hm : ∃ a ∈ q :: r, a.1 = u
      · exact lastAt_cons_of_mem hm
      · push Not at hm
        have hqu' : q.1 < u := lt_of_le_of_ne hq (hm q (by simp))
        have hpq := sorted_head_le hs q (by simp)
        have h1' : ¬ u < p.1 := not_lt.2 hp
        have h2' : ¬ u ≤ q.1 := not_le.2 hqu'
        rw [lastAt_not_mem hm, lastAt_not_mem]
        · simp [polyLeft, h1', h2']
        · intro a ha
          rcases List.mem_cons.1 ha with rfl | ha
          · intro h; linarith
          · exact hm a ha

/-! ### The sorted table -/

theorem row_le_iff (a b : Row K) : Row.le a b = true ↔
    (a.x < b.x ∨ (a.x = b.x ∧ (a.line < b.line ∨ (a.line = b.line ∧ a.pos ≤ b.pos)))) := by
  simp [Row.le]

instance : Std.Total (fun a b : Row K => Row.le a b = true) := ⟨by
  intro a b
  simp only [row_le_iff]
  rcases lt_trichotomy a.x b.x with h | h | h
  · exact Or.inl (Or.inl h)
  · rcases Nat.lt_trichotomy a.line b.line with h2 | h2 | h2
    · exact Or.inl (Or.inr ⟨h, Or.inl h2⟩)
    · rcases Nat.le_total a.pos b.pos with h3 | h3
      · exact Or.inl (Or.inr ⟨h, Or.inr ⟨h2, h3⟩⟩)
      · exact Or.inr (Or.inr ⟨h.symm, Or.inr ⟨h2.symm, h3⟩⟩)
    · exact Or.inr (Or.inr ⟨h.symm, Or.inl h2⟩)
  · exact Or.inr (Or.inl h)⟩

instance : IsTrans (Row K) (fun a b : Row K => Row.le a b = true) := ⟨by
  intro a b c h1 h2
  simp only [row_le_iff] at *
  rcases h1 with h1 | ⟨h1, h1'⟩ <;> rcases h2 with h2 | ⟨h2, h2'⟩
  · exact Or.inl (lt_trans h1 h2)
  · exact Or.inl (h2 ▸ h1)
  · exact Or.inl (h1 ▸ h2)
  · refine Or.inr ⟨h1.trans h2, ?_⟩
    omega⟩

theorem sortRows_perm (d : List (Row K)) : (sortRows d).Perm d := List.perm_insertionSort _ d

theorem sortRows_sorted (d : List (Row K)) : (sortRows d).Pairwise (fun a b => Row.le a b = true) :=
  List.pairwise_insertionSort _ d

theorem sortRows_x (d : List (Row K)) : (sortRows d).Pairwise (fun a b => a.x ≤ b.x) :=
  (sortRows_sorted d).imp (by
    intro a b h
    rw [row_le_iff] at h
    rcases h with h | h
    · exact le_of_lt h
    · exact le_of_eq h.1)

theorem dataOf_filter (ls : List (List K × List K)) (k : ℕ) (hk : k < ls.length) (P : Row K → Bool) :
    (dataOf ls).filter (fun r => P r && decide (r.line = k)) = (rowsOf ls[k].1 ls[k].2 k).filter P := by
  unfold dataOf
  rw [List.filter_flatMap]
  have : ∀ i, (rowsOf (ls.getD i ([], [])).1 (ls.getD i ([], [])).2 i).filter (fun r => P r && decide (r.line = k)) =
      if i = k then (rowsOf ls[k].1 ls[k].2 k).filter P else [] := by
    intro i
    split_ifs with h
    · subst h
      rw [List.getD_eq_getElem?_getD, List.getElem?_eq_getElem hk]
      apply List.filter_congr
      intro r hr
      simp only [rowsOf, List.mem_map] at hr
      obtain ⟨m, _, rfl⟩ := hr
      simp
    · rw [List.filter_eq_nil_iff]
      intro r hr
      simp only [rowsOf, List.mem_map] at hr
      obtain ⟨m, _, rfl⟩ := hr
      simp [h]
  simp only [this]
  have h2 : List.range ls.length = List.range k ++ k :: List.range' (k+1) (ls.length - (k+1)) := by
    rw [List.range_eq_range', List.range_eq_range', show ls.length = k + (1 + (ls.length - (k+1))) by omega,
      ← List.range'_append_1]
    congr 1
    simp only [zero_add]
    rw [Nat.add_comm 1, List.range'_succ]
    congr 2
    omega
  rw [h2, List.flatMap_append, List.flatMap_cons]
  have e1 : (List.range k).flatMap (fun i => if i = k then (rowsOf ls[k].1 ls[k].2 k).filter P else []) = [] := by
    rw [List.flatMap_eq_nil_iff]
    intro i hi
    rw [List.mem_range] at hi
    rw [if_neg (by omega)]
  have e2 : (List.range' (k+1) (ls.length - (k+1))).flatMap (fun i => if i = k then (rowsOf ls[k].1 ls[k].2 k).filter P else []) = [] := by
    rw [List.flatMap_eq_nil_iff]
    intro i hi
    rw [List.mem_range'_1] at hi
    rw [if_neg (by omega)]
  rw [e1, e2]
  simp

theorem mem_dataOf (ls : List (List K × List K)) (r : Row K) : r ∈ dataOf ls ↔
    ∃ k, ∃ hk : k < ls.length, ∃ i < ls[k].1.length, r = ⟨nth ls[k].1 i, nth ls[k].2 i, k, i⟩ := by
  unfold dataOf rowsOf
  simp only [List.mem_flatMap, List.mem_range, List.mem_map]
  constructor
  · rintro ⟨k, hk, i, hi, rfl⟩
    rw [List.getD_eq_getElem?_getD, List.getElem?_eq_getElem hk] at hi ⊢
    exact ⟨k, hk, i, hi, rfl⟩
  · rintro ⟨k, hk, i, hi, rfl⟩
    refine ⟨k, hk, i, ?_, ?_⟩
    · rw [List.getD_eq_getElem?_getD, List.getElem?_eq_getElem hk]; exact hi
    · rw [List.getD_eq_getElem?_getD, List.getElem?_eq_getElem hk]; rfl

end Geotecha.Piecewise
