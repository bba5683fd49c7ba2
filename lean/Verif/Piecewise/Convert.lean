import Verif.Piecewise.SegLemmas

set_option linter.unusedSectionVars false
set_option linter.unusedSimpArgs false
set_option linter.unusedVariables false

namespace Geotecha.Piecewise
open Geotecha.Spec

variable {K : Type} [Field K] [LinearOrder K] [IsStrictOrderedRing K]

theorem pieces_cons (p q : K × K) (r : List (K × K)) :
    pieces (p :: q :: r) = if p.1 ≠ q.1 then (p, q) :: pieces (q :: r) else pieces (q :: r) := by
  unfold pieces
  simp only [List.tail_cons, List.zip_cons_cons, List.filter_cons]
  by_cases h : p.1 = q.1 <;> simp [h]

theorem segs_filter_cons (a b : K) (r : List K) (f : ℕ → K) :
    (segs (a :: b :: r)).filter (fun i => decide (nth (a :: b :: r) i ≠ nth (a :: b :: r) (i+1))) =
     (if a ≠ b then [0] else []) ++ ((segs (b :: r)).filter (fun i => decide (nth (b :: r) i ≠ nth (b :: r) (i+1)))).map Nat.succ := by
  unfold segs
  simp only [List.length_cons, Nat.add_sub_cancel]
  rw [List.range_succ_eq_map, List.filter_cons, List.filter_map]
  by_cases h : a = b
  · simp [h, Function.comp_def]
  · simp [h, Function.comp_def]

theorem pieces_by_index {x y : List K} (hl : x.length = y.length) :
    ((segs x).filter (fun i => decide (nth x i ≠ nth x (i+1)))).map
      (fun i => ((nth x i, nth y i), (nth x (i+1), nth y (i+1)))) = pieces (x.zip y) := by
  induction x generalizing y with
  | nil => simp [segs, pieces]
  | cons a l ih =>
    cases l with
    | nil =>
      match y, hl with
      | [c], _ => simp [segs, pieces]
    | cons b r =>
      match y, hl with
      | c :: d :: s, hl =>
        have := ih (y := d :: s) (by simpa using hl)
        rw [segs_filter_cons a b r (fun _ => 0), List.map_append, List.map_map]
        simp only [Function.comp_def, Nat.succ_eq_add_one]
        simp only [List.zip_cons_cons] at this ⊢
        rw [pieces_cons, ← this]
        by_cases h : a = b
        · simp [h]
        · simp [h]

/-- `convert_x_y_to_x1_x2_y1_y2` returns the non-vertical pieces. -/
theorem convertToSegs_eq {x y : List K} (hl : x.length = y.length) :
    convertToSegs x y = .ok (toSegs4 (pieces (x.zip y))) := by
  unfold convertToSegs
  rw [if_neg (by simpa using hl), ← pieces_by_index hl]
  simp only [toSegs4, List.map_map]
  rfl

/-! ### segments to points -/

theorem insertIndex_cons (s t : Seg K) (r : List (Seg K)) :
    insertIndex (toSegs4 (s :: t :: r)) =
      (if s.2.2 ≠ t.1.2 then [0] else []) ++ (insertIndex (toSegs4 (t :: r))).map Nat.succ := by
  unfold insertIndex toSegs4
  simp only [List.length_map, List.length_cons, Nat.add_sub_cancel, List.map_cons]
  rw [List.range_succ_eq_map, List.filter_cons, List.filter_map]
  by_cases h : s.2.2 = t.1.2
  · simp [h, Function.comp_def]
  · simp [h, Function.comp_def]

theorem npInsert_nil (a : List K) : npInsert a [] = a := by
  unfold npInsert
  simp only [List.filterMap_nil, List.nil_append, List.append_nil]
  rw [← List.map_eq_flatMap]
  apply List.ext_getElem
  · simp
  · intro i h1 h2
    simp only [List.getElem_map, List.getElem_range]
    exact nth_eq_getElem h2

/-- inserting before the second entry, all other insertions shifted by one -/
theorem npInsert_cons (a : K) (l : List K) (ins : List (ℕ × K)) (o : List K) :
    npInsert (a :: l) (o.map (fun v => (1, v)) ++ ins.map (fun q => (q.1 + 1 + 1, q.2))) =
      a :: npInsert l (o.map (fun v => (0, v)) ++ ins.map (fun q => (q.1 + 1, q.2))) := by
  unfold npInsert
  have key : ∀ p, List.filterMap (fun q : ℕ × K => if q.1 = p + 1 then some q.2 else none)
      (o.map (fun v => (1, v)) ++ ins.map (fun q => (q.1 + 1 + 1, q.2))) =
      List.filterMap (fun q : ℕ × K => if q.1 = p then some q.2 else none)
      (o.map (fun v => (0, v)) ++ ins.map (fun q => (q.1 + 1, q.2))) := by
    intro p
    simp only [List.filterMap_append, List.filterMap_map]
    congr 1
    · congr 1; funext v; simp [Function.comp, eq_comm]
    · congr 1; funext v; simp [Function.comp]
  have key0 : List.filterMap (fun q : ℕ × K => if q.1 = 0 then some q.2 else none)
      (o.map (fun v => (1, v)) ++ ins.map (fun q => (q.1 + 1 + 1, q.2))) = [] := by
    simp [List.filterMap_append, List.filterMap_map, Function.comp_def]
  simp only [List.length_cons]
  rw [List.range_succ_eq_map, List.flatMap_cons, List.flatMap_map]
  simp only [key0, key, Nat.succ_eq_add_one, nth_cons_zero, nth_cons_succ, List.nil_append, List.cons_append]

theorem npInsert_zero (b : K) (l : List K) (ins : List (ℕ × K)) (o : List K) :
    npInsert (b :: l) (o.map (fun v => (0, v)) ++ ins.map (fun q => (q.1 + 1, q.2))) =
      o ++ npInsert (b :: l) (ins.map (fun q => (q.1 + 1, q.2))) := by
  unfold npInsert
  have key : ∀ p, List.filterMap (fun q : ℕ × K => if q.1 = p + 1 then some q.2 else none)
      (o.map (fun v => (0, v)) ++ ins.map (fun q => (q.1 + 1, q.2))) =
      List.filterMap (fun q : ℕ × K => if q.1 = p + 1 then some q.2 else none)
      (ins.map (fun q => (q.1 + 1, q.2))) := by
    intro p
    simp [List.filterMap_append, List.filterMap_map, Function.comp_def]
  have key0 : List.filterMap (fun q : ℕ × K => if q.1 = 0 then some q.2 else none)
      (o.map (fun v => (0, v)) ++ ins.map (fun q => (q.1 + 1, q.2))) = o := by
    simp [List.filterMap_append, List.filterMap_map, Function.comp_def]
  have key1 : List.filterMap (fun q : ℕ × K => if q.1 = 0 then some q.2 else none)
      (ins.map (fun q => (q.1 + 1, q.2))) = [] := by
    simp [List.filterMap_append, List.filterMap_map, Function.comp_def]
  simp only [List.length_cons]
  rw [List.range_succ_eq_map, List.flatMap_cons, List.flatMap_map, List.flatMap_cons, List.flatMap_map]
  simp only [key0, key, key1, Nat.succ_eq_add_one, nth_cons_zero, nth_cons_succ, List.nil_append, List.cons_append,
    List.append_assoc]

/-- the two interleavings of `convert_x1_x2_y1_y2_to_x_y` -/
theorem npInsert_segs (pr : K × K → K) (s : Seg K) (r : List (Seg K)) (e : K)
    (he : (((s :: r).map (fun u : Seg K => pr u.2))).getLast? = some e) :
    npInsert ((s :: r).map (fun u : Seg K => pr u.1) ++ [e])
      ((insertIndex (toSegs4 (s :: r))).map (fun k => (k + 1, nth ((s :: r).map (fun u : Seg K => pr u.2)) k))) =
      (corners (s :: r)).map pr := by
  induction r generalizing s with
  | nil =>
    simp at he
    simp [insertIndex, toSegs4, npInsert_nil, corners, ← he]
  | cons t r ih =>
    have ih' := ih t (by simpa [List.getLast?_cons_cons] using he)
    rw [insertIndex_cons]
    have hsplit : (((if s.2.2 ≠ t.1.2 then [0] else []) ++ (insertIndex (toSegs4 (t :: r))).map Nat.succ).map
        (fun k => (k + 1, nth ((s :: t :: r).map (fun u : Seg K => pr u.2)) k))) =
        (if s.2.2 ≠ t.1.2 then [pr s.2] else []).map (fun v => (1, v)) ++
        ((insertIndex (toSegs4 (t :: r))).map (fun k => (k, nth ((t :: r).map (fun u : Seg K => pr u.2)) k))).map (fun q => (q.1 + 1 + 1, q.2)) := by
      by_cases h : s.2.2 = t.1.2 <;> simp [h, Function.comp_def]
    rw [hsplit, List.map_cons, List.cons_append, npInsert_cons]
    rw [List.map_cons, List.cons_append, npInsert_zero]
    have hrew : ((insertIndex (toSegs4 (t :: r))).map (fun k => (k, nth (pr t.2 :: r.map (fun u : Seg K => pr u.2)) k))).map (fun q => (q.1 + 1, q.2)) =
        (insertIndex (toSegs4 (t :: r))).map (fun k => (k + 1, nth ((t :: r).map (fun u : Seg K => pr u.2)) k)) := by
      simp [Function.comp_def]
    rw [List.map_cons, hrew]
    have ih'' := ih'
    rw [List.map_cons (f := fun u : Seg K => pr u.1), List.cons_append] at ih''
    rw [ih'']
    rw [corners]
    by_cases h : s.2.2 = t.1.2 <;> simp [h]

theorem convertToXY_eq {L : List (Seg K)} (hL : L ≠ []) (hc : (toSegs4 L).check = .ok ()) :
    convertToXY (toSegs4 L) = .ok ((corners L).map Prod.fst, (corners L).map Prod.snd) := by
  cases L with
  | nil => exact absurd rfl hL
  | cons s r =>
    unfold convertToXY
    rw [hc]
    obtain ⟨e1, he1⟩ : ∃ e, ((s :: r).map (·.2.1)).getLast? = some e := by simp [List.getLast?_cons]
    obtain ⟨e2, he2⟩ : ∃ e, ((s :: r).map (·.2.2)).getLast? = some e := by simp [List.getLast?_cons]
    have h1 := npInsert_segs Prod.fst s r e1 he1
    have h2 := npInsert_segs Prod.snd s r e2 he2
    have g1 : (toSegs4 (s :: r)).x2.getLast? = some e1 := he1
    have g2 : (toSegs4 (s :: r)).y2.getLast? = some e2 := he2
    simp only [bind, Except.bind, g1, g2, pure, Except.pure]
    have k1 : (toSegs4 (s :: r)).x1 = (s :: r).map (·.1.1) := rfl
    have k2 : (toSegs4 (s :: r)).y1 = (s :: r).map (·.1.2) := rfl
    have k3 : (toSegs4 (s :: r)).x2 = (s :: r).map (·.2.1) := rfl
    have k4 : (toSegs4 (s :: r)).y2 = (s :: r).map (·.2.2) := rfl
    rw [k1, k2, k3, k4, h1, h2]

theorem pieces_corners {L : List (Seg K)} (hc : L.IsChain (fun s t => s.2.1 = t.1.1))
    (hne : ∀ s ∈ L, s.1.1 ≠ s.2.1) : pieces (corners L) = L := by
  induction L with
  | nil => simp [corners, pieces]
  | cons s L ih =>
    cases L with
    | nil =>
      have := hne s (by simp)
      simp [corners, pieces, this]
    | cons t r =>
      have ih' := ih (List.IsChain.tail hc) (fun u hu => hne u (by simp [hu]))
      have h1 := hne s (by simp)
      have h2 : s.2.1 = t.1.1 := (List.isChain_cons_cons.1 hc).1
      obtain ⟨c, hcor⟩ : ∃ c, corners (t :: r) = t.1 :: c := by
        cases r with
        | nil => exact ⟨_, rfl⟩
        | cons u v =>
          rw [corners]
          split
          · exact ⟨_, rfl⟩
          · exact ⟨_, rfl⟩
      rw [corners]
      split
      · rw [hcor, pieces_cons, if_pos h1, pieces_cons, if_neg (by simpa using h2), ← hcor, ih']
      · rename_i h3
        have h4 : t.1 = s.2 := Prod.ext h2.symm (by simpa using (not_not.1 h3).symm)
        rw [hcor, pieces_cons, if_pos (by rw [h4]; exact h1), ← hcor, ih', h4]

theorem zip_fst_snd {α β : Type} (l : List (α × β)) : (l.map Prod.fst).zip (l.map Prod.snd) = l := by
  rw [List.zip_map']; simp

/-! ### the curve is preserved -/

theorem pieces_head_fst {q : K × K} {r : List (K × K)} (h : SortedLe ((q :: r).map Prod.fst)) {s : Seg K}
    {m : List (Seg K)} (hp : pieces (q :: r) = s :: m) : s.1.1 = q.1 := by
  induction r generalizing q with
  | nil => simp [pieces] at hp
  | cons q' r ih =>
    rw [pieces_cons] at hp
    split at hp
    · simp at hp; rw [← hp.1]
    · rename_i h1
      have := ih (q := q') (List.pairwise_cons.1 h).2 hp
      rw [this]; exact (not_not.1 h1).symm

theorem pieces_eq_nil {q : K × K} {r : List (K × K)} (hp : pieces (q :: r) = []) : ∀ p ∈ q :: r, p.1 = q.1 := by
  induction r generalizing q with
  | nil => simp
  | cons q' r ih =>
    rw [pieces_cons] at hp
    split at hp
    · simp at hp
    · rename_i h1
      have h2 := ih (q := q') hp
      have h3 : q.1 = q'.1 := not_not.1 h1
      intro p hp'
      rcases List.mem_cons.1 hp' with rfl | hp''
      · rfl
      · rw [h3]; exact h2 p hp''

theorem polyLeft_pieces {pts : List (K × K)} (h : SortedLe (pts.map Prod.fst)) {v : K}
    (h0 : ∀ p ∈ pts.head?, p.1 ≤ v) (h1 : ∀ p ∈ pts.getLast?, v ≤ p.1) (hne : pieces pts ≠ []) :
    polyLeft (segPoints (pieces pts)) v = polyLeft pts v := by
  induction pts with
  | nil => simp [pieces] at hne
  | cons p l ih =>
    cases l with
    | nil => simp [pieces] at hne
    | cons q r =>
      have hs : SortedLe ((q :: r).map Prod.fst) := (List.pairwise_cons.1 h).2
      have hpq : p.1 ≤ q.1 := (List.pairwise_cons.1 h).1 q.1 (by simp)
      have hpv : ¬ v < p.1 := not_lt.2 (h0 p (by simp))
      have hlast : ∀ p ∈ (q :: r).getLast?, v ≤ p.1 := by
        intro p' hp'; apply h1; rw [List.getLast?_cons_cons]; exact hp'
      rw [pieces_cons] at hne ⊢
      rcases lt_or_eq_of_le hpq with hlt | heq
      · rw [if_pos (ne_of_lt hlt)]
        simp only [segPoints, List.flatMap_cons, List.cons_append, List.nil_append, polyLeft, hpv, if_false]
        by_cases hvq : v ≤ q.1
        · simp [hlt, hvq]
        · rw [if_neg (fun hc => hvq hc.2), if_neg (fun hc => hvq hc.2)]
          have hqv : ¬ v < q.1 := not_lt.2 (le_of_lt (not_le.1 hvq))
          rcases hp : pieces (q :: r) with _ | ⟨s, m⟩
          · exfalso
            have := pieces_eq_nil hp
            obtain ⟨z, hz⟩ : ∃ z, (q :: r).getLast? = some z := by simp [List.getLast?_cons]
            have hzz := this z (List.mem_of_getLast? hz)
            have := hlast z hz
            rw [hzz] at this
            exact hvq this
          · have hsq := pieces_head_fst hs hp
            have := ih hs (fun p' hp' => by simp at hp'; rw [← hp']; exact not_lt.1 hqv) hlast (by rw [hp]; simp)
            rw [hp] at this
            rw [← this]
            simp only [segPoints, List.flatMap_cons, List.cons_append, List.nil_append]
            rw [polyLeft]
            rw [if_neg hqv, if_neg (fun hc => absurd hc.1 (by rw [hsq]; exact lt_irrefl _))]
      · rw [if_neg (by simpa using heq)] at hne ⊢
        rw [ih hs (fun p' hp' => by simp at hp'; rw [← hp', ← heq]; exact h0 p (by simp)) hlast hne]
        rw [polyLeft, if_neg hpv, if_neg (fun hc => absurd hc.1 (by rw [heq]; exact lt_irrefl _))]

theorem mirror_zip_tail (pts : List (K × K)) :
    (mirror pts).zip (mirror pts).tail =
      ((pts.zip pts.tail).map (fun s => ((-s.2.1, s.2.2), (-s.1.1, s.1.2)))).reverse := by
  apply List.ext_getElem
  · simp [mirror]
  · intro i h1 h2
    simp [mirror] at h1 h2
    have e : pts.length - 1 - (i + 1) = pts.length - 1 - 1 - i := by omega
    have e2 : pts.length - 1 - i = pts.length - 1 - 1 - i + 1 := by omega
    simp [mirror, List.getElem_zip, List.getElem_reverse, e, e2]

theorem pieces_mirror (pts : List (K × K)) :
    pieces (mirror pts) = ((pieces pts).map (fun s => ((-s.2.1, s.2.2), (-s.1.1, s.1.2)))).reverse := by
  unfold pieces
  rw [mirror_zip_tail, List.filter_reverse, List.filter_map]
  congr 2
  apply List.filter_congr
  intro s _
  simp [Function.comp, eq_comm]

theorem segPoints_reverse (L : List (Seg K)) :
    segPoints ((L.map (fun s => ((-s.2.1, s.2.2), (-s.1.1, s.1.2)))).reverse) = mirror (segPoints L) := by
  induction L with
  | nil => simp [segPoints, mirror]
  | cons s L ih =>
    simp only [segPoints, mirror, List.map_cons, List.reverse_cons, List.flatMap_append, List.flatMap_cons,
      List.flatMap_nil, List.append_nil, List.cons_append, List.nil_append] at ih ⊢
    rw [ih]; simp

theorem mirror_sorted {pts : List (K × K)} (h : SortedLe (pts.map Prod.fst)) :
    SortedLe ((mirror pts).map Prod.fst) := by
  unfold SortedLe mirror at *
  rw [List.map_reverse, List.pairwise_reverse, List.map_map, List.pairwise_map]
  rw [List.pairwise_map] at h
  exact h.imp (fun hab => by simpa using hab)

theorem polyRight_pieces {pts : List (K × K)} (h : SortedLe (pts.map Prod.fst)) {v : K}
    (h0 : ∀ p ∈ pts.head?, p.1 ≤ v) (h1 : ∀ p ∈ pts.getLast?, v ≤ p.1) (hne : pieces pts ≠ []) :
    polyRight (segPoints (pieces pts)) v = polyRight pts v := by
  unfold polyRight
  rw [← segPoints_reverse, ← pieces_mirror]
  apply polyLeft_pieces (mirror_sorted h)
  · intro p hp
    simp only [mirror, List.head?_reverse, List.getLast?_map, Option.mem_def, Option.map_eq_some_iff] at hp
    obtain ⟨q, hq, rfl⟩ := hp
    exact neg_le_neg (h1 q hq)
  · intro p hp
    simp only [mirror, List.getLast?_reverse, List.head?_map, Option.mem_def, Option.map_eq_some_iff] at hp
    obtain ⟨q, hq, rfl⟩ := hp
    exact neg_le_neg (h0 q hq)
  · rw [pieces_mirror]; simpa using hne

theorem pieces_contiguous {pts : List (K × K)} (h : SortedLe (pts.map Prod.fst)) : Contiguous (pieces pts) := by
  induction pts with
  | nil => simp [pieces, Contiguous]
  | cons p l ih =>
    cases l with
    | nil => simp [pieces, Contiguous]
    | cons q r =>
      have hs : SortedLe ((q :: r).map Prod.fst) := (List.pairwise_cons.1 h).2
      have hpq : p.1 ≤ q.1 := (List.pairwise_cons.1 h).1 q.1 (by simp)
      rw [pieces_cons]
      split
      · rename_i hne
        have ih' := ih hs
        refine ⟨?_, ?_⟩
        · rcases hp : pieces (q :: r) with _ | ⟨s, m⟩
          · simp
          · rw [List.isChain_cons_cons]
            refine ⟨(pieces_head_fst hs hp).symm, ?_⟩
            rw [← hp]; exact ih'.1
        · intro s hs'
          rcases List.mem_cons.1 hs' with rfl | hs''
          · exact lt_of_le_of_ne hpq hne
          · exact ih'.2 s hs''
      · exact ih hs

end Geotecha.Piecewise
