import Verif.Piecewise.Integral

set_option linter.unusedSectionVars false
set_option linter.unusedSimpArgs false
set_option linter.unusedVariables false

namespace Geotecha.Piecewise
open Geotecha.Spec MeasureTheory

variable {K : Type} [Field K] [LinearOrder K] [IsStrictOrderedRing K]

/-- The four arrays of a list of segments. -/
def toSegs4 (L : List (Seg K)) : Segs4 K :=
  ⟨L.map (·.1.1), L.map (·.2.1), L.map (·.1.2), L.map (·.2.2)⟩

def px (L : List (Seg K)) : List K := (segPoints L).map Prod.fst
def py (L : List (Seg K)) : List K := (segPoints L).map Prod.snd

theorem px_cons (s : Seg K) (L : List (Seg K)) : px (s :: L) = s.1.1 :: s.2.1 :: px L := by
  simp [px, segPoints]
theorem py_cons (s : Seg K) (L : List (Seg K)) : py (s :: L) = s.1.2 :: s.2.2 :: py L := by
  simp [py, segPoints]

theorem zip_px_py (L : List (Seg K)) : (px L).zip (py L) = segPoints L := by
  unfold px py
  rw [List.zip_map']; simp

theorem px_length (L : List (Seg K)) : (px L).length = 2 * L.length := by
  induction L with
  | nil => rfl
  | cons s L ih => rw [px_cons]; simp [ih]; ring
theorem py_length (L : List (Seg K)) : (py L).length = 2 * L.length := by
  induction L with
  | nil => rfl
  | cons s L ih => rw [py_cons]; simp [ih]; ring

theorem nth_px_even (L : List (Seg K)) (k : ℕ) : nth (px L) (2*k) = nth (L.map (·.1.1)) k := by
  induction L generalizing k with
  | nil => simp [px, segPoints]
  | cons s L ih =>
    rw [px_cons]
    cases k with
    | zero => rfl
    | succ k => rw [show 2*(k+1) = 2*k+1+1 by ring]; simpa using ih k
theorem nth_px_odd (L : List (Seg K)) (k : ℕ) : nth (px L) (2*k+1) = nth (L.map (·.2.1)) k := by
  induction L generalizing k with
  | nil => simp [px, segPoints]
  | cons s L ih =>
    rw [px_cons]
    cases k with
    | zero => rfl
    | succ k => rw [show 2*(k+1)+1 = (2*k+1)+1+1 by ring]; simpa using ih k
theorem nth_py_even (L : List (Seg K)) (k : ℕ) : nth (py L) (2*k) = nth (L.map (·.1.2)) k := by
  induction L generalizing k with
  | nil => simp [py, segPoints]
  | cons s L ih =>
    rw [py_cons]
    cases k with
    | zero => rfl
    | succ k => rw [show 2*(k+1) = 2*k+1+1 by ring]; simpa using ih k
theorem nth_py_odd (L : List (Seg K)) (k : ℕ) : nth (py L) (2*k+1) = nth (L.map (·.2.2)) k := by
  induction L generalizing k with
  | nil => simp [py, segPoints]
  | cons s L ih =>
    rw [py_cons]
    cases k with
    | zero => rfl
    | succ k => rw [show 2*(k+1)+1 = (2*k+1)+1+1 by ring]; simpa using ih k

theorem px_sorted {L : List (Seg K)} (h : Contiguous L) : SortedLe (px L) := by
  unfold SortedLe
  rw [← List.isChain_iff_pairwise]
  obtain ⟨hc, hm⟩ := h
  induction L with
  | nil => simp [px, segPoints]
  | cons s L ih =>
    rw [px_cons]
    have h1 : s.1.1 < s.2.1 := hm s (by simp)
    have h2 := ih (List.IsChain.tail hc) (fun t ht => hm t (by simp [ht]))
    cases L with
    | nil => simp [px, segPoints, le_of_lt h1]
    | cons t r =>
      rw [px_cons] at h2 ⊢
      have h3 : s.2.1 = t.1.1 := (List.isChain_cons_cons.1 hc).1
      simp only [List.isChain_cons_cons] at h2 ⊢
      exact ⟨le_of_lt h1, le_of_eq h3, h2⟩

/-- node list used by the code: `np.append(x1, x2[-1])` -/
def nodes (L : List (Seg K)) : List K := L.map (·.1.1) ++ [(L.map (·.2.1)).getLastD 0]

theorem nodes_length (L : List (Seg K)) : (nodes L).length = L.length + 1 := by simp [nodes]

theorem nth_nodes {L : List (Seg K)} {k : ℕ} (hk : k < L.length) : nth (nodes L) k = nth (L.map (·.1.1)) k := by
  simp [nodes, nth, List.getD_eq_getElem?_getD, List.getElem?_append, hk]

theorem nth_nodes_succ {L : List (Seg K)} (h : Contiguous L) {k : ℕ} (hk : k < L.length) :
    nth (nodes L) (k+1) = nth (L.map (·.2.1)) k := by
  induction L generalizing k with
  | nil => simp at hk
  | cons s L ih =>
    cases L with
    | nil => simp at hk; subst hk; simp [nodes]
    | cons t r =>
      have h2 : Contiguous (t :: r) := ⟨List.IsChain.tail h.1, fun u hu => h.2 u (by simp [hu])⟩
      have h3 : s.2.1 = t.1.1 := (List.isChain_cons_cons.1 h.1).1
      have hnodes : nodes (s :: t :: r) = s.1.1 :: nodes (t :: r) := by simp [nodes, List.getLastD_cons]
      rw [hnodes, nth_cons_succ]
      cases k with
      | zero => simp [nodes, h3]
      | succ k => rw [ih h2 (by simpa using hk)]; simp

theorem seg_lt {L : List (Seg K)} (h : Contiguous L) {k : ℕ} (hk : k < L.length) :
    nth (L.map (·.1.1)) k < nth (L.map (·.2.1)) k := by
  rw [nth_eq_getElem (by simpa using hk), nth_eq_getElem (by simpa using hk)]
  simpa using h.2 _ (List.getElem_mem hk)

theorem nodes_sorted {L : List (Seg K)} (h : Contiguous L) : SortedLe (nodes L) := by
  unfold SortedLe
  rw [← List.isChain_iff_pairwise, List.isChain_iff_getElem]
  intro i hi
  rw [nodes_length] at hi
  have e1 := nth_nodes (L := L) (k := i) (by omega)
  have e2 := nth_nodes_succ h (k := i) (by omega)
  rw [nth_eq_getElem (by rw [nodes_length]; omega)] at e1 e2
  rw [e1, e2]
  exact le_of_lt (seg_lt h (by omega))

theorem segs4_check {L : List (Seg K)} (h : Contiguous L) : (toSegs4 L).check = .ok () := by
  unfold Segs4.check toSegs4
  have hall : allclose (L.map (·.1.1)).tail (L.map (·.2.1)).dropLast = true := by
    unfold allclose
    rw [List.all_eq_true]
    intro p hp
    have : p.1 = p.2 := by
      have hc := h.1
      clear h
      induction L with
      | nil => simp at hp
      | cons s L ih =>
        cases L with
        | nil => simp at hp
        | cons t r =>
          have h3 : s.2.1 = t.1.1 := (List.isChain_cons_cons.1 hc).1
          simp only [List.map_cons, List.tail_cons, List.dropLast_cons₂, List.zip_cons_cons, List.mem_cons] at hp
          rcases hp with rfl | hp
          · exact h3.symm
          · exact ih (by simpa using hp) (List.IsChain.tail hc)
    rw [decide_eq_true_iff, this, sub_self, abs_zero]
    positivity
  simp [hall]

variable {L : List (Seg K)}

theorem interpSegs_of_some (h : Contiguous L) {v : K} {b : Bool} {j : ℕ}
    (hs : segmentContaining (nodes L) v b = some j) :
    interpSegs (toSegs4 L) v b = .ok (line (nth (px L) (2*j), nth (py L) (2*j)) (nth (px L) (2*j+1), nth (py L) (2*j+1)) v) := by
  have hj := (segmentContaining_some hs).1
  rw [nodes_length] at hj
  cases L with
  | nil => simp at hj
  | cons s r =>
    unfold interpSegs
    rw [segs4_check h]
    rw [nth_px_even, nth_px_odd, nth_py_even, nth_py_odd]
    have e : nodes (s :: r) = (toSegs4 (s :: r)).x1 ++ [((s::r).map (·.2.1)).getLastD 0] := rfl
    rw [e] at hs
    have e2 : (toSegs4 (s :: r)).x2.getLast? = some (((s::r).map (·.2.1)).getLastD 0) := by
      simp only [toSegs4]
      rw [List.getLastD_eq_getLast?]
      simp [List.getLast?_cons]
    obtain ⟨w, hw⟩ : ∃ w, (toSegs4 (s :: r)).y2.getLast? = some w := by
      simp [toSegs4, List.getLast?_cons]
    simp only [bind, Except.bind, e2, hw]
    simp only [toSegs4, List.map_cons] at hs ⊢
    rw [hs]
    simp [pure, Except.pure, line]

theorem polyLeft_seg (h : Contiguous L) {v : K} {j : ℕ} (hj : j < L.length)
    (h2 : nth (nodes L) j ≤ v) (h3 : v ≤ nth (nodes L) (j+1)) (hf : ∀ i < j, nth (nodes L) (i+1) < v) :
    polyLeft (segPoints L) v = line (nth (px L) (2*j), nth (py L) (2*j)) (nth (px L) (2*j+1), nth (py L) (2*j+1)) v := by
  rw [← zip_px_py]
  rw [nth_nodes hj] at h2
  rw [nth_nodes_succ h hj] at h3
  apply polyLeft_eq_line (px_sorted h) (by rw [px_length, py_length]) (by rw [px_length]; omega)
  · rw [nth_px_even, nth_px_odd]; exact seg_lt h hj
  · rw [nth_px_even]; exact h2
  · rw [nth_px_odd]; exact h3
  · intro i hi hlt
    rcases Nat.even_or_odd' i with ⟨m, rfl | rfl⟩
    · rw [nth_px_odd, ← nth_nodes_succ h (by omega)]; exact hf m (by omega)
    · exfalso
      rw [show 2*m+1+1 = 2*(m+1) by ring, nth_px_even, nth_px_odd, ← nth_nodes_succ h (by omega), nth_nodes (by omega)] at hlt
      exact lt_irrefl _ hlt

theorem polyRight_seg (h : Contiguous L) {v : K} {j : ℕ} (hj : j < L.length)
    (h2 : nth (nodes L) j ≤ v) (h3 : v ≤ nth (nodes L) (j+1)) (hf : ∀ i, j < i → i < L.length → v < nth (nodes L) i) :
    polyRight (segPoints L) v = line (nth (px L) (2*j), nth (py L) (2*j)) (nth (px L) (2*j+1), nth (py L) (2*j+1)) v := by
  rw [← zip_px_py]
  rw [nth_nodes hj] at h2
  rw [nth_nodes_succ h hj] at h3
  apply polyRight_eq_line (px_sorted h) (by rw [px_length, py_length]) (by rw [px_length]; omega)
  · rw [nth_px_even, nth_px_odd]; exact seg_lt h hj
  · rw [nth_px_even]; exact h2
  · rw [nth_px_odd]; exact h3
  · intro i hi hi2 hlt
    rw [px_length] at hi2
    rcases Nat.even_or_odd' i with ⟨m, rfl | rfl⟩
    · rw [nth_px_even, ← nth_nodes (by omega)]; exact hf m (by omega) (by omega)
    · exfalso
      rw [show 2*m+1+1 = 2*(m+1) by ring, nth_px_even, nth_px_odd, ← nth_nodes_succ h (by omega), nth_nodes (by omega)] at hlt
      exact lt_irrefl _ hlt

theorem nodes_first (hL : L ≠ []) : nth (nodes L) 0 = nth (px L) 0 := by
  rw [nth_nodes (List.length_pos_iff.2 hL), ← nth_px_even]

theorem nodes_last (h : Contiguous L) (hL : L ≠ []) : nth (nodes L) (L.length) = nth (px L) (2 * L.length - 1) := by
  have hp := List.length_pos_iff.2 hL
  have := nth_nodes_succ h (k := L.length - 1) (by omega)
  rw [show L.length - 1 + 1 = L.length by omega] at this
  rw [this, ← nth_px_odd]; congr 1; omega

theorem nodes_lt (h : Contiguous L) (hL : L ≠ []) : nth (nodes L) 0 < nth (nodes L) ((nodes L).length - 1) := by
  have hp := List.length_pos_iff.2 hL
  rw [nodes_length, Nat.add_sub_cancel]
  have h1 : nth (nodes L) 0 < nth (nodes L) 1 := by
    rw [nth_nodes hp, nth_nodes_succ h hp]; exact seg_lt h hp
  exact lt_of_lt_of_le h1 (nth_mono (nodes_sorted h) (by omega) (by rw [nodes_length]; omega))

theorem interpSegs_of_none (h : Contiguous L) (hL : L ≠ []) {v : K} {b : Bool}
    (hs : segmentContaining (nodes L) v b = none) :
    interpSegs (toSegs4 L) v b = .ok (if |v - nth (nodes L) 0| < |v - nth (nodes L) L.length| then nth (py L) 0
      else nth (py L) (2*L.length - 1)) := by
  cases L with
  | nil => exact absurd rfl hL
  | cons s r =>
    unfold interpSegs
    rw [segs4_check h]
    have e : nodes (s :: r) = (toSegs4 (s :: r)).x1 ++ [((s::r).map (·.2.1)).getLastD 0] := rfl
    rw [e] at hs
    have e2 : (toSegs4 (s :: r)).x2.getLast? = some (((s::r).map (·.2.1)).getLastD 0) := by
      simp only [toSegs4]
      rw [List.getLastD_eq_getLast?]
      simp [List.getLast?_cons]
    have e3 : (toSegs4 (s :: r)).y2.getLast? = some (nth (py (s::r)) (2*(s::r).length - 1)) := by
      have : 2*(s::r).length - 1 = 2 * r.length + 1 := by simp; omega
      rw [this, nth_py_odd]
      simp only [toSegs4]
      rw [List.getLast?_eq_getElem?]
      simp [nth, List.getD_eq_getElem?_getD]
    have e4 : nth (nodes (s::r)) (s::r).length = ((s::r).map (·.2.1)).getLastD 0 := by
      simp [nodes, nth, List.getD_eq_getElem?_getD, List.getElem?_append]
    simp only [bind, Except.bind, e2, e3]
    rw [e4]
    simp only [toSegs4, List.map_cons] at hs ⊢
    rw [hs]
    have e5 : nth (nodes (s::r)) 0 = s.1.1 := by simp [nodes]
    have e6 : nth (py (s::r)) 0 = s.1.2 := by simp [py_cons]
    rw [e5, e6]
    simp only [List.map_cons, pure, Except.pure]
    split <;> simp_all

theorem interpSegs_left (h : Contiguous L) (hL : L ≠ []) (v : K) :
    interpSegs (toSegs4 L) v false = .ok (polyLeft (segPoints L) v) := by
  have hp := List.length_pos_iff.2 hL
  have hs := nodes_sorted h
  have hne := nodes_lt h hL
  have hlen := nodes_length L
  rcases lt_or_ge v (nth (nodes L) 0) with hv | hv
  · rw [interpSegs_of_none h hL (segmentContaining_out hs false (Or.inl hv))]
    have := below_cond hs hne hv
    rw [hlen, Nat.add_sub_cancel] at this
    rw [if_pos this, ← zip_px_py, polyLeft_below (by rw [px_length, py_length]) (by rw [px_length]; omega)]
    rwa [← nodes_first hL]
  · rcases lt_or_ge (nth (nodes L) ((nodes L).length - 1)) v with hv' | hv'
    · rw [interpSegs_of_none h hL (segmentContaining_out hs false (Or.inr hv'))]
      have := above_cond hne hv'
      rw [hlen, Nat.add_sub_cancel] at this hv'
      rw [if_neg this, ← zip_px_py, polyLeft_above (px_sorted h) (by rw [px_length, py_length]) (by rw [px_length]; omega), py_length]
      rw [px_length, ← nodes_last h hL]; exact hv'
    · obtain ⟨j, hj⟩ := segmentContaining_in hs hne false hv hv'
      obtain ⟨hj1, hj2, hj3⟩ := segmentContaining_false_some hj
      obtain ⟨h1, h2, h3⟩ := (segTest_iff hs hj1 v).1 hj2
      rw [interpSegs_of_some h hj, polyLeft_seg h (by omega) h2 h3]
      intro i hi
      by_contra hc
      have := hj3 i hi
      have hmono := nth_mono hs (Nat.le_of_lt hi) (by omega)
      have hlt : nth (nodes L) i < nth (nodes L) (i+1) := by
        rw [nth_nodes (by omega), nth_nodes_succ h (by omega)]; exact seg_lt h (by omega)
      rw [(segTest_iff hs (by omega) v).2 ⟨hlt, le_trans hmono h2, not_lt.1 hc⟩] at this
      simp at this

theorem interpSegs_right (h : Contiguous L) (hL : L ≠ []) (v : K) :
    interpSegs (toSegs4 L) v true = .ok (polyRight (segPoints L) v) := by
  have hp := List.length_pos_iff.2 hL
  have hs := nodes_sorted h
  have hne := nodes_lt h hL
  have hlen := nodes_length L
  rcases lt_or_ge v (nth (nodes L) 0) with hv | hv
  · rw [interpSegs_of_none h hL (segmentContaining_out hs true (Or.inl hv))]
    have := below_cond hs hne hv
    rw [hlen, Nat.add_sub_cancel] at this
    rw [if_pos this, ← zip_px_py, polyRight_below (px_sorted h) (by rw [px_length, py_length]) (by rw [px_length]; omega)]
    rwa [← nodes_first hL]
  · rcases lt_or_ge (nth (nodes L) ((nodes L).length - 1)) v with hv' | hv'
    · rw [interpSegs_of_none h hL (segmentContaining_out hs true (Or.inr hv'))]
      have := above_cond hne hv'
      rw [hlen, Nat.add_sub_cancel] at this hv'
      rw [if_neg this, ← zip_px_py, polyRight_above (px_sorted h) (by rw [px_length, py_length]) (by rw [px_length]; omega), py_length]
      rw [px_length, ← nodes_last h hL]; exact hv'
    · obtain ⟨j, hj⟩ := segmentContaining_in hs hne true hv hv'
      obtain ⟨hj1, hj2, hj3⟩ := segmentContaining_true_some hj
      obtain ⟨h1, h2, h3⟩ := (segTest_iff hs hj1 v).1 hj2
      rw [interpSegs_of_some h hj, polyRight_seg h (by omega) h2 h3]
      intro i hi hi2
      by_contra hc
      have := hj3 i hi (by omega)
      have hmono := nth_mono hs (show j + 1 ≤ i by omega) (by omega)
      have hlt : nth (nodes L) i < nth (nodes L) (i+1) := by
        rw [nth_nodes (by omega), nth_nodes_succ h (by omega)]; exact seg_lt h (by omega)
      rw [(segTest_iff hs (by omega) v).2 ⟨hlt, not_lt.1 hc, le_trans h3 (le_trans hmono (le_of_lt hlt))⟩] at this
      simp at this

end Geotecha.Piecewise
