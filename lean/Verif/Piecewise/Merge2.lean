import Verif.Piecewise.Merge

set_option linter.unusedSectionVars false
set_option linter.unusedSimpArgs false
set_option linter.unusedVariables false

namespace Geotecha.Piecewise
open Geotecha.Spec
variable {K : Type} [Field K] [LinearOrder K] [IsStrictOrderedRing K]

theorem polyTol_pos (x : K) : (0:K) < polyAtol + polyRtol * |x| := by
  unfold polyAtol polyRtol
  have := abs_nonneg x
  positivity

theorem isClose_self (r : Row K) : isClose r.x r = true := by
  simp only [isClose, sub_self, abs_zero, decide_eq_true_iff]
  exact polyTol_pos _

theorem nextIndex_spec {data : List (Row K)} (hs : data.Pairwise (fun a b => a.x ≤ b.x)) {i : ℕ}
    (hi : i < data.length) :
    i < nextIndex data data[i].x ∧ nextIndex data data[i].x ≤ data.length ∧
    (∀ m (hm : m < data.length), i ≤ m → m < nextIndex data data[i].x → isClose data[i].x data[m] = true) ∧
    (∀ m (hm : m < data.length), nextIndex data data[i].x ≤ m → isClose data[i].x data[m] = false) := by
  unfold nextIndex
  rcases hf : (List.range data.length).reverse.find? (fun m => (data[m]?).any (isClose data[i].x)) with _ | j
  · exfalso
    rw [List.find?_eq_none] at hf
    have := hf i (by simp [hi])
    rw [List.getElem?_eq_getElem hi] at this
    simp [isClose_self] at this
  · simp only
    have hj := List.find?_some hf
    have hjm := List.mem_of_find?_eq_some hf
    simp at hjm
    rw [List.getElem?_eq_getElem hjm] at hj
    simp at hj
    have hafter : ∀ m (hm : m < data.length), j + 1 ≤ m → isClose data[i].x data[m] = false := by
      intro m hm hjm'
      rw [List.find?_eq_some_iff_append] at hf
      obtain ⟨_, as, bs, heq, hall⟩ := hf
      have hrev : List.range data.length = bs.reverse ++ j :: as.reverse := by
        have := congrArg List.reverse heq
        simpa using this
      have hmm : m ∈ as := by
        have h1 : m ∈ List.range data.length := by simp [hm]
        have hp : (List.range data.length).Pairwise (· < ·) := List.pairwise_lt_range
        rw [hrev] at h1 hp
        rw [List.pairwise_append] at hp
        rcases List.mem_append.1 h1 with h | h
        · have := hp.2.2 m h j (by simp); omega
        · rcases List.mem_cons.1 h with h | h
          · omega
          · simpa using h
      have := hall m hmm
      rw [List.getElem?_eq_getElem hm] at this
      simpa using this
    have hij : i < j + 1 := by
      by_contra h
      have := hafter i hi (by omega)
      rw [isClose_self] at this; simp at this
    refine ⟨hij, by omega, ?_, hafter⟩
    intro m hm him hmj
    have hle : ∀ a b (ha : a < data.length) (hb : b < data.length), a ≤ b → data[a].x ≤ data[b].x := by
      intro a b ha hb hab
      rcases Nat.lt_or_eq_of_le hab with h | rfl
      · exact List.pairwise_iff_getElem.1 hs a b ha hb h
      · exact le_rfl
    have h1 := hle i m hi hm him
    have h2 := hle m j hm hjm (by omega)
    simp only [isClose, decide_eq_true_iff] at hj ⊢
    rw [abs_of_nonneg (by linarith)] at hj ⊢
    linarith

/-- What the `while` loop visits. -/
theorem visit_spec {data : List (Row K)} (hs : data.Pairwise (fun a b => a.x ≤ b.x)) (fuel i : ℕ)
    (hfuel : data.length ≤ fuel + i) :
    ∃ xs, visit data fuel i = some xs ∧ xs.Pairwise (· < ·) ∧
      (∀ x ∈ xs, ∃ m, ∃ hm : m < data.length, i ≤ m ∧ data[m].x = x) ∧
      (∀ m (hm : m < data.length), i ≤ m → ∃ x ∈ xs, x ≤ data[m].x ∧ isClose x data[m] = true) := by
  induction fuel generalizing i with
  | zero =>
    refine ⟨[], ?_, by simp, by simp, by intro m hm him; omega⟩
    simp [visit]; omega
  | succ fuel ih =>
    by_cases hi : i < data.length
    · obtain ⟨n1, n2, n3, n4⟩ := nextIndex_spec hs hi
      obtain ⟨xs, hv, hp, hm, hc⟩ := ih (nextIndex data data[i].x) (by omega)
      have hle : ∀ a b (ha : a < data.length) (hb : b < data.length), a ≤ b → data[a].x ≤ data[b].x := by
        intro a b ha hb hab
        rcases Nat.lt_or_eq_of_le hab with h | rfl
        · exact List.pairwise_iff_getElem.1 hs a b ha hb h
        · exact le_rfl
      refine ⟨data[i].x :: xs, ?_, ?_, ?_, ?_⟩
      · simp [visit, List.getElem?_eq_getElem hi, hv]
      · rw [List.pairwise_cons]
        refine ⟨?_, hp⟩
        intro x hx
        obtain ⟨m, hm1, hm2, rfl⟩ := hm x hx
        refine lt_of_le_of_ne (hle i m hi hm1 (by omega)) ?_
        intro he
        have := n4 m hm1 hm2
        rw [he, isClose_self] at this
        simp at this
      · intro x hx
        rcases List.mem_cons.1 hx with rfl | hx
        · exact ⟨i, hi, le_rfl, rfl⟩
        · obtain ⟨m, hm1, hm2, rfl⟩ := hm x hx
          exact ⟨m, hm1, by omega, rfl⟩
      · intro m hm1 him
        by_cases h : m < nextIndex data data[i].x
        · exact ⟨data[i].x, by simp, hle i m hi hm1 him, n3 m hm1 him h⟩
        · obtain ⟨x, hx, h1, h2⟩ := hc m hm1 (by omega)
          exact ⟨x, by simp [hx], h1, h2⟩
    · refine ⟨[], ?_, by simp, by simp, by intro m hm him; omega⟩
      simp [visit, List.getElem?_eq_none (by omega : data.length ≤ i)]

/-- Any two different abscissae are further apart than the tolerance. -/
def Separated (ls : List (List K × List K)) : Prop :=
  ∀ l ∈ ls, ∀ m ∈ ls, ∀ a ∈ l.1, ∀ b ∈ m.1, a ≠ b → (1/100000 : K) + 1/100000000 * |b| ≤ |a - b|

theorem close_iff_eq {ls : List (List K × List K)} (h : Separated ls) {r : Row K}
    (hr : r ∈ dataOf ls) {v : K} (hv : ∃ m ∈ ls, v ∈ m.1) : isClose v r = true ↔ r.x = v := by
  constructor
  · intro hc
    by_contra hne
    rw [mem_dataOf] at hr
    obtain ⟨k, hk, i, hi, rfl⟩ := hr
    obtain ⟨m, hm, hvm⟩ := hv
    have hmem : nth ls[k].1 i ∈ ls[k].1 := by
      rw [nth_eq_getElem hi]; exact List.getElem_mem _
    have := h ls[k] (List.getElem_mem _) m hm _ hmem v hvm hne
    simp only [isClose, polyAtol, polyRtol] at hc
    have hc' := of_decide_eq_true hc
    linarith
  · rintro rfl
    exact isClose_self r

theorem rowsOf_filter_head (x y : List K) (hl : x.length = y.length) (k : ℕ) (v : K) :
    ((rowsOf x y k).filter (fun r => decide (r.x = v))).map (fun r => (r.x, r.y)) =
    (x.zip y).filter (fun p => decide (p.1 = v)) := by
  have e : (rowsOf x y k).map (fun r => (r.x, r.y)) = x.zip y := by
    apply List.ext_getElem
    · simp [rowsOf, hl]
    · intro i h1 h2
      simp [rowsOf] at h1 h2
      simp [rowsOf, List.getElem?_eq_getElem h2.1, List.getElem?_eq_getElem h2.2]
  rw [← e, List.filter_map]
  rfl

/-- The close rows of a line are exactly its points at that abscissa, in order. -/
theorem group_eq {ls : List (List K × List K)} (h : Separated ls) {k : ℕ} (hk : k < ls.length) {v : K}
    (hv : ∃ m ∈ ls, v ∈ m.1) :
    (sortRows (dataOf ls)).filter (fun r => isClose v r && decide (r.line = k)) =
      (rowsOf ls[k].1 ls[k].2 k).filter (fun r => decide (r.x = v)) := by
  have e1 : (sortRows (dataOf ls)).filter (fun r => isClose v r && decide (r.line = k)) =
      (sortRows (dataOf ls)).filter (fun r => decide (r.x = v) && decide (r.line = k)) := by
    apply List.filter_congr
    intro r hr
    have hr' : r ∈ dataOf ls := (sortRows_perm _).mem_iff.1 hr
    congr 1
    rw [Bool.eq_iff_iff, close_iff_eq h hr' hv]
    simp
  rw [e1]
  have hperm : ((sortRows (dataOf ls)).filter (fun r => decide (r.x = v) && decide (r.line = k))).Perm
      ((rowsOf ls[k].1 ls[k].2 k).filter (fun r => decide (r.x = v))) := by
    rw [← dataOf_filter ls k hk]
    exact (sortRows_perm _).filter _
  refine List.Perm.eq_of_pairwise (le := fun a b : Row K => Row.le a b = true) ?_ ((sortRows_sorted _).filter _) ?_ hperm
  · intro a b ha hb h1 h2
    rw [List.mem_filter] at ha hb
    obtain ⟨ha1, ha2⟩ := ha
    obtain ⟨hb1, hb2⟩ := hb
    simp only [rowsOf, List.mem_map, List.mem_range] at hb1
    have ha1' := (sortRows_perm _).mem_iff.1 ha1
    rw [mem_dataOf] at ha1'
    obtain ⟨k', hk', i, hi, rfl⟩ := ha1'
    obtain ⟨j, hj, rfl⟩ := hb1
    simp at ha2 hb2
    obtain ⟨ha2, rfl⟩ := ha2
    rw [row_le_iff] at h1 h2
    simp only at h1 h2
    have : i = j := by
      rcases h1 with h1 | ⟨_, h1 | ⟨_, h1⟩⟩
      · simp only [List.getD_eq_getElem?_getD] at h1; rw [ha2, hb2] at h1; exact absurd h1 (lt_irrefl _)
      · omega
      · rcases h2 with h2 | ⟨_, h2 | ⟨_, h2⟩⟩
        · simp only [List.getD_eq_getElem?_getD] at h2; rw [ha2, hb2] at h2; exact absurd h2 (lt_irrefl _)
        · omega
        · omega
    subst this; rfl
  · have hp : (rowsOf ls[k].1 ls[k].2 k).Pairwise (fun a b => a.pos < b.pos ∧ a.line = k ∧ b.line = k) := by
      unfold rowsOf
      rw [List.pairwise_map]
      exact List.pairwise_lt_range.imp (by intro a b h; exact ⟨h, rfl, rfl⟩)
    have hp2 := hp.filter (fun r => decide (r.x = v))
    refine List.Pairwise.imp_of_mem ?_ hp2
    intro a b ha hb hab
    rw [List.mem_filter] at ha hb
    have hax : a.x = v := by simpa using ha.2
    have hbx : b.x = v := by simpa using hb.2
    rw [row_le_iff]
    exact Or.inr ⟨hax.trans hbx.symm, Or.inr ⟨hab.2.1.trans hab.2.2.symm, le_of_lt hab.1⟩⟩

theorem groupVals_eq {ls : List (List K × List K)} (h : Separated ls) {k : ℕ} (hk : k < ls.length) {v : K}
    (hv : ∃ m ∈ ls, v ∈ m.1) (hl : ls[k].1.length = ls[k].2.length) (hsort : SortedLe ls[k].1)
    (hne : nth ls[k].1 0 < nth ls[k].1 (ls[k].1.length - 1)) :
    groupVals (sortRows (dataOf ls)) k ls[k] v =
      .ok (firstAt (ls[k].1.zip ls[k].2) v, lastAt (ls[k].1.zip ls[k].2) v) := by
  unfold groupVals
  simp only
  rw [group_eq h hk hv]
  have hm := rowsOf_filter_head ls[k].1 ls[k].2 hl k v
  have hhead : (((rowsOf ls[k].1 ls[k].2 k).filter (fun r => decide (r.x = v))).head?).map (fun r => (r.x, r.y)) =
      (ls[k].1.zip ls[k].2).find? (fun p => decide (p.1 = v)) := by
    rw [← List.head?_map, hm, List.head?_filter]
  have hlast : (((rowsOf ls[k].1 ls[k].2 k).filter (fun r => decide (r.x = v))).getLast?).map (fun r => (r.x, r.y)) =
      (ls[k].1.zip ls[k].2).reverse.find? (fun p => decide (p.1 = v)) := by
    rw [← List.getLast?_map, hm, ← List.head?_reverse, ← List.filter_reverse, List.head?_filter]
  unfold firstAt lastAt
  rw [← hhead, ← hlast]
  rcases hf : (rowsOf ls[k].1 ls[k].2 k).filter (fun r => decide (r.x = v)) with _ | ⟨a, r⟩
  · simp only [hf, List.head?_nil, List.getLast?_nil, Option.map_none]
    rw [interpXY_left hsort hl hne]
  · have : (a :: r).getLast? = some ((a :: r).getLast (by simp)) := List.getLast?_eq_some_getLast (by simp)
    simp only [hf, this, List.head?_cons, Option.map_some]

/-! ### The emitted polyline -/

/-- points emitted over a grid -/
def emitAll (xs : List K) (L R : K → K) : List (K × K) := xs.flatMap (fun v => emit v (L v) (R v))

theorem emit_fst (v a b : K) : ∀ p ∈ emit v a b, p.1 = v := by
  unfold emit; split_ifs <;> simp

theorem emitAll_sorted {xs : List K} (h : xs.Pairwise (· < ·)) (L R : K → K) :
    SortedLe ((emitAll xs L R).map Prod.fst) := by
  induction xs with
  | nil => simp [emitAll, SortedLe]
  | cons v l ih =>
    rw [List.pairwise_cons] at h
    have ih := ih h.2
    unfold SortedLe at *
    rw [emitAll, List.flatMap_cons, List.map_append, List.pairwise_append]
    refine ⟨?_, ih, ?_⟩
    · unfold emit; split_ifs <;> simp
    · intro a ha b hb
      obtain ⟨p, hp, rfl⟩ := List.mem_map.1 ha
      obtain ⟨q, hq, rfl⟩ := List.mem_map.1 hb
      rw [List.mem_flatMap] at hq
      obtain ⟨w, hw, hq⟩ := hq
      rw [emit_fst _ _ _ p hp, emit_fst _ _ _ q hq]
      exact le_of_lt (h.1 w hw)

theorem mem_emitAll_fst (xs : List K) (L R : K → K) (v : K) : (∃ p ∈ emitAll xs L R, p.1 = v) ↔ v ∈ xs := by
  constructor
  · rintro ⟨p, hp, rfl⟩
    obtain ⟨w, hw, hp⟩ := List.mem_flatMap.1 hp
    rw [emit_fst _ _ _ p hp]; exact hw
  · intro hv
    refine ⟨(v, L v), List.mem_flatMap.2 ⟨v, hv, ?_⟩, rfl⟩
    unfold emit; split_ifs <;> simp

theorem emit_filter_self (v a b : K) : (emit v a b).filter (fun p => decide (p.1 = v)) = emit v a b := by
  rw [List.filter_eq_self]; intro p hp; simpa using emit_fst v a b p hp

theorem emitAll_filter {xs : List K} (h : xs.Pairwise (· < ·)) (L R : K → K) {v : K} (hv : v ∈ xs) :
    (emitAll xs L R).filter (fun p => decide (p.1 = v)) = emit v (L v) (R v) := by
  induction xs with
  | nil => simp at hv
  | cons w l ih =>
    rw [List.pairwise_cons] at h
    rw [emitAll, List.flatMap_cons, List.filter_append]
    by_cases hvw : v = w
    · subst hvw
      rw [emit_filter_self]
      have : (l.flatMap (fun v => emit v (L v) (R v))).filter (fun p => decide (p.1 = v)) = [] := by
        rw [List.filter_eq_nil_iff]
        intro p hp
        obtain ⟨w, hw, hp⟩ := List.mem_flatMap.1 hp
        rw [emit_fst _ _ _ p hp]
        simpa using ne_of_gt (h.1 w hw)
      rw [this, List.append_nil]
    · have hvl : v ∈ l := by simpa [hvw] using hv
      have : (emit w (L w) (R w)).filter (fun p => decide (p.1 = v)) = [] := by
        rw [List.filter_eq_nil_iff]
        intro p hp
        rw [emit_fst _ _ _ p hp]
        simpa using Ne.symm hvw
      rw [this, List.nil_append]
      exact ih h.2 hvl

theorem firstAt_emitAll {xs : List K} (h : xs.Pairwise (· < ·)) (L R : K → K) {v : K} (hv : v ∈ xs) :
    firstAt (emitAll xs L R) v = L v := by
  unfold firstAt
  rw [← List.head?_filter, emitAll_filter h L R hv]
  unfold emit; split_ifs <;> simp

theorem lastAt_emitAll {xs : List K} (h : xs.Pairwise (· < ·)) (L R : K → K) {v : K} (hv : v ∈ xs)
    (hst : L v = R v ∨ |L v - R v| > polyAtol + polyRtol * |R v|) :
    lastAt (emitAll xs L R) v = R v := by
  unfold lastAt
  rw [← List.head?_filter, List.filter_reverse, emitAll_filter h L R hv]
  unfold emit
  rcases hst with h | h
  · split_ifs <;> simp [h]
  · rw [if_pos h]; simp

/-- Position of `t` in a grid. -/
theorem grid_cases {xs : List K} (h : xs.Pairwise (· < ·)) (hn : xs ≠ []) {t : K} (ht : t ∉ xs) :
    (∃ w ∈ xs, t < w ∧ ∀ v ∈ xs, w ≤ v) ∨ (∃ u ∈ xs, u < t ∧ ∀ v ∈ xs, v ≤ u) ∨
    (∃ u ∈ xs, ∃ w ∈ xs, u < t ∧ t < w ∧ ∀ v ∈ xs, v ≤ u ∨ w ≤ v) := by
  induction xs with
  | nil => exact absurd rfl hn
  | cons a l ih =>
    rw [List.pairwise_cons] at h
    simp at ht
    rcases lt_or_gt_of_ne ht.1 with hta | hta
    · left
      refine ⟨a, by simp, hta, ?_⟩
      intro v hv
      rcases List.mem_cons.1 hv with rfl | hv
      · exact le_rfl
      · exact le_of_lt (h.1 v hv)
    · right
      by_cases hl : l = []
      · subst hl
        left; exact ⟨a, by simp, hta, by simp⟩
      · rcases ih h.2 hl ht.2 with ⟨w, hw, h1, h2⟩ | ⟨u, hu, h1, h2⟩ | ⟨u, hu, w, hw, h1, h2, h3⟩
        · right
          refine ⟨a, by simp, w, by simp [hw], hta, h1, ?_⟩
          intro v hv
          rcases List.mem_cons.1 hv with rfl | hv
          · exact Or.inl le_rfl
          · exact Or.inr (h2 v hv)
        · left
          refine ⟨u, by simp [hu], h1, ?_⟩
          intro v hv
          rcases List.mem_cons.1 hv with rfl | hv
          · exact le_of_lt (h.1 u hu)
          · exact h2 v hv
        · right
          refine ⟨u, by simp [hu], w, by simp [hw], h1, h2, ?_⟩
          intro v hv
          rcases List.mem_cons.1 hv with rfl | hv
          · exact Or.inl (le_of_lt (h.1 u hu))
          · exact h3 v hv

/-- Off the grid, the emitted polyline is determined by `L` and `R` in the same way as every polyline
whose abscissae are on the grid. -/
theorem polyLeft_grid {xs : List K} (h : xs.Pairwise (· < ·)) (hn : xs ≠ []) {t : K} (ht : t ∉ xs) :
    ∃ c d : K, ∃ u ∈ xs, ∃ w ∈ xs, ∀ pts : List (K × K), SortedLe (pts.map Prod.fst) → pts ≠ [] →
      (∀ p ∈ pts, p.1 ∈ xs) → polyLeft pts t = c * lastAt pts u + d * firstAt pts w := by
  rcases grid_cases h hn ht with ⟨w, hw, h1, h2⟩ | ⟨u, hu, h1, h2⟩ | ⟨u, hu, w, hw, h1, h2, h3⟩
  · refine ⟨0, 1, w, hw, w, hw, ?_⟩
    intro pts hs hn hm
    rw [polyLeft_before hs hn h1 (fun p hp => h2 _ (hm p hp))]; ring
  · refine ⟨1, 0, u, hu, u, hu, ?_⟩
    intro pts hs hn hm
    rw [polyLeft_after hs hn h1 (fun p hp => h2 _ (hm p hp))]; ring
  · refine ⟨1 - (t - u)/(w - u), (t - u)/(w-u), u, hu, w, hw, ?_⟩
    intro pts hs hn hm
    rw [polyLeft_between hs hn h1 h2 (fun p hp => h3 _ (hm p hp))]
    unfold line
    ring

end Geotecha.Piecewise
