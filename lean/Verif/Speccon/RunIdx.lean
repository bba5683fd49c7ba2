import Verif.Speccon.Run

/-! # C229: which output times the index attributes select -/

set_option linter.unusedVariables false
set_option autoImplicit false
namespace Geotecha.Spec

/-- Where a bound of a Python slice of an array of length `n` falls, counted from the front: negative bounds count from the end, and
bounds beyond the ends mean the ends. -/
def front (n : ℕ) (b : ℤ) : ℤ := max 0 (min n (if b < 0 then b + n else b))

/-- The same for a slice that runs backwards, where the end before the first entry is `-1`. -/
def back (n : ℕ) (b : ℤ) : ℤ := max (-1) (min (n - 1) (if b < 0 then b + n else b))

end Geotecha.Spec

namespace Geotecha.Speccon
open Geotecha.Spec Geotecha.Piecewise

theorem mapM_ok_inv {α β : Type} {f : α → Except PyErr β} {l : List α} {r : List β} (h : l.mapM f = .ok r) :
    List.Forall₂ (fun a b => f a = .ok b) l r := by
  induction l generalizing r with
  | nil => simp only [List.mapM_nil] at h; cases h; exact .nil
  | cons a l ih =>
    simp only [List.mapM_cons] at h
    cases ha : f a with
    | error e => rw [ha] at h; cases h
    | ok b =>
      rw [ha] at h
      cases hl : l.mapM f with
      | error e => rw [hl] at h; cases h
      | ok r' => rw [hl] at h; cases h; exact .cons ha (ih hl)

theorem mapM_ok_of {α β : Type} {f : α → Except PyErr β} {P : α → β → Prop} {l : List α} (h : ∀ a ∈ l, ∃ b, f a = .ok b ∧ P a b) :
    ∃ r, l.mapM f = .ok r ∧ List.Forall₂ P l r := by
  induction l with
  | nil => exact ⟨[], rfl, .nil⟩
  | cons a l ih =>
    obtain ⟨b, hb, hp⟩ := h a (by simp)
    obtain ⟨r, hr, hf⟩ := ih (fun a ha => h a (by simp [ha]))
    exact ⟨b :: r, by simp only [List.mapM_cons, hb, hr]; rfl, .cons hp hf⟩

theorem rangeLen_pos {a e st : ℤ} (h : 0 < st) {k : ℕ} : k < rangeLen a e st ↔ a + k * st < e := by
  unfold rangeLen
  rw [if_pos h]
  split_ifs with hae
  · have h0 : 0 ≤ (e - 1 - a) / st := Int.ediv_nonneg (by omega) h.le
    rw [Int.lt_toNat]
    have : (k : ℤ) ≤ (e - 1 - a) / st ↔ k * st ≤ e - 1 - a := Int.le_ediv_iff_mul_le h
    constructor
    · intro hk; have := this.1 (by omega); omega
    · intro hk; have := this.2 (by omega); omega
  · have : 0 ≤ (k:ℤ) * st := by positivity
    constructor
    · intro hk; omega
    · intro hk; omega

theorem rangeLen_neg {a e st : ℤ} (h : st < 0) {k : ℕ} : k < rangeLen a e st ↔ e < a + k * st := by
  unfold rangeLen
  rw [if_neg (by omega)]
  split_ifs with hae
  · have h' : 0 < -st := by omega
    have h0 : 0 ≤ (a - 1 - e) / (-st) := Int.ediv_nonneg (by omega) h'.le
    rw [Int.lt_toNat]
    have : (k : ℤ) ≤ (a - 1 - e) / (-st) ↔ k * (-st) ≤ a - 1 - e := Int.le_ediv_iff_mul_le h'
    constructor
    · intro hk; have := this.1 (by omega); rw [mul_neg] at this; omega
    · intro hk; have := this.2 (by rw [mul_neg]; omega); omega
  · have : (k:ℤ) * st ≤ 0 := mul_nonpos_of_nonneg_of_nonpos (by positivity) h.le
    constructor
    · intro hk; omega
    · intro hk; omega

/-- **C229** the default `slice(None, None)` selects every output time, in order; `slice(None, None, -1)` selects them backwards. -/
theorem C229_default (n : ℕ) : (TIdx.slice none none none).positions n = .ok (List.range n) ∧
    (TIdx.slice none none (some (-1))).positions n = .ok (List.range n).reverse := by
  constructor
  · unfold TIdx.positions
    simp only [Option.getD_none, Option.elim_none, one_ne_zero, if_false, show ¬ (1:ℤ) < 0 by norm_num]
    congr 1
    have hl : rangeLen 0 n 1 = n := by
      apply Nat.le_antisymm
      · by_contra hc
        have := (rangeLen_pos (a := 0) (e := n) (st := 1) one_pos (k := n)).1 (by omega)
        omega
      · by_contra hc
        have := (rangeLen_pos (a := 0) (e := n) (st := 1) one_pos (k := rangeLen 0 n 1)).2 (by omega)
        omega
    rw [hl]
    apply List.ext_getElem (by simp)
    intro i h1 h2
    simp
  · unfold TIdx.positions
    simp only [Option.getD_some, Option.elim_none, show ¬ (-1:ℤ) = 0 by norm_num, if_false, show (-1:ℤ) < 0 by norm_num, if_true]
    congr 1
    have hl : rangeLen ((n:ℤ) - 1) (-1) (-1) = n := by
      apply Nat.le_antisymm
      · by_contra hc
        have := (rangeLen_neg (a := (n:ℤ) - 1) (e := -1) (st := -1) (by norm_num) (k := n)).1 (by omega)
        omega
      · by_contra hc
        have := (rangeLen_neg (a := (n:ℤ) - 1) (e := -1) (st := -1) (by norm_num) (k := rangeLen ((n:ℤ) - 1) (-1) (-1))).2 (by omega)
        omega
    rw [hl]
    apply List.ext_getElem (by simp)
    intro i h1 h2
    simp only [List.length_map, List.length_range] at h1
    simp only [List.getElem_map, List.getElem_range, List.getElem_reverse, List.length_range]
    omega

/-- **C229** a slice with positive step `st` selects exactly the positions from its start that are a multiple of `st` away and before
its end, in increasing order; negative bounds count from the end and bounds outside the array are moved to its ends. -/
theorem C229_forward (n : ℕ) (start stop : Option ℤ) (st : ℤ) (hst : 0 < st) :
    ∃ l, (TIdx.slice start stop (some st)).positions n = .ok l ∧ l.Pairwise (· < ·) ∧
      ∀ i : ℕ, i ∈ l ↔ front n (start.getD 0) ≤ i ∧ (i:ℤ) < front n (stop.getD n) ∧ st ∣ i - front n (start.getD 0) := by
  have bd : ∀ b : ℤ, sliceBound n 0 n b = front n b := by
    intro b
    unfold sliceBound front
    split_ifs <;> omega
  have ea : start.elim 0 (sliceBound n 0 n) = front n (start.getD 0) := by
    cases start with
    | none => unfold front; simp
    | some b => exact bd b
  have ee : stop.elim (n:ℤ) (sliceBound n 0 n) = front n (stop.getD n) := by
    cases stop with
    | none => unfold front; simp only [Option.elim_none, Option.getD_none]; split_ifs <;> omega
    | some b => exact bd b
  have hpos : (TIdx.slice start stop (some st)).positions n =
      .ok ((List.range (rangeLen (front n (start.getD 0)) (front n (stop.getD n)) st)).map
        (fun k : ℕ => (front n (start.getD 0) + k * st).toNat)) := by
    rw [← ea, ← ee]
    unfold TIdx.positions
    simp only [Option.getD_some, hst.ne', if_false, not_lt.2 hst.le]
  have h0 : 0 ≤ front n (start.getD 0) := le_max_left _ _
  refine ⟨_, hpos, ?_, fun i => ?_⟩
  · rw [List.pairwise_map]
    refine List.pairwise_lt_range.imp ?_
    intro k k' hk
    have h1 : (0:ℤ) ≤ k * st := by positivity
    have h2 : (k:ℤ) * st + st ≤ k' * st := by
      have : ((k:ℤ) + 1) ≤ k' := by exact_mod_cast hk
      nlinarith
    omega
  · simp only [List.mem_map, List.mem_range, rangeLen_pos hst]
    constructor
    · rintro ⟨k, hk, rfl⟩
      have h1 : (0:ℤ) ≤ k * st := by positivity
      have : ((front n (start.getD 0) + k * st).toNat : ℤ) = front n (start.getD 0) + k * st := Int.toNat_of_nonneg (by omega)
      rw [this]
      exact ⟨by omega, hk, ⟨k, by ring⟩⟩
    · rintro ⟨h1, h2, q, hq⟩
      have hq0 : 0 ≤ q := by
        by_contra hc
        have : st * q < 0 := mul_neg_of_pos_of_neg hst (by omega)
        omega
      obtain ⟨k, rfl⟩ := Int.eq_ofNat_of_zero_le hq0
      refine ⟨k, ?_, ?_⟩
      · have : (k:ℤ) * st = st * k := mul_comm _ _
        omega
      · have : (k:ℤ) * st = st * k := mul_comm _ _
        omega

/-- **C229** a slice with negative step `-st` selects exactly the positions down from its start that are a multiple of `st` away and after
its end, in decreasing order. -/
theorem C229_backward (n : ℕ) (start stop : Option ℤ) (st : ℤ) (hst : 0 < st) :
    ∃ l, (TIdx.slice start stop (some (-st))).positions n = .ok l ∧ l.Pairwise (· > ·) ∧
      ∀ i : ℕ, i ∈ l ↔ (i:ℤ) ≤ start.elim ((n:ℤ) - 1) (back n) ∧ stop.elim (-1) (back n) < (i:ℤ) ∧ st ∣ start.elim ((n:ℤ) - 1) (back n) - i := by
  have bd : ∀ b : ℤ, sliceBound n (-1) ((n:ℤ) - 1) b = back n b := by
    intro b
    unfold sliceBound back
    split_ifs <;> omega
  have bd' : sliceBound n (-1) ((n:ℤ) - 1) = back n := funext bd
  have hst' : -st < 0 := by omega
  set a := start.elim ((n:ℤ) - 1) (back n) with ea
  set e := stop.elim (-1) (back n) with ee
  have hpos : (TIdx.slice start stop (some (-st))).positions n = .ok ((List.range (rangeLen a e (-st))).map (fun k : ℕ => (a + k * (-st)).toNat)) := by
    rw [ea, ee, ← bd']
    unfold TIdx.positions
    simp only [Option.getD_some, hst'.ne, if_false, hst', if_true]
  have he : -1 ≤ e := by
    rw [ee]
    cases stop with
    | none => exact le_rfl
    | some b => exact le_max_left _ _
  refine ⟨_, hpos, ?_, fun i => ?_⟩
  · rw [List.pairwise_map]
    refine List.Pairwise.imp_of_mem ?_ List.pairwise_lt_range
    intro k k' hk0 hk0' hk
    rw [List.mem_range, rangeLen_neg hst'] at hk0 hk0'
    have h2 : (k:ℤ) * st + st ≤ k' * st := by
      have : ((k:ℤ) + 1) ≤ k' := by exact_mod_cast hk
      nlinarith
    rw [mul_neg] at hk0 hk0'
    simp only [mul_neg]
    omega
  · simp only [List.mem_map, List.mem_range, rangeLen_neg hst']
    constructor
    · rintro ⟨k, hk, rfl⟩
      have h1 : (0:ℤ) ≤ k * st := by positivity
      rw [mul_neg] at hk
      have : ((a + k * (-st)).toNat : ℤ) = a + k * (-st) := Int.toNat_of_nonneg (by rw [mul_neg]; omega)
      rw [this]
      exact ⟨by rw [mul_neg]; omega, by rw [mul_neg]; exact hk, ⟨k, by ring⟩⟩
    · rintro ⟨h1, h2, q, hq⟩
      have hq0 : 0 ≤ q := by
        by_contra hc
        have : st * q < 0 := mul_neg_of_pos_of_neg hst (by omega)
        omega
      obtain ⟨k, rfl⟩ := Int.eq_ofNat_of_zero_le hq0
      have : (k:ℤ) * st = st * k := mul_comm _ _
      refine ⟨k, ?_, ?_⟩
      · rw [mul_neg]; omega
      · rw [mul_neg]; omega

example : (TIdx.slice (some (-1)) (some 1) (some (-2))).positions 6 = .ok [5, 3] := by decide +kernel

/-- **C229** a step of zero is refused; a list of integers selects those positions in the order given, counting negative ones from the end,
and is refused when one of them is out of range; whatever is selected exists. -/
theorem C229_picks (n : ℕ) :
    (∀ a b, (TIdx.slice a b (some 0)).positions n = .error .valueError) ∧
    (∀ l : List ℤ, (∀ k ∈ l, -(n:ℤ) ≤ k ∧ k < n) →
      ∃ p, (TIdx.picks l).positions n = .ok p ∧ List.Forall₂ (fun (k : ℤ) (i : ℕ) => i < n ∧ ((i:ℤ) = k ∨ (i:ℤ) = k + n)) l p) ∧
    (∀ l : List ℤ, ∀ k ∈ l, ¬ (-(n:ℤ) ≤ k ∧ k < n) → ∃ e, (TIdx.picks l).positions n = .error e) ∧
    ∀ ix p, TIdx.positions n ix = .ok p → ∀ i ∈ p, i < n := by
  have pick : ∀ (l : List ℤ) p, (TIdx.picks l).positions n = .ok p →
      List.Forall₂ (fun (k : ℤ) (i : ℕ) => i < n ∧ ((i:ℤ) = k ∨ (i:ℤ) = k + n)) l p := by
    intro l p h
    refine (mapM_ok_inv h).imp ?_
    intro k i hk
    split_ifs at hk with h1 h2
    · cases hk; omega
    · cases hk; omega
  refine ⟨fun a b => by unfold TIdx.positions; simp, fun l hl => ?_, fun l k hk hn => ?_, fun ix p hp i hi => ?_⟩
  · have : ∃ p, (TIdx.picks l).positions n = .ok p := by
      obtain ⟨r, hr, _⟩ := mapM_ok_of (P := fun _ _ => True) (l := l)
        (f := fun k : ℤ => if 0 ≤ k ∧ k < n then (.ok k.toNat : Except PyErr ℕ) else if -(n:ℤ) ≤ k ∧ k < 0 then .ok (k + n).toNat else .error .indexError)
        (fun k hk => by
          have := hl k hk
          split_ifs with h1 h2
          · exact ⟨_, rfl, trivial⟩
          · exact ⟨_, rfl, trivial⟩
          · omega)
      exact ⟨r, hr⟩
    obtain ⟨p, hp⟩ := this
    exact ⟨p, hp, pick l p hp⟩
  · cases h : (TIdx.picks l).positions n with
    | error e => exact ⟨e, rfl⟩
    | ok p =>
      exfalso
      have hf := mapM_ok_inv h
      obtain ⟨i, hi⟩ := List.mem_iff_getElem.1 hk
      obtain ⟨hi, e⟩ := hi
      have := (List.forall₂_iff_get.1 hf).2 i hi (by rw [← hf.length_eq]; exact hi)
      simp only [List.get_eq_getElem, e] at this
      split_ifs at this with h1 h2
      · omega
      · omega
  · cases ix with
    | picks l =>
      have hf := pick l p hp
      obtain ⟨j, hj, e⟩ := List.mem_iff_getElem.1 hi
      have := (List.forall₂_iff_get.1 hf).2 j (by rw [hf.length_eq]; exact hj) hj
      simp only [List.get_eq_getElem, e] at this
      exact this.1
    | slice a b c =>
      have h := hp
      unfold TIdx.positions at h
      dsimp only at h
      split_ifs at h with h0 h1
      · injection h with h
        rw [← h] at hi
        obtain ⟨k, hk, rfl⟩ := List.mem_map.1 hi
        rw [List.mem_range, rangeLen_neg h1] at hk
        have h2 : (k:ℤ) * c.getD 1 ≤ 0 := mul_nonpos_of_nonneg_of_nonpos (by positivity) h1.le
        have hb : ∀ v : ℤ, -1 ≤ sliceBound n (-1) ((n:ℤ) - 1) v ∧ sliceBound n (-1) ((n:ℤ) - 1) v ≤ n - 1 := by
          intro v; unfold sliceBound; split_ifs <;> omega
        have ha : a.elim ((n:ℤ) - 1) (sliceBound n (-1) ((n:ℤ) - 1)) ≤ n - 1 := by
          cases a with
          | none => exact le_rfl
          | some v => exact (hb v).2
        have he : -1 ≤ b.elim (-1:ℤ) (sliceBound n (-1) ((n:ℤ) - 1)) := by
          cases b with
          | none => exact le_rfl
          | some v => exact (hb v).1
        omega
      · injection h with h
        rw [← h] at hi
        obtain ⟨k, hk, rfl⟩ := List.mem_map.1 hi
        rw [List.mem_range, rangeLen_pos (by omega)] at hk
        have h2 : 0 ≤ (k:ℤ) * c.getD 1 := mul_nonneg (by positivity) (by omega)
        have hb : ∀ v : ℤ, 0 ≤ sliceBound n 0 n v ∧ sliceBound n 0 n v ≤ n := by
          intro v; unfold sliceBound; split_ifs <;> omega
        have ha : 0 ≤ a.elim (0:ℤ) (sliceBound n 0 n) := by
          cases a with
          | none => exact le_rfl
          | some v => exact (hb v).1
        have he : b.elim (n:ℤ) (sliceBound n 0 n) ≤ (n:ℤ) := by
          cases b with
          | none => exact le_rfl
          | some v => exact (hb v).2
        omega

example : (TIdx.slice (some (-3)) none (some 2)).positions 5 = .ok [2, 4] := by decide +kernel
example : (TIdx.picks [0, -1, 3]).positions 5 = .ok [0, 4, 3] := by rfl
example : ∃ e, (TIdx.picks [0, 5]).positions 5 = .error e := (C229_picks 5).2.2.1 _ 5 (by simp) (by norm_num)

end Geotecha.Speccon
