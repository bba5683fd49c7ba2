import Verif.Plot.Model
import Verif.Plot.Spec
import Mathlib.Tactic.Linarith
import Mathlib.Tactic.Ring
import Mathlib.Tactic.NormNum
import Mathlib.Data.List.Perm.Basic
import Mathlib.Algebra.BigOperators.Group.List.Basic
import Mathlib.Data.List.Nodup

/-!
# Properties of geotecha/plotting/one_d.py, part 1

C114: colours; C115: dictionaries; C116: order of subplots.
-/

namespace Geotecha.Plot
open Geotecha (PyErr)
set_option linter.unusedVariables false

/-! ## C114 -/

section
variable {K : Type} [Field K] [LinearOrder K] [IsStrictOrderedRing K]

/-- **C114**: shading and tinting are refused exactly when the factor is not between 0 and 1. -/
theorem C114_refuses (rgb : List K) (f : K) (scaled : Bool) :
    ((∃ r, rgbShade rgb f = .ok r) ↔ 0 ≤ f ∧ f ≤ 1) ∧ ((∃ r, rgbTint rgb f scaled = .ok r) ↔ 0 ≤ f ∧ f ≤ 1) := by
  unfold rgbShade rgbTint
  by_cases h : f < 0 ∨ f > 1
  · have : ¬(0 ≤ f ∧ f ≤ 1) := fun ⟨h1, h2⟩ => h.elim (fun h => absurd h1 (not_le.2 h)) fun h => absurd h2 (not_le.2 h)
    simp [h, this]
  · have h' : 0 ≤ f ∧ f ≤ 1 := ⟨not_lt.1 fun c => h (Or.inl c), not_lt.1 fun c => h (Or.inr c)⟩
    simp [h, h']

theorem shade_ok {rgb : List K} {f : K} (h0 : 0 ≤ f) (h1 : f ≤ 1) : rgbShade rgb f =
    .ok (if rgb.length = 4 then (rgb.take 3).map (fun v => v * f) ++ (rgb[3]?).toList else (rgb.take 3).map fun v => v * f) := by
  unfold rgbShade
  rw [if_neg (fun h => h.elim (fun h => absurd h0 (not_le.2 h)) fun h => absurd h1 (not_le.2 h))]

theorem tint_ok {rgb : List K} {f : K} (h0 : 0 ≤ f) (h1 : f ≤ 1) (s : Bool) : rgbTint rgb f s =
    .ok (if rgb.length = 4 then (rgb.take 3).map (fun v => v + ((if s then 1 else 255) - v) * f) ++ (rgb[3]?).toList
      else (rgb.take 3).map fun v => v + ((if s then 1 else 255) - v) * f) := by
  unfold rgbTint
  rw [if_neg (fun h => h.elim (fun h => absurd h0 (not_le.2 h)) fun h => absurd h1 (not_le.2 h))]

/-- **C114**: of a colour (with or without alpha) in the range `0` to `w` (`w` is 1, or 255 if not scaled), each of the three components of the
shade is between `0` and the original and that of the tint between the original and `w`, in proportion to the factor; alpha is not altered. -/
theorem C114_between (r g b : K) (al : Option K) (f : K) (scaled : Bool) (h0 : 0 ≤ f) (h1 : f ≤ 1)
    (hr : 0 ≤ r ∧ r ≤ if scaled then 1 else 255) (hg : 0 ≤ g ∧ g ≤ if scaled then 1 else 255) (hb : 0 ≤ b ∧ b ≤ if scaled then 1 else 255) :
    ∃ (sr sg sb tr tg tb : K), rgbShade (r :: g :: b :: al.toList) f = .ok (sr :: sg :: sb :: al.toList) ∧
      rgbTint (r :: g :: b :: al.toList) f scaled = .ok (tr :: tg :: tb :: al.toList) ∧
      (0 ≤ sr ∧ sr ≤ r ∧ r ≤ tr ∧ tr ≤ if scaled then 1 else 255) ∧ (0 ≤ sg ∧ sg ≤ g ∧ g ≤ tg ∧ tg ≤ if scaled then 1 else 255) ∧
      (0 ≤ sb ∧ sb ≤ b ∧ b ≤ tb ∧ tb ≤ if scaled then 1 else 255) ∧
      sr = f * r ∧ sg = f * g ∧ sb = f * b ∧ tr = (1 - f) * r + f * (if scaled then 1 else 255) ∧
      tg = (1 - f) * g + f * (if scaled then 1 else 255) ∧ tb = (1 - f) * b + f * (if scaled then 1 else 255) := by
  have key : ∀ v : K, (0 ≤ v ∧ v ≤ if scaled then 1 else 255) →
      0 ≤ v * f ∧ v * f ≤ v ∧ v ≤ v + ((if scaled then 1 else 255) - v) * f ∧
        v + ((if scaled then 1 else 255) - v) * f ≤ if scaled then 1 else 255 := fun v hv => by
    generalize (if scaled = true then (1:K) else 255) = w at *
    refine ⟨mul_nonneg hv.1 h0, by nlinarith [hv.1], ?_, ?_⟩
    · have := mul_nonneg (sub_nonneg.2 hv.2) h0; linarith
    · have := mul_nonneg (sub_nonneg.2 hv.2) (sub_nonneg.2 h1); linarith
  refine ⟨r * f, g * f, b * f, r + ((if scaled then 1 else 255) - r) * f, g + ((if scaled then 1 else 255) - g) * f,
    b + ((if scaled then 1 else 255) - b) * f, ?_, ?_, key r hr, key g hg, key b hb, mul_comm _ _, mul_comm _ _, mul_comm _ _,
    by ring, by ring, by ring⟩
  · rw [shade_ok h0 h1]; cases al <;> simp
  · rw [tint_ok h0 h1]; cases al <;> simp

example : ∃ sr sg sb tr tg tb : ℚ, rgbShade [0.4, 0.8, 0.2] (1/2 : ℚ) = .ok [sr, sg, sb] ∧ rgbTint [0.4, 0.8, 0.2] (1/2 : ℚ) true = .ok [tr, tg, tb] ∧
    (0 ≤ sr ∧ sr ≤ 0.4 ∧ 0.4 ≤ tr ∧ tr ≤ 1) := by
  obtain ⟨sr, sg, sb, tr, tg, tb, a, b, c, _⟩ := C114_between (0.4 : ℚ) 0.8 0.2 none (1/2) true (by norm_num) (by norm_num)
    (by norm_num) (by norm_num) (by norm_num)
  exact ⟨sr, sg, sb, tr, tg, tb, a, b, by simpa using c⟩

/-- **C114**: depths: with a reduced level of the surface given, levels and depths of the same point add up to it; the map is the inverse of
what a surveyor does, `z = (rlzero - level) / H`. -/
theorem C114_level (z H r : K) (hH : H ≠ 0) :
    depthToReducedLevel z H (some r) + depthToReducedLevel z H none = r ∧ (r - depthToReducedLevel z H (some r)) / H = z ∧
    depthToReducedLevel z H none / H = z := by
  unfold depthToReducedLevel
  refine ⟨by ring, ?_, ?_⟩
  · simp only; rw [sub_sub_cancel, mul_div_cancel_right₀ _ hH]
  · simp only; rw [mul_div_cancel_right₀ _ hH]
end

example : depthToReducedLevel (1/2 : ℚ) 10 (some 3) = -2 := by
  have := (C114_level (1/2 : ℚ) 10 3 (by norm_num)).1
  unfold depthToReducedLevel at *; norm_num

/-! ## C115 -/

variable {V : Type}

theorem lookup_map_ne (d : Dict V) {k k' : String} (v : V) (h : k' ≠ k) :
    (d.map fun p => if p.1 = k then (k, v) else p).lookup k' = d.lookup k' := by
  induction d with
  | nil => rfl
  | cons p d ih =>
    obtain ⟨a, w⟩ := p
    by_cases ha : a = k
    · subst ha
      have e : (k' == a) = false := by simp [h]
      rw [List.map_cons]; simp only [if_true, List.lookup_cons, e]
      exact ih
    · simp only [List.map_cons, if_neg ha, List.lookup_cons, ih]

theorem lookup_map_eq (d : Dict V) {k : String} (v : V) (h : d.any (fun p => p.1 = k) = true) :
    (d.map fun p => if p.1 = k then (k, v) else p).lookup k = some v := by
  induction d with
  | nil => simp at h
  | cons p d ih =>
    obtain ⟨a, w⟩ := p
    by_cases ha : a = k
    · simp only [List.map_cons, if_pos ha, List.lookup_cons, beq_self_eq_true]
    · rw [List.map_cons]; simp only [if_neg ha, List.lookup_cons]
      have : (k == a) = false := by simp [Ne.symm ha]
      rw [this]
      refine ih ?_
      simpa [ha] using h

theorem lookup_append (d e : Dict V) (k : String) : (d ++ e).lookup k = (d.lookup k).or (e.lookup k) := by
  induction d with
  | nil => simp
  | cons p d ih =>
    obtain ⟨a, w⟩ := p
    simp only [List.cons_append, List.lookup_cons, ih]
    cases k == a <;> simp

theorem lookup_none_of (d : Dict V) {k : String} (h : ¬d.any (fun p => p.1 = k) = true) : d.lookup k = none := by
  rw [List.lookup_eq_none_iff]
  intro p hp
  have : p.1 ≠ k := fun e => h (List.any_eq_true.2 ⟨p, hp, by simpa using e⟩)
  simp [Ne.symm this]

theorem lookup_set (d : Dict V) (k : String) (v : V) (k' : String) :
    (Dict.set d k v).lookup k' = if k' = k then some v else d.lookup k' := by
  unfold Dict.set
  by_cases hk : d.any (fun p => p.1 = k) = true
  · rw [if_pos hk]
    by_cases e : k' = k
    · subst e; rw [if_pos rfl, lookup_map_eq d v hk]
    · rw [if_neg e, lookup_map_ne d v e]
  · rw [if_neg hk, lookup_append]
    by_cases e : k' = k
    · subst e; rw [if_pos rfl, lookup_none_of d hk]; simp
    · have : (k' == k) = false := by simp [e]
      rw [if_neg e]; simp [List.lookup_cons, this]

/-- The last value that a list of pairs has for a key. -/
def lastFor (e : Dict V) (k : String) : Option V := (e.reverse).lookup k

theorem lookup_update (d e : Dict V) (k : String) : (Dict.update d e).lookup k = (lastFor e k).or (d.lookup k) := by
  unfold Dict.update lastFor
  induction e generalizing d with
  | nil => simp
  | cons p e ih =>
    obtain ⟨a, w⟩ := p
    rw [List.foldl_cons, ih, List.reverse_cons, lookup_append, lookup_set]
    by_cases h : k = a
    · subst h
      rw [if_pos rfl]
      cases (List.lookup k e.reverse) <;> simp [List.lookup_cons]
    · have : (k == a) = false := by simp [h]
      rw [if_neg h]
      cases (List.lookup k e.reverse) <;> simp [List.lookup_cons, this]

theorem lastFor_eq (e : Dict V) (hn : (e.map Prod.fst).Nodup) (k : String) : lastFor e k = e.lookup k := by
  unfold lastFor
  induction e with
  | nil => rfl
  | cons p e ih =>
    obtain ⟨a, w⟩ := p
    rw [List.map_cons, List.nodup_cons] at hn
    rw [List.reverse_cons, lookup_append, ih hn.2, List.lookup_cons]
    by_cases h : k = a
    · subst h
      have : e.lookup k = none := by
        rw [List.lookup_eq_none_iff]; intro q hq
        have : q.1 ≠ k := fun c => hn.1 (List.mem_map.2 ⟨q, hq, c⟩)
        simp [Ne.symm this]
      simp [this, List.lookup_cons]
    · have : (k == a) = false := by simp [h]
      simp [this, List.lookup_cons]

theorem keys_set (d : Dict V) (k : String) (v : V) (h : (d.map Prod.fst).Nodup) : ((Dict.set d k v).map Prod.fst).Nodup := by
  unfold Dict.set
  by_cases hk : d.any (fun p => p.1 = k) = true
  · rw [if_pos hk, List.map_map]
    have : (Prod.fst ∘ fun p : String × V => if p.1 = k then (k, v) else p) = Prod.fst := by
      funext p; by_cases e : p.1 = k <;> simp [e]
    rw [this]; exact h
  · rw [if_neg hk, List.map_append, List.nodup_append]
    refine ⟨h, by simp, fun a ha b hb => ?_⟩
    simp at hb; subst hb
    rintro rfl
    obtain ⟨p, hp, e⟩ := List.mem_map.1 ha
    exact hk (List.any_eq_true.2 ⟨p, hp, by simpa using e⟩)

theorem keys_update (d e : Dict V) (h : (d.map Prod.fst).Nodup) : ((Dict.update d e).map Prod.fst).Nodup := by
  unfold Dict.update
  induction e generalizing d with
  | nil => exact h
  | cons p e ih => rw [List.foldl_cons]; exact ih _ (keys_set d p.1 p.2 h)

/-- **C115**: in the copied dictionary every key has the value of the updates if they have the key, and that of the source otherwise; no key
occurs twice. -/
theorem C115_copy (src diffs : Dict V) (hs : (src.map Prod.fst).Nodup) (hd : (diffs.map Prod.fst).Nodup) :
    (∀ k, (copyDict src diffs).lookup k = (diffs.lookup k).or (src.lookup k)) ∧ ((copyDict src diffs).map Prod.fst).Nodup :=
  ⟨fun k => by unfold copyDict; rw [lookup_update, lastFor_eq diffs hd], keys_update src diffs hs⟩

example : (copyDict [("a", 7), ("b", 12)] [("a", 21), ("c", 13)]).lookup "a" = some 21 ∧
    (copyDict [("a", 7), ("b", 12)] [("a", 21), ("c", 13)]).lookup "b" = some 12 := by
  have h := (C115_copy [("a", 7), ("b", 12)] [("a", 21), ("c", 13)] (by decide) (by decide)).1
  exact ⟨h "a", h "b"⟩

theorem splitLoop_eq (args : List (Item V)) (acc : List V × Dict V) (hn : (acc.2.map Prod.fst).Nodup) :
    (splitLoop args acc).1 = acc.1 ++ (args.filterMap fun | .other v => some v | .dict _ => none) ∧
    (∀ k, (splitLoop args acc).2.lookup k =
      (lastFor (args.filterMap fun | .dict d => some d | .other _ => none).flatten k).or (acc.2.lookup k)) ∧
    ((splitLoop args acc).2.map Prod.fst).Nodup := by
  induction args generalizing acc with
  | nil => exact ⟨by simp [splitLoop], fun k => by simp [splitLoop, lastFor], hn⟩
  | cons a r ih =>
    cases a with
    | dict d =>
      obtain ⟨h1, h2, h3⟩ := ih (acc.1, Dict.update acc.2 d) (keys_update _ _ hn)
      refine ⟨by simpa [splitLoop] using h1, fun k => ?_, by simpa [splitLoop] using h3⟩
      rw [splitLoop, h2, lookup_update]
      simp only [List.filterMap_cons, List.flatten_cons]
      unfold lastFor
      rw [List.reverse_append, lookup_append, Option.or_assoc]
    | other v =>
      obtain ⟨h1, h2, h3⟩ := ih (acc.1 ++ [v], acc.2) hn
      refine ⟨by rw [splitLoop, h1]; simp, fun k => ?_, by simpa [splitLoop] using h3⟩
      rw [splitLoop, h2]; rfl

/-- **C115**: splitting arguments: everything that is not a dict is returned in order, and in the merged dict every key has the value of the last
dict that has it (dicts taken as the sequence of their entries); no key occurs twice. -/
theorem C115_split (args : List (Item V)) :
    (splitSequence args).1 = (args.filterMap fun | .other v => some v | .dict _ => none) ∧
    (∀ k, (splitSequence args).2.lookup k =
      ((args.filterMap fun | .dict d => some d | .other _ => none).flatten.reverse).lookup k) ∧
    ((splitSequence args).2.map Prod.fst).Nodup := by
  obtain ⟨h1, h2, h3⟩ := splitLoop_eq args ([], []) (by simp)
  exact ⟨by simpa [splitSequence] using h1, fun k => by simpa [splitSequence, lastFor] using h2 k, h3⟩

example : (splitSequence [.other 1, .dict [("a", 2)], .other 3, .dict [("a", 4), ("b", 5)]]).1 = [1, 3] ∧
    (splitSequence [.other 1, .dict [("a", 2)], .other 3, .dict [("a", 4), ("b", 5)]]).2.lookup "a" = some 4 := by
  obtain ⟨h1, h2, _⟩ := C115_split [.other 1, .dict [("a", 2)], .other 3, .dict [("a", 4), ("b", 5)]]
  exact ⟨h1, h2 "a"⟩

/-! ## C116 -/

theorem arangeAt_eq (shape idx : List ℕ) : arangeAt shape idx = Spec.place shape idx := by
  induction shape generalizing idx with
  | nil => rfl
  | cons n r ih => cases idx with
    | nil => rfl
    | cons i j => simp [arangeAt, Spec.place, ih]

theorem mem_indices (shape idx : List ℕ) : idx ∈ indices shape ↔ Spec.IsIndex shape idx := by
  induction shape generalizing idx with
  | nil => cases idx <;> simp [indices, Spec.IsIndex]
  | cons n r ih => cases idx with
    | nil => simp [indices, Spec.IsIndex]
    | cons i j => simp [indices, Spec.IsIndex, ih]

theorem length_indices (shape : List ℕ) : (indices shape).length = shape.prod := by
  induction shape with
  | nil => rfl
  | cons n r ih => simp [indices, List.length_flatMap, ih]

/-- The flattened array is counted in order. -/
theorem map_place (shape : List ℕ) : (indices shape).map (Spec.place shape) = List.range shape.prod := by
  induction shape with
  | nil => rfl
  | cons n r ih =>
    rw [indices, List.map_flatMap, List.prod_cons]
    have : ∀ i, ((indices r).map (i :: ·)).map (Spec.place (n :: r)) = (List.range r.prod).map fun p => i * r.prod + p := fun i => by
      rw [List.map_map, ← ih, List.map_map]; rfl
    simp only [this]
    clear this ih
    induction n with
    | zero => simp
    | succ n ih =>
      rw [List.range_succ, List.flatMap_append, ih, Nat.succ_mul, List.range_add]
      simp

theorem indices_get (shape idx : List ℕ) (h : Spec.IsIndex shape idx) : (indices shape)[Spec.place shape idx]? = some idx := by
  obtain ⟨i, hi⟩ := List.mem_iff_getElem?.1 ((mem_indices shape idx).2 h)
  have : ((indices shape).map (Spec.place shape))[i]? = some (Spec.place shape idx) := by rw [List.getElem?_map, hi]; rfl
  rw [map_place] at this
  have hlt : i < shape.prod := by
    by_contra c
    rw [List.getElem?_eq_none (by simpa using c)] at this; cases this
  rw [List.getElem?_range hlt] at this
  cases this; exact hi

/-- Steps 1 and -1 only. -/
def Steps (steps : List ℤ) : Prop := ∀ s ∈ steps, s = 1 ∨ s = -1

theorem sliceIdx_eq (shape : List ℕ) (steps : List ℤ) (idx : List ℕ) :
    sliceIdx shape steps idx = Spec.flip shape (steps.map fun s => s == -1) idx := by
  induction shape generalizing steps idx with
  | nil => cases steps <;> cases idx <;> rfl
  | cons n r ih => cases steps with
    | nil => cases idx <;> rfl
    | cons s ss => cases idx with
      | nil => rfl
      | cons i j => by_cases h : s = -1 <;> simp [sliceIdx, Spec.flip, ih, h]

theorem flip_isIndex (shape : List ℕ) (bs : List Bool) (idx : List ℕ) (h : Spec.IsIndex shape idx) :
    Spec.IsIndex shape (Spec.flip shape bs idx) := by
  induction shape generalizing bs idx with
  | nil => cases idx <;> cases bs <;> simpa [Spec.flip] using h
  | cons n r ih => cases idx with
    | nil => cases h
    | cons i j => cases bs with
      | nil => exact h
      | cons b bs =>
        refine ⟨?_, ih bs j h.2⟩
        have := h.1
        cases b <;> simp <;> omega

theorem flip_flip (shape : List ℕ) (bs : List Bool) (idx : List ℕ) (h : Spec.IsIndex shape idx) :
    Spec.flip shape bs (Spec.flip shape bs idx) = idx := by
  induction shape generalizing bs idx with
  | nil => cases idx <;> cases bs <;> rfl
  | cons n r ih => cases idx with
    | nil => cases h
    | cons i j => cases bs with
      | nil => rfl
      | cons b bs =>
        have := h.1
        simp only [Spec.flip, ih bs j h.2]
        cases b <;> simp <;> omega

theorem isIndex_append (s t : List ℕ) (n : ℕ) (i : List ℕ) (k : ℕ) (h : Spec.IsIndex s i) (hk : k < n) : Spec.IsIndex (s ++ [n]) (i ++ [k]) := by
  induction s generalizing i with
  | nil => cases i with
    | nil => exact ⟨hk, trivial⟩
    | cons _ _ => cases h
  | cons m r ih => cases i with
    | nil => cases h
    | cons a j => exact ⟨h.1, ih j h.2⟩

theorem isIndex_reverse (s i : List ℕ) (h : Spec.IsIndex s i) : Spec.IsIndex s.reverse i.reverse := by
  induction s generalizing i with
  | nil => cases i with
    | nil => trivial
    | cons _ _ => cases h
  | cons m r ih => cases i with
    | nil => cases h
    | cons a j => simp only [List.reverse_cons]; exact isIndex_append _ [] m _ a (ih j h.2) h.1

theorem place_inj {shape i j : List ℕ} (hi : Spec.IsIndex shape i) (hj : Spec.IsIndex shape j) (h : Spec.place shape i = Spec.place shape j) :
    i = j := by
  have h1 := indices_get shape i hi
  have h2 := indices_get shape j hj
  rw [h] at h1
  rw [h1] at h2; cases h2; rfl

theorem place_lt {shape i : List ℕ} (hi : Spec.IsIndex shape i) : Spec.place shape i < shape.prod := by
  have := List.mem_map_of_mem (f := Spec.place shape) ((mem_indices shape i).2 hi)
  rw [map_place] at this; exact List.mem_range.1 this

/-- **C116**: what is returned, for arrays of any number of dimensions: at the place of an index stands the place of the index with the chosen
dimensions counted from the end; with `transpose`, at the place of the reversed index in the transposed array. -/
theorem C116_value (shape : List ℕ) (steps : List ℤ) (hs : Steps steps) (hl : steps.length ≤ shape.length) (idx : List ℕ)
    (hi : Spec.IsIndex shape idx) :
    (∃ out, rowMajorMap shape (some steps) false = .ok out ∧
      out[Spec.place shape idx]? = some (Spec.place shape (Spec.flip shape (steps.map (· == -1)) idx))) ∧
    ∃ out, rowMajorMap shape (some steps) true = .ok out ∧
      out[Spec.place shape.reverse idx.reverse]? = some (Spec.place shape (Spec.flip shape (steps.map (· == -1)) idx)) := by
  unfold rowMajorMap
  simp only [Option.getD_some, if_neg (not_lt.2 hl), if_true, Bool.false_eq_true, if_false]
  refine ⟨⟨_, rfl, ?_⟩, _, rfl, ?_⟩
  · rw [List.getElem?_map, indices_get shape idx hi, Option.map_some, arangeAt_eq, sliceIdx_eq]
  · rw [List.getElem?_map, indices_get _ _ (isIndex_reverse _ _ hi), Option.map_some, List.reverse_reverse, arangeAt_eq, sliceIdx_eq]

theorem prod_reverse (s : List ℕ) : s.reverse.prod = s.prod := by
  induction s with
  | nil => rfl
  | cons n r ih => rw [List.reverse_cons, List.prod_append, ih]; simp [Nat.mul_comm]

theorem getElem_inj_perm {l : List ℕ} {n : ℕ} (hlen : l.length = n) (hlt : ∀ x ∈ l, x < n) (hnd : l.Nodup) : l.Perm (List.range n) := by
  refine (List.subperm_of_subset hnd fun x hx => List.mem_range.2 (hlt x hx)).perm_of_length_le ?_
  rw [List.length_range, hlen]

/-- **C116**: whatever the shape, the steps and the transposition, the map uses every position exactly once; without transposition applying it
twice changes nothing. -/
theorem C116_perm (shape : List ℕ) (steps : List ℤ) (hs : Steps steps) (hl : steps.length ≤ shape.length) (tr : Bool) :
    ∃ out, rowMajorMap shape (some steps) tr = .ok out ∧ out.Perm (List.range shape.prod) ∧
      (tr = false → ∀ (i j : ℕ), out[i]? = some j → out[j]? = some i) := by
  unfold rowMajorMap
  rw [Option.getD_some, if_neg (not_lt.2 hl)]
  refine ⟨_, rfl, ?_, ?_⟩
  · set bs := steps.map (· == -1) with hbs
    have e : (fun idx => arangeAt shape (sliceIdx shape steps idx)) = fun idx => Spec.place shape (Spec.flip shape bs idx) := by
      funext idx; rw [arangeAt_eq, sliceIdx_eq]
    have inj : ∀ i j, Spec.IsIndex shape i → Spec.IsIndex shape j →
        Spec.place shape (Spec.flip shape bs i) = Spec.place shape (Spec.flip shape bs j) → i = j := fun i j hi hj h => by
      have := place_inj (flip_isIndex shape bs i hi) (flip_isIndex shape bs j hj) h
      rw [← flip_flip shape bs i hi, this, flip_flip shape bs j hj]
    have nd : ∀ s : List ℕ, (indices s).Nodup := fun s => by
      have := List.nodup_range (n := s.prod)
      rw [← map_place] at this
      exact List.Nodup.of_map _ this
    cases tr with
    | false =>
      simp only [Bool.false_eq_true, if_false]
      refine getElem_inj_perm (by rw [List.length_map, length_indices]) ?_ ?_
      · intro x hx
        obtain ⟨idx, hm, rfl⟩ := List.mem_map.1 hx
        rw [arangeAt_eq, sliceIdx_eq]
        exact place_lt (flip_isIndex _ _ _ ((mem_indices _ _).1 hm))
      · refine List.Nodup.map_on ?_ (nd shape)
        intro i hi j hj h
        rw [arangeAt_eq, sliceIdx_eq, arangeAt_eq, sliceIdx_eq] at h
        exact inj i j ((mem_indices _ _).1 hi) ((mem_indices _ _).1 hj) h
    | true =>
      simp only [if_true]
      have hr : ∀ idx ∈ indices shape.reverse, Spec.IsIndex shape idx.reverse := fun idx hm => by
        have := isIndex_reverse _ _ ((mem_indices _ _).1 hm)
        rwa [List.reverse_reverse] at this
      refine getElem_inj_perm (by rw [List.length_map, length_indices, prod_reverse]) ?_ ?_
      · intro x hx
        obtain ⟨idx, hm, rfl⟩ := List.mem_map.1 hx
        rw [arangeAt_eq, sliceIdx_eq]
        exact place_lt (flip_isIndex _ _ _ (hr idx hm))
      · refine List.Nodup.map_on ?_ (nd shape.reverse)
        intro i hi j hj h
        rw [arangeAt_eq, sliceIdx_eq, arangeAt_eq, sliceIdx_eq] at h
        exact List.reverse_injective (inj _ _ (hr i hi) (hr j hj) h)
  · rintro rfl i j hij
    simp only [Bool.false_eq_true, if_false] at hij ⊢
    rw [List.getElem?_map] at hij
    obtain ⟨idx, hidx, rfl⟩ := Option.map_eq_some_iff.1 hij
    have hi : Spec.IsIndex shape idx := (mem_indices _ _).1 (List.mem_of_getElem? hidx)
    have hp : i = Spec.place shape idx := by
      have : ((indices shape).map (Spec.place shape))[i]? = some (Spec.place shape idx) := by rw [List.getElem?_map, hidx]; rfl
      rw [map_place] at this
      have hlt : i < shape.prod := by
        by_contra c
        rw [List.getElem?_eq_none (by simpa using c)] at this; cases this
      rw [List.getElem?_range hlt] at this
      simpa using this
    rw [arangeAt_eq, sliceIdx_eq, List.getElem?_map, indices_get _ _ (flip_isIndex _ _ _ hi), Option.map_some, arangeAt_eq, sliceIdx_eq,
      flip_flip _ _ _ hi, hp]

/-- **C116**: without `index_steps` the order is the ordinary one; more steps than dimensions are refused. -/
theorem C116_default (shape : List ℕ) : rowMajorMap shape none false = .ok (List.range shape.prod) ∧
    ∀ steps, shape.length < steps.length → ∀ tr, rowMajorMap shape (some steps) tr = .error .indexError := by
  refine ⟨?_, fun steps h tr => by unfold rowMajorMap; rw [Option.getD_some, if_pos h]⟩
  unfold rowMajorMap
  rw [Option.getD_none, if_neg (by simp)]
  simp only [Bool.false_eq_true, if_false]
  rw [← map_place]
  congr 1
  refine List.map_congr_left fun idx hm => ?_
  have : ∀ (s idx : List ℕ), sliceIdx s (s.map fun _ => 1) idx = idx := fun s => by
    induction s with
    | nil => intro idx; cases idx <;> rfl
    | cons n r ih => intro idx; cases idx with
      | nil => rfl
      | cons i j =>
        have h1 : ¬(1 : ℤ) = -1 := by decide
        rw [List.map_cons, sliceIdx, if_neg h1, ih]
  rw [arangeAt_eq, this]

example : rowMajorMap [3, 3] (some [1, -1]) false = .ok [2, 1, 0, 5, 4, 3, 8, 7, 6] := by decide +kernel
example : ∃ out, rowMajorMap [2, 3, 4] (some [-1, 1, -1]) true = .ok out ∧ out.Perm (List.range 24) := by
  obtain ⟨out, h1, h2, _⟩ := C116_perm [2, 3, 4] [-1, 1, -1] (by unfold Steps; decide) (by decide) true
  exact ⟨out, h1, h2⟩

end Geotecha.Plot
