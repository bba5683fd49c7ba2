import Verif.Piecewise.Model
import Mathlib.Algebra.Order.Floor.Semiring
import Mathlib.Algebra.Order.Floor.Defs
import Mathlib.Algebra.BigOperators.Group.List.Basic
import Mathlib.Algebra.Order.BigOperators.Group.List
import Mathlib.Tactic.Linarith
import Mathlib.Tactic.FieldSimp
import Mathlib.Tactic.Ring
import Mathlib.Data.Rat.Floor
import Mathlib.Data.List.Chain

/-! # C230: `layer_coords` (piecewise_linear_1d.py:2878-2929) -/

set_option linter.unusedVariables false
set_option autoImplicit false
namespace Geotecha.Piecewise

variable {K : Type} [Field K] [LinearOrder K] [FloorSemiring K]

/-- `np.cumsum`, with the running total so far, piecewise_linear_1d.py:2919. -/
def cumsumFrom (s : K) : List K → List K
  | [] => []
  | h :: hs => (s + h) :: cumsumFrom (s + h) hs

/-- `np.linspace(a, b, n, endpoint=False)`, piecewise_linear_1d.py:2924. -/
def layerPoints (a b : K) (n : ℕ) : List K := (List.range n).map (fun i : ℕ => a + (i:K) * ((b - a) / n))

/-- `layer_coords(h, segs, min_segs)`, piecewise_linear_1d.py:2917-2929.  Simplified: `segs` and `min_segs` are natural numbers, and the
number of points passed to `linspace`, a whole float when it is `height//dx`, is taken as an integer (as numpy before 1.18 does; later
versions raise a `TypeError`). -/
def layerCoords (h : List K) (segs minSegs : ℕ) : Except PyErr (List K) :=
  let z2 := cumsumFrom 0 h
  let z1 := (z2.zip h).map (fun q => q.1 - q.2)
  let dx := h.sum / segs
  let num := h.map (fun height => max ⌊height / dx⌋₊ minSegs)
  let zlist := (z1.zip (z2.zip num)).map (fun q => layerPoints q.1 q.2.1 q.2.2)
  match z2.getLast? with
  | none => .error .indexError
  | some l => .ok (zlist.flatten ++ [l])

/-- The coordinates of the layers `hs` below depth `z0`, layer after layer. -/
def coordsFrom (dx : K) (minSegs : ℕ) : K → List K → List K
  | z0, [] => [z0]
  | z0, h :: hs => layerPoints z0 (z0 + h) (max ⌊h / dx⌋₊ minSegs) ++ coordsFrom dx minSegs (z0 + h) hs

theorem flatten_coords (dx : K) (mn : ℕ) (s : K) (h : List K) (hne : h ≠ []) :
    ∃ l, (cumsumFrom s h).getLast? = some l ∧
      (((((cumsumFrom s h).zip h).map (fun q => q.1 - q.2)).zip ((cumsumFrom s h).zip (h.map (fun height => max ⌊height / dx⌋₊ mn)))).map
        (fun q => layerPoints q.1 q.2.1 q.2.2)).flatten ++ [l] = coordsFrom dx mn s h := by
  induction h generalizing s with
  | nil => exact absurd rfl hne
  | cons a t ih =>
    by_cases ht : t = []
    · subst ht
      refine ⟨s + a, rfl, ?_⟩
      simp [cumsumFrom, coordsFrom]
    · obtain ⟨l, h1, h2⟩ := ih (s + a) ht
      have hne' : cumsumFrom (s + a) t ≠ [] := by
        intro hc; rw [hc] at h1; cases h1
      refine ⟨l, ?_, ?_⟩
      · rw [cumsumFrom, List.getLast?_cons, h1]; rfl
      · rw [coordsFrom, ← h2]
        simp [cumsumFrom]

theorem layerCoords_eq (h : List K) (hne : h ≠ []) (segs mn : ℕ) : layerCoords h segs mn = .ok (coordsFrom (h.sum / segs) mn 0 h) := by
  obtain ⟨l, h1, h2⟩ := flatten_coords (h.sum / segs) mn 0 h hne
  unfold layerCoords
  simp only [h1, h2]

variable [IsStrictOrderedRing K]

theorem coordsFrom_head (dx : K) {mn : ℕ} (hmn : 1 ≤ mn) (z0 : K) (hs : List K) : ∃ t, coordsFrom dx mn z0 hs = z0 :: t := by
  cases hs with
  | nil => exact ⟨[], rfl⟩
  | cons a t =>
    have : 1 ≤ max ⌊a / dx⌋₊ mn := le_max_of_le_right hmn
    obtain ⟨n, hn⟩ : ∃ n, max ⌊a / dx⌋₊ mn = n + 1 := ⟨_, (Nat.sub_add_cancel this).symm⟩
    rw [coordsFrom, hn, layerPoints, List.range_succ_eq_map]
    simp only [List.map_cons, Nat.cast_zero, zero_mul, add_zero, List.cons_append]
    exact ⟨_, rfl⟩

/-- Spacing of the points. -/
theorem coordsFrom_chain {dx : K} (hdx : 0 < dx) {mn : ℕ} (hmn : 1 ≤ mn) (z0 : K) (hs : List K) (hpos : ∀ h ∈ hs, 0 < h) :
    List.IsChain (fun a b => a < b ∧ b - a < 2 * dx) (coordsFrom dx mn z0 hs) := by
  induction hs generalizing z0 with
  | nil => exact List.isChain_singleton _
  | cons a t ih =>
    have ha : 0 < a := hpos a (by simp)
    rw [coordsFrom]
    set n := max ⌊a / dx⌋₊ mn with hn
    have hn1 : 1 ≤ n := le_max_of_le_right hmn
    have hn0 : (0:K) < n := by exact_mod_cast hn1
    have step : 0 < a / n ∧ a / n < 2 * dx := by
      refine ⟨div_pos ha hn0, ?_⟩
      rw [div_lt_iff₀ hn0]
      have h1 := Nat.lt_floor_add_one (a / dx)
      rw [div_lt_iff₀ hdx] at h1
      have h2 : (⌊a / dx⌋₊ : K) ≤ n := by exact_mod_cast le_max_left _ _
      have h3 : (1:K) ≤ n := by exact_mod_cast hn1
      nlinarith
    rw [List.isChain_append]
    refine ⟨?_, ih (z0 + a) (fun h hh => hpos h (by simp [hh])), ?_⟩
    · unfold layerPoints
      rw [List.isChain_map]
      rw [List.isChain_iff_getElem]
      intro i hi
      simp only [List.length_range] at hi
      simp only [List.getElem_range]
      have e : z0 + ((i + 1 : ℕ):K) * ((z0 + a - z0) / n) - (z0 + (i:K) * ((z0 + a - z0) / n)) = a / n := by
        push_cast
        ring
      constructor
      · have := step.1; linarith
      · rw [e]; exact step.2
    · intro p hp q hq
      obtain ⟨t', e⟩ := coordsFrom_head dx hmn (z0 + a) t
      rw [e] at hq
      simp only [List.head?_cons, Option.mem_def, Option.some.injEq] at hq
      obtain ⟨k, hk⟩ : ∃ k, n = k + 1 := ⟨_, (Nat.sub_add_cancel hn1).symm⟩
      unfold layerPoints at hp
      rw [hk, List.range_succ, List.map_append] at hp
      simp only [List.map_cons, List.map_nil, List.getLast?_append, List.getLast?_singleton, Option.mem_def, Option.some_or, Option.some.injEq] at hp
      have e2 : q - p = a / n := by
        rw [← hp, ← hq, hk]
        have : ((k + 1 : ℕ) : K) ≠ 0 := by positivity
        push_cast at this ⊢
        field_simp
        ring
      constructor
      · have := step.1; linarith
      · rw [e2]; exact step.2

theorem coordsFrom_interfaces (dx : K) {mn : ℕ} (hmn : 1 ≤ mn) (z0 : K) (hs : List K) :
    (∀ k, k ≤ hs.length → z0 + (hs.take k).sum ∈ coordsFrom dx mn z0 hs) ∧ (coordsFrom dx mn z0 hs).getLast? = some (z0 + hs.sum) := by
  induction hs generalizing z0 with
  | nil =>
    refine ⟨fun k hk => ?_, by simp [coordsFrom]⟩
    simp [coordsFrom]
  | cons a t ih =>
    obtain ⟨h1, h2⟩ := ih (z0 + a)
    constructor
    · intro k hk
      cases k with
      | zero =>
        obtain ⟨t', e⟩ := coordsFrom_head dx hmn z0 (a :: t)
        rw [e]; simp
      | succ k =>
        rw [coordsFrom, List.mem_append]
        right
        have := h1 k (by simpa using hk)
        rw [List.take_succ_cons, List.sum_cons, ← add_assoc]
        exact this
    · rw [coordsFrom, List.getLast?_append, h2, List.sum_cons, ← add_assoc]
      rfl

/-- Number of points: each layer has its `max(height//dx, min_segs)` segments. -/
theorem coordsFrom_length (dx : K) (mn : ℕ) (z0 : K) (hs : List K) :
    (coordsFrom dx mn z0 hs).length = (hs.map (fun h => max ⌊h / dx⌋₊ mn)).sum + 1 := by
  induction hs generalizing z0 with
  | nil => rfl
  | cons a t ih =>
    rw [coordsFrom, List.length_append, ih, List.map_cons, List.sum_cons]
    simp [layerPoints]
    omega

/-- Points strictly between the top of layer `k` and its bottom. -/
theorem coordsFrom_inside {dx : K} (hdx : 0 < dx) {mn : ℕ} (hmn : 1 ≤ mn) (z0 : K) (hs : List K) (hpos : ∀ h ∈ hs, 0 < h) (k : ℕ) (hk : k < hs.length) :
    ∀ i : ℕ, i ≤ max ⌊hs[k] / dx⌋₊ mn →
      z0 + (hs.take k).sum + (i:K) * (hs[k] / (max ⌊hs[k] / dx⌋₊ mn : ℕ)) ∈ coordsFrom dx mn z0 hs := by
  induction hs generalizing z0 k with
  | nil => simp at hk
  | cons a t ih =>
    intro i hi
    cases k with
    | zero =>
      simp only [List.getElem_cons_zero] at hi ⊢
      set n := max ⌊a / dx⌋₊ mn with hn
      have hn1 : 1 ≤ n := le_max_of_le_right hmn
      have hn0 : (n:K) ≠ 0 := by positivity
      rw [coordsFrom, List.mem_append, ← hn]
      rcases Nat.lt_or_ge i n with h | h
      · left
        unfold layerPoints
        rw [List.mem_map]
        exact ⟨i, List.mem_range.2 h, by simp⟩
      · right
        have : i = n := le_antisymm hi h
        obtain ⟨t', e⟩ := coordsFrom_head dx hmn (z0 + a) t
        rw [e, this]
        simp [mul_div_cancel₀ a hn0]
    | succ k =>
      simp only [List.getElem_cons_succ] at hi ⊢
      have := ih (z0 + a) (fun h hh => hpos h (by simp [hh])) k (by simpa using hk) i hi
      rw [coordsFrom, List.mem_append]
      right
      rw [List.take_succ_cons, List.sum_cons, ← add_assoc]
      exact this

/-- **C230** for layers of positive thickness: the coordinates start at 0, increase strictly, end at the total thickness, include every
interface between layers; each layer is cut into at least `min_segs` equal parts; no gap reaches twice the thickness of the profile divided by
`segs`; and there are at most `segs + min_segs * layers` segments. -/
theorem C230_coords (h : List K) (hne : h ≠ []) (hpos : ∀ a ∈ h, 0 < a) (segs mn : ℕ) (hs : 1 ≤ segs) (hmn : 1 ≤ mn) :
    ∃ z, layerCoords h segs mn = .ok z ∧ z.head? = some 0 ∧ z.getLast? = some h.sum ∧ z.Pairwise (· < ·) ∧
      (∀ k, k ≤ h.length → (h.take k).sum ∈ z) ∧
      (∀ i (hi : i + 1 < z.length), z[i + 1] - z[i] < 2 * (h.sum / segs)) ∧
      (∀ k (hk : k < h.length), ∃ n, mn ≤ n ∧ ∀ i : ℕ, i ≤ n → (h.take k).sum + (i:K) * (h[k] / n) ∈ z) ∧
      z.length ≤ segs + mn * h.length + 1 := by
  have hsum : 0 < h.sum := List.sum_pos h hpos hne
  have hs0 : (0:K) < segs := by exact_mod_cast hs
  have hdx : 0 < h.sum / segs := div_pos hsum hs0
  have hch := coordsFrom_chain hdx hmn 0 h hpos
  obtain ⟨t, ht⟩ := coordsFrom_head (h.sum / segs) hmn 0 h
  obtain ⟨i1, i2⟩ := coordsFrom_interfaces (h.sum / segs) hmn 0 h
  refine ⟨_, layerCoords_eq h hne segs mn, by rw [ht]; rfl, by rw [i2, zero_add], ?_, fun k hk => by simpa using i1 k hk, ?_, fun k hk => ?_, ?_⟩
  · exact List.isChain_iff_pairwise.1 (hch.imp (fun a b hab => hab.1))
  · intro i hi
    exact ((List.isChain_iff_getElem.1 hch) i hi).2
  · refine ⟨max ⌊h[k] / (h.sum / segs)⌋₊ mn, le_max_right _ _, fun i hi => ?_⟩
    have := coordsFrom_inside hdx hmn 0 h hpos k hk i hi
    rwa [zero_add] at this
  · rw [coordsFrom_length]
    have key : ∀ l : List K, (∀ a ∈ l, 0 < a) → (((l.map (fun a => max ⌊a / (h.sum / segs)⌋₊ mn)).sum : ℕ) : K) ≤ l.sum / (h.sum / segs) + mn * l.length := by
      intro l hl
      induction l with
      | nil => simp
      | cons a l ih =>
        have h1 := ih (fun b hb => hl b (by simp [hb]))
        have h2 : ((max ⌊a / (h.sum / segs)⌋₊ mn : ℕ) : K) ≤ a / (h.sum / segs) + mn := by
          have q0 : 0 ≤ a / (h.sum / segs) := (div_pos (hl a (by simp)) hdx).le
          have q := Nat.floor_le q0
          rcases max_choice ⌊a / (h.sum / segs)⌋₊ mn with e | e
          · rw [e]
            have : (0:K) ≤ mn := Nat.cast_nonneg _
            linarith
          · rw [e]; linarith
        simp only [List.map_cons, List.sum_cons, List.length_cons]
        push_cast
        rw [add_div]
        push_cast at h2
        linarith
    have k1 := key h hpos
    have e : h.sum / (h.sum / segs) = segs := by field_simp
    rw [e] at k1
    have : (h.map (fun a => max ⌊a / (h.sum / segs)⌋₊ mn)).sum ≤ segs + mn * h.length := by exact_mod_cast k1
    omega

/-- **C230** without layers there is an `IndexError`. -/
theorem C230_empty (segs mn : ℕ) : layerCoords ([] : List K) segs mn = .error .indexError := rfl

/-! The examples of the documentation. -/
example : layerCoords ([4] : List ℚ) 2 1 = .ok [0, 2, 4] := by decide +kernel
example : layerCoords ([2] : List ℚ) 1 4 = .ok [0, 1/2, 1, 3/2, 2] := by decide +kernel
example : layerCoords ([2, 4, 2] : List ℚ) 5 2 = .ok [0, 1, 2, 4, 6, 7, 8] := by decide +kernel
example : layerCoords ([5, 1, 5] : List ℚ) 3 2 = .ok [0, 5/2, 5, 11/2, 6, 17/2, 11] := by decide +kernel

example : ∃ z, layerCoords ([5, 1, 5] : List ℚ) 3 2 = .ok z ∧ z.Pairwise (· < ·) ∧ (6 : ℚ) ∈ z := by
  obtain ⟨z, h1, _, _, h4, h5, _⟩ := C230_coords ([5, 1, 5] : List ℚ) (by simp) (by simp) 3 2 (by norm_num) (by norm_num)
  exact ⟨z, h1, h4, by have := h5 2 (by simp); norm_num at this; exact this⟩

end Geotecha.Piecewise
