import Verif.Quad.PropsShanks
import Mathlib.Tactic.NormNum

set_option autoImplicit false
set_option linter.unusedVariables false

/-!
# `shanks` on two-dimensional data, geotecha/mathematics/quadrature.py

The docstring says "for 2d data each row is a separate sequence".  That is so as long as no denominator vanishes; `np.any(denom==0)` stops
the extrapolation of every row as soon as one row meets a zero denominator.
-/

namespace Geotecha.Quad
open Geotecha (PyErr)

variable {K : Type} [Field K] [DecidableEq K]

/-- The loop `for i in range(ind, len - 2, 2)` on 2-d data, quadrature.py:1180-1188; the argument is `seq[:, i:]`, row by row, `w` its
width, the result `seq[:, -1]`.  `np.any(denom==0)` looks at all rows. -/
def shanksLoop2 : ℕ → ℕ → List (List K) → List K
  | 0, _, rows => rows.map (·.getLastD 0)
  | fuel+1, w, rows =>
    if w ≤ 2 then rows.map (·.getLastD 0)
    else match rows.mapM shanksPass with
      | none => rows.map (·.getLastD 0)
      | some rows' => shanksLoop2 fuel (w - 2) rows'

/-- Where the extrapolation begins, quadrature.py:1175-1177. -/
def shanksStart (w : ℕ) (ind : ℤ) : ℕ := (max (if ind < 0 then w + ind else ind) 0).toNat

/-- `shanks(seq, ind)` for 2-d `seq` with `w ≥ 1` columns, quadrature.py:1119-1188.  In-place modification is not modelled. -/
def shanks2 (w : ℕ) (rows : List (List K)) (ind : Option ℤ) : List K :=
  match ind with
  | none => rows.map (·.getLastD 0)
  | some ind =>
    if w ≤ shanksStart w ind then rows.map (·.getLastD 0)
    else shanksLoop2 w (w - shanksStart w ind) (rows.map (·.drop (shanksStart w ind)))

namespace Spec

/-- One Shanks transformation, as the docstring has it: `S(A_n) = (A_{n+1} A_{n-1} - A_n²) / (A_{n+1} - 2 A_n + A_{n-1})`, every denominator
non-zero. -/
def Step (A S : List K) : Prop :=
  S.length = A.length - 2 ∧ ∀ n, n + 2 < A.length →
    A.getD (n + 2) 0 - 2 * A.getD (n + 1) 0 + A.getD n 0 ≠ 0 ∧
    S.getD n 0 = (A.getD (n + 2) 0 * A.getD n 0 - A.getD (n + 1) 0 ^ 2) / (A.getD (n + 2) 0 - 2 * A.getD (n + 1) 0 + A.getD n 0)

/-- The iterated transformation of `A` down to one or two numbers, the last of which is `v`: no denominator vanishes on the way. -/
inductive Iterated : List K → K → Prop
  | short (A : List K) (h : A.length ≤ 2) : Iterated A (A.getLastD 0)
  | step (A S : List K) (v : K) (h : 2 < A.length) (hs : Step A S) (hv : Iterated S v) : Iterated A v

end Spec

theorem pass_step (A S : List K) : shanksPass A = some S ↔ Spec.Step A S := by
  induction A generalizing S with
  | nil => 
    constructor
    · intro h; cases h; exact ⟨rfl, fun n h => by simp at h⟩
    · rintro ⟨h, _⟩; simp at h; subst h; rfl
  | cons a l ih =>
    rcases l with _ | ⟨b, _ | ⟨c, r⟩⟩
    · constructor
      · intro h; cases h; exact ⟨rfl, fun n h => by simp at h⟩
      · rintro ⟨h, _⟩; simp at h; subst h; rfl
    · constructor
      · intro h; cases h; exact ⟨rfl, fun n h => by simp at h⟩
      · rintro ⟨h, _⟩; simp at h; subst h; rfl
    · rw [shanksPass]
      constructor
      · intro h
        split_ifs at h with hd
        cases hp : shanksPass (b :: c :: r) with
        | none => rw [hp] at h; cases h
        | some S' =>
          rw [hp] at h
          dsimp only at h
          obtain rfl := Option.some.inj h
          obtain ⟨h1, h2⟩ := (ih S').1 hp
          refine ⟨by simp at h1 ⊢; omega, fun n hn => ?_⟩
          cases n with
          | zero => simpa using hd
          | succ n => simpa using h2 n (by simp at hn ⊢; omega)
      · rintro ⟨h1, h2⟩
        have h0 := h2 0 (by simp)
        simp only [zero_add, List.getD_cons_zero, List.getD_cons_succ] at h0
        rw [if_neg h0.1]
        match S, h1 with
        | [], h1 => simp at h1
        | x :: S', h1 =>
          have : shanksPass (b :: c :: r) = some S' := by
            refine (ih S').2 ⟨by simp at h1 ⊢; omega, fun n hn => ?_⟩
            have := h2 (n + 1) (by simp at hn ⊢; omega)
            simpa using this
          rw [this]
          have h00 := h0.2
          simp only [List.getD_cons_zero] at h00
          rw [h00]

theorem mapM_pass (rows : List (List K)) (rows' : List (List K)) (h : rows.mapM shanksPass = some rows') :
    List.Forall₂ (fun A S => shanksPass A = some S) rows rows' := by
  induction rows generalizing rows' with
  | nil => simp at h; subst h; exact .nil
  | cons r rows ih =>
    rw [List.mapM_cons] at h
    cases h1 : shanksPass r with
    | none => rw [h1] at h; cases h
    | some r' =>
      cases h2 : rows.mapM shanksPass with
      | none => rw [h1, h2] at h; cases h
      | some rs =>
        rw [h1, h2] at h
        cases h
        exact .cons h1 (ih rs h2)

theorem mapM_pass_none (rows : List (List K)) (r : List K) (hr : r ∈ rows) (h : shanksPass r = none) : rows.mapM shanksPass = none := by
  cases h' : rows.mapM shanksPass with
  | none => rfl
  | some rows' =>
    exfalso
    have := mapM_pass rows rows' h'
    clear h'
    induction this with
    | nil => cases hr
    | cons hab _ ih =>
      rcases List.mem_cons.1 hr with rfl | h3
      · rw [h] at hab; cases hab
      · exact ih h3

theorem loop2_iterated (f w : ℕ) (rows : List (List K)) (vs : List K) (hw : ∀ r ∈ rows, r.length = w) (hf : w ≤ f)
    (h : List.Forall₂ Spec.Iterated rows vs) : shanksLoop2 f w rows = vs := by
  induction f generalizing w rows with
  | zero =>
    obtain rfl : w = 0 := by omega
    rw [shanksLoop2]
    clear hf
    induction h with
    | nil => rfl
    | @cons A v rows vs hA _ ih =>
      have : A.length = 0 := hw A (by simp)
      rw [List.map_cons, ih fun r hr => hw r (by simp [hr])]
      cases hA with
      | short => rfl
      | step _ _ _ h' => omega
  | succ f ih =>
    rw [shanksLoop2]
    split_ifs with h2
    · clear ih
      induction h with
      | nil => rfl
      | @cons A v rows vs hA _ ih =>
        have : A.length = w := hw A (by simp)
        rw [List.map_cons, ih fun r hr => hw r (by simp [hr])]
        cases hA with
        | short => rfl
        | step _ _ _ h' => omega
    · have : ∃ rows', rows.mapM shanksPass = some rows' ∧ (∀ r ∈ rows', r.length = w - 2) ∧ List.Forall₂ Spec.Iterated rows' vs := by
        clear ih
        induction h with
        | nil => exact ⟨[], rfl, by simp, .nil⟩
        | @cons A v rows vs hA _ ih =>
          obtain ⟨rows', e1, e2, e3⟩ := ih fun r hr => hw r (by simp [hr])
          have hl : A.length = w := hw A (by simp)
          cases hA with
          | short _ h' => omega
          | step _ S _ h' hs hv =>
            refine ⟨S :: rows', ?_, ?_, .cons hv e3⟩
            · rw [List.mapM_cons, (pass_step A S).2 hs, e1]
              rfl
            · intro r hr
              rcases List.mem_cons.1 hr with rfl | hr
              · rw [hs.1, hl]
              · exact e2 r hr
      obtain ⟨rows', e1, e2, e3⟩ := this
      rw [e1]
      exact ih (w - 2) rows' e2 (by omega) e3

theorem loop2_single (f : ℕ) (A : List K) : shanksLoop2 f A.length [A] = [shanksLoop f A] := by
  induction f generalizing A with
  | zero => rfl
  | succ f ih =>
    rw [shanksLoop2, shanksLoop]
    split_ifs with h
    · rfl
    · rw [List.mapM_cons, List.mapM_nil]
      cases hp : shanksPass A with
      | none => rfl
      | some S =>
        have := ih S
        rw [pass_length hp] at this
        exact this

/-- One row: the one-dimensional `shanks`. -/
theorem C232_single (A : List K) (ind : Option ℤ) : shanks2 A.length [A] ind = [shanks A ind] := by
  cases ind with
  | none => rfl
  | some ind =>
    unfold shanks2 shanks shanksStart
    dsimp only
    generalize (max (if ind < 0 then (A.length : ℤ) + ind else ind) 0).toNat = i
    split_ifs with h
    · rfl
    · have := loop2_single A.length (A.drop i)
      rw [List.length_drop] at this
      exact this

/-- If the iterated Shanks transformation of every row, from `ind` on, meets no zero denominator, the answer is that of each row. -/
theorem C232_rows_partial (w : ℕ) (rows : List (List K)) (ind : ℤ) (hw : ∀ r ∈ rows, r.length = w) (hs : shanksStart w ind < w) (vs : List K)
    (h : List.Forall₂ (fun r v => Spec.Iterated (r.drop (shanksStart w ind)) v) rows vs) :
    shanks2 w rows (some ind) = vs ∧ rows.map (fun r => shanks r (some ind)) = vs := by
  constructor
  · unfold shanks2
    dsimp only
    rw [if_neg (by omega)]
    refine loop2_iterated _ _ _ _ ?_ (by omega) (List.forall₂_map_left_iff.2 h)
    intro r hr
    obtain ⟨r', hr', rfl⟩ := List.mem_map.1 hr
    rw [List.length_drop, hw r' hr']
  · induction h with
    | nil => rfl
    | @cons A v rows vs hA _ ih =>
      rw [List.map_cons, ih fun r hr => hw r (by simp [hr])]
      congr 1
      have hl : A.length = w := hw A (by simp)
      have h1 := C232_single A (some ind)
      have h2 : shanks2 A.length [A] (some ind) = [v] := by
        unfold shanks2
        dsimp only
        rw [hl, if_neg (by omega)]
        refine loop2_iterated _ _ _ _ ?_ (by omega) (.cons hA .nil)
        intro r hr
        rw [List.map_singleton, List.mem_singleton] at hr
        subst hr
        rw [List.length_drop, hl]
      rw [h1] at h2
      exact (List.cons.inj h2).1

/-- What is missing: the rows are not separate.  A row with a zero denominator in the first step stops all of them: every row is returned
as it is, not extrapolated. -/
theorem C232_stopped (w : ℕ) (rows : List (List K)) (ind : ℤ) (hw : ∀ r ∈ rows, r.length = w) (A : List K) (hA : A ∈ rows) (n : ℕ)
    (hn : shanksStart w ind ≤ n) (hn' : n + 2 < w) (hd : A.getD (n + 2) 0 - 2 * A.getD (n + 1) 0 + A.getD n 0 = 0) :
    shanks2 w rows (some ind) = rows.map (·.getLastD 0) := by
  unfold shanks2
  dsimp only
  set i := shanksStart w ind with hi
  rw [if_neg (by omega)]
  have hnone : (rows.map (·.drop i)).mapM shanksPass = none := by
    refine mapM_pass_none _ (A.drop i) (List.mem_map_of_mem hA) ?_
    cases hp : shanksPass (A.drop i) with
    | none => rfl
    | some S =>
      exfalso
      have h1 := ((pass_step _ _).1 hp).2 (n - i) (by rw [List.length_drop, hw A hA]; omega)
      apply h1.1
      rw [List.getD_eq_getElem?_getD, List.getD_eq_getElem?_getD, List.getD_eq_getElem?_getD, List.getElem?_drop, List.getElem?_drop,
        List.getElem?_drop, show i + (n - i + 2) = n + 2 by omega, show i + (n - i + 1) = n + 1 by omega, show i + (n - i) = n by omega,
        ← List.getD_eq_getElem?_getD, ← List.getD_eq_getElem?_getD, ← List.getD_eq_getElem?_getD]
      exact hd
  obtain ⟨f, rfl⟩ : ∃ f, w = f + 1 := ⟨w - 1, by omega⟩
  rw [shanksLoop2, if_neg (by omega), hnone]
  dsimp only
  rw [List.map_map]
  refine List.map_congr_left fun r hr => ?_
  have := hw r hr
  rw [Function.comp_apply, List.getLastD_eq_getLast?, List.getLastD_eq_getLast?, List.getLast?_drop, if_neg (by omega)]

/-- The partial sums of `1/2 + 1/4 + ...` give `1` on their own, `7/8` next to a row of equal numbers. -/
theorem C232_not_separate : shanks2 3 [[1, 1, 1], [1/2, 3/4, (7/8 : ℚ)]] (some 0) = [1, 7/8] ∧ shanks [1/2, 3/4, (7/8 : ℚ)] (some 0) = 1 := by
  constructor <;> decide +kernel

/-- A case that meets the hypotheses of `C232_rows_partial`. -/
example : List.Forall₂ (fun r v => Spec.Iterated (r.drop (shanksStart 3 0)) v) [[1/2, 3/4, (7/8 : ℚ)], [0, 2, 3]] [1, 4] := by
  refine .cons ?_ (.cons ?_ .nil)
  · refine .step _ [1] _ (by decide) ⟨rfl, fun n hn => ?_⟩ (.short [1] (by decide))
    have : n = 0 := by simp [shanksStart] at hn; omega
    subst this
    constructor <;> decide +kernel
  · refine .step _ [4] _ (by decide) ⟨rfl, fun n hn => ?_⟩ (.short [4] (by decide))
    have : n = 0 := by simp [shanksStart] at hn; omega
    subst this
    constructor <;> decide +kernel

end Geotecha.Quad
