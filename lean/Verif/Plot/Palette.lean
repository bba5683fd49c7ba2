import Verif.Plot.Model
import Mathlib.Tactic.Linarith
import Mathlib.Tactic.Ring
import Mathlib.Algebra.Order.Ring.Defs
import Mathlib.Data.List.Forall2
import Mathlib.Data.List.Induction
import Mathlib.Tactic.NormNum

/-! # C247, C248: palettes over a session; marker spacing

Models of `MarkersDashesColors.tint_colors`, `shade_colors` (one_d.py:377-387) and `apply_markevery_to_sequence_of_lines`
(one_d.py:1744-1809). -/

set_option autoImplicit false
set_option linter.unusedVariables false
namespace Geotecha.Plot.Palette
open Geotecha (PyErr)

/-! ## Model -/

section
variable {K : Type} [Field K] [LinearOrder K]

/-- The calls that change the colours. -/
inductive Op (K : Type) where
  | tint (factor : K)
  | shade (factor : K)

/-- `tint_colors`, one_d.py:377-381, and `shade_colors`, 383-387: the new list. -/
def newColors (cs : List (List K)) : Op K → Except PyErr (List (List K))
  | .tint f => cs.mapM fun c => rgbTint c f true
  | .shade f => cs.mapM fun c => rgbShade c f

/-- One call: `self.colors` is assigned when the whole list has been made; otherwise the exception leaves it as it was. -/
def call (cs : List (List K)) (op : Op K) : List (List K) × Option PyErr :=
  match newColors cs op with
  | .ok cs' => (cs', none)
  | .error e => (cs, some e)

/-- The colours after a history of calls, exceptions caught. -/
def after (cs : List (List K)) (h : List (Op K)) : List (List K) := h.foldl (fun cs op => (call cs op).1) cs
end

/-- Python's `random` module: the state after `seed(n)`, `randint(0, m)` for `m ≥ 0` and `random()`. -/
structure Rng (G : Type) where
  seed : ℤ → G
  randint : ℤ → G → ℤ × G
  random : G → ℚ × G

/-- The documented ranges. -/
structure Rng.Ok {G : Type} (R : Rng G) : Prop where
  int : ∀ m g, 0 ≤ m → 0 ≤ (R.randint m g).1 ∧ (R.randint m g).1 ≤ m
  float : ∀ g, 0 ≤ (R.random g).1 ∧ (R.random g).1 < 1

/-- The argument: an `int` (a `bool` is one), a `float`, or anything else (such as `None`, a tuple or a numpy integer). -/
inductive Mark (V : Type) where
  | int (m : ℤ)
  | float (x : ℚ)
  | other (v : V)

/-- What `set_markevery` of a line gets. -/
inductive Setting (V : Type) where
  | every (m : ℤ)
  | fraction (x : ℚ)
  | fromInt (start m : ℤ)
  | fromFraction (start x : ℚ)
  | other (v : V)
deriving DecidableEq

/-- The list `[… for v in lines]` with a random start in each: drawn one after the other before any line is touched. -/
def draws {G α : Type} (one : G → Except PyErr (α × G)) : ℕ → G → Except PyErr (List α × G)
  | 0, g => .ok ([], g)
  | n + 1, g => match one g with
    | .error e => .error e
    | .ok (a, g1) => match draws one n g1 with
      | .error e => .error e
      | .ok (l, g2) => .ok (a :: l, g2)

/-- `apply_markevery_to_sequence_of_lines`, one_d.py:1744-1809, for a list of `n` lines: what each line gets (`none`: not touched), and the state
of the generator afterwards. `floatOk` says whether matplotlib has `_mark_every_path`; without it a `float` is ignored with a warning. `randint`
of an empty range raises `ValueError`. -/
def markEvery {G V : Type} (R : Rng G) (floatOk : Bool) (n : ℕ) (mark : Mark V) (randomStart : Bool) (seed : Option ℤ) (g : G) :
    Except PyErr (List (Option (Setting V)) × G) :=
  match mark with
  | .int m =>
    if randomStart then
      match draws (fun g => if m < 0 then .error .valueError else .ok (some (Setting.fromInt (R.randint m g).1 m), (R.randint m g).2)) n
          (seed.elim g R.seed) with
      | .error e => .error e
      | .ok (l, g1) => .ok (l, g1)
    else .ok (List.replicate n (some (.every m)), g)
  | .float x =>
    if floatOk then
      if randomStart then
        draws (fun g => .ok (some (Setting.fromFraction ((R.random g).1 * x) x), (R.random g).2)) n (seed.elim g R.seed)
      else .ok (List.replicate n (some (.fraction x)), g)
    else .ok (List.replicate n none, g)
  | .other v => .ok (List.replicate n (some (.other v)), g)

/-! ## C247 -/

section
variable {K : Type} [Field K] [LinearOrder K] [IsStrictOrderedRing K]

/-- The factor of a call. -/
def Op.factor : Op K → K
  | .tint f => f
  | .shade f => f

/-- A colour: three components between 0 and 1, and perhaps an alpha value. -/
def IsColor (c : List K) : Prop := ∃ r g b al, c = [r, g, b] ++ Option.toList al ∧ ∀ v ∈ [r, g, b], 0 ≤ v ∧ v ≤ 1

/-- `d` is `c` with `v ↦ s v + t` applied to the three components. -/
def Affine (s t : K) (c d : List K) : Prop :=
  ∀ r g b al, c = [r, g, b] ++ Option.toList al → d = [s * r + t, s * g + t, s * b + t] ++ Option.toList al

/-- What one call with a factor in [0, 1] does to a component: `v ↦ s v + t`. -/
def Op.coef : Op K → K × K
  | .tint f => (1 - f, f)
  | .shade f => (f, 0)

theorem mapM_forall {α β : Type} {f : α → Except PyErr β} {R : α → β → Prop} (l : List α) (h : ∀ a ∈ l, ∃ b, f a = .ok b ∧ R a b) :
    ∃ l', l.mapM f = .ok l' ∧ List.Forall₂ R l l' := by
  induction l with
  | nil => exact ⟨[], rfl, .nil⟩
  | cons a l ih =>
    obtain ⟨b, hb, hR⟩ := h a (by simp)
    obtain ⟨l', hl, hF⟩ := ih fun x hx => h x (by simp [hx])
    exact ⟨b :: l', by rw [List.mapM_cons, hb]; show (do let r ← l.mapM f; _) = _; rw [hl]; rfl, .cons hR hF⟩

theorem call_good (cs : List (List K)) (hc : ∀ c ∈ cs, IsColor c) (op : Op K) (h0 : 0 ≤ op.factor) (h1 : op.factor ≤ 1) :
    (call cs op).2 = none ∧ List.Forall₂ (Affine op.coef.1 op.coef.2) cs (call cs op).1 := by
  have key : ∃ l', newColors cs op = .ok l' ∧ List.Forall₂ (Affine op.coef.1 op.coef.2) cs l' := by
    cases op with
    | tint f =>
      have hf : ¬(f < 0 ∨ f > 1) := fun h => h.elim (fun h => absurd h0 (not_le.2 h)) fun h => absurd h1 (not_le.2 h)
      refine mapM_forall cs fun c h => ?_
      obtain ⟨r, g, b, al, rfl, _⟩ := hc c h
      refine ⟨[(1 - f) * r + f, (1 - f) * g + f, (1 - f) * b + f] ++ Option.toList al, ?_, ?_⟩
      · have e : ∀ v : K, v + (1 - v) * f = (1 - f) * v + f := fun v => by ring
        cases al <;> simp [rgbTint, hf, e]
      · intro r' g' b' al' h
        cases al <;> cases al' <;> simp_all [Op.coef]
    | shade f =>
      have hf : ¬(f < 0 ∨ f > 1) := fun h => h.elim (fun h => absurd h0 (not_le.2 h)) fun h => absurd h1 (not_le.2 h)
      refine mapM_forall cs fun c h => ?_
      obtain ⟨r, g, b, al, rfl, _⟩ := hc c h
      refine ⟨[f * r, f * g, f * b] ++ Option.toList al, ?_, ?_⟩
      · have e : ∀ v : K, v * f = f * v := fun v => mul_comm _ _
        cases al <;> simp [rgbShade, hf, e]
      · intro r' g' b' al' h
        cases al <;> cases al' <;> simp_all [Op.coef]
  obtain ⟨l', h, hF⟩ := key
  unfold call
  rw [h]
  exact ⟨rfl, hF⟩

/-- **C247** a call raises (`ValueError`) exactly when its factor is outside [0, 1] and there is a colour to change, and then the colours are what
they were. -/
theorem C247_refused (cs : List (List K)) (hc : ∀ c ∈ cs, IsColor c) (op : Op K) :
    ((call cs op).2 ≠ none ↔ cs ≠ [] ∧ (op.factor < 0 ∨ 1 < op.factor)) ∧
    ((call cs op).2 ≠ none → (call cs op).2 = some .valueError ∧ (call cs op).1 = cs) := by
  by_cases hf : op.factor < 0 ∨ 1 < op.factor
  · cases cs with
    | nil =>
      have : call ([] : List (List K)) op = ([], none) := by cases op <;> rfl
      simp [this]
    | cons c cs =>
      have : call (c :: cs) op = (c :: cs, some .valueError) := by
        have : newColors (c :: cs) op = .error .valueError := by
          cases op with
          | tint f =>
            have h : rgbTint c f true = .error .valueError := by unfold rgbTint; rw [if_pos (show f < 0 ∨ f > 1 from hf)]
            show (c :: cs).mapM (fun c => rgbTint c f true) = _
            rw [List.mapM_cons, h]; rfl
          | shade f =>
            have h : rgbShade c f = .error .valueError := by unfold rgbShade; rw [if_pos (show f < 0 ∨ f > 1 from hf)]
            show (c :: cs).mapM (fun c => rgbShade c f) = _
            rw [List.mapM_cons, h]; rfl
        unfold call
        rw [this]
      simp [this, hf]
  · have := (call_good cs hc op (not_lt.1 fun h => hf (Or.inl h)) (not_lt.1 fun h => hf (Or.inr h))).1
    simp [this, hf]

/-- The calls of a history that count: those with a factor in [0, 1]. -/
def counted (h : List (Op K)) : List (Op K) := h.filter fun op => decide (0 ≤ op.factor) && decide (op.factor ≤ 1)

/-- **C247** after any history of tinting and shading, with exceptions caught, there are as many colours as before, in the same order, all
proper colours with their alpha values unchanged, and there are two numbers, depending on the history only, such that every component `v`
of every colour became `s v + t`; `s` is the product of the factors of the shades and of one minus the factors of the tints, refused calls left out;
`t` is what the counted calls, one after the other, make of 0; and `0 ≤ s`, `0 ≤ t`, `s + t ≤ 1`. -/
theorem C247_history (h : List (Op K)) : ∃ s t : K, 0 ≤ s ∧ 0 ≤ t ∧ s + t ≤ 1 ∧
    s = ((counted h).map fun op => match op with | .tint f => 1 - f | .shade f => f).prod ∧
    t = (counted h).foldl (fun v op => match op with | .tint f => v + f * (1 - v) | .shade f => f * v) 0 ∧
    ∀ cs : List (List K), (∀ c ∈ cs, IsColor c) → (∀ c ∈ after cs h, IsColor c) ∧ List.Forall₂ (Affine s t) cs (after cs h) := by
  induction h using List.reverseRecOn with
  | nil =>
    refine ⟨1, 0, zero_le_one, le_rfl, by simp, by simp [counted], by simp [counted], fun cs hc => ⟨hc, ?_⟩⟩
    show List.Forall₂ _ cs cs
    refine List.forall₂_same.2 fun c _ => ?_
    intro r g b al h
    simpa using h
  | append_singleton h op ih =>
    obtain ⟨s, t, hs, ht, hst, hp, hq, hcs⟩ := ih
    have ha : ∀ cs : List (List K), after cs (h ++ [op]) = (call (after cs h) op).1 := fun cs => by simp [after]
    by_cases hf : 0 ≤ op.factor ∧ op.factor ≤ 1
    · have hcount : counted (h ++ [op]) = counted h ++ [op] := by simp [counted, hf.1, hf.2]
      have hcoef : 0 ≤ op.coef.1 ∧ 0 ≤ op.coef.2 ∧ op.coef.1 + op.coef.2 ≤ 1 := by
        cases op with
        | tint f => exact ⟨sub_nonneg.2 hf.2, hf.1, by simp [Op.coef]⟩
        | shade f => exact ⟨hf.1, le_rfl, by simpa [Op.coef, Op.factor] using hf.2⟩
      have hsum : op.coef.1 * s + (op.coef.1 * t + op.coef.2) ≤ 1 := by
        have := mul_le_mul_of_nonneg_left hst hcoef.1
        nlinarith [hcoef.2.2]
      refine ⟨op.coef.1 * s, op.coef.1 * t + op.coef.2, mul_nonneg hcoef.1 hs, add_nonneg (mul_nonneg hcoef.1 ht) hcoef.2.1, hsum, ?_, ?_, ?_⟩
      · rw [hcount, List.map_append, List.prod_append, ← hp]
        cases op <;> simp [Op.coef, mul_comm]
      · rw [hcount, List.foldl_append, ← hq]
        cases op
        · simp only [List.foldl_cons, List.foldl_nil, Op.coef]; ring
        · simp only [List.foldl_cons, List.foldl_nil, Op.coef]; ring
      · intro cs hc
        obtain ⟨h1, h2⟩ := hcs cs hc
        rw [ha]
        obtain ⟨-, h3⟩ := call_good (after cs h) h1 op hf.1 hf.2
        have h4 : List.Forall₂ (Affine (op.coef.1 * s) (op.coef.1 * t + op.coef.2)) cs (call (after cs h) op).1 := by
          generalize after cs h = m at h1 h2 h3
          generalize (call m op).1 = o at h3
          clear ha hc
          induction h2 generalizing o with
          | nil => cases h3; exact .nil
          | @cons c d cs ds hcd hrest ih =>
            cases h3 with
            | @cons _ e _ es hde hrest' =>
              refine .cons ?_ (ih (fun x hx => h1 x (by simp [hx])) es hrest')
              intro r g b al hc
              have := hde _ _ _ _ (hcd r g b al hc)
              rw [this]
              congr 1
              congr 1
              · ring
              · congr 1
                · ring
                · congr 1
                  ring
        refine ⟨fun d hd => ?_, h4⟩
        obtain ⟨c, hcm, hcd⟩ : ∃ c ∈ cs, Affine (op.coef.1 * s) (op.coef.1 * t + op.coef.2) c d := by
          clear h1 h2 h3 ha hc
          generalize (call (after cs h) op).1 = o at h4 hd
          generalize op.coef.1 * s = S at h4 ⊢
          generalize op.coef.1 * t + op.coef.2 = T at h4 ⊢
          clear hcs
          induction h4 with
          | nil => cases hd
          | @cons c e cs es hce _ ih =>
            rcases List.mem_cons.1 hd with rfl | hd
            · exact ⟨c, by simp, hce⟩
            · obtain ⟨c', h1, h2⟩ := ih hd
              exact ⟨c', by simp [h1], h2⟩
        obtain ⟨r, g, b, al, rfl, hv⟩ := hc c hcm
        rw [hcd r g b al rfl]
        refine ⟨_, _, _, al, rfl, ?_⟩
        have hS : 0 ≤ op.coef.1 * s := mul_nonneg hcoef.1 hs
        have hT : 0 ≤ op.coef.1 * t + op.coef.2 := add_nonneg (mul_nonneg hcoef.1 ht) hcoef.2.1
        have key : ∀ v, 0 ≤ v ∧ v ≤ 1 → 0 ≤ op.coef.1 * s * v + (op.coef.1 * t + op.coef.2) ∧
            op.coef.1 * s * v + (op.coef.1 * t + op.coef.2) ≤ 1 := fun v ⟨v0, v1⟩ =>
          ⟨add_nonneg (mul_nonneg hS v0) hT, by have := mul_le_mul_of_nonneg_left v1 hS; linarith⟩
        simp only [List.mem_cons, List.not_mem_nil, or_false] at hv ⊢
        rintro v (rfl | rfl | rfl)
        · exact key _ (hv r (by simp))
        · exact key _ (hv g (by simp))
        · exact key _ (hv b (by simp))
    · have hcount : counted (h ++ [op]) = counted h := by
        rw [counted, List.filter_append]
        have : ([op].filter fun op => decide (0 ≤ op.factor) && decide (op.factor ≤ 1)) = [] := by
          simp only [List.filter_cons, List.filter_nil]
          rw [if_neg]
          simpa using fun h => not_le.1 fun h' => hf ⟨h, h'⟩
        rw [this, List.append_nil]; rfl
      refine ⟨s, t, hs, ht, hst, by rw [hcount]; exact hp, by rw [hcount]; exact hq, fun cs hc => ?_⟩
      obtain ⟨h1, h2⟩ := hcs cs hc
      have : (call (after cs h) op).1 = after cs h := by
        have hf' : op.factor < 0 ∨ 1 < op.factor := by
          by_contra hcon
          push Not at hcon
          exact hf hcon
        by_cases hn : after cs h = []
        · rw [hn]; cases op <;> rfl
        · obtain ⟨i1, i2⟩ := C247_refused (after cs h) h1 op
          exact (i2 (i1.2 ⟨hn, hf'⟩)).2
      rw [ha, this]
      exact ⟨h1, h2⟩

end

/-- Turquoise-like colours shaded, a refused call, then tinted. -/
example : after [[(2 / 5 : ℚ), 3 / 4, 1 / 2], [1, 0, 1, 1 / 3]] [.shade (4 / 5), .shade 2, .tint (1 / 2)] =
    [[33 / 50, 4 / 5, 7 / 10], [9 / 10, 1 / 2, 9 / 10, 1 / 3]] := by decide +kernel

example : IsColor ([1, 0, 1, 1 / 3] : List ℚ) := ⟨1, 0, 1, some (1 / 3), rfl, by simp⟩

/-! ## C248 -/

theorem draws_spec {G α : Type} (one : G → Except PyErr (α × G)) (P : α → Prop) (n : ℕ) (g : G) (h : ∀ g, ∃ a g', one g = .ok (a, g') ∧ P a) :
    ∃ l g', draws one n g = .ok (l, g') ∧ l.length = n ∧ ∀ a ∈ l, P a := by
  induction n generalizing g with
  | zero => exact ⟨[], g, rfl, rfl, by simp⟩
  | succ n ih =>
    obtain ⟨a, g1, ha, hp⟩ := h g
    obtain ⟨l, g2, hl, hn, hP⟩ := ih g1
    exact ⟨a :: l, g2, by simp [draws, ha, hl], by simp [hn], by simpa using ⟨hp, hP⟩⟩

/-- **C248** an integer `m ≥ 0` with a random start: every line gets spacing `m` and a first marker between point 0 and point `m` inclusive. -/
theorem C248_int {G V : Type} (R : Rng G) (hR : R.Ok) (floatOk : Bool) (n : ℕ) (m : ℤ) (hm : 0 ≤ m) (seed : Option ℤ) (g : G) :
    ∃ l g', markEvery (V := V) R floatOk n (.int m) true seed g = .ok (l, g') ∧ l.length = n ∧
      ∀ a ∈ l, ∃ start, a = some (.fromInt start m) ∧ 0 ≤ start ∧ start ≤ m := by
  obtain ⟨l, g', h, hn, hP⟩ := draws_spec
    (fun g => if m < 0 then .error .valueError else .ok (some (Setting.fromInt (V := V) (R.randint m g).1 m), (R.randint m g).2))
    (fun a => ∃ start, a = some (.fromInt start m) ∧ 0 ≤ start ∧ start ≤ m) n (seed.elim g R.seed)
    (fun g => ⟨_, _, by rw [if_neg (not_lt.2 hm)], _, rfl, hR.int m g hm⟩)
  refine ⟨l, g', ?_, hn, hP⟩
  unfold markEvery
  simp only [if_true, h]

/-- **C248** a negative integer with a random start and a line to mark raises `ValueError` before any line is touched. -/
theorem C248_negative {G V : Type} (R : Rng G) (floatOk : Bool) (n : ℕ) (hn : 0 < n) (m : ℤ) (hm : m < 0) (seed : Option ℤ) (g : G) :
    markEvery (V := V) R floatOk n (.int m) true seed g = .error .valueError := by
  obtain ⟨k, rfl⟩ : ∃ k, n = k + 1 := ⟨n - 1, by omega⟩
  simp [markEvery, draws, hm]

/-- **C248** a number `x ≥ 0` that is not an integer, with a random start: spacing `x` and a start of at least 0 and (for `x > 0`) less than `x`. -/
theorem C248_float {G V : Type} (R : Rng G) (hR : R.Ok) (n : ℕ) (x : ℚ) (hx : 0 ≤ x) (seed : Option ℤ) (g : G) :
    ∃ l g', markEvery (V := V) R true n (.float x) true seed g = .ok (l, g') ∧ l.length = n ∧
      ∀ a ∈ l, ∃ start, a = some (.fromFraction start x) ∧ 0 ≤ start ∧ start ≤ x ∧ (0 < x → start < x) := by
  obtain ⟨l, g', h, hn, hP⟩ := draws_spec
    (fun g => .ok (some (Setting.fromFraction (V := V) ((R.random g).1 * x) x), (R.random g).2))
    (fun a => ∃ start, a = some (.fromFraction start x) ∧ 0 ≤ start ∧ start ≤ x ∧ (0 < x → start < x)) n (seed.elim g R.seed)
    (fun g => ⟨_, _, rfl, _, rfl, mul_nonneg (hR.float g).1 hx, mul_le_of_le_one_left hx (hR.float g).2.le,
      fun h => mul_lt_of_lt_one_left h (hR.float g).2⟩)
  refine ⟨l, g', ?_, hn, hP⟩
  unfold markEvery
  simp only [if_true, h]

/-- **C248** with a seed the outcome does not depend on what was drawn before: the same call gives the same starts. -/
theorem C248_seed {G V : Type} (R : Rng G) (floatOk : Bool) (n : ℕ) (mark : Mark V) (seed : ℤ) (g g' : G) :
    (markEvery R floatOk n mark true (some seed) g).map Prod.fst = (markEvery R floatOk n mark true (some seed) g').map Prod.fst := by
  cases mark with
  | int m => rfl
  | float x => cases floatOk <;> rfl
  | other v => rfl

/-- **C248** without a random start, and for any value that is neither an integer nor a `float` (`None`: a marker at every point), every line
gets the value itself, and no random number is drawn. -/
theorem C248_plain {G V : Type} (R : Rng G) (n : ℕ) (seed : Option ℤ) (g : G) :
    (∀ (floatOk : Bool) (m : ℤ), markEvery (V := V) R floatOk n (.int m) false seed g = .ok (List.replicate n (some (.every m)), g)) ∧
    (∀ x : ℚ, markEvery (V := V) R true n (.float x) false seed g = .ok (List.replicate n (some (.fraction x)), g)) ∧
    ∀ (floatOk r : Bool) (v : V), markEvery R floatOk n (.other v) r seed g = .ok (List.replicate n (some (.other v)), g) :=
  ⟨fun _ _ => rfl, fun _ => rfl, fun _ _ _ => rfl⟩

/-- A small generator. -/
def Ex.rng : Rng ℕ := ⟨fun n => n.toNat, fun m g => (((g * 3 + 1) % (m.toNat + 1) : ℕ), g + 1), fun g => (1 / (g + 2), g + 1)⟩

theorem Ex.rng_ok : Ex.rng.Ok := by
  refine ⟨fun m g hm => ⟨by simp only [Ex.rng]; exact Int.natCast_nonneg _, ?_⟩, fun g => ⟨?_, ?_⟩⟩
  · have h : (g * 3 + 1) % (m.toNat + 1) ≤ m.toNat := Nat.lt_succ_iff.1 (Nat.mod_lt _ (Nat.succ_pos _))
    show (((g * 3 + 1) % (m.toNat + 1) : ℕ) : ℤ) ≤ m
    omega
  · show (0 : ℚ) ≤ 1 / (g + 2); positivity
  · show (1 : ℚ) / (g + 2) < 1
    rw [div_lt_one (by positivity)]
    have : (0 : ℚ) ≤ g := Nat.cast_nonneg g
    linarith

example : (markEvery (V := Unit) Ex.rng true 3 (.int 5) true (some 2) 99).map Prod.fst =
    .ok [some (.fromInt 1 5), some (.fromInt 4 5), some (.fromInt 1 5)] := rfl

end Geotecha.Plot.Palette
