import Verif.Plot.Demo
import Mathlib.Tactic.Linarith
import Mathlib.Tactic.Ring
import Mathlib.Tactic.NormNum

/-! # Properties of the labels of subplots and the sheets of styles: C259 -/

set_option autoImplicit false
set_option linter.unusedVariables false

namespace Geotecha.Plot.Demo
open Geotecha (PyErr)

/-- Specification: the label with number `k` in a list of labels in which `None` leaves one out. -/
def labelAt (l : Option (List (Option String))) (k : ℕ) : Option String := (l.getD [])[k]?.join

/-- Specification: some label is meant for a subplot that is not there. -/
def Beyond (l : Option (List (Option String))) (n : ℕ) : Prop := ∃ k s, labelAt l k = some s ∧ n ≤ k

theorem setLabels_spec (put : Axes → String → Axes) : ∀ (l : List (Option String)) (i : ℕ) (axs : List Axes),
    (setLabels put i l axs).2.length = axs.length ∧
    (∀ k a, axs[k]? = some a → (setLabels put i l axs).2[k]? = some (if i ≤ k then (match l[k - i]?.join with | some s => put a s | none => a) else a)) ∧
    ((setLabels put i l axs).1 = none ∨ (setLabels put i l axs).1 = some .indexError) ∧
    ((setLabels put i l axs).1 = some .indexError ↔ ∃ k s, l[k]? = some (some s) ∧ axs.length ≤ i + k)
  | [], i, axs => ⟨rfl, fun k a h => by simp [setLabels, h], Or.inl rfl, by simp [setLabels]⟩
  | none :: r, i, axs => by
    obtain ⟨h1, h2, h3, h4⟩ := setLabels_spec put r (i + 1) axs
    refine ⟨h1, fun k a h => ?_, h3, ?_⟩
    · show (setLabels put (i + 1) r axs).2[k]? = _
      rw [h2 k a h]
      congr 1
      rcases lt_trichotomy k i with hk | rfl | hk
      · rw [if_neg (by omega), if_neg (by omega)]
      · rw [if_neg (by omega), if_pos le_rfl, Nat.sub_self]; rfl
      · rw [if_pos (by omega), if_pos (by omega)]
        obtain ⟨m, rfl⟩ : ∃ m, k = i + 1 + m := ⟨k - i - 1, by omega⟩
        rw [show i + 1 + m - (i + 1) = m by omega, show i + 1 + m - i = m + 1 by omega, List.getElem?_cons_succ]
    · show (setLabels put (i + 1) r axs).1 = _ ↔ _
      rw [h4]
      constructor
      · rintro ⟨k, s, a, b⟩; exact ⟨k + 1, s, by simpa using a, by omega⟩
      · rintro ⟨k, s, a, b⟩
        cases k with
        | zero => simp at a
        | succ k => exact ⟨k, s, by simpa using a, by omega⟩
  | some s :: r, i, axs => by
    cases hi : axs[i]? with
    | none =>
      have hle : axs.length ≤ i := by simpa using hi
      have e : setLabels put i (some s :: r) axs = (some .indexError, axs) := by simp [setLabels, hi]
      rw [e]
      refine ⟨rfl, fun k a h => ?_, Or.inr rfl, ?_⟩
      · have : k < axs.length := by
          by_contra hc
          rw [List.getElem?_eq_none (by omega)] at h; cases h
        rw [if_neg (by omega)]; exact h
      · simp only [true_iff]
        exact ⟨0, s, rfl, by omega⟩
    | some b =>
      have hlt : i < axs.length := by
        by_contra hc
        rw [List.getElem?_eq_none (by omega)] at hi; cases hi
      have e : setLabels put i (some s :: r) axs = setLabels put (i + 1) r (axs.set i (put b s)) := by
        conv_lhs => unfold setLabels
        rw [hi]
      obtain ⟨h1, h2, h3, h4⟩ := setLabels_spec put r (i + 1) (axs.set i (put b s))
      rw [e]
      rw [List.length_set] at h1 h4
      refine ⟨h1, fun k a h => ?_, h3, ?_⟩
      · rcases lt_trichotomy k i with hk | rfl | hk
        · rw [h2 k a (by rw [List.getElem?_set_ne (by omega)]; exact h), if_neg (by omega), if_neg (by omega)]
        · rw [hi] at h; cases h
          rw [h2 k (put b s) (by rw [List.getElem?_set_self hlt]), if_neg (by omega), if_pos le_rfl, Nat.sub_self]
          rfl
        · rw [h2 k a (by rw [List.getElem?_set_ne (by omega)]; exact h), if_pos (by omega), if_pos (by omega)]
          obtain ⟨m, rfl⟩ : ∃ m, k = i + 1 + m := ⟨k - i - 1, by omega⟩
          rw [show i + 1 + m - (i + 1) = m by omega, show i + 1 + m - i = m + 1 by omega, List.getElem?_cons_succ]
      · rw [h4]
        constructor
        · rintro ⟨k, s, a, b⟩; exact ⟨k + 1, s, by simpa using a, by omega⟩
        · rintro ⟨k, s, a, b⟩
          cases k with
          | zero => omega
          | succ k => exact ⟨k, s, by simpa using a, by omega⟩

theorem join_some {α : Type} (o : Option (Option α)) (s : α) : o.join = some s ↔ o = some (some s) := by
  cases o with
  | none => simp
  | some v => simp [Option.join]

theorem beyond_iff (l : List (Option String)) (n : ℕ) : (∃ k s, l[k]? = some (some s) ∧ n ≤ 0 + k) ↔ Beyond (some l) n := by
  unfold Beyond labelAt
  simp only [Option.getD_some, join_some, Nat.zero_add]

/-- **C259**: `xylabel_subplots` never adds or removes a subplot and raises nothing but `IndexError`, exactly if a label (not `None`) is meant for a subplot that
is not there.  Whether it raises or not, every subplot for which the list of y-axis labels has a label gets it and all others keep theirs; so it is for the
x-axis labels, except that none of them is set if a y-axis label was for a subplot that is not there. -/
theorem C259_labels (axs : List Axes) (y x : Option (List (Option String))) :
    (xylabelSubplots axs y x).2.length = axs.length ∧
    ((xylabelSubplots axs y x).1 = none ∨ (xylabelSubplots axs y x).1 = some .indexError) ∧
    ((xylabelSubplots axs y x).1 = some .indexError ↔ Beyond y axs.length ∨ Beyond x axs.length) ∧
    (∀ k a, axs[k]? = some a → ∃ b, (xylabelSubplots axs y x).2[k]? = some b ∧ b.ylabel = (labelAt y k).getD a.ylabel ∧
      (¬ Beyond y axs.length → b.xlabel = (labelAt x k).getD a.xlabel) ∧ (Beyond y axs.length → b.xlabel = a.xlabel)) := by
  -- the first loop
  obtain ⟨e1, w, hw, hlen, h1, h2, h3⟩ : ∃ e w, setGiven (fun a s => { a with ylabel := s }) y axs = (e, w) ∧
      w.length = axs.length ∧ (e = none ∨ e = some .indexError) ∧ (e = some .indexError ↔ Beyond y axs.length) ∧
      ∀ k a, axs[k]? = some a → ∃ b, w[k]? = some b ∧ b.ylabel = (labelAt y k).getD a.ylabel ∧ b.xlabel = a.xlabel := by
    cases y with
    | none => exact ⟨none, axs, rfl, rfl, Or.inl rfl, by simp [Beyond, labelAt], fun k a h => ⟨a, h, by simp [labelAt], rfl⟩⟩
    | some l =>
      obtain ⟨a1, a2, a3, a4⟩ := setLabels_spec (fun a s => { a with ylabel := s }) l 0 axs
      refine ⟨_, _, rfl, a1, a3, a4.trans (beyond_iff l _), fun k a h => ⟨_, a2 k a h, ?_⟩⟩
      rw [if_pos (Nat.zero_le _)]
      simp only [Nat.sub_zero, labelAt, Option.getD_some]
      cases l[k]?.join <;> exact ⟨rfl, rfl⟩
  unfold xylabelSubplots
  rw [hw]
  rcases h1 with rfl | rfl
  · have hy : ¬ Beyond y axs.length := fun h => by cases h2.2 h
    cases x with
    | none =>
      refine ⟨hlen, Or.inl rfl, by rw [or_iff_right hy]; simp [Beyond, labelAt, setGiven], fun k a h => ?_⟩
      obtain ⟨b, b1, b2, b3⟩ := h3 k a h
      exact ⟨b, b1, b2, fun _ => by rw [b3]; simp [labelAt], fun h => absurd h hy⟩
    | some l =>
      obtain ⟨a1, a2, a3, a4⟩ := setLabels_spec (fun a s => { a with xlabel := s }) l 0 w
      refine ⟨a1.trans hlen, a3, ?_, fun k a h => ?_⟩
      · have a4' := a4.trans (beyond_iff l _)
        rw [hlen] at a4'
        simp only [hy, false_or]
        exact a4'
      · obtain ⟨b, b1, b2, b3⟩ := h3 k a h
        refine ⟨_, a2 k b b1, ?_⟩
        rw [if_pos (Nat.zero_le _)]
        simp only [Nat.sub_zero, labelAt, Option.getD_some] at b2 ⊢
        cases l[k]?.join <;> exact ⟨b2, fun _ => by simp [b3], fun h => absurd h hy⟩
  · have hy : Beyond y axs.length := h2.1 rfl
    refine ⟨hlen, Or.inr rfl, by simp [hy], fun k a h => ?_⟩
    obtain ⟨b, b1, b2, b3⟩ := h3 k a h
    exact ⟨b, b1, b2, fun hn => absurd hy hn, fun _ => b3⟩

/-- Specification: a sheet shows every item of a list exactly once, in order and numbered from 0, inside the limits of the axes, and no two samples (with the
lines they consist of, from `(x, y)` to `(x + 1, y + 0.3)`) touch. -/
structure ShowsAll {σ : Type} (l : List σ) (sh : Sheet σ) : Prop where
  items : sh.samples.map Sample.style = l
  numbers : sh.samples.map Sample.number = List.range l.length
  inside : ∀ p ∈ sh.samples, ∃ x0 x1 y0 y1 : ℚ, sh.limits = some ((x0, x1), (y0, y1)) ∧ x0 ≤ p.x ∧ (p.x : ℚ) + 1 ≤ x1 ∧ y0 ≤ p.y ∧ (p.y : ℚ) + 0.3 ≤ y1
  apart : ∀ p ∈ sh.samples, ∀ q ∈ sh.samples, p.number ≠ q.number → ¬ ∃ s t : ℚ, 0 ≤ s ∧ s ≤ 1 ∧ 0 ≤ t ∧ t ≤ 1 ∧ (p.x : ℚ) + s = q.x + t ∧ (p.y : ℚ) + 0.3 * s = q.y + 0.3 * t

theorem near_nat {a b : ℕ} {d : ℚ} (h : (a : ℚ) = b + d) (h0 : -1 < d) (h1 : d < 1) : a = b := by
  have u : (a : ℚ) < ((b + 1 : ℕ) : ℚ) := by push_cast; linarith
  have v : (b : ℚ) < ((a + 1 : ℕ) : ℚ) := by push_cast; linarith
  have := Nat.cast_lt.1 u
  have := Nat.cast_lt.1 v
  omega

theorem mem_idx {σ : Type} (l : List σ) (f : ℕ → σ → Sample σ) {p : Sample σ} (h : p ∈ l.mapIdx f) : ∃ i s, i < l.length ∧ p = f i s := by
  obtain ⟨i, hi, rfl⟩ := List.mem_mapIdx.1 h
  exact ⟨i, _, hi, rfl⟩

theorem map_style {σ : Type} (l : List σ) (x y : ℕ → ℕ) : ((l.mapIdx fun i s => (⟨x i, y i, s, i⟩ : Sample σ)).map Sample.style) = l := by
  refine List.ext_getElem? fun i => ?_
  simp only [List.getElem?_map, List.getElem?_mapIdx, Option.map_map]
  cases l[i]? <;> rfl

theorem map_number {σ : Type} (l : List σ) (x y : ℕ → ℕ) : ((l.mapIdx fun i s => (⟨x i, y i, s, i⟩ : Sample σ)).map Sample.number) = List.range l.length := by
  refine List.ext_getElem (by simp) fun i h1 h2 => by simp

theorem grid_shows {σ : Type} (l : List σ) :
    ShowsAll l ⟨false, l.mapIdx fun i s => ⟨(i % 5) * 2, i / 5, s, i⟩, some ((-1, 11), (-1, (((l.length - 1) / 5 : ℕ) : ℚ) + 1))⟩ where
  items := map_style l _ _
  numbers := map_number l _ _
  inside := fun p hp => by
    obtain ⟨i, s, hi, rfl⟩ := mem_idx _ _ hp
    have a : ((i % 5 * 2 : ℕ) : ℚ) ≤ 8 := by
      have : i % 5 * 2 ≤ 8 := by omega
      exact_mod_cast this
    have b : ((i / 5 : ℕ) : ℚ) ≤ (((l.length - 1) / 5 : ℕ) : ℚ) := by
      have : i / 5 ≤ (l.length - 1) / 5 := Nat.div_le_div_right (by omega)
      exact_mod_cast this
    have c : (0:ℚ) ≤ ((i % 5 * 2 : ℕ) : ℚ) := Nat.cast_nonneg _
    have d : (0:ℚ) ≤ ((i / 5 : ℕ) : ℚ) := Nat.cast_nonneg _
    refine ⟨-1, 11, -1, _, rfl, ?_, ?_, ?_, ?_⟩ <;> dsimp only <;> linarith
  apart := fun p hp q hq hne => by
    obtain ⟨i, s, hi, rfl⟩ := mem_idx _ _ hp
    obtain ⟨j, s', hj, rfl⟩ := mem_idx _ _ hq
    rintro ⟨u, v, h1, h2, h3, h4, e1, e2⟩
    dsimp only at hne e1 e2
    have y := near_nat (a := i / 5) (b := j / 5) (d := 0.3 * v - 0.3 * u) (by linarith) (by linarith) (by linarith)
    rw [y] at e2
    have uv : u = v := by linarith
    rw [uv] at e1
    have x : i % 5 * 2 = j % 5 * 2 := by
      have : ((i % 5 * 2 : ℕ) : ℚ) = ((j % 5 * 2 : ℕ) : ℚ) := by linarith
      exact_mod_cast this
    omega

/-- **C259**: the sheets of styles, of markers, of dashes and of colours show each item once, in order, with its number, inside the axes, and no two samples touch;
without styles nothing is drawn and the title asks for `construct_styles`. -/
theorem C259_sheets {σ : Type} (l : List σ) :
    (l ≠ [] → (demoStyles l).empty = false ∧ ShowsAll l (demoStyles l)) ∧ (l = [] → (demoStyles l).empty = true ∧ (demoStyles l).samples = []) ∧
    ShowsAll l (demoMarkers l) ∧ ShowsAll l (demoColumn l) := by
  refine ⟨fun h => ?_, fun h => by subst h; exact ⟨rfl, rfl⟩, grid_shows l, ?_⟩
  · have hl : ¬ l.length = 0 := by simpa using h
    unfold demoStyles
    rw [if_neg hl]
    exact ⟨rfl, grid_shows l⟩
  · refine ⟨map_style l _ _, map_number l _ _, fun p hp => ?_, fun p hp q hq hne => ?_⟩
    · obtain ⟨i, s, hi, rfl⟩ := mem_idx _ _ hp
      have b : ((i : ℕ) : ℚ) ≤ ((l.length - 1 : ℕ) : ℚ) := by
        have : i ≤ l.length - 1 := by omega
        exact_mod_cast this
      have c : (0:ℚ) ≤ (i : ℚ) := Nat.cast_nonneg _
      refine ⟨_, _, _, _, rfl, ?_, ?_, ?_, ?_⟩ <;> dsimp only <;> norm_num <;> linarith
    · obtain ⟨i, s, hi, rfl⟩ := mem_idx _ _ hp
      obtain ⟨j, s', hj, rfl⟩ := mem_idx _ _ hq
      rintro ⟨u, v, h1, h2, h3, h4, e1, e2⟩
      dsimp only at hne e1 e2
      exact hne (near_nat (d := 0.3 * v - 0.3 * u) (by linarith) (by linarith) (by linarith))

/-- **C259**: after any history of `construct_styles` calls `demo_styles` shows the styles of the last call that did not raise; if there was none it draws nothing. -/
theorem C259_history (o : MDC) (calls : List Args) :
    ((∀ a ∈ calls, ∃ e, callStyles o a.markers a.dashes a.mcs a.lcs = .error e) → stylesAfter o calls = []) ∧
    ∀ (before : List Args) (a : Args) (after : List Args) (l : List (Dict PVal)), calls = before ++ a :: after → callStyles o a.markers a.dashes a.mcs a.lcs = .ok l →
      (∀ b ∈ after, ∃ e, callStyles o b.markers b.dashes b.mcs b.lcs = .error e) → stylesAfter o calls = l := by
  have keep : ∀ (cs : List Args) (s : List (Dict PVal)), (∀ b ∈ cs, ∃ e, callStyles o b.markers b.dashes b.mcs b.lcs = .error e) →
      cs.foldl (fun s a => (constructStyles o s a).2) s = s := by
    intro cs
    induction cs with
    | nil => exact fun _ _ => rfl
    | cons c cs ih =>
      intro s h
      obtain ⟨e, he⟩ := h c (by simp)
      rw [List.foldl_cons, ih _ fun b hb => h b (by simp [hb])]
      unfold constructStyles
      rw [he]
  refine ⟨fun h => keep _ _ h, ?_⟩
  rintro before a after l rfl ha hb
  unfold stylesAfter
  rw [List.foldl_append, List.foldl_cons, keep _ _ hb]
  unfold constructStyles
  rw [ha]

/-- Three subplots, a label left out, a label too many. -/
example : xylabelSubplots [⟨"a", "b"⟩, ⟨"c", "d"⟩, ⟨"e", "f"⟩] (some [some "y0", none, some "y2"]) (some [none, some "x1", none, none]) =
    (none, [⟨"a", "y0"⟩, ⟨"x1", "d"⟩, ⟨"e", "y2"⟩]) ∧
    (xylabelSubplots [⟨"a", "b"⟩] (some [none, some "y1"]) (some [some "x0"])).1 = some .indexError := ⟨rfl, rfl⟩

example : (demoStyles ["a", "b", "c", "d", "e", "f"]).samples.map (fun p => (p.x, p.y)) = [(0, 0), (2, 0), (4, 0), (6, 0), (8, 0), (0, 1)] ∧
    ShowsAll ["a", "b"] (demoStyles ["a", "b"]) := ⟨rfl, ((C259_sheets ["a", "b"]).1 (by simp)).2⟩

/-- A first call that works, a second one that raises (there is no marker number 99). -/
example : ∃ l, callStyles ⟨.str "k", [[("markeredgecolor", .str "a"), ("markerfacecolor", .str "b")]], [], []⟩ (some [some 0, some 0]) none none none = .ok l ∧
    stylesAfter ⟨.str "k", [[("markeredgecolor", .str "a"), ("markerfacecolor", .str "b")]], [], []⟩
      [⟨some [some 0, some 0], none, none, none⟩, ⟨some [some 99], none, none, none⟩] = l := by
  refine ⟨_, rfl, ?_⟩
  refine (C259_history _ _).2 [] _ _ _ rfl rfl fun b hb => ?_
  rw [List.mem_singleton.1 hb]
  exact ⟨_, rfl⟩

end Geotecha.Plot.Demo
