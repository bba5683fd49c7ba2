import Verif.IO.Session
import Mathlib.Data.List.Induction
import Mathlib.Data.List.Forall2
import Mathlib.Tactic.Linarith

/-! # C244–C246 -/

set_option autoImplicit false
set_option linter.unusedVariables false
namespace Geotecha.IO.Sess

/-! ## C244: one input file -/

/-- `n` of the methods were called on the object `a` in the order given, one after the other (`st i` is the state before call `i`); all but the
last returned normally, and `out` says whether the last did and nothing is left to call, or what it raised. -/
def MethodsRun {S O M : Type} (P : Parts S O M) (a : O) (ms : List M) (n : ℕ) (st : ℕ → S) (out : Option Raised) : Prop :=
  n ≤ ms.length ∧ (∀ i (h : i < ms.length), i < n → st (i + 1) = (P.call a ms[i] (st i)).1) ∧
  (∀ i (h : i < ms.length), i + 1 < n → (P.call a ms[i] (st i)).2 = none) ∧
  (out = none → n = ms.length ∧ ∀ i (h : i < ms.length), (P.call a ms[i] (st i)).2 = none) ∧
  (∀ e, out = some e → ∃ (h : n - 1 < ms.length), 0 < n ∧ (P.call a ms[n - 1] (st (n - 1))).2 = some e)

theorem callAll_spec {S O M : Type} (P : Parts S O M) (a : O) (ms : List M) (s : S) :
    ∃ n st, st 0 = s ∧ st n = (callAll P a ms s).1 ∧ (callAll P a ms s).2.1 = (ms.take n).map Ev.called ∧
      MethodsRun P a ms n st (callAll P a ms s).2.2 := by
  induction ms generalizing s with
  | nil => exact ⟨0, fun _ => s, rfl, rfl, rfl, le_rfl, fun i h => absurd h (by simp), fun i h => absurd h (by simp),
      fun _ => ⟨rfl, fun i h => absurd h (by simp)⟩, fun e h => by cases h⟩
  | cons m ms ih =>
    rcases hc : P.call a m s with ⟨s1, r⟩
    cases r with
    | some e =>
      refine ⟨1, fun i => if i = 0 then s else s1, rfl, by simp [callAll, hc], by simp [callAll, hc], by simp, ?_, ?_, ?_, ?_⟩
      · intro i h hi; obtain rfl : i = 0 := by omega
        simp [hc]
      · intro i h hi; omega
      · intro h; simp [callAll, hc] at h
      · intro e' h
        have : e = e' := by simpa [callAll, hc] using h
        exact ⟨by simp, Nat.one_pos, by simp [hc, this]⟩
    | none =>
      obtain ⟨n, st, h0, hn, hl, h1, h2, h3, h4, h5⟩ := ih s1
      refine ⟨n + 1, fun i => if i = 0 then s else st (i - 1), rfl, by simp [callAll, hc, hn], by simp [callAll, hc, hl], by simpa using h1,
        ?_, ?_, ?_, ?_⟩
      · rintro (_ | i) h hi
        · simp [hc, h0]
        · simpa using h2 i (by simpa using h) (by omega)
      · rintro (_ | i) h hi
        · simp [hc]
        · simpa using h3 i (by simpa using h) (by omega)
      · intro h
        have h' : (callAll P a ms s1).2.2 = none := by simpa [callAll, hc] using h
        refine ⟨by simpa using (h4 h').1, ?_⟩
        rintro (_ | i) hi
        · simp [hc]
        · simpa using (h4 h').2 i (by simpa using hi)
      · intro e h
        have h' : (callAll P a ms s1).2.2 = some e := by simpa [callAll, hc] using h
        obtain ⟨hi, hp, hr⟩ := h5 e h'
        refine ⟨by simp; omega, by omega, ?_⟩
        obtain ⟨k, rfl⟩ : ∃ k, n = k + 1 := ⟨n - 1, by omega⟩
        simpa using hr

/-- **C244** with an open file: the file is opened, the object is made from it, and the file is closed again whether or not that raises; then, with
the file closed, the methods are called on the object one after the other until one raises. What is raised is what `open`, the
constructor or the first raising method raised, and nothing is raised only when the file could be opened, the object made and every method called. -/
theorem C244_open_file {S O M : Type} (P : Parts S O M) (ms : List M) (p : Path) (s : S) :
    (∀ e, (P.openFile p s).2 = some e → process P true ms p s = ((P.openFile p s).1, [], some e)) ∧
    ((P.openFile p s).2 = none →
      (∀ e, (P.obj true p (P.openFile p s).1).2 = .error e →
        process P true ms p s = ((P.obj true p (P.openFile p s).1).1, [.opened p, .built true p, .closed p], some e)) ∧
      ∀ a, (P.obj true p (P.openFile p s).1).2 = .ok a → ∃ n st,
        st 0 = (P.obj true p (P.openFile p s).1).1 ∧ st n = (process P true ms p s).1 ∧
        (process P true ms p s).2.1 = [.opened p, .built true p, .closed p] ++ (ms.take n).map Ev.called ∧
        MethodsRun P a ms n st (process P true ms p s).2.2) := by
  rcases ho : P.openFile p s with ⟨s1, r⟩
  refine ⟨?_, ?_⟩
  · rintro e he
    obtain rfl : r = some e := he
    simp [process, ho]
  · intro hr
    obtain rfl : r = none := hr
    dsimp only
    rcases hb : P.obj true p s1 with ⟨s2, c⟩
    refine ⟨?_, ?_⟩
    · rintro e he
      obtain rfl : c = .error e := he
      simp [process, ho, hb]
    · rintro a ha
      obtain rfl : c = .ok a := ha
      obtain ⟨n, st, h0, hn, hl, hm⟩ := callAll_spec P a ms s2
      exact ⟨n, st, h0, by simp [process, ho, hb, hn], by simp [process, ho, hb, hl], by simpa [process, ho, hb] using hm⟩

/-- **C244** with the path: no file is opened; the object is made from the path and the methods are called in the same way. -/
theorem C244_path {S O M : Type} (P : Parts S O M) (ms : List M) (p : Path) (s : S) :
    (∀ e, (P.obj false p s).2 = .error e → process P false ms p s = ((P.obj false p s).1, [.built false p], some e)) ∧
    ∀ a, (P.obj false p s).2 = .ok a → ∃ n st, st 0 = (P.obj false p s).1 ∧ st n = (process P false ms p s).1 ∧
      (process P false ms p s).2.1 = [.built false p] ++ (ms.take n).map Ev.called ∧ MethodsRun P a ms n st (process P false ms p s).2.2 := by
  rcases hb : P.obj false p s with ⟨s2, c⟩
  refine ⟨?_, ?_⟩
  · rintro e he
    obtain rfl : c = .error e := he
    simp [process, hb]
  · rintro a ha
    obtain rfl : c = .ok a := ha
    obtain ⟨n, st, h0, hn, hl, hm⟩ := callAll_spec P a ms s2
    exact ⟨n, st, h0, by simp [process, hb, hn], by simp [process, hb, hl], by simpa [process, hb] using hm⟩

/-- **C244** every history, every crash point: files are closed as often as they were opened, and whenever a method is called every file that was
opened has been closed. An object that keeps the file to read it later finds it closed. -/
theorem C244_closed {S O M : Type} [DecidableEq M] (P : Parts S O M) (passOpen : Bool) (ms : List M) (p : Path) (s : S) :
    (process P passOpen ms p s).2.1.count (.opened p) = (process P passOpen ms p s).2.1.count (.closed p) ∧
    ∀ pre m post, (process P passOpen ms p s).2.1 = pre ++ .called m :: post → pre.count (.opened p) = pre.count (.closed p) ∧
      .built passOpen p ∈ pre := by
  have tail : ∀ (l : List M), (l.map Ev.called).count (.opened p) = 0 ∧ (l.map Ev.called).count (.closed p) = 0 := by
    intro l; induction l with
    | nil => simp
    | cons m l ih => simpa using ih
  have cut : ∀ (hd : List (Ev M)) (l : List M), (∀ m, Ev.called m ∉ hd) → ∀ pre m post, hd ++ l.map Ev.called = pre ++ .called m :: post →
      ∃ k, pre = hd ++ (l.take k).map Ev.called := by
    intro hd l hh pre m post he
    rcases List.append_eq_append_iff.1 he with ⟨c, h1, h2⟩ | ⟨c, h1, h2⟩
    · refine ⟨c.length, ?_⟩
      rw [h1]
      congr 1
      rw [List.map_take, h2, List.take_left']
      rfl
    · cases c with
      | nil => exact ⟨0, by simpa using h1.symm⟩
      | cons x c =>
        exfalso
        simp only [List.cons_append, List.cons.injEq] at h2
        exact hh m (by rw [h1]; simp [h2.1])
  have key : ∀ (hd : List (Ev M)) (l : List M), (∀ m, Ev.called m ∉ hd) → hd.count (.opened p) = hd.count (.closed p) →
      .built passOpen p ∈ hd → (process P passOpen ms p s).2.1 = hd ++ l.map Ev.called → 
      (process P passOpen ms p s).2.1.count (.opened p) = (process P passOpen ms p s).2.1.count (.closed p) ∧
      ∀ pre m post, (process P passOpen ms p s).2.1 = pre ++ .called m :: post → pre.count (.opened p) = pre.count (.closed p) ∧
        .built passOpen p ∈ pre := by
    intro hd l hh hc hb he
    rw [he]
    refine ⟨by rw [List.count_append, List.count_append, hc, (tail l).1, (tail l).2], ?_⟩
    intro pre m post hp
    obtain ⟨k, rfl⟩ := cut hd l hh pre m post hp
    exact ⟨by rw [List.count_append, List.count_append, hc, (tail _).1, (tail _).2], by simp [hb]⟩
  cases passOpen with
  | true =>
    obtain ⟨h1, h2⟩ := C244_open_file P ms p s
    cases ho : (P.openFile p s).2 with
    | some e => rw [h1 e ho]; simp
    | none =>
      obtain ⟨h3, h4⟩ := h2 ho
      cases hb : (P.obj true p (P.openFile p s).1).2 with
      | error e => exact key [.opened p, .built true p, .closed p] [] (by simp) (by simp [List.count_cons]) (by simp) (by rw [h3 e hb]; rfl)
      | ok a =>
        obtain ⟨n, st, _, _, hl, _⟩ := h4 a hb
        exact key _ _ (by simp) (by simp [List.count_cons]) (by simp) hl
  | false =>
    obtain ⟨h3, h4⟩ := C244_path P ms p s
    cases hb : (P.obj false p s).2 with
    | error e => exact key [.built false p] [] (by simp) (by simp [List.count_cons]) (by simp) (by rw [h3 e hb]; rfl)
    | ok a =>
      obtain ⟨n, st, _, _, hl, _⟩ := h4 a hb
      exact key _ _ (by simp) (by simp [List.count_cons]) (by simp) hl

/-- An object that is made, then `make_all` raises: the third method is not called. -/
def Ex.parts : Parts ℕ Unit String where
  openFile _ s := (s, none)
  obj _ _ s := (s + 1, .ok ())
  call _ m s := if m = "make_all" then (s, some (.exn .valueError)) else (s + 10, none)

example : process Ex.parts true ["check", "make_all", "report"] ["a", "in.py"] 0 =
    (11, [.opened ["a", "in.py"], .built true ["a", "in.py"], .closed ["a", "in.py"], .called "check", .called "make_all"], some (.exn .valueError)) := rfl

/-! ## C245: the timer -/

/-- In the history `h` (latest call last) the latest `start` of level `i` was at clock reading `s` with message `m`. -/
def LastStart (h : List TCall) (i : ℤ) (s : ℝ) (m : Option String) : Prop :=
  ∃ before rest, h = before ++ .start i m s :: rest ∧ ∀ m' s', TCall.start i m' s' ∉ rest

theorem timer_state (h : List TCall) (i : ℤ) :
    (∀ s m, LastStart h i s m → (Timer.after h).starts i = some s ∧ (Timer.after h).msgs i = some (title i m)) ∧
    ((∀ m s, TCall.start i m s ∉ h) → (Timer.after h).starts i = none ∧ (Timer.after h).msgs i = none) := by
  induction h using List.reverseRecOn with
  | nil => exact ⟨by rintro s m ⟨b, r, hb, _⟩; simp at hb, fun _ => ⟨rfl, rfl⟩⟩
  | append_singleton h c ih =>
    have hs : Timer.after (h ++ [c]) = (Timer.after h).step c := by simp [Timer.after]
    rw [hs]
    refine ⟨?_, ?_⟩
    · rintro s m ⟨b, r, hb, hr⟩
      rcases List.eq_nil_or_concat r with rfl | ⟨r', c', rfl⟩
      · have hb' : h ++ [c] = b ++ [.start i m s] := hb
        obtain ⟨rfl, hc⟩ := List.append_inj' hb' rfl
        obtain rfl : c = .start i m s := by simpa using hc
        exact ⟨by simp [Timer.step, Timer.start, put], by simp [Timer.step, Timer.start, put]⟩
      · have hb' : h ++ [c] = (b ++ .start i m s :: r') ++ [c'] := by simpa using hb
        obtain ⟨rfl, hc⟩ := List.append_inj' hb' rfl
        obtain rfl : c = c' := by simpa using hc
        obtain ⟨i1, i2⟩ := ih.1 s m ⟨b, r', rfl, fun m' s' hm => hr m' s' (by simp [hm])⟩
        cases c with
        | finish j now => exact ⟨i1, i2⟩
        | start j m' now =>
          have hj : i ≠ j := by rintro rfl; exact hr m' now (by simp)
          exact ⟨by simpa [Timer.step, Timer.start, put, hj] using i1, by simpa [Timer.step, Timer.start, put, hj] using i2⟩
    · intro hn
      obtain ⟨i1, i2⟩ := ih.2 fun m s hm => hn m s (by simp [hm])
      cases c with
      | finish j now => exact ⟨i1, i2⟩
      | start j m' now =>
        have hj : i ≠ j := by rintro rfl; exact hn m' now (by simp)
        exact ⟨by simpa [Timer.step, Timer.start, put, hj] using i1, by simpa [Timer.step, Timer.start, put, hj] using i2⟩

/-- **C245** after any history of calls, `finish(i)` reports the time since the latest `start(i)`, under the title given there, whatever happened at
other levels and however often the level was finished before; a row of asterisks follows at level 0 only. -/
theorem C245_elapsed (h : List TCall) (i : ℤ) (s : ℝ) (m : Option String) (hl : LastStart h i s m) (now : ℝ) :
    ((Timer.after h).finish i now).2 =
      .ok (.finished (2 * i.toNat) (m.getD ("Level " ++ toString i)) (now - s) :: if i = 0 then [.stars] else []) := by
  obtain ⟨h1, h2⟩ := (timer_state h i).1 s m hl
  simp [Timer.finish, h1, h2, title]

/-- **C245** with a clock that does not run backwards no run time is negative. -/
theorem C245_nonneg (h : List TCall) (i : ℤ) (s : ℝ) (m : Option String) (hl : LastStart h i s m) (now : ℝ)
    (hclock : ∀ j m' s', TCall.start j m' s' ∈ h → s' ≤ now) : 0 ≤ now - s := by
  obtain ⟨b, r, rfl, _⟩ := hl
  linarith [hclock i m s (by simp)]

/-- **C245** finishing a level that was never started raises `KeyError` and prints nothing; the end time is stored all the same, and the level can be
started and finished later. -/
theorem C245_not_started (h : List TCall) (i : ℤ) (hn : ∀ m s, TCall.start i m s ∉ h) (now : ℝ) :
    ((Timer.after h).finish i now).2 = .error .keyError ∧ ((Timer.after h).finish i now).1.ends i = some now := by
  obtain ⟨h1, h2⟩ := (timer_state h i).2 hn
  exact ⟨by simp [Timer.finish, h1], by simp [Timer.finish, put]⟩

/-- **C245** `start` prints its title under the indent of its level, after a row of asterisks at level 0. -/
theorem C245_started (t : Timer) (i : ℤ) (msg : Option String) (now : ℝ) :
    (t.start i msg now).2 = (if i = 0 then [Line.stars] else []) ++ [.started (2 * i.toNat) (msg.getD ("Level " ++ toString i))] := rfl

/-- Level 1 inside level 0; level 1 restarted. -/
example : ((Timer.after [.start 0 (some "run") 0, .start 1 none 2, .finish 1 3, .start 1 (some "again") 4]).finish 1 7).2 =
    .ok [.finished 2 "again" (7 - 4)] :=
  C245_elapsed _ 1 4 (some "again") ⟨[.start 0 (some "run") 0, .start 1 none 2, .finish 1 3], [], rfl, by simp⟩ 7

/-! ## C246: the printing of arrays -/

/-- Who prints arrays after a history of calls: the object of the latest `turn_on`, unless a `turn_off` (of any object) came later. -/
def Prints (h : List PCall) : Option ℕ → Prop
  | some k => ∃ before rest, h = before ++ .on k :: rest ∧ (∀ j, PCall.on j ∉ rest) ∧ PCall.off ∉ rest
  | none => (∃ before rest, h = before ++ .off :: rest ∧ ∀ j, PCall.on j ∉ rest) ∨ ∀ j, PCall.on j ∉ h

/-- **C246** after any history of calls on any number of objects (starting from numpy's printing), `str` of an array is numpy's own text when nobody
prints, and otherwise the `prefix` the printing object has now, followed by the `repr` of the array. -/
theorem C246_history (s : Printing) (h0 : s.hook = none) (h : List PCall) (who : Option ℕ) (hw : Prints h who) (a : Arr) :
    (h.foldl Printing.step s).show a = match who with
      | none => a.str
      | some k => (h.foldl Printing.step s).prefix_ k ++ a.repr := by
  have keep : ∀ (rest : List PCall) (s : Printing), (∀ j, PCall.on j ∉ rest) → PCall.off ∉ rest → (rest.foldl Printing.step s).hook = s.hook := by
    intro rest
    induction rest with
    | nil => intro s _ _; rfl
    | cons c rest ih =>
      intro s h1 h2
      rw [List.foldl_cons, ih _ (fun j hj => h1 j (by simp [hj])) (fun hj => h2 (by simp [hj]))]
      cases c with
      | make k p => rfl
      | assign k p => rfl
      | on k => exact absurd (by simp) (h1 k)
      | off => exact absurd (by simp) h2
  have off : ∀ (rest : List PCall) (s : Printing), s.hook = none → (∀ j, PCall.on j ∉ rest) → (rest.foldl Printing.step s).hook = none := by
    intro rest
    induction rest with
    | nil => intro s hs _; exact hs
    | cons c rest ih =>
      intro s hs h1
      rw [List.foldl_cons]
      refine ih _ ?_ fun j hj => h1 j (by simp [hj])
      cases c with
      | make k p => exact hs
      | assign k p => exact hs
      | on k => exact absurd (by simp) (h1 k)
      | off => rfl
  have hk : (h.foldl Printing.step s).hook = who := by
    cases who with
    | some k =>
      obtain ⟨b, r, rfl, h1, h2⟩ := hw
      rw [List.foldl_append, List.foldl_cons, keep r _ h1 h2]
      rfl
    | none =>
      rcases hw with ⟨b, r, rfl, h1⟩ | h1
      · rw [List.foldl_append, List.foldl_cons]
        exact off r _ rfl h1
      · exact off h s h0 h1
  cases who with
  | none => simp [Printing.show, hk]
  | some k => simp [Printing.show, hk]

/-- **C246** the `prefix` of an object is the one it was made with or last assigned. -/
theorem C246_prefix (s : Printing) (b rest : List PCall) (k : ℕ) (p : String) (c : PCall) (hc : c = .make k p ∨ c = .assign k p)
    (hr : ∀ q, PCall.make k q ∉ rest ∧ PCall.assign k q ∉ rest) : ((b ++ c :: rest).foldl Printing.step s).prefix_ k = p := by
  have keep : ∀ (rest : List PCall) (s : Printing), (∀ q, PCall.make k q ∉ rest ∧ PCall.assign k q ∉ rest) →
      (rest.foldl Printing.step s).prefix_ k = s.prefix_ k := by
    intro rest
    induction rest with
    | nil => intro s _; rfl
    | cons c rest ih =>
      intro s h1
      rw [List.foldl_cons, ih _ fun q => ⟨fun hq => (h1 q).1 (by simp [hq]), fun hq => (h1 q).2 (by simp [hq])⟩]
      cases c with
      | make j q =>
        have hj : k ≠ j := by rintro rfl; exact (h1 q).1 (by simp)
        simp [Printing.step, Printing.make, hj]
      | assign j q =>
        have hj : k ≠ j := by rintro rfl; exact (h1 q).2 (by simp)
        simp [Printing.step, Printing.make, hj]
      | on j => rfl
      | off => rfl
  rw [List.foldl_append, List.foldl_cons, keep rest _ hr]
  rcases hc with rfl | rfl <;> simp [Printing.step, Printing.make]

/-- **C246** `string_of_object_attributes`: when every attribute can be written, each was written with the prefix asked for in front of arrays, and
afterwards arrays print as numpy prints them: also when the caller had a prefix turned on before, which is lost. -/
theorem C246_attributes_done {A : Type} (line : Printing → A → Except Exn String) (k : ℕ) (pre : Option String) (attrs : List A) (s : Printing)
    (ls : List String) (h : (stringOfAttributes line k pre attrs s).2 = .ok ls) (a : Arr) :
    (stringOfAttributes line k pre attrs s).1.show a = a.str ∧
    List.Forall₂ (fun x l => ∃ w : Printing, (∀ b, w.show b = pre.getD "" ++ b.repr) ∧ line w x = .ok l) attrs ls := by
  have hr : ∀ (attrs : List A) (w : Printing) (ls : List String), renderAll line w attrs = .ok ls →
      List.Forall₂ (fun x l => line w x = .ok l) attrs ls := by
    intro attrs
    induction attrs with
    | nil => intro w ls h; obtain rfl : [] = ls := by simpa [renderAll] using h
             exact .nil
    | cons x xs ih =>
      intro w ls h
      unfold renderAll at h
      cases h1 : line w x with
      | error e => rw [h1] at h; cases h
      | ok l =>
        rw [h1] at h
        cases h2 : renderAll line w xs with
        | error e => rw [h2] at h; cases h
        | ok l2 =>
          rw [h2] at h
          obtain rfl : l :: l2 = ls := by simpa using h
          exact .cons h1 (ih w l2 h2)
  unfold stringOfAttributes at h ⊢
  dsimp only at h ⊢
  cases h1 : renderAll line ((s.make k (pre.getD "")).on k) attrs with
  | error e => rw [h1] at h; cases h
  | ok l2 =>
    rw [h1] at h
    obtain rfl : l2 = ls := by simpa using h
    refine ⟨rfl, ?_⟩
    refine (hr attrs _ l2 h1).imp ?_
    intro x l hx
    exact ⟨_, fun b => by simp [Printing.show, Printing.on, Printing.make], hx⟩

/-- **C246** the crash point: when writing an attribute raises, arrays keep printing with the prefix for the rest of the session. -/
theorem C246_attributes_raise {A : Type} (line : Printing → A → Except Exn String) (k : ℕ) (pre : Option String) (attrs : List A) (s : Printing)
    (e : Exn) (h : (stringOfAttributes line k pre attrs s).2 = .error e) (a : Arr) :
    (stringOfAttributes line k pre attrs s).1.show a = pre.getD "" ++ a.repr := by
  unfold stringOfAttributes at h ⊢
  dsimp only at h ⊢
  cases h1 : renderAll line ((s.make k (pre.getD "")).on k) attrs with
  | ok l => rw [h1] at h; cases h
  | error e' => show Printing.show _ a = _; simp [Printing.show, Printing.on, Printing.make]

/-- Attributes are arrays; the second cannot be written. -/
def Ex.line (w : Printing) (x : Option Arr) : Except Exn String := match x with
  | some a => .ok (w.show a)
  | none => .error .typeError

example : (stringOfAttributes Ex.line 7 (some "np.") [some ⟨"[1 2]", "array([1, 2])"⟩] ⟨some 3, fun _ => "numpy."⟩).2 = .ok ["np.array([1, 2])"] := rfl
example : (stringOfAttributes Ex.line 7 (some "np.") [some ⟨"[1 2]", "array([1, 2])"⟩] ⟨some 3, fun _ => "numpy."⟩).1.show ⟨"[1]", "array([1])"⟩ = "[1]" := rfl
example : (stringOfAttributes Ex.line 7 (some "np.") [some ⟨"[1 2]", "array([1, 2])"⟩, none] ⟨none, fun _ => ""⟩).2 = .error .typeError := rfl
example : Prints [.make 1 "np.", .on 1, .make 2 "numpy.", .on 2, .assign 2 "N."] (some 2) :=
  ⟨[.make 1 "np.", .on 1, .make 2 "numpy."], [.assign 2 "N."], rfl, by simp, by simp⟩

end Geotecha.IO.Sess
