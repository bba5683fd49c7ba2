import Verif.Piecewise.Model
import Mathlib.Data.Real.Basic
import Mathlib.Algebra.Order.Floor.Ring
import Mathlib.Data.Real.Archimedean
import Mathlib.Logic.Relation
import Mathlib.Tactic.Linarith
import Mathlib.Tactic.NormNum

/-!
# The `timeout` decorator, geotecha/inputoutput/timeout.py

A transition system: the calling process and the process that runs the function take steps in any order, time passes in between.
-/

set_option autoImplicit false
set_option linter.unusedVariables false

namespace Geotecha.IO.Timeout

/-- What the decorated function does in the other process: it returns, raises an `Exception`, raises something that is no `Exception`
(`SystemExit`, `KeyboardInterrupt`), or does not end. -/
inductive Behaviour (V E : Type) where
  | returns (v : V)
  | raises (e : E)
  | escapes
  | diverges

/-- A call: behaviour of the function, and the number of bytes of the pickled pair `(True, result)` or `(False, e)`; `none` when pickling
fails. -/
structure Job (V E : Type) where
  behaviour : Behaviour V E
  pickled : Option ℕ

/-- `now`, `seconds`, `force_kill` of timeout.py:101-108, and the number of bytes that the pipe of the queue takes before it is read. -/
structure Call where
  now : ℝ
  seconds : Option ℝ
  force : Bool
  cap : ℕ

/-- The other process, timeout.py:85-91.  `queued l`: `put` has been called and the feeder thread of the queue still has `l` bytes to write to
the pipe; `dropping`: the feeder thread cannot pickle the pair; `flushed`: the feeder thread has ended.  A process exits only then. -/
inductive Child where
  | running
  | queued (left : ℕ)
  | dropping
  | flushed
  | exited
  | killed
  deriving DecidableEq

/-- `proc.is_alive()`. -/
def Child.alive : Child → Bool
  | .exited => false
  | .killed => false
  | _ => true

/-- How a call of the decorated function ends. -/
inductive Outcome (V E : Type) where
  | returned (v : V)
  | raised (e : E)
  | timedOut (runtime : ℤ)
  | assertion

/-- The calling process, timeout.py:104-117: in `proc.join(seconds)`, before `proc.is_alive()`, after `terminate`, in `proc.result()`, done. -/
inductive Parent (V E : Type) where
  | joining
  | joined
  | expired
  | reading
  | ended (o : Outcome V E)

/-- `full`: `proc.done()`, the semaphore of the queue is taken; `buf`: bytes in the pipe; `msg`: they are the whole message. -/
structure St (V E : Type) where
  clock : ℝ
  child : Child
  full : Bool
  buf : ℕ
  msg : Bool
  parent : Parent V E

variable {V E : Type}

/-- `return result` or `raise result`, timeout.py:114-117. -/
def Behaviour.answer : Behaviour V E → Option (Outcome V E)
  | .returns v => some (.returned v)
  | .raises e => some (.raised e)
  | _ => none

/-- After `proc.start()`, timeout.py:102-104. -/
def start (c : Call) : St V E := ⟨c.now, .running, false, 0, false, .joining⟩

/-- One step.  Simplified: `terminate` stops the process at once, nothing else kills it, and between two steps any time may pass. -/
inductive Step (J : Job V E) (c : Call) : St V E → St V E → Prop
  /-- Time passes. -/
  | tick (s : St V E) (d : ℝ) (h : 0 ≤ d) : Step J c s { s with clock := s.clock + d }
  /-- The function ends and `self.queue.put` is called, timeout.py:87-91. -/
  | put (s : St V E) (n : ℕ) (h : s.child = .running) (hb : J.behaviour.answer ≠ none) (hn : J.pickled = some n) :
      Step J c s { s with child := .queued n, full := true }
  | putBad (s : St V E) (h : s.child = .running) (hb : J.behaviour.answer ≠ none) (hn : J.pickled = none) :
      Step J c s { s with child := .dropping, full := true }
  /-- The function raises something that is no `Exception`: `run_func` is left without `put`. -/
  | escape (s : St V E) (h : s.child = .running) (hb : J.behaviour = .escapes) : Step J c s { s with child := .exited }
  /-- The feeder thread writes bytes, as many as there is room for. -/
  | write (s : St V E) (l k : ℕ) (h : s.child = .queued l) (hk : k ≤ l) (hc : s.buf + k ≤ c.cap) :
      Step J c s { s with child := .queued (l - k), buf := s.buf + k }
  | written (s : St V E) (h : s.child = .queued 0) : Step J c s { s with child := .flushed, msg := true }
  /-- Pickling fails: the semaphore is given back, unless the process is already ending (multiprocessing/queues.py, `_feed`). -/
  | drop (s : St V E) (b : Bool) (h : s.child = .dropping) : Step J c s { s with child := .flushed, full := b }
  | exit (s : St V E) (h : s.child = .flushed) : Step J c s { s with child := .exited }
  /-- `proc.join(seconds)` comes back, timeout.py:105. -/
  | joinDead (s : St V E) (h : s.parent = .joining) (ha : s.child.alive = false) : Step J c s { s with parent := .joined }
  | joinLate (s : St V E) (sec : ℝ) (h : s.parent = .joining) (hs : c.seconds = some sec) (ht : c.now + sec ≤ s.clock) :
      Step J c s { s with parent := .joined }
  /-- timeout.py:106-108. -/
  | late (s : St V E) (h : s.parent = .joined) (ha : s.child.alive = true) :
      Step J c s { s with parent := .expired, child := if c.force then .killed else s.child }
  /-- timeout.py:109-110. -/
  | giveUp (s : St V E) (h : s.parent = .expired) : Step J c s { s with parent := .ended (.timedOut ⌊s.clock - c.now⌋) }
  /-- timeout.py:111. -/
  | notDone (s : St V E) (h : s.parent = .joined) (ha : s.child.alive = false) (hf : s.full = false) :
      Step J c s { s with parent := .ended .assertion }
  | done (s : St V E) (h : s.parent = .joined) (ha : s.child.alive = false) (hf : s.full = true) : Step J c s { s with parent := .reading }
  /-- timeout.py:112-117. -/
  | get (s : St V E) (o : Outcome V E) (h : s.parent = .reading) (hm : s.msg = true) (ho : J.behaviour.answer = some o) :
      Step J c s { s with parent := .ended o, full := false, msg := false, buf := 0 }

/-- Any number of steps. -/
abbrev Steps (J : Job V E) (c : Call) : St V E → St V E → Prop := Relation.ReflTransGen (Step J c)

/-- What holds in every state of a call. -/
structure Inv (J : Job V E) (c : Call) (s : St V E) : Prop where
  clock : c.now ≤ s.clock
  running : s.child = .running → s.full = false ∧ s.msg = false ∧ s.buf = 0
  queued : ∀ l, s.child = .queued l → s.full = true ∧ s.msg = false ∧ J.pickled = some (s.buf + l) ∧ J.behaviour.answer ≠ none ∧ s.buf ≤ c.cap
  dropping : s.child = .dropping → s.msg = false ∧ J.pickled = none ∧ J.behaviour.answer ≠ none
  flushed : s.child = .flushed → (s.msg = true ∧ s.full = true) ∨ (s.msg = false ∧ J.pickled = none ∧ J.behaviour.answer ≠ none)
  exited : s.child = .exited → (s.msg = true ∧ s.full = true) ∨ (s.msg = false ∧ J.pickled = none ∧ J.behaviour.answer ≠ none) ∨
    (s.msg = false ∧ s.full = false ∧ J.behaviour = .escapes) ∨ ∃ o, s.parent = .ended o
  msg : s.msg = true → J.behaviour.answer ≠ none ∧ ∃ n, J.pickled = some n ∧ n ≤ c.cap
  killed : s.child = .killed → c.force = true ∧ (s.parent = .expired ∨ ∃ k, s.parent = .ended (.timedOut k))
  reading : s.parent = .reading → s.full = true ∧ s.child = .exited
  expired : s.parent = .expired → (c.force = true → s.child = .killed) ∧ ∃ sec, c.seconds = some sec ∧ c.now + sec ≤ s.clock
  joinedAlive : s.parent = .joined → s.child.alive = true → ∃ sec, c.seconds = some sec ∧ c.now + sec ≤ s.clock
  ended : ∀ o, s.parent = .ended o → match o with
    | .returned v => J.behaviour = .returns v ∧ ∃ n, J.pickled = some n ∧ n ≤ c.cap
    | .raised e => J.behaviour = .raises e ∧ ∃ n, J.pickled = some n ∧ n ≤ c.cap
    | .timedOut k => (∃ sec, c.seconds = some sec ∧ ⌊sec⌋ ≤ k) ∧ (c.force = true → s.child = .killed)
    | .assertion => J.behaviour = .escapes ∨ J.behaviour.answer ≠ none ∧ J.pickled = none

theorem inv_start (J : Job V E) (c : Call) : Inv J c (start c) := by
  constructor <;> simp [start]

set_option maxHeartbeats 1000000 in
theorem inv_step {J : Job V E} {c : Call} {s s' : St V E} (hi : Inv J c s) (h : Step J c s s') : Inv J c s' := by
  obtain ⟨h1, h2, h3, h4, h5, h6, h7, h8, h9, h10, h11, h12⟩ := hi
  cases h with
  | tick d h =>
    refine ⟨by simpa using by linarith, h2, h3, h4, h5, h6, h7, h8, h9, fun e => ⟨(h10 e).1, ?_⟩, fun e ha => ?_, fun o ho => ?_⟩
    · obtain ⟨_, sec, a, b⟩ := h10 e; exact ⟨sec, a, by simpa using by linarith⟩
    · obtain ⟨sec, a, b⟩ := h11 e ha; exact ⟨sec, a, by simpa using by linarith⟩
    · exact h12 o ho
  | put n h hb hn => constructor <;> simp_all [Child.alive]
  | putBad h hb hn => constructor <;> simp_all [Child.alive]
  | escape h hb => constructor <;> simp_all [Child.alive]
  | write l k h hk hc => constructor <;> simp_all [Child.alive] <;> omega
  | written h => constructor <;> simp_all [Child.alive]
  | drop b h => constructor <;> simp_all [Child.alive]
  | exit h =>
    exact ⟨h1, fun e => by simp at e, fun l e => by simp at e, fun e => by simp at e, fun e => by simp at e,
      fun _ => (h5 h).elim Or.inl (fun q => Or.inr (Or.inl q)), h7, fun e => by simp at e, fun e => by have := (h9 e).2; simp_all,
      fun e => ⟨fun f => by have := (h10 e).1 f; simp_all, (h10 e).2⟩, fun e ha => by simp [Child.alive] at ha, fun o e => by
        have := h12 o e
        cases o with
        | timedOut k => exact ⟨this.1, fun f => by have := this.2 f; simp_all⟩
        | _ => exact this⟩
  | joinDead h ha =>
    exact ⟨h1, h2, h3, h4, h5, fun e => by have := h6 e; simp_all, h7, fun e => by have := h8 e; simp_all, fun e => by simp at e, fun e => by simp at e,
      fun _ e => absurd (ha.symm.trans e) (by decide), fun o e => by simp at e⟩
  | joinLate sec h hs ht =>
    exact ⟨h1, h2, h3, h4, h5, fun e => by have := h6 e; simp_all, h7, fun e => by have := h8 e; simp_all, fun e => by simp at e, fun e => by simp at e,
      fun _ e => ⟨sec, hs, ht⟩, fun o e => by simp at e⟩
  | late h ha =>
    have hx := h11 h ha
    by_cases hf : c.force
    · constructor <;> simp_all [Child.alive]
    · constructor <;> simp_all [Child.alive]
  | giveUp h =>
    obtain ⟨hk, sec, e1, e2⟩ := h10 h
    refine ⟨h1, h2, h3, h4, h5, fun e => Or.inr (Or.inr (Or.inr ⟨_, rfl⟩)), h7, fun e => ⟨(h8 e).1, Or.inr ⟨_, rfl⟩⟩, fun e => by simp at e,
      fun e => by simp at e, fun e => by simp at e, fun o e => ?_⟩
    simp only [Parent.ended.injEq] at e
    subst e
    exact ⟨⟨sec, e1, Int.floor_le_floor (by linarith)⟩, hk⟩
  | notDone h ha hf =>
    refine ⟨h1, h2, h3, h4, h5, fun e => Or.inr (Or.inr (Or.inr ⟨_, rfl⟩)), h7, fun e => by have := h8 e; simp_all, fun e => by simp at e,
      fun e => by simp at e, fun e => by simp at e, fun o e => ?_⟩
    simp only [Parent.ended.injEq] at e
    subst e
    cases hc : s.child with
    | exited => have := h6 hc; simp_all; tauto
    | killed => have := h8 hc; simp_all
    | _ => simp [hc, Child.alive] at ha
  | done h ha hf =>
    refine ⟨h1, h2, h3, h4, h5, fun e => by have := h6 e; simp_all, h7, fun e => by have := h8 e; simp_all, fun _ => ⟨hf, ?_⟩,
      fun e => by simp at e, fun e => by simp at e, fun o e => by simp at e⟩
    show s.child = .exited
    cases hc : s.child with
    | exited => rfl
    | killed => have := h8 hc; simp_all
    | _ => simp [hc, Child.alive] at ha
  | get o h hm ho =>
    obtain ⟨hf, hx⟩ := h9 h
    obtain ⟨hb, n, hn, hle⟩ := h7 hm
    refine ⟨h1, fun e => by simp_all, fun l e => by simp_all, fun e => by simp_all, fun e => by simp_all, fun e => Or.inr (Or.inr (Or.inr ⟨_, rfl⟩)),
      fun e => by simp at e, fun e => by simp_all, fun e => by simp at e, fun e => by simp at e, fun e => by simp at e, fun q e => ?_⟩
    simp only [Parent.ended.injEq] at e
    subst e
    cases hJ : J.behaviour <;> rw [hJ] at ho <;> simp only [Behaviour.answer, Option.some.injEq, reduceCtorEq] at ho <;> subst ho
    · exact ⟨rfl, n, hn, hle⟩
    · exact ⟨rfl, n, hn, hle⟩

theorem inv_steps {J : Job V E} {c : Call} {s s' : St V E} (hi : Inv J c s) (h : Steps J c s s') : Inv J c s' := by
  induction h with
  | refl => exact hi
  | tail _ hs ih => exact inv_step ih hs

end Geotecha.IO.Timeout
