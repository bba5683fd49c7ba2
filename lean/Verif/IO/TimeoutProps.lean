import Verif.IO.Timeout

/-!
# C238: the `timeout` decorator under every schedule
-/

set_option autoImplicit false
set_option linter.unusedVariables false

namespace Geotecha.IO.Timeout

variable {V E : Type} {J : Job V E} {c : Call}

/-- The states of a call. -/
def Reach (J : Job V E) (c : Call) (s : St V E) : Prop := Steps J c (start c) s

theorem Reach.inv {s : St V E} (h : Reach J c s) : Inv J c s := inv_steps (inv_start J c) h

/-- **C238.**  Whatever the schedule, a call returns the value the function returned, raises the exception it raised, or raises
`TimeoutException` not before `seconds` have passed, whose number is no smaller than `seconds` cut off to an integer, and then with `force_kill`
the process is dead.  `assert` fails only when the function left without an `Exception` or the answer could not be pickled.  An answer arrives
only when the pickled pair fits into the pipe. -/
theorem C238_outcomes {s : St V E} (h : Reach J c s) {o : Outcome V E} (ho : s.parent = .ended o) :
    (∀ v, o = .returned v → J.behaviour = .returns v ∧ ∃ n, J.pickled = some n ∧ n ≤ c.cap) ∧
    (∀ e, o = .raised e → J.behaviour = .raises e ∧ ∃ n, J.pickled = some n ∧ n ≤ c.cap) ∧
    (∀ k, o = .timedOut k → (∃ sec, c.seconds = some sec ∧ ⌊sec⌋ ≤ k) ∧ (c.force = true → s.child.alive = false)) ∧
    (o = .assertion → J.behaviour = .escapes ∨ J.pickled = none) := by
  have k := h.inv.ended o ho
  refine ⟨?_, ?_, ?_, ?_⟩
  · rintro v rfl; exact k
  · rintro e rfl; exact k
  · rintro n rfl; exact ⟨k.1, fun f => by rw [k.2 f]; rfl⟩
  · rintro rfl; exact k.imp id And.right

/-- **C238, time.**  At the moment a call gives up, `seconds` have passed. -/
theorem C238_not_early {s s' : St V E} (h : Reach J c s) (hs : Step J c s s') {k : ℤ} (h0 : ∀ o, s.parent ≠ .ended o)
    (h1 : s'.parent = .ended (.timedOut k)) : ∃ sec, c.seconds = some sec ∧ c.now + sec ≤ s'.clock ∧ k = ⌊s'.clock - c.now⌋ := by
  have i := h.inv
  cases hs with
  | giveUp hp =>
    obtain ⟨_, sec, e1, e2⟩ := i.expired hp
    simp only [Parent.ended.injEq, Outcome.timedOut.injEq] at h1
    exact ⟨sec, e1, e2, h1.symm⟩
  | get o hp hm hq =>
    simp only [Parent.ended.injEq] at h1
    subst h1
    cases hJ : J.behaviour <;> rw [hJ] at hq <;> simp [Behaviour.answer] at hq
  | notDone hp ha hf => simp at h1
  | joinDead hp ha => simp at h1
  | joinLate sec hp hq ht => simp at h1
  | late hp ha => simp at h1
  | done hp ha hf => simp at h1
  | tick d hd => exact absurd h1 (h0 _)
  | put n hp hb hn => exact absurd h1 (h0 _)
  | putBad hp hb hn => exact absurd h1 (h0 _)
  | escape hp hb => exact absurd h1 (h0 _)
  | write l k hp hk hc => exact absurd h1 (h0 _)
  | written hp => exact absurd h1 (h0 _)
  | drop b hp => exact absurd h1 (h0 _)
  | exit hp => exact absurd h1 (h0 _)

/-- **C238, the defect.**  An answer that does not fit into the pipe never arrives: the process cannot exit before the pipe is read, and the
pipe is read after the process has exited.  However soon the function ends, the call times out, and without a limit it never ends. -/
theorem C238_large_answer_lost {n : ℕ} (hn : J.pickled = some n) (hc : c.cap < n) (hb : J.behaviour ≠ .escapes) {s : St V E} (h : Reach J c s)
    {o : Outcome V E} (ho : s.parent = .ended o) : (∃ k, o = .timedOut k) ∧ c.seconds ≠ none := by
  obtain ⟨h1, h2, h3, h4⟩ := C238_outcomes h ho
  have big : ¬ ∃ m, J.pickled = some m ∧ m ≤ c.cap := by
    rintro ⟨m, e, hm⟩
    rw [hn] at e
    cases e
    omega
  cases o with
  | returned v => exact absurd (h1 v rfl).2 big
  | raised e => exact absurd (h2 e rfl).2 big
  | timedOut k =>
    obtain ⟨⟨sec, e, _⟩, _⟩ := h3 k rfl
    exact ⟨⟨k, rfl⟩, by rw [e]; simp⟩
  | assertion => exact absurd (h4 rfl) (by rw [hn]; simp [hb])

/-- **C238, in time.**  Once the process has exited while the caller still waits in `join`, the call cannot time out any more. -/
theorem C238_finished_in_time {s s' : St V E} (h : Reach J c s) (hx : s.child = .exited) (hp : s.parent = .joining ∨ s.parent = .joined)
    (hs : Steps J c s s') (k : ℤ) : s'.parent ≠ .ended (.timedOut k) := by
  have key : s'.child = .exited ∧ s'.parent ≠ .expired ∧ ∀ k, s'.parent ≠ .ended (.timedOut k) := by
    induction hs with
    | refl => rcases hp with e | e <;> rw [e] <;> simp [hx]
    | tail _ st ih =>
      obtain ⟨i1, i2, i3⟩ := ih
      cases st with
      | tick d hd => exact ⟨i1, i2, i3⟩
      | put n hq hb hn => rw [i1] at hq; cases hq
      | putBad hq hb hn => rw [i1] at hq; cases hq
      | escape hq hb => rw [i1] at hq; cases hq
      | write l k hq hk hc => rw [i1] at hq; cases hq
      | written hq => rw [i1] at hq; cases hq
      | drop b hq => rw [i1] at hq; cases hq
      | exit hq => rw [i1] at hq; cases hq
      | joinDead hq ha => exact ⟨i1, by simp, by simp⟩
      | joinLate sec hq hh ht => exact ⟨i1, by simp, by simp⟩
      | late hq ha => rw [i1] at ha; cases ha
      | giveUp hq => exact absurd hq i2
      | notDone hq ha hf => exact ⟨i1, by simp, by simp⟩
      | done hq ha hf => exact ⟨i1, by simp, by simp⟩
      | get o hq hm hw =>
        refine ⟨i1, by simp, fun k e => ?_⟩
        simp only [Parent.ended.injEq] at e
        subst e
        cases hJ : J.behaviour <;> rw [hJ] at hw <;> simp [Behaviour.answer] at hw
  exact key.2.2 k

/-- The caller comes to the answer once the process has exited. -/
theorem finish {o : Outcome V E} {s : St V E} (hi : Inv J c s) (ho : J.behaviour.answer = some o) {n : ℕ} (hn : J.pickled = some n)
    (hx : s.child = .exited) (hp : s.parent = .joining ∨ s.parent = .joined ∨ s.parent = .reading) : ∃ s', Steps J c s s' ∧ s'.parent = .ended o := by
  have hm : s.msg = true ∧ s.full = true := by
    rcases hi.exited hx with k | k | k | ⟨q, k⟩
    · exact k
    · rw [hn] at k; simp at k
    · rw [k.2.2] at ho; cases ho
    · rcases hp with e | e | e <;> rw [e] at k <;> cases k
  have ha : s.child.alive = false := by rw [hx]; rfl
  have g : ∀ s : St V E, s.parent = .reading → s.msg = true → ∃ s', Steps J c s s' ∧ s'.parent = .ended o :=
    fun s e1 e2 => ⟨_, .single (.get s o e1 e2 ho), rfl⟩
  have f : ∀ s : St V E, s.parent = .joined → s.child.alive = false → s.full = true → s.msg = true → ∃ s', Steps J c s s' ∧ s'.parent = .ended o := by
    intro s e1 e2 e3 e4
    obtain ⟨s', k1, k2⟩ := g { s with parent := .reading } rfl e4
    exact ⟨s', .head (.done s e1 e2 e3) k1, k2⟩
  rcases hp with e | e | e
  · obtain ⟨s', k1, k2⟩ := f { s with parent := .joined } rfl ha hm.2 hm.1
    exact ⟨s', .head (.joinDead s e ha) k1, k2⟩
  · exact f s e ha hm.2 hm.1
  · exact g s e hm.1

/-- **C238, progress.**  When the pair fits into the pipe, a function that returns or raises gets its answer through from every state in which
the caller still waits in `join`. -/
theorem C238_answer_arrives {o : Outcome V E} (ho : J.behaviour.answer = some o) {n : ℕ} (hn : J.pickled = some n) (hc : n ≤ c.cap) {s : St V E}
    (h : Reach J c s) (hp : s.parent = .joining) : ∃ s', Steps J c s s' ∧ s'.parent = .ended o := by
  have go : ∀ s : St V E, Reach J c s → s.parent = .joining → s.child = .exited → ∃ s', Steps J c s s' ∧ s'.parent = .ended o :=
    fun s hr e hx => finish hr.inv ho hn hx (Or.inl e)
  have goF : ∀ s : St V E, Reach J c s → s.parent = .joining → s.child = .flushed → ∃ s', Steps J c s s' ∧ s'.parent = .ended o := by
    intro s hr e hx
    obtain ⟨s', k1, k2⟩ := go { s with child := .exited } (hr.tail (.exit s hx)) e rfl
    exact ⟨s', .head (.exit s hx) k1, k2⟩
  have goQ : ∀ (l : ℕ) (s : St V E), Reach J c s → s.parent = .joining → s.child = .queued l → ∃ s', Steps J c s s' ∧ s'.parent = .ended o := by
    intro l s hr e hx
    have q := (hr.inv.queued l hx).2.2.1
    rw [hn] at q
    have q' : n = s.buf + l := Option.some.inj q
    have st1 : Step J c s { s with child := .queued (l - l), buf := s.buf + l } := .write s l l hx le_rfl (by omega)
    rw [Nat.sub_self] at st1
    have st2 : Step J c { s with child := .queued 0, buf := s.buf + l } { s with child := .flushed, buf := s.buf + l, msg := true } :=
      .written { s with child := .queued 0, buf := s.buf + l } rfl
    obtain ⟨s', k1, k2⟩ := goF { s with child := .flushed, buf := s.buf + l, msg := true } ((hr.tail st1).tail st2) e rfl
    exact ⟨s', .head st1 (.head st2 k1), k2⟩
  cases hx : s.child with
  | running =>
    have st : Step J c s { s with child := .queued n, full := true } := .put s n hx (by rw [ho]; simp) hn
    obtain ⟨s', k1, k2⟩ := goQ n { s with child := .queued n, full := true } (h.tail st) hp rfl
    exact ⟨s', .head st k1, k2⟩
  | queued l => exact goQ l s h hp hx
  | dropping => have := (h.inv.dropping hx).2.1; rw [hn] at this; cases this
  | flushed => exact goF s h hp hx
  | exited => exact go s h hp hx
  | killed => have := (h.inv.killed hx).2; rw [hp] at this; simp at this

/-- **C238, no deadlock.**  With a limit, and unless the answer cannot be pickled, a call can come to its end from every state. -/
theorem C238_no_deadlock (hp : J.pickled = none → J.behaviour.answer = none) {sec : ℝ} (hs : c.seconds = some sec) {s : St V E} (h : Reach J c s) :
    ∃ s' o, Steps J c s s' ∧ s'.parent = .ended o := by
  have gJ : ∀ s : St V E, Reach J c s → s.parent = .joined → ∃ s' o, Steps J c s s' ∧ s'.parent = .ended o := by
    intro s hr e
    cases ha : s.child.alive with
    | true =>
      have st := Step.late (J := J) (c := c) s e ha
      exact ⟨_, _, .head st (.single (.giveUp _ rfl)), rfl⟩
    | false =>
      cases hf : s.full with
      | false => exact ⟨_, _, .single (.notDone s e ha hf), rfl⟩
      | true =>
        have st := Step.done (J := J) (c := c) s e ha hf
        have i := Reach.inv (hr.tail st)
        obtain ⟨_, hx⟩ := i.reading rfl
        rcases i.exited hx with k | k | k | ⟨q, k⟩
        · have hans := (i.msg k.1).1
          obtain ⟨o, ho⟩ := Option.ne_none_iff_exists'.1 hans
          exact ⟨_, o, .head st (.single (.get _ o rfl k.1 ho)), rfl⟩
        · exact absurd (hp k.2.1) k.2.2
        · have : s.full = false := k.2.1
          rw [hf] at this; cases this
        · cases k
  cases e : s.parent with
  | joining =>
    have st1 : Step J c s { s with clock := s.clock + |sec| } := .tick s |sec| (abs_nonneg _)
    have st2 : Step J c { s with clock := s.clock + |sec| } { s with clock := s.clock + |sec|, parent := .joined } :=
      .joinLate { s with clock := s.clock + |sec| } sec e hs (by
        have := h.inv.clock
        have := le_abs_self sec
        show c.now + sec ≤ s.clock + |sec|
        linarith)
    obtain ⟨s', o, k1, k2⟩ := gJ { s with clock := s.clock + |sec|, parent := .joined } ((h.tail st1).tail st2) rfl
    exact ⟨s', o, .head st1 (.head st2 k1), k2⟩
  | joined => exact gJ s h e
  | expired => exact ⟨_, _, .single (.giveUp s e), rfl⟩
  | reading =>
    obtain ⟨hf, hx⟩ := h.inv.reading e
    rcases h.inv.exited hx with k | k | k | ⟨q, k⟩
    · obtain ⟨o, ho⟩ := Option.ne_none_iff_exists'.1 (h.inv.msg k.1).1
      exact ⟨_, o, .single (.get s o e k.1 ho), rfl⟩
    · exact absurd (hp k.2.1) k.2.2
    · rw [hf] at k; simp at k
    · rw [e] at k; cases k
  | ended o => exact ⟨s, o, .refl, e⟩

/-- **C238, the second defect.**  When the answer cannot be pickled there is a schedule after which the call never ends, whatever the limit. -/
theorem C238_unpicklable_hangs (hb : J.behaviour.answer ≠ none) (hn : J.pickled = none) :
    ∃ s, Reach J c s ∧ ∀ s', Steps J c s s' → ∀ o, s'.parent ≠ .ended o := by
  refine ⟨⟨c.now, .exited, true, 0, false, .reading⟩, ?_, fun s' hs => ?_⟩
  · refine .head (.putBad _ rfl hb hn) (.head (.drop _ true rfl) (.head (.exit _ rfl) (.head (.joinDead _ rfl rfl) (.single (.done _ rfl rfl rfl)))))
  · have key : s'.child = .exited ∧ s'.msg = false ∧ s'.parent = .reading := by
      induction hs with
      | refl => exact ⟨rfl, rfl, rfl⟩
      | tail _ st ih =>
        obtain ⟨i1, i2, i3⟩ := ih
        cases st with
        | tick d hd => exact ⟨i1, i2, i3⟩
        | put n hq hb hn => rw [i1] at hq; cases hq
        | putBad hq hb hn => rw [i1] at hq; cases hq
        | escape hq hb => rw [i1] at hq; cases hq
        | write l k hq hk hc => rw [i1] at hq; cases hq
        | written hq => rw [i1] at hq; cases hq
        | drop b hq => rw [i1] at hq; cases hq
        | exit hq => rw [i1] at hq; cases hq
        | joinDead hq ha => rw [i3] at hq; cases hq
        | joinLate sec hq hh ht => rw [i3] at hq; cases hq
        | late hq ha => rw [i3] at hq; cases hq
        | giveUp hq => rw [i3] at hq; cases hq
        | notDone hq ha hf => rw [i3] at hq; cases hq
        | done hq ha hf => rw [i3] at hq; cases hq
        | get o hq hm hw => rw [i2] at hm; cases hm
    intro o
    rw [key.2.2]
    simp

/-! ## Examples -/

/-- `timeout(2)(_longcos)(1, 0)` comes back with its value. -/
example : ∃ s : St ℝ Unit, Reach ⟨.returns (1/2), some 40⟩ ⟨0, some 2, true, 65536⟩ s ∧ s.parent = .ended (.returned (1/2)) :=
  C238_answer_arrives (J := ⟨.returns (1/2), some 40⟩) rfl rfl (by decide) (s := start _) .refl rfl

/-- A list of 100000 numbers: the run ends, but only by giving up. -/
example : ∃ (s : St ℝ Unit) (k : ℤ), Reach ⟨.returns (1/2), some 900000⟩ ⟨0, some 2, true, 65536⟩ s ∧ s.parent = .ended (.timedOut k) ∧ 2 ≤ k := by
  obtain ⟨s, o, hs, ho⟩ := C238_no_deadlock (J := ⟨.returns (1/2), some 900000⟩) (c := ⟨0, some 2, true, 65536⟩) (V := ℝ) (E := Unit) (by simp) rfl
    (s := start _) .refl
  obtain ⟨⟨k, rfl⟩, _⟩ := C238_large_answer_lost rfl (by decide) (by simp) hs ho
  obtain ⟨⟨sec, e, hk⟩, _⟩ := (C238_outcomes hs ho).2.2.1 k rfl
  cases e
  exact ⟨s, k, hs, ho, by simpa using hk⟩

/-- Without `force_kill` the function may still run after the call has given up. -/
example : ∃ (s : St ℝ Unit), Reach ⟨.diverges, none⟩ ⟨0, some 2, false, 65536⟩ s ∧ s.parent = .ended (.timedOut 2) ∧ s.child = .running := by
  refine ⟨⟨2, .running, false, 0, false, .ended (.timedOut 2)⟩, ?_, rfl, rfl⟩
  have t : Step (V := ℝ) (E := Unit) ⟨.diverges, none⟩ ⟨0, some 2, false, 65536⟩ (start ⟨0, some 2, false, 65536⟩) ⟨2, .running, false, 0, false, .joining⟩ := by
    have := Step.tick (V := ℝ) (E := Unit) (J := ⟨.diverges, none⟩) (c := ⟨0, some 2, false, 65536⟩) (start ⟨0, some 2, false, 65536⟩) 2 (by norm_num)
    simpa [start] using this
  have g : Step (V := ℝ) (E := Unit) ⟨.diverges, none⟩ ⟨0, some 2, false, 65536⟩ ⟨2, .running, false, 0, false, .expired⟩
      ⟨2, .running, false, 0, false, .ended (.timedOut 2)⟩ := by
    have := Step.giveUp (V := ℝ) (E := Unit) (J := ⟨.diverges, none⟩) (c := ⟨0, some 2, false, 65536⟩) ⟨2, .running, false, 0, false, .expired⟩ rfl
    simpa using this
  exact .head t (.head (.joinLate _ 2 rfl rfl (by norm_num)) (.head (.late _ rfl rfl) (.single g)))

/-- A lambda as the answer. -/
example : ∃ s, Reach (V := ℝ) (E := Unit) ⟨.returns 0, none⟩ ⟨0, some 2, true, 65536⟩ s ∧ ∀ s', Steps ⟨.returns 0, none⟩ ⟨0, some 2, true, 65536⟩ s s' →
    ∀ o, s'.parent ≠ .ended o := C238_unpicklable_hangs (by simp [Behaviour.answer]) rfl

end Geotecha.IO.Timeout
