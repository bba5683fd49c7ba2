import Verif.IO.Syntax

/-! # C39: what `SyntaxChecker` accepts -/

set_option linter.unusedVariables false
namespace Geotecha.IO

/-! ## Specification: what a program does, in source (pre-)order -/

/-- The things in a program the checker is about. -/
inductive Event
  /-- a plain name is read -/
  | read (n : String)
  /-- a plain name is assigned -/
  | write (n : String)
  /-- an attribute `.n` occurs -/
  | attr (n : String)
  /-- a function is called by its plain name -/
  | callByName (n : String)
  /-- a node of the given class occurs (classes other than `Call`, `Name`, `Attribute`) -/
  | nodeClass (t : String)
  deriving DecidableEq

def nameEvents (n : String) : Ctx → List Event
  | .load => [.read n, .nodeClass "Load"]
  | .store => [.write n, .nodeClass "Store"]
  | .del => [.nodeClass "Del"]

def callEvents : Node → List Event
  | .name f _ => [.callByName f]
  | _ => []

mutual
/-- Events of a tree, parents first, children from left to right. -/
def events : Node → List Event
  | .name n ctx => nameEvents n ctx
  | .attrib v a ctx => .attr a :: events v ++ [.nodeClass ctx.typeName]
  | .call f rest => callEvents f ++ events f ++ eventsL rest
  | .other t children => .nodeClass t :: eventsL children
def eventsL : List Node → List Event
  | [] => []
  | n :: ns => events n ++ eventsL ns
end

/-- Names assigned by a sequence of events. -/
def written : List Event → List String
  | [] => []
  | .write n :: es => n :: written es
  | _ :: es => written es

/-- What the whitelist `c` says about one event when the names `w` have been assigned before. -/
def Permitted (c : Checker) (w : List String) : Event → Prop
  | .read n => n ∈ c.safe ∨ n ∈ c.funcs ∨ n ∈ c.attrs ∨ n ∈ w
  | .write _ => True
  | .attr a => a ∈ c.funcs ∨ a ∈ c.attrs ∨ a ∈ w
  | .callByName f => f ∈ c.funcs
  | .nodeClass t => t ∈ c.nodeTypes

/-- Every event is permitted given what was assigned before it. -/
def AllPermitted (c : Checker) (es : List Event) : Prop :=
  ∀ pre e post, es = pre ++ e :: post → Permitted c (written pre) e

/-! ## Lemmas -/

theorem written_append (a b : List Event) : written (a ++ b) = written a ++ written b := by
  induction a with
  | nil => rfl
  | cons e a ih => cases e <;> simp [written, ih]

theorem allPermitted_nil (c : Checker) : AllPermitted c [] := by
  intro pre e post h; simp at h

def SameLists (c c' : Checker) (w : List String) : Prop :=
  c'.funcs = c.funcs ∧ c'.nodeTypes = c.nodeTypes ∧ c'.safe = c.safe ∧ ∀ n, n ∈ c'.attrs ↔ n ∈ c.attrs ∨ n ∈ w

theorem permitted_shift {c c' : Checker} {w : List String} (h : SameLists c c' w) (w' : List String) (e : Event) :
    Permitted c' w' e ↔ Permitted c (w ++ w') e := by
  obtain ⟨h1, h2, h3, h4⟩ := h
  cases e <;> simp only [Permitted, h1, h2, h3, h4, List.mem_append] <;> tauto

theorem allPermitted_append (c : Checker) (a b : List Event) :
    AllPermitted c (a ++ b) ↔ AllPermitted c a ∧ ∀ pre e post, b = pre ++ e :: post → Permitted c (written a ++ written pre) e := by
  constructor
  · intro h
    refine ⟨fun pre e post he => h pre e (post ++ b) (by rw [he]; simp), fun pre e post he => ?_⟩
    have := h (a ++ pre) e post (by rw [he]; simp)
    rwa [written_append] at this
  · rintro ⟨h1, h2⟩ pre e post he
    rcases List.append_eq_append_iff.1 he with ⟨x, hx, hx'⟩ | ⟨x, hx, hx'⟩
    · rw [hx, written_append]; exact h2 _ _ _ hx'
    · cases x with
      | nil =>
        simp at hx hx'
        have := h2 [] e post hx'.symm
        simp only [written, List.append_nil] at this
        rw [← hx]; exact this
      | cons y ys =>
        obtain ⟨rfl, rfl⟩ := List.cons.inj hx'
        exact h1 _ _ _ hx

theorem allPermitted_shift {c c' : Checker} {a : List Event} (h : SameLists c c' (written a)) (b : List Event) :
    AllPermitted c (a ++ b) ↔ AllPermitted c a ∧ AllPermitted c' b := by
  rw [allPermitted_append]
  refine and_congr_right fun _ => ?_
  constructor
  · intro hh pre e post he; exact (permitted_shift h _ _).2 (hh _ _ _ he)
  · intro hh pre e post he; exact (permitted_shift h _ _).1 (hh _ _ _ he)

theorem sameLists_nil (c : Checker) : SameLists c c [] := ⟨rfl, rfl, rfl, by simp⟩

theorem sameLists_trans {c c' c'' : Checker} {w w' : List String} (h : SameLists c c' w) (h' : SameLists c' c'' w') : SameLists c c'' (w ++ w') := by
  obtain ⟨a1, a2, a3, a4⟩ := h
  obtain ⟨b1, b2, b3, b4⟩ := h'
  exact ⟨b1.trans a1, b2.trans a2, b3.trans a3, fun n => by rw [b4, a4, List.mem_append]; tauto⟩

theorem allPermitted_cons (c : Checker) (e : Event) (es : List Event) :
    AllPermitted c (e :: es) ↔ Permitted c [] e ∧ ∀ pre x post, es = pre ++ x :: post → Permitted c (written [e] ++ written pre) x := by
  have := allPermitted_append c [e] es
  rw [List.singleton_append] at this
  rw [this]
  refine and_congr_left fun _ => ⟨fun h => h [] e [] rfl, fun h pre x post he => ?_⟩
  cases pre with
  | nil => simp at he; obtain ⟨rfl, _⟩ := he; exact h
  | cons y ys => simp at he

theorem allPermitted_single (c : Checker) (e : Event) : AllPermitted c [e] ↔ Permitted c [] e := by
  rw [allPermitted_cons]
  exact and_iff_left (by intro pre x post h; simp at h)

theorem allPermitted_cons' (c : Checker) {e : Event} (es : List Event) (he : written [e] = []) :
    AllPermitted c (e :: es) ↔ Permitted c [] e ∧ AllPermitted c es := by
  rw [allPermitted_cons, he]; rfl

theorem visitCtx_spec (c : Checker) (x : Ctx) :
    (∃ c', visitCtx c x = .ok c') ↔ x.typeName ∈ c.nodeTypes := by
  unfold visitCtx; split_ifs with h <;> simp [h]

theorem visitCtx_same {c c' : Checker} {x : Ctx} (h : visitCtx c x = .ok c') : c' = c := by
  unfold visitCtx at h; split_ifs at h; cases h; rfl

theorem written_callEvents (f : Node) : written (callEvents f) = [] := by cases f <;> rfl

theorem callEvents_ok (c : Checker) (f : Node) : AllPermitted c (callEvents f) ↔ ∀ g x, f = .name g x → g ∈ c.funcs := by
  cases f with
  | name g x =>
    rw [callEvents, allPermitted_single]
    exact ⟨fun h g' x' e => by cases e; exact h, fun h => h g x rfl⟩
  | attrib _ _ _ => exact ⟨fun _ _ _ e => (by cases e), fun _ => allPermitted_nil c⟩
  | call _ _ => exact ⟨fun _ _ _ e => (by cases e), fun _ => allPermitted_nil c⟩
  | other _ _ => exact ⟨fun _ _ _ e => (by cases e), fun _ => allPermitted_nil c⟩

theorem visit_call (c : Checker) (f : Node) (rest : List Node) (c' : Checker) : visit c (.call f rest) = .ok c' ↔
    (∀ g x, f = .name g x → g ∈ c.funcs) ∧ ∃ c1, visit c f = .ok c1 ∧ visitList c1 rest = .ok c' := by
  have hr : calleeRejected c f = false ↔ ∀ g x, f = .name g x → g ∈ c.funcs := by
    cases f with
    | name g x =>
      simp only [calleeRejected, decide_eq_false_iff_not, not_not]
      exact ⟨fun h g' x' e => (by cases e; exact h), fun h => h g x rfl⟩
    | _ => simp [calleeRejected]
  rw [visit, ← hr]
  cases calleeRejected c f
  · rw [if_neg (by simp)]
    cases visit c f <;> simp
  · simp

mutual
theorem visit_spec (c : Checker) (n : Node) : ((∃ c', visit c n = .ok c') ↔ AllPermitted c (events n)) ∧
    ∀ c', visit c n = .ok c' → SameLists c c' (written (events n)) := by
  cases n with
  | name id ctx =>
    cases ctx with
    | load =>
      rw [visit, events, nameEvents, visitName]
      try dsimp only
      rw [allPermitted_cons' _ _ rfl, allPermitted_single]
      split_ifs with h
      · refine ⟨?_, by simp⟩
        simp only [reduceCtorEq, exists_false, false_iff, not_and]
        intro hp; simp only [Permitted] at hp; simp at hp; tauto
      · refine ⟨?_, fun c' hc => by rw [visitCtx_same hc]; exact sameLists_nil c⟩
        rw [visitCtx_spec]
        have : Permitted c [] (.read id) := by simp only [Permitted]; tauto
        exact ⟨fun hh => ⟨this, hh⟩, fun hh => hh.2⟩
    | store =>
      rw [visit, events, nameEvents, visitName]
      try dsimp only
      refine ⟨?_, fun c' hc => by rw [visitCtx_same hc]; exact ⟨rfl, rfl, rfl, fun n => by simp [written]; tauto⟩⟩
      rw [visitCtx_spec, allPermitted_cons]
      constructor
      · intro hh
        refine ⟨trivial, fun pre x post he => ?_⟩
        cases pre with
        | nil => simp at he; obtain ⟨rfl, _⟩ := he; exact hh
        | cons y ys => simp at he
      · rintro ⟨_, hh⟩; exact hh [] _ [] rfl
    | del =>
      rw [visit, events, nameEvents, visitName]
      try dsimp only
      rw [allPermitted_single, visitCtx_spec]
      exact ⟨Iff.rfl, fun c' hc => by rw [visitCtx_same hc]; exact sameLists_nil c⟩
  | attrib v a ctx =>
    rw [visit, events]
    have ih := visit_spec c v
    rw [List.cons_append, allPermitted_cons' _ _ rfl]
    split_ifs with h
    · refine ⟨?_, by simp⟩
      simp only [reduceCtorEq, exists_false, false_iff, not_and]
      intro hp; simp only [Permitted] at hp; simp at hp; tauto
    · have hp : Permitted c [] (.attr a) := by simp only [Permitted]; tauto
      cases hv : visit c v with
      | error e =>
        rw [hv] at ih
        refine ⟨?_, by simp⟩
        simp only [reduceCtorEq, exists_false, false_iff, not_and]
        intro _ hh
        have := ((allPermitted_append _ _ _).1 hh).1
        have := ih.1.2 this
        simp at this
      | ok c1 =>
        have hs := ih.2 c1 hv
        try dsimp only
        constructor
        · rw [visitCtx_spec, allPermitted_shift hs, allPermitted_single]
          have := ih.1.1 ⟨c1, hv⟩
          exact ⟨fun hh => ⟨hp, this, hh⟩, fun hh => hh.2.2⟩
        · intro c' hc
          rw [visitCtx_same hc]
          have : written (.attr a :: (events v ++ [.nodeClass ctx.typeName])) = written (events v) := by
            simp only [written, written_append, List.append_nil]
          rw [this]; exact hs
  | call f rest =>
    have ih := visit_spec c f
    rw [events]
    constructor
    · rw [List.append_assoc, allPermitted_append, written_callEvents, callEvents_ok]
      simp only [List.nil_append]
      change _ ↔ _ ∧ AllPermitted c _
      constructor
      · rintro ⟨c', hc'⟩
        obtain ⟨h1, c1, h2, h3⟩ := (visit_call _ _ _ _).1 hc'
        refine ⟨h1, ?_⟩
        rw [allPermitted_shift (ih.2 c1 h2)]
        exact ⟨ih.1.1 ⟨c1, h2⟩, (visitList_spec c1 rest).1.1 ⟨c', h3⟩⟩
      · rintro ⟨h1, h2⟩
        obtain ⟨c1, hc1⟩ := ih.1.2 ((allPermitted_append _ _ _).1 h2).1
        rw [allPermitted_shift (ih.2 c1 hc1)] at h2
        obtain ⟨c', hc'⟩ := (visitList_spec c1 rest).1.2 h2.2
        exact ⟨c', (visit_call _ _ _ _).2 ⟨h1, c1, hc1, hc'⟩⟩
    · intro c' hc'
      obtain ⟨h1, c1, h2, h3⟩ := (visit_call _ _ _ _).1 hc'
      rw [written_append, written_append, written_callEvents]
      exact sameLists_trans (ih.2 c1 h2) ((visitList_spec c1 rest).2 c' h3)
  | other t children =>
    have ih := visitList_spec c children
    rw [visit, events, allPermitted_cons' _ _ rfl]
    by_cases h : t ∈ c.nodeTypes
    · rw [if_neg (not_not.2 h)]
      refine ⟨?_, ih.2⟩
      rw [ih.1]
      exact ⟨fun hh => ⟨h, hh⟩, fun hh => hh.2⟩
    · rw [if_pos h]
      refine ⟨⟨fun hh => ?_, fun hh => absurd hh.1 h⟩, fun c' hh => ?_⟩
      · obtain ⟨c', hc⟩ := hh; cases hc
      · cases hh
theorem visitList_spec (c : Checker) (ns : List Node) : ((∃ c', visitList c ns = .ok c') ↔ AllPermitted c (eventsL ns)) ∧
    ∀ c', visitList c ns = .ok c' → SameLists c c' (written (eventsL ns)) := by
  cases ns with
  | nil =>
    rw [visitList, eventsL]
    exact ⟨⟨fun _ => allPermitted_nil c, fun _ => ⟨c, rfl⟩⟩, fun c' h => by cases h; exact sameLists_nil c⟩
  | cons n ns =>
    have ih := visit_spec c n
    rw [visitList, eventsL]
    cases hv : visit c n with
    | error e =>
      rw [hv] at ih
      refine ⟨?_, by simp⟩
      simp only [reduceCtorEq, exists_false, false_iff]
      intro hh
      have := ih.1.2 ((allPermitted_append _ _ _).1 hh).1
      simp at this
    | ok c1 =>
      have hs := ih.2 c1 hv
      try dsimp only
      rw [allPermitted_shift hs, written_append]
      have ih2 := visitList_spec c1 ns
      exact ⟨⟨fun hh => ⟨ih.1.1 ⟨c1, hv⟩, ih2.1.1 hh⟩, fun hh => ih2.1.2 hh.2⟩, fun c' hc => sameLists_trans hs (ih2.2 c' hc)⟩
end

/-! ## Theorems -/

/-- **C39** a program is accepted exactly when every event in it is permitted given the names assigned before it. -/
theorem C39_accepts_iff (c : Checker) (n : Node) : (∃ c', visit c n = .ok c') ↔ AllPermitted c (events n) := (visit_spec c n).1

/-- **C39** a rejected program raises `SyntaxError` and nothing else. -/
theorem C39_error (c : Checker) (n : Node) (e : Exn) (h : visit c n = .error e) : e = .syntaxError := by
  have ctx : ∀ c x e, visitCtx c x = .error e → e = .syntaxError := by
    intro c x e h; unfold visitCtx at h; split_ifs at h; cases h; rfl
  have key : (∀ n c e, visit c n = .error e → e = .syntaxError) := by
    intro n
    refine Node.rec (motive_1 := fun n => ∀ c e, visit c n = .error e → e = .syntaxError)
      (motive_2 := fun ns => ∀ c e, visitList c ns = .error e → e = .syntaxError) ?_ ?_ ?_ ?_ ?_ ?_ n
    · intro id x c e h
      rw [visit] at h
      unfold visitName at h
      cases x with
      | load =>
        dsimp only at h
        split_ifs at h
        · cases h; rfl
        · exact ctx _ _ _ h
      | store => exact ctx _ _ _ h
      | del => exact ctx _ _ _ h
    · intro v a x ih c e h
      rw [visit] at h
      split_ifs at h
      · cases h; rfl
      · cases hv : visit c v with
        | error e' => rw [hv] at h; cases h; exact ih _ _ hv
        | ok c1 => rw [hv] at h; exact ctx _ _ _ h
    · intro f rest ih1 ih2 c e h
      have hgo : ∀ e, (match visit c f with | .error e => Except.error e | .ok c => visitList c rest) = .error e → e = .syntaxError := by
        intro e h
        cases hv : visit c f with
        | error e' => rw [hv] at h; cases h; exact ih1 _ _ hv
        | ok c1 => rw [hv] at h; exact ih2 _ _ h
      rw [visit] at h
      split_ifs at h
      · cases h; rfl
      · exact hgo _ h
    · intro t children ih c e h
      rw [visit] at h
      by_cases ht : t ∈ c.nodeTypes
      · rw [if_neg (not_not.2 ht)] at h; exact ih _ _ h
      · rw [if_pos ht] at h; cases h; rfl
    · intro c e h; rw [visitList] at h; cases h
    · intro n ns ih1 ih2 c e h
      rw [visitList] at h
      cases hv : visit c n with
      | error e' => rw [hv] at h; cases h; exact ih1 _ _ hv
      | ok c1 => rw [hv] at h; exact ih2 _ _ h
  exact key n c e h

/-- Subtrees. -/
inductive Sub : Node → Node → Prop
  | refl (n) : Sub n n
  | attrib {m v a x} : Sub m v → Sub m (.attrib v a x)
  | func {m f r} : Sub m f → Sub m (.call f r)
  | arg {m f r n} : n ∈ r → Sub m n → Sub m (.call f r)
  | child {m t r n} : n ∈ r → Sub m n → Sub m (.other t r)

theorem events_mem_list {n : Node} {r : List Node} (h : n ∈ r) {e : Event} (he : e ∈ events n) : e ∈ eventsL r := by
  induction r with
  | nil => simp at h
  | cons a r ih =>
    rw [eventsL, List.mem_append]
    rcases List.mem_cons.1 h with rfl | h
    · exact Or.inl he
    · exact Or.inr (ih h)

theorem events_sub {m n : Node} (h : Sub m n) {e : Event} (he : e ∈ events m) : e ∈ events n := by
  induction h with
  | refl => exact he
  | attrib _ ih => rw [events]; simp [ih]
  | func _ ih => rw [events]; simp [ih]
  | arg hr _ ih => rw [events]; simp [events_mem_list hr ih]
  | child hr _ ih => rw [events]; simp [events_mem_list hr ih]

theorem permitted_of_mem {c : Checker} {n : Node} {c' : Checker} (h : visit c n = .ok c') {e : Event} (he : e ∈ events n) :
    ∃ pre post, events n = pre ++ e :: post ∧ Permitted c (written pre) e := by
  obtain ⟨pre, post, h1⟩ := List.append_of_mem he
  exact ⟨pre, post, h1, (C39_accepts_iff c n).1 ⟨c', h⟩ pre e post h1⟩

theorem write_of_written {f : String} {l : List Event} : f ∈ written l → Event.write f ∈ l := by
  induction l with
  | nil => simp [written]
  | cons e l ih =>
    cases e with
    | write m =>
      simp only [written, List.mem_cons]
      rintro (rfl | hh)
      · exact Or.inl rfl
      · exact Or.inr (ih hh)
    | _ => simp only [written, List.mem_cons]; exact fun hh => Or.inr (ih hh)

/-- **C39** in an accepted program every function called by name is an allowed function. -/
theorem C39_calls {c c' : Checker} {n : Node} (h : visit c n = .ok c') {f : String} {x : Ctx} {args : List Node}
    (hs : Sub (.call (.name f x) args) n) : f ∈ c.funcs := by
  obtain ⟨_, _, _, h2⟩ := permitted_of_mem h (events_sub hs (e := .callByName f) (by rw [events]; simp [callEvents]))
  exact h2

/-- **C39** every name read in an accepted program is safe, an allowed function or attribute, or assigned at an earlier place of the text. -/
theorem C39_reads {c c' : Checker} {n : Node} (h : visit c n = .ok c') {f : String} (hs : Sub (.name f .load) n) :
    f ∈ c.safe ∨ f ∈ c.funcs ∨ f ∈ c.attrs ∨
      ∃ pre post, events n = pre ++ Event.read f :: post ∧ Event.write f ∈ pre := by
  obtain ⟨pre, post, h1, h2⟩ := permitted_of_mem h (events_sub hs (e := .read f) (by rw [events]; simp [nameEvents]))
  rcases h2 with h2 | h2 | h2 | h2
  · exact Or.inl h2
  · exact Or.inr (Or.inl h2)
  · exact Or.inr (Or.inr (Or.inl h2))
  · exact Or.inr (Or.inr (Or.inr ⟨pre, post, h1, write_of_written h2⟩))

/-- **C39** every attribute used in an accepted program is an allowed function or attribute, or a name assigned at an earlier place of the text. -/
theorem C39_attributes {c c' : Checker} {n : Node} (h : visit c n = .ok c') {a : String} {v : Node} {x : Ctx} (hs : Sub (.attrib v a x) n) :
    a ∈ c.funcs ∨ a ∈ c.attrs ∨ ∃ pre post, events n = pre ++ Event.attr a :: post ∧ Event.write a ∈ pre := by
  obtain ⟨pre, post, h1, h2⟩ := permitted_of_mem h (events_sub hs (e := .attr a) (by rw [events]; simp))
  rcases h2 with h2 | h2 | h2
  · exact Or.inl h2
  · exact Or.inr (Or.inl h2)
  · exact Or.inr (Or.inr ⟨pre, post, h1, write_of_written h2⟩)

/-- **C39** the class of every node of an accepted program is whitelisted — except for `Call`, `Name` and `Attribute` nodes, whose class
is not looked at. -/
theorem C39_node_classes {c c' : Checker} {n : Node} (h : visit c n = .ok c') {t : String} {r : List Node} (hs : Sub (.other t r) n) :
    t ∈ c.nodeTypes := by
  obtain ⟨_, _, _, h2⟩ := permitted_of_mem h (events_sub hs (e := .nodeClass t) (by rw [events]; simp))
  exact h2

/-- **C39** nothing of a rejected program is executed. -/
theorem C39_not_executed {M : Type} (exec : Node → Except Exn M) (c : Checker) (n : Node) (e : Exn) (h : visit c n = .error e) :
    makeModule exec c n = .error .syntaxError := by
  unfold makeModule
  rw [h, C39_error c n e h]

/-! ## The checker used for input files -/

/-- The attributes it allows. -/
def fileAttrs : List String := keep words_allow_builtin_2 ++ keep words_allow_builtin_3 ++ keep words_allow_builtin_4 ++ keep words_allow_builtin_5 ++
  keep words_allow_builtin_6 ++ keep words_allow_builtin_7 ++ keep words_allow_builtin_8 ++ keep words_allow_numpy_0 ++ keep words_allow_numpy_1 ++
  ["math"] ++ keep words_allow_numpy_2 ++ keep words_allow_numpy_3 ++ keep words_allow_PolyLine_0

/-- Its lists, whatever the Python version provides. -/
theorem fileChecker (hasAst hasBuiltin : String → Bool) : ∃ c, mkChecker hasAst hasBuiltin fileAllow = .ok c ∧
    c.nodeTypes = (keep words_allow_ast_0).filter hasAst ∧
    c.funcs = (keep words_allow_builtin_0).filter hasBuiltin ++ (keep words_allow_builtin_1).filter hasBuiltin ++ ["np", "numpy"] ++ ["PolyLine"] ∧
    c.attrs = fileAttrs ∧ c.safe = ["True", "False", "None"] :=
  ⟨_, rfl, by rfl, by rfl, by rfl, by rfl⟩

/-- **C39** an input file cannot import, define a class, or use `nonlocal`. -/
theorem C39_no_imports {hasAst hasBuiltin : String → Bool} {c c' : Checker} (hc : mkChecker hasAst hasBuiltin fileAllow = .ok c)
    {n : Node} (h : visit c n = .ok c') {t : String} {r : List Node} (hs : Sub (.other t r) n) :
    t ≠ "Import" ∧ t ≠ "ImportFrom" ∧ t ≠ "ClassDef" ∧ t ≠ "Exec" ∧ t ≠ "Nonlocal" := by
  have ht := C39_node_classes h hs
  obtain ⟨c0, h0, h1, _, _, _⟩ := fileChecker hasAst hasBuiltin
  rw [hc] at h0; cases h0
  rw [h1] at ht
  have ht := (List.mem_filter.1 ht).1
  have hk : "Import" ∉ keep words_allow_ast_0 ∧ "ImportFrom" ∉ keep words_allow_ast_0 ∧ "ClassDef" ∉ keep words_allow_ast_0 ∧
    "Exec" ∉ keep words_allow_ast_0 ∧ "Nonlocal" ∉ keep words_allow_ast_0 := by decide +kernel
  refine ⟨?_, ?_, ?_, ?_, ?_⟩ <;> rintro rfl <;> tauto

/-- **C39** an input file cannot call the dangerous built-in functions by their names. -/
theorem C39_no_dangerous_calls {hasAst hasBuiltin : String → Bool} {c c' : Checker} (hc : mkChecker hasAst hasBuiltin fileAllow = .ok c)
    {n : Node} (h : visit c n = .ok c') {f : String} {x : Ctx} {args : List Node} (hs : Sub (.call (.name f x) args) n) :
    f ∉ ["eval", "exec", "execfile", "open", "file", "__import__", "getattr", "setattr", "delattr", "globals", "vars", "dir", "reload",
      "__build_class__", "exit", "quit"] := by
  have ht := C39_calls h hs
  obtain ⟨c0, h0, _, h1, _, _⟩ := fileChecker hasAst hasBuiltin
  rw [hc] at h0; cases h0
  rw [h1] at ht
  have hk : ∀ f ∈ ["eval", "exec", "execfile", "open", "file", "__import__", "getattr", "setattr", "delattr", "globals", "vars", "dir", "reload",
      "__build_class__", "exit", "quit"], f ∉ keep words_allow_builtin_0 ∧ f ∉ keep words_allow_builtin_1 ∧ f ∉ ["np", "numpy", "PolyLine"] := by
    decide +kernel
  intro hf
  obtain ⟨a, b, d⟩ := hk f hf
  simp only [List.mem_append, List.mem_filter] at ht
  rcases ht with ((ht | ht) | ht) | ht
  · exact a ht.1
  · exact b ht.1
  · exact d (by simp only [List.mem_cons] at ht ⊢; tauto)
  · exact d (by simp only [List.mem_cons] at ht ⊢; tauto)

/-- **C39** a checker can be made exactly from lists of the four known members; any other member raises `AttributeError`. -/
theorem C39_unknown_allow (hasAst hasBuiltin : String → Bool) (allow : List String) :
    ((∀ v ∈ allow, v = "ast" ∨ v = "builtin" ∨ v = "numpy" ∨ v = "PolyLine") → ∃ c, mkChecker hasAst hasBuiltin allow = .ok c) ∧
    ((∃ v ∈ allow, v ≠ "ast" ∧ v ≠ "builtin" ∧ v ≠ "numpy" ∧ v ≠ "PolyLine") → mkChecker hasAst hasBuiltin allow = .error .attributeError) := by
  unfold mkChecker
  generalize (⟨[], [], [], ["True", "False", "None"]⟩ : Checker) = c0
  induction allow generalizing c0 with
  | nil => exact ⟨fun _ => ⟨c0, rfl⟩, fun ⟨v, hv, _⟩ => by simp at hv⟩
  | cons w l ih =>
    have good : (w = "ast" ∨ w = "builtin" ∨ w = "numpy" ∨ w = "PolyLine") → ∃ c1, allowOne hasAst hasBuiltin c0 w = .ok c1 := by
      rintro (rfl | rfl | rfl | rfl) <;> simp [allowOne]
    have bad : ¬ (w = "ast" ∨ w = "builtin" ∨ w = "numpy" ∨ w = "PolyLine") → allowOne hasAst hasBuiltin c0 w = .error .attributeError := by
      intro h; push Not at h; simp [allowOne, h]
    rw [List.foldlM_cons]
    by_cases h : w = "ast" ∨ w = "builtin" ∨ w = "numpy" ∨ w = "PolyLine"
    · obtain ⟨c1, h1⟩ := good h
      rw [h1]
      refine ⟨fun ha => (ih c1).1 (fun v hv => ha v (by simp [hv])), ?_⟩
      rintro ⟨v, hv, hb⟩
      rcases List.mem_cons.1 hv with rfl | hv
      · tauto
      · exact (ih c1).2 ⟨v, hv, hb⟩
    · rw [bad h]
      refine ⟨fun ha => absurd (ha w (by simp)) h, fun _ => rfl⟩

example : ∃ v ∈ ["ast", "os"], v ≠ "ast" ∧ v ≠ "builtin" ∧ v ≠ "numpy" ∧ v ≠ "PolyLine" := ⟨"os", by decide⟩

/-! ## What is not guaranteed -/

/-- `if 0: eval = 0` followed by `[eval][0]('...')`. -/
def escapeProgram : Node :=
  .other "Module" [.other "If" [.other "Num" [], .other "Assign" [.name "eval" .store, .other "Num" []]],
    .other "Expr" [.call (.other "Subscript" [.other "List" [.name "eval" .load, .other "Load" []], .other "Index" [.other "Num" []], .other "Load" []])
      [.other "Str" []]]]

/-- **C39, a hole**: assigning a name anywhere earlier in the text, even in code that never runs, makes it readable, and a function reached
through an expression is not checked: this program calls the built-in `eval` on a string and is accepted. -/
theorem C39_negation {hasAst : String → Bool} (hasBuiltin : String → Bool)
    (ha : ∀ t ∈ ["Module", "If", "Num", "Assign", "Store", "Expr", "Subscript", "List", "Load", "Index", "Str"], hasAst t = true) :
    ∃ c c', mkChecker hasAst hasBuiltin fileAllow = .ok c ∧ "eval" ∉ c.funcs ∧ "eval" ∉ c.attrs ∧ "eval" ∉ c.safe ∧ visit c escapeProgram = .ok c' := by
  obtain ⟨c, hc, h1, h2, h3, h4⟩ := fileChecker hasAst hasBuiltin
  have hk : ∀ t ∈ ["Module", "If", "Num", "Assign", "Store", "Expr", "Subscript", "List", "Load", "Index", "Str"], t ∈ c.nodeTypes := by
    intro t ht
    rw [h1, List.mem_filter]
    refine ⟨?_, ha t ht⟩
    have : ∀ t ∈ ["Module", "If", "Num", "Assign", "Store", "Expr", "Subscript", "List", "Load", "Index", "Str"], t ∈ keep words_allow_ast_0 := by
      decide +kernel
    exact this t ht
  have hf : "eval" ∉ c.funcs := by
    rw [h2]
    simp only [List.mem_append, List.mem_filter]
    have : "eval" ∉ keep words_allow_builtin_0 ∧ "eval" ∉ keep words_allow_builtin_1 ∧ "eval" ∉ ["np", "numpy"] ∧ "eval" ∉ ["PolyLine"] := by decide +kernel
    tauto
  have hattr : "eval" ∉ c.attrs := by
    rw [h3]; decide +kernel
  have hacc : ∃ c', visit c escapeProgram = .ok c' := by
    simp [escapeProgram, visit, visitList, visitName, visitCtx, calleeRejected, Ctx.typeName, hk]
  obtain ⟨c', hc'⟩ := hacc
  exact ⟨c, c', hc, hf, hattr, by rw [h4]; decide +kernel, hc'⟩

/-- **C39, another hole**: assigning a plain name whitelists it as an attribute of anything: `__class__ = 0` then `np.__class__`. -/
theorem C39_attribute_hole (c : Checker) (h : ∀ t ∈ ["Module", "Assign", "Store", "Load", "Expr", "Num"], t ∈ c.nodeTypes) (hn : "np" ∈ c.funcs) :
    ∃ c', visit c (.other "Module" [.other "Assign" [.name "__class__" .store, .other "Num" []], .other "Expr" [.attrib (.name "np" .load) "__class__" .load]]) = .ok c' := by
  simp [visit, visitList, visitName, visitCtx, Ctx.typeName, h, hn]

/-- **C39** the class `Call` itself is never checked: removing it from the whitelist does not forbid calls. -/
theorem C39_call_class_unchecked : ∃ c : Checker, "Call" ∉ c.nodeTypes ∧ ∃ c', visit c (.call (.name "f" .load) []) = .ok c' :=
  ⟨⟨["f"], ["Load"], [], []⟩, by decide, by simp [visit, visitList, visitName, visitCtx, Ctx.typeName, calleeRejected]⟩

/-! ## The hypotheses are met: `a = np.cos(0.5)` is accepted, `a = cos(0.5)` is rejected -/

def okProgram : Node := .other "Module" [.other "Assign" [.name "a" .store, .call (.attrib (.name "np" .load) "cos" .load) [.other "Num" []]]]
def badProgram : Node := .other "Module" [.other "Assign" [.name "a" .store, .call (.name "cos" .load) [.other "Num" []]]]

def accepts (n : Node) : Bool :=
  match mkChecker (fun _ => true) (fun _ => true) fileAllow with
  | .error _ => false
  | .ok c => match visit c n with
    | .ok _ => true
    | .error _ => false

example : accepts okProgram = true ∧ accepts badProgram = false ∧ accepts escapeProgram = true := by decide +kernel

end Geotecha.IO
