import Verif.IO.WorkDir
import Mathlib.Data.Real.Basic

/-! # Objects of a scripting session: `GenericInputFileArgParser.process`, `SimpleTimer`, `PrefixNumpyArrayString`

Models of inputoutput.py:1945-1970 (`process`), 2216-2283 (`SimpleTimer`), 1593-1640 (`PrefixNumpyArrayString`) and of the way
`string_of_object_attributes` (1533-1588) uses the last one. -/

set_option autoImplicit false
set_option linter.unusedVariables false
namespace Geotecha.IO.Sess

/-! ## `process` -/

/-- What `process` does that can be seen from outside. -/
inductive Ev (M : Type) where
  | opened (p : Path)
  | built (withFile : Bool) (p : Path)
  | closed (p : Path)
  | called (m : M)
deriving DecidableEq

/-- The parts `process` gets from its caller, all arbitrary: `open(path, 'r')` (what it raises, if anything), `self.obj` called with the open file
or with the path, and `getattr(a, s)(*args, **kwargs)` (what it raises, if anything). `S` is the state these parts share (file system, the
objects made, …), `O` the references to objects, `M` the triples `(s, args, kwargs)`. -/
structure Parts (S O M : Type) where
  openFile : Path → S → S × Option Raised
  obj : Bool → Path → S → S × Except Raised O
  call : O → M → S → S × Option Raised

/-- `for s, args, kwargs in self.methods: getattr(a, s)(*args, **kwargs)`, inputoutput.py:1969-1970. -/
def callAll {S O M : Type} (P : Parts S O M) (a : O) : List M → S → S × List (Ev M) × Option Raised
  | [], s => (s, [], none)
  | m :: ms, s =>
    match P.call a m s with
    | (s1, some e) => (s1, [.called m], some e)
    | (s1, none) => let r := callAll P a ms s1; (r.1, .called m :: r.2.1, r.2.2)

/-- `GenericInputFileArgParser.process`, inputoutput.py:1945-1970. The `with` block closes the file when `self.obj` returns and when it raises. -/
def process {S O M : Type} (P : Parts S O M) (passOpen : Bool) (methods : List M) (p : Path) (s : S) : S × List (Ev M) × Option Raised :=
  if passOpen then
    match P.openFile p s with
    | (s1, some e) => (s1, [], some e)
    | (s1, none) =>
      match P.obj true p s1 with
      | (s2, .error e) => (s2, [.opened p, .built true p, .closed p], some e)
      | (s2, .ok a) => let r := callAll P a methods s2; (r.1, .opened p :: .built true p :: .closed p :: r.2.1, r.2.2)
  else
    match P.obj false p s with
    | (s2, .error e) => (s2, [.built false p], some e)
    | (s2, .ok a) => let r := callAll P a methods s2; (r.1, .built false p :: r.2.1, r.2.2)

/-! ## `SimpleTimer` -/

/-- The three dictionaries of a `SimpleTimer`, 2233-2236. -/
structure Timer where
  starts : ℤ → Option ℝ
  msgs : ℤ → Option String
  ends : ℤ → Option ℝ

/-- `SimpleTimer()`, 2233-2236. -/
def Timer.new : Timer := ⟨fun _ => none, fun _ => none, fun _ => none⟩

/-- What is printed: a row of asterisks, a line "Started …" or a line "Finished …, run time = …" with the indent of the level
(`"  "*i`, empty for negative levels). The run time is given as the number of seconds, before `timedelta` turns it into text. -/
inductive Line where
  | stars
  | started (indent : ℕ) (msg : String)
  | finished (indent : ℕ) (msg : String) (elapsed : ℝ)

/-- `d[i] = v`. -/
def put {α : Type} (d : ℤ → Option α) (i : ℤ) (v : α) : ℤ → Option α := fun j => if j = i then some v else d j

/-- The title of a level, 2255-2258: the given message, by default `Level i`. -/
def title (i : ℤ) (msg : Option String) : String := msg.getD ("Level " ++ toString i)

/-- `SimpleTimer.start(i, msg)`, 2238-2261, at clock reading `now`. -/
def Timer.start (t : Timer) (i : ℤ) (msg : Option String) (now : ℝ) : Timer × List Line :=
  (⟨put t.starts i now, put t.msgs i (title i msg), t.ends⟩,
    (if i = 0 then [.stars] else []) ++ [.started (2 * i.toNat) (title i msg)])

/-- `SimpleTimer.finish(i)`, 2263-2283, at clock reading `now`. The end time is stored before the start time is looked up. -/
def Timer.finish (t : Timer) (i : ℤ) (now : ℝ) : Timer × Except Exn (List Line) :=
  let t' : Timer := ⟨t.starts, t.msgs, put t.ends i now⟩
  (t', match t.starts i, t.msgs i with
    | some s, some m => .ok ([.finished (2 * i.toNat) m (now - s)] ++ if i = 0 then [.stars] else [])
    | _, _ => .error .keyError)

/-- Calls of the two methods with the clock reading at the call. -/
inductive TCall where
  | start (i : ℤ) (msg : Option String) (now : ℝ)
  | finish (i : ℤ) (now : ℝ)

/-- One call in a session in which exceptions are caught. -/
def Timer.step (t : Timer) : TCall → Timer
  | .start i msg now => (t.start i msg now).1
  | .finish i now => (t.finish i now).1

/-- A history of calls. -/
def Timer.after (h : List TCall) : Timer := h.foldl Timer.step Timer.new

/-! ## `PrefixNumpyArrayString` -/

/-- The process-wide printing of arrays by `str`: numpy's own (`none`), or the bound method `_pprint` of object number `k`. The objects'
`prefix` attributes are read at the time of printing. -/
structure Printing where
  hook : Option ℕ
  prefix_ : ℕ → String

/-- `PrefixNumpyArrayString(prefix)` for object number `k`, 1626-1628. -/
def Printing.make (k : ℕ) (p : String) (s : Printing) : Printing := ⟨s.hook, fun j => if j = k then p else s.prefix_ j⟩
/-- `turn_on` of object `k`, 1634-1636. -/
def Printing.on (k : ℕ) (s : Printing) : Printing := ⟨some k, s.prefix_⟩
/-- `turn_off`, 1638-1640: numpy's own printing, whoever was printing before. -/
def Printing.off (s : Printing) : Printing := ⟨none, s.prefix_⟩

/-- An array, as its `str` without the hook and its `repr`. -/
structure Arr where
  str : String
  repr : String

/-- `str(arr)` in the session: `_pprint`, 1630-1632. -/
def Printing.show (s : Printing) (a : Arr) : String := s.hook.elim a.str fun k => s.prefix_ k ++ a.repr

/-- The calls that touch the printing of arrays; `prefix_` may be assigned at any time. -/
inductive PCall where
  | make (k : ℕ) (p : String)
  | assign (k : ℕ) (p : String)
  | on (k : ℕ)
  | off

/-- One call. -/
def Printing.step (s : Printing) : PCall → Printing
  | .make k p => s.make k p
  | .assign k p => s.make k p
  | .on k => s.on k
  | .off => s.off

/-- Writing the lines of the attributes one after the other; each may raise while it is rendered. -/
def renderAll {A : Type} (line : Printing → A → Except Exn String) (s : Printing) : List A → Except Exn (List String)
  | [] => .ok []
  | a :: as => match line s a with
    | .error e => .error e
    | .ok l => match renderAll line s as with
      | .error e => .error e
      | .ok ls => .ok (l :: ls)

/-- `string_of_object_attributes`, 1533-1588, as to the printing of arrays: an object (number `k`, not in use) with the prefix (`''` for `None`) is
made and turned on, the lines are written, it is turned off. There is no `try`/`finally`. The text is the lines in the order given, joined
(`C68` has the order and the text). -/
def stringOfAttributes {A : Type} (line : Printing → A → Except Exn String) (k : ℕ) (pre : Option String) (attrs : List A) (s : Printing) :
    Printing × Except Exn (List String) :=
  let s1 := (s.make k (pre.getD "")).on k
  match renderAll line s1 attrs with
  | .error e => (s1, .error e)
  | .ok ls => (s1.off, .ok ls)

end Geotecha.IO.Sess
