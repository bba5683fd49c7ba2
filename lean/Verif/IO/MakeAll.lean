import Verif.IO.SaveRunsProps

/-!
# `make_all` (speccon1d.py:48-77, nogamiandli2003.py:676-691, schiffmanandstein1970.py:358-373)

Checks, calculations, saving of data, plotting, saving and showing of figures, for an object with arbitrary methods (each may change the object and
may raise), on the output directory of SaveRuns.lean.
-/

set_option autoImplicit false
set_option linter.unusedVariables false

namespace Geotecha.IO.Making
open Saving

/-- What a method does to the object: the exception it ends with, if any, and the object afterwards. -/
abbrev Method (Obj : Type) := Obj → Option Exn × Obj

/-- What the saving routines read on the object: the settings `prefix`, `create_directory`, `overwrite` (1345-1366), `show_figures` and what is to be
saved (1374-1447). -/
structure Settings where
  pre : Name
  create : Bool
  overwrite : Bool
  showFigures : Bool
  out : Output

/-- A class with a `make_all`: whether it calls `check_input_attributes` (`Speccon1d` and `NogamiAndLi2003` do, schiffmanandstein1970.py:361 is commented
out), that method, the methods that calculate, in their order (`make_time_independent_arrays`, `make_time_dependent_arrays`, `make_output`, or `make_output`
only), `produce_plots`, and what is read for saving. -/
structure Cls (Obj : Type) where
  checks : Bool
  check : Method Obj
  calcs : List (Method Obj)
  plots : Method Obj
  settings : Obj → Settings

/-- The object (its `_file_stem` apart: the stem, and whether it is in a folder of its own), the output directory, and the number of times `plt.show()`
has been called. -/
structure State (Obj : Type) where
  obj : Obj
  stem : Option (Bool × Name)
  fs : FS
  shown : ℕ

variable {Obj : Type}

/-- A piece of program: how it ends and what it leaves behind. -/
abbrev Act (Obj : Type) := State Obj → Option Exn × State Obj

/-- One after the other; after an exception nothing else is done. -/
def Act.seq (a b : Act Obj) : Act Obj := fun w =>
  match a w with
  | (some e, w') => (some e, w')
  | (none, w') => b w'

/-- `if … :` without `else`. -/
def when (p : State Obj → Bool) (a : Act Obj) : Act Obj := fun w => if p w then a w else (none, w)

/-- A method of the class; it does not touch files. -/
def call (f : Method Obj) : Act Obj := fun w => ((f w.obj).1, { w with obj := (f w.obj).2 })

/-- `_determine_output_stem`, inputoutput.py:1343-1371, for a directory that exists; `_file_stem` is set before the folder is made. -/
def determineStem (c : Cls Obj) : Act Obj := fun w =>
  match nextOutputStem (c.settings w.obj).pre (some w.fs.tops) 1 1 4 (c.settings w.obj).overwrite with
  | some (.ok st) =>
    if !(c.settings w.obj).create || w.fs.isDir st then (none, { w with stem := some ((c.settings w.obj).create, st) })
    else if st ∈ w.fs.tops then (some .osError, { w with stem := some ((c.settings w.obj).create, st) })
    else (none, { w with stem := some ((c.settings w.obj).create, st), fs := w.fs.mkdir st })
  | some (.error e) => (some e, w)
  | none => (some .valueError, w)

/-- `if getattr(self, '_file_stem', None) is None: self._determine_output_stem()`, 1386-1387, 1418-1419. -/
def ensureStem (c : Cls Obj) : Act Obj := when (fun w => w.stem.isNone) (determineStem c)

/-- `with open(filename, 'w') as myfile: myfile.write(text)`. -/
def writeFile (f : Name × List Char) : Act Obj := fun w =>
  match w.stem with
  | none => (some .typeError, w)
  | some st =>
    if w.fs.openable (pathOf st.1 st.2 f.1) then
      (none, { w with fs := (w.fs.open (pathOf st.1 st.2 f.1)).write (pathOf st.1 st.2 f.1) f.2 })
    else (some .osError, w)

/-- The files, in order. -/
def writeAll : List (Name × List Char) → Act Obj
  | [] => fun w => (none, w)
  | f :: fs => Act.seq (writeFile f) (writeAll fs)

/-- `_save_data`, 1413-1447. -/
def saveData (c : Cls Obj) : Act Obj :=
  when (fun w => (c.settings w.obj).out.saveData) <|
    Act.seq (ensureStem c) fun w => writeAll (dataFiles (c.settings w.obj).out) w

/-- `_save_figures`, 1374-1411. -/
def saveFigures (c : Cls Obj) : Act Obj :=
  when (fun w => (c.settings w.obj).out.saveFigures && (c.settings w.obj).out.figures.isSome) <|
    Act.seq (ensureStem c) fun w =>
      match figureFiles (c.settings w.obj).out with
      | .error e => (some e, w)
      | .ok l => writeAll l w

/-- `plt.show()`. -/
def showAll : Act Obj := fun w => (none, { w with shown := w.shown + 1 })

/-- The methods that calculate. -/
def calcAll : List (Method Obj) → Act Obj
  | [] => fun w => (none, w)
  | f :: fs => Act.seq (call f) (calcAll fs)

/-- The last part of `make_all`, speccon1d.py:66-75, the same in the three files. -/
def outAll (c : Cls Obj) : Act Obj :=
  Act.seq (when (fun w => (c.settings w.obj).out.saveData) (saveData c)) <|
  when (fun w => (c.settings w.obj).out.saveFigures || (c.settings w.obj).showFigures) <|
    Act.seq (call c.plots) <| Act.seq (when (fun w => (c.settings w.obj).out.saveFigures) (saveFigures c)) <|
      when (fun w => (c.settings w.obj).showFigures) showAll

/-- `make_all`. -/
def makeAll (c : Cls Obj) : Act Obj :=
  Act.seq (if c.checks then call c.check else fun w => (none, w)) <| Act.seq (calcAll c.calcs) (outAll c)

namespace Spec

/-- The calculations of the class applied to the object end with `r`: the check, if the class checks, then the methods in order, up to the first
exception. -/
inductive Runs : List (Method Obj) → Obj → Option Exn × Obj → Prop where
  | nil (o : Obj) : Runs [] o (none, o)
  | stop (f : Method Obj) (fs : List (Method Obj)) (o : Obj) {e : Exn} {o' : Obj} : f o = (some e, o') → Runs (f :: fs) o (some e, o')
  | cons (f : Method Obj) (fs : List (Method Obj)) (o : Obj) {o' : Obj} {r : Option Exn × Obj} : f o = (none, o') → Runs fs o' r → Runs (f :: fs) o r

/-- The methods before anything is saved or plotted. -/
def steps (c : Cls Obj) : List (Method Obj) := (if c.checks then [c.check] else []) ++ c.calcs

end Spec

end Geotecha.IO.Making
