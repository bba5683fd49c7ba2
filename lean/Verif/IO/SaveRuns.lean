import Verif.IO.StemProps

/-!
# Runs that save their output into one directory (inputoutput.py:1343-1447)

`_determine_output_stem`, `_save_data` and `_save_figures` of several runs, as a transition system: every operation on the file system is one step, the
steps of different runs interleave in any way, and a run may stop for good (crash) between any two of them.
-/

set_option autoImplicit false
set_option linter.unusedVariables false

namespace Geotecha.IO.Saving

abbrev Name := List Char

/-- A file of the output directory, or of a folder in it (folders in folders are not modelled). -/
inductive Path where
  | top (f : Name)
  | sub (d f : Name)
deriving DecidableEq

/-- The output directory: the names in it (`os.listdir`), which are folders, and the contents of the files. -/
structure FS where
  tops : List Name
  isDir : Name → Bool
  file : Path → Option (List Char)

/-- A figure argument: `self._figures` is a list of figures (label and saved picture) or one figure. -/
inductive Figures where
  | list (l : List (Name × List Char))
  | one (f : Name × List Char)

/-- What `_save_data` and `_save_figures` look at, inputoutput.py:1374-1447: the flags, the text of the input file (`none`: no reader), the parsed
input (`none`: no `_attributes`), the data grids (name and finished text) and the extensions. -/
structure Output where
  saveData : Bool
  inputText : Option (List Char)
  parsedText : Option (List Char)
  inputExt : Name
  grids : List (Name × List Char)
  dataExt : Name
  saveFigures : Bool
  figures : Option Figures
  figureExt : Name

/-- The files of `_save_data`, 1421-1446: what follows the file stem, and the contents. -/
def dataFiles (o : Output) : List (Name × List Char) :=
  if o.saveData then
    (o.inputText.toList.map fun t => ("_input_original".toList ++ o.inputExt, t)) ++
    (o.parsedText.toList.map fun t => ("_input_parsed".toList ++ o.inputExt, t)) ++
    o.grids.map fun g => (g.1 ++ o.dataExt, g.2)
  else []

/-- The files of `_save_figures`, 1383-1411: unlabelled figures are numbered.  The loop runs over `self._figures`, not over the list `figures` made
for the case of one figure, and a figure is not iterable. -/
def figureFiles (o : Output) : Except Exn (List (Name × List Char)) :=
  if o.saveFigures then
    match o.figures with
    | none => .ok []
    | some (.one _) => .error .typeError
    | some (.list l) => .ok (l.zipIdx.map fun fi => (['_'] ++
        (if 0 < fi.1.1.length then fi.1.1 else "Figure_".toList ++ zfillInt 2 (fi.2 : ℤ)) ++ o.figureExt, fi.1.2))
  else .ok []

/-- One run: `prefix`, `create_directory`, `overwrite` and the files it saves, in order. -/
structure Job where
  pre : Name
  create : Bool
  overwrite : Bool
  files : List (Name × List Char)

/-- Where a run is: not started; stem chosen; about to make the folder; `k` files written; file `k` open and still empty; failed with an exception;
stopped for good. -/
inductive Pc where
  | idle
  | picked (st : Name)
  | making (st : Name)
  | ready (st : Name) (k : ℕ)
  | opened (st : Name) (k : ℕ)
  | failed (e : Exn)
  | gone
  | dead (st : Name) (k : ℕ)
deriving DecidableEq

/-- File name of a run with this stem, 1363-1370, 1409-1410, 1423, 1431, 1849. -/
def pathOf (create : Bool) (st f : Name) : Path := if create then .sub st (st ++ f) else .top (st ++ f)

/-- A new entry of the directory. -/
def FS.addTop (fs : FS) (nm : Name) : FS := { fs with tops := if nm ∈ fs.tops then fs.tops else nm :: fs.tops }

/-- `os.mkdir`. -/
def FS.mkdir (fs : FS) (nm : Name) : FS := { tops := nm :: fs.tops, isDir := fun d => if d = nm then true else fs.isDir d, file := fs.file }

/-- Contents of one file changed. -/
def FS.put (fs : FS) (q : Path) (t : List Char) : FS := { fs with file := fun r => if r = q then some t else fs.file r }

/-- `open(q, 'w')` succeeds: `q` is not a folder, its folder exists. -/
def FS.openable (fs : FS) : Path → Bool
  | .top f => !fs.isDir f
  | .sub d _ => fs.isDir d

/-- `open(q, 'w')`: the file exists afterwards and is empty. -/
def FS.open (fs : FS) (q : Path) : FS :=
  match q with
  | .top f => (fs.addTop f).put q []
  | .sub _ _ => fs.put q []

/-- Writing `t` from the beginning of a file that somebody else may have written to since it was opened. -/
def FS.write (fs : FS) (q : Path) (t : List Char) : FS := fs.put q (t ++ ((fs.file q).getD []).drop t.length)

/-- The next operation of a run: `next_output_stem` (1357-1359, the numbers start at 1, with 4 digits), the check for the folder (1370), `os.mkdir`
(1371), and for each file `open` and writing it in one piece. -/
def stepJob (j : Job) (pc : Pc) (fs : FS) : Pc × FS :=
  match pc with
  | .idle =>
    match nextOutputStem j.pre (some fs.tops) 1 1 4 j.overwrite with
    | some (.ok st) => (.picked st, fs)
    | some (.error e) => (.failed e, fs)
    | none => (.failed .valueError, fs)
  | .picked st => if !j.create || fs.isDir st then (.ready st 0, fs) else (.making st, fs)
  | .making st => if st ∈ fs.tops then (.failed .osError, fs) else (.ready st 0, fs.mkdir st)
  | .ready st k =>
    match j.files[k]? with
    | none => (.ready st k, fs)
    | some f => if fs.openable (pathOf j.create st f.1) then (.opened st k, fs.open (pathOf j.create st f.1)) else (.failed .osError, fs)
  | .opened st k =>
    match j.files[k]? with
    | none => (.ready st k, fs)
    | some f => (.ready st (k + 1), fs.write (pathOf j.create st f.1) f.2)
  | .failed e => (.failed e, fs)
  | .gone => (.gone, fs)
  | .dead st k => (.dead st k, fs)

/-- A run is killed.  What is remembered of it is only for the statement of the theorems. -/
def crashJob (j : Job) (pc : Pc) : Pc :=
  match pc with
  | .ready st k => if j.create || 0 < k then .dead st k else .gone
  | .opened st k => .dead st k
  | .dead st k => .dead st k
  | .failed e => .failed e
  | _ => .gone

/-- All runs and the directory. -/
structure World where
  fs : FS
  pc : ℕ → Pc

inductive SaveEvent where
  | step (i : ℕ)
  | crash (i : ℕ)
deriving DecidableEq

def World.set (w : World) (i : ℕ) (x : Pc × FS) : World := { fs := x.2, pc := fun j => if j = i then x.1 else w.pc j }

def exec (jobs : ℕ → Job) (w : World) : SaveEvent → World
  | .step i => w.set i (stepJob (jobs i) (w.pc i) w.fs)
  | .crash i => w.set i (crashJob (jobs i) (w.pc i), w.fs)

/-- A schedule: any interleaving, with any crashes. -/
def execAll (jobs : ℕ → Job) (w : World) (es : List SaveEvent) : World := es.foldl (exec jobs) w

def start (fs : FS) : World := { fs := fs, pc := fun _ => .idle }

/-! ## Specification -/

namespace Spec

/-- A run has chosen its stem, and nothing in the directory shows it yet. -/
def InWindow (j : Job) : Pc → Prop
  | .picked _ => True
  | .making _ => True
  | .ready _ k => j.create = false ∧ k = 0
  | _ => False

/-- No run chooses its stem while another one has chosen and has not yet made its folder (or first file). -/
def Careful (jobs : ℕ → Job) : World → List SaveEvent → Prop
  | _, [] => True
  | w, e :: es => (∀ i, e = .step i → w.pc i = .idle → ∀ j, ¬ InWindow (jobs j) (w.pc j)) ∧ Careful jobs (exec jobs w e) es

/-- The run has saved everything (and may have been killed since). -/
def Finished (j : Job) (pc : Pc) (st : Name) : Prop := pc = .ready st j.files.length ∨ pc = .dead st j.files.length

/-- A directory listing shows every file and folder. -/
structure Listed (fs : FS) : Prop where
  dirs : ∀ d, fs.isDir d = true → d ∈ fs.tops
  files : ∀ f c, fs.file (.top f) = some c → f ∈ fs.tops
  subs : ∀ d f c, fs.file (.sub d f) = some c → d ∈ fs.tops

/-- Runs of the same prefix that do not ask for overwriting; each saves something, under different names that do not begin with a digit. -/
structure Jobs (p : Name) (jobs : ℕ → Job) : Prop where
  plain : Plain p
  pre : ∀ i, (jobs i).pre = p
  keep : ∀ i, (jobs i).overwrite = false
  nonempty : ∀ i, (jobs i).files ≠ []
  names : ∀ i, ∀ f ∈ (jobs i).files, ∀ c, f.1.head? = some c → isDig c = false
  nodup : ∀ i, ((jobs i).files.map Prod.fst).Nodup

/-- Runs one after the other, the run `i` being killed after `k` operations (it is over before that if `k` is large). -/
def oneByOne (l : List (ℕ × ℕ)) : List SaveEvent := l.flatMap fun ik => List.replicate ik.2 (.step ik.1) ++ [.crash ik.1]

end Spec

end Geotecha.IO.Saving
