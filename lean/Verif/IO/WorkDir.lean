import Verif.IO.Exn
import Mathlib.Data.List.Basic

/-! # Model of `working_directory` (inputoutput.py:2114-2138) and of the processing loop of `GenericInputFileArgParser.main` (2033-2106)

The body of a `with` block and `process` are arbitrary functions on the process state, so they may change directory, create and delete
directories, change the log level, call `working_directory` themselves, and raise. -/

namespace Geotecha.IO

/-- An absolute path, as its components. -/
abbrev Path := List String

/-- What is raised: an `Exception`, or a `BaseException` that `except Exception` does not catch (`KeyboardInterrupt`, `SystemExit`). -/
inductive Raised where
  | exn (e : Exn)
  | base (n : ℕ)
deriving DecidableEq

/-- Process state: current directory, existing directories, root log level, and the record of `process` calls (file, directory at the call). -/
structure PState where
  cwd : Path
  dirs : Path → Bool
  level : ℕ
  calls : List (Path × Path) := []

/-- Statements: the new state and what was raised, if anything. -/
abbrev Stmt := PState → PState × Option Raised

/-- `os.chdir(p)` for an absolute path. -/
def chdir (p : Path) : Stmt := fun s => if s.dirs p then ({ s with cwd := p }, none) else (s, some (.exn .osError))

/-- `with working_directory(p): body`, 2114-2138. `os.getcwd()` fails when the current directory was deleted; an exception raised by the
`finally` clause replaces the one of the body. -/
def withDir (p : Path) (body : Stmt) : Stmt := fun s =>
  if s.dirs s.cwd then
    match chdir p s with
    | (s1, some e) => (s1, some e)
    | (s1, none) =>
      match body s1 with
      | (s2, r) =>
        match chdir s.cwd s2 with
        | (s3, some e) => (s3, some e)
        | (s3, none) => (s3, r)
  else (s, some (.exn .osError))

/-- `os.path.dirname(path)` of an absolute path. -/
def dirname (p : Path) : Path := p.dropLast

/-- One turn of the loop, 2073-2103: `process` is called in the directory of the file; `Exception`s are logged. -/
def processOne (process : Path → Stmt) (path : Path) : Stmt := fun s =>
  match withDir (dirname path) (fun s => process path { s with calls := s.calls ++ [(path, s.cwd)] }) s with
  | (s1, some (.exn _)) => (s1, none)
  | r => r

/-- The loop over the file names. -/
def processLoop (process : Path → Stmt) : List Path → Stmt
  | [], s => (s, none)
  | p :: ps, s => match processOne process p s with
    | (s1, none) => processLoop process ps s1
    | r => r

/-- 2066-2106: save the level, set `INFO`, loop, restore the level. -/
def processFiles (process : Path → Stmt) (info : ℕ) (files : List Path) : Stmt := fun s =>
  match processLoop process files { s with level := info } with
  | (s1, none) => ({ s1 with level := s.level }, none)
  | r => r

/-- File selection by `--directory` and `--pattern`, 2044-2057: the names in each directory that match and are not the base name of `__file__`,
which is this library module whatever script is running. `None` = `IOError`. `matches_` is `fnmatch`. -/
def selectFiles (matches_ : String → Bool) (listing : Path → List String) (ds : List Path) : Except Exn (List Path) :=
  let fs := ds.flatMap fun d => ((listing d).filter fun v => matches_ v && v != "inputoutput.py").map fun v => d ++ [v]
  if fs.length = 0 then .error .osError else .ok fs

end Geotecha.IO
