import Verif.IO.Stem
import Mathlib.Data.Rat.Floor


/-! # Model of `hms_string`, `save_grid_data_to_file` and `string_of_object_attributes` (inputoutput.py:1531-1590, 1752-1875) -/

namespace Geotecha.IO

/-! ## `hms_string`, 1857-1875 -/

/-- `int(x)`: truncation towards zero. -/
def pyInt (x : ℚ) : ℤ := if 0 ≤ x then ⌊x⌋ else ⌈x⌉

/-- `x % y` for positive `y`. -/
def pyMod (x y : ℚ) : ℚ := x - y * ⌊x / y⌋

/-- Rounding to the nearest integer, ties to even (as `format(s, '.2f')` does to hundredths). -/
def roundHalfEven (x : ℚ) : ℤ :=
  if x - ⌊x⌋ < 1 / 2 then ⌊x⌋ else if 1 / 2 < x - ⌊x⌋ then ⌊x⌋ + 1 else if ⌊x⌋ % 2 = 0 then ⌊x⌋ else ⌊x⌋ + 1

/-- The three fields printed by `hms_string`: hours, minutes, hundredths of seconds. Rational arithmetic instead of floats. -/
def hms (sec : ℚ) : ℤ × ℤ × ℤ :=
  (pyInt (sec / (60 * 60)), pyInt (pyMod sec (60 * 60) / 60), roundHalfEven (100 * pyMod sec 60))

/-! ## `save_grid_data_to_file`, 1752-1854

Dictionaries are mutable objects: `heap` gives the contents of each. Only the keys `data` (a table), `name` and `header` are looked at; labels
and `df_kwargs` only affect the contents of a file, and are part of the table here. The table is written as given (`to_csv` not modelled). -/

/-- Contents of a data dictionary; `none`: the key is missing. -/
structure DataDict where
  data : Option String
  name : Option String
  header : Option String
deriving DecidableEq

/-- Heap of dictionaries and the files of the output directory. -/
structure GridState where
  heap : ℕ → DataDict
  files : String → Option String

/-- Body of the loop, 1826-1852 (`d.pop` removes the keys). `path` is directory plus stem. -/
def saveOne (path ext : String) (s : GridState) (d : ℕ) : GridState :=
  let c := s.heap d
  let heap := fun e => if e = d then { data := none, name := none, header := none } else s.heap e
  match c.data with
  | none => { s with heap := heap }
  | some t =>
    let fn := path ++ c.name.getD "" ++ ext
    let txt := (match c.header with
      | some h => h ++ "\n"
      | none => "") ++ t
    { heap := heap, files := fun f => if f = fn then some txt else s.files f }

/-- `save_grid_data_to_file` for a list of dictionaries (by reference). -/
def saveGrid (path ext : String) (ds : List ℕ) (s : GridState) : GridState := ds.foldl (saveOne path ext) s

/-! ## `string_of_object_attributes`, 1531-1590 -/

/-- Attribute values written as text; other kinds of values are not modelled. -/
inductive AVal where
  | none
  | int (i : ℤ)
  | str (s : List Char)
deriving DecidableEq

/-- `{1}{2}{1}` of the format: `str(v)`, with quotes around strings (nothing is escaped). -/
def AVal.text : AVal → List Char
  | .none => ['N', 'o', 'n', 'e']
  | .int i => zfillInt 0 i
  | .str s => '\'' :: (s ++ ['\''])

/-- One line. -/
def attrLine (o : List Char → AVal) (v : List Char) : List Char := v ++ [' ', '=', ' '] ++ (o v).text

/-- The text with `none_at_bottom=True` (the default, used for saved parsed input). A missing attribute is `None` (`getattr(obj, v, None)`). -/
def attrText (o : List Char → AVal) (as : List (List Char)) : List Char :=
  ['\n'].intercalate ((as.filter fun v => decide (o v ≠ .none)).map (attrLine o)) ++ ['\n', '\n', '\n'] ++
  ['\n'].intercalate ((as.filter fun v => decide (o v = .none)).map (attrLine o)) ++ ['\n']

end Geotecha.IO
