import Mathlib.Data.List.Basic
import Mathlib.Tactic.Common

/-! # Model of `code_for_explicit_attribute_initialization`

The function of inputoutput/inputoutput.py:1037-1097 writes Python code, to be pasted into a class.  The code is modelled as text, and so
is the little of Python that is needed to run it: assignments to attributes of one object, of literals and of `dict.get`.  Values are
`None`, booleans, strings and numbers; a number is kept as its text (`str` of a number reads back as that number). -/

set_option autoImplicit false
set_option linter.unusedVariables false

namespace Geotecha.IO.GenCode

/-- Values. -/
inductive PV where
  | none
  | bool (b : Bool)
  | num (text : List Char)
  | str (s : List Char)
deriving DecidableEq

/-- Attributes of an object, entries of a dict. -/
abbrev Attrs := List Char → Option PV

/-! ## The code that is written -/

/-- `'{}'.format(v2)`, after the quotes have been put around a string, inputoutput.py:1073-1076, 1081-1083. -/
def show' : PV → List Char
  | .none => ['N', 'o', 'n', 'e']
  | .bool true => ['T', 'r', 'u', 'e']
  | .bool false => ['F', 'a', 'l', 's', 'e']
  | .num t => t
  | .str s => '\'' :: (s ++ ['\''])

/-- One line with the value written out, inputoutput.py:1078, 1093. -/
def lineVal (obj v : List Char) (x : PV) : List Char := obj ++ ('.' :: (v ++ ([' ', '=', ' '] ++ show' x)))

/-- One line which asks the dict of defaults, inputoutput.py:1085-1088. -/
def lineGet (obj dn v : List Char) (nf : PV) : List Char :=
  obj ++ ('.' :: (v ++ ([' ', '=', ' '] ++ (obj ++ ('.' :: (dn ++ (['.', 'g', 'e', 't', '(', '\''] ++ (v ++ (['\'', ',', ' '] ++ (show' nf ++ [')']))))))))))

/-- `code_for_explicit_attribute_initialization`, inputoutput.py:1068-1097; `dn` is `defaults_name`. -/
def gen (defaults : Attrs) (dn : Option (List Char)) (obj : List Char) (nf : PV) : List (List Char) → List Char
  | [] => []
  | v :: vs => (match dn with
    | none => lineVal obj v ((defaults v).getD nf)
    | some d => if (defaults v).isSome then lineGet obj d v nf else lineVal obj v nf) ++ ('\n' :: gen defaults dn obj nf vs)

/-! ## Python -/

/-- Lines of a text. -/
def lines : List Char → List Char → List (List Char)
  | [], acc => [acc.reverse]
  | c :: r, acc => if c = '\n' then acc.reverse :: lines r [] else lines r (c :: acc)

/-- The rest after a prefix. -/
def strip : List Char → List Char → Option (List Char)
  | [], l => some l
  | a :: p, b :: l => if a = b then strip p l else none
  | _ :: _, [] => none

/-- Characters of identifiers (ASCII). -/
def isId (c : Char) : Bool := c.isAlphanum || c == '_'

/-- The inside of a string literal, after the opening quote: the literal ends with the text.  Of the escapes the three most common are
modelled; what may follow a literal (another literal, an operator, a comment) is not (`none`). -/
def readStr : List Char → List Char → Option (List Char)
  | [], _ => none
  | ['\''], acc => some acc.reverse
  | '\'' :: _ :: _, _ => none
  | '\\' :: '\\' :: r, acc => readStr r ('\\' :: acc)
  | '\\' :: '\'' :: r, acc => readStr r ('\'' :: acc)
  | '\\' :: 'n' :: r, acc => readStr r ('\n' :: acc)
  | c :: r, acc => if c = '\\' then none else readStr r (c :: acc)

/-- Characters of numbers. -/
def isNumChar (c : Char) : Bool := c ∈ ['0', '1', '2', '3', '4', '5', '6', '7', '8', '9', '.', 'e', '+', '-']

/-- A literal. -/
def readVal (l : List Char) : Option PV :=
  if l = ['N', 'o', 'n', 'e'] then some .none
  else if l = ['T', 'r', 'u', 'e'] then some (.bool true)
  else if l = ['F', 'a', 'l', 's', 'e'] then some (.bool false)
  else if l ≠ [] ∧ l.all isNumChar = true then some (.num l)
  else match strip ['\''] l with
    | some r => (readStr r []).map .str
    | none => none

/-- An assignment: of a literal, or of an entry of the dict `obj.dn`, with its default. -/
inductive Stmt where
  | lit (v : List Char) (x : PV)
  | get (v dn k : List Char) (x : PV)
deriving DecidableEq

/-- `obj.dn.get('k', x)`. -/
def readGet (obj l : List Char) : Option (List Char × List Char × PV) := do
  let r ← strip (obj ++ ['.']) l
  let dn := r.takeWhile isId
  let r ← strip ['.', 'g', 'e', 't', '(', '\''] (r.dropWhile isId)
  let k := r.takeWhile isId
  let r ← strip ['\'', ',', ' '] (r.dropWhile isId)
  if r.getLast? = some ')' then
    let x ← readVal r.dropLast
    pure (dn, k, x)
  else none

/-- A line `obj.v = ...`. -/
def readLine (obj l : List Char) : Option Stmt := do
  let r ← strip (obj ++ ['.']) l
  let v := r.takeWhile isId
  let r ← strip [' ', '=', ' '] (r.dropWhile isId)
  match readVal r with
  | some x => pure (.lit v x)
  | none => do
    let g ← readGet obj r
    pure (.get v g.1 g.2.1 g.2.2)

/-- A program; empty lines are skipped.  `none`: it is not Python (`SyntaxError`, nothing is run). -/
def parse (obj code : List Char) : Option (List Stmt) := ((lines code []).filter fun l => !l.isEmpty).mapM (readLine obj)

/-- Running it: `dicts` are the attributes of the object which are dicts; a missing one is an `AttributeError`, also `none` here. -/
def exec (dicts : List Char → Option Attrs) : List Stmt → Attrs → Option Attrs
  | [], o => some o
  | .lit v x :: ss, o => exec dicts ss fun w => if w = v then some x else o w
  | .get v dn k x :: ss, o => match dicts dn with
    | none => none
    | some d => exec dicts ss fun w => if w = v then some ((d k).getD x) else o w

/-- Pasting and running the code. -/
def run (obj code : List Char) (dicts : List Char → Option Attrs) (o : Attrs) : Option Attrs := (parse obj code).bind fun ss => exec dicts ss o

end Geotecha.IO.GenCode
