import Verif.IO.Exn
import Mathlib.Data.List.Basic
import Mathlib.Algebra.Order.Ring.Int

/-! # Model of `next_output_stem` (inputoutput.py:1643-1704) and `_determine_output_stem` (1343-1373)

Strings are lists of characters. `re.compile(prefix + "(?P<x>\d+).*")` is modelled for prefixes made of literal characters, `.`, and the postfix
operators `+ * ?` (greedy, backtracking); a prefix with other metacharacters (`^ $ { } [ ] \ | ( )`), a dangling or doubled operator is outside the
model (`none`). `\d` is modelled for the ten ASCII digits. -/

namespace Geotecha.IO

/-- One character of the pattern: a literal or `.` (any character but a newline). -/
inductive Atom where
  | lit (c : Char)
  | any
deriving DecidableEq

/-- Postfix operators. -/
inductive Quant where
  | one | opt | star | plus
deriving DecidableEq

abbrev Regex := List (Atom × Quant)

/-- Characters with a special meaning in `re` other than `. + * ?`. -/
def unmodelled (c : Char) : Bool := c ∈ ['^', '$', '{', '}', '[', ']', '\\', '|', '(', ')']

/-- Whether the character is a postfix operator. -/
def quantOf (c : Char) : Option Quant :=
  if c = '+' then some .plus else if c = '*' then some .star else if c = '?' then some .opt else none

/-- `re` parsing of the prefix (an operator must follow an atom, and only one operator). -/
def parseRegex : List Char → Option Regex
  | [] => some []
  | c :: cs =>
    if unmodelled c || (quantOf c).isSome then none
    else match cs with
      | [] => some [(if c = '.' then .any else .lit c, .one)]
      | q :: cs' => match quantOf q with
        | some q => (parseRegex cs').map ((if c = '.' then .any else .lit c, q) :: ·)
        | none => (parseRegex (q :: cs')).map ((if c = '.' then .any else .lit c, .one) :: ·)

/-- The atom accepts the character. -/
def Atom.ok : Atom → Char → Bool
  | .lit c, d => c == d
  | .any, d => d != '\n'

/-- ASCII digits. -/
def isDig (c : Char) : Bool := 48 ≤ c.toNat && c.toNat ≤ 57

/-- `int(s)` for a string of digits. -/
def intOf (ds : List Char) : ℕ := ds.foldl (fun a c => 10 * a + (c.toNat - 48)) 0

/-- `(?P<x>\d+).*` at a position: the longest non-empty run of digits. -/
def captureDigits (s : List Char) : Option ℕ :=
  if s.takeWhile isDig = [] then none else some (intOf (s.takeWhile isDig))

/-- Greedy `a*` then the continuation, backtracking. -/
def starThen (a : Atom) (k : List Char → Option ℕ) : List Char → Option ℕ
  | [] => k []
  | c :: s => if a.ok c then (match starThen a k s with
      | some n => some n
      | none => k (c :: s)) else k (c :: s)

/-- `pattern.match(name)` and `int(match.group('x'))`. -/
def matchNum : Regex → List Char → Option ℕ
  | [], s => captureDigits s
  | (a, .one) :: r, s => match s with
    | c :: s => if a.ok c then matchNum r s else none
    | [] => none
  | (a, .opt) :: r, s => match s with
    | c :: s => if a.ok c then (match matchNum r s with
        | some n => some n
        | none => matchNum r (c :: s)) else matchNum r (c :: s)
    | [] => matchNum r []
  | (a, .star) :: r, s => starThen a (matchNum r) s
  | (a, .plus) :: r, s => match s with
    | c :: s => if a.ok c then starThen a (matchNum r) s else none
    | [] => none

/-- `str(n)` for a natural number. -/
def strNat (n : ℕ) : List Char := if n < 10 then [Char.ofNat (48 + n)] else strNat (n / 10) ++ [Char.ofNat (48 + n % 10)]
termination_by n
decreasing_by omega

/-- `str(i).zfill(w)`: zeros go after a sign. -/
def zfillInt (w : ℕ) (i : ℤ) : List Char :=
  if i < 0 then '-' :: (List.replicate (w - 1 - (strNat i.natAbs).length) '0' ++ strNat i.natAbs)
  else List.replicate (w - (strNat i.natAbs).length) '0' ++ strNat i.natAbs

/-- The number chosen, 1693-1702. -/
def nextNum (nums : List ℕ) (start inc : ℤ) (overwrite : Bool) : ℤ :=
  match nums with
  | [] => start
  | n :: ns => let m : ℤ := (ns.foldl max n : ℕ)
    if overwrite then m else m + inc

/-- `next_output_stem(prefix, path, start, inc, zfill, overwrite)`, 1643-1704, given the listing of `path` (`none`: not a directory). -/
def nextOutputStem (prefix_ : List Char) (listing : Option (List (List Char))) (start inc : ℤ) (zfill : ℕ) (overwrite : Bool) :
    Option (Except Exn (List Char)) :=
  match listing with
  | none => some (.error .valueError)
  | some names => match parseRegex prefix_ with
    | none => none
    | some r => some (.ok (prefix_ ++ zfillInt zfill (nextNum (names.filterMap (matchNum r)) start inc overwrite)))

end Geotecha.IO
