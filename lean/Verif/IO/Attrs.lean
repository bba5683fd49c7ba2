import Verif.IO.Exn
import Mathlib.Data.Rat.Defs
import Mathlib.Algebra.Order.Ring.Rat
import Mathlib.Algebra.Order.Ring.Abs

/-! # Model of the attribute checks of input objects (inputoutput.py:718-1035, 1477-1526)

An object is a map from attribute names to values; a missing attribute is `none` of the outer option (Python: `AttributeError`).
Simplification: comparisons such as `x != None` on a numpy array (elementwise in numpy) are not modelled: values here compare as plain objects. -/

namespace Geotecha.IO

/-- Attribute values, as far as the checks look at them: `None`, a list, a `PolyLine` (its x values), any other object with a length
(array, string, dict), any other object without. -/
inductive Val where
  | none
  | list (l : List Val)
  | poly (x : List ℚ)
  | sized (len : ℕ) (tag : ℕ)
  | scalar (tag : ℕ)

abbrev Obj := String → Option Val

/-- `obj.__getattribute__(v)`. -/
def Obj.get (o : Obj) (v : String) : Except Exn Val :=
  match o v with
  | some x => .ok x
  | .none => .error .attributeError

/-- `obj.__setattr__(v, x)`. -/
def Obj.set (o : Obj) (v : String) (x : Val) : Obj := fun w => if w = v then some x else o w

/-- `v is None`. -/
def Val.isNone : Val → Bool
  | .none => true
  | _ => false

/-- `isinstance(v, list)`. -/
def Val.isList : Val → Bool
  | .list _ => true
  | _ => false

/-- `len(v)` if the value has `__len__`. -/
def Val.len? : Val → Option ℕ
  | .list l => some l.length
  | .sized n _ => some n
  | _ => Option.none

/-- `[g(v) is None for v in check]`. -/
def noneFlags (o : Obj) : List String → Except Exn (List Bool)
  | [] => .ok []
  | v :: vs => match o.get v with
    | .error e => .error e
    | .ok x => match noneFlags o vs with
      | .error e => .error e
      | .ok bs => .ok (x.isNone :: bs)

/-- `for check in l: f(check)`. -/
def forEach {α : Type} (f : α → Except Exn Unit) : List α → Except Exn Unit
  | [] => .ok ()
  | a :: as => match f a with
    | .error e => .error e
    | .ok _ => forEach f as

/-- Body of the first loop, inputoutput.py:938-940. -/
def checkZeroOrAll (o : Obj) (check : List String) : Except Exn Unit :=
  match noneFlags o check with
  | .error e => .error e
  | .ok fs => if 1 ≤ fs.count true ∧ fs.count true < check.length then .error .valueError else .ok ()

/-- Body of the second loop, 942-947. -/
def checkAtLeastOne (o : Obj) (check : List String) : Except Exn Unit :=
  match noneFlags o check with
  | .error e => .error e
  | .ok fs => if fs.any (fun b => !b) = false then .error .valueError else .ok ()

/-- Body of the third loop, 949-954. -/
def checkOneImplies (o : Obj) (check : List String) : Except Exn Unit :=
  match check with
  | [] => .error .valueError
  | [_] => .error .valueError
  | v :: vs => match o.get v with
    | .error e => .error e
    | .ok x => if x.isNone then .ok () else match noneFlags o vs with
      | .error e => .error e
      | .ok fs => if fs.all (fun b => !b) = false then .error .valueError else .ok ()

/-- `check_attribute_combinations`, 911-956. -/
def checkCombinations (o : Obj) (zeroOrAll atLeastOne oneImplies : List (List String)) : Except Exn Unit :=
  match forEach (checkZeroOrAll o) zeroOrAll with
  | .error e => .error e
  | .ok _ => match forEach (checkAtLeastOne o) atLeastOne with
    | .error e => .error e
    | .ok _ => forEach (checkOneImplies o) oneImplies

/-- `check_attribute_is_list`, 791-822. -/
def checkIsList (force : Bool) : List String → Obj → Except Exn Obj
  | [], o => .ok o
  | v :: vs, o => match o.get v with
    | .error e => .error e
    | .ok x =>
      if x.isNone || x.isList then checkIsList force vs o
      else if force then checkIsList force vs (o.set v (.list [x]))
      else .error .valueError

/-- Inner loop of `force_attribute_same_len_if_none`, 985-987; `a1` is the first attribute of the group. -/
def forceGroup (a1 value : Val) : List String → Obj → Except Exn Obj
  | [], o => .ok o
  | v :: vs, o => match o.get v with
    | .error e => .error e
    | .ok x => if x.isNone then
        match a1.len? with
        | Option.none => .error .typeError
        | some n => forceGroup a1 value vs (o.set v (.list (List.replicate n value)))
      else forceGroup a1 value vs o

/-- `force_attribute_same_len_if_none`, 959-987. -/
def forceSameLen (value : Val) : List (List String) → Obj → Except Exn Obj
  | [], o => .ok o
  | [] :: _, _ => .error .indexError
  | (v :: vs) :: gs, o => match o.get v with
    | .error e => .error e
    | .ok a1 => if a1.isNone then forceSameLen value gs o else
        match forceGroup a1 value vs o with
        | .error e => .error e
        | .ok o => forceSameLen value gs o

/-- Body of the loop of `check_attribute_pairs_have_equal_length`, 894-904. -/
def checkPair (o : Obj) (pair : List String) : Except Exn Unit :=
  match pair with
  | [v1, v2] => match o.get v1 with
    | .error e => .error e
    | .ok a => match o.get v2 with
      | .error e => .error e
      | .ok b => if a.isNone || b.isNone then .ok () else
          match a.len?, b.len? with
          | some m, some n => if m ≠ n then .error .valueError else .ok ()
          | _, _ => .error .typeError
  | _ => .error .valueError

/-- `check_attribute_pairs_have_equal_length`, 873-908. -/
def checkPairs (o : Obj) (pairs : List (List String)) : Except Exn Unit := forEach (checkPair o) pairs

/-- x limits of a `PolyLine` value; `IndexError` if it has no points, `AttributeError` if it is not a PolyLine. -/
def limits : Val → Except Exn (ℚ × ℚ)
  | .poly (x :: xs) => .ok (x, (x :: xs).getLast (by simp))
  | .poly [] => .error .indexError
  | _ => .error .attributeError

/-- The PolyLines in an attribute value: the value itself or the members of the list. -/
def members : Val → List Val
  | .list l => l
  | v => [v]

/-- `np.allclose([a, b], xcheck)` with the default tolerances. -/
def closeLimits (a c : ℚ × ℚ) : Bool :=
  decide (|a.1 - c.1| ≤ 1 / 10 ^ 8 + 1 / 10 ^ 5 * |c.1|) && decide (|a.2 - c.2| ≤ 1 / 10 ^ 8 + 1 / 10 ^ 5 * |c.2|)

/-- "find first x values", 848-861. -/
def firstLimits (o : Obj) : List String → Except Exn (Option (ℚ × ℚ))
  | [] => .ok .none
  | v :: vs => match o.get v with
    | .error e => .error e
    | .ok .none => firstLimits o vs
    | .ok x => match members x with
      | [] => .error .indexError
      | m :: _ => match limits m with
        | .error e => .error e
        | .ok r => .ok (some r)

/-- Check of one member against the first limits, 866-872. -/
def checkMember (c : ℚ × ℚ) (m : Val) : Except Exn Unit :=
  match limits m with
  | .error e => .error e
  | .ok r => if closeLimits r c then .ok () else .error .valueError

/-- One attribute, 864-872. -/
def checkAttrLimits (o : Obj) (c : ℚ × ℚ) (v : String) : Except Exn Unit :=
  match o.get v with
  | .error e => .error e
  | .ok .none => .ok ()
  | .ok x => forEach (checkMember c) (members x)

/-- One sublist; when every attribute is `None` the second loop does nothing. -/
def checkLimitsGroup (o : Obj) (sub : List String) : Except Exn Unit :=
  match firstLimits o sub with
  | .error e => .error e
  | .ok .none => .ok ()
  | .ok (some c) => forEach (checkAttrLimits o c) sub

/-- `check_attribute_PolyLines_have_same_x_limits`, 825-870. -/
def checkLimits (o : Obj) (groups : List (List String)) : Except Exn Unit := forEach (checkLimitsGroup o) groups

/-- The configuration attributes of an input class (`_setup`). -/
structure Setup where
  zeroOrAll : List (List String)
  atLeastOne : List (List String)
  oneImplies : List (List String)
  lists : List String
  sameLen : List (List String)
  sameLimits : List (List String)
  lenPairs : List (List String)

/-- `InputFileLoaderCheckerSaver.check_input_attributes`, 1477-1526. -/
def checkInput (s : Setup) (o : Obj) : Except Exn Obj :=
  match checkCombinations o s.zeroOrAll s.atLeastOne s.oneImplies with
  | .error e => .error e
  | .ok _ => match checkIsList true s.lists o with
    | .error e => .error e
    | .ok o => match forceSameLen .none s.sameLen o with
      | .error e => .error e
      | .ok o => match checkLimits o s.sameLimits with
        | .error e => .error e
        | .ok _ => match checkPairs o s.lenPairs with
          | .error e => .error e
          | .ok _ => .ok o

/-- `copy_attributes_between_objects`, 718-754: `src` is `from_object.__dict__`. -/
def copyAttributes (src : Obj) (defaults : Obj) (notFound : Val) : List String → Obj → Obj
  | [], o => o
  | v :: vs, o => copyAttributes src defaults notFound vs (o.set v ((src v).getD ((defaults v).getD notFound)))

/-- `initialize_objects_attributes`, 991-1035. -/
def initAttributes (defaults : Obj) (notFound : Val) : List String → Obj → Obj
  | [], o => o
  | v :: vs, o => initAttributes defaults notFound vs (o.set v ((defaults v).getD notFound))

/-- `copy_dict`, plotting/one_d.py:176-178. -/
def copyDict (src diffs : Obj) : Obj := fun k => match diffs k with
  | some v => some v
  | .none => src k

end Geotecha.IO
