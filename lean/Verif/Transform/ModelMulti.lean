import Verif.Piecewise.Model
import Verif.Transform.SpecMulti

/-!
# Model of geotecha/mathematics/multi_transform.py

The transforms themselves (hankel.py, fourier.py, laplace.py) come in as procedures that ask for values of the function they are given
(`Strat`, SpecMulti.lean): what counts here is how they are nested, which options and variables each gets and how the error estimates
are gathered.  `func` does not raise.  `collections.Callable` is taken to exist (Python before 3.10).
-/

namespace Geotecha.Transform
open Geotecha (PyErr)

/-- The methods in `tdict`, multi_transform.py:216-231. -/
inductive Kind where
  | hankel | fourier | fourierInv | laplaceInv
deriving DecidableEq

/-- `self.tdict[name]`, multi_transform.py:209-213 (`KeyError` is `other`). -/
def tdict : String → Except PyErr Kind
  | "Hankel" => .ok .hankel
  | "Hankel_inverse" => .ok .hankel
  | "Fourier" => .ok .fourier
  | "Fourier_inverse" => .ok .fourierInv
  | "Laplace_inverse" => .ok .laplaceInv
  | _ => .error .other

/-- One element of a sequence of options: a dict or a function that returns one. -/
inductive OptItem (Opt : Type) where
  | dict (o : Opt)
  | fn (g : List ℂ → Opt)

/-- The argument `opts`. -/
inductive OptsArg (Opt : Type) where
  | none
  | dict (o : Opt)
  | seq (l : List (OptItem Opt))

/-- An element of `opts` after `ntransform` is through with it: something that can be called, or a bare dict. -/
inductive OptFn (Opt : Type) where
  | callable (g : List ℂ → Opt)
  | bare (o : Opt)

/-- multi_transform.py:130-136 and `_OptFunc`, 142-168; `e` is the empty dict. -/
def prepOpts {Opt : Type} (e : Opt) (depth : ℕ) : OptsArg Opt → List (OptFn Opt)
  | .none => List.replicate depth (.callable fun _ => e)
  | .dict o => List.replicate depth (.bare o)
  | .seq l => l.map fun x => match x with
    | .dict o => .callable fun _ => o
    | .fn g => .callable g

/-- `dict(fn_opt(*args))`, multi_transform.py:246-247: a dict can not be called. -/
def callOpt {Opt : Type} : OptFn Opt → List ℂ → Except PyErr Opt
  | .callable g, args => .ok (g args)
  | .bare _, _ => .error .typeError

/-- `l[-(depth + 1)]`, multi_transform.py:242-246. -/
def fromEnd {α : Type} (l : List α) (d : ℕ) : Except PyErr α :=
  match l.reverse[d]? with
  | some x => .ok x
  | none => .error .indexError

/-- A transform at work on a function that updates `self.abserr` whenever it is called (the second component). -/
def runStrat (f : ℂ → ℝ → Except PyErr (ℂ × ℝ)) : Strat → ℝ → Except PyErr (ℂ × ℝ × ℝ)
  | .done v e, s => .ok (v, e, s)
  | .ask x k, s =>
    match f x s with
    | .error err => .error err
    | .ok (y, s') => runStrat f (k y) s'

variable {Opt : Type}

/-- `_NTransform.integral_transform`, multi_transform.py:233-262.  The first argument is `maxdepth - depth`; at `0` the code is only reached
with empty lists.  `s` is `self.abserr`, and so is the second part of the answer. -/
noncomputable def level (trans : Kind → Opt → ℂ → Strat) (func : List ℂ → ℂ) (names : List String) (tvars : List ℂ) (opts : List (OptFn Opt)) :
    ℕ → ℕ → List ℂ → ℝ → Except PyErr (ℂ × ℝ)
  | 0, _, _, _ => .error .indexError
  | rem + 1, depth, args, s => do
    let name ← fromEnd names depth
    let kind ← tdict name
    let tvar ← fromEnd tvars depth
    let fn ← fromEnd opts depth
    let opt ← callOpt fn args
    let f := fun (x : ℂ) (s : ℝ) =>
      if rem = 0 then (.ok (func (x :: args), s) : Except PyErr (ℂ × ℝ))
      else level trans func names tvars opts rem (depth + 1) (x :: args) s
    let (v, e, s) ← runStrat f (trans kind opt tvar) s
    return (v, max s |e|)

/-- `ntransform`, multi_transform.py:39-140 (`AssertionError` is `other`). -/
noncomputable def ntransform (trans : Kind → Opt → ℂ → Strat) (e : Opt) (func : List ℂ → ℂ) (names : List String) (tvars : List ℂ)
    (args : Option (List ℂ)) (opts : OptsArg Opt) : Except PyErr (ℂ × ℝ) :=
  if tvars.length ≠ names.length then .error .other
  else level trans func names tvars (prepOpts e names.length opts) names.length 0 (args.getD []) 0

end Geotecha.Transform
