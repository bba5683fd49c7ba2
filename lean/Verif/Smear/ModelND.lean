import Verif.Smear.Model
import Mathlib.Analysis.SpecialFunctions.Pow.Real

/-! # Model of the non-Darcian functions of geotecha/consolidation/smear_zones.py (lines 2752-3692)

Reals for floats.  `np.any` checks of array arguments are per element.  `arr` says whether some argument of
`_g`/`_gbar` is an array: the code then uses the series loop, otherwise the recursion. -/

set_option autoImplicit false
namespace Geotecha.Smear
open Real Geotecha.Piecewise
open Geotecha (PyErr)

/-- `special.poch(x, j)`, the rising factorial, smear_zones.py:2888, 3056. -/
noncomputable def poch (x : ℝ) (j : ℕ) : ℝ := ∏ i ∈ Finset.range j, (x + i)

/-- The series loop of `_g`, smear_zones.py:2883-2895. -/
noncomputable def gSeries (r re nf : ℝ) (T : ℕ) : ℝ :=
  (∑ j ∈ Finset.range T, poch (-1.0 / nf) j / (j.factorial : ℝ) / ((2 * j + 1) * nf - 1) * (r / re) ^ (2 * j)) * (nf * r ^ (1 - 1.0 / nf))

/-- `a[j]` after `np.cumprod`, smear_zones.py:2902-2909. -/
noncomputable def gTerm (r re nf : ℝ) : ℕ → ℝ
  | 0 => nf / (nf - 1.0) * r ^ (1.0 - 1.0 / nf)
  | j + 1 => gTerm r re nf j * ((r / re) ^ 2 * ((j + 1) * nf - nf - 1) * (2 * (j + 1) * nf - nf - 1) / (nf * (j + 1) * (2 * (j + 1) * nf + nf - 1)))

/-- The recursion of `_g`, smear_zones.py:2900-2912. -/
noncomputable def gRec (r re nf : ℝ) (T : ℕ) : ℝ := ∑ j ∈ Finset.range T, gTerm r re nf j

/-- `_g`, smear_zones.py:2752-2912; without terms the recursion indexes an empty array. -/
noncomputable def g (arr : Bool) (r re nf : ℝ) (T : ℕ) : Except PyErr ℝ :=
  if r < 1 then .error .valueError
  else if re ≤ 1 then .error .valueError
  else if nf ≤ 1 then .error .valueError
  else if arr then .ok (gSeries r re nf T)
  else if T = 0 then .error .indexError
  else .ok (gRec r re nf T)

/-- The series loop of `_gbar`, smear_zones.py:3051-3064. -/
noncomputable def gbarSeries (r re nf : ℝ) (T : ℕ) : ℝ :=
  (∑ j ∈ Finset.range T, poch (-1.0 / nf) j / (j.factorial : ℝ) / ((2 * j + 1) * nf - 1) / ((2 * j + 3) * nf - 1) * (r / re) ^ (2 * j)) *
    (nf ^ 2 * r ^ (3 - 1.0 / nf))

/-- `a[j]` after `np.cumprod`, smear_zones.py:3068-3077. -/
noncomputable def gbarTerm (r re nf : ℝ) : ℕ → ℝ
  | 0 => nf ^ 2 / (nf - 1.0) / (3 * nf - 1.0) * r ^ (3.0 - 1.0 / nf)
  | j + 1 => gbarTerm r re nf j *
      ((r / re) ^ 2 * ((j + 1) * nf - nf - 1) * (2 * (j + 1) * nf - nf - 1) / (nf * (j + 1) * (2 * (j + 1) * nf + 3 * nf - 1)))

/-- The recursion of `_gbar`, smear_zones.py:3068-3080. -/
noncomputable def gbarRec (r re nf : ℝ) (T : ℕ) : ℝ := ∑ j ∈ Finset.range T, gbarTerm r re nf j

/-- `_gbar`, smear_zones.py:2915-3080. -/
noncomputable def gbar (arr : Bool) (r re nf : ℝ) (T : ℕ) : Except PyErr ℝ :=
  if r < 1 then .error .valueError
  else if re ≤ 1 then .error .valueError
  else if nf ≤ 1 then .error .valueError
  else if arr then .ok (gbarSeries r re nf T)
  else if T = 0 then .error .indexError
  else .ok (gbarRec r re nf T)

/-- `non_darcy_beta_ideal` (one element), smear_zones.py:3083-3197. -/
noncomputable def ndBetaIdeal (arr : Bool) (n nf : ℝ) (T : ℕ) : Except PyErr ℝ :=
  if n ≤ 1 then .error .valueError
  else if nf ≤ 1 then .error .valueError
  else do
    let g1 ← g arr 1 n nf T
    let b := -g1 * (n ^ 2 - 1)
    let gn ← gbar arr n n nf T
    let b := b + 2 * gn
    let gb1 ← gbar arr 1 n nf T
    let b := b - 2 * gb1
    return b / (n ^ 2 - 1)

/-- `non_darcy_beta_constant` (one element), smear_zones.py:3199-3335; `arr`: `n` or `nflow` is an array, `arrS`: `s` is one. -/
noncomputable def ndBetaConstant (arr arrS : Bool) (n s kap nf : ℝ) (T : ℕ) : Except PyErr ℝ :=
  if n ≤ 1 then .error .valueError
  else if s < 1 then .error .valueError
  else if kap < 1 then .error .valueError
  else if nf ≤ 1 then .error .valueError
  else do
    let gn ← gbar arr n n nf T
    let gb1 ← gbar arr 1 n nf T
    let g1 ← g arr 1 n nf T
    let gbs ← gbar (arr || arrS) s n nf T
    let gs ← g (arr || arrS) s n nf T
    let b := 2 * gn - kap ^ (1 / nf) * (2 * gb1 + g1 * (n ^ 2 - 1))
    let b := b + (kap ^ (1 / nf) - 1) * (2 * gbs + gs * (n ^ 2 - s ^ 2))
    return b / (n ^ 2 - 1)

/-- `psi` before it is divided by `kap[i]**(1 / nflow)`: the zones inside, smear_zones.py:3471-3476, 3662-3668. -/
noncomputable def ndPsi (n nf : ℝ) (T : ℕ) (zs : List CZone) : ℝ :=
  (zs.map fun z => z.kap ^ (1 / nf) * (gRec z.hi n nf T - gRec z.lo n nf T)).sum

/-- The loop over the zones, smear_zones.py:3465-3484; `done` are the zones `j < i`.  All calls of `_g`, `_gbar`
are with scalars, radii at least 1 and checked exponents, so none of them raises (if `nterms > 0`). -/
noncomputable def ndSum (n nf : ℝ) (T : ℕ) : List CZone → List CZone → ℝ
  | _, [] => 0
  | done, z :: zs =>
    z.kap ^ (1 / nf) * (2 * gbarRec z.hi n nf T - 2 * gbarRec z.lo n nf T
      + (ndPsi n nf T done / z.kap ^ (1 / nf) - gRec z.lo n nf T) * (z.hi ^ 2 - z.lo ^ 2)) + ndSum n nf T (done ++ [z]) zs

open Classical in
/-- The argument checks of `non_darcy_beta_piecewise_constant` and `non_darcy_u_piecewise_constant`,
smear_zones.py:3427-3465, 3603-3643: the two functions begin with the same lines. -/
noncomputable def ndZones (s kap : List ℝ) (n kapm : Option ℝ) (nf : ℝ) : Except PyErr (ℝ × List CZone) :=
  if n.isSome ∧ kapm = none ∧ kap = [] then .error .indexError else
  let (s, kap) := extend s kap n kapm
  if s.length ≠ kap.length then .error .valueError
  else if ∃ x ∈ s, x ≤ 1 then .error .valueError
  else if ∃ k ∈ kap, k ≤ 0 then .error .valueError
  else if ¬ Increasing s then .error .valueError
  else if nf ≤ 1 then .error .valueError
  else match s.getLast? with
    | none => .error .indexError
    | some n => .ok (n, cZones 1 s kap)

/-- `non_darcy_beta_piecewise_constant`, smear_zones.py:3338-3487 (`nterms = 0`: `_gbar` indexes an empty array). -/
noncomputable def ndBetaPiecewise (s kap : List ℝ) (n kapm : Option ℝ) (nf : ℝ) (T : ℕ) : Except PyErr ℝ := do
  let (n, zs) ← ndZones s kap n kapm nf
  if T = 0 then .error .indexError
  else return ndSum n nf T [] zs / (n ^ 2 - 1)

/-- The loop body of `non_darcy_u_piecewise_constant` for one radius, smear_zones.py:3648-3653, 3660-3679: the first zone whose outer radius is not below
`x` (`np.searchsorted(s, si)`). -/
noncomputable def ndStep (n nf : ℝ) (T : ℕ) (x : ℝ) : List CZone → List CZone → Option ℝ
  | _, [] => none
  | done, z :: zs =>
    if x ≤ z.hi then
      some (z.kap ^ (1 / nf) * (gRec x n nf T - gRec z.lo n nf T + ndPsi n nf T done / z.kap ^ (1 / nf)))
    else ndStep n nf T x (done ++ [z]) zs

open Classical in
/-- `non_darcy_u_piecewise_constant`, smear_zones.py:3490-3689. -/
noncomputable def ndU (s kap si : List ℝ) (uavg uw muw : ℝ) (n kapm : Option ℝ) (nf : ℝ) (T : ℕ) : Except PyErr (List ℝ) := do
  let (n, zs) ← ndZones s kap n kapm nf
  if ∃ x ∈ si, x < 1 ∨ n < x then .error .valueError
  else if T = 0 then .error .indexError
  else
    let beta := ndSum n nf T [] zs / (n ^ 2 - 1)
    let term1 := (uavg - uw) / (beta + muw)
    si.mapM fun x => match ndStep n nf T x [] zs with
      | some P => .ok ((P + muw) * term1 + uw)
      | none => .error .indexError

/-- What `n` may be in `non_darcy_drain_eta`, smear_zones.py:3756-3761: a number, `None`, a list or a numpy array. -/
inductive NArg where
  | num (x : ℝ)
  | none
  | list (xs : List ℝ)
  | arr (xs : List ℝ)

/-- The formula for `eta`, smear_zones.py:3767-3768. -/
noncomputable def ndEtaF (re iL gamw nf beta rw : ℝ) : ℝ :=
  2 / (re ^ 2 * beta ^ nf * (rw * gamw) ^ (nf - 1) * nf * iL ^ (nf - 1))

open Classical in
/-- `non_darcy_drain_eta`, smear_zones.py:3692-3769.  `beta` is what `beta_fn(*args, **kwargs)` gives, `kwn` is `kwargs.get('n')` (the outer
option: not among the keyword arguments), `args` the positional arguments, `nf` is `kwargs.get('nflow')` (`KeyError` is `.other`).  An array `n` gives an
array of values.  Infinities of numpy divisions by zero are not modelled. -/
noncomputable def ndEta (re iL gamw : ℝ) (beta : Except PyErr ℝ) (kwn : Option NArg) (args : List NArg) (nf : Option ℝ) : Except PyErr (List ℝ) := do
  let n ← match kwn, args with
    | some n, _ => .ok n
    | .none, a :: _ => .ok a
    | .none, [] => .error .indexError
  let rw ← match n with
    | .num x => if x = 0 then .error .zeroDivision else .ok [re / x]
    | .none => .error .typeError
    | .list _ => .error .typeError
    | .arr xs => .ok (xs.map fun x => re / x)
  let nf ← match nf with
    | some nf => .ok nf
    | .none => .error .other
  let b ← beta
  return rw.map fun rw => ndEtaF re iL gamw nf b rw

end Geotecha.Smear
