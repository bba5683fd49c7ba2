import Verif.Smear.Model

/-!
# Model of geotecha/consolidation/dengetal2013and2014.py

Reals for floats.  An entry of the array that is a nan in the code is `none`.
-/

open Real
namespace Geotecha.Consol
open Geotecha (PyErr)
open Geotecha.Smear

/-- Arguments of `dengetal2013`, dengetal2013and2014.py:29-30 (`dengetal2014` has no `A1`, `A2`). -/
structure Deng where
  rw : ℝ
  re : ℝ
  A1 : ℝ
  A2 : ℝ
  A3 : ℝ
  H : ℝ
  rs : Option ℝ
  ks : Option ℝ
  kw0 : ℝ
  kh : ℝ
  mv : ℝ
  gamw : ℝ
  ui : ℝ

namespace Deng

/-- `ch`, dengetal2013and2014.py:113. -/
noncomputable def ch (o : Deng) : ℝ := o.kh / o.mv / o.gamw

/-- `n`, dengetal2013and2014.py:114. -/
noncomputable def n (o : Deng) : ℝ := o.re / o.rw

/-- `qw0`, dengetal2013and2014.py:116. -/
noncomputable def qw0 (o : Deng) : ℝ := o.kw0 * π * o.rw ^ 2

/-- `Th`, dengetal2013and2014.py:118. -/
noncomputable def Th (o : Deng) (t : ℝ) : ℝ := o.ch * t / 4 / o.re ^ 2

/-- `mu0`, dengetal2013and2014.py:120-125. -/
noncomputable def mu0 (o : Deng) : Except PyErr ℝ :=
  match o.ks, o.rs with
  | some ks, some rs => muConstant o.n (rs / o.rw) (o.kh / ks)
  | _, _ => muIdeal o.n

/-- `a3`, dengetal2013and2014.py:143, 151. -/
noncomputable def a3 (o : Deng) : ℝ := o.A3 * 4 * o.re ^ 2 / o.ch

/-- Constant discharge capacity, dengetal2013and2014.py:127-131. -/
noncomputable def porConst (o : Deng) (mu0 z t : ℝ) : ℝ :=
  let mus := mu0 + π * o.kh / (o.qw0 * o.A1) * (2 * o.H * z - z ^ 2)
  o.ui * exp (-8 * o.Th t / mus)

/-- `A2*z/H + (A1-A2)*np.log(1 - A2/A1*z/H)`, dengetal2013and2014.py:135 and 153. -/
noncomputable def depthFn (o : Deng) (z : ℝ) : ℝ := o.A2 * z / o.H + (o.A1 - o.A2) * log (1 - o.A2 / o.A1 * z / o.H)

/-- Discharge capacity varies with depth, dengetal2013and2014.py:133-139. -/
noncomputable def porDepth (o : Deng) (mu0 z t : ℝ) : ℝ :=
  let mu1 := o.depthFn z * (2 * π * o.kh * o.H ^ 2 / (o.qw0 * o.A2 ^ 2)) + mu0
  o.ui * exp (-8 * o.Th t / mu1)

/-- The common last formula of the cases with time, dengetal2013and2014.py:145-146 and 154-155. -/
noncomputable def porAlp (o : Deng) (mu0 alp t : ℝ) : ℝ :=
  o.ui * ((1 + alp * exp (-o.a3 * o.Th t)) / (1 + alp)) ^ (8 / (o.a3 * mu0))

/-- `alp0`, dengetal2013and2014.py:144; `none`: division by zero gives `inf`. -/
noncomputable def alpTime (o : Deng) (mu0 z : ℝ) : ℝ := o.qw0 * o.A1 * mu0 / (π * o.kh * (2 * o.H * z - z ^ 2))

/-- `alp`, dengetal2013and2014.py:152-153. -/
noncomputable def alpDepthTime (o : Deng) (mu0 z : ℝ) : ℝ := mu0 * o.qw0 * o.A2 ^ 2 / (2 * π * o.H ^ 2 * o.kh) / o.depthFn z

open Classical in
/-- One entry of the array returned, dengetal2013and2014.py:127-156; `none` is nan: the logarithm of a number that is not positive (at `0`
the product with `A1 - A2` is a nan when `A1 = A2`; for other `A1` depth `0` of the logarithm lies below the layer and is not modelled
separately), or `inf/inf` after a division by zero in `alp`.  `A2 < 0` does not come here. -/
noncomputable def entry (o : Deng) (mu0 z t : ℝ) : Option ℝ :=
  if o.A3 = 0 ∧ o.A2 = 0 then some (o.porConst mu0 z t)
  else if o.A3 = 0 ∧ 0 < o.A2 then
    if 1 - o.A2 / o.A1 * z / o.H ≤ 0 then none else some (o.porDepth mu0 z t)
  else if 0 < o.A3 ∧ o.A2 = 0 then
    if 2 * o.H * z - z ^ 2 = 0 then none else some (o.porAlp mu0 (o.alpTime mu0 z) t)
  else
    if 1 - o.A2 / o.A1 * z / o.H ≤ 0 then none
    else if o.depthFn z = 0 then none
    else some (o.porAlp mu0 (o.alpDepthTime mu0 z) t)

open Classical in
/-- `dengetal2013`, dengetal2013and2014.py:101-156.  The outer `none` is Python's `None`: with `A2 < 0` none of the branches is taken.
`A1 = 0` with `A2 = A3 = 0` divides a Python float by zero. -/
noncomputable def call (o : Deng) (zs ts : List ℝ) : Except PyErr (Option (List (List (Option ℝ)))) :=
  if o.A1 < 0 then .error .valueError
  else if o.A1 < o.A2 then .error .valueError
  else if o.A3 < 0 then .error .valueError
  else match o.mu0 with
    | .error e => .error e
    | .ok m =>
      if o.A2 < 0 then .ok none
      else if o.A1 = 0 ∧ o.A3 = 0 then .error .zeroDivision
      else .ok (some (zs.map fun z => ts.map fun t => o.entry m z t))

/-! ## dengetal2014 -/

/-- `M`, dengetal2013and2014.py:253. -/
noncomputable def M (m : ℕ) : ℝ := (2 * m + 1) / 2 * π

/-- `G0`, dengetal2013and2014.py:252. -/
noncomputable def G0 (o : Deng) : ℝ := π * o.kh * o.H ^ 2 / 4 / o.qw0

/-- `C0`, dengetal2013and2014.py:254. -/
noncomputable def C0 (o : Deng) (mu0 : ℝ) (m : ℕ) : ℝ := M m ^ 2 * mu0 / 8 / o.G0 * o.n ^ 2 / (o.n ^ 2 - 1)

/-- One term of the sum, dengetal2013and2014.py:263-264 (without `ui`).  With `A3 = 0` the exponent is `8/0 = inf` in the code and `1**inf` is
`1`; here `8/0` is `0` and the term is the same. -/
noncomputable def term14 (o : Deng) (mu0 : ℝ) (z t : ℝ) (m : ℕ) : ℝ :=
  2 / M m * sin (M m * (z / o.H)) * ((1 + o.C0 mu0 m * exp (-o.a3 * o.Th t)) / (1 + o.C0 mu0 m)) ^ (8 / (o.a3 * mu0))

open Classical in
/-- `dengetal2014`, dengetal2013and2014.py:227-267 (`A1` and `A2` of the structure are not used). -/
noncomputable def call14 (o : Deng) (nterms : ℕ) (zs ts : List ℝ) : Except PyErr (List (List ℝ)) :=
  if o.A3 < 0 then .error .valueError
  else match o.mu0 with
    | .error e => .error e
    | .ok m0 => .ok (zs.map fun z => ts.map fun t => o.ui * ∑ m ∈ Finset.range nterms, o.term14 m0 z t m)

end Deng
end Geotecha.Consol
