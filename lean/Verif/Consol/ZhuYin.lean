import Verif.Roots.Model
import Mathlib.Analysis.SpecialFunctions.Pow.Real
import Mathlib.Analysis.SpecialFunctions.Trigonometric.Basic

/-!
# Model of geotecha/consolidation/zhuandyin2012.py

Reals for floats.  The Bessel functions of scipy are a parameter; the roots come from the model of `find_n_roots` with `fsolve` as an oracle.
The plot of the characteristic curve is not modelled.  `1 + alpha` is positive and `H` is not zero (a power of a negative number is complex in
Python, and numpy divides by zero without raising).
-/

set_option autoImplicit false
open Real
namespace Geotecha.Consol
open Geotecha (PyErr)

/-- `scipy.special.jv` and `yv`: order, argument; zhuandyin2012.py:34-35. -/
structure BesselFns where
  J : ℝ → ℝ → ℝ
  Y : ℝ → ℝ → ℝ

/-- Arguments of `zhuandyin2012`, zhuandyin2012.py:38-39. -/
structure ZY where
  z : List ℝ
  t : List ℝ
  alpha : ℝ
  p : ℝ
  q : ℝ
  drn : ℤ
  tpor : Option (List ℝ)
  H : ℝ
  kv0 : ℝ
  mv0 : ℝ
  gamw : ℝ
  ui : ℝ
  nterms : ℕ

namespace ZY

/-- `Zmu`, zhuandyin2012.py:125-129. -/
def zmu (B : BesselFns) (eta mu nu b : ℝ) : ℝ := B.Y nu eta * B.J mu (eta * b) - B.J nu eta * B.Y mu (eta * b)

/-- `Zmu_`, zhuandyin2012.py:131-137. -/
noncomputable def zmuD (B : BesselFns) (eta mu nu b : ℝ) : ℝ :=
  (B.J (mu - 1) (eta * b) / 2 - B.J (mu + 1) (eta * b) / 2) * B.Y nu eta - (B.Y (mu - 1) (eta * b) / 2 - B.Y (mu + 1) (eta * b) / 2) * B.J nu eta

/-- `drn1root`, zhuandyin2012.py:140-142. -/
noncomputable def drn1root (B : BesselFns) (eta mu nu b p n : ℝ) : ℝ :=
  (1 - p) / (2 - n) * zmu B eta nu nu b + eta * b * zmuD B eta nu nu b

/-- `n`, `b`, `nu`, zhuandyin2012.py:156-159. -/
def n (o : ZY) : ℝ := o.p - o.q
noncomputable def b (o : ZY) : ℝ := (1 + o.alpha) ^ (1 - o.n / 2)
noncomputable def nu (o : ZY) : ℝ := |(1 - o.p) / (2 - o.n)|

/-- The function whose roots are searched, zhuandyin2012.py:169-185; for other values of `drn` there is no search. -/
noncomputable def charEqn (o : ZY) (B : BesselFns) : Option (ℝ → ℝ) :=
  if o.drn = 0 then some fun eta => zmu B eta o.nu o.nu o.b
  else if o.drn = 1 then some fun eta => drn1root B eta o.nu o.nu o.b o.p o.n
  else none

/-- The call of `find_n_roots` (root_finding.py:26-27 for the defaults), zhuandyin2012.py:170 and 185. -/
noncomputable def rootArgs (o : ZY) (f : ℝ → ℝ) (solve : ℝ → ℝ → ℝ → ℝ) : Roots.Args where
  f := f
  solve := solve
  n := o.nterms
  x0 := 0.001
  dx := 0.001
  p := 1.01
  maxIter := 2000
  atol := 1e-8
  rtol := 1e-5

/-- `dTv`, zhuandyin2012.py:204-205. -/
noncomputable def dTv (o : ZY) (eta0 : ℝ) : ℝ :=
  o.kv0 / (o.mv0 * o.gamw) * (2 - o.n) ^ 2 * o.alpha ^ 2 * eta0 ^ 2 / (π ^ 2 * o.H ^ 2)

/-- `y`, zhuandyin2012.py:208. -/
noncomputable def y (o : ZY) (z : ℝ) : ℝ := (1 + o.alpha * z / o.H) ^ (1 - o.n / 2)

/-- `Tm`, zhuandyin2012.py:212-214 and 250-253. -/
noncomputable def tm (o : ZY) (eta0 eta t : ℝ) : ℝ := exp (-π ^ 2 * eta ^ 2 / (4 * eta0 ^ 2) * (o.dTv eta0 * t))

/-- `np.allclose(-nu, (p - 1) / (2 - n))`, zhuandyin2012.py:224 and 257. -/
def plusBranch (o : ZY) : Prop := Roots.close 1e-8 1e-5 (-o.nu) ((o.p - 1) / (2 - o.n))

open Classical in
/-- `Cm` of the pore pressure, zhuandyin2012.py:222-238 (`drn` is 0 or 1 here). -/
noncomputable def cmPor (o : ZY) (B : BesselFns) (eta : ℝ) : ℝ :=
  if o.drn = 0 then
    if o.plusBranch then
      2 * π * (2 + π * eta * o.b ^ (1 - o.nu) * zmu B eta (o.nu - 1) o.nu o.b) / (4 - (o.b * π * eta * zmu B eta (1 + o.nu) o.nu o.b) ^ 2)
    else
      2 * π * (2 - π * eta * o.b ^ (1 + o.nu) * zmu B eta (1 + o.nu) o.nu o.b) / (4 - (o.b * π * eta * zmu B eta (1 + o.nu) o.nu o.b) ^ 2)
  else 4 * π / (4 - (o.b * π * eta * zmu B eta o.nu o.nu o.b) ^ 2)

/-- An entry of `por`, zhuandyin2012.py:220, 240-242. -/
noncomputable def porAt (o : ZY) (B : BesselFns) (eta0 : ℝ) (etam : List ℝ) (z t : ℝ) : ℝ :=
  (etam.map fun eta => o.cmPor B eta * zmu B eta o.nu o.nu (o.y z) * o.tm eta0 eta t * (o.ui * o.y z ^ ((1 - o.p) / (2 - o.n)))).sum

open Classical in
/-- `Cm` of the degree of consolidation, zhuandyin2012.py:255-273. -/
noncomputable def cmDoc (o : ZY) (B : BesselFns) (eta : ℝ) : ℝ :=
  if o.drn = 0 then
    if o.plusBranch then
      (2 + π * eta * o.b ^ (1 - o.nu) * zmu B eta (o.nu - 1) o.nu o.b) ^ 2 / (eta ^ 2 * ((o.b * π * eta * zmu B eta (1 + o.nu) o.nu o.b) ^ 2 - 4))
    else
      (2 - π * eta * o.b ^ (1 + o.nu) * zmu B eta (1 + o.nu) o.nu o.b) ^ 2 / (eta ^ 2 * ((o.b * π * eta * zmu B eta (1 + o.nu) o.nu o.b) ^ 2 - 4))
  else 1 / (eta ^ 2 * ((o.b * π * eta * zmu B eta o.nu o.nu o.b) ^ 2 - 4))

/-- `numer` and `denom` of `fr`, zhuandyin2012.py:277-283. -/
noncomputable def frNum (o : ZY) : ℝ := if o.drn = 0 then 4 * (1 + o.q) else 16 * (1 + o.q)
noncomputable def frDen (o : ZY) : ℝ := (2 - o.n) * ((1 + o.alpha) ^ (1 + o.q) - 1)

/-- An entry of `doc`, zhuandyin2012.py:275, 288-290. -/
noncomputable def docAt (o : ZY) (B : BesselFns) (eta0 : ℝ) (etam : List ℝ) (t : ℝ) : ℝ :=
  (etam.map fun eta => o.cmDoc B eta * o.tm eta0 eta t).sum * -(o.frNum / o.frDen) + 1

/-- An entry of `settle`, zhuandyin2012.py:292. -/
noncomputable def settleAt (o : ZY) (B : BesselFns) (eta0 : ℝ) (etam : List ℝ) (t : ℝ) : ℝ :=
  o.docAt B eta0 etam t * o.ui * o.mv0 * ((1 + o.alpha) ^ (1 + o.q) - 1) / (1 + o.q) * o.H / o.alpha

/-- `return por, doc, settle`, zhuandyin2012.py:295. -/
structure Output where
  por : List (List ℝ)
  doc : List ℝ
  settle : List ℝ

/-- Everything after the search, zhuandyin2012.py:199-295: `eta0 = etam[0]`, `cv0` and `fr` are divisions of plain numbers, which raise. -/
noncomputable def output (o : ZY) (B : BesselFns) (etam : List ℝ) : Except PyErr Output :=
  match etam with
  | [] => .error .indexError
  | eta0 :: _ =>
    if o.mv0 * o.gamw = 0 then .error .zeroDivision
    else if o.frDen = 0 then .error .zeroDivision
    else .ok ⟨o.z.map fun z => (o.tpor.getD o.t).map fun t => o.porAt B eta0 etam z t, o.t.map fun t => o.docAt B eta0 etam t,
      o.t.map fun t => o.settleAt B eta0 etam t⟩

/-- The call may end with `r`, zhuandyin2012.py:145-295; `nu` divides by `2 - n`. -/
def Ends (o : ZY) (B : BesselFns) (solve : ℝ → ℝ → ℝ → ℝ) (r : Except PyErr Output) : Prop :=
  if 2 - o.n = 0 then r = .error .zeroDivision
  else match o.charEqn B with
    | none => r = .error .unboundLocal
    | some f => (∃ e, Roots.Ends (o.rootArgs f solve) (.raised e) ∧ r = .error e) ∨
        ∃ rs, Roots.Ends (o.rootArgs f solve) (.returned rs) ∧ r = o.output B rs

end ZY
end Geotecha.Consol
