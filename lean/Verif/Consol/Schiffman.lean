import Verif.Consol.Tang
import Verif.Roots.Model
import Mathlib.LinearAlgebra.Matrix.NonsingularInverse

/-!
# Model of geotecha/consolidation/schiffmanandstein1970.py

Reals for floats.  `np.linalg.det` and `np.linalg.solve` are exact (`solve` refuses singular matrices), the roots come from the model of
`find_n_roots` with `fsolve` as an oracle.  `self.BC` is a new matrix in each call: the code writes the same places each time, the other ones
stay zero.  Plots and files are not modelled, except which data are handed over for saving.
-/

open Real
namespace Geotecha.Consol
open Geotecha (PyErr)
open Geotecha.Piecewise Geotecha.Speccon

/-- Attributes read by the calculation, schiffmanandstein1970.py:179-216 (`htop`, `ktop`, `hbot`, `kbot` are never read).  There is at least
one layer. -/
structure SS where
  z : List ℝ
  t : List ℝ
  tpor : Option (List ℝ)
  n : ℕ
  h : List ℝ
  kv : List ℝ
  mv : List ℝ
  bctop : ℤ
  bcbot : ℤ
  load : PolyLine ℝ

namespace SS

/-- `nlayers`, schiffmanandstein1970.py:230. -/
def nl (o : SS) : ℕ := o.kv.length

/-- Entries of the arrays of layer properties. -/
def hh (o : SS) (i : ℕ) : ℝ := o.h.getD i 0
def k (o : SS) (i : ℕ) : ℝ := o.kv.getD i 0
def m (o : SS) (i : ℕ) : ℝ := o.mv.getD i 0

/-- `zlayer = np.cumsum(h)`, schiffmanandstein1970.py:232. -/
def zlayer (o : SS) (i : ℕ) : ℝ := ∑ j ∈ Finset.range (i + 1), o.hh j

/-- `cv`, schiffmanandstein1970.py:238. -/
noncomputable def cv (o : SS) (i : ℕ) : ℝ := o.k i / o.m i

/-- `atop, btop`, schiffmanandstein1970.py:242-252.  `bctop == 3` uses names that do not exist (NameError); the message for other values calls
a method that does not exist (AttributeError). -/
def top (o : SS) : Except PyErr (ℝ × ℝ) :=
  if o.bctop = 0 then .ok (0, -1) else if o.bctop = 1 then .ok (1, 0) else if o.bctop = 3 then .error .other else .error .attributeError

/-- `abot, bbot`, schiffmanandstein1970.py:254-264. -/
def bot (o : SS) : Except PyErr (ℝ × ℝ) :=
  if o.bcbot = 0 then .ok (0, 1) else if o.bcbot = 1 then .ok (1, 0) else if o.bcbot = 3 then .error .other else .error .valueError

/-- `beta`, schiffmanandstein1970.py:481-484. -/
noncomputable def beta (o : SS) (beta0 : ℝ) : ℕ → ℝ
  | 0 => beta0
  | i + 1 => sqrt (o.cv i / o.cv (i + 1) * o.beta beta0 i ^ 2)

/-- `alpha`, schiffmanandstein1970.py:486. -/
noncomputable def alpha (o : SS) (i : ℕ) : ℝ := o.k i / o.k (i + 1)

/-- Entry of `BC` after `_make_BC`, schiffmanandstein1970.py:474-512: first row, last row, then for each interface `i` the rows `2i+1` and
`2i+2`. -/
noncomputable def bc (o : SS) (tp bt : ℝ × ℝ) (b0 : ℝ) (r c : ℕ) : ℝ :=
  let b := o.beta b0
  let e := o.nl - 1
  if r = 0 then
    if c = 0 then tp.2 * (-1) else if c = 1 then tp.1 * b 0 else 0
  else if r = 2 * o.nl - 1 then
    if c = 2 * o.nl - 2 then bt.2 * cos (b e * o.zlayer e) - bt.1 * b e * sin (b e * o.zlayer e)
    else if c = 2 * o.nl - 1 then bt.2 * sin (b e * o.zlayer e) + bt.1 * b e * cos (b e * o.zlayer e)
    else 0
  else
    let i := (r - 1) / 2
    if r % 2 = 1 then
      if c = 2 * i then cos (b i * o.zlayer i)
      else if c = 2 * i + 1 then sin (b i * o.zlayer i)
      else if c = 2 * i + 2 then -cos (b (i + 1) * o.zlayer i)
      else if c = 2 * i + 3 then -sin (b (i + 1) * o.zlayer i)
      else 0
    else
      if c = 2 * i then -o.alpha i * b i * sin (b i * o.zlayer i)
      else if c = 2 * i + 1 then o.alpha i * b i * cos (b i * o.zlayer i)
      else if c = 2 * i + 2 then b (i + 1) * sin (b (i + 1) * o.zlayer i)
      else if c = 2 * i + 3 then -b (i + 1) * cos (b (i + 1) * o.zlayer i)
      else 0

/-- `_characteristic_eqn`, schiffmanandstein1970.py:463-472. -/
noncomputable def charEqn (o : SS) (tp bt : ℝ × ℝ) (b0 : ℝ) : ℝ :=
  (Matrix.of fun r c : Fin (2 * o.nl) => o.bc tp bt b0 r c).det

/-- The call of `find_n_roots` in `_find_beta`, schiffmanandstein1970.py:441-452. -/
noncomputable def rootArgs (o : SS) (tp bt : ℝ × ℝ) (solve : ℝ → ℝ → ℝ → ℝ) : Roots.Args where
  f := o.charEqn tp bt
  solve := solve
  n := o.n
  x0 := 0.1 / o.zlayer (o.nl - 1) ^ 2
  dx := 0.1 / o.zlayer (o.nl - 1) ^ 2
  p := 1.01
  maxIter := 2000
  atol := 1e-8
  rtol := 1e-5

open Classical in
/-- `BC[np.abs(BC)<1e-10]=0`, schiffmanandstein1970.py:557. -/
noncomputable def clean (x : ℝ) : ℝ := if |x| < 1e-10 then 0 else x

open Classical in
/-- The coefficients of one mode, schiffmanandstein1970.py:554-565: entry `2i` is `Bm` of layer `i`, entry `2i+1` is `Cm`; the last `Cm` is 1.
A singular matrix is refused (`LinAlgError`). -/
noncomputable def coeffs (o : SS) (tp bt : ℝ × ℝ) (b0 : ℝ) : Except PyErr (ℕ → ℝ) :=
  let a : Matrix (Fin (2 * o.nl - 1)) (Fin (2 * o.nl - 1)) ℝ := Matrix.of fun r c => clean (o.bc tp bt b0 r c)
  let b : Fin (2 * o.nl - 1) → ℝ := fun r => -clean (o.bc tp bt b0 r (2 * o.nl - 1))
  if a.det = 0 then .error .other
  else
    let x := a⁻¹.mulVec b
    .ok fun j => if h : j < 2 * o.nl - 1 then x ⟨j, h⟩ else 1

/-- One mode: eigenvalue of the first layer and coefficients. -/
structure Term where
  b0 : ℝ
  co : ℕ → ℝ

/-- `Bm`, `Cm`, `beta` of a layer. -/
def Term.B (q : Term) (i : ℕ) : ℝ := q.co (2 * i)
def Term.C (q : Term) (i : ℕ) : ℝ := q.co (2 * i + 1)

/-- `Zm_integral`, schiffmanandstein1970.py:745 and 650-651. -/
noncomputable def zint (o : SS) (q : Term) (i : ℕ) : ℝ :=
  let b := o.beta q.b0 i
  let z2 := o.zlayer i
  let z1 := o.zlayer i - o.hh i;
  -q.B i * sin (b * z1) / b + q.B i * sin (b * z2) / b + q.C i * cos (b * z1) / b - q.C i * cos (b * z2) / b

/-- The bracket of `denom`, schiffmanandstein1970.py:652-661. -/
noncomputable def z2int (o : SS) (q : Term) (i : ℕ) : ℝ :=
  let b := o.beta q.b0 i
  let z2 := o.zlayer i
  let z1 := o.zlayer i - o.hh i
  let B := q.B i
  let C := q.C i;
  -(B ^ 2) * z1 * sin (b * z1) ^ 2 / 2 - B ^ 2 * z1 * cos (b * z1) ^ 2 / 2 + B ^ 2 * z2 * sin (b * z2) ^ 2 / 2 +
    B ^ 2 * z2 * cos (b * z2) ^ 2 / 2 - B ^ 2 * sin (b * z1) * cos (b * z1) / (2 * b) + B ^ 2 * sin (b * z2) * cos (b * z2) / (2 * b) +
    B * C * cos (b * z1) ^ 2 / b - B * C * cos (b * z2) ^ 2 / b - C ^ 2 * z1 * sin (b * z1) ^ 2 / 2 - C ^ 2 * z1 * cos (b * z1) ^ 2 / 2 +
    C ^ 2 * z2 * sin (b * z2) ^ 2 / 2 + C ^ 2 * z2 * cos (b * z2) ^ 2 / 2 + C ^ 2 * sin (b * z1) * cos (b * z1) / (2 * b) -
    C ^ 2 * sin (b * z2) * cos (b * z2) / (2 * b)

/-- `Am`, schiffmanandstein1970.py:629-664. -/
noncomputable def am (o : SS) (q : Term) : ℝ :=
  (∑ i ∈ Finset.range o.nl, o.m i * o.zint q i) / (∑ i ∈ Finset.range o.nl, o.m i * o.z2int q i)

/-- `_calc_Tm`, schiffmanandstein1970.py:668-715. -/
noncomputable def calcTm (p : PolyLine ℝ) (cv beta t : ℝ) : Except PyErr ℝ := do
  let P ← p.getY.1
  let T ← p.getX.1
  let g ← loadSegments T P t
  let a (l : List ℝ) (k : ℕ) : ℝ := l.getD k 0
  pure (
    (g.stepsLess.map (fun k => (a P (k+1) - a P k) * exp (-cv * beta ^ 2 * (t - a T k)))).sum +
    (g.rampsContaining.map (fun k => (-a P k + a P (k+1)) / (beta ^ 2 * cv * (-a T k + a T (k+1)))
      - (-a P k + a P (k+1)) * exp (-beta ^ 2 * cv * (t - a T k)) / (beta ^ 2 * cv * (-a T k + a T (k+1))))).sum +
    (g.rampsLess.map (fun k => -(-a P k + a P (k+1)) * exp (-beta ^ 2 * cv * (t - a T k)) / (beta ^ 2 * cv * (-a T k + a T (k+1)))
      + (-a P k + a P (k+1)) * exp (-beta ^ 2 * cv * (t - a T (k+1))) / (beta ^ 2 * cv * (-a T k + a T (k+1))))).sum)

/-- `Tm` of layer `i`. -/
noncomputable def tm (o : SS) (t : ℝ) (i : ℕ) (q : Term) : Except PyErr ℝ := calcTm o.load (o.cv i) (o.beta q.b0 i) t

open Classical in
/-- `np.searchsorted(self.zlayer, self.z)` for one depth, schiffmanandstein1970.py:770. -/
noncomputable def layerOf (o : SS) (z : ℝ) : ℕ := ((List.range o.h.length).filter fun i => o.zlayer i < z).length

/-- One entry of `por`, schiffmanandstein1970.py:761-787.  A depth below the last layer gives an index that does not exist. -/
noncomputable def porAt (o : SS) (qs : List Term) (z t : ℝ) : Except PyErr ℝ :=
  sumM (fun q => do
    let i := o.layerOf z
    if o.nl ≤ i then .error .indexError
    else
      let T ← o.tm t i q
      pure (o.am q * (q.B i * cos (o.beta q.b0 i * z) + q.C i * sin (o.beta q.b0 i * z)) * T)) qs

/-- The sums over layers and modes of `calc_settle_and_avp` at one time, schiffmanandstein1970.py:717-756: settlement, average. -/
noncomputable def settleAvp (o : SS) (qs : List Term) (t : ℝ) : Except PyErr (ℝ × ℝ) := do
  let q0 ← pinterpLeft o.load t
  let w ← sumM (fun i => sumM (fun q => do
    let T ← o.tm t i q
    pure (o.m i * o.zint q i * T * o.am q)) qs) (List.range o.nl)
  let v ← sumM (fun i => sumM (fun q => do
    let T ← o.tm t i q
    pure (o.zint q i * T * o.am q)) qs) (List.range o.nl)
  pure ((∑ i ∈ Finset.range o.nl, o.m i * o.hh i) * q0 - w, v / o.zlayer (o.nl - 1))

/-- Results after `make_output`: `por` (rows are depths; `none` without `tpor`), `set`, `avp`, and what is handed over for saving under the
names `_data_avp` and `_data_set`. -/
structure Output where
  por : Option (List (List ℝ))
  set : List ℝ
  avp : List ℝ
  dataAvp : List ℝ
  dataSet : List ℝ

/-- `make_output` after the roots `beta0` are found, schiffmanandstein1970.py:375-438. -/
noncomputable def output (o : SS) (tp bt : ℝ × ℝ) (beta0 : List ℝ) : Except PyErr Output := do
  let qs ← beta0.mapM fun b => do pure (Term.mk b (← o.coeffs tp bt b))
  let por ← match o.tpor with
    | none => pure none
    | some ts => do
      let r ← o.z.mapM fun z => ts.mapM fun t => o.porAt qs z t
      pure (some r)
  let sa ← o.t.mapM fun t => o.settleAvp qs t
  pure ⟨por, sa.map Prod.fst, sa.map Prod.snd, sa.map Prod.snd, sa.map Prod.snd⟩

/-- `make_output` with the oracle `solve` may end with this: the boundary conditions are looked at, the roots are searched, the rest is
computed, schiffmanandstein1970.py:375-438, 219-266. -/
def Ends (o : SS) (solve : ℝ → ℝ → ℝ → ℝ) (r : Except PyErr Output) : Prop :=
  match o.top, o.bot with
  | .error e, _ => r = .error e
  | .ok _, .error e => r = .error e
  | .ok tp, .ok bt => (∃ e, Roots.Ends (o.rootArgs tp bt solve) (.raised e) ∧ r = .error e) ∨
      ∃ b, Roots.Ends (o.rootArgs tp bt solve) (.returned b) ∧ r = o.output tp bt b

end SS
end Geotecha.Consol
