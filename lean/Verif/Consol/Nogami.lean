import Verif.Consol.Schiffman
import Verif.Consol.ZhuYin
import Mathlib.Analysis.SpecialFunctions.Trigonometric.Basic

/-!
# Model of geotecha/consolidation/nogamiandli2003.py

Reals and complex numbers for floats.  The Bessel functions are given functions of order and argument, the roots come from the model of
`find_n_roots` with `fsolve` as an oracle.  `check_input_attributes` (:327) makes sure that `kh`, `r0`, `r1`, `nh` are given together or not
at all and that `h`, `kv`, `mv`, `kh` have the same length.  A division of a numpy number by zero gives nan, written `none` below, where the
code can meet it; the other divisors are not zero for sensible soil.  Plots, printing and files are not modelled, except which data are handed
over for saving.
-/

set_option autoImplicit false
set_option linter.unusedVariables false
open Real
namespace Geotecha.Consol
open Geotecha (PyErr)
open Geotecha.Piecewise Geotecha.Speccon

/-- The attributes that describe a vertical drain: `kh`, `r0`, `r1`, `nh`, nogamiandli2003.py:272-273, 322-325. -/
structure NLDrain where
  kh : List ℝ
  r0 : ℝ
  r1 : ℝ
  nh : ℕ

/-- Attributes read by the calculation, nogamiandli2003.py:261-314. -/
structure NL where
  z : List ℝ
  t : Option (List ℝ)
  tpor : Option (List ℝ)
  nv : Option ℕ
  h : List ℝ
  kv : List ℝ
  mv : List ℝ
  drain : Option NLDrain
  rcalc : Option ℝ
  bctop : ℤ
  bcbot : ℤ
  radialX0 : ℝ
  radialDx : ℝ
  radialP : ℝ
  verticalX0 : ℝ
  verticalDx : ℝ
  verticalP : ℝ
  maxIter : ℤ
  load : PolyLine ℝ

namespace NL

/-- `nlayers`, nogamiandli2003.py:352. -/
def nl (o : NL) : ℕ := o.kv.length

/-- Entries of the arrays of layer properties, nogamiandli2003.py:340-350. -/
def hh (o : NL) (i : ℕ) : ℝ := o.h.getD i 0
def k (o : NL) (i : ℕ) : ℝ := o.kv.getD i 0
def m (o : NL) (i : ℕ) : ℝ := o.mv.getD i 0

/-- `zlayer = np.cumsum(h)`, nogamiandli2003.py:354. -/
def zlayer (o : NL) (i : ℕ) : ℝ := ∑ j ∈ Finset.range (i + 1), o.hh j

/-- `cv`, nogamiandli2003.py:356. -/
noncomputable def cv (o : NL) (i : ℕ) : ℝ := o.k i / o.m i

/-- `ch`, nogamiandli2003.py:343-348. -/
noncomputable def ch (o : NL) (i : ℕ) : ℝ := match o.drain with
  | none => 0
  | some d => d.kh.getD i 0 / o.m i

/-- `nh` after `_calc_derived_properties`, nogamiandli2003.py:347. -/
def nh (o : NL) : ℕ := match o.drain with
  | none => 1
  | some d => d.nh

/-- `phia0`, nogamiandli2003.py:364-367: for other values of `bctop` there is no such attribute when it is needed. -/
def phia0 (o : NL) : Option (ℝ × ℝ) := if o.bctop = 0 then some (0, 1) else if o.bctop = 1 then some (1, 0) else none

/-- Which entry of `phib` is checked, nogamiandli2003.py:370-373: `false` for the first. -/
def check (o : NL) : Option Bool := if o.bcbot = 0 then some false else if o.bcbot = 1 then some true else none

/-- `un_normalised`, nogamiandli2003.py:385-394. -/
noncomputable def un (d : NLDrain) (B : BesselFns) (r s order : ℝ) : ℝ :=
  B.J order (r / d.r0 * s) * B.Y 0 s - B.J 0 s * B.Y order (r / d.r0 * s)

/-- `un_normalised_average`, nogamiandli2003.py:375-383. -/
noncomputable def unAverage (d : NLDrain) (B : BesselFns) (s : ℝ) : ℝ :=
  -un d B d.r0 s 1 * 2 / ((d.r1 / d.r0) ^ 2 - 1) / s

/-- `_radial_characteristic_curve`, nogamiandli2003.py:398-404. -/
noncomputable def radialCurve (d : NLDrain) (B : BesselFns) (s : ℝ) : ℝ := un d B d.r1 s 1

/-- The call of `find_n_roots` in `_find_sn`, nogamiandli2003.py:412-415 (tolerances: root_finding.py:26-27). -/
noncomputable def radialArgs (o : NL) (d : NLDrain) (B : BesselFns) (solve : (ℝ → ℝ) → ℝ → ℝ → ℝ → ℝ) : Roots.Args where
  f := radialCurve d B
  solve := solve (radialCurve d B)
  n := d.nh
  x0 := o.radialX0
  dx := o.radialDx
  p := o.radialP
  maxIter := o.maxIter
  atol := 1e-8
  rtol := 1e-5

open Classical in
/-- `np.sqrt` of a real number stored as a complex one, nogamiandli2003.py:427. -/
noncomputable def csqrt (a : ℝ) : ℂ := if 0 ≤ a then (√a : ℂ) else (√(-a) : ℂ) * Complex.I

/-- What the root is taken of, nogamiandli2003.py:421-426. -/
noncomputable def beta2 (o : NL) (alp s : ℝ) (i : ℕ) : ℝ :=
  1 / o.cv i * alp ^ 2 - o.ch i / o.cv i * s ^ 2 / (match o.drain with | none => 1 | some d => d.r0) ^ 2

/-- `_beta`, nogamiandli2003.py:418-427, and `_calc_betamn`, :566-575. -/
noncomputable def beta (o : NL) (alp s : ℝ) (i : ℕ) : ℂ := csqrt (o.beta2 alp s i)

open Classical in
/-- `phib` from `phia` for one layer, nogamiandli2003.py:456-469 and 507-517. -/
noncomputable def transfer (b : ℂ) (h : ℝ) (a : ℂ × ℂ) : ℂ × ℂ :=
  if b = 0 then (a.1, 0)
  else (Complex.cos (b * h) * a.1 + Complex.sin (b * h) / b * a.2, -b * Complex.sin (b * h) * a.1 + Complex.cos (b * h) * a.2)

/-- `phia` at the top of each layer, nogamiandli2003.py:449-476 and 499-522. -/
noncomputable def phi (o : NL) (p0 : ℝ × ℝ) (alp s : ℝ) : ℕ → ℂ × ℂ
  | 0 => (p0.1, p0.2)
  | i + 1 => let b := transfer (o.beta alp s i) (o.hh i) (o.phi p0 alp s i); (b.1, b.2 * o.k i / o.k (i + 1))

/-- `_phia` and `_phidota`, nogamiandli2003.py:442-446, 475-476. -/
noncomputable def phiA (o : NL) (p0 : ℝ × ℝ) (alp s : ℝ) (i : ℕ) : ℝ := (o.phi p0 alp s i).1.re
noncomputable def phiD (o : NL) (p0 : ℝ × ℝ) (alp s : ℝ) (i : ℕ) : ℝ := (o.phi p0 alp s i).2.re

/-- `_vertical_characteristic_curve`, nogamiandli2003.py:486-526. -/
noncomputable def curve (o : NL) (p0 : ℝ × ℝ) (chk : Bool) (s alp : ℝ) : ℝ :=
  let i := o.nl - 1
  let b := transfer (o.beta alp s i) (o.hh i) (o.phi p0 alp s i)
  if chk then b.2.re else b.1.re

open Classical in
/-- The call of `find_n_roots` in `_find_alp`, nogamiandli2003.py:534-546; `start` is the number the search starts from. -/
noncomputable def verticalArgs (o : NL) (nv : ℕ) (p0 : ℝ × ℝ) (chk : Bool) (solve : (ℝ → ℝ) → ℝ → ℝ → ℝ → ℝ) (start s : ℝ) : Roots.Args where
  f := o.curve p0 chk s
  solve := solve (o.curve p0 chk s)
  n := nv
  x0 := start + if s = 0 then min 1e-7 o.verticalDx else 0
  dx := o.verticalDx
  p := o.verticalP
  maxIter := o.maxIter
  atol := 1e-8
  rtol := 1e-5

/-- `_find_alp` may end with this: one row of `_alp` for each radial eigenvalue, each search starting from the first entry of the row before,
nogamiandli2003.py:529-546. -/
def AlpEnds (o : NL) (nv : ℕ) (p0 : ℝ × ℝ) (chk : Bool) (solve : (ℝ → ℝ) → ℝ → ℝ → ℝ → ℝ) :
    Option ℝ → List ℝ → Except PyErr (List (List ℝ)) → Prop
  | _, [], r => r = .ok []
  | none, _ :: _, r => r = .error .indexError
  | some a, s :: ss, r => (∃ e, Roots.Ends (o.verticalArgs nv p0 chk solve a s) (.raised e) ∧ r = .error e) ∨
      ∃ row r', Roots.Ends (o.verticalArgs nv p0 chk solve a s) (.returned row) ∧ AlpEnds o nv p0 chk solve row.head? ss r' ∧
        r = (r'.map fun rows => row :: rows)

open Classical in
/-- `_Amn`, nogamiandli2003.py:579-606. -/
noncomputable def amn (h : ℝ) (bet : ℂ) (pa pd : ℝ) : ℂ :=
  if bet = 0 then h * pa
  else pa * Complex.sin (bet * h) / bet - pd * Complex.cos (bet * h) / bet ^ 2 + pd / bet ^ 2

open Classical in
/-- `_Bmn`, nogamiandli2003.py:579-615. -/
noncomputable def bmn (h : ℝ) (bet : ℂ) (pa pd : ℝ) : ℂ :=
  if bet = 0 then h * pa ^ 2
  else h * pa ^ 2 * Complex.sin (bet * h) ^ 2 / 2 + h * pa ^ 2 * Complex.cos (bet * h) ^ 2 / 2 +
    pa ^ 2 * Complex.sin (bet * h) * Complex.cos (bet * h) / (2 * bet) + h * pd ^ 2 * Complex.sin (bet * h) ^ 2 / (2 * bet ^ 2) +
    h * pd ^ 2 * Complex.cos (bet * h) ^ 2 / (2 * bet ^ 2) - pa * pd * Complex.cos (bet * h) ^ 2 / bet ^ 2 + pa * pd / bet ^ 2 -
    pd ^ 2 * Complex.sin (bet * h) * Complex.cos (bet * h) / (2 * bet ^ 3)

/-- `_Cm`, nogamiandli2003.py:618-638. -/
noncomputable def cm (o : NL) (p0 : ℝ × ℝ) (alp s : ℝ) : ℂ :=
  (∑ i ∈ Finset.range o.nl, (o.m i : ℂ) * amn (o.hh i) (o.beta alp s i) (o.phiA p0 alp s i) (o.phiD p0 alp s i)) /
    ∑ i ∈ Finset.range o.nl, (o.m i : ℂ) * bmn (o.hh i) (o.beta alp s i) (o.phiA p0 alp s i) (o.phiD p0 alp s i)

/-- `_Cn`, nogamiandli2003.py:548-564. -/
noncomputable def cn (o : NL) (B : BesselFns) (s : ℝ) : ℝ := match o.drain with
  | none => 1
  | some d => (-d.r0 ^ 2 / s * un d B d.r0 s 1) /
      (d.r0 ^ 2 / 2 * (d.r1 ^ 2 / d.r0 ^ 2 * un d B d.r1 s 0 ^ 2 - un d B d.r0 s 1 ^ 2))

/-- `_Cmn`, of which the real part is used, nogamiandli2003.py:644-655, 953 and 992. -/
noncomputable def cmn (o : NL) (B : BesselFns) (p0 : ℝ × ℝ) (alp s : ℝ) : ℝ := (o.cm p0 alp s * o.cn B s).re

/-- `_un`, nogamiandli2003.py:908-919. -/
noncomputable def radial (o : NL) (B : BesselFns) (s : ℝ) : ℝ := match o.drain with
  | none => 1
  | some d => match o.rcalc with
    | some r => un d B r s 0
    | none => unAverage d B s

/-- `_calc_Tm`, nogamiandli2003.py:858-906. -/
noncomputable def calcTm (p : PolyLine ℝ) (alp t : ℝ) : Except PyErr ℝ := do
  let P ← p.getY.1
  let T ← p.getX.1
  let g ← loadSegments T P t
  let a (l : List ℝ) (k : ℕ) : ℝ := l.getD k 0
  pure (
    (g.stepsLess.map (fun k => (a P (k+1) - a P k) * exp (-1 * alp ^ 2 * (t - a T k)))).sum +
    (g.rampsContaining.map (fun k => (-a P k + a P (k+1)) / (alp ^ 2 * 1 * (-a T k + a T (k+1)))
      - (-a P k + a P (k+1)) * exp (-alp ^ 2 * 1 * (t - a T k)) / (alp ^ 2 * 1 * (-a T k + a T (k+1))))).sum +
    (g.rampsLess.map (fun k => -(-a P k + a P (k+1)) * exp (-alp ^ 2 * 1 * (t - a T k)) / (alp ^ 2 * 1 * (-a T k + a T (k+1)))
      + (-a P k + a P (k+1)) * exp (-alp ^ 2 * 1 * (t - a T (k+1))) / (alp ^ 2 * 1 * (-a T k + a T (k+1))))).sum)

open Classical in
/-- `np.searchsorted(self.zlayer, self.z)` for one depth, nogamiandli2003.py:937. -/
noncomputable def layerOf (o : NL) (z : ℝ) : ℕ := ((List.range o.h.length).filter fun i => o.zlayer i < z).length

/-- Sum of numbers of which one may be nan. -/
def nanSum : List (Option ℝ) → Option ℝ
  | [] => some 0
  | a :: l => do pure ((← a) + (← nanSum l))

/-- One pair of eigenvalues, in the order of the loops. -/
structure Term where
  s : ℝ
  alp : ℝ

/-- The loops over `range(self.nh)` and `range(self.nv)`, nogamiandli2003.py:942-946. -/
def terms (sn : List ℝ) (rows : List (List ℝ)) : List Term := (List.zipWith (fun s row => row.map (Term.mk s)) sn rows).flatten

open Classical in
/-- One entry of `por`, nogamiandli2003.py:922-958.  A depth below the last layer gives an index that does not exist; `beta` zero gives nan. -/
noncomputable def porAt (o : NL) (B : BesselFns) (p0 : ℝ × ℝ) (qs : List Term) (z t : ℝ) : Except PyErr (Option ℝ) := do
  let v ← qs.mapM fun q => do
    let T ← calcTm o.load q.alp t
    let i := o.layerOf z
    if o.nl ≤ i then .error .indexError
    else
      let bet := o.beta q.alp q.s i
      let zlay := z - (o.zlayer i - o.hh i)
      if bet = 0 then pure none
      else
        let ph := Complex.cos (bet * zlay) * o.phiA p0 q.alp q.s i + Complex.sin (bet * zlay) / bet * o.phiD p0 q.alp q.s i
        pure (some (o.cmn B p0 q.alp q.s * o.radial B q.s * ph.re * T))
  pure (nanSum v)

open Classical in
/-- `phi.real` of `_calc_avp`, nogamiandli2003.py:991-996. -/
noncomputable def phint (o : NL) (p0 : ℝ × ℝ) (q : Term) (i : ℕ) : Option ℝ :=
  let bet := o.beta q.alp q.s i
  if bet = 0 then none
  else some (Complex.sin (bet * o.hh i) / bet * o.phiA p0 q.alp q.s i +
    (1 - Complex.cos (bet * o.hh i)) / bet ^ 2 * o.phiD p0 q.alp q.s i).re

/-- `avp` and `set` at one time, nogamiandli2003.py:961-999. -/
noncomputable def avpSet (o : NL) (B : BesselFns) (p0 : ℝ × ℝ) (nv : ℕ) (qs : List Term) (t : ℝ) : Except PyErr (Option ℝ × Option ℝ) := do
  let hAll := o.h.sum
  let v ← qs.mapM fun q => do
    let T ← calcTm o.load q.alp t
    let load ← pinterpLeft o.load t
    pure (nanSum ((List.range o.nl).map fun i => do pure (o.cmn B p0 q.alp q.s * o.radial B q.s * (← o.phint p0 q i) / hAll * T)),
      nanSum ((List.range o.nl).map fun i => do
        pure (o.m i * (load * o.hh i / o.nh / nv - o.cmn B p0 q.alp q.s * o.radial B q.s * (← o.phint p0 q i) * T))))
  pure (nanSum (v.map Prod.fst), nanSum (v.map Prod.snd))

/-- Results after `make_output`: `por` (rows are depths), `avp`, `set`, and what is handed over for saving under the names `_data_avp` and
`_data_set`. -/
structure Output where
  por : Option (List (List (Option ℝ)))
  avp : Option (List (Option ℝ))
  set : Option (List (Option ℝ))
  dataAvp : Option (List (Option ℝ))
  dataSet : Option (List (Option ℝ))

/-- `make_output` after the eigenvalues are found, nogamiandli2003.py:705-753. -/
noncomputable def output (o : NL) (B : BesselFns) (p0 : ℝ × ℝ) (nv : ℕ) (qs : List Term) : Except PyErr Output := do
  let por ← match o.tpor with
    | none => pure none
    | some ts => do
      let r ← o.z.mapM fun z => ts.mapM fun t => o.porAt B p0 qs z t
      pure (some r)
  match o.t with
  | none => pure ⟨por, none, none, none, none⟩
  | some ts => do
    let l ← ts.mapM fun t => o.avpSet B p0 nv qs t
    pure ⟨por, some (l.map Prod.fst), some (l.map Prod.snd), some (l.map Prod.fst), some (l.map Prod.fst)⟩

/-- What follows once the radial eigenvalues `sn` are known, nogamiandli2003.py:700-753: without `nv` numpy refuses the shape; without `phia0` or
`phi_i_check` the first look at the characteristic curve fails (there is one: `nh` is at least 1). -/
def Vertical (o : NL) (B : BesselFns) (solve : (ℝ → ℝ) → ℝ → ℝ → ℝ → ℝ) (sn : List ℝ) (r : Except PyErr Output) : Prop :=
  match o.nv, o.phia0, o.check with
  | none, _, _ => r = .error .typeError
  | some nv, some p0, some chk => (∃ e, o.AlpEnds nv p0 chk solve (some o.verticalX0) sn (.error e) ∧ r = .error e) ∨
      ∃ rows, o.AlpEnds nv p0 chk solve (some o.verticalX0) sn (.ok rows) ∧ r = o.output B p0 nv (terms sn rows)
  | some _, _, _ => r = .error .attributeError

/-- `make_output` with the oracle `solve` may end with this, nogamiandli2003.py:693-753 and 407-415. -/
def Ends (o : NL) (B : BesselFns) (solve : (ℝ → ℝ) → ℝ → ℝ → ℝ → ℝ) (r : Except PyErr Output) : Prop :=
  match o.drain with
  | none => o.Vertical B solve [0] r
  | some d => (∃ e, Roots.Ends (o.radialArgs d B solve) (.raised e) ∧ r = .error e) ∨
      ∃ sn, Roots.Ends (o.radialArgs d B solve) (.returned sn) ∧ o.Vertical B solve sn r

end NL
end Geotecha.Consol
