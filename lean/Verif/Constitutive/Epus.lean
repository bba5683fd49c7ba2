import Verif.Piecewise.Model
import Mathlib.Analysis.SpecialFunctions.Log.Base
import Mathlib.Analysis.SpecialFunctions.Pow.Real

/-!
# Model of geotecha/constitutive_models/epus.py

The elasto-plastic model for unsaturated soils of Pham and Fredlund: a soil is a list of pore groups; a stress path is
a sequence of changes of suction and of net normal stress, each applied point by point; every operation updates every
pore group.  Floats are reals, `**` is `Real.rpow`, `math.log10` raises for arguments that are not positive.  An
exception aborts the computation; the half-updated object it leaves behind is not modelled.  Overflow is not modelled.
-/

set_option autoImplicit false
set_option linter.unusedVariables false

namespace Geotecha.Epus

/-- Parameters of `CurveFittingSWCC`, epus.py:1104-1110, and of `EPUS`, epus.py:149-196.  `sl` only enters `Wc`, `DWc`
and the default of `Ccs`, epus.py:175-182. -/
structure Par where
  wsat : ℝ
  a : ℝ
  b : ℝ
  wr : ℝ
  sl : ℝ
  logDS : ℝ
  logRS : ℝ
  Ccs : ℝ
  Css : ℝ
  Ccd : ℝ
  Gs : ℝ
  assumption : ℤ
  beta : ℝ
  pm : ℝ
  poreShape : ℝ
  K0 : ℝ
  npoint : ℕ
  numSr : ℕ
  maxS : ℝ
  minS : ℝ

/-- `EPUS.__init__`'s treatment of the optional `Ccs`, epus.py:175-178. -/
def initCcs (sl : ℝ) : Option ℝ → ℝ
  | none => sl
  | some c => c

/-- `EPUS.__init__`'s treatment of the optional `Css`, epus.py:179-182. -/
noncomputable def initCss (ccs : ℝ) : Option ℝ → ℝ
  | none => ccs * 0.1
  | some c => c

/-- One pore group: row `i` of the arrays of `PoresizeDistribution`, epus.py:1046-1060. -/
structure Pore where
  AEV : ℝ
  WEV : ℝ
  Ccp : ℝ
  Csp : ℝ
  Ccd : ℝ
  RV : ℝ
  YieldSt : ℝ
  Filled : Bool
  RVC : ℝ
  AEVC : ℝ
  WEVC : ℝ
  Airentrapped : Bool

/-- The mutable attributes of an `EPUS` object, epus.py:110-128. -/
structure State where
  f : List Pore
  Suction : ℝ
  Stress : ℝ
  RefSr : ℝ
  Curveon : ℕ
  errocc : Bool
  Srdry : List ℝ
  Srwet : List ℝ

/-- `math.log10`, epus.py:41: a ValueError unless the argument is positive. -/
noncomputable def log10 (x : ℝ) : Except PyErr ℝ :=
  if 0 < x then .ok (Real.logb 10 x) else .error .valueError

/-- `10 ** x`. -/
noncomputable def pow10 (x : ℝ) : ℝ := (10 : ℝ) ^ x

/-- `EPUS.CVStress`, epus.py:202-211. -/
noncomputable def cvStress (p : Par) : ℝ := (2 * p.K0 + 1) / 3

/-- `EPUS.ChangeSuction`, epus.py:427-475, with `stress` for `self.Stress`.  The Boolean tells whether `self.errocc` was
set.  Simplification: `(10 * a) ** (1 / b)` is the real power. -/
noncomputable def changeSuction (p : Par) (stress maxSum s0 : ℝ) : Except PyErr (ℝ × Bool) :=
  if maxSum ≤ s0 then .ok (1, false)
  else if p.b = 0 then .error .zeroDivision
  else if (10 * p.a) ^ (1 / p.b) ≤ s0 then .ok (1, false)
  else do
    let l0 ← log10 s0
    let t2 := p.wsat * p.Gs - p.Ccs * l0 - p.wr * p.Gs
    if t2 ≤ 0 then .ok (1, false)
    else do
      let lm ← log10 maxSum
      let lc ← log10 (s0 + stress)
      let t1 := (p.Ccs - p.Css) * lm + p.Css * lc - p.Ccs * l0
      if 1 - p.poreShape * (t1 / (3 * t2)) ≤ 0 then .ok (1, true)
      else .ok (1 - p.poreShape * (t1 / (3 * t2)), false)

/-- `EPUS.ChangeWetSuction`, epus.py:478-525.  Same simplification.  Unlike `ChangeSuction` it goes on when `temp2 == 0`
and then divides by zero. -/
noncomputable def changeWetSuction (p : Par) (stress maxSum aev wev : ℝ) : Except PyErr (ℝ × Bool) :=
  if maxSum ≤ aev then .ok (1, false)
  else if p.b = 0 then .error .zeroDivision
  else if (10 * p.a) ^ (1 / p.b) ≤ aev then .ok (1, false)
  else do
    let l0 ← log10 aev
    let t2 := p.wsat * p.Gs - p.Ccs * l0 - p.wr * p.Gs
    if t2 < 0 then .ok (1, false)
    else do
      let lm ← log10 maxSum
      let lc ← log10 (wev + stress)
      let t1 := (p.Ccs - p.Css) * lm + p.Css * lc - p.Ccs * l0
      if t2 = 0 then .error .zeroDivision
      else if 1 - p.poreShape * (t1 / (3 * t2)) ≤ 0 then .ok (1, true)
      else .ok (1 - p.poreShape * (t1 / (3 * t2)), false)

/-- `EPUS.Changevolume`, epus.py:528-537. -/
noncomputable def changevolume (p : Par) (v0 yield cur comp unl : ℝ) : Except PyErr ℝ := do
  let ly ← log10 yield
  let lc ← log10 cur
  let temp := v0 - (ly - p.minS) * comp + (ly - lc) * unl
  if 0 < temp then .ok temp else .ok 0

/-- Python's `x[i]` for an integer `i`, negative indices counting from the end. -/
def pyGet (l : List ℝ) (i : ℤ) : Except PyErr ℝ :=
  if 0 ≤ i then
    match l[i.toNat]? with
    | some v => .ok v
    | none => .error .indexError
  else if (-i).toNat ≤ l.length then
    match l[l.length - (-i).toNat]? with
    | some v => .ok v
    | none => .error .indexError
  else .error .indexError

/-- Python's `int(x)` for a float: truncation towards zero. -/
noncomputable def pyInt (x : ℝ) : ℤ := if 0 ≤ x then ⌊x⌋ else ⌈x⌉

/-- `EPUS.RfSr_value`, epus.py:792-818, on the table selected by `curvetype` (1: `Srdry`, 3: `Srwet`; the code calls it
with no other value). -/
noncomputable def rfSr (p : Par) (tab : List ℝ) (ss : ℝ) : Except PyErr ℝ := do
  let l ← log10 ss
  if (p.numSr : ℝ) - 1 = 0 then .error .zeroDivision
  else if (p.maxS - p.minS) / ((p.numSr : ℝ) - 1) = 0 then .error .zeroDivision
  else pyGet tab (pyInt ((l - p.minS) / ((p.maxS - p.minS) / ((p.numSr : ℝ) - 1))))

/-- The update of `Curveon` and `RefSr` by `Drying`, epus.py:554-569. -/
noncomputable def dryRef (p : Par) (st : State) (ss : ℝ) : Except PyErr (ℕ × ℝ) :=
  if st.Curveon = 1 then do
    let r ← rfSr p st.Srdry ss
    .ok (1, r)
  else if st.Curveon = 2 ∨ st.Curveon = 3 then do
    let r ← rfSr p st.Srdry ss
    if st.RefSr ≤ r then .ok (2, st.RefSr) else .ok (1, r)
  else .ok (st.Curveon, st.RefSr)

/-- The update of `Curveon` and `RefSr` by `Wetting`, epus.py:622-636. -/
noncomputable def wetRef (p : Par) (st : State) (ss : ℝ) : Except PyErr (ℕ × ℝ) :=
  if st.Curveon = 1 ∨ st.Curveon = 2 then do
    let r ← rfSr p st.Srwet ss
    if r ≤ st.RefSr then .ok (2, st.RefSr) else .ok (3, r)
  else if st.Curveon = 3 then do
    let r ← rfSr p st.Srwet ss
    .ok (3, r)
  else .ok (st.Curveon, st.RefSr)

/-- The larger of two stresses, the idiom `if x > y: y = x`. -/
noncomputable def raise (x y : ℝ) : ℝ := if y < x then x else y

/-- One round of the loop of `EPUS.Drying`, epus.py:574-601.  The volume assigned at line 591 is overwritten at line
599; the assignment is kept because it can raise. -/
noncomputable def dryPore (p : Par) (stress ss : ℝ) (q : Pore) : Except PyErr (Pore × Bool) :=
  if q.Filled then do
    let c1 ← changeSuction p stress q.YieldSt (pow10 q.AEV)
    if pow10 q.AEV / c1.1 ≤ ss then do
      let c2 ← changeSuction p stress (raise (stress + pow10 q.AEV) q.YieldSt) (pow10 q.AEV)
      let y := raise (pow10 q.AEV / c2.1 + stress) q.YieldSt
      let _ ← changevolume p q.RV y (pow10 q.AEV / c2.1 + stress) q.Ccp q.Csp
      let v ← changevolume p q.RV y (stress + ss) q.Ccp q.Csp
      .ok (⟨q.AEV, q.WEV, q.Ccp, q.Csp, q.Ccd, q.RV, y, false, v, q.AEVC, q.WEVC, true⟩, c1.2 || c2.2)
    else do
      let y := raise (stress + ss) q.YieldSt
      let v ← changevolume p q.RV y (stress + ss) q.Ccp q.Csp
      .ok (⟨q.AEV, q.WEV, q.Ccp, q.Csp, q.Ccd, q.RV, y, q.Filled, v, q.AEVC, q.WEVC, q.Airentrapped⟩, c1.2)
  else .ok (q, false)

/-- The yield stress of a dry pore group under the net stress `num`, epus.py:658-660 (`num` is `Stress`) and 713-715
(`num` is `st_new`); `stress` is the current net stress the guard tests.  Simplification: `RefSr ** pm` is the real
power. -/
noncomputable def dryYield (p : Par) (stress num refSr : ℝ) (q : Pore) : Except PyErr ℝ :=
  if pow10 q.AEV < stress then do
    let l ← log10 (num / pow10 q.AEV)
    .ok (cvStress p * pow10 ((l * (refSr ^ p.pm * (q.Ccp - q.Ccd) + q.Ccd)) / q.Ccp + q.AEV))
  else .ok (pow10 q.AEV)

/-- What `Wetting` and `Loading` do to a pore group that stays dry, epus.py:656-664 and 710-721. -/
noncomputable def staysDry (p : Par) (stress num refSr : ℝ) (q : Pore) : Except PyErr Pore :=
  if p.assumption = 1 ∧ 0 < q.Ccp then do
    let tmp ← dryYield p stress num refSr q
    if q.YieldSt < tmp then do
      let v ← changevolume p q.RV tmp tmp q.Ccp q.Csp
      .ok ⟨q.AEV, q.WEV, q.Ccp, q.Csp, q.Ccd, q.RV, tmp, q.Filled, v, q.AEVC, q.WEVC, q.Airentrapped⟩
    else .ok q
  else .ok q

/-- One round of the loop of `EPUS.Wetting`, epus.py:638-670. -/
noncomputable def wetPore (p : Par) (stress refSr ss : ℝ) (q : Pore) : Except PyErr (Pore × Bool) :=
  if q.Filled then do
    let y := raise (stress + ss) q.YieldSt
    let v ← changevolume p q.RV y (stress + ss) q.Ccp q.Csp
    .ok (⟨q.AEV, q.WEV, q.Ccp, q.Csp, q.Ccd, q.RV, y, q.Filled, v, q.AEVC, q.WEVC, q.Airentrapped⟩, false)
  else do
    let c ← changeWetSuction p stress (raise (stress + pow10 q.WEV) q.YieldSt) (pow10 q.AEV) (pow10 q.WEV)
    if ss ≤ pow10 q.WEV / c.1 then do
      let y := raise (pow10 q.WEV / c.1 + stress) q.YieldSt
      let v ← changevolume p q.RV y (stress + ss) q.Ccp q.Csp
      .ok (⟨q.AEV, q.WEV, q.Ccp, q.Csp, q.Ccd, q.RV, y, true, v, q.AEVC, q.WEVC, q.Airentrapped⟩, c.2)
    else do
      let q' ← staysDry p stress stress refSr q
      .ok (q', c.2)

/-- One round of the loop of `EPUS.Loading`, epus.py:689-725.  The local `Stress` is the stress before the loading;
`ChangeWetSuction` reads the same value from the object. -/
noncomputable def loadPore (p : Par) (stress suction refSr stNew : ℝ) (q : Pore) : Except PyErr (Pore × Bool) :=
  if q.Filled then do
    let y := raise (stNew + suction) q.YieldSt
    let v ← changevolume p q.RV y (suction + stNew) q.Ccp q.Csp
    .ok (⟨q.AEV, q.WEV, q.Ccp, q.Csp, q.Ccd, q.RV, y, q.Filled, v, q.AEVC, q.WEVC, q.Airentrapped⟩, false)
  else do
    let ys := raise (stNew + pow10 q.WEV) q.YieldSt
    let c ← changeWetSuction p stress ys (pow10 q.AEV) (pow10 q.WEV)
    if suction < pow10 q.WEV / c.1 then do
      let v ← changevolume p q.RV ys (suction + stNew) q.Ccp q.Csp
      .ok (⟨q.AEV, q.WEV, q.Ccp, q.Csp, q.Ccd, q.RV, ys, true, v, q.AEVC, q.WEVC, q.Airentrapped⟩, c.2)
    else do
      let q' ← staysDry p stress stNew refSr q
      .ok (q', c.2)

/-- One round of the loop of `EPUS.Unloading`, epus.py:737-742. -/
noncomputable def unloadPore (p : Par) (suction stNew : ℝ) (q : Pore) : Except PyErr (Pore × Bool) :=
  if q.Filled then do
    let v ← changevolume p q.RV q.YieldSt (suction + stNew) q.Ccp q.Csp
    .ok (⟨q.AEV, q.WEV, q.Ccp, q.Csp, q.Ccd, q.RV, q.YieldSt, q.Filled, v, q.AEVC, q.WEVC, q.Airentrapped⟩, false)
  else .ok (q, false)

/-- `EPUS.Drying`, epus.py:539-602. -/
noncomputable def drying (p : Par) (ss : ℝ) (st : State) : Except PyErr State := do
  let cr ← dryRef p st ss
  let rs ← st.f.mapM (dryPore p st.Stress ss)
  .ok ⟨rs.map (·.1), ss, st.Stress, cr.2, cr.1, st.errocc || rs.any (·.2), st.Srdry, st.Srwet⟩

/-- `EPUS.Wetting`, epus.py:605-671.  The local `RefSr` (line 619) is read before `self.RefSr` is updated. -/
noncomputable def wetting (p : Par) (ss : ℝ) (st : State) : Except PyErr State := do
  let cr ← wetRef p st ss
  let rs ← st.f.mapM (wetPore p st.Stress st.RefSr ss)
  .ok ⟨rs.map (·.1), ss, st.Stress, cr.2, cr.1, st.errocc || rs.any (·.2), st.Srdry, st.Srwet⟩

/-- `EPUS.Loading`, epus.py:673-726. -/
noncomputable def loading (p : Par) (stNew : ℝ) (st : State) : Except PyErr State := do
  let rs ← st.f.mapM (loadPore p st.Stress st.Suction st.RefSr stNew)
  .ok ⟨rs.map (·.1), st.Suction, stNew, st.RefSr, st.Curveon, st.errocc || rs.any (·.2), st.Srdry, st.Srwet⟩

/-- `EPUS.Unloading`, epus.py:728-745. -/
noncomputable def unloading (p : Par) (stNew : ℝ) (st : State) : Except PyErr State := do
  let rs ← st.f.mapM (unloadPore p st.Suction stNew)
  .ok ⟨rs.map (·.1), st.Suction, stNew, st.RefSr, st.Curveon, st.errocc || rs.any (·.2), st.Srdry, st.Srwet⟩

/-- The four operations a user (or a stress path) can apply, epus.py:539, 605, 673, 728. -/
inductive Op
  | dry (ss : ℝ)
  | wet (ss : ℝ)
  | load (st : ℝ)
  | unload (st : ℝ)

/-- Apply one operation. -/
noncomputable def Op.run (p : Par) : Op → State → Except PyErr State
  | .dry ss => drying p ss
  | .wet ss => wetting p ss
  | .load s => loading p s
  | .unload s => unloading p s

/-- Apply a sequence of operations, first to last. -/
noncomputable def runOps (p : Par) (ops : List Op) (st : State) : Except PyErr State :=
  ops.foldlM (fun s o => o.run p s) st

/-- `CurveFittingSWCC.Wc`, epus.py:1113-1149, and `EPUS.Wc` (epus.py:214-234), which hands it `self.Gs`, for `s > 0` (`log10` raises otherwise). -/
noncomputable def wc (p : Par) (s : ℝ) : ℝ :=
  (p.wsat - p.sl * Real.logb 10 s / p.Gs - p.wr) * p.a * (1 - s ^ p.b / (10 : ℝ) ^ (6 * p.b)) / (s ^ p.b + p.a)

/-- `CurveFittingSWCC.DWc`, epus.py:1152-1195, and `EPUS.DWc` (epus.py:237-257), which hands it `self.Gs`. -/
noncomputable def dwc (p : Par) (s : ℝ) : ℝ :=
  let temp1 := p.wsat - p.sl * Real.log s / (Real.log 10 * p.Gs) - p.wr
  let temp2 := -p.a * p.b * s ^ p.b * ((10 : ℝ) ^ (-6 * p.b) * p.a + 1) / (s * (s ^ p.b + p.a) ^ 2)
  let temp3 := (p.a - p.a * s ^ p.b / (10 : ℝ) ^ (6 * p.b)) / (s ^ p.b + p.a)
  let temp4 := p.sl / (s * Real.log 10 * p.Gs)
  let temp5 := 1 - Real.log (1 + s / p.a ^ (1 / p.b)) / Real.log (1 + 10 ^ 6 / p.a ^ (1 / p.b))
  let temp6 := p.a ^ (1 / p.b) * (1 + s / p.a ^ (1 / p.b)) * Real.log (1 + 10 ^ 6 / p.a ^ (1 / p.b))
  (temp1 * temp2 - temp3 * temp4) * temp5 - (temp3 * temp1 + p.wr) / temp6

/-- `Interval`, epus.py:325. -/
noncomputable def interval (p : Par) : ℝ := (p.maxS - p.minS) / p.npoint

/-- The water entry value, epus.py:345-353, with `bwt` and `dwt` inlined.  Simplification: real powers and logarithms. -/
noncomputable def wevOf (p : Par) (aev : ℝ) : ℝ :=
  let bwt := (p.a / ((10 : ℝ) ^ p.logDS) ^ p.b) ^ (1 / p.logRS)
  let dwt := p.b / p.logRS
  let T := Real.logb 10 ((2.7 * p.a) ^ (1 / p.b))
  if T < aev then
    aev - (T - Real.logb 10 ((2.7 * bwt) ^ (1 / dwt))) * (6 - aev) / (6 - T)
  else (1 / dwt) * (Real.logb 10 bwt + p.b * aev - Real.logb 10 p.a)

/-- `temp` of line 335, the slope used for the compression indexes. -/
noncomputable def ccSlope (p : Par) (s : ℝ) : ℝ :=
  -p.a * p.b * s ^ p.b * (p.a * (10 : ℝ) ^ (-6 * p.b) + 1) / (s * (s ^ p.b + p.a) ^ 2)

/-- Row `i` filled by `EPUS.DryPoreSize`, epus.py:324-354.  The other arrays keep their initial zeros (epus.py:1046-1060). -/
noncomputable def dryRow (p : Par) (i : ℕ) : Pore :=
  let I := interval p
  let aev := i * I + p.minS
  let s := pow10 aev
  let temp := (p.a - p.a * s ^ p.b / (10 : ℝ) ^ (6 * p.b)) / (s ^ p.b + p.a)
  let rv := (-p.Gs * dwc p s * s * Real.log 10 - temp * p.Ccs) * I
  let ccp := -ccSlope p s * p.Ccs * (pow10 (aev + I) - pow10 aev)
  let csp := -ccSlope p s * p.Css * (pow10 (aev + I) - pow10 aev)
  ⟨aev, wevOf p aev, ccp, csp, ccp * (p.Ccd / p.Ccs), rv, 0, false, rv, 0, 0, false⟩

/-- `EPUS.DryPoreSize`, epus.py:260-356: the pore groups.  The divisions that raise ZeroDivisionError with Python floats
are made explicit: `Ccd / Ccs` (line 342), `1 / logRS` (345), `b / logRS` (346), `1 / b`.  Simplification: the other
partial operations (`log10` of a power, division by `6 - T`) are taken on the reals. -/
noncomputable def dryPoreSize (p : Par) : Except PyErr (List Pore) :=
  if p.npoint = 0 then .ok []
  else if p.Ccs = 0 ∨ p.logRS = 0 ∨ p.b = 0 then .error .zeroDivision
  else .ok ((List.range p.npoint).map (dryRow p))

/-- Row `i` after `EPUS.SlurryPoreSize`, epus.py:406-414. -/
noncomputable def slurryRow (p : Par) (i : ℕ) : Pore :=
  let r := dryRow p i
  let rv := r.RV + (r.AEV - p.minS) * r.Ccp
  ⟨r.AEV, r.WEV, r.Ccp, r.Csp, r.Ccd, rv, 0.0001, true, rv, r.AEV, r.WEV, false⟩

/-- `EPUS.SlurryPoreSize`, epus.py:361-424, on an object with flag `errocc` and tables `Srdry`, `Srwet`. -/
noncomputable def slurry (p : Par) (errocc : Bool) (srdry srwet : List ℝ) : Except PyErr State := do
  let _ ← dryPoreSize p
  .ok ⟨(List.range p.npoint).map (slurryRow p), pow10 p.minS, pow10 p.minS / 1000, 1, 1, errocc, srdry, srwet⟩

/-- `tmp1`: the sum of the current volumes, epus.py:771-773 and 866-868. -/
noncomputable def voids (f : List Pore) : ℝ := (f.map fun q => q.RVC).sum

/-- `tmp2` of the drying loop of `DegreeofsaturationSWCC`, epus.py:772-775. -/
noncomputable def filledVoids (f : List Pore) : ℝ := (f.map fun q => if q.Filled then q.RVC else 0).sum

/-- `tmp2` of `Calresults`, the water content, epus.py:867-873 and 905-909. -/
noncomputable def waterContent (p : Par) (f : List Pore) : ℝ :=
  (f.map fun q =>
    if q.Filled then (if q.Airentrapped then q.RVC / p.Gs * (1 - p.beta) else q.RVC / p.Gs) else 0).sum

/-- One round of the drying loop of `DegreeofsaturationSWCC`, epus.py:767-776. -/
noncomputable def srDryStep (p : Par) (st : State) (i : ℕ) : Except PyErr State := do
  let st' ← drying p (pow10 ((p.maxS - p.minS) / p.numSr * i + p.minS)) st
  .ok ⟨st'.f, st'.Suction, st'.Stress, st'.RefSr, st'.Curveon, st'.errocc,
    st'.Srdry.set i (filledVoids st'.f / voids st'.f), st'.Srwet⟩

/-- One round of the wetting loop of `DegreeofsaturationSWCC`, epus.py:781-789. -/
noncomputable def srWetStep (p : Par) (st : State) (i : ℕ) : Except PyErr State := do
  let st' ← wetting p (pow10 (p.maxS - (p.maxS - p.minS) / p.numSr * i)) st
  .ok ⟨st'.f, st'.Suction, st'.Stress, st'.RefSr, st'.Curveon, st'.errocc, st'.Srdry,
    st'.Srwet.set (p.numSr - 1 - i) ((st'.f.map fun q => if q.Filled then q.RVC / p.Gs else 0).sum * p.Gs / voids st'.f)⟩

/-- `EPUS.DegreeofsaturationSWCC`, epus.py:747-789. -/
noncomputable def degreeSat (p : Par) (errocc : Bool) (srdry srwet : List ℝ) : Except PyErr State := do
  let st ← slurry p errocc srdry srwet
  let st ← (List.range p.numSr).foldlM (srDryStep p) st
  (List.range p.numSr).foldlM (srWetStep p) st

/-- One step of a `StressPath`, epus.py:1244-1274: `ist`, `vl`, `npp`. -/
structure PathStep where
  ist : Bool
  vl : ℝ
  npp : ℕ

/-- One entry of the arrays of `DataResults`, epus.py:1316-1326. -/
structure Pt where
  ss : ℝ
  st : ℝ
  e : ℝ
  w : ℝ
  Sr : ℝ
  vw : ℝ

/-- `10 ** (j * intv + log10(c))`, epus.py:859 and 892: point `j` of a step from `c` to `vl`. -/
noncomputable def pathValue (c vl : ℝ) (npp j : ℕ) : ℝ :=
  pow10 (j * ((Real.logb 10 vl - Real.logb 10 c) / ((npp : ℝ) - 1)) + Real.logb 10 c)

/-- Body of the `j` loop of a suction step, epus.py:855-876: the operation and the recorded `(ss, st, e, w)`. -/
noncomputable def suctionPt (p : Par) (cs ct : ℝ) (stp : PathStep) (acc : State × List Pt) (j : ℕ) :
    Except PyErr (State × List Pt) := do
  let x := pathValue cs stp.vl stp.npp j
  let st ← (
    if 0 < (Real.logb 10 stp.vl - Real.logb 10 cs) / ((stp.npp : ℝ) - 1) then drying p x acc.1 else wetting p x acc.1)
  .ok (st, acc.2 ++ [⟨x, ct, voids st.f, waterContent p st.f, 0, 0⟩])

/-- Body of the `j` loop of a stress step, epus.py:887-912. -/
noncomputable def stressPt (p : Par) (cs ct : ℝ) (stp : PathStep) (acc : State × List Pt) (j : ℕ) :
    Except PyErr (State × List Pt) := do
  let x := pathValue ct stp.vl stp.npp j
  let st ← (
    if 0 < (Real.logb 10 stp.vl - Real.logb 10 ct) / ((stp.npp : ℝ) - 1) then loading p (x * cvStress p) acc.1
    else unloading p (x * cvStress p) acc.1)
  .ok (st, acc.2 ++ [⟨cs, x, voids st.f, waterContent p st.f, 0, 0⟩])

/-- The progress of `_Calresults_scalar`: the object, the locals `cs`, `ct`, and the points recorded so far, one list
per step. -/
structure Prog where
  st : State
  cs : ℝ
  ct : ℝ
  pts : List (List Pt)

/-- One round of the main loop of `_Calresults_scalar`, epus.py:848-914.  With `npp = 1` the interval is a division by a
numpy zero, giving infinities or nan; the model reports `.other`. -/
noncomputable def calStep (p : Par) (g : Prog) (stp : PathStep) : Except PyErr Prog := do
  let _ ← log10 stp.vl
  if stp.npp = 1 then .error .other
  else if stp.ist then do
    let _ ← log10 g.ct
    let r ← (List.range stp.npp).foldlM (stressPt p g.cs g.ct stp) (g.st, [])
    .ok ⟨r.1, g.cs, stp.vl, g.pts ++ [r.2]⟩
  else do
    let _ ← log10 g.cs
    let r ← (List.range stp.npp).foldlM (suctionPt p g.cs g.ct stp) (g.st, [])
    .ok ⟨r.1, stp.vl, g.ct, g.pts ++ [r.2]⟩

/-- `if x >= 999999: x = 999998`, epus.py:921-922. -/
noncomputable def clampVal (x : ℝ) : ℝ := if 999999 ≤ x then 999998 else x

/-- The final loop of `_Calresults_scalar`, epus.py:918-924.  A division by `e = 0` gives nan in numpy and 0 here. -/
noncomputable def finishPt (p : Par) (d : Pt) : Pt :=
  let Sr := d.w * p.Gs / d.e
  ⟨clampVal d.ss, clampVal d.st, d.e, d.w, Sr, Sr * d.e / (d.e + 1)⟩

/-- The start of `_Calresults_scalar`, epus.py:833-840: the flag `errocc` and the tables before the second call of
`SlurryPoreSize`. -/
noncomputable def startTables (p : Par) (srdry srwet : List ℝ) : Except PyErr State :=
  if p.assumption = 1 then degreeSat p false srdry srwet
  else .ok ⟨[], 0, 0, 0, 0, false, srdry, srwet⟩

/-- `EPUS._Calresults_scalar`, epus.py:820-929, on an object whose tables are `srdry` and `srwet`: the final object and
the recorded points of every step. -/
noncomputable def calresults (p : Par) (path : List PathStep) (srdry srwet : List ℝ) :
    Except PyErr (State × List (List Pt)) := do
  let st0 ← startTables p srdry srwet
  let st ← slurry p st0.errocc st0.Srdry st0.Srwet
  let g ← path.foldlM (calStep p) ⟨st, st.Suction, st.Stress, []⟩
  .ok (g.st, g.pts.map fun l => l.map (finishPt p))

end Geotecha.Epus
