import Verif.Constitutive.Epus
import Verif.Constitutive.ModelSwcc
import Verif.Constitutive.Pwise
import Mathlib.Data.Finset.Sort

/-!
# Model of `StressPath`, `DataResults` and `EpusProfile`, geotecha/constitutive_models/epus.py:1198-2078

The arrays of a `DataResults` object are lists.  The arrays of a profile have one entry per depth, so a profile is a list
of rows.  `EPUS(...)` objects are created fresh for every depth, so their tables are zeros (epus.py:198-199).  The Fortran
implementation of `Calresults` is not modelled: `Calresults` is `_Calresults_scalar` (epus.py:978-981, 984-995).
-/

set_option autoImplicit false
set_option linter.unusedVariables false

namespace Geotecha.Epus

/-! ## StressPath and DataResults -/

/-- The dict of one step of a stress path, epus.py:1206-1217; a missing key is `none`. -/
structure StepDict where
  vl : Option ℝ
  ist : Option Bool
  npp : Option ℤ
  name : Option String

/-- One round of the loop of `StressPath.__init__`, epus.py:1253-1272.  A missing `vl` is a KeyError (`.other`).  Without
`name` both branches evaluate `str[i]`, a TypeError. -/
noncomputable def readStep (d : StepDict) : Except PyErr (Bool × ℝ × ℤ × String) :=
  match d.vl with
  | none => .error .other
  | some v =>
    match d.name with
    | none => .error .typeError
    | some s => .ok (d.ist.getD true, v, d.npp.getD 100, s)

/-- `DataResults`, epus.py:1287-1326. -/
structure Data where
  npts : ℕ
  ss : List ℝ
  st : List ℝ
  e : List ℝ
  w : List ℝ
  Sr : List ℝ
  vw : List ℝ

/-- `DataResults.__init__`, epus.py:1316-1324: `np.zeros` of a negative size is a ValueError. -/
noncomputable def newData (npts : ℤ) : Except PyErr Data :=
  if npts < 0 then .error .valueError
  else
    let z : List ℝ := List.replicate npts.toNat 0
    .ok ⟨npts.toNat, z, z, z, z, z, z⟩

/-- `StressPath.__init__`, epus.py:1244-1275: the steps and the result containers. -/
noncomputable def stressPath (ds : List StepDict) : Except PyErr (List (Bool × ℝ × ℤ × String) × List Data) := do
  let steps ← ds.mapM readStep
  let data ← steps.mapM fun s => newData s.2.2.1
  .ok (steps, data)

/-- Assignment of an array to a slice of length `n`: equal length, or one value that is broadcast. -/
def assignSlice (n : ℕ) (l : List ℝ) : Except PyErr (List ℝ) :=
  if l.length = n then .ok l
  else match l with
    | [x] => .ok (List.replicate n x)
    | _ => .error .valueError

/-- One attribute of `DataResults.__add__`, epus.py:1349-1350. -/
def joinAttr (n m : ℕ) (a b : List ℝ) : Except PyErr (List ℝ) := do
  let x ← assignSlice n a
  let y ← assignSlice m b
  .ok (x ++ y)

/-- `DataResults.__add__`, epus.py:1328-1352, for another `DataResults`. -/
def addData (a b : Data) : Except PyErr Data := do
  let ss ← joinAttr a.npts b.npts a.ss b.ss
  let st ← joinAttr a.npts b.npts a.st b.st
  let e ← joinAttr a.npts b.npts a.e b.e
  let w ← joinAttr a.npts b.npts a.w b.w
  let Sr ← joinAttr a.npts b.npts a.Sr b.Sr
  let vw ← joinAttr a.npts b.npts a.vw b.vw
  .ok ⟨a.npts + b.npts, ss, st, e, w, Sr, vw⟩

/-- The value of Python's `sum` of a list of `DataResults`: the integer 0 or a `DataResults`. -/
inductive Summed where
  | zero
  | data (d : Data)

/-- `acc + d` inside `sum`: `0 + d` is `d.__radd__(0)`, which returns `d` (epus.py:1355-1360). -/
def sumStep : Summed → Data → Except PyErr Summed
  | .zero, d => .ok (.data d)
  | .data a, d => do
    let r ← addData a d
    .ok (.data r)

/-- `StressPath.combine_datapoints`, epus.py:1281-1284. -/
def combine (ds : List Data) : Except PyErr Summed := ds.foldlM sumStep .zero

/-! ## EpusProfile -/

/-- One depth of `EpusProfile.profile`: the attributes of `DataResults` plus `z`, `gam`, `uw` (epus.py:1639-1653). -/
structure Row where
  z : ℝ
  gam : ℝ
  uw : ℝ
  ss : ℝ
  st : ℝ
  e : ℝ
  w : ℝ
  Sr : ℝ
  vw : ℝ

/-- The arguments of `EpusProfile.__init__`, epus.py:1470-1485; `zw` after the default of line 1491. -/
structure PPar where
  epus : Par
  H : ℝ
  zw : ℝ
  q0 : ℝ
  gamw : ℝ
  nz : ℤ
  Npoint : ℤ
  npp : ℤ
  nzRefine : List ℝ
  NpointRefine : List ℝ
  nppRefine : List ℝ
  atol : ℝ
  rtol : ℝ
  maxIter : ℕ
  initialStress : Option (List (ℝ × ℝ))

/-- `EpusProfile.__init__`'s default of `zw`, epus.py:1490-1493. -/
def initZw (H : ℝ) : Option ℝ → ℝ
  | none => H
  | some z => z

/-- `np.linspace(0, H, nz)` for `nz ≥ 2`, epus.py:1626. -/
noncomputable def linspaceH (H : ℝ) (nz : ℕ) : List ℝ := (List.range nz).map fun i : ℕ => (i : ℝ) * (H / ((nz : ℝ) - 1))

/-- `np.unique(np.sort(l))`. -/
noncomputable def sortUnique (l : List ℝ) : List ℝ := l.toFinset.sort (· ≤ ·)

/-- The depths of `_blank_profile`, epus.py:1625-1636.  Fewer than two depths: `ztemp[1]` is an IndexError, a negative
number is a ValueError. -/
noncomputable def depths (p : PPar) (nz : ℤ) : Except PyErr (List ℝ) :=
  if nz < 0 then .error .valueError
  else if nz < 2 then .error .indexError
  else
    let zt := linspaceH p.H nz.toNat
    let dz := (p.H / (((nz.toNat : ℕ) : ℝ) - 1) - 0) / 5
    let extra := [p.zw - dz, p.zw, p.zw + dz].filter fun z => decide (0 < z) && decide (z < p.H)
    .ok (sortUnique (zt ++ extra))

/-- One row of `_blank_profile`, epus.py:1638-1651. -/
noncomputable def blankRow (p : PPar) (z : ℝ) : Row :=
  let uw := (z - p.zw) * p.gamw
  ⟨z, 0, uw, if uw < 0 then -uw else 0, 0, 0, 0, 0, 0⟩

/-- `EpusProfile._blank_profile`, epus.py:1615-1655. -/
noncomputable def blankProfile (p : PPar) (nz : ℤ) : Except PyErr (List Row) := do
  let zs ← depths p nz
  .ok (zs.map (blankRow p))

/-- Row update `profile.st[i] = s`. -/
def Row.setSt (r : Row) (s : ℝ) : Row := ⟨r.z, r.gam, r.uw, r.ss, s, r.e, r.w, r.Sr, r.vw⟩

/-- The buoyancy correction, epus.py:1540-1541 and 1565-1566. -/
noncomputable def buoyant (uw s : ℝ) : ℝ := if 0 < uw then s - uw else s

/-- `EpusProfile._initialize_stress`, epus.py:1535-1546. -/
noncomputable def initStress (p : PPar) (rows : List Row) : List Row :=
  match p.initialStress with
  | none => rows.map fun r => r.setSt (buoyant r.uw (r.z * 15 + p.q0))
  | some pts => rows.map fun r => r.setSt (Const.npInterp r.z pts)

/-- The running sum of `q0 + cumsum(dz * gamavg)` from row `r` on, epus.py:1557-1562. -/
noncomputable def overburden (s : ℝ) (r : Row) : List Row → List ℝ
  | [] => [s]
  | r' :: rs => s :: overburden (s + (r'.z - r.z) * ((r'.gam + r.gam) * 0.5)) r' rs

/-- `EpusProfile._stress_from_overburden`, epus.py:1554-1566. -/
noncomputable def stressFromOverburden (p : PPar) : List Row → List Row
  | [] => []
  | r :: rs => List.zipWith (fun x s => x.setSt (buoyant x.uw s)) (r :: rs) (overburden p.q0 r rs)

/-- One row of `_update_density`, epus.py:1570-1580. -/
noncomputable def densityRow (p : PPar) (r : Row) : Row :=
  ⟨r.z, (p.epus.Gs + r.Sr * r.e) / (1 + r.e) * p.gamw, r.uw, r.ss, r.st, r.e, r.w, r.Sr, r.vw⟩

/-- The `EPUS` object built for a depth: the parameters of the container with another number of pore groups,
epus.py:1601-1604. -/
def withNpoint (q : Par) (n : ℕ) : Par :=
  ⟨q.wsat, q.a, q.b, q.wr, q.sl, q.logDS, q.logRS, q.Ccs, q.Css, q.Ccd, q.Gs, q.assumption, q.beta, q.pm, q.poreShape, q.K0,
    n, q.numSr, q.maxS, q.minS⟩

/-- The stress of a depth, at least the stress of the slurry, epus.py:1591. -/
noncomputable def stOf (q : Par) (r : Row) : ℝ := max r.st (pow10 q.minS / 1000)

/-- The stress path of a depth, epus.py:1590-1600 (also 1829-1839, 1869-1879). -/
noncomputable def basePath (q : Par) (npp : ℕ) (r : Row) : List PathStep :=
  if r.ss ≤ pow10 q.minS then [⟨true, stOf q r, npp⟩]
  else [⟨true, stOf q r, npp⟩, ⟨false, r.ss, npp⟩]

/-- Run a fresh `EPUS` object along a path and take the last value of the last step, epus.py:1604-1609. -/
noncomputable def endPoint (q : Par) (path : List PathStep) : Except PyErr Pt := do
  let r ← calresults q path (List.replicate q.numSr 0) (List.replicate q.numSr 0)
  match r.2.getLast? with
  | none => .error .indexError
  | some l =>
    match l.getLast? with
    | none => .error .indexError
    | some x => .ok x

/-- Write an end point into a row, epus.py:1607-1613, including the clamp of `Sr`. -/
noncomputable def Row.setPt (r : Row) (x : Pt) : Row :=
  ⟨r.z, r.gam, r.uw, x.ss, x.st, x.e, x.w, if 1 < x.Sr then 1 else x.Sr, x.vw⟩

/-- One depth of `_e_and_Sr_from_EPUS`, epus.py:1583-1613. -/
noncomputable def epusRow (q : Par) (npp : ℕ) (r : Row) : Except PyErr Row := do
  let x ← endPoint q (basePath q npp r)
  .ok (r.setPt x)

/-- One round of the convergence loop of `calc`, epus.py:1692-1694. -/
noncomputable def profStep (p : PPar) (Npoint npp : ℕ) (rows : List Row) : Except PyErr (List Row) := do
  let rows ← rows.mapM (epusRow (withNpoint p.epus Npoint) npp)
  .ok (stressFromOverburden p (rows.map (densityRow p)))

/-- `np.allclose(old, new, atol, rtol)` on finite values of equal length. -/
noncomputable def allclose (atol rtol : ℝ) (old new : List ℝ) : Bool :=
  (List.zipWith (fun a b => decide (|a - b| ≤ atol + rtol * |b|)) old new).all id

/-- The convergence loop of `calc`, epus.py:1688-1698, with `fuel` rounds left and `j` rounds done: the rows and the value
of `j` after the loop. -/
noncomputable def iterate (p : PPar) (Npoint npp : ℕ) : ℕ → ℕ → List Row → Except PyErr (List Row × ℕ)
  | 0, j, rows => .ok (rows, j - 1)
  | fuel + 1, j, rows => do
    let rows' ← profStep p Npoint npp rows
    if allclose p.atol p.rtol (rows.map (·.st)) (rows'.map (·.st)) then .ok (rows', j)
    else iterate p Npoint npp fuel (j + 1) rows'

/-- The state of `calc` between refinements: the profile, if any, and `niter`. -/
structure CalcState where
  profile : Option (List Row)
  niter : List ℕ
  nzNow : ℤ
  NpointNow : ℤ
  nppNow : ℤ

/-- The refined numbers, epus.py:1667-1669: all three use the first factor `fnz`.  Python's `int`. -/
noncomputable def refined (fnz : ℝ) (n : ℤ) : ℤ := pyInt (fnz * n)

/-- The starting stresses of a refinement, epus.py:1672-1684: the initial guess, or interpolated from the old profile. -/
noncomputable def startRows (p : PPar) (old : Option (List Row)) (blank : List Row) : List Row :=
  match old with
  | none => initStress p blank
  | some old => blank.map fun r => r.setSt (Const.npInterp r.z (old.map fun o => (o.z, o.st)))

/-- One refinement of `calc`, epus.py:1663-1703.  `max_iter = 0` leaves `j` unbound; the test `j >= max_iter` of line 1701 is
kept.  Simplification: a negative number of pore groups or points per step (`np.zeros` raises a ValueError) is rejected
here, before the iterations. -/
noncomputable def refineStep (p : PPar) (c : CalcState) (f : ℝ × ℝ × ℝ) : Except PyErr CalcState := do
  let nz := refined f.1 p.nz
  let Npoint := refined f.1 p.Npoint
  let npp := refined f.1 p.npp
  let blank ← blankProfile p nz
  if p.maxIter = 0 then .error .unboundLocal
  else if Npoint < 0 ∨ npp < 0 then .error .valueError
  else do
    let r ← iterate p Npoint.toNat npp.toNat p.maxIter 0 (startRows p c.profile blank)
    if p.maxIter ≤ r.2 then .error .valueError
    else .ok ⟨some r.1, c.niter ++ [r.2 + 1], nz, Npoint, npp⟩

/-- `EpusProfile.calc`, epus.py:1659-1703, on a fresh object. -/
noncomputable def profileCalc (p : PPar) : Except PyErr CalcState :=
  (List.zip p.nzRefine (List.zip p.NpointRefine p.nppRefine)).foldlM (refineStep p) ⟨none, [], 0, 0, 0⟩

/-- The path of the `dsig` part of `compression_indexes`, epus.py:1826-1843. -/
noncomputable def sigPath (q : Par) (npp : ℕ) (dsig : ℝ) (r : Row) : List PathStep :=
  basePath q npp r ++ [⟨true, stOf q r + dsig, npp⟩]

/-- The path of the `dpsi` part of `compression_indexes`, epus.py:1867-1904. -/
noncomputable def psiPath (q : Par) (npp : ℕ) (dpsi : ℝ) (r : Row) : List PathStep :=
  basePath q npp r ++
    (if r.uw < 0 then [⟨false, r.ss + dpsi, npp⟩]
     else if pow10 q.minS ≤ r.uw - dpsi then [⟨true, stOf q r + dpsi, npp⟩]
     else [⟨true, stOf q r + r.uw, npp⟩, ⟨false, dpsi - r.uw, npp⟩])

/-- The six indexes of a depth. -/
structure Idx where
  m1s : ℝ
  m2s : ℝ
  m1w : ℝ
  m2w : ℝ
  m1a : ℝ
  m2a : ℝ

/-- The arithmetic of `compression_indexes`, epus.py:1937-1944; `a` is the row after `dsig`, `b` after `dpsi`. -/
noncomputable def indexRow (dsig dpsi : ℝ) (r a b : Row) : Idx :=
  let m1s := (a.e - r.e) / (1 + r.e) / dsig
  let m2s := (b.e - r.e) / (1 + r.e) / dpsi
  let m1w := (a.Sr * a.e - r.Sr * r.e) / (1 + r.e) / dsig
  let m2w := (b.Sr * b.e - r.Sr * r.e) / (1 + r.e) / dpsi
  ⟨m1s, m2s, m1w, m2w, m1s - m1w, m2s - m2w⟩

/-- `EpusProfile.compression_indexes`, epus.py:1793-1944, on a profile computed with `Npoint` pore groups and `npp` points
per step.  It restores `self.profile` and adds the indexes, so the result is the list of indexes. -/
noncomputable def compressionIndexes (p : PPar) (Npoint npp : ℕ) (dsig dpsi : ℝ) (rows : List Row) : Except PyErr (List Idx) := do
  let q := withNpoint p.epus Npoint
  let a ← rows.mapM fun r => do
    let x ← endPoint q (sigPath q npp dsig r)
    .ok (r.setPt x)
  let b ← rows.mapM fun r => do
    let x ← endPoint q (psiPath q npp dpsi r)
    .ok (r.setPt x)
  .ok (List.zipWith (fun r ab => indexRow dsig dpsi r ab.1 ab.2) rows (List.zip a b))

/-- One depth of `water_permeability`, epus.py:1992-2016: the relative permeability. -/
noncomputable def krRow (q : Par) (npp nppSwcc : ℕ) (r : Row) : Except PyErr ℝ :=
  if r.ss ≤ pow10 q.minS then .ok 1
  else do
    let out ← calresults q [⟨true, stOf q r, npp⟩, ⟨false, 1000000, nppSwcc⟩] (List.replicate q.numSr 0)
      (List.replicate q.numSr 0)
    match out.2.getLast? with
    | none => .error .indexError
    | some l => Const.kwrelComp (l.map fun x => (x.ss, x.vw)) r.ss

/-- `EpusProfile.water_permeability`, epus.py:1947-2024; `ksat` is `e_ksat.k_from_e`. -/
noncomputable def waterPermeability (p : PPar) (Npoint npp nppSwcc : ℕ) (ksat : ℝ → ℝ) (rows : List Row) : Except PyErr (List ℝ) :=
  rows.mapM fun r => do
    let kr ← krRow (withNpoint p.epus Npoint) npp nppSwcc r
    .ok (ksat r.e * kr)

/-- `EpusProfile.air_permeability`, epus.py:2026-2078; `kd` is `e_ksat.k_from_e`. -/
noncomputable def airPermeability (kd : ℝ → ℝ) (qfit : ℝ) (rows : List Row) : List ℝ :=
  rows.map fun r => kd r.e * Const.karelAir r.Sr qfit

end Geotecha.Epus
