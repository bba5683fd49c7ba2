import Verif.Constitutive.Pwise
import Verif.Piecewise.ModelSub

/-!
# Model of `YinAndGrahamSoilModel` (void_ratio_stress.py:1083-2042)

One soil element: scalars and arrays of one element (arrays act element by element; the only coupling between elements is
the common stopping test of the iteration).  Real arithmetic; positive stresses and times are assumed by the theorems, so
that no `nan` arises except the `0/0` of a constant stress, which the code looks for and the model has.

Python objects that are shared are modelled as such: the buffer `_es` that `stress_from_e` returns, and `_igral`, which is
the number 0 at first and an array changed in place after the first increment.
-/

set_option autoImplicit false

namespace Geotecha.YG

/-- Material parameters, void_ratio_stress.py:1385-1390. -/
structure Par where
  lam : ℝ
  kap : ℝ
  psi : ℝ
  siga : ℝ
  ea : ℝ
  ta : ℝ

/-- `_alpha`, void_ratio_stress.py:1392. -/
noncomputable def Par.alpha (p : Par) : ℝ := (p.lam - p.kap) / p.psi

/-- `e0, estress0, pstress0, t0`. -/
structure Init where
  e0 : ℝ
  s0 : ℝ
  p0 : ℝ
  t0 : ℝ

/-- `initial_conditions`, void_ratio_stress.py:1408-1530: nothing given, two of four given, anything else. -/
noncomputable def initialConditions (p : Par) (e0 s0 p0 t0 : Option ℝ) : Except PyErr (Option Init) :=
  match e0, s0, p0, t0 with
  | none, none, none, none => .ok none
  | some e0, some s0, none, none =>
    let p0 := Real.exp ((p.ea - e0 - p.kap * Real.log s0 + p.lam * Real.log p.siga) / (p.lam - p.kap))
    .ok (some ⟨e0, s0, p0, (p0 / s0) ^ p.alpha * p.ta⟩)
  | some e0, none, some p0, none =>
    let s0 := Real.exp ((p.ea - e0 - (p.lam - p.kap) * Real.log p0 + p.lam * Real.log p.siga) / p.kap)
    .ok (some ⟨e0, s0, p0, (p0 / s0) ^ p.alpha * p.ta⟩)
  | some e0, none, none, some t0 =>
    let ocr := (t0 / p.ta) ^ (1 / p.alpha)
    let p0 := Real.exp ((p.ea - e0 + p.lam * Real.log p.siga + p.kap * Real.log ocr) / p.lam)
    .ok (some ⟨e0, p0 / ocr, p0, t0⟩)
  | none, some s0, some p0, none =>
    let ocr := p0 / s0
    .ok (some ⟨p.ea - p.lam * Real.log (p0 / p.siga) + p.kap * Real.log ocr, s0, p0, ocr ^ p.alpha * p.ta⟩)
  | none, some s0, none, some t0 =>
    let ocr := (t0 / p.ta) ^ (1 / p.alpha)
    let p0 := ocr * s0
    .ok (some ⟨p.ea - p.lam * Real.log (p0 / p.siga) + p.kap * Real.log ocr, s0, p0, t0⟩)
  | none, none, some p0, some t0 =>
    let ocr := (t0 / p.ta) ^ (1 / p.alpha)
    .ok (some ⟨p.ea - p.lam * Real.log (p0 / p.siga) + p.kap * Real.log ocr, p0 / ocr, p0, t0⟩)
  | _, _, _, _ => .error .valueError

/-- The object.  `igral`: value of `_igral`; `igralArr`: whether `_igral` is an array by now (otherwise the number 0 of
line 1404).  `estress`, `inc`: contents of the arrays `_estress`, `_inc`.  `heap k`: contents of the `k`-th array made
for `_es`; `cur`: the one in use. -/
structure Obj where
  par : Par
  init : Option Init
  igral : ℝ
  igralArr : Bool
  estress : ℝ
  inc : ℝ
  heap : ℕ → ℝ
  cur : ℕ

/-- Storing initial conditions and making new arrays, void_ratio_stress.py:1514-1524; `_igral` is not touched. -/
def Obj.setInit (o : Obj) (i : Init) : Obj :=
  ⟨o.par, some i, o.igral, o.igralArr, i.s0, 0, fun k => if k = o.cur + 1 then 0 else o.heap k, o.cur + 1⟩

/-- What is stored when `initial_conditions` returns four `None`. -/
def Obj.store (o : Obj) : Option Init → Obj
  | none => o
  | some i => o.setInit i

/-- Constructor, void_ratio_stress.py:1383-1404; division by `psi`. -/
noncomputable def construct (p : Par) (e0 s0 p0 t0 : Option ℝ) : Except PyErr Obj := do
  if p.psi = 0 then throw .zeroDivision
  let i ← initialConditions p e0 s0 p0 t0
  return Obj.store ⟨p, none, 0, false, 0, 0, fun _ => 0, 0⟩ i

/-- `_inc_from_stress`, void_ratio_stress.py:1604-1664, its value.  For a constant stress the quotient is `nan` and is
replaced: by `_estress`, divided by `estress0`, then `np.power(self._inc[nans], alpha + 1, out=self._inc[nans])`, whose
output goes to a temporary copy and is lost, then divided by `t0`. -/
noncomputable def incOf (p : Par) (i : Init) (prev estress dt : ℝ) : ℝ :=
  if estress = prev then prev / i.s0 / i.t0
  else dt / (p.alpha + 1) * i.s0 / i.t0 / (estress - prev)
    * ((estress / i.s0) ^ (p.alpha + 1) - (prev / i.s0) ^ (p.alpha + 1))

/-- The increment added to the object: `self._igral += self._inc`, `self._estress[:] = estress`,
void_ratio_stress.py:1587-1589. -/
def Obj.advance (o : Obj) (inc estress : ℝ) : Obj :=
  ⟨o.par, o.init, o.igral + inc, true, estress, inc, o.heap, o.cur⟩

/-- The void ratio of lines 1594-1595. -/
noncomputable def voidRatio (p : Par) (i : Init) (igral estress : ℝ) : ℝ :=
  i.e0 - p.kap * Real.log (estress / i.s0) - p.psi * Real.log (igral + 1)

/-- `e_from_stress`, void_ratio_stress.py:1535-1597.  Before initial conditions exist the arrays do not either. -/
noncomputable def eFromStress (o : Obj) (estress : ℝ) (dt pstress : Option ℝ) : Except PyErr (ℝ × Obj) :=
  match dt with
  | none => do
    match ← initialConditions o.par none (some estress) (some (pstress.getD estress)) none with
    | some i => return (i.e0, o.setInit i)
    | none => throw .other
  | some dt =>
    match o.init with
    | none => .error .attributeError
    | some i =>
      let inc := incOf o.par i o.estress estress dt
      .ok (voidRatio o.par i (o.igral + inc) estress, o.advance inc estress)

/-- `_reset_to_initial_conditions`, void_ratio_stress.py:1599-1602. -/
def Obj.reset (o : Obj) : Except PyErr Obj :=
  match o.init with
  | none => .error .attributeError
  | some i => .ok ⟨o.par, some i, 0, false, i.s0, o.inc, o.heap, o.cur⟩

/-- `fn` of `stress_from_e`, void_ratio_stress.py:1706-1722, its value. -/
noncomputable def fpFun (o : Obj) (i : Init) (e dt x : ℝ) : ℝ :=
  Real.exp ((-(o.par.psi * Real.log (1 + incOf o.par i o.estress x dt + o.igral)) + i.e0 - e) / o.par.kap) * i.s0

/-- `scipy.optimize.fixed_point(fn, x0, xtol=1e-3, maxiter)` as called in line 1725: two calls `p1 = fn(p0)`,
`p2 = fn(p1)`, the Aitken step, the test of the relative change.  Both calls return the same array `_es`, so that by the
time the Aitken step is formed `p1` *is* `p2`; then `d = p2 - 2 p2 + p0`, and `p0 - (p2 - p0)**2/d = p2`: the step is not
accelerated.  The result here is the point `p1` at which `fn` was called last. -/
noncomputable def fixedPoint (f : ℝ → ℝ) : ℕ → ℝ → Option ℝ
  | 0, _ => none
  | n + 1, p0 =>
    let p1 := f p0
    let p := f p1
    if |if p0 = 0 then p else (p - p0) / p0| < 1 / 1000 then some p1 else fixedPoint f n p

/-- What `stress_from_e` returns: a number (lines 1697-1702) or the array `_es` itself (line 1731). -/
inductive Ret
  | num (v : ℝ)
  | buf (k : ℕ)

/-- What a returned value reads as, given the current object. -/
def Ret.read (o : Obj) : Ret → ℝ
  | .num v => v
  | .buf k => o.heap k

/-- `stress_from_e`, void_ratio_stress.py:1668-1731. -/
noncomputable def stressFromE (o : Obj) (e dt : ℝ) : Except PyErr (Ret × Obj) :=
  match o.init with
  | none => do
    match ← initialConditions o.par (some e) none none (some o.par.ta) with
    | some i => return (.num i.s0, o.setInit i)
    | none => throw .other
  | some i =>
    match fixedPoint (fpFun o i e dt) 500 o.estress with
    | none => .error .other
    | some x =>
      let s := fpFun o i e dt x
      .ok (.buf o.cur, ⟨o.par, o.init, o.igral + incOf o.par i o.estress x dt, true, s, incOf o.par i o.estress x dt,
        fun k => if k = o.cur then s else o.heap k, o.cur⟩)

/-- `av_from_stress`, void_ratio_stress.py:1768-1819; `psi / t0 / abs(estressdot) / (_igral + 1)`. -/
noncomputable def avFromStress (o : Obj) (estress : ℝ) (estressdot : Option ℝ) : Except PyErr ℝ :=
  match estressdot with
  | none => .ok (o.par.kap / estress)
  | some r =>
    match o.init with
    | none => .error .typeError
    | some i => .ok (o.par.kap / estress + o.par.psi / i.t0 / |r| / (o.igral + 1) * (estress / i.s0) ^ o.par.alpha)

/-- `np.cumsum` with a start value: the arrays of lines 2027-2036 and 1917-1926 (`estress[0] = estress0`, `estress[1:] = rate*dt`). -/
noncomputable def cumFrom (s : ℝ) : List ℝ → List ℝ
  | [] => [s]
  | d :: r => s :: cumFrom (s + d) r

/-- `e[i + 1] = self.e_from_stress(estress[i+1], dt=dt_)` for each interval, void_ratio_stress.py:2037-2038. -/
noncomputable def eSteps (o : Obj) : List (ℝ × ℝ) → Except PyErr (List ℝ × Obj)
  | [] => .ok ([], o)
  | (s, dt) :: r => do
    let (e, o1) ← eFromStress o s (some dt) none
    let (es, o2) ← eSteps o1 r
    return (e :: es, o2)

/-- `estress[i + 1] = self.stress_from_e(e[i+1], dt=dt_)` for each interval, void_ratio_stress.py:1927-1928: the contents
of the returned array are copied into `estress`. -/
noncomputable def sSteps (o : Obj) : List (ℝ × ℝ) → Except PyErr (List ℝ × Obj)
  | [] => .ok ([], o)
  | (e, dt) :: r => do
    let (s, o1) ← stressFromE o e dt
    let (ss, o2) ← sSteps o1 r
    return (s.read o1 :: ss, o2)

/-- `self._igral = igral0`, void_ratio_stress.py:1872, 1930, 1984, 2040: `igral0` is the object bound to `_igral` before
the simulation.  If that was the number 0 it is bound again; if it was an array, it is the array the simulation has been
changing in place, so nothing happens. -/
def restore (before after : Obj) : Obj :=
  if before.igralArr then after
  else ⟨after.par, after.init, before.igral, false, after.estress, after.inc, after.heap, after.cur⟩

/-- The rates at the grid points but the last, times the intervals, void_ratio_stress.py:2032-2035, 1922-1925. -/
noncomputable def increments (tvals rates grid : List ℝ) : List ℝ :=
  List.zipWith (fun r d => r * d) ((grid.map fun t => Const.npInterp t (tvals.zip rates)).dropLast) (Piecewise.diff grid)

/-- Result of a simulation: times, stresses, void ratios, rates. -/
structure Sim where
  t : List ℝ
  estress : List ℝ
  e : List ℝ
  rate : List ℝ

/-- `CRSS` with the 'step' method (every `method` but `'odeint'`), void_ratio_stress.py:1935-2042; `dx`, `minSeg`: the
keyword arguments handed to `subdivide_x_into_segments` with their defaults of lines 1987-1988. -/
noncomputable def crss (o : Obj) (tvals rates : List ℝ) (dx : Option ℝ) (minSeg : Option ℕ) : Except PyErr (Sim × Obj) := do
  let t0 ← (tvals.head?).elim (.error .indexError) .ok
  let t1 ← (tvals.getLast?).elim (.error .indexError) .ok
  let grid ← Piecewise.subdivideX tvals (some (dx.getD ((t1 - t0) / 200))) (minSeg.getD 50) none
  match o.init with
  | none => .error .attributeError
  | some i => do
    let estress := cumFrom i.s0 (increments tvals rates grid)
    let (es, o') ← eSteps o (estress.tail.zip (Piecewise.diff grid))
    return (⟨grid, estress, i.e0 :: es, grid.map fun t => Const.npInterp t (tvals.zip rates)⟩, restore o o')

/-- `CRSN` with the 'step' method, void_ratio_stress.py:1821-1932. -/
noncomputable def crsn (o : Obj) (tvals rates : List ℝ) (dx : Option ℝ) (minSeg : Option ℕ) : Except PyErr (Sim × Obj) := do
  let t0 ← (tvals.head?).elim (.error .indexError) .ok
  let t1 ← (tvals.getLast?).elim (.error .indexError) .ok
  let grid ← Piecewise.subdivideX tvals (some (dx.getD ((t1 - t0) / 200))) (minSeg.getD 50) none
  match o.init with
  | none => .error .attributeError
  | some i => do
    let e := cumFrom i.e0 (increments tvals rates grid)
    let (ss, o') ← sSteps o (e.tail.zip (Piecewise.diff grid))
    return (⟨grid, i.s0 :: ss, e, grid.map fun t => Const.npInterp t (tvals.zip rates)⟩, restore o o')

/-- `func` of `CRSS` with `method='odeint'`, void_ratio_stress.py:2014-2019: rate of the void ratio `x`, given the stress
rate and the stress. -/
noncomputable def crssRhs (p : Par) (rate stress x : ℝ) : ℝ :=
  -p.kap * rate / stress - p.psi / p.ta * Real.exp ((x - p.ea) / p.psi) * (stress / p.siga) ^ (p.lam / p.psi)

/-- `func` of `CRSN` with `method='odeint'`, void_ratio_stress.py:1902-1909: rate of the stress `x`, given the rate of the
void ratio and the void ratio. -/
noncomputable def crsnRhs (p : Par) (erate evalue x : ℝ) : ℝ :=
  -x / p.kap * (erate + p.psi / p.ta * Real.exp ((evalue - p.ea) / p.psi) * (x / p.siga) ^ (p.lam / p.psi))

end Geotecha.YG
