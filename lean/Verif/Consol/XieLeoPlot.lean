import Verif.Consol.XieLeoTime

/-! # `XieAndLeo2004.plot_all`, geotecha/consolidation/xieandleo2004.py:890-1088: model -/

set_option autoImplicit false
set_option linter.unusedVariables false

open Real
namespace Geotecha.Consol.XieLeo.PlotAll

/-- One subplot: its place in the grid of 2 by 4, its labels, and its lines as lists of points (`ax.plot(x, y)` of 2d arrays draws a line for each column).
The limits of the axes, the grid and the directions of the axes are not modelled. -/
structure Panel where
  place : ℕ
  xlabel : String
  ylabel : String
  lines : List (List (ℝ × ℝ))

/-- The figure: its subplots in the order in which they are made, and the entries of the legend: the degree of consolidation, time factor and time that stand
in the label of each line of the second subplot (974-979). -/
structure Fig where
  panels : List Panel
  legend : List (ℝ × ℝ × ℝ)

/-- The names `u_`, `Us_`, ... bound at xieandleo2004.py:909-932; effective and total stress may raise. -/
structure Names where
  u : ℝ → ℝ → ℝ
  us : ℝ → ℝ
  up : ℝ → ℝ
  eff : ℝ → ℝ → Except PyErr ℝ
  tot : ℝ → ℝ → Except PyErr ℝ
  pore : ℝ → ℝ → ℝ
  e : ℝ → ℝ → ℝ
  vs : ℝ → ℝ → ℝ
  vw : ℝ → ℝ → ℝ
  xi : ℝ → ℝ → ℝ

/-- The choice by `self.drn`, xieandleo2004.py:909-932 (`drn` is set at 111 and used nowhere else); `g`: the module's name `qu`. -/
noncomputable def names (g : Option ℝ) (o : XieLeo) (drn : ℤ) : Names :=
  if drn = 1 then ⟨o.uPTIB, o.usPTIB, o.upPTIB, o.effectiveStressPTIB g, o.totalStressPTIB g, o.totalPorePTIB, o.ePTIB, o.vsPTIB, o.vwPTIB, o.xiPTIB⟩
  else ⟨o.uPTPB, o.usPTPB, o.upPTPB, o.effectiveStressPTPB g, o.totalStressPTPB g, o.totalPorePTPB, o.ePTPB, o.vsPTPB, o.vwPTPB, o.xiPTPB⟩

/-- A table of stresses, one row for each time; the name that is not bound is looked up before the size of the arrays matters. -/
noncomputable def table (f : ℝ → ℝ → Except PyErr ℝ) (a t : List ℝ) : Except PyErr (List (List ℝ)) := do
  let _ ← f 0 0
  t.mapM fun s => a.mapM fun b => f b s

/-- `t_interp`, xieandleo2004.py:935. -/
noncomputable def tInterp (o : XieLeo) : List ℝ := logspace (0.0001 / o.dTv) (3 / o.dTv) 100

/-- `Us_plot = np.linspace(0,1,11); Us_plot[-1] = 0.99`, xieandleo2004.py:942-943. -/
noncomputable def usPlot : List ℝ := ((List.range 10).map fun i : ℕ => (i : ℝ) / 10) ++ [0.99]

/-- The default of `t`, xieandleo2004.py:941-944. -/
noncomputable def defaultTimes (o : XieLeo) (q : Names) : List ℝ :=
  usPlot.map fun x => Const.npInterp x ((tInterp o).map fun s => (q.us s, s))

/-- The default of `a`, `np.linspace(0, self.H, 100)`, xieandleo2004.py:948. -/
noncomputable def defaultDepths (o : XieLeo) : List ℝ := (List.range 100).map fun i : ℕ => (i : ℝ) * (o.H / 99)

/-- The lines of a quantity against the convective coordinate, one for each time. -/
noncomputable def linesOf (q : Names) (f : ℝ → ℝ → ℝ) (a t : List ℝ) : List (List (ℝ × ℝ)) := t.map fun s => a.map fun b => (f b s, q.xi b s)

/-- The lines of a quantity that has been computed already. -/
noncomputable def linesTab (q : Names) (v : List (List ℝ)) (a t : List ℝ) : List (List (ℝ × ℝ)) :=
  List.zipWith (fun s row => List.zipWith (fun b y => (y, q.xi b s)) a row) t v

/-- `plot_all`, xieandleo2004.py:890-1088 (times and depths given as arrays). -/
noncomputable def plotAll (g : Option ℝ) (o : XieLeo) (drn : ℤ) (a t : Option (List ℝ)) : Except PyErr Fig := do
  let q := names g o drn
  let t := t.getD (defaultTimes o q)
  let a := a.getD (defaultDepths o)
  let eff ← table q.eff a t
  let tot ← table q.tot a t
  pure ⟨[⟨1, "T_v", "U", [(tInterp o).map fun s => (o.Tv s, q.us s), (tInterp o).map fun s => (o.Tv s, q.up s)]⟩,
    ⟨2, "u", "xi", linesOf q q.u a t⟩, ⟨6, "p", "xi", linesOf q q.pore a t⟩, ⟨3, "sigma'", "xi", linesTab q eff a t⟩,
    ⟨7, "sigma", "xi", linesTab q tot a t⟩, ⟨4, "v_s", "xi", linesOf q q.vs a t⟩, ⟨8, "v_w", "xi", linesOf q q.vw a t⟩,
    ⟨5, "e", "xi", linesOf q q.e a t⟩], t.map fun s => (q.us s, o.Tv s, s)⟩

end Geotecha.Consol.XieLeo.PlotAll
