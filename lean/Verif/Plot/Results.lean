import Verif.Plot.Model
import Verif.Piecewise.Model
import Mathlib.Data.Real.Basic

/-! # Model of the figures of results

`plot_vs_time`, `plot_vs_depth` (plotting/one_d.py), and `produce_plots`, `_plot_por`, `_plot_avp`, `_plot_set`, ... of Speccon1dVR,
Speccon1dVRC, Speccon1dVRW, SchiffmanAndStein1970 and NogamiAndLi2003.  A figure is its title, axis labels and lines.  The plot
properties are dicts of the user: they are kept by identity, because `_plot_por` and its likes write into them.  Figure and legend
properties, and the marker spacing (C248), are not modelled. -/

set_option autoImplicit false
set_option linter.unusedVariables false

namespace Geotecha.Plot.Results
open Geotecha.Piecewise

/-- A two dimensional array. -/
structure Arr where
  rows : ℕ
  cols : ℕ
  entry : ℕ → ℕ → ℝ

/-- `a.T`. -/
def Arr.T (a : Arr) : Arr := ⟨a.cols, a.rows, fun i j => a.entry j i⟩

/-- The entries of a dict of plot properties which are read here: `xlabel`, `ylabel`, the number of `styles`, `has_legend`. -/
structure Props where
  xlabel : Option String
  ylabel : Option String
  styles : Option ℕ
  legend : Option Bool

/-- A line of a figure. -/
structure Line where
  label : Option String
  style : Option ℕ
  pts : List (ℝ × ℝ)

/-- A figure. -/
structure Fig where
  title : String
  xlabel : String
  ylabel : String
  inverted : Bool
  legend : Bool
  lines : List Line

/-- `zip(lines, itertools.cycle(styles))`, one_d.py:1533-1543, 1562-1564: 32 styles if none are given; from an empty list no line gets a style. -/
def styleOf (p : Props) (j : ℕ) : Option ℕ :=
  let n := p.styles.getD 32
  if n = 0 then none else some (j % n)

/-- Line labels, one_d.py:1578-1584: `zip(lines, labels)`. -/
def labelOf (labels : Option (List String)) (j : ℕ) : Option String := labels.bind fun l => l[j]?

/-- `plt.plot(x, z)` for a 2-D `x` and a 1-D `z`: a line for each column; matplotlib refuses arrays of unequal first dimension. -/
def columns (p : Props) (labels : Option (List String)) (rows cols len : ℕ) (pt : ℕ → ℕ → ℝ × ℝ) : Except PyErr (List Line) :=
  if rows ≠ len then .error .valueError
  else .ok ((List.range cols).map fun j : ℕ => ⟨labelOf labels j, styleOf p j, (List.range len).map fun i : ℕ => pt i j⟩)

/-- `plot_vs_depth`, one_d.py:1816-1967. -/
noncomputable def vsDepth (p : Props) (x : Arr) (z : List ℝ) (labels : Option (List String)) (H : ℝ) (rl : Option ℝ) : Except PyErr Fig := do
  let ls ← columns p labels x.rows x.cols z.length fun i j => (x.entry i j, depthToReducedLevel (nth z i) H rl)
  pure ⟨"", p.xlabel.getD "x", p.ylabel.getD (if rl.isNone then "Depth, z" else "RL"), rl.isNone, labels.isSome && p.legend.getD true, ls⟩

/-- `plot_vs_time`, one_d.py:1467-1592. -/
noncomputable def vsTime (p : Props) (t : List ℝ) (y : Arr) (labels : Option (List String)) : Except PyErr Fig := do
  let ls ← columns p labels y.rows y.cols t.length fun i j => (nth t i, y.entry i j)
  pure ⟨"", p.xlabel.getD "Time, t", p.ylabel.getD "y", false, labels.isSome && p.legend.getD true, ls⟩

/-- The dicts of the user, by identity, and `self.plot_properties`. -/
structure St where
  heap : ℕ → Props
  pp : List (String × ℕ)

/-- What is drawn in a figure. -/
inductive Body where
  /-- values at depths `z`; rows: depths, columns: times -/
  | depth (x : Arr) (z : List ℝ) (labels : List String) (H : ℝ) (rl : Option ℝ)
  /-- values against time; rows: depth intervals, columns: times; is the vertical axis inverted? -/
  | time (t : List ℝ) (y : Arr) (labels : List String) (invert : Bool)
  /-- loads, materials, roots: not part of this model (C250-C252), only whether they fail -/
  | rest (r : Except PyErr Unit)

/-- One step of `produce_plots`: the key into `plot_properties` (the figure of the roots has none), the title of the figure, the default label of the value axis. -/
structure Job where
  key : Option String
  title : String
  axis : String
  body : Body

/-- The value axis is the x-axis in figures against depth, and the y-axis in figures against time. -/
def setAxis (b : Body) (axis : String) (p : Props) : Props :=
  match b with
  | .depth .. => { p with xlabel := some (p.xlabel.getD axis) }
  | .time .. => { p with ylabel := some (p.ylabel.getD axis) }
  | .rest _ => p

/-- `prop = self.plot_properties.pop(key, dict())`, `if not 'xlabel' in prop: prop['xlabel'] = axis` (the user's own dict is written to),
speccon1d_vr.py:1209-1211, 1230-1232, 1250-1252 and the like. -/
def popProps (j : Job) (st : St) : Props × St :=
  match j.key.bind fun k => st.pp.lookup k with
  | none => (setAxis j.body j.axis ⟨none, none, none, none⟩, st)
  | some d => (setAxis j.body j.axis (st.heap d), ⟨fun k => if k = d then setAxis j.body j.axis (st.heap d) else st.heap k, st.pp.filter fun q => some q.1 ≠ j.key⟩)

/-- The figure of a step. -/
noncomputable def draw (p : Props) (j : Job) : Except PyErr Fig :=
  match j.body with
  | .depth x z labels H rl => do
    let f ← vsDepth p x z (some labels) H rl
    pure { f with title := j.title }
  | .time t y labels invert => do
    let f ← vsTime p t y.T (some labels)
    pure { f with title := j.title, inverted := invert }
  | .rest r => do
    r
    pure ⟨j.title, "", "", false, false, []⟩

/-- `produce_plots`: the figures which have been appended to `self._figures`, how it ended, and what has become of the properties. -/
noncomputable def produce : List Job → St → List Fig × Option PyErr × St
  | [], st => ([], none, st)
  | j :: js, st =>
    let q := popProps j st
    match draw q.1 j with
    | .error e => ([], some e, q.2)
    | .ok f => (f :: (produce js q.2).1, (produce js q.2).2)

/-! ## The steps of the classes -/

/-- Times and results of an analysis: `t` are the times of the results.  `fmt` and `fmt2` stand for the formats `{:.3g}` and
`{:.3g} to {:.3g}`. -/
structure Run where
  fmt : ℝ → String
  fmt2 : ℝ → ℝ → String
  H : ℝ
  rl : Option ℝ
  z : Option (List ℝ)
  avgPairs : Option (List (ℝ × ℝ))
  setPairs : Option (List (ℝ × ℝ))
  tpor : List ℝ
  tavp : List ℝ
  tset : List ℝ
  loads : Except PyErr Unit
  materials : Except PyErr Unit

/-- Labels of depth intervals, speccon1d_vr.py:1226-1228. -/
noncomputable def Run.intervals (o : Run) (pairs : List (ℝ × ℝ)) : List String :=
  pairs.map fun p => o.fmt2 (depthToReducedLevel p.1 o.H o.rl) (depthToReducedLevel p.2 o.H o.rl)

/-- A figure of pressures against depth, speccon1d_vr.py:1204-1220, speccon1d_vrc.py:1236-1287, speccon1d_vrw.py:1173-1208. -/
def Run.por (o : Run) (key title axis : String) (z : List ℝ) (a : Arr) : Job := ⟨some key, title, axis, .depth a z (o.tpor.map o.fmt) o.H o.rl⟩

/-- A figure of average pressures against time, speccon1d_vr.py:1222-1238, speccon1d_vrc.py:1289-1341, speccon1d_vrw.py:1210-1226. -/
noncomputable def Run.avp (o : Run) (key title axis : String) (pairs : List (ℝ × ℝ)) (a : Arr) : Job :=
  ⟨some key, title, axis, .time o.tavp a (o.intervals pairs) false⟩

/-- The figure of settlements, speccon1d_vr.py:1240-1259, speccon1d_vrc.py:1343-1361, speccon1d_vrw.py:1228-1246. -/
noncomputable def Run.set (o : Run) (pairs : List (ℝ × ℝ)) (a : Arr) : Job :=
  ⟨some "set", "fig_set", "Settlement", .time o.tset a (o.intervals pairs) true⟩

/-- The figures of loads and materials, speccon1d_vr.py:1288-1301; `_plot_loads`, speccon1d_vr.py:1333-1410, `_plot_materials`, 1303-1331, and the same in speccon1d_vrc.py, speccon1d_vrw.py. -/
def Run.tail (o : Run) : List Job := [⟨some "load", "fig_loads", "", .rest o.loads⟩, ⟨some "material", "fig_materials", "", .rest o.materials⟩]

/-- `Speccon1dVR.produce_plots`, speccon1d_vr.py:1261-1301. -/
noncomputable def Run.vr (o : Run) (por avp set : Arr) : List Job :=
  (o.z.map fun z => [o.por "por" "fig_por" "Pore pressure" z por]).getD [] ++
  (o.avgPairs.map fun p => [o.avp "avp" "fig_avp" "Average pore pressure" p avp]).getD [] ++
  (o.setPairs.map fun p => [o.set p set]).getD [] ++ o.tail

/-- `Speccon1dVRC.produce_plots`, speccon1d_vrc.py:1363-1433. -/
noncomputable def Run.vrc (o : Run) (por pors porc avp avps avpc set : Arr) : List Job :=
  (o.z.map fun z => [o.por "por" "fig_por" "Pore pressure" z por, o.por "pors" "fig_pors" "Soil pore pressure" z pors,
    o.por "porc" "fig_porc" "Column pore pressure" z porc]).getD [] ++
  (o.avgPairs.map fun p => [o.avp "avp" "fig_avp" "Average pore pressure" p avp, o.avp "avps" "fig_avps" "Average soil pore pressure" p avps,
    o.avp "avpc" "fig_avpc" "Average column pore pressure" p avpc]).getD [] ++
  (o.setPairs.map fun p => [o.set p set]).getD [] ++ o.tail

/-- `Speccon1dVRW.produce_plots`, speccon1d_vrw.py:1248-1300. -/
noncomputable def Run.vrw (o : Run) (por porwell avp set : Arr) : List Job :=
  (o.z.map fun z => [o.por "por" "fig_por" "Pore pressure" z por, o.por "porwell" "fig_porwell" "Drain Pore pressure" z porwell]).getD [] ++
  (o.avgPairs.map fun p => [o.avp "avp" "fig_avp" "Average pore pressure" p avp]).getD [] ++
  (o.setPairs.map fun p => [o.set p set]).getD [] ++ o.tail

/-- `produce_plots` of SchiffmanAndStein1970 (schiffmanandstein1970.py:270-356; `extra` is empty) and NogamiAndLi2003
(nogamiandli2003.py:755-855; `extra` is `" at r=..."` or `" (radial average)"`); `h` are the heights of the layers, `eigs` is the outcome
of the figure of the roots, if it is asked for. -/
noncomputable def layered (fmt : ℝ → String) (fmt2 : ℝ → ℝ → String) (extra : String) (tpor t : Option (List ℝ)) (z h : List ℝ) (por avp set : Arr)
    (eigs : Option (Except PyErr Unit)) : List Job :=
  (tpor.map fun s => [(⟨some "por", "fig_por", "Pore pressure" ++ extra, .depth por z (s.map fmt) 1 none⟩ : Job)]).getD [] ++
  (t.map fun s => [(⟨some "avp", "fig_avp", "Average pore pressure" ++ extra, .time s avp [fmt2 0 h.sum] false⟩ : Job),
    ⟨some "set", "fig_set", "surface settlement" ++ extra, .time s set [fmt2 0 h.sum] true⟩]).getD [] ++
  (eigs.map fun r => [(⟨none, "vertical characteristic curve and eigs", "", .rest r⟩ : Job)]).getD []

end Geotecha.Plot.Results
