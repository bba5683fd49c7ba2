import Verif.Plot.Model
import Verif.Piecewise.ModelSub
import Mathlib.Analysis.SpecialFunctions.Trigonometric.Basic
import Mathlib.Data.Real.Archimedean

/-! # Model of the plots of loads and materials

`plot_generic_loads` and `plot_single_material_vs_depth` (plotting/one_d.py) and `Speccon1dVR._plot_loads`, `_plot_materials`
(speccon/speccon1d_vr.py).  A figure is the list of its curves: label, number of the style, points handed to `plot`.  matplotlib
itself (axes, ticks, layout, markers) is not modelled; the marker spacing is C248. -/

set_option autoImplicit false
set_option linter.unusedVariables false

namespace Geotecha.Plot.Loads
open Geotecha.Piecewise

/-- The first entry of a load triple: `None`, a PolyLine (its `x` and `y`), or a pair of sequences. -/
inductive TimeArg where
  | missing
  | line (x y : List ℝ)
  | pair (x y : List ℝ)

/-- The second entry of a load triple: a PolyLine (its `x` and `y`), or a pair of sequences. -/
inductive DepthArg where
  | line (x y : List ℝ)
  | pair (x y : List ℝ)

/-- `(vs_time, vs_depth, omega_phase)`. -/
structure Load where
  time : TimeArg
  depth : DepthArg
  om : Option (ℝ × ℝ)

/-- A line handed to `Axes.plot`: its label, which style it takes from the cycle, its points. -/
structure Curve where
  label : String
  style : ℕ
  pts : List (ℝ × ℝ)

/-- One row of subplots: history of the loads, distribution with depth. -/
structure Row where
  ylabel : String
  time : List Curve
  depth : List Curve

/-- `np.min` / `np.max` of a sequence. -/
noncomputable def extreme (f : ℝ → ℝ → ℝ) : List ℝ → Except PyErr ℝ
  | [] => .error .valueError
  | a :: l => .ok (l.foldl f a)

/-- Body of the loop which finds `tmin`, `tmax`, one_d.py:1327-1334; `first` is `i==0 and j==0`, the state is `none` while the two names
are unbound. -/
noncomputable def spanStep (st : Option (ℝ × ℝ)) (first : Bool) (l : Load) : Except PyErr (Option (ℝ × ℝ)) :=
  if first then
    match l.time with
    | .line x _ => do
      let a ← extreme min x
      let b ← extreme max x
      pure (some (a, b))
    | _ => .error .attributeError
  else
    match st with
    | none => .error .unboundLocal
    | some (p, q) =>
      match l.time with
      | .line x _ => do
        let a ← extreme min x
        let b ← extreme max x
        pure (some (min p a, max q b))
      | _ => .error .attributeError

/-- The loads in the order of the loops, with `i==0 and j==0`. -/
def tagged (gs : List (List Load)) : List (Bool × Load) :=
  gs.zipIdx.flatMap fun g => g.1.zipIdx.map fun l => (decide (g.2 = 0 ∧ l.2 = 0), l.1)

/-- `tmin, tmax`, one_d.py:1325-1336. -/
noncomputable def span (gs : List (List Load)) : Option (ℝ × ℝ) → Except PyErr (Option (ℝ × ℝ))
  | some r => .ok (some r)
  | none => (tagged gs).foldlM (fun st l => spanStep st l.1 l.2) none

/-- `vs_time` made into a PolyLine, one_d.py:1360-1365. -/
def asLine (a b : ℝ) : TimeArg → Except PyErr (List ℝ × List ℝ)
  | .missing => .ok ([a, b], [0, 0])
  | .line x y => .ok (x, y)
  | .pair x y => if x.length ≠ y.length ∨ x.length < 2 ∨ y.length < 2 then .error .typeError else .ok (x, y)

/-- `dx`, one_d.py:1368-1372.  `omega` is a Python float: `1/0.` raises. -/
noncomputable def spacing (a b : ℝ) : Option (ℝ × ℝ) → Except PyErr ℝ
  | none => .ok ((b - a) / 20)
  | some (w, _) => if w = 0 then .error .zeroDivision else .ok (min ((b - a) / 20) (1 / (w / (2 * Real.pi)) / 40))

/-- `y *= np.cos(omega * x + phase)`, one_d.py:1388-1389. -/
noncomputable def shake (om : Option (ℝ × ℝ)) (pts : List (ℝ × ℝ)) : List (ℝ × ℝ) :=
  match om with
  | none => pts
  | some (w, p) => pts.map fun q => (q.1, q.2 * Real.cos (w * q.1 + p))

/-- The points of the load history, one_d.py:1360-1397. -/
noncomputable def drawTime (a b : ℝ) (l : Load) : Except PyErr (List (ℝ × ℝ)) := do
  let v ← asLine a b l.time
  let dx ← spacing a b l.om
  let s ← subdivideXY v.1 v.2 (some dx) 4 none
  pure (shake l.om (s.1.zip s.2))

/-- The points of the distribution with depth: `plot(y, z)`, one_d.py:1411-1429.  matplotlib refuses sequences of unequal lengths. -/
noncomputable def drawDepth (H : ℝ) (rl : Option ℝ) (d : DepthArg) : Except PyErr (List (ℝ × ℝ)) := do
  let v ← match d with
    | .line x y => subdivideXY x y (some (extent x / 8)) 4 none
    | .pair x y => if x.length ≠ y.length then .error .valueError else .ok (x, y)
  pure ((v.1.zip v.2).map fun q => (q.2, depthToReducedLevel q.1 H rl))

/-- The two curves of load number `j` of a group; `c` loads have been drawn before the group, there are `n` styles (`next` of an
empty cycle raises), one_d.py:1358-1429. -/
noncomputable def drawLoad (n : ℕ) (a b H : ℝ) (rl : Option ℝ) (name : String) (c : ℕ) (l : Load × ℕ) : Except PyErr (Curve × Curve) :=
  if n = 0 then .error .other
  else do
    let t ← drawTime a b l.1
    let d ← drawDepth H rl l.1.depth
    pure (⟨name ++ toString l.2, (c + l.2) % n, t⟩, ⟨name ++ toString l.2, (c + l.2) % n, d⟩)

/-- The rows, one_d.py:1344-1461.  `sp` is `none` if `tmin` and `tmax` are unbound. -/
noncomputable def rows (n : ℕ) (sp : Option (ℝ × ℝ)) (H : ℝ) (rl : Option ℝ) : List (List Load × String × String) → ℕ → Except PyErr (List Row)
  | [], _ => .ok []
  | (g, name, yl) :: r, c => do
    let cs ← g.zipIdx.mapM fun l => match sp with
      | none => .error .unboundLocal
      | some (a, b) => drawLoad n a b H rl name c l
    let rest ← rows n sp H rl r (c + g.length)
    pure (⟨yl, cs.map Prod.fst, cs.map Prod.snd⟩ :: rest)

/-- `plot_generic_loads`, one_d.py:1210-1464, with `n` styles in the cycle (32 unless `prop_dict` says otherwise).  `GridSpec(0, 2)`
raises `ValueError`.  Groups without name or label (`zip`) are not drawn, but `GridSpec` has a row for them. -/
noncomputable def plotGenericLoads (gs : List (List Load)) (names : List String) (ylabels : Option (List String)) (trange : Option (ℝ × ℝ)) (n : ℕ)
    (H : ℝ) (rl : Option ℝ) : Except PyErr (List Row) := do
  if gs.length = 0 then .error .valueError
  else
    let yl := ylabels.getD ((List.range gs.length).map fun k : ℕ => "y" ++ toString k)
    let z := gs.zip (names.zip yl)
    let sp ← span (z.map Prod.fst) trange
    rows n sp H rl z 0

/-- The curve of one material: `plot(y, z)`, one_d.py:1676-1712; all have the style taken once (1675). -/
noncomputable def drawMaterial (H : ℝ) (rl : Option ℝ) (m : TimeArg × String) : Except PyErr Curve := do
  let v ← match m.1 with
    | .missing => .error .typeError
    | .line x y => .ok (x, y)
    | .pair x y => asLine 0 0 (.pair x y)
  let s ← subdivideXY v.1 v.2 (some (extent v.1 / 8)) 4 none
  pure ⟨m.2, 0, (s.1.zip s.2).map fun q => (q.2, depthToReducedLevel q.1 H rl)⟩

/-- `plot_single_material_vs_depth`, one_d.py:1594-1741.  `GridSpec(1, 0)` raises.  (The labels are zipped here already.) -/
noncomputable def plotMaterials (zx : List (TimeArg × String)) (n : ℕ) (H : ℝ) (rl : Option ℝ) : Except PyErr (List Curve) :=
  if zx.length = 0 then .error .valueError
  else if n = 0 then .error .other
  else zx.mapM (drawMaterial H rl)

/-! ## `Speccon1dVR._plot_loads` -/

/-- The loads of a `Speccon1dVR` object after `check_input_attributes` (which replaces a missing `omega_phase` by a list of `None`);
a PolyLine is given by its `x` and `y`. -/
structure Inputs where
  surcharge : Option (List ((List ℝ × List ℝ) × (List ℝ × List ℝ) × Option (ℝ × ℝ)))
  vacuum : Option (List ((List ℝ × List ℝ) × (List ℝ × List ℝ) × Option (ℝ × ℝ)))
  top : Option (List ((List ℝ × List ℝ) × Option (ℝ × ℝ)))
  bot : Option (List ((List ℝ × List ℝ) × Option (ℝ × ℝ)))
  fixed : Option (List ((ℝ × Option (List ℝ × List ℝ)) × Option (ℝ × ℝ)))
  pumping : Option (List ((ℝ × List ℝ × List ℝ) × Option (ℝ × ℝ)))

/-- One group of `_plot_loads`, if the list is there. -/
def grp {α : Type} (l : Option (List α)) (name yl : String) (f : α → Load) : List (List Load × String × String) :=
  (l.map fun l => (l.map f, name, yl)).toList

/-- The groups of `_plot_loads`, speccon1d_vr.py:1336-1405; `t0`, `t1` are the first and last output time.  (The lists are zipped
here already.)  speccon1d_vrw.py:1329-1398 is the same without vacuum, speccon1d_vrc.py:1465-1511 without vacuum, fixed pressures and
pumping: give `none` for those. -/
def Inputs.groups (x : Inputs) (t0 t1 : ℝ) : List (List Load × String × String) :=
  grp x.surcharge "surch" "Surcharge" (fun v => ⟨.line v.1.1 v.1.2, .line v.2.1.1 v.2.1.2, v.2.2⟩) ++
  grp x.vacuum "vac" "Vacuum" (fun v => ⟨.line v.1.1 v.1.2, .line v.2.1.1 v.2.1.2, v.2.2⟩) ++
  grp x.top "top" "Top boundary" (fun v => ⟨.line v.1.1 v.1.2, .pair [0] [1], v.2⟩) ++
  grp x.bot "bot" "Bot boundary" (fun v => ⟨.line v.1.1 v.1.2, .pair [1] [1], v.2⟩) ++
  grp x.fixed "fixed p" "Fixed ppress" (fun v => ⟨match v.1.2 with | none => .line [t0, t1] [0, 0] | some p => .line p.1 p.2, .pair [v.1.1] [1], v.2⟩) ++
  grp x.pumping "pump" "Pumping velocity" (fun v => ⟨.line v.1.2.1 v.1.2.2, .pair [v.1.1] [1], v.2⟩)

/-- `_plot_loads`, speccon1d_vr.py:1333-1410. -/
noncomputable def Inputs.plotLoads (x : Inputs) (t0 t1 : ℝ) (n : ℕ) (H : ℝ) (rl : Option ℝ) : Except PyErr (List Row) :=
  let g := x.groups t0 t1
  plotGenericLoads (g.map Prod.fst) (g.map fun v => v.2.1) (some (g.map fun v => v.2.2)) none n H rl

/-- `_plot_materials`, speccon1d_vr.py:1303-1331: the given ones of `mv`, `kv`, `kh`, `et`, each a PolyLine with its reference value.
`label` stands for the format strings of the labels. -/
noncomputable def plotMaterialsVR (label : String → ℝ → String) (mv kv kh et : Option (List ℝ × List ℝ)) (mvref kvref khref etref : ℝ) (n : ℕ) (H : ℝ)
    (rl : Option ℝ) : Except PyErr (List Curve) :=
  plotMaterials ((mv.map fun p => (TimeArg.line p.1 p.2, label "m_v" mvref)).toList ++ (kv.map fun p => (TimeArg.line p.1 p.2, label "k_v" kvref)).toList ++
    (kh.map fun p => (TimeArg.line p.1 p.2, label "k_h" khref)).toList ++ (et.map fun p => (TimeArg.line p.1 p.2, label "eta" etref)).toList) n H rl

/-- One of the materials, if it is there. -/
def mat (o : Option (List ℝ × List ℝ)) (s : String) : List (TimeArg × String) := (o.map fun p => (TimeArg.line p.1 p.2, s)).toList

/-- `_plot_materials` of Speccon1dVRW, speccon1d_vrw.py:1302-1328. -/
noncomputable def plotMaterialsVRW (label : String → ℝ → String) (mv kv kh kw et : Option (List ℝ × List ℝ)) (mvref kvref khref kwref etref : ℝ) (n : ℕ)
    (H : ℝ) (rl : Option ℝ) : Except PyErr (List Curve) :=
  plotMaterials (mat mv (label "m_v" mvref) ++ mat kv (label "k_v" kvref) ++ mat kh (label "k_h" khref) ++ mat kw (label "k_w" kwref) ++
    mat et (label "eta" etref)) n H rl

/-- `_plot_materials` of Speccon1dVRC, speccon1d_vrc.py:1435-1464.  Line 1448 asks for `khc` and 1449 appends `kvc`. -/
noncomputable def plotMaterialsVRC (label : String → ℝ → String) (mv kv kvc kh khc et : Option (List ℝ × List ℝ)) (mvref kvref kvcref khref khcref etref : ℝ)
    (n : ℕ) (H : ℝ) (rl : Option ℝ) : Except PyErr (List Curve) :=
  plotMaterials (mat mv (label "m_v" mvref) ++ mat kv (label "k_v" kvref) ++
    (if khc.isSome then [(kvc.elim TimeArg.missing fun p => TimeArg.line p.1 p.2, label "k_vc" kvcref)] else []) ++ mat kh (label "k_h" khref) ++
    mat khc (label "k_hc" khcref) ++ mat et (label "eta" etref)) n H rl

end Geotecha.Plot.Loads
