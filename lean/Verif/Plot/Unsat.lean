import Verif.Plot.LoadsProps
import Verif.Plot.ResultsProps

/-! # The figures of `Speccon1dUnsat` (speccon1d_unsat.py:1282-1583): model -/

set_option autoImplicit false
set_option linter.unusedVariables false

namespace Geotecha.Plot.Unsat
open Geotecha.Piecewise

section figures
open Results

/-- `_plot_set`, `_plot_setw`, `_plot_seta`, speccon1d_unsat.py:1356-1414: here the settlement axis is not inverted (1372, 1392, 1412 are commented out).
The logarithmic time axis is not modelled. -/
noncomputable def settle (o : Run) (key title axis : String) (pairs : List (ℝ × ℝ)) (a : Arr) : Job :=
  ⟨some key, title, axis, .time o.tset a (o.intervals pairs) false⟩

/-- `produce_plots`, speccon1d_unsat.py:1416-1488, with `_plot_porw`, `_plot_pora`, `_plot_avpw`, `_plot_avpa`, 1282-1354. -/
noncomputable def unsat (o : Run) (porw pora avpw avpa set setw seta : Arr) : List Job :=
  (o.z.map fun z => [o.por "porw" "fig_porw" "Pore water pressure" z porw, o.por "pora" "fig_pora" "Pore air pressure" z pora]).getD [] ++
  (o.avgPairs.map fun p => [o.avp "avpw" "fig_avpw" "Average pore water pressure" p avpw, o.avp "avpa" "fig_avpa" "Average pore air pressure" p avpa]).getD [] ++
  (o.setPairs.map fun p => [settle o "set" "fig_set" "Settlement" p set, settle o "setw" "fig_setw" "Water settlement" p setw,
    settle o "seta" "fig_seta" "Air settlement" p seta]).getD [] ++ o.tail

end figures

section loads
open Loads

/-- The loads of a `Speccon1dUnsat` object after `check_input_attributes`: surcharges, and the boundary pressures of water and air at the top and bottom. -/
structure Inputs where
  surcharge : Option (List ((List ℝ × List ℝ) × (List ℝ × List ℝ) × Option (ℝ × ℝ)))
  wtop : Option (List ((List ℝ × List ℝ) × Option (ℝ × ℝ)))
  wbot : Option (List ((List ℝ × List ℝ) × Option (ℝ × ℝ)))
  atop : Option (List ((List ℝ × List ℝ) × Option (ℝ × ℝ)))
  abot : Option (List ((List ℝ × List ℝ) × Option (ℝ × ℝ)))

/-- The groups of `_plot_loads`, speccon1d_unsat.py:1529-1579 (the lists are zipped here already). -/
def Inputs.groups (x : Inputs) : List (List Load × String × String) :=
  grp x.surcharge "surch" "Surcharge" (fun v => ⟨.line v.1.1 v.1.2, .line v.2.1.1 v.2.1.2, v.2.2⟩) ++
  grp x.wtop "wtop" "Top water boundary" (fun v => ⟨.line v.1.1 v.1.2, .pair [0] [1], v.2⟩) ++
  grp x.wbot "wbot" "Bot water boundary" (fun v => ⟨.line v.1.1 v.1.2, .pair [1] [1], v.2⟩) ++
  grp x.atop "atop" "Top air boundary" (fun v => ⟨.line v.1.1 v.1.2, .pair [0] [1], v.2⟩) ++
  grp x.abot "abot" "Bot air boundary" (fun v => ⟨.line v.1.1 v.1.2, .pair [1] [1], v.2⟩)

/-- `_plot_loads`, speccon1d_unsat.py:1524-1583. -/
noncomputable def Inputs.plotLoads (x : Inputs) (n : ℕ) (H : ℝ) (rl : Option ℝ) : Except PyErr (List Row) :=
  plotGenericLoads (x.groups.map Prod.fst) (x.groups.map fun v => v.2.1) (some (x.groups.map fun v => v.2.2)) none n H rl

/-- The materials of a `Speccon1dUnsat` object, PolyLines or `None`. -/
structure Mats where
  m1kw : Option (List ℝ × List ℝ)
  m2w : Option (List ℝ × List ℝ)
  m1ka : Option (List ℝ × List ℝ)
  m2a : Option (List ℝ × List ℝ)
  kw : Option (List ℝ × List ℝ)
  Da : Option (List ℝ × List ℝ)
  S : Option (List ℝ × List ℝ)
  n : Option (List ℝ × List ℝ)

/-- An entry of `z_x` with its label; nothing is asked about `None`. -/
def always (o : Option (List ℝ × List ℝ)) (s : String) : TimeArg × String := (o.elim TimeArg.missing fun p => TimeArg.line p.1 p.2, s)

/-- `_plot_materials`, speccon1d_unsat.py:1490-1523; `label a b v` stands for the label of the quantity `a` divided by its reference value, which is called `b`
and is `v`.  The label of `Da` calls its reference value `k_w` (1513-1514). -/
noncomputable def plotMaterials (label : String → String → ℝ → String) (x : Mats) (mvref kwref Daref : ℝ) (n : ℕ) (H : ℝ) (rl : Option ℝ) :
    Except PyErr (List Curve) :=
  Loads.plotMaterials [always x.m1kw (label "m_1k^w" "m_v" mvref), always x.m2w (label "m_2^w" "m_v" mvref), always x.m1ka (label "m_1k^a" "m_v" mvref),
    always x.m2a (label "m_2^a" "m_v" mvref), always x.kw (label "k_w" "k_w" kwref), always x.Da (label "D_a" "k_w" Daref), always x.S "Saturation",
    always x.n "Porosity"] n H rl

end loads

end Geotecha.Plot.Unsat
