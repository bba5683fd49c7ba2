import Mathlib.Analysis.SpecialFunctions.Trigonometric.Basic
import Mathlib.Analysis.SpecialFunctions.Exp

/-!
# Model of geotecha/consolidation/terzahi.py

Reals for floats.  The arrays over depth, time and term are written as functions of one depth, one time and a sum over terms; the
list versions `terzaghi1d`, `terzaghi1dFlowrate` have the shapes the code returns.
-/

open Real
namespace Geotecha.Consol

/-- `M = ((2 * np.arange(nterms) + 1) / 2 * np.pi)`, terzahi.py:108, 172: entry `k`. -/
noncomputable def bigM (k : ℕ) : ℝ := (2 * (k : ℝ) + 1) / 2 * π

/-- Keyword arguments of `terzaghi_1d`, terzahi.py:57-58, 123-124. -/
structure Layer where
  H : ℝ
  kv : ℝ
  mv : ℝ
  gamw : ℝ
  ui : ℝ

/-- `dTv = kv / H**2 / mv / gamw`, terzahi.py:105, 169. -/
noncomputable def Layer.dTv (L : Layer) : ℝ := L.kv / L.H ^ 2 / L.mv / L.gamw

/-- Pore pressure, terzahi.py:105-111: one depth, one time. -/
noncomputable def Layer.por (L : Layer) (nterms : ℕ) (z t : ℝ) : ℝ :=
  L.ui * ∑ k ∈ Finset.range nterms, 2 / bigM k * sin (bigM k * (z / L.H)) * exp (-bigM k ^ 2 * (L.dTv * t))

/-- Degree of consolidation, terzahi.py:114-116: one time. -/
noncomputable def Layer.doc (L : Layer) (nterms : ℕ) (t : ℝ) : ℝ :=
  1 - ∑ k ∈ Finset.range nterms, 2 / bigM k ^ 2 * exp (-bigM k ^ 2 * (L.dTv * t))

/-- `terzaghi_1d`, terzahi.py:57-120: rows of `por` are depths, columns are times. -/
noncomputable def terzaghi1d (z t : List ℝ) (L : Layer) (nterms : ℕ) : List (List ℝ) × List ℝ :=
  (z.map fun z => t.map fun t => L.por nterms z t, t.map fun t => L.doc nterms t)

/-- Flow rate, terzahi.py:169-177: one depth, one time. -/
noncomputable def Layer.flow (L : Layer) (nterms : ℕ) (z t : ℝ) : ℝ :=
  L.kv / L.gamw * L.ui / L.H * 2 * ∑ k ∈ Finset.range nterms, cos (bigM k * (z / L.H)) * exp (-bigM k ^ 2 * (L.dTv * t))

/-- `terzaghi_1d_flowrate`, terzahi.py:123-182. -/
noncomputable def terzaghi1dFlowrate (z t : List ℝ) (L : Layer) (nterms : ℕ) : List (List ℝ) :=
  z.map fun z => t.map fun t => L.flow nterms z t

end Geotecha.Consol
