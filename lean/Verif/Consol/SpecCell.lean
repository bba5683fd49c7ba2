import Verif.Consol.SpecLayers

/-! # Specification: consolidation of a layered soil around a vertical drain

Nothing here refers to the code.  The soil is a ring from the radius `r0` of the drain to the radius `r1` no water crosses.  Functions depend on
the layer, the radius, the depth (and the time). -/

set_option autoImplicit false
open MeasureTheory
namespace Geotecha.Consol.Spec

/-- A column of soil with horizontal permeability `kh` (over the unit weight of water) around a drain. -/
structure Cell where
  col : Column
  kh : ℕ → ℝ
  r0 : ℝ
  r1 : ℝ

namespace Cell

/-- Integral over the soil of `f`, weighted with the compressibility (without the factor of two pi). -/
noncomputable def total (V : Cell) (f : ℕ → ℝ → ℝ → ℝ) : ℝ :=
  ∑ i ∈ Finset.range V.col.N, V.col.mv i * ∫ z in V.col.depth i..V.col.depth (i + 1), ∫ r in V.r0..V.r1, r * f i r z

/-- Mean over the area of the ring. -/
noncomputable def ringMean (V : Cell) (f : ℝ → ℝ) : ℝ := (∫ r in V.r0..V.r1, r * f r) / ∫ r in V.r0..V.r1, r

/-- What is looked at: the value at radius `r`, or the mean over the area. -/
noncomputable def look (V : Cell) (rc : Option ℝ) (f : ℝ → ℝ) : ℝ := match rc with
  | some r => f r
  | none => V.ringMean f

/-- The conditions at top, bottom, interfaces, drain and outer radius on the pore pressure `u` and its slopes `ur`, `uz`. -/
structure Fits (V : Cell) (u ur uz : ℕ → ℝ → ℝ → ℝ) : Prop where
  layers : ∀ r, V.r0 ≤ r → r ≤ V.r1 → V.col.Fits (fun i z => u i r z) (fun i z => uz i r z)
  drain : ∀ i < V.col.N, ∀ z, u i V.r0 z = 0
  outer : ∀ i < V.col.N, ∀ z, ur i V.r1 z = 0

/-- First and second derivatives in both directions. -/
def Derivs (V : Cell) (u ur urr uz uzz : ℕ → ℝ → ℝ → ℝ) : Prop :=
  ∀ i < V.col.N, ∀ r z, V.r0 ≤ r → r ≤ V.r1 → HasDerivAt (fun r => u i r z) (ur i r z) r ∧ HasDerivAt (fun r => ur i r z) (urr i r z) r ∧
    HasDerivAt (fun z => u i r z) (uz i r z) z ∧ HasDerivAt (fun z => uz i r z) (uzz i r z) z

/-- Water that flows out of a unit of soil. -/
noncomputable def flow (V : Cell) (ur urr uzz : ℕ → ℝ → ℝ → ℝ) (i : ℕ) (r z : ℝ) : ℝ :=
  V.col.kv i * uzz i r z + V.kh i * (urr i r z + ur i r z / r)

/-- `w` is a mode that decays at rate `lam`. -/
def Mode (V : Cell) (lam : ℝ) (w : ℕ → ℝ → ℝ → ℝ) : Prop :=
  ∃ wr wrr wz wzz : ℕ → ℝ → ℝ → ℝ, V.Derivs w wr wrr wz wzz ∧ V.Fits w wr wz ∧
    ∀ i < V.col.N, ∀ r z, V.r0 ≤ r → r ≤ V.r1 → V.flow wr wrr wzz i r z = -(lam * V.col.mv i * w i r z)

/-- `u` (layer, radius, depth, time) is a solution from time `s`, just before which the load was `load0`, to `tend`: the soil takes the load,
of which the part `S` at the given place goes into the pore water, and loses the water that flows out. -/
def Solves (V : Cell) (S : ℕ → ℝ → ℝ → ℝ) (load : ℝ → ℝ) (load0 s tend : ℝ) (u : ℕ → ℝ → ℝ → ℝ → ℝ) : Prop :=
  ∃ ur urr uz uzz : ℕ → ℝ → ℝ → ℝ → ℝ,
    (∀ t, V.Derivs (fun i r z => u i r z t) (fun i r z => ur i r z t) (fun i r z => urr i r z t) (fun i r z => uz i r z t)
      (fun i r z => uzz i r z t) ∧ V.Fits (fun i r z => u i r z t) (fun i r z => ur i r z t) (fun i r z => uz i r z t)) ∧
    ∀ i < V.col.N, ∀ r z t, V.r0 ≤ r → r ≤ V.r1 → s ≤ t → t ≤ tend →
      IntervalIntegrable (fun τ => V.flow (fun i r z => ur i r z τ) (fun i r z => urr i r z τ) (fun i r z => uzz i r z τ) i r z) volume s t ∧
      V.col.mv i * (u i r z t - (load t - load0) * S i r z) =
        ∫ τ in s..t, V.flow (fun i r z => ur i r z τ) (fun i r z => urr i r z τ) (fun i r z => uzz i r z τ) i r z

end Cell
end Geotecha.Consol.Spec
