import Mathlib.MeasureTheory.Integral.IntervalIntegral.Basic
import Mathlib.Analysis.Calculus.Deriv.Basic

/-! # Specification: one-dimensional consolidation of a layered soil

Nothing here refers to the code. Layers are numbered from the top, starting with 0. A function of the depth is given layer by layer, because
its slope jumps at the interfaces. -/

open MeasureTheory
namespace Geotecha.Consol.Spec

/-- `N` layers with permeability `kv` (over the unit weight of water), compressibility `mv` and thickness `h`. -/
structure Column where
  N : ℕ
  kv : ℕ → ℝ
  mv : ℕ → ℝ
  h : ℕ → ℝ
  topDrains : Prop
  botDrains : Prop

namespace Column

/-- Depth of the top of layer `i`, which is the bottom of layer `i - 1`. -/
def depth (V : Column) (i : ℕ) : ℝ := ∑ j ∈ Finset.range i, V.h j

/-- Depth `z` lies in layer `i` (an interface lies in both). -/
def InLayer (V : Column) (z : ℝ) (i : ℕ) : Prop := i < V.N ∧ V.depth i ≤ z ∧ z ≤ V.depth (i + 1)

/-- Mean over the depth. -/
noncomputable def mean (V : Column) (u : ℕ → ℝ → ℝ) : ℝ := (∑ i ∈ Finset.range V.N, ∫ z in V.depth i..V.depth (i + 1), u i z) / V.depth V.N

/-- The conditions at top, bottom and interfaces on the pore pressure `u` and its slope `uz`. -/
structure Fits (V : Column) (u uz : ℕ → ℝ → ℝ) : Prop where
  pressure : ∀ i, i + 1 < V.N → u i (V.depth (i + 1)) = u (i + 1) (V.depth (i + 1))
  flow : ∀ i, i + 1 < V.N → V.kv i * uz i (V.depth (i + 1)) = V.kv (i + 1) * uz (i + 1) (V.depth (i + 1))
  top : (V.topDrains → u 0 0 = 0) ∧ (¬V.topDrains → uz 0 0 = 0)
  bot : (V.botDrains → u (V.N - 1) (V.depth V.N) = 0) ∧ (¬V.botDrains → uz (V.N - 1) (V.depth V.N) = 0)

/-- `Z` is a mode that decays at rate `lam`. -/
structure Mode (V : Column) (lam : ℝ) (Z Zd : ℕ → ℝ → ℝ) : Prop where
  slope : ∀ i < V.N, ∀ z, HasDerivAt (Z i) (Zd i z) z
  eqn : ∀ i < V.N, ∀ z, HasDerivAt (fun z => V.kv i * Zd i z) (-(lam * V.mv i * Z i z)) z
  fits : V.Fits Z Zd

/-- Integral over the whole column of `f`, weighted with the compressibility. -/
noncomputable def total (V : Column) (f : ℕ → ℝ → ℝ) : ℝ :=
  ∑ i ∈ Finset.range V.N, V.mv i * ∫ z in V.depth i..V.depth (i + 1), f i z

/-- `u` (layer, depth, time) is a solution from time `s`, just before which the load was `load0`, to `tend`: in each layer the soil takes the
load, of which the part `S` at the given depth goes into the pore water, and loses the water that flows out. -/
def Solves (V : Column) (S : ℕ → ℝ → ℝ) (load : ℝ → ℝ) (load0 s tend : ℝ) (u : ℕ → ℝ → ℝ → ℝ) : Prop :=
  ∃ uz uzz : ℕ → ℝ → ℝ → ℝ, (∀ i < V.N, ∀ z t, HasDerivAt (fun z => u i z t) (uz i z t) z ∧ HasDerivAt (fun z => uz i z t) (uzz i z t) z) ∧
    (∀ t, V.Fits (fun i z => u i z t) (fun i z => uz i z t)) ∧
    ∀ i < V.N, ∀ z t, s ≤ t → t ≤ tend → IntervalIntegrable (fun τ => V.kv i * uzz i z τ) volume s t ∧
      V.mv i * (u i z t - (load t - load0) * S i z) = ∫ τ in s..t, V.kv i * uzz i z τ

end Column
end Geotecha.Consol.Spec
