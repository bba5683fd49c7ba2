import Mathlib.MeasureTheory.Integral.IntervalIntegral.Basic
import Mathlib.Analysis.Calculus.Deriv.Basic
import Mathlib.Analysis.SpecialFunctions.Trigonometric.Basic

/-!
# Specification: one-dimensional consolidation of one layer whose permeability and compressibility vary with depth; the top drains
-/

set_option autoImplicit false
open MeasureTheory
namespace Geotecha.Consol.Spec

/-- A layer from depth `0` to `H`. -/
structure Vary where
  H : ℝ
  gamw : ℝ
  kv : ℝ → ℝ
  mv : ℝ → ℝ
  botDrains : Prop

namespace Vary

/-- The conditions at the ends on the pore pressure `u` and its slope `uz`. -/
structure Fits (V : Vary) (u uz : ℝ → ℝ) : Prop where
  top : u 0 = 0
  bot : (V.botDrains → u V.H = 0) ∧ (¬V.botDrains → uz V.H = 0)

/-- `Z` is a mode that decays at rate `lam`. -/
structure Mode (V : Vary) (lam : ℝ) (Z Zd : ℝ → ℝ) : Prop where
  slope : ∀ z, 0 ≤ z → z ≤ V.H → HasDerivAt Z (Zd z) z
  eqn : ∀ z, 0 ≤ z → z ≤ V.H → HasDerivAt (fun z => V.kv z / V.gamw * Zd z) (-(lam * V.mv z * Z z)) z
  fits : V.Fits Z Zd

/-- Integral over the layer of `f`, weighted with the compressibility. -/
noncomputable def total (V : Vary) (f : ℝ → ℝ) : ℝ := ∫ z in (0:ℝ)..V.H, V.mv z * f z

/-- `u` (depth, time) is a solution of the consolidation equation that starts at `S`: what leaves a slice through Darcy flow compresses it. -/
def Solves (V : Vary) (S : ℝ → ℝ) (u : ℝ → ℝ → ℝ) : Prop :=
  ∃ uz ut : ℝ → ℝ → ℝ, (∀ z t, 0 ≤ z → z ≤ V.H → HasDerivAt (fun z => u z t) (uz z t) z ∧ HasDerivAt (fun t => u z t) (ut z t) t ∧
    HasDerivAt (fun z => V.kv z / V.gamw * uz z t) (V.mv z * ut z t) z) ∧
    (∀ t, V.Fits (fun z => u z t) (fun z => uz z t)) ∧ ∀ z, u z 0 = S z

end Vary

/-- What the claims use of the Bessel functions of order `nu - 1`, `nu`, `nu + 1` on positive arguments: the recurrence formulas and the value of
the Wronskian. -/
structure IsBessel (J Y : ℝ → ℝ → ℝ) (nu : ℝ) : Prop where
  dJ : ∀ x, 0 < x → HasDerivAt (J nu) ((J (nu - 1) x - J (nu + 1) x) / 2) x
  dY : ∀ x, 0 < x → HasDerivAt (Y nu) ((Y (nu - 1) x - Y (nu + 1) x) / 2) x
  rJ : ∀ x, 0 < x → J (nu - 1) x + J (nu + 1) x = 2 * nu / x * J nu x
  rY : ∀ x, 0 < x → Y (nu - 1) x + Y (nu + 1) x = 2 * nu / x * Y nu x
  dJ' : ∀ x, 0 < x → HasDerivAt (J (nu + 1)) (J nu x - (nu + 1) / x * J (nu + 1) x) x
  dY' : ∀ x, 0 < x → HasDerivAt (Y (nu + 1)) (Y nu x - (nu + 1) / x * Y (nu + 1) x) x
  wr : ∀ x, 0 < x → J (nu + 1) x * Y nu x - J nu x * Y (nu + 1) x = 2 / (Real.pi * x)

end Geotecha.Consol.Spec
