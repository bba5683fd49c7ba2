import Verif.Transform.SpecTalbot
import Mathlib.Analysis.SpecialFunctions.Pow.Complex
import Mathlib.MeasureTheory.Integral.IntervalIntegral.Basic

/-!
# Specification for cosenzaandkorosak2014: relaxation with fractional derivatives

`B' + sum theta_i D^{v_i} B = -lam B`, `B(0) = 1`, with Caputo derivatives, in the Laplace domain: `B'` becomes `s U - 1`, `D^v B` becomes
`s^v U - s^(v-1)`.
-/

set_option autoImplicit false
namespace Geotecha.Consol.Spec

/-- `U` is at `s` the transform of the solution. -/
def Relaxes (pairs : List (ℝ × ℝ)) (lam : ℝ) (s U : ℂ) : Prop :=
  (s * U - 1) + (pairs.map fun p => (p.2 : ℂ) * (s ^ (p.1 : ℂ) * U - s ^ ((p.1 : ℂ) - 1))).sum = -(lam * U)

end Geotecha.Consol.Spec
