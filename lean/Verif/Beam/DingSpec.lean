import Verif.Beam.Ding
import Verif.Speccon.Ortho

/-!
# Specification for the finite beam: equation of motion in physical units
-/
set_option autoImplicit false
set_option linter.unusedVariables false

namespace Geotecha.Beam

open Real

/-- A uniform beam on a foundation with a linear and a cubic spring and a dashpot, crossed by a force
`F` at speed `v`; all in physical units. -/
structure Phys where
  E : ℝ
  I : ℝ
  rho : ℝ
  A : ℝ
  L : ℝ
  k1 : ℝ
  k3 : ℝ
  mu : ℝ
  F : ℝ
  v : ℝ
  hE : 0 < E
  hI : 0 < I
  hrho : 0 < rho
  hA : 0 < A
  hL : 0 < L

/-- The call `DingEtAl2012(E=…, I=…, …)` with physical values only (dingetal2012.py:137-156). -/
def Phys.args (P : Phys) : Args :=
  ⟨some P.E, some P.I, some P.rho, some P.A, some P.L, some P.k1, some P.k3, some P.mu, some P.F, some P.v,
    none, none, none, none, none, none⟩

namespace Spec

/-- `w4` is the fourth derivative of the shape `w`, and both ends are simply supported: no deflection,
no bending moment. -/
def SimplySupported (L : ℝ) (w w2 w4 : ℝ → ℝ) : Prop :=
  (∃ w1 w3 : ℝ → ℝ, (∀ x, HasDerivAt w (w1 x) x) ∧ (∀ x, HasDerivAt w1 (w2 x) x) ∧
    (∀ x, HasDerivAt w2 (w3 x) x) ∧ ∀ x, HasDerivAt w3 (w4 x) x) ∧
  w 0 = 0 ∧ w L = 0 ∧ w2 0 = 0 ∧ w2 L = 0

/-- Shape number `i` of a simply supported beam of length `L`. -/
noncomputable def mode (L : ℝ) (i : ℕ) (x : ℝ) : ℝ := sin (((i : ℝ) + 1) * π * x / L)

/-- Deflection with normalised coefficients `q`: `L` times the sum of the shapes. -/
noncomputable def shape (L : ℝ) (n : ℕ) (q : ℕ → ℝ) (x : ℝ) : ℝ :=
  L * ∑ k ∈ Finset.range n, q k * mode L k x

end Spec

end Geotecha.Beam
