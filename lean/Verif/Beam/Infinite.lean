import Verif.Piecewise.Model
import Mathlib.LinearAlgebra.Vandermonde
import Mathlib.LinearAlgebra.Matrix.NonsingularInverse
import Mathlib.Analysis.SpecialFunctions.Pow.Real
import Mathlib.Analysis.SpecialFunctions.Complex.Log
import Mathlib.Analysis.SpecialFunctions.ExpDeriv
import Mathlib.Analysis.SpecialFunctions.Trigonometric.Deriv

/-!
# Infinite beam on an elastic foundation

Model of `moving_load_on_beam_on_elastic_foundation`, `DAFinfinite`, `DAFrelative`,
`point_load_static_defl_shape_function`, `static_point_load_shape` and `multi_static`
(geotecha/beam_on_foundation/specbeam.py:2177-2285, 4375-4436, 7371-7405, 8837-8864).

`np.roots` is an oracle: it returns the four roots of the quartic in an order that is not specified; here
that is a vector `γ : Fin 4 → ℂ` with `IsRoots α β γ`.  `np.linalg.solve` is exact: it raises
`LinAlgError` (`PyErr.other`) on a singular matrix and otherwise returns the unique solution.
-/
set_option autoImplicit false
set_option linter.unusedVariables false

namespace Geotecha.Beam

open Complex

/-- `np.linspace(a, b, n)`. -/
noncomputable def linspaceN (a b : ℝ) (n : ℕ) : List ℝ :=
  (List.range n).map fun i : ℕ => a + (i : ℝ) * ((b - a) / ((n : ℝ) - 1))

/-- What `np.roots([1.0, 0.0, 4.0*alp**2, -8*alp*bet, 4])` returns (specbeam.py:4407): the four roots, in
some order. -/
def IsRoots (α β : ℝ) (γ : Fin 4 → ℂ) : Prop :=
  ∀ z : ℂ, z ^ 4 + 4 * (α : ℂ) ^ 2 * z ^ 2 - 8 * α * β * z + 4
    = (z - γ 0) * (z - γ 1) * (z - γ 2) * (z - γ 3)

/-- Signs of the columns of `cmat` (specbeam.py:4411-4414). -/
def colSign : Fin 4 → ℂ := ![1, 1, -1, -1]

/-- `cmat` (specbeam.py:4410-4414). -/
noncomputable def cmat (γ : Fin 4 → ℂ) : Matrix (Fin 4) (Fin 4) ℂ :=
  Matrix.of fun i j => colSign j * γ j ^ (i : ℕ)

/-- `rhs` (specbeam.py:4416). -/
noncomputable def mlRhs : Fin 4 → ℂ := ![0, 0, 0, 8.0]

open Classical in
/-- `A=np.linalg.solve(cmat, rhs)` (specbeam.py:4418). -/
noncomputable def mlA (γ : Fin 4 → ℂ) : Except PyErr (Fin 4 → ℂ) :=
  if (cmat γ).det = 0 then .error .other else .ok ((cmat γ)⁻¹.mulVec mlRhs)

/-- One element of `disp` (specbeam.py:4424-4433). -/
noncomputable def mlDisp (γ A : Fin 4 → ℂ) (s : ℝ) : ℂ :=
  if s ≥ 0 then A 0 * exp (s * γ 0) + A 1 * exp (s * γ 1)
  else A 2 * exp (s * γ 2) + A 3 * exp (s * γ 3)

/-- `moving_load_on_beam_on_elastic_foundation(alp, bet, slim, npts)` (specbeam.py:4375-4435), given the
answer `γ` of `np.roots`. -/
noncomputable def movingLoad (γ : Fin 4 → ℂ) (slim : ℝ × ℝ) (npts : ℕ) :
    Except PyErr (List ℝ × List ℂ) := do
  let A ← mlA γ
  return (linspaceN slim.1 slim.2 npts, (linspaceN slim.1 slim.2 npts).map (mlDisp γ A))

open Classical in
/-- `np.max` of a complex array: numpy orders complex numbers by real part, then imaginary part. -/
noncomputable def maxC : List ℂ → Except PyErr ℂ
  | [] => .error .valueError
  | z :: l => .ok (l.foldl (fun m w => if m.re < w.re ∨ (m.re = w.re ∧ m.im < w.im) then w else m) z)

/-- Velocity ratio with respect to the changed foundation stiffness (specbeam.py:2204, 7396). -/
noncomputable def alpRel (alp kratio : ℝ) : ℝ := alp / kratio ^ (0.25 : ℝ)

/-- Damping ratio with respect to the changed foundation stiffness (specbeam.py:2205, 7397). -/
noncomputable def betRel (bet kratio : ℝ) : ℝ := bet * (1 / kratio) ^ (0.5 : ℝ)

/-- `DAFinfinite(alp, bet, kratio)` (specbeam.py:7371-7402), `kratio > 0`, given the answer `γ` of `np.roots`
for `alpRel alp kratio`, `betRel bet kratio`. -/
noncomputable def dafInfinite (γ : Fin 4 → ℂ) (kratio : ℝ) : Except PyErr ℝ := do
  let r ← movingLoad γ (-6, 6) 1001
  let m ← maxC r.2
  return (m * (((1 / kratio) ^ (0.75 : ℝ) : ℝ) : ℂ)).re

/-- `DAFrelative(alp, bet, k2_k1)` (specbeam.py:2177-2227): its own copy of the same computation, on
`(-8, 8)`. -/
noncomputable def dafRelative (γ : Fin 4 → ℂ) (k2k1 : ℝ) : Except PyErr ℝ := do
  let A ← mlA γ
  let m ← maxC ((linspaceN (-8) 8 1001).map (mlDisp γ A))
  return (m * (((1 / k2k1) ^ (0.75 : ℝ) : ℝ) : ℂ)).re

/-- `point_load_static_defl_shape_function(x, L, xc)` (specbeam.py:2230-2250). -/
noncomputable def pointLoadShape (x L xc : ℝ) : ℝ :=
  Real.exp (-|x - xc| / L) * (Real.cos (|x - xc| / L) + Real.sin (|x - xc| / L))

/-- `static_point_load_shape(x, L)` (specbeam.py:8837-8864). -/
noncomputable def staticPointLoadShape (x L : ℝ) : ℝ :=
  Real.exp (-|x| / L) * (Real.cos (|x| / L) + Real.sin (|x| / L))

/-- `multi_static(xc, frel, wsingle, xlim, n, L)` (specbeam.py:2253-2285). -/
noncomputable def multiStatic (xc frel : List ℝ) (wsingle : ℝ) (xlim : ℝ × ℝ) (n : ℕ) (L : ℝ) :
    List ℝ × List ℝ :=
  (linspaceN xlim.1 xlim.2 n, (linspaceN xlim.1 xlim.2 n).map fun x =>
    (xc.zip frel).foldl (fun w p => w + p.2 * pointLoadShape x L p.1) 0 * wsingle)

end Geotecha.Beam
