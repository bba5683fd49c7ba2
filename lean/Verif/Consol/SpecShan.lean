import Mathlib.Analysis.SpecialFunctions.Trigonometric.Deriv
import Mathlib.Analysis.SpecialFunctions.ExpDeriv
import Mathlib.MeasureTheory.Integral.IntervalIntegral.Basic
import Mathlib.LinearAlgebra.Matrix.NonsingularInverse
import Mathlib.LinearAlgebra.Matrix.Notation

/-!
# Specification: one-dimensional consolidation of an unsaturated layer

Nothing here mentions the program.  Phase `0` is water, phase `1` is air.
-/

set_option autoImplicit false
open Real MeasureTheory
namespace Geotecha.Consol.Spec.Unsat

/-- A layer of thickness `H` with coupled diffusion of pore water and pore air pressure:

* `∂uw/∂t + Cw ∂ua/∂t + Cvw ∂²uw/∂z² = Csw dq/dt`
* `Ca ∂uw/∂t + ∂ua/∂t + Cva ∂²ua/∂z² = Csa dq/dt`

with the pressures given at the top; given at the bottom too, or there with given depth gradients if
`impervious`; and given initial pressures. -/
structure Problem where
  H : ℝ
  Cw : ℝ
  Cvw : ℝ
  Ca : ℝ
  Cva : ℝ
  Csw : ℝ
  Csa : ℝ
  impervious : Prop
  /-- the total stress -/
  q : ℝ → ℝ
  /-- pressures at the top -/
  top : Fin 2 → ℝ → ℝ
  /-- pressures at the bottom, or their depth gradients if `impervious` -/
  bot : Fin 2 → ℝ → ℝ
  /-- initial pressures, by depth -/
  init : Fin 2 → ℝ → ℝ

namespace Problem
open Classical in
/-- The eigenfunctions `sin (freq k * z / H)` of the layer. -/
noncomputable def freq (P : Problem) (k : ℕ) : ℝ :=
  if P.impervious then (2 * (k:ℝ) + 1) * π / 2 else ((k:ℝ) + 1) * π

/-- The left side minus the right side of the water equation at `(z, t)`. -/
noncomputable def resW (P : Problem) (u : Fin 2 → ℝ → ℝ → ℝ) (z t : ℝ) : ℝ :=
  deriv (fun s => u 0 z s) t + P.Cw * deriv (fun s => u 1 z s) t + P.Cvw * deriv (deriv (fun x => u 0 x t)) z
    - P.Csw * deriv P.q t

/-- The left side minus the right side of the air equation at `(z, t)`. -/
noncomputable def resA (P : Problem) (u : Fin 2 → ℝ → ℝ → ℝ) (z t : ℝ) : ℝ :=
  P.Ca * deriv (fun s => u 0 z s) t + deriv (fun s => u 1 z s) t + P.Cva * deriv (deriv (fun x => u 1 x t)) z
    - P.Csa * deriv P.q t

/-- `u l z t` (phase `l`, depth `z`, time `t`) is the `n`-term spectral Galerkin solution of the problem: a
linear function of depth plus a combination of the first `n` eigenfunctions, meeting the boundary conditions
exactly, with the residuals of both equations and of the initial condition orthogonal to those
eigenfunctions. -/
structure Galerkin (P : Problem) (n : ℕ) (u : Fin 2 → ℝ → ℝ → ℝ) : Prop where
  shape : ∀ l, ∃ (A B : ℝ → ℝ) (X : ℕ → ℝ → ℝ), Differentiable ℝ A ∧ Differentiable ℝ B ∧ (∀ k, Differentiable ℝ (X k)) ∧
    ∀ z t, u l z t = A t + B t * z + ∑ k ∈ Finset.range n, X k t * sin (P.freq k * z / P.H)
  top : ∀ l t, u l 0 t = P.top l t
  bottom_pervious : ¬ P.impervious → ∀ l t, u l P.H t = P.bot l t
  bottom_impervious : P.impervious → ∀ l t, HasDerivAt (fun z => u l z t) (P.bot l t) P.H
  water : ∀ k < n, ∀ t, ∫ z in (0:ℝ)..P.H, P.resW u z t * sin (P.freq k * z / P.H) = 0
  air : ∀ k < n, ∀ t, ∫ z in (0:ℝ)..P.H, P.resA u z t * sin (P.freq k * z / P.H) = 0
  initial : ∀ l, ∀ k < n, ∫ z in (0:ℝ)..P.H, (u l z 0 - P.init l z) * sin (P.freq k * z / P.H) = 0

end Problem

/-- The contract of an eigenvalue routine on one matrix: real eigenvalues, with the eigenvectors in the
columns of an invertible `v`. -/
def IsEig (N : Matrix (Fin 2) (Fin 2) ℝ) (eigs : Fin 2 → ℝ) (v : Matrix (Fin 2) (Fin 2) ℝ) : Prop :=
  v.det ≠ 0 ∧ N * v = v * Matrix.diagonal eigs

end Geotecha.Consol.Spec.Unsat
