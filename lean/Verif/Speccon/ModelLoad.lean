import Verif.Speccon.FormulasLoad
import Verif.Speccon.Model

/-!
# Model of geotecha/speccon/integrals.py, time integrals of piecewise linear loads

`A[i, j]` for time `tvals[i]` and eigenvalue `eigs[j]` (real eigenvalues only; the code also allows complex
ones).  `k` loops (scalar) and `np.sum(.., axis=1)` (vectorized) are both a sum over the selected segments.
The `fortran` implementation is not modelled.
-/

open Real
namespace Geotecha.Speccon
open Geotecha.Piecewise (segmentContainingAlsoLess SegInfo)

/-- `segment_containing_also_segments_less_than_xi(loadtim, loadmag, tvals, steps_or_equal_to = True)` for one
time (the other options at their defaults `False`), e.g. integrals.py:2785-2786. -/
noncomputable def loadSegments (T P : List ℝ) (t : ℝ) : Except PyErr SegInfo :=
  segmentContainingAlsoLess T P t true false false

/-- `Eload_linear`, integrals.py:2666-2926, one entry: time `t`, eigenvalue `eig`. -/
noncomputable def eloadLinear (impl : Impl) (T P : List ℝ) (dT eig t : ℝ) : Except PyErr ℝ := do
  let g ← loadSegments T P t
  let a (l : List ℝ) (k : ℕ) : ℝ := l.getD k 0
  pure (
    (g.constantsContaining.map (fun k => (match impl with | .scalar => El_cc_s | .vectorized => El_cc_v)
      (a T k) (a P k) eig t dT)).sum +
    (g.constantsLess.map (fun k => (match impl with | .scalar => El_cl_s | .vectorized => El_cl_v)
      (a T k) (a T (k+1)) (a P k) eig t dT)).sum +
    (g.rampsContaining.map (fun k => (match impl with | .scalar => El_rc_s | .vectorized => El_rc_v)
      (a T k) (a T (k+1)) (a P k) (a P (k+1)) eig t dT)).sum +
    (g.rampsLess.map (fun k => (match impl with | .scalar => El_rl_s | .vectorized => El_rl_v)
      (a T k) (a T (k+1)) (a P k) (a P (k+1)) eig t dT)).sum)

/-- `EDload_linear`, integrals.py:2929-3097, one entry. -/
noncomputable def edloadLinear (impl : Impl) (T P : List ℝ) (dT eig t : ℝ) : Except PyErr ℝ := do
  let g ← loadSegments T P t
  let a (l : List ℝ) (k : ℕ) : ℝ := l.getD k 0
  pure (
    (g.stepsLess.map (fun k => (match impl with | .scalar => EDl_sl_s | .vectorized => EDl_sl_v)
      (a T k) (a P k) (a P (k+1)) eig t dT)).sum +
    (g.rampsContaining.map (fun k => (match impl with | .scalar => EDl_rc_s | .vectorized => EDl_rc_v)
      (a T k) (a T (k+1)) (a P k) (a P (k+1)) eig t dT)).sum +
    (g.rampsLess.map (fun k => (match impl with | .scalar => EDl_rl_s | .vectorized => EDl_rl_v)
      (a T k) (a T (k+1)) (a P k) (a P (k+1)) eig t dT)).sum)

end Geotecha.Speccon
