import Verif.Piecewise.Model
import Mathlib.Data.Real.Basic
import Mathlib.Tactic.Linarith

/-!
# Model of geotecha/mathematics/root_finding.py

Floats are reals.  `func(x, *args)` is a pure function `f : ℝ → ℝ` (the extra arguments are fixed during a call).
`scipy.optimize.fsolve` is an oracle `solve x0 x1 guess`; the code hands it the guess only, the end points of the current
interval are extra arguments so that the oracle may answer differently in different situations.  Printing (`debug`) is
not modelled.
-/

set_option linter.unusedVariables false
namespace Geotecha.Roots
open Geotecha

/-- Arguments of `find_n_roots`, root_finding.py:26-27. -/
structure Args where
  f : ℝ → ℝ
  solve : ℝ → ℝ → ℝ → ℝ
  n : ℕ
  x0 : ℝ
  dx : ℝ
  p : ℝ
  maxIter : ℤ
  atol : ℝ
  rtol : ℝ

/-- Local variables of `find_n_roots` at the top of the loop (root_finding.py:104-116).  `roots` holds the entries of the
array filled so far, `root_number` is its length; the others are zero.  `iterSame = none`: not assigned yet. -/
structure St where
  roots : List ℝ
  iter : ℤ
  iterSame : Option ℤ
  x00 : ℝ
  dx : ℝ
  x0 : ℝ
  y0 : ℝ

inductive Outcome where
  | returned (roots : List ℝ)
  | raised (e : PyErr)

/-- `np.allclose(a, b, atol, rtol)` for scalars. -/
def close (atol rtol a b : ℝ) : Prop := |a - b| ≤ atol + rtol * |b|

/-- `roots[root_number-1]` in the branch `root_number == 0` (root_finding.py:168): index -1 of an array of zeros. -/
def lastEntry (roots : List ℝ) : ℝ := 0

/-- Values before the loop, root_finding.py:104-116. -/
def start (a : Args) : St :=
  { roots := [], iter := 0, iterSame := none, x00 := a.x0, dx := a.dx, x0 := a.x0, y0 := a.f a.x0 }

open Classical in
/-- Bookkeeping once a new root `xr` is accepted in the interval ending at `x1`, root_finding.py:194-220: the last three
lines are the ones at the bottom of the loop body. -/
noncomputable def accept (a : Args) (s : St) (dx x1 y1 xr : ℝ) : St :=
  let x1' := if ¬ close a.atol a.rtol xr x1 then xr + (x1 - xr) * 0.1 else x1
  let y1' := if ¬ close a.atol a.rtol xr x1 then a.f x1' else y1
  { roots := s.roots ++ [xr], iter := 0, iterSame := some 0, x00 := x1', dx := dx * 0.5 * a.p, x0 := x1', y0 := y1' }

open Classical in
/-- One pass through `while root_number < n`, root_finding.py:121-220. -/
noncomputable def step (a : Args) (s : St) : St ⊕ Outcome :=
  if ¬ s.roots.length < a.n then .inr (.returned s.roots)
  else if s.iter > a.maxIter then .inr (.raised .valueError)
  else
    let iter := s.iter + 1
    let x1 := s.x0 + s.dx
    let y1 := a.f x1
    if s.y0 * y1 ≤ 0 then
      if iter < 5 then
        .inl { s with x0 := s.x00, y0 := a.f s.x00, iter := 0, dx := s.dx * 0.2 }
      else if s.roots.length = 0 then
        let dx := s.dx / a.p
        let xr := a.solve s.x0 x1 s.x0
        if close a.atol a.rtol xr (lastEntry s.roots) then
          match s.iterSame with
          | none => .inr (.raised .unboundLocal)
          | some k =>
            if k + 1 > 5 then .inr (.raised .valueError)
            else .inl { s with iterSame := some (k + 1), iter := iter - 2, dx := dx * 0.2 }
        else .inl (accept a s dx x1 y1 xr)
      else
        .inl (accept a s s.dx x1 y1 (a.solve s.x0 x1 (s.x0 - s.y0 * (x1 - s.x0) / (y1 - s.y0))))
    else
      .inl { s with iter := iter, x0 := x1, y0 := y1, dx := s.dx * a.p }

/-- `k` passes of the loop. -/
noncomputable def run (a : Args) : ℕ → St → St ⊕ Outcome
  | 0, s => .inl s
  | k + 1, s =>
    match step a s with
    | .inl s' => run a k s'
    | .inr o => .inr o

/-- The call ends with outcome `o`. -/
def Ends (a : Args) (o : Outcome) : Prop := ∃ k, run a k (start a) = .inr o

/-! ## Fixed point iteration -/

/-- `relerr` of the scalar branch, root_finding.py:304-307 (also the entries of the array branch, :289). -/
noncomputable def relerr (p0 p : ℝ) : ℝ := by
  classical exact if p0 = 0 then p else (p - p0) / p0

/-- `fixed_point_no_accel` with a scalar start, root_finding.py:293-312; `last` is the local `p` (`none`: unassigned, then
the error message itself raises). -/
noncomputable def fixedPoint (f : ℝ → ℝ) (xtol : ℝ) : ℕ → Option ℝ → ℝ → Except PyErr ℝ
  | 0, none, _ => .error .unboundLocal
  | 0, some _, _ => .error .other
  | k + 1, _, p0 => by
    classical exact
      if |relerr p0 (f p0)| < xtol then .ok (f p0) else fixedPoint f xtol k (some (f p0)) (f p0)

/-- `fixed_point_no_accel(func, x0, xtol=xtol, maxiter=maxiter)` for a scalar `x0`, root_finding.py:226-312. -/
noncomputable def fixedPointNoAccel (f : ℝ → ℝ) (x0 xtol : ℝ) (maxiter : ℕ) : Except PyErr ℝ :=
  fixedPoint f xtol maxiter none x0

/-- The array branch, root_finding.py:280-291; `func` maps arrays to arrays, `all` is over the entries. -/
noncomputable def fixedPointArr (f : List ℝ → List ℝ) (xtol : ℝ) : ℕ → Option (List ℝ) → List ℝ → Except PyErr (List ℝ)
  | 0, none, _ => .error .unboundLocal
  | 0, some _, _ => .error .other
  | k + 1, _, p0 => by
    classical exact
      if ∀ e ∈ List.zipWith relerr p0 (f p0), |e| < xtol then .ok (f p0)
      else fixedPointArr f xtol k (some (f p0)) (f p0)

end Geotecha.Roots
