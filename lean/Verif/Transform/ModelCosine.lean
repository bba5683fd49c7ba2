import Verif.Transform.ModelHankel
import Verif.Quad.ShanksRows
import Mathlib.Analysis.SpecialFunctions.Trigonometric.Basic

set_option autoImplicit false

/-!
# Model of `vcosine_transform` and `v2dcosine_transform`, geotecha/mathematics/fourier.py

`s ≠ 0` throughout: at `s = 0` numpy gives `nan`.  Extra arguments are part of `f`.  Reals for floats.
-/

namespace Geotecha.Transform
open Geotecha (PyErr)
open Geotecha.Quad

/-- `zeros`, fourier.py:584-585 and 692-693. -/
noncomputable def cosZeros (m : ℕ) : List ℝ := 0 :: (List.range m).map fun k : ℕ => (2 * (k : ℝ) + 1) * Real.pi / 2

/-- The integrals over the intervals for one `s`, one row of `igral`, fourier.py:587-622. -/
noncomputable def cosSegs (f : ℝ → ℝ) (m ng : ℕ) (s : ℝ) : Except PyErr (List ℝ) :=
  let aj := (cosZeros m).dropLast
  let bj := (cosZeros m).drop 1
  glQuad (fun x => f x * Real.cos (s * x)) (aj.map (· / s)) (bj.map (· / s)) ng

/-- `vcosine_transform`, fourier.py:538-633.  The last column of an array without columns is an `IndexError`. -/
noncomputable def vcosine (f : ℝ → ℝ) (m ng : ℕ) (shanksInd : Option ℤ) (ss : List ℝ) : Except PyErr (List ℝ) := do
  let igral ← ss.mapM (cosSegs f m ng)
  match shanksInd with
  | none => .ok (igral.map List.sum)
  | some i => if m = 0 then .error .indexError else .ok (shanks2 m (igral.map (cumsumFrom 0)) (some i))

/-- `igral.sum(axis)`, or `cumsum` and `shanks` along the axis, fourier.py:748-753 and 757-762. -/
noncomputable def collect (shanksInd : Option ℤ) (l : List ℝ) : ℝ :=
  match shanksInd with
  | none => l.sum
  | some i => shanks (cumsumFrom 0 l) (some i)

/-- One element of the result of `v2dcosine_transform`, fourier.py:699-762: `rule` holds `xk_, wk`. -/
noncomputable def cos2 (f : ℝ → ℝ → ℝ) (rule : List (ℝ × ℝ)) (m : ℕ) (shanksInd : Option ℤ) (s1 s2 : ℝ) : ℝ :=
  let aj := (cosZeros m).dropLast
  let bj := (cosZeros m).drop 1
  collect shanksInd (List.zipWith (fun aij bij =>
    let bmaij := (bij - aij) / 2
    let bpaij := (aij + bij) / 2
    (rule.map fun pk =>
      let xijk := bmaij * pk.1 + bpaij
      collect shanksInd (List.zipWith (fun alm blm =>
        let bmalm := (blm - alm) / 2
        let bpalm := (alm + blm) / 2
        (rule.map fun pn =>
          let xlmn := bmalm * pn.1 + bpalm
          f xijk xlmn * Real.cos (s1 * xijk) * Real.cos (s2 * xlmn) * pk.2 * pn.2 * bmaij * bmalm).sum)
        (aj.map (· / s2)) (bj.map (· / s2)))).sum)
    (aj.map (· / s1)) (bj.map (· / s1)))

/-- `v2dcosine_transform`, fourier.py:635-765: the rows belong to `s1`.  Along an axis without elements `shanks` has no last element. -/
noncomputable def v2dcosine (f : ℝ → ℝ → ℝ) (m ng : ℕ) (shanksInd : Option ℤ) (s1 s2 : List ℝ) : Except PyErr (List (List ℝ)) := do
  let rule ← glRule ng
  if shanksInd ≠ none ∧ m = 0 then .error .indexError
  else .ok (s1.map fun s1 => s2.map fun s2 => cos2 f rule m shanksInd s1 s2)

end Geotecha.Transform
