import Verif.Quad.Model
import Mathlib.Data.Finset.Sort
import Mathlib.Analysis.SpecialFunctions.Pow.Real

/-!
# Model of `HankelTransform` and `vhankel_transform`, geotecha/mathematics/hankel.py

scipy's Bessel function and its zeros are parameters (`J`, `zs`).  `gk_quad`, `gl_quad` and `shanks` are the models of quadrature.py in
Quad/Model.lean.  Reals for floats.
-/

namespace Geotecha.Transform
open Geotecha (PyErr)
open Geotecha.Quad

/-- A HankelTransform object, hankel.py:106-129: `J` is `jn(order, ·)`, `zs` is `jn_zeros(order, m)`; extra arguments are part of `func`. -/
structure Hankel where
  func : ℝ → ℝ
  J : ℝ → ℝ
  zs : List ℝ
  points : Option (List ℝ)
  ng : ℕ
  ng0 : ℕ
  shanksInd : Option ℤ

/-- `np.unique`: sorted, each value once. -/
noncomputable def unique (l : List ℝ) : List ℝ := l.toFinset.sort (· ≤ ·)

/-- `x.clip(a, b)` for one element; `none` is `inf`. -/
noncomputable def clip (a : ℝ) (b : Option ℝ) (x : ℝ) : ℝ :=
  match b with
  | none => max x a
  | some b => min (max x a) b

/-- `cumsum`, with what was summed before. -/
def cumsumFrom (s : ℝ) : List ℝ → List ℝ
  | [] => []
  | x :: r => (s + x) :: cumsumFrom (s + x) r

namespace Hankel

/-- `_integrand`, hankel.py:131-141. -/
def integrand (o : Hankel) (s r : ℝ) : ℝ := o.func r * r * o.J (s * r)

/-- The limits of the segments when no points are given, hankel.py:172: `self.jn_0s / s` with `0` put in front (129). -/
noncomputable def zeros0 (o : Hankel) (s : ℝ) : List ℝ := (0 :: o.zs).map (· / s)

open Classical in
/-- ... with the points, hankel.py:174-178. -/
noncomputable def zeros1 (o : Hankel) (s : ℝ) : List ℝ :=
  match o.points with
  | none => o.zeros0 s
  | some ps => unique (o.zeros0 s ++ ps.filter fun p => p < (o.zeros0 s).getLastD 0 ∧ 0 < p)

open Classical in
/-- ... with `a` and `b`, hankel.py:180-181. -/
noncomputable def zeros (o : Hankel) (s a : ℝ) (b : Option ℝ) : List ℝ :=
  if a ≠ 0 ∨ b ≠ none then unique ((o.zeros1 s).map (clip a b)) else o.zeros1 s

/-- The quadrature over the segments, hankel.py:183-204. -/
noncomputable def over (o : Hankel) (g : ℝ → ℝ) (b : Option ℝ) : List ℝ → Except PyErr (ℝ × ℝ)
  | z0 :: z1 :: rest =>
    match gkQuad g [z0] [z1] o.ng0 with
    | .error e => .error e
    | .ok r0 =>
      let igral0 := (r0.headD (0, 0)).1
      let err0 := (r0.headD (0, 0)).2
      if rest = [] then .ok (igral0, err0)
      else
        match gkQuad g (z1 :: rest).dropLast rest o.ng with
        | .error e => .error e
        | .ok rm =>
          let igralm := rm.map (·.1)
          let errm := rm.map (·.2)
          let igral := if o.shanksInd = none ∨ b ≠ none then igral0 + igralm.sum
            else igral0 + shanks (cumsumFrom 0 igralm) o.shanksInd
          .ok (igral, (200 * |err0|) ^ (1.5 : ℝ) + (errm.map fun e => (200 * |e|) ^ (1.5 : ℝ)).sum)
  | _ => .error .indexError

/-- `HankelTransform.__call__`, hankel.py:143-204; `b = none` is `np.inf`. -/
noncomputable def call (o : Hankel) (s : ℝ) (a : ℝ := 0) (b : Option ℝ := none) : Except PyErr (ℝ × ℝ) :=
  o.over (o.integrand s) b (o.zeros s a b)

end Hankel

/-- `vhankel_transform` for one value of `r`, hankel.py:321-367, without arguments. -/
noncomputable def vhankel (f J : ℝ → ℝ) (zs : List ℝ) (ng : ℕ) (shanksInd : Option ℤ) (r : ℝ) : Except PyErr ℝ := do
  let zeros := 0 :: zs
  let aj := zeros.dropLast
  let bj := zeros.drop 1
  let igral ← glQuad (fun x => f x * J (r * x) * x) (aj.map (· / r)) (bj.map (· / r)) ng
  return if shanksInd = none then igral.sum else shanks (cumsumFrom 0 igral) shanksInd

end Geotecha.Transform
