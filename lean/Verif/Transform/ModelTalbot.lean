import Verif.Piecewise.Model
import Mathlib.Analysis.SpecialFunctions.Complex.Log
import Mathlib.Analysis.SpecialFunctions.Trigonometric.Basic
import Mathlib.Analysis.Complex.Trigonometric

/-!
# Model of geotecha/mathematics/laplace.py and mp_laplace.py: inverse Laplace transform after Talbot

Reals and complex numbers for floats and for mpmath numbers (`dps` is not modelled).  The function handed in acts on the entries of an array.
-/

open Real
namespace Geotecha.Transform
open Geotecha (PyErr)

/-- A Talbot object, laplace.py:108-113: `n` is the number asked for. -/
structure Talbot where
  f : ℂ → ℂ
  n : ℕ
  shift : ℝ
  vectorized : Bool

/-- What the call returns: one number or an array. -/
inductive Out where
  | scalar (v : ℝ)
  | array (v : List ℝ)

namespace Talbot

/-- `cot`, laplace.py:24-38. -/
noncomputable def cot (phi : ℝ) : ℝ := 1 / tan phi

/-- `csc`, laplace.py:40-55. -/
noncomputable def csc (phi : ℝ) : ℝ := 1 / sin phi

/-- `self.n`, laplace.py:111. -/
def N (o : Talbot) : ℕ := o.n + o.n % 2

/-- `h`, laplace.py:138. -/
noncomputable def h (o : Talbot) : ℝ := 2 * π / o.N

/-- `theta[i]`, laplace.py:140. -/
noncomputable def theta (o : Talbot) (i : ℕ) : ℝ := -π + ((i : ℝ) + 1 / 2) * o.h

/-- `z`, laplace.py:141, as a function of `theta`. -/
noncomputable def z (o : Talbot) (t th : ℝ) : ℂ :=
  o.shift + o.N / t * (0.5017 * th * cot (0.6407 * th) - 0.6122 + 0.2645 * Complex.I * th)

/-- `dz`, laplace.py:142, as a function of `theta`. -/
noncomputable def dz (o : Talbot) (t th : ℝ) : ℂ :=
  o.N / t * (-0.5017 * 0.6407 * th * (csc (0.6407 * th)) ^ 2 + 0.5017 * cot (0.6407 * th) + 0.2645 * Complex.I)

/-- One entry of the product, laplace.py:144 (vectorized) and 146-151 (loops). -/
noncomputable def term (o : Talbot) (t : ℝ) (i : ℕ) : ℂ :=
  let z := o.z t (o.theta i)
  let dz := o.dz t (o.theta i)
  if o.vectorized then Complex.exp (z * t) * o.f z * dz else Complex.exp (z * t) * dz * o.f z

/-- The complex sum for one time, laplace.py:144-154. -/
noncomputable def sum (o : Talbot) (t : ℝ) : ℂ :=
  (∑ i ∈ Finset.range o.N, o.term t i) * (o.h / (2 * Complex.I * π))

open Classical in
/-- `Talbot.__call__`, laplace.py:115-159 (`2*np.pi/0` raises). -/
noncomputable def call (o : Talbot) (ts : List ℝ) : Except PyErr Out :=
  if (0 : ℝ) ∈ ts then .error .valueError
  else if o.N = 0 then .error .zeroDivision
  else
    let v := ts.map fun t => (o.sum t).re
    match v with
    | [x] => .ok (.scalar x)
    | v => .ok (.array v)

/-! ## mp_laplace.py -/

/-- `z`, mp_laplace.py:126. -/
noncomputable def mpZ (o : Talbot) (t th : ℝ) : ℂ :=
  o.shift + o.N / t * (0.5017 * th / tan (0.6407 * th) - 0.6122 + 0.2645 * Complex.I * th)

/-- `dz`, mp_laplace.py:127. -/
noncomputable def mpDz (o : Talbot) (t th : ℝ) : ℂ :=
  o.N / t * (-0.5017 * 0.6407 * th / (sin (0.6407 * th)) ^ 2 + 0.5017 / tan (0.6407 * th) + 0.2645 * Complex.I)

open Classical in
/-- `mp_laplace.Talbot.__call__`, mp_laplace.py:94-134 (mpmath's division by zero raises too). -/
noncomputable def mpCall (o : Talbot) (ts : List ℝ) : Except PyErr Out :=
  if (0 : ℝ) ∈ ts then .error .valueError
  else if o.N = 0 then .error .zeroDivision
  else
    let v := ts.map fun t =>
      ((∑ i ∈ Finset.range o.N, Complex.exp (o.mpZ t (o.theta i) * t) * o.f (o.mpZ t (o.theta i)) * o.mpDz t (o.theta i)) *
        (o.h / (2 * Complex.I * π))).re
    match v with
    | [x] => .ok (.scalar x)
    | v => .ok (.array v)

end Talbot
end Geotecha.Transform
