import Verif.Transform.ModelTalbot
import Mathlib.Analysis.SpecialFunctions.Pow.Complex

/-!
# Model of geotecha/consolidation/cosenzaandkorosak2014.py

Reals and complex numbers for floats; `z`, `t`, `theta`, `v` after `np.atleast_1d`, all arrays of floats.
-/

set_option autoImplicit false
open Real
namespace Geotecha.Consol
open Geotecha (PyErr)
open Geotecha.Transform

/-- Arguments of `cosenzaandkorosak2014` besides `z`, `t`, `tpor`, cosenzaandkorosak2014.py:70-71. -/
structure CK where
  theta : List ℝ
  v : List ℝ
  L : ℝ
  kv : ℝ
  mv : ℝ
  gamw : ℝ
  ui : ℝ
  nterms : ℕ

namespace CK

/-- `F`, cosenzaandkorosak2014.py:136-143: `numer` and `denom` are updated in one loop over the pairs. -/
noncomputable def F (o : CK) (lam : ℝ) (s : ℂ) : ℂ :=
  let r := (o.v.zip o.theta).foldl (fun (nd : ℂ × ℂ) (p : ℝ × ℝ) => (nd.1 + p.2 * s ^ ((p.1 : ℂ) - 1), nd.2 + p.2 * s ^ (p.1 : ℂ)))
    (1, s + lam)
  r.1 / r.2

/-- `M[j]`, cosenzaandkorosak2014.py:163. -/
noncomputable def M (j : ℕ) : ℝ := (2 * j + 1) * π

/-- `tpor`, cosenzaandkorosak2014.py:157-160. -/
def times (t : List ℝ) (tpor : Option (List ℝ)) : List ℝ :=
  match tpor with
  | none => t
  | some _ => t

/-- Column `j` of `Bn`, cosenzaandkorosak2014.py:178-180: `lam` is `M[j]`; a single number fills the only row. -/
noncomputable def col (o : CK) (ts : List ℝ) (j : ℕ) : Except PyErr (List ℝ) := do
  let a : Talbot := ⟨o.F (M j), 24, 0, true⟩
  match ← a.call ts with
  | .scalar x => pure [x]
  | .array l => pure l

open Classical in
/-- `cosenzaandkorosak2014`, cosenzaandkorosak2014.py:150-206: pore pressures (rows are depths) and degree of consolidation.
`kv / L**2 / mv / gamw` of Python floats divides by zero.  `np.allclose(tpor, t)` of equal arrays of numbers is true (`nan`, `inf` are not
modelled), so the columns are reused. -/
noncomputable def call (o : CK) (z t : List ℝ) (tpor : Option (List ℝ)) : Except PyErr (List (List ℝ) × List ℝ) :=
  if o.L = 0 ∨ o.mv = 0 ∨ o.gamw = 0 then .error .zeroDivision
  else do
    let tp := times t tpor
    let B ← (List.range o.nterms).mapM fun j => o.col tp j
    let b (i j : ℕ) : ℝ := (B.getD j []).getD i 0
    let por := z.map fun z => (List.range tp.length).map fun i =>
      (∑ j ∈ Finset.range o.nterms, 2 / M j * sin (M j * (z / o.L)) * b i j) * o.ui
    let doc := (List.range t.length).map fun i => 1 - ∑ j ∈ Finset.range o.nterms, 2 * 2 ^ 2 / M j ^ 2 * b i j
    pure (por, doc)

end CK
end Geotecha.Consol
