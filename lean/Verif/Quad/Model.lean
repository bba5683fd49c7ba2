import Verif.Quad.Tables
import Verif.Piecewise.Model
import Mathlib.Data.Real.Basic

/-!
# Model of geotecha/mathematics/quadrature.py

Integrands are real functions of one variable (array valued `f` acts componentwise).  Table entries are exact
decimals (the code rounds them to double precision).  `xij[gen_slice]` (indexing with a list of slices) has its
documented old-numpy meaning, here the identity.
-/

namespace Geotecha.Quad

/-- Integer table entry (unit 1e-25) as a number. -/
noncomputable def unscale (z : ℤ) : ℝ := (z : ℝ) / 10^25

/-- `gauss_legendre_abscissae_and_weights`, quadrature.py:487-967: pairs (xi, wi). -/
noncomputable def glRule (n : ℕ) : Except PyErr (List (ℝ × ℝ)) :=
  if n ∈ [2,3,4,5,6,7,8,9,10,11,12,13,14,15,16,17,18,19,20,32,64,100] then
    match glTable n with
    | some t => .ok (t.map (fun p => (unscale p.1, unscale p.2)))
    | none => .error .other
  else .error .valueError

/-- `wi1 = np.zeros_like(xi); wi1[dup] = g[:, 1]`, quadrature.py:478-479; a mask whose number of `True` differs from
the number of values is a `ValueError`. -/
def maskAssign : List Bool → List ℤ → Except PyErr (List ℤ)
  | [], [] => .ok []
  | [], _ :: _ => .error .valueError
  | false :: d, g => do let r ← maskAssign d g; pure (0 :: r)
  | true :: _, [] => .error .valueError
  | true :: d, w :: g => do let r ← maskAssign d g; pure (w :: r)

/-- `gauss_kronrod_abscissae_and_weights`, quadrature.py:35-482: triples (xi, wi1, wi2), still as integers. -/
def gkRuleZ (n : ℕ) : Except PyErr (List (ℤ × ℤ × ℤ)) :=
  if n ∈ [7,10,15,20,25,30] then
    match gkTable n with
    | some (g, k, dup) => do
      let w1 ← maskAssign dup (g.map (·.2))
      pure (List.zip (k.map (·.1)) (List.zip w1 (k.map (·.2))))
    | none => .error .other
  else .error .valueError

/-- The same as real numbers. -/
noncomputable def gkRule (n : ℕ) : Except PyErr (List (ℝ × ℝ × ℝ)) := do
  let r ← gkRuleZ n
  pure (r.map (fun p => (unscale p.1, unscale p.2.1, unscale p.2.2)))

/-- One interval of `gl_quad`, quadrature.py:1311-1342:
`np.sum(bma * f(bma*xj + bpa) * wj)`. -/
noncomputable def panel (rule : List (ℝ × ℝ)) (f : ℝ → ℝ) (a b : ℝ) : ℝ :=
  let bma := (b - a) / 2
  let bpa := (a + b) / 2
  (rule.map (fun p => bma * f (bma * p.1 + bpa) * p.2)).sum

/-- `gl_quad(f, a, b, n=n)`, quadrature.py:1274-1348, `sum_intervals=False`.  `a` and `b` of different lengths do not
broadcast (length 1 excepted, not modelled). -/
noncomputable def glQuad (f : ℝ → ℝ) (a b : List ℝ) (n : ℕ) : Except PyErr (List ℝ) := do
  let rule ← glRule n
  if a.length ≠ b.length then .error .valueError
  else pure (List.zipWith (panel rule f) a b)

/-- `gl_quad` with `sum_intervals=True`, quadrature.py:1344-1345. -/
noncomputable def glQuadSum (f : ℝ → ℝ) (a b : List ℝ) (n : ℕ) : Except PyErr ℝ := do
  let r ← glQuad f a b n
  pure r.sum

/-- `gk_quad(f, a, b, n=n)`, quadrature.py:1191-1271: the fine integral and the error estimate, per interval. -/
noncomputable def gkQuad (f : ℝ → ℝ) (a b : List ℝ) (n : ℕ) : Except PyErr (List (ℝ × ℝ)) := do
  let rule ← gkRule n
  if a.length ≠ b.length then .error .valueError
  else
    let coarse := rule.map (fun p => (p.1, p.2.1))
    let fine := rule.map (fun p => (p.1, p.2.2))
    pure (List.zipWith (fun a b => (panel fine f a b, |panel fine f a b - panel coarse f a b|)) a b)

/-! ## Shanks -/

section
variable {K : Type} [Field K] [DecidableEq K]

/-- One pass of the loop of `shanks` on the window starting at index `i` (1-d data), quadrature.py:1180-1187: from the
elements `seq[i:]`, the new `seq[i+2:]`; `none` if some denominator vanishes. -/
def shanksPass : List K → Option (List K)
  | a :: b :: c :: r =>
    let d := c - 2 * b + a
    if d = 0 then none
    else match shanksPass (b :: c :: r) with
      | none => none
      | some l => some ((c * a - b^2) / d :: l)
  | _ => some []

/-- The loop `for i in range(ind, len - 2, 2)`; the argument is `seq[i:]`, the result `seq[-1]`. -/
def shanksLoop : ℕ → List K → K
  | 0, l => l.getLastD 0
  | fuel+1, l =>
    if l.length ≤ 2 then l.getLastD 0
    else match shanksPass l with
      | none => l.getLastD 0
      | some l' => shanksLoop fuel l'

/-- `shanks(seq, ind)` for 1-d non-empty `seq`, quadrature.py:1119-1188.  `ind=None` is modelled by
`none`.  The in-place modification of a numpy argument is not modelled. -/
def shanks (seq : List K) (ind : Option ℤ) : K :=
  match ind with
  | none => seq.getLastD 0
  | some ind =>
    let ind := if ind < 0 then seq.length + ind else ind
    let ind := (max ind 0).toNat
    if seq.length ≤ ind then seq.getLastD 0   -- empty range
    else shanksLoop seq.length (seq.drop ind)

/-- One row of the epsilon table, quadrature.py:1098-1113: `seq[i], seq[i+1]`, the previous row; `none` when a zero
divisor is met.  Elements `j ≥ 1`: `a` is `seq[i]` for `j = 1`, else `table[i-1][j-2]`. -/
def tableRow (si si1 : K) (prev : List K) : Option (List K) :=
  let b0 := si1 - si
  if b0 = 0 then none
  else
    let rec go : K → List K → List K → Option (List K)
      -- last element of the row so far, the remaining `a`s, the remaining `table[i-1][j-1]`s
      | last, a :: as, p :: ps =>
        let b := last - p
        if b = 0 then none
        else match go (a + 1 / b) as ps with
          | none => none
          | some r => some ((a + 1 / b) :: r)
      | _, _, _ => some []
    match go (1 / b0) (si :: prev) prev with
    | none => none
    | some r => some (1 / b0 :: r)

/-- The loop `for i in range(START, STOP)` of `shanks_table`, quadrature.py:1097-1116. -/
def tableLoop (seq : List K) : ℕ → ℕ → List (List K) → List (List K)
  | 0, _, t => t
  | fuel+1, i, t =>
    match tableRow (seq.getD i 0) (seq.getD (i+1) 0) (if i = 0 then [] else t.getD (i-1) []) with
    | none => if i % 2 = 1 then t.dropLast else t
    | some row => tableLoop seq fuel (i+1) (t ++ [row])

/-- `shanks_table(seq)`, quadrature.py:970-1116, with `table=None`, `randomized=False`. -/
def shanksTable (seq : List K) : Except PyErr (List (List K)) :=
  if seq.length < 2 then .error .valueError
  else
    let stop := seq.length - 1
    let stop := if stop % 2 = 1 then stop - 1 else stop
    .ok (tableLoop seq stop 0 [])
end

end Geotecha.Quad
