import Mathlib.LinearAlgebra.Vandermonde
import Mathlib.LinearAlgebra.Matrix.NonsingularInverse
import Mathlib.Analysis.SpecialFunctions.Trigonometric.Basic
import Mathlib.Analysis.SpecialFunctions.Sqrt
import Verif.Piecewise.Model

/-!
# Finite beam on a nonlinear foundation: `DingEtAl2012`

Model of `geotecha/beam_on_foundation/dingetal2012.py`, lines 137-421.

Floats are reals.  Where the code would produce a `nan` the model says so explicitly (`none`, or the
constructor `Rule.nan`); overflow of `cosh` is not modelled.  `odeint` is not modelled: a run is any
exact solution of the vector field, starting from zeros at the first requested time.
-/
set_option autoImplicit false
set_option linter.unusedVariables false

namespace Geotecha.Beam

open Real

/-- The `BC` keyword (dingetal2012.py:138, 197, 206, 229). -/
inductive BC
  | ss | cc | ff
  | other (s : String)

/-- The keyword arguments of `DingEtAl2012.__init__` that carry numbers (dingetal2012.py:137-156);
`none` is Python's `None`. -/
structure Args where
  /-- `E` -/ E : Option ℝ
  /-- `I` -/ I : Option ℝ
  /-- `rho` -/ rho : Option ℝ
  /-- `A` -/ A : Option ℝ
  /-- `L` -/ L : Option ℝ
  /-- `k1` -/ k1 : Option ℝ
  /-- `k3` -/ k3 : Option ℝ
  /-- `mu` -/ mu : Option ℝ
  /-- `Fz` -/ Fz : Option ℝ
  /-- `v` -/ v : Option ℝ
  /-- `v_norm` -/ vN : Option ℝ
  /-- `kf` -/ kf : Option ℝ
  /-- `Fz_norm` -/ FzN : Option ℝ
  /-- `mu_norm` -/ muN : Option ℝ
  /-- `k1_norm` -/ k1N : Option ℝ
  /-- `k3_norm` -/ k3N : Option ℝ

/-- The normalised parameters the solver works with (dingetal2012.py:179-194). -/
structure Coef where
  /-- `self.kf` -/ kf : ℝ
  /-- `self.v_norm` -/ v : ℝ
  /-- `self.Fz_norm` -/ F : ℝ
  /-- `self.mu_norm` -/ mu : ℝ
  /-- `self.k1_norm` -/ k1 : ℝ
  /-- `self.k3_norm` -/ k3 : ℝ

/-- Arithmetic with `None` raises `TypeError` (used all over dingetal2012.py:179-194). -/
def need : Option ℝ → Except PyErr ℝ
  | some x => .ok x
  | none => .error .typeError

/-- Division of Python floats: `ZeroDivisionError` on zero (dingetal2012.py:179-194). -/
noncomputable def pdiv (a b : ℝ) : Except PyErr ℝ :=
  open Classical in if b = 0 then .error .zeroDivision else .ok (a / b)

/-- `x if x is not None else e` (the pattern `if self.x_norm is None: self.x_norm = e`,
dingetal2012.py:179-194). -/
def orElse (o : Option ℝ) (e : Except PyErr ℝ) : Except PyErr ℝ :=
  match o with
  | some x => .ok x
  | none => e

/-- The normalisation block of `__init__` (dingetal2012.py:179-194).  The second `if self.kf is None`
at line 184 can never fire.  `np.sqrt` of a negative number (a `nan`) is not modelled. -/
noncomputable def norm (a : Args) : Except PyErr Coef := do
  -- 181: self.kf = 1 / self.L * np.sqrt(self.I / self.A)
  let kf ← orElse a.kf (do
    let l ← need a.L
    let il ← pdiv 1 l
    let i ← need a.I
    let ar ← need a.A
    let r ← pdiv i ar
    pure (il * √r))
  -- 183: self.v_norm = self.v * np.sqrt(self.rho / self.E)
  let v ← orElse a.vN (do
    let r ← need a.rho
    let e ← need a.E
    let s ← pdiv r e
    let v ← need a.v
    pure (v * √s))
  -- 187: self.Fz_norm = self.Fz / (self.E * self.A)
  let f ← orElse a.FzN (do
    let e ← need a.E
    let ar ← need a.A
    let fz ← need a.Fz
    pdiv fz (e * ar))
  -- 190: self.mu_norm = self.mu / self.A * np.sqrt(self.L**2 / (self.rho * self.E))
  let mu ← orElse a.muN (do
    let m ← need a.mu
    let ar ← need a.A
    let q ← pdiv m ar
    let l ← need a.L
    let r ← need a.rho
    let e ← need a.E
    let s ← pdiv (l ^ 2) (r * e)
    pure (q * √s))
  -- 192: self.k1_norm = self.k1 * self.L**2 / (self.E * self.A)
  let k1 ← orElse a.k1N (do
    let l ← need a.L
    let k ← need a.k1
    let e ← need a.E
    let ar ← need a.A
    pdiv (k * l ^ 2) (e * ar))
  -- 194: self.k3_norm = self.k3 * self.L**4 / (self.E* self.A)
  let k3 ← orElse a.k3N (do
    let l ← need a.L
    let k ← need a.k3
    let e ← need a.E
    let ar ← need a.A
    pdiv (k * l ^ 4) (e * ar))
  pure ⟨kf, v, f, mu, k1, k3⟩

/-- The quadrature data `self.xj`, `self.Ij` left by `__init__` (dingetal2012.py:202, 214-218, 234-238):
`absent` for `nquad=None` (the attributes do not exist), `nan` when the only node is `0/0`, otherwise
nodes and weights. -/
inductive Rule
  | absent
  | nan
  | rule (n : ℕ) (x I : Fin n → ℝ)

/-- Nodes for simply supported ends (dingetal2012.py:202). -/
noncomputable def nodesSS (n : ℕ) (j : Fin n) : ℝ :=
  0.5 * (1 - cos (π * (j : ℕ) / ((n : ℝ) - 1)))

/-- Nodes for `BC="CC"` and `"FF"`: `xj` and then the four item assignments in order
(dingetal2012.py:214-218).  Negative indices count from the end; on a list shorter than two the
assignment to `xj[1]` (or `xj[0]`) raises `IndexError`.  For `nquad=3` the first expression divides by
zero, but every item is overwritten. -/
noncomputable def nodesCC (n : ℕ) : Except PyErr (Fin n → ℝ) :=
  if n < 2 then .error .indexError
  else .ok (fun j =>
    let x0 := 0.5 * (1 - cos (π * (j : ℕ) / ((n : ℝ) - 3)))
    let x1 := if (j : ℕ) = 0 then 0 else x0
    let x2 := if (j : ℕ) = 1 then 0.0001 else x1
    let x3 := if (j : ℕ) = n - 2 then 0.0001 else x2
    if (j : ℕ) = n - 1 then 0 else x3)

/-- `lhs = self.xj[np.newaxis, :] ** np.arange(self.nquad)[:, np.newaxis]` (dingetal2012.py:236). -/
def lhs {n : ℕ} (x : Fin n → ℝ) : Matrix (Fin n) (Fin n) ℝ := Matrix.of fun i j => x j ^ (i : ℕ)

/-- `rhs = np.reciprocal(np.arange(self.nquad, dtype=float) + 1)` (dingetal2012.py:235). -/
noncomputable def rhs (n : ℕ) : Fin n → ℝ := fun i => 1 / ((i : ℕ) + 1 : ℝ)

/-- `self.Ij = np.linalg.solve(lhs, rhs)` (dingetal2012.py:238); a singular matrix raises
`LinAlgError`. -/
noncomputable def weights {n : ℕ} (x : Fin n → ℝ) : Except PyErr (Fin n → ℝ) :=
  open Classical in
  if (lhs x).det = 0 then .error .other else .ok ((lhs x)⁻¹.mulVec (rhs n))

/-- The quadrature part of `__init__` (dingetal2012.py:201-202, 213-218, 234-238).  `BC` was checked
before (the `else` at 229 raises `ValueError`).  With one node and simply supported ends the node is
`0/0`. -/
noncomputable def mkRule (bc : BC) (nquad : Option ℕ) : Except PyErr Rule :=
  match bc with
  | .other _ => .error .valueError
  | .ss => match nquad with
    | none => .ok .absent
    | some n => if n = 1 then .ok .nan else do
      let w ← weights (nodesSS n)
      pure (.rule n (nodesSS n) w)
  | _ => match nquad with
    | none => .ok .absent
    | some n => do
      let x ← nodesCC n
      let w ← weights x
      pure (.rule n x w)

/-- `self.beta` (dingetal2012.py:199, 211, 226-227); `rt` are the roots returned by
`find_n_roots(1 - cos*cosh)`. -/
noncomputable def beta (bc : BC) (rt : ℕ → ℝ) (k : ℕ) : ℝ :=
  match bc with
  | .ss => π * ((k : ℝ) + 1)
  | .ff => match k with
    | 0 => 0
    | k + 1 => rt k
  | _ => rt k

/-- `self.BC_coeff` (dingetal2012.py:204, 220). -/
def bcCoeff : BC → ℝ
  | .ss => 2
  | _ => 1

/-- `phiSS` (dingetal2012.py:243-244). -/
noncomputable def phiSS (x b : ℝ) : ℝ := sin (b * x)

/-- `phiCC` (dingetal2012.py:247-255). -/
noncomputable def phiCC (x b : ℝ) : ℝ :=
  cosh (b * x) - cos (b * x)
    + ((cosh b - cos b) / (sinh b - sin b)) * (sin (b * x) - sinh (b * x))

/-- `phiFF` (dingetal2012.py:258-267). -/
noncomputable def phiFF (x b : ℝ) : ℝ :=
  cos (b * x) + cosh (b * x)
    + (-(cos b - cosh b) / (sin b - sinh b)) * (sin (b * x) + sinh (b * x))

/-- `self.phi` (dingetal2012.py:198, 222, 225). -/
noncomputable def phi : BC → ℝ → ℝ → ℝ
  | .ss => phiSS
  | .cc => phiCC
  | _ => phiFF

/-- When `phi(x, beta)` is `0/0` (dingetal2012.py:250, 262): at `beta = 0`, for clamped and free ends. -/
def phiNan (bc : BC) (b : ℝ) : Prop :=
  match bc with
  | .ss => False
  | _ => sinh b - sin b = 0

/-- `self.w(qk, x)` (dingetal2012.py:270-286). -/
noncomputable def wN (bc : BC) (b : ℕ → ℝ) (n : ℕ) (q : ℕ → ℝ) (x : ℝ) : ℝ :=
  ∑ k ∈ Finset.range n, q k * phi bc x (b k)

/-- Acceleration of coefficient `i` (the loop body of `vectorfield`, dingetal2012.py:312-332): damping,
foundation and bending, load, cubic term by the quadrature. -/
noncomputable def accR (bc : BC) (c : Coef) (b : ℕ → ℝ) (n : ℕ) {m : ℕ} (x I : Fin m → ℝ)
    (q qd : ℕ → ℝ) (t : ℝ) (i : ℕ) : ℝ :=
  - c.mu * qd i - (c.k1 + c.kf ^ 2 * b i ^ 4) * q i + bcCoeff bc * c.F * phi bc (c.v * t) (b i)
    - bcCoeff bc * c.k3 * ∑ j, I j * (wN bc b n q (x j)) ^ 3 * phi bc (x j) (b i)

/-- Acceleration with the failures (dingetal2012.py:312-332): no quadrature data raises `AttributeError` (the branch at line 322
is `if 1:`), a `nan` in any of the values used makes it `nan` (`none`). -/
noncomputable def acc (bc : BC) (c : Coef) (b : ℕ → ℝ) (n : ℕ) (R : Rule) (q qd : ℕ → ℝ) (t : ℝ)
    (i : ℕ) : Except PyErr (Option ℝ) :=
  open Classical in
  match R with
  | .absent => .error .attributeError
  | .nan => .ok none
  | .rule m x I =>
    if phiNan bc (b i) ∨ (0 < m ∧ ∃ k < n, phiNan bc (b k)) then .ok none
    else .ok (some (accR bc c b n x I q qd t i))

/-- `vectorfield(vsv, tnow)` (dingetal2012.py:289-334): entry `i < nterms` is the velocity
`vsv[nterms+i]`, entry `nterms + i` the acceleration. -/
noncomputable def vectorfield (bc : BC) (c : Coef) (b : ℕ → ℝ) (n : ℕ) (R : Rule) (y : ℕ → ℝ)
    (t : ℝ) (i : ℕ) : Except PyErr (Option ℝ) :=
  if i < n then .ok (some (y (n + i)))
  else acc bc c b n R y (fun k => y (n + k)) t (i - n)

/-- `normalise_w` as passed (dingetal2012.py:378, 415). -/
inductive NormaliseW
  | isTrue | isFalse | isNone

/-- What `wofx` returns: one row when there is a single `x`, otherwise the table
(dingetal2012.py:418-421). -/
inductive Table
  | row (v : List ℝ)
  | grid (v : List (List ℝ))

/-- `wofx` (dingetal2012.py:378-421) for a list of coefficient vectors `qs` (the rows of
`self.qsol[tslice, :nterms]`): `x_norm` wins over `x`; the table is multiplied by `L` unless
`normalise_w is None`.  `x` is an array (or a number): `x / None` raises `TypeError`, an array divided by
zero does not raise (not modelled). -/
noncomputable def wofx (bc : BC) (b : ℕ → ℝ) (n : ℕ) (L : Option ℝ) (qs : List (ℕ → ℝ))
    (x xN : Option (List ℝ)) (nw : NormaliseW) : Except PyErr Table := do
  let xn ← match xN with
    | some l => .ok l
    | none => match x, L with
      | some l, some L => .ok (l.map (· / L))
      | _, _ => .error .typeError
  let v := xn.map fun xx => qs.map fun q => wN bc b n q xx
  let v ← match nw with
    | .isNone => Except.ok v
    | _ => match L with
      | some L => .ok (v.map fun r => r.map (· * L))
      | none => .error .typeError
  match v with
  | [r] => .ok (.row r)
  | _ => .ok (.grid v)

/-- `t_norm` in `calulate_qk` (dingetal2012.py:362-365): raw time to normalised time. -/
noncomputable def tNorm (E rho L t : ℝ) : ℝ := t / L * √(E / rho)

/-- A run of `calulate_qk` (dingetal2012.py:343-375) over the times `T 0 = t_norm[0]` to `T1`: an exact
solution of the vector field, with zero deflection and velocity at the *first requested time* (the
initial condition of `odeint` belongs to `t_norm[0]`). -/
structure Run (bc : BC) (c : Coef) (b : ℕ → ℝ) (n : ℕ) (R : Rule) (T0 T1 : ℝ) (y : ℝ → ℕ → ℝ) :
    Prop where
  /-- starts from zeros at the first time -/
  start : ∀ i < 2 * n, y T0 i = 0
  /-- continuous up to the ends -/
  cont : ∀ i < 2 * n, ContinuousOn (fun t => y t i) (Set.Icc T0 T1)
  /-- follows the vector field -/
  field : ∀ t ∈ Set.Ioo T0 T1, ∀ i < 2 * n,
    ∃ d, vectorfield bc c b n R (y t) t i = .ok (some d) ∧ HasDerivAt (fun s => y s i) d t

end Geotecha.Beam
