import Verif.Beam.SpecBeam
import Verif.Beam.AnaDuhamel
import Verif.Speccon.CxLoads

/-!
# The analytical solution of `SpecBeam`

Model of `geotecha/beam_on_foundation/specbeam.py`, lines 908-1138, and of the loading matrices it calls
(`geotecha/speccon/speccon1d.py`, lines 1510-1653 and 2165-2270).

The `2n` rows and columns of the block matrices are indexed by `Fin n ⊕ Fin n`: `inl` the first `n`
(coefficients of the deflection), `inr` the last `n` (their rates).  `np.linalg.eig` is a parameter.
`float` and `complex` are exact.
-/
set_option autoImplicit false
set_option linter.unusedVariables false

namespace Geotecha.Beam

open Real Geotecha.Speccon Geotecha.Piecewise

/-- `_make_gam` (specbeam.py:946-975). -/
noncomputable def SMats.gam (M : SMats) (n : ℕ) : Matrix (Fin n ⊕ Fin n) (Fin n ⊕ Fin n) ℝ :=
  Matrix.fromBlocks 1 0 0 (blk n fun i j => M.lam i j * 1)

/-- `_make_psi` (specbeam.py:977-992), after the change of sign in `runme` (specbeam.py:921-923). -/
noncomputable def SMats.psi (M : SMats) (n : ℕ) : Matrix (Fin n ⊕ Fin n) (Fin n ⊕ Fin n) ℝ :=
  Matrix.fromBlocks 0 (-1) (blk n fun i j => M.psiq i j * (-1)) (blk n fun i j => M.psiqd i j * (-1))

/-- What `_make_eigs_and_v` leaves behind. -/
structure Eigs (n : ℕ) where
  /-- `eigs` -/ eigs : Fin n ⊕ Fin n → ℂ
  /-- `v` -/ v : Matrix (Fin n ⊕ Fin n) (Fin n ⊕ Fin n) ℂ
  /-- `Igamv` -/ W : Matrix (Fin n ⊕ Fin n) (Fin n ⊕ Fin n) ℂ

/-- `_make_eigs_and_v` (specbeam.py:994-1025): `np.linalg.inv` raises `LinAlgError` for singular matrices. -/
noncomputable def SMats.eigsAndV (M : SMats) (n : ℕ)
    (eig : Matrix (Fin n ⊕ Fin n) (Fin n ⊕ Fin n) ℝ → (Fin n ⊕ Fin n → ℂ) × Matrix (Fin n ⊕ Fin n) (Fin n ⊕ Fin n) ℂ) :
    Except PyErr (Eigs n) :=
  open Classical in
  if (M.gam n).det = 0 then .error .other
  else
    let e := eig ((M.gam n)⁻¹ * M.psi n)
    if (Ana.cm (M.gam n) * e.2).det = 0 then .error .other
    else .ok ⟨e.1, e.2, (Ana.cm (M.gam n) * e.2)⁻¹⟩

/-- `dim1sin_E_Igamv_the_mvpl` (speccon1d.py:2165-2270) as `_make_E_Igamv_the_mvpl` calls it (specbeam.py:1071-1089): entry
of eigenvalue `j` at time `t`.  The first `n` entries of theta are left out. -/
noncomputable def SBeam.mvpl (s : SBeam) (e : Eigs s.n) (t : ℝ) (j : Fin s.n ⊕ Fin s.n) : Except PyErr ℂ := do
  let hs ← s.veh.mapM fun c => c.convert none none none none
  let l ← (List.finRange s.n).mapM fun i : Fin s.n => do
    let es ← hs.flatten.mapM fun h =>
      Cx.eloadSin s.impl h.T h.P (h.omega * s.beta.getD i 0) (h.phase * s.beta.getD i 0) 1 t (e.eigs j)
    pure (es.sum * e.W j (.inr i))
  pure l.sum

/-- `integ.pEload_coslinear` with the eigenvalues of `np.linalg.eig` (integrals.py:764-863): the array of eigenvalues is real
exactly when all of them are. -/
noncomputable def SBeam.cosE (s : SBeam) (e : Eigs s.n) (T P : List ℝ) (omega phase t : ℝ) (j : Fin s.n ⊕ Fin s.n) : Except PyErr ℂ :=
  open Classical in
  if ∀ j, (e.eigs j).im = 0 then do
    let r ← eloadCos s.impl T P omega phase 1 (e.eigs j).re t
    pure ((r : ℝ) : ℂ)
  else Cx.eloadCos s.impl T P omega phase 1 t (e.eigs j)

/-- The time part of one stationary load (speccon1d.py:1643-1647). -/
noncomputable def SBeam.timeE (s : SBeam) (e : Eigs s.n) (T P : List ℝ) (om : Om) (t : ℝ) (j : Fin s.n ⊕ Fin s.n) : Except PyErr ℂ :=
  match om with
  | some o => s.cosE e T P o.1 o.2 t j
  | none => Cx.eloadLinear s.impl T P 1 t (e.eigs j)

/-- One stationary load in `dim1sin_E_Igamv_the_deltamag_linear` (speccon1d.py:1637-1648); `pseudo_k` is 1, the first
`n` entries of theta are set to zero. -/
noncomputable def SBeam.stat_one (s : SBeam) (e : Eigs s.n) (t : ℝ) (j : Fin s.n ⊕ Fin s.n) (z : ℝ × PolyLine ℝ × Om) : Except PyErr ℂ := do
  let T ← z.2.1.getX.1
  let P ← z.2.1.getY.1
  let E ← s.timeE e T P z.2.2 t j
  pure (E * ((List.finRange s.n).map fun i : Fin s.n => e.W j (.inr i) * ((1 * sin (z.1 * s.beta.getD i 0) : ℝ) : ℂ)).sum)

/-- `dim1sin_E_Igamv_the_deltamag_linear` (speccon1d.py:1510-1653) as `_make_E_Igamv_the_stationary` calls it
(specbeam.py:1091-1114): entry of eigenvalue `j` at time `t`.  `zip` stops at the shortest list. -/
noncomputable def SBeam.stat_E (s : SBeam) (e : Eigs s.n) (t : ℝ) (j : Fin s.n ⊕ Fin s.n) : Except PyErr ℂ := do
  let l ← (s.stat.x.zip (s.stat.vs.zip s.stat.op)).mapM (s.stat_one e t j)
  pure l.sum

/-- One column of `v_E_Igamv_the` (`make_time_dependent_arrays`, `make_E_Igamv_the`, specbeam.py:1028-1069). -/
noncomputable def SBeam.vE (s : SBeam) (e : Eigs s.n) (t : ℝ) : Except PyErr (Fin s.n ⊕ Fin s.n → ℂ) := do
  let l ← (Finset.univ : Finset (Fin s.n ⊕ Fin s.n)).toList.mapM fun j => do
    let a ← s.mvpl e t j
    let b ← s.stat_E e t j
    pure (j, a + b)
  pure fun k => (l.map fun q => e.v k q.1 * q.2).sum

/-- The check of the imaginary parts (specbeam.py:1129-1133): `np.allclose(…, 0, atol=1e-12)`. -/
noncomputable def checkReal (d : List (List ℂ)) : Except PyErr (List (List ℝ)) :=
  open Classical in
  if ∀ r ∈ d, ∀ z ∈ r, |z.im| ≤ 1e-12 then .ok (d.map fun r => r.map Complex.re)
  else .error .valueError

/-- `_make_defl` (specbeam.py:1119-1133): `defl_norm`, rows `x`, columns `t`. -/
noncomputable def SBeam.anaDefl (s : SBeam) (e : Eigs s.n) (xs ts : List ℝ) : Except PyErr (List (List ℝ)) := do
  let qs ← ts.mapM (s.vE e)
  let d : List (List ℂ) := xs.map fun x => qs.map fun q => ∑ k : Fin s.n, ((sin (x * s.beta.getD k 0) : ℝ) : ℂ) * q (.inl k)
  checkReal d

/-- `runme` with `use_analytical=True` (specbeam.py:908-938): `defl_norm`. -/
noncomputable def SBeam.runAnalytical (s : SBeam)
    (eig : Matrix (Fin s.n ⊕ Fin s.n) (Fin s.n ⊕ Fin s.n) ℝ → (Fin s.n ⊕ Fin s.n → ℂ) × Matrix (Fin s.n ⊕ Fin s.n) (Fin s.n ⊕ Fin s.n) ℂ)
    (xs ts : List ℝ) : Except PyErr (List (List ℝ)) := do
  let M ← s.matrices
  let e ← M.eigsAndV s.n eig
  s.anaDefl e xs ts

end Geotecha.Beam
