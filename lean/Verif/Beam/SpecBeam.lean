import Verif.Beam.Ding
import Verif.Beam.Moving
import Verif.Speccon.ModelVRW
import Verif.Speccon.Eigen

/-!
# Finite beam with varying properties and many loads: `SpecBeam`

Model of `geotecha/beam_on_foundation/specbeam.py`, lines 325-905: constructor, matrices, vector field and
output of the numerical solution.  The analytical solution (lines 908-1138) is in `Beam/SpecAna.lean`.

Floats are reals.  `odeint` is not modelled: a run is any exact solution of the vector field.  Files
(`saveme`, `load_defl`) and plots are not modelled here.  `x` and `Fz` of one vehicle have the same number of
axles.
-/
set_option autoImplicit false
set_option linter.unusedVariables false

namespace Geotecha.Beam

open Real Geotecha.Speccon Geotecha.Piecewise

/-- The scalar keyword arguments of `SpecBeam.__init__` (specbeam.py:325-380). -/
structure SArgs where
  /-- `BC` -/ bc : String
  /-- `E` -/ E : Option ℝ
  /-- `I` -/ I : Option ℝ
  /-- `rho` -/ rho : Option ℝ
  /-- `A` -/ A : Option ℝ
  /-- `L` -/ L : Option ℝ
  /-- `k1` -/ k1 : Option ℝ
  /-- `k3` -/ k3 : Option ℝ
  /-- `mu` -/ mu : Option ℝ
  /-- `kf` -/ kf : Option ℝ
  /-- `mu_norm` -/ muN : Option ℝ
  /-- `k1_norm` -/ k1N : Option ℝ
  /-- `k3_norm` -/ k3N : Option ℝ
  /-- `nquad` -/ nquad : Option ℕ
  /-- `use_analytical` -/ analytical : Bool

/-- `moving_loads_…` (specbeam.py:325-346): per vehicle. -/
structure MArgs where
  /-- `moving_loads_x` -/ x : Option (List (List ℝ))
  /-- `moving_loads_Fz` -/ Fz : Option (List (List ℝ))
  /-- `moving_loads_v` -/ v : Option (List ℝ)
  /-- `moving_loads_offset` -/ offset : Option (List ℝ)
  /-- `moving_loads_t0` -/ t0 : Option (List ℝ)
  /-- `moving_loads_x0` -/ x0 : Option (List ℝ)
  /-- `moving_loads_L` -/ L : Option (List ℝ)
  /-- `moving_loads_x_norm` -/ xN : Option (List (List ℝ))
  /-- `moving_loads_Fz_norm` -/ FzN : Option (List (List ℝ))
  /-- `moving_loads_v_norm` -/ vN : Option (List ℝ)
  /-- `moving_loads_offset_norm` -/ offsetN : Option (List ℝ)
  /-- `moving_loads_t0_norm` -/ t0N : Option (List ℝ)
  /-- `moving_loads_x0_norm` -/ x0N : Option (List ℝ)
  /-- `moving_loads_L_norm` -/ LN : Option (List ℝ)

/-- `stationary_loads_…` (specbeam.py:350-356). -/
structure StArgs where
  /-- `stationary_loads_x` -/ x : Option (List ℝ)
  /-- `stationary_loads_vs_t` -/ vs : Option (List (PolyLine ℝ))
  /-- `stationary_loads_omega_phase` -/ op : Option (List Om)
  /-- `stationary_loads_x_norm` -/ xN : Option (List ℝ)
  /-- `stationary_loads_vs_t_norm` -/ vsN : Option (List (PolyLine ℝ))
  /-- `stationary_loads_omega_phase_norm` -/ opN : Option (List Om)

/-- `self.k3`, `self.k3_norm` after the default (specbeam.py:441-443). -/
def SArgs.k3s (a : SArgs) : Option ℝ × Option ℝ :=
  match a.k3N with
  | none => match a.k3 with
    | none => (some 0, some 0)
    | some k => (some k, none)
  | some k => (a.k3, some k)

/-- The check of `use_analytical` (specbeam.py:445-448): `v==0` is `False` for `None`. -/
noncomputable def SArgs.gate (a : SArgs) : Except PyErr Unit :=
  open Classical in
  if a.analytical = true ∧ (a.bc.toUpper = "CC" ∨ a.bc.toUpper = "FF" ∨ ¬(a.k3s.1 = some 0 ∧ a.k3s.2 = some 0))
  then .error .valueError else .ok ()

/-- `self.kf` (specbeam.py:452-453). -/
noncomputable def SArgs.kfOf (a : SArgs) : Except PyErr ℝ :=
  orElse a.kf (do
    let l ← need a.L
    let il ← pdiv 1 l
    let i ← need a.I
    let ar ← need a.A
    let r ← pdiv i ar
    pure (il * √r))

/-- `self.mu_norm` (specbeam.py:615-616). -/
noncomputable def SArgs.muOf (a : SArgs) : Except PyErr ℝ :=
  orElse a.muN (do
    let m ← need a.mu
    let ar ← need a.A
    let q ← pdiv m ar
    let l ← need a.L
    let r ← need a.rho
    let e ← need a.E
    let s ← pdiv (l ^ 2) (r * e)
    pure (q * √s))

/-- `self.k1_norm` (specbeam.py:617-618). -/
noncomputable def SArgs.k1Of (a : SArgs) : Except PyErr ℝ :=
  orElse a.k1N (do
    let l ← need a.L
    let k ← need a.k1
    let e ← need a.E
    let ar ← need a.A
    pdiv (k * l ^ 2) (e * ar))

/-- `self.k3_norm` (specbeam.py:619-620). -/
noncomputable def SArgs.k3Of (a : SArgs) : Except PyErr ℝ :=
  orElse a.k3s.2 (do
    let l ← need a.L
    let k ← need a.k3s.1
    let e ← need a.E
    let ar ← need a.A
    pdiv (k * l ^ 4) (e * ar))

/-- `v / self.L` (specbeam.py:474, 491, 511, 521, 590). -/
noncomputable def SArgs.perL (a : SArgs) (v : ℝ) : Except PyErr ℝ := do
  let l ← need a.L
  pdiv v l

/-- `v / (self.E * self.A)` (specbeam.py:476, 595, 604). -/
noncomputable def SArgs.perEA (a : SArgs) (v : ℝ) : Except PyErr ℝ := do
  let e ← need a.E
  let ar ← need a.A
  pdiv v (e * ar)

/-- `v / self.L * np.sqrt(self.E / self.rho)`: a time (specbeam.py:501, 563, 596). -/
noncomputable def SArgs.time (a : SArgs) (v : ℝ) : Except PyErr ℝ := do
  let l ← need a.L
  let q ← pdiv v l
  let e ← need a.E
  let r ← need a.rho
  let s ← pdiv e r
  pure (q * √s)

/-- `v * np.sqrt(self.rho / self.E)`: a speed (specbeam.py:478). -/
noncomputable def SArgs.speed (a : SArgs) (v : ℝ) : Except PyErr ℝ := do
  let r ← need a.rho
  let e ← need a.E
  let s ← pdiv r e
  pure (v * √s)

/-- The four optional lists of the moving loads (specbeam.py:482-523): raw value, normalised value, whether
the raw positions were given, default of the raw values and of the normalised values, scaling. -/
noncomputable def optLoad (raw nrm : Option (List ℝ)) (x : Option (List (List ℝ))) (nN : ℕ)
    (d : Except PyErr ℝ) (dN : ℝ) (scale : ℝ → Except PyErr ℝ) : Except PyErr (List ℝ) :=
  match raw with
  | some r => match nrm with
    | some l => .ok l
    | none => r.mapM scale
  | none => match x with
    | some l => do
      let d ← d
      match nrm with
      | some l' => .ok l'
      | none => (List.replicate l.length d).mapM scale
    | none => match nrm with
      | some l => .ok l
      | none => .ok (List.replicate nN dN)

/-- `if self.a is None: self.a = [f(v) for v in self.b]`; a missing `b` raises `TypeError`
(specbeam.py:473-478, 589-596). -/
noncomputable def orMap {α β : Type} (nrm : Option (List β)) (raw : Option (List α)) (f : α → Except PyErr β) :
    Except PyErr (List β) :=
  match nrm with
  | some l => .ok l
  | none => match raw with
    | none => .error .typeError
    | some l => l.mapM f

/-- The moving loads of the constructor (specbeam.py:458-555): `self.moving_loads_norm`, the empty list
without moving loads.  `zip` stops at the shortest list.  When the raw positions are given, the raw
vehicles are built too, which needs the raw forces and speeds. -/
noncomputable def vehicles (a : SArgs) (m : MArgs) : Except PyErr (List Vehicle) :=
  if m.xN = none ∧ m.FzN = none ∧ m.vN = none ∧ m.x = none ∧ m.Fz = none ∧ m.v = none then .ok []
  else do
    let xN ← orMap m.xN m.x fun v => v.mapM a.perL
    let FzN ← orMap m.FzN m.Fz fun v => v.mapM a.perEA
    let vN ← orMap m.vN m.v a.speed
    let off ← optLoad m.offset m.offsetN m.x xN.length (.ok 0) 0 a.perL
    let t0 ← optLoad m.t0 m.t0N m.x xN.length (.ok 0) 0 a.time
    let x0 ← optLoad m.x0 m.x0N m.x xN.length (.ok 0) 0 a.perL
    let ln ← optLoad m.L m.LN m.x xN.length (need a.L) 1 a.perL
    if m.x ≠ none ∧ (m.Fz = none ∨ m.v = none) then .error .typeError
    else pure ((xN.zip (FzN.zip (off.zip (vN.zip (t0.zip (ln.zip x0)))))).map fun z =>
      ⟨z.1.zip z.2.1, z.2.2.1, z.2.2.2.1, z.2.2.2.2.2.1, z.2.2.2.2.1, z.2.2.2.2.2.2⟩)

/-- The stationary loads as stored: `stationary_loads_x_norm`, `…_vs_t_norm`, `…_omega_phase_norm`. -/
structure Stationary where
  x : List ℝ
  vs : List (PolyLine ℝ)
  op : List Om

/-- `PolyLine(v.x / self.L * np.sqrt(self.E / self.rho), v.y / (self.E * self.A))` (specbeam.py:595-596). -/
noncomputable def SArgs.line (a : SArgs) (p : PolyLine ℝ) : Except PyErr (PolyLine ℝ) := do
  let x ← p.getX.1
  let x ← x.mapM a.time
  let y ← p.getY.1
  let y ← y.mapM a.perEA
  PolyLine.ofX_Y x y

/-- `(v[0] * self.L / np.sqrt(self.E / self.rho), v[1] / (self.E * self.A))` (specbeam.py:603-605). -/
noncomputable def SArgs.omphase (a : SArgs) : Om → Except PyErr Om
  | none => .ok none
  | some v => do
    let l ← need a.L
    let e ← need a.E
    let r ← need a.rho
    let s ← pdiv e r
    let o ← pdiv (v.1 * l) √s
    let p ← a.perEA v.2
    pure (some (o, p))

/-- `self.stationary_loads_omega_phase` after its default (specbeam.py:580-583). -/
def StArgs.opOf (m : StArgs) : Option (List Om) :=
  match m.op with
  | some l => some l
  | none => m.x.map fun l => List.replicate l.length none

/-- The stationary loads of the constructor (specbeam.py:570-605). -/
noncomputable def stationary (a : SArgs) (m : StArgs) : Except PyErr Stationary :=
  if m.xN = none ∧ m.opN = none ∧ m.vsN = none ∧ m.x = none ∧ m.op = none then .ok ⟨[], [], []⟩
  else do
    let xN ← orMap m.xN m.x a.perL
    let vsN ← orMap m.vsN m.vs a.line
    let opN ← match m.opN with
      | some l => .ok l
      | none => match m.opOf with
        | none => .ok (List.replicate xN.length none)
        | some l => l.mapM a.omphase
    pure ⟨xN, vsN, opN⟩

/-- The profiles `Ebar`, `Ibar`, `rhobar`, `Abar`, `k1bar`, `k3bar`, `mubar` (specbeam.py:366-373). -/
structure Bars where
  E : PolyLine ℝ
  I : PolyLine ℝ
  rho : PolyLine ℝ
  A : PolyLine ℝ
  k1 : PolyLine ℝ
  k3 : PolyLine ℝ
  mu : PolyLine ℝ

/-- What the constructor leaves behind (specbeam.py:325-672). -/
structure SBeam where
  /-- `nterms` -/ n : ℕ
  /-- `L` -/ L : Option ℝ
  /-- `kf` -/ kf : ℝ
  /-- `mu_norm` -/ mu : ℝ
  /-- `k1_norm` -/ k1 : ℝ
  /-- `k3_norm` -/ k3 : ℝ
  /-- `moving_loads_norm` -/ veh : List Vehicle
  /-- the stationary loads -/ stat : Stationary
  /-- `xj`, `Ij` -/ quad : Rule
  /-- the profiles -/ bars : Bars
  /-- `implementation` -/ impl : Impl

/-- `__init__` (specbeam.py:325-672), except for `tvals_norm` and `xvals_norm` (given to the run). -/
noncomputable def SBeam.init (n : ℕ) (a : SArgs) (m : MArgs) (st : StArgs) (bars : Bars) (impl : Impl) :
    Except PyErr SBeam := do
  a.gate
  let kf ← a.kfOf
  let veh ← vehicles a m
  let stat ← stationary a st
  let mu ← a.muOf
  let k1 ← a.k1Of
  let k3 ← a.k3Of
  if a.bc = "SS" then do
    let quad ← mkRule .ss a.nquad
    pure ⟨n, a.L, kf, mu, k1, k3, veh, stat, quad, bars, impl⟩
  else .error .valueError

/-- `self.beta` (specbeam.py:627). -/
noncomputable def SBeam.beta (s : SBeam) : List ℝ := (List.range s.n).map fun k : ℕ => π * ((k : ℝ) + 1)

/-- `self.BC_coeff` (specbeam.py:633). -/
def sbCoeff : ℝ := 1

/-- `pdim1sin_DD_abDDf_linear`, integrals.py:6697-6765. -/
noncomputable def pDDabDDf (impl : Impl) (m : List ℝ) (a b : PolyLine ℝ) : Except PyErr (ℕ → ℕ → ℝ) := do
  match ← commonLines [a, b] with
  | [a, b] =>
    let s ← a.getSegs.1
    let r ← b.getSegs.1
    pure (dim1sinDDabDDf impl m s.y1 s.y2 r.y1 r.y2 s.x1 s.x2)
  | _ => .error .valueError

/-- `lam_qdotdot`, `psi_q`, `psi_qdot`, `k3barj` and the quadrature they go with
(specbeam.py:836-860). -/
structure SMats where
  lam : ℕ → ℕ → ℝ
  psiq : ℕ → ℕ → ℝ
  psiqd : ℕ → ℕ → ℝ
  /-- `nquad` -/ m : ℕ
  /-- `xj` -/ xj : Fin m → ℝ
  /-- `Ij` -/ Ij : Fin m → ℝ
  /-- `k3barj` -/ k3j : Fin m → ℝ

/-- `[f(j) for j in range(m)]` where every evaluation may fail (the array calls at specbeam.py:860). -/
def collect {m : ℕ} (f : Fin m → Except PyErr ℝ) : Except PyErr (Fin m → ℝ) := do
  let l ← (List.finRange m).mapM f
  pure fun j => l.getD j 0

/-- `time_independant_matrices` (specbeam.py:836-860).  `k3barj` is interpolated from `k1bar`, as in the
code.  Without `nquad` there is no `xj`: `AttributeError`.  With a single node (`0/0`) `xj` is `nan`: that
case is not modelled (an error here). -/
noncomputable def SBeam.matrices (s : SBeam) : Except PyErr SMats := do
  let lam ← pAbf s.impl s.beta s.bars.rho s.bars.A
  let d ← pDDabDDf s.impl s.beta s.bars.E s.bars.I
  let k ← pAf s.impl s.beta s.bars.k1
  let u ← pAf s.impl s.beta s.bars.mu
  match s.quad with
  | .absent => .error .attributeError
  | .nan => .error .other
  | .rule m xj Ij => do
    let k3j ← collect fun j => pinterpLeft s.bars.k1 (xj j)
    pure ⟨lam, fun i j => -s.kf ^ 2 * d i j - s.k1 * k i j, fun i j => -s.mu * u i j, m, xj, Ij, k3j⟩

/-- `l[j]` with `IndexError`. -/
def getE {α : Type} (l : List α) (j : ℕ) : Except PyErr α :=
  match l[j]? with
  | some x => .ok x
  | none => .error .indexError

/-- The moving loads on mode `b` at time `t` (specbeam.py:752-755). -/
noncomputable def SBeam.moving (s : SBeam) (b t : ℝ) : ℝ :=
  (s.veh.map fun c => ((c.pointLoads t).map fun q => sbCoeff * q.2 * phiSS q.1 b).sum).sum

/-- The stationary loads on mode `b` at time `t` (specbeam.py:757-767). -/
noncomputable def SBeam.still (s : SBeam) (b t : ℝ) : Except PyErr ℝ :=
  sumM (fun j : ℕ => do
    let x ← getE s.stat.x j
    let p ← getE s.stat.vs j
    let mag ← pinterpLeft p t
    let o ← getE s.stat.op j
    match o with
    | none => .ok (sbCoeff * mag * sin (x * b))
    | some o => .ok (sbCoeff * mag * sin (x * b) * cos (o.1 * t + o.2))) (List.range s.stat.x.length)

/-- The cubic term on mode `b` (specbeam.py:772-773, 782). -/
noncomputable def SMats.cubic (M : SMats) (n : ℕ) (bs : ℕ → ℝ) (q : ℕ → ℝ) (b : ℝ) : ℝ :=
  ∑ j, M.Ij j * (∑ k ∈ Finset.range n, q k * phiSS (M.xj j) (bs k)) ^ 3 * M.k3j j * phiSS (M.xj j) b

/-- `np.linalg.solve(A, r)` for an `n` by `n` matrix; `LinAlgError` when singular (specbeam.py:784). -/
noncomputable def solveN (n : ℕ) (A : ℕ → ℕ → ℝ) (r : ℕ → ℝ) : Except PyErr (ℕ → ℝ) :=
  open Classical in
  if (blk n A).det = 0 then .error .other
  else .ok fun i => if h : i < n then ((blk n A)⁻¹.mulVec fun j : Fin n => r j) ⟨i, h⟩ else 0

/-- Right hand side of mode `i` before the solve (specbeam.py:738-782). -/
noncomputable def SBeam.rhsR (s : SBeam) (M : SMats) (q qd : ℕ → ℝ) (t still : ℝ) (i : ℕ) : ℝ :=
  dotV s.n M.psiq q i + dotV s.n M.psiqd qd i + s.moving (s.beta.getD i 0) t + still
    - sbCoeff * s.k3 * M.cubic s.n (fun k => s.beta.getD k 0) q (s.beta.getD i 0)

/-- `vectorfield(vsv, tnow)` (specbeam.py:717-785): the velocities, then the accelerations. -/
noncomputable def SBeam.field (s : SBeam) (M : SMats) (y : ℕ → ℝ) (t : ℝ) : Except PyErr (ℕ → ℝ) := do
  let st ← (List.range s.n).mapM fun i => s.still (s.beta.getD i 0) t
  let acc ← solveN s.n M.lam fun i => s.rhsR M y (fun k => y (s.n + k)) t (st.getD i 0) i
  pure fun i => if i < s.n then y (s.n + i) else acc (i - s.n)

/-- A run of `calulate_qk` (specbeam.py:793-833) over the normalised times `T0 = t_norm[0]` to `T1`: an exact
solution of the vector field that starts from zeros at the first requested time. -/
structure SRun (s : SBeam) (M : SMats) (T0 T1 : ℝ) (y : ℝ → ℕ → ℝ) : Prop where
  /-- starts from zeros at the first time -/
  start : ∀ i < 2 * s.n, y T0 i = 0
  /-- continuous up to the ends -/
  cont : ∀ i < 2 * s.n, ContinuousOn (fun t => y t i) (Set.Icc T0 T1)
  /-- follows the vector field -/
  field : ∀ t ∈ Set.Ioo T0 T1, ∃ d, s.field M (y t) t = .ok d ∧
    ∀ i < 2 * s.n, HasDerivAt (fun r => y r i) (d i) t

/-- `wofx` (specbeam.py:862-905): the table is multiplied by `L` when `normalise_w` is false. -/
noncomputable def SBeam.wofx (s : SBeam) (qs : List (ℕ → ℝ)) (x xN : Option (List ℝ)) (normalise : Bool) :
    Except PyErr Table := do
  let xn ← match xN with
    | some l => .ok l
    | none => match x, s.L with
      | some l, some L => .ok (l.map (· / L))
      | _, _ => .error .typeError
  let v := xn.map fun xx => qs.map fun q => ∑ k ∈ Finset.range s.n, q k * phiSS xx (s.beta.getD k 0)
  let v ← match normalise with
    | true => Except.ok v
    | false => match s.L with
      | some L => .ok (v.map fun r => r.map (· * L))
      | none => .error .typeError
  match v with
  | [r] => .ok (.row r)
  | _ => .ok (.grid v)

end Geotecha.Beam
