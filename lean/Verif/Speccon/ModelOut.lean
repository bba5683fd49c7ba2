import Verif.Speccon.History
import Verif.Piecewise.CommonSegs
import Verif.Piecewise.ModelProd

/-!
# Model of geotecha/speccon/speccon1d.py: load matrices and outputs of the sine series solution

Every matrix is modelled entry by entry: one time `t`, one eigenvalue index `i` (or depth).  A Python exception raised
by one entry is raised by the call; an entry of a matrix is `.ok` exactly if nothing raises.  `theta_zero_indexes` is
always its default `None` here.  Reading `a.x1`, `a.x` ... of the same `PolyLine` twice gives the same arrays, so the
caching inside the object is not threaded through.
-/

set_option linter.unusedVariables false
open Real
namespace Geotecha.Speccon
open Geotecha.Spec Geotecha.Piecewise

/-- `(omega, phase)` or `None`. -/
abbrev Om := Option (ℝ × ℝ)

/-- `if omega_phase is None: omega_phase = [None] * len(mag_vs_time)`, e.g. speccon1d.py:155-156. -/
def omList {α : Type} (l : List α) : Option (List Om) → List Om
  | none => List.replicate l.length none
  | some o => o

/-- A loop `for q in l: out += f(q)` starting from zero. -/
def sumM {α : Type} (f : α → Except PyErr ℝ) : List α → Except PyErr ℝ
  | [] => .ok 0
  | a :: l => do
    let x ← f a
    let r ← sumM f l
    pure (x + r)

/-- `np.dot(A, theta)[i]` with `n` columns. -/
noncomputable def dotV (n : ℕ) (A : ℕ → ℕ → ℝ) (th : ℕ → ℝ) (i : ℕ) : ℝ := ∑ j ∈ Finset.range n, A i j * th j

/-! ## PolyLine wrappers of the depth integrals -/

/-- `pdim1sin_af_linear`, integrals.py:66-124. -/
noncomputable def pAf (impl : Impl) (m : List ℝ) (a : PolyLine ℝ) : Except PyErr (ℕ → ℕ → ℝ) := do
  let s ← a.getSegs.1
  pure (dim1sinAf impl m s.y1 s.y2 s.x1 s.x2)

/-- `pdim1sin_D_aDf_linear`, integrals.py:184-249. -/
noncomputable def pDaDf (impl : Impl) (m : List ℝ) (a : PolyLine ℝ) : Except PyErr (ℕ → ℕ → ℝ) := do
  let s ← a.getSegs.1
  pure (dim1sinDaDf impl m s.y1 s.y2 s.x1 s.x2)

/-- `pdim1sin_abf_linear`, integrals.py:127-181. -/
noncomputable def pAbf (impl : Impl) (m : List ℝ) (a b : PolyLine ℝ) : Except PyErr (ℕ → ℕ → ℝ) := do
  match ← commonLines [a, b] with
  | [a, b] =>
    let s ← a.getSegs.1
    let r ← b.getSegs.1
    pure (dim1sinAbf impl m s.y1 s.y2 r.y1 r.y2 s.x1 s.x2)
  | _ => .error .valueError

/-- `pdim1sin_ab_linear`, integrals.py:252-308 (called without `implementation`: vectorized). -/
noncomputable def pAb (m : List ℝ) (a b : PolyLine ℝ) : Except PyErr (ℕ → ℝ) := do
  match ← commonLines [a, b] with
  | [a, b] =>
    let s ← a.getSegs.1
    let r ← b.getSegs.1
    pure (dim1sinAb .vectorized m s.y1 s.y2 r.y1 r.y2 s.x1 s.x2)
  | _ => .error .valueError

/-- `pdim1sin_abc_linear`, integrals.py:311-369 (vectorized). -/
noncomputable def pAbc (m : List ℝ) (a b c : PolyLine ℝ) : Except PyErr (ℕ → ℝ) := do
  match ← commonLines [a, b, c] with
  | [a, b, c] =>
    let s ← a.getSegs.1
    let r ← b.getSegs.1
    let q ← c.getSegs.1
    pure (dim1sinAbc .vectorized m s.y1 s.y2 r.y1 r.y2 q.y1 q.y2 s.x1 s.x2)
  | _ => .error .valueError

/-- `pdim1sin_D_aDb_linear`, integrals.py:372-461 (vectorized). -/
noncomputable def pDaDb (m : List ℝ) (a b : PolyLine ℝ) : Except PyErr (ℕ → ℝ) := do
  match ← commonLines [a, b] with
  | [a, b] =>
    let s ← a.getSegs.1
    let r ← b.getSegs.1
    pure (dim1sinDaDb .vectorized m s.y1 s.y2 r.y1 r.y2 s.x1 s.x2)
  | _ => .error .valueError

/-! ## Load matrices -/

/-- What all the load functions are given: `m`, `eigs`, `Igamv`, `dT`, `implementation`. -/
structure Basis where
  m : List ℝ
  eigs : ℕ → ℝ
  Igamv : ℕ → ℕ → ℝ
  dT : ℝ
  impl : Impl

/-- The entry `(i, t)` of `(E*np.dot(Igamv, theta)).T`, e.g. speccon1d.py:611. -/
noncomputable def Basis.entry (B : Basis) (E : ℝ) (th : ℕ → ℝ) (i : ℕ) : ℝ := E * dotV B.m.length B.Igamv th i

/-- Distribution with depth of the top boundary value: `PolyLine(a.x1, a.x2, 1, 1)` if `drn == 1`, else
`PolyLine(a.x1, a.x2, a.x2[-1]-a.x1, a.x2[-1]-a.x2)`; speccon1d.py:589-593 and the same lines of the other functions. -/
noncomputable def zdistTop (drn : ℤ) (a : PolyLine ℝ) : Except PyErr (PolyLine ℝ) := do
  let s ← a.getSegs.1
  if drn = 1 then PolyLine.ofSegs ⟨s.x1, s.x2, s.x1.map (fun _ => 1), s.x2.map (fun _ => 1)⟩
  else match s.x2.getLast? with
    | none => .error .indexError
    | some e => PolyLine.ofSegs ⟨s.x1, s.x2, s.x1.map (fun x => e - x), s.x2.map (fun x => e - x)⟩

/-- `PolyLine(a.x1,a.x2,a.x1,a.x2)`, e.g. speccon1d.py:618. -/
noncomputable def zdistBot (a : PolyLine ℝ) : Except PyErr (PolyLine ℝ) := do
  let s ← a.getSegs.1
  PolyLine.ofSegs ⟨s.x1, s.x2, s.x1, s.x2⟩

/-- The loop over the boundary loads with a given theta, e.g. speccon1d.py:597-611 and 614-628. -/
noncomputable def bcLoop (B : Basis) (E : Impl → PolyLine ℝ → Om → ℝ → ℝ → ℝ → Except PyErr ℝ) (theta : Except PyErr (ℕ → ℝ))
    (vs_time : Option (List (PolyLine ℝ))) (om : Option (List Om)) (i : ℕ) (t : ℝ) : Except PyErr ℝ :=
  match vs_time with
  | none => .ok 0
  | some l => do
    let th ← theta
    sumM (fun q : PolyLine ℝ × Om => do
      let e ← E B.impl q.1 q.2 B.dT (B.eigs i) t
      pure (B.entry e th i)) (l.zip (omList l om))

/-- The boundary loads: `top_vs_time`, `bot_vs_time`, `top_omega_phase`, `bot_omega_phase`. -/
structure Boundary where
  drn : ℤ
  top : Option (List (PolyLine ℝ))
  bot : Option (List (PolyLine ℝ))
  topOm : Option (List Om)
  botOm : Option (List Om)

/-- `dim1sin_E_Igamv_the_BC_aDfDt_linear`, speccon1d.py:419-634. -/
noncomputable def bcADfDt (B : Basis) (b : Boundary) (a : Option (PolyLine ℝ)) (i : ℕ) (t : ℝ) : Except PyErr ℝ :=
  match a with
  | none => .ok 0
  | some a => do
    let zd ← zdistTop b.drn a
    let x ← bcLoop B pEDload (pAb B.m a zd) b.top b.topOm i t
    let y ← bcLoop B pEDload (do pAb B.m a (← zdistBot a)) b.bot b.botOm i t
    pure (x + y)

/-- `dim1sin_E_Igamv_the_BC_abf_linear`, speccon1d.py:637-853. -/
noncomputable def bcAbf (B : Basis) (b : Boundary) (a c : Option (PolyLine ℝ)) (i : ℕ) (t : ℝ) : Except PyErr ℝ :=
  match a, c with
  | some a, some c => do
    match ← commonLines [a, c] with
    | [a, c] =>
      let zd ← zdistTop b.drn a
      let x ← bcLoop B pEload (pAbc B.m a c zd) b.top b.topOm i t
      let y ← bcLoop B pEload (do pAbc B.m a c (← zdistBot a)) b.bot b.botOm i t
      pure (x + y)
    | _ => .error .valueError
  | _, _ => .ok 0

/-- `dim1sin_E_Igamv_the_BC_abDfDt_linear`, speccon1d.py:856-1072. -/
noncomputable def bcAbDfDt (B : Basis) (b : Boundary) (a c : Option (PolyLine ℝ)) (i : ℕ) (t : ℝ) : Except PyErr ℝ :=
  match a, c with
  | some a, some c => do
    match ← commonLines [a, c] with
    | [a, c] =>
      let zd ← zdistTop b.drn a
      let x ← bcLoop B pEDload (pAbc B.m a c zd) b.top b.topOm i t
      let y ← bcLoop B pEDload (do pAbc B.m a c (← zdistBot a)) b.bot b.botOm i t
      pure (x + y)
    | _ => .error .valueError
  | _, _ => .ok 0

/-- `dim1sin_E_Igamv_the_BC_D_aDf_linear`, speccon1d.py:1075-1293. -/
noncomputable def bcDaDf (B : Basis) (b : Boundary) (a : Option (PolyLine ℝ)) (i : ℕ) (t : ℝ) : Except PyErr ℝ :=
  match a with
  | none => .ok 0
  | some a => do
    let zd ← zdistTop b.drn a
    let x ← bcLoop B pEload (pDaDb B.m a zd) b.top b.topOm i t
    let y ← bcLoop B pEload (do pDaDb B.m a (← zdistBot a)) b.bot b.botOm i t
    pure (x + y)

/-- `dim1sin_E_Igamv_the_BC_deltaf_linear`, speccon1d.py:1296-1507: the loop over the loads and, inside it, over the
points `(z, pseudo_k)`.  Line 1469 replaces the earlier `zdist` by `1 - zvals * (1 - drn)`. -/
noncomputable def bcDeltaf (B : Basis) (b : Boundary) (pts : List (ℝ × ℝ)) (i : ℕ) (t : ℝ) : Except PyErr ℝ := do
  let loop (zd : ℝ → ℝ) (vs_time : Option (List (PolyLine ℝ))) (om : Option (List Om)) : Except PyErr ℝ :=
    match vs_time with
    | none => .ok 0
    | some l => sumM (fun q : PolyLine ℝ × Om => do
        let e ← pEload B.impl q.1 q.2 B.dT (B.eigs i) t
        pure ((pts.map (fun zk => B.entry e (fun j => zk.2 * sin (zk.1 * B.m.getD j 0) * zd zk.1) i)).sum)) (l.zip (omList l om))
  let x ← loop (fun z => 1 - z * (1 - b.drn)) b.top b.topOm
  let y ← loop (fun z => z) b.bot b.botOm
  pure (x + y)

/-- `dim1sin_E_Igamv_the_deltamag_linear`, speccon1d.py:1510-1653; `loads` is `zip(zvals, pseudo_k, mag_vs_time)`. -/
noncomputable def deltamag (B : Basis) (loads : List (ℝ × ℝ × Option (PolyLine ℝ))) (om : Option (List Om)) (i : ℕ) (t : ℝ) :
    Except PyErr ℝ :=
  sumM (fun q : (ℝ × ℝ × Option (PolyLine ℝ)) × Om =>
    match q.1.2.2 with
    | none => .ok 0
    | some p => do
      let e ← pEload B.impl p q.2 B.dT (B.eigs i) t
      pure (B.entry e (fun j => q.1.2.1 * sin (q.1.1 * B.m.getD j 0)) i)) (loads.zip (omList loads om))

/-- The loop of `dim1sin_E_Igamv_the_aDmagDt_bilinear`, speccon1d.py:1796-1818: the re-gridded `a` of one pass is the
`a` of the next. -/
noncomputable def aDmagDtLoop (B : Basis) (a : PolyLine ℝ) (i : ℕ) (t : ℝ) : List (PolyLine ℝ × PolyLine ℝ × Om) → Except PyErr ℝ
  | [] => .ok 0
  | (mt, mz, om) :: r => do
    match ← commonLines [a, mz] with
    | [a, mz] =>
      let th ← pAb B.m a mz
      let e ← pEDload B.impl mt om B.dT (B.eigs i) t
      let rest ← aDmagDtLoop B a i t r
      pure (B.entry e th i + rest)
    | _ => .error .valueError

/-- `dim1sin_E_Igamv_the_aDmagDt_bilinear`, speccon1d.py:1656-1820. -/
noncomputable def aDmagDt (B : Basis) (a : PolyLine ℝ) (depth time : Option (List (PolyLine ℝ))) (om : Option (List Om)) (i : ℕ)
    (t : ℝ) : Except PyErr ℝ :=
  match depth, time with
  | some d, some l => aDmagDtLoop B a i t (l.zip (d.zip (omList l om)))
  | _, _ => .ok 0

/-- The loop of `dim1sin_E_Igamv_the_abmag_bilinear`, speccon1d.py:1923-1942. -/
noncomputable def abmagLoop (B : Basis) (a b : PolyLine ℝ) (i : ℕ) (t : ℝ) : List (PolyLine ℝ × PolyLine ℝ × Om) → Except PyErr ℝ
  | [] => .ok 0
  | (mt, mz, om) :: r => do
    match ← commonLines [a, b, mz] with
    | [a, b, mz] =>
      let th ← pAbc B.m a b mz
      let e ← pEload B.impl mt om B.dT (B.eigs i) t
      let rest ← abmagLoop B a b i t r
      pure (B.entry e th i + rest)
    | _ => .error .valueError

/-- `dim1sin_E_Igamv_the_abmag_bilinear`, speccon1d.py:1823-1944. -/
noncomputable def abmag (B : Basis) (a b : PolyLine ℝ) (depth time : Option (List (PolyLine ℝ))) (om : Option (List Om)) (i : ℕ)
    (t : ℝ) : Except PyErr ℝ :=
  match depth, time with
  | some d, some l => abmagLoop B a b i t (l.zip (d.zip (omList l om)))
  | _, _ => .ok 0

/-! ## Outputs -/

/-- `pinterp_xa_ya_multipy_x1b_x2b_y1b_y2b(mag_vs_time, PolyLine([0], [1], [y1], [y2]), t, z, achoose_max=True)`,
piecewise_linear_1d.py:1209-1294. -/
noncomputable def pinterpMul (p : PolyLine ℝ) (y1 y2 t z : ℝ) : Except PyErr ℝ := do
  let x ← p.getX.1
  let y ← p.getY.1
  interpProd x y ⟨[0], [1], [y1], [y2]⟩ t z true false

/-- `pxa_ya_multipy_avg_x1b_x2b_y1b_y2b_between(mag_vs_time, PolyLine([0], [1], [y1], [y2]), t, z1, z2,
achoose_max=True)`, piecewise_linear_1d.py:1565-1651. -/
noncomputable def pavgMul (p : PolyLine ℝ) (y1 y2 t z1 z2 : ℝ) : Except PyErr ℝ := do
  let x ← p.getX.1
  let y ← p.getY.1
  let v ← interpXY x y t true
  let a ← avgSegs ⟨[0], [1], [y1], [y2]⟩ z1 z2
  pure (a * v)

/-- `pxa_ya_multiply_integrate_x1b_x2b_y1b_y2b_multiply_x1c_x2c_y1c_y2c_between(p, b, c, t, z1, z2, achoose_max=True)`,
piecewise_linear_1d.py:1869-1969. -/
noncomputable def pintegrateMul (p b c : PolyLine ℝ) (t z1 z2 : ℝ) : Except PyErr ℝ := do
  match ← commonLines [b, c] with
  | [b, c] =>
    let x ← p.getX.1
    let y ← p.getY.1
    let sb ← b.getSegs.1
    let sc ← c.getSegs.1
    xaYaIntegrateProd x y sb sc t z1 z2 true
  | _ => .error .valueError

/-- Loop over the boundary loads of an output function: `out += f(mag_vs_time) * mult`, e.g. speccon1d.py:153-166. -/
noncomputable def outLoop (f : PolyLine ℝ → Except PyErr ℝ) (vs_time : Option (List (PolyLine ℝ))) (om : Option (List Om))
    (t : ℝ) : Except PyErr ℝ :=
  match vs_time with
  | none => .ok 0
  | some l => sumM (fun q : PolyLine ℝ × Om => do
      let v ← f q.1
      pure (v * mult q.2 t)) (l.zip (omList l om))

/-- `dim1sin_f`, speccon1d.py:91-183, entry for depth `z` and time `t`; `vE` is the column of `v_E_Igamv_the` at `t`. -/
noncomputable def dim1sinF (m : List ℝ) (z t : ℝ) (vE : ℕ → ℝ) (b : Boundary) : Except PyErr ℝ := do
  let x ← outLoop (fun p => if b.drn = 1 then pinterp p t else pinterpMul p 1 0 t z) b.top b.topOm t
  let y ← outLoop (fun p => pinterpMul p 0 1 t z) b.bot b.botOm t
  pure ((∑ j ∈ Finset.range m.length, dim1sin m [z] 0 j * vE j) + x + y)

/-- `dim1sin_avgf`, speccon1d.py:186-295, entry for the depths `z1`, `z2` and time `t`. -/
noncomputable def dim1sinAvgF (m : List ℝ) (z1 z2 t : ℝ) (vE : ℕ → ℝ) (b : Boundary) : Except PyErr ℝ := do
  let x ← outLoop (fun p => if b.drn = 1 then pinterp p t else pavgMul p 1 0 t z1 z2) b.top b.topOm t
  let y ← outLoop (fun p => pavgMul p 0 1 t z1 z2) b.bot b.botOm t
  pure ((∑ j ∈ Finset.range m.length, dim1sinAvgBetween m [(z1, z2)] 0 j * vE j) + x + y)

/-- `dim1sin_integrate_af`, speccon1d.py:298-416, entry for the depths `z1`, `z2` and time `t`. -/
noncomputable def dim1sinIntegrateAf (m : List ℝ) (z1 z2 t : ℝ) (vE : ℕ → ℝ) (b : Boundary) (a : PolyLine ℝ) : Except PyErr ℝ := do
  let s ← a.getSegs.1
  let one (f : ℝ → ℝ) (p : PolyLine ℝ) : Except PyErr ℝ := do
    let c ← PolyLine.ofSegs ⟨s.x1, s.x2, s.x1.map f, s.x2.map f⟩
    pintegrateMul p a c t z1 z2
  let x ← outLoop (fun p => if b.drn = 1 then one (fun _ => 1) p else one (fun x => 1 - x) p) b.top b.topOm t
  let y ← outLoop (one (fun x => x)) b.bot b.botOm t
  pure ((∑ j ∈ Finset.range m.length, dim1sinALinearBetween m s.y1 s.y2 s.x1 s.x2 [(z1, z2)] 0 j * vE j) + x + y)

end Geotecha.Speccon
