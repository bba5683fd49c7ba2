import Verif.Speccon.ModelOut

/-!
# Model of geotecha/speccon/speccon1d_vr.py: spectral solution of vertical/radial consolidation

The attributes of a `Speccon1dVR` object after `check_input_attributes` (load lists are lists; that the lengths agree is
not assumed, `zip` truncates).  `np.linalg.eig`/`inv` are not modelled: `eigs`, `v` and `Igamv` are arguments, and the
theorems assume what those calls return (`EigenSystem` in PropsVR).
-/

set_option linter.unusedVariables false
open Real
namespace Geotecha.Speccon
open Geotecha.Spec Geotecha.Piecewise

/-- Input attributes, speccon1d_vr.py:484-505. -/
structure VR where
  H : ℝ
  mvref : ℝ
  drn : ℤ
  dT : ℝ
  neig : ℕ
  dTv : Option ℝ
  dTh : Option ℝ
  mv : PolyLine ℝ
  kv : Option (PolyLine ℝ)
  kh : Option (PolyLine ℝ)
  et : Option (PolyLine ℝ)
  surchargeDepth : Option (List (PolyLine ℝ))
  surchargeTime : Option (List (PolyLine ℝ))
  surchargeOm : Option (List Om)
  vacuumDepth : Option (List (PolyLine ℝ))
  vacuumTime : Option (List (PolyLine ℝ))
  vacuumOm : Option (List Om)
  top : Option (List (PolyLine ℝ))
  topOm : Option (List Om)
  bot : Option (List (PolyLine ℝ))
  botOm : Option (List Om)
  fixedPpress : Option (List (ℝ × ℝ × Option (PolyLine ℝ)))
  fixedOm : Option (List Om)
  pumping : Option (List (ℝ × PolyLine ℝ))
  pumpingOm : Option (List Om)
  impl : Impl

/-- `_make_m`, speccon1d_vr.py:712-729 (`neig` and `drn` have defaults and are not `None`). -/
noncomputable def VR.m (x : VR) : Except PyErr (List ℝ) := (List.range x.neig).mapM (fun i => mFromSinMx i x.drn)

open Classical in
/-- `a[np.abs(a) < 1e-8] = 0.0`, speccon1d_vr.py:749, 787. -/
noncomputable def chop (a : ℕ → ℕ → ℝ) (i j : ℕ) : ℝ := if |a i j| < 1 / 100000000 then 0 else a i j

/-- `_make_gam`, speccon1d_vr.py:731-750. -/
noncomputable def VR.gam (x : VR) (m : List ℝ) : Except PyErr (ℕ → ℕ → ℝ) := do
  let g ← pAf x.impl m x.mv
  pure (chop g)

/-- The `kv` part of `_make_psi`, speccon1d_vr.py:769-772. -/
noncomputable def VR.psiV (x : VR) (m : List ℝ) : Except PyErr (ℕ → ℕ → ℝ) :=
  match x.kv, x.dTv with
  | some kv, some dTv => do
    let a ← pDaDf x.impl m kv
    pure (fun i j => -(dTv / x.dT * a i j))
  | _, _ => pure (fun _ _ => 0)

/-- The `kh` and `et` part of `_make_psi`, speccon1d_vr.py:774-778 (the PolyLines made by line 775 are not used). -/
noncomputable def VR.psiH (x : VR) (m : List ℝ) : Except PyErr (ℕ → ℕ → ℝ) :=
  match x.kh, x.et, x.dTh with
  | some kh, some et, some dTh => do
    let _ ← commonLines [kh, et]
    let a ← pAbf x.impl m kh et
    pure (fun i j => dTh / x.dT * a i j)
  | _, _, _ => pure (fun _ _ => 0)

/-- The fixed pore pressure part of `_make_psi`, speccon1d_vr.py:780-784. -/
noncomputable def VR.psiF (x : VR) (m : List ℝ) (i j : ℕ) : ℝ :=
  match x.fixedPpress with
  | none => 0
  | some l => (l.map (fun q => q.2.1 / x.dT * sin (m.getD i 0 * q.1) * sin (m.getD j 0 * q.1))).sum

/-- `_make_psi`, speccon1d_vr.py:752-788. -/
noncomputable def VR.psi (x : VR) (m : List ℝ) : Except PyErr (ℕ → ℕ → ℝ) := do
  let a ← x.psiV m
  let b ← x.psiH m
  pure (chop (fun i j => a i j + b i j + x.psiF m i j))

/-- `vs_time * c` or `vs_time / c` with a number `c`, piecewise_linear_1d.py:2413-2443. -/
noncomputable def scaled (f : ℝ → ℝ) (p : PolyLine ℝ) : Except PyErr (PolyLine ℝ) :=
  match (p.mapY f).1 with
  | .line q => .ok q
  | .err e => .error e
  | _ => .error .other

/-- `_normalised_bot_vs_time`, speccon1d_vr.py:1033-1053. -/
noncomputable def VR.normBot (x : VR) : Except PyErr (Option (List (PolyLine ℝ))) :=
  match x.bot with
  | none => pure none
  | some l => if x.drn = 1 then do
      let l ← l.mapM (scaled (fun v => v * x.H))
      pure (some l)
    else pure (some l)

/-- The boundary loads handed to the functions of speccon1d.py. -/
def VR.boundary (x : VR) (bot : Option (List (PolyLine ℝ))) : Boundary := ⟨x.drn, x.top, bot, x.topOm, x.botOm⟩

/-- `_make_E_Igamv_the_surcharge` with the test of `make_E_Igamv_the`, speccon1d_vr.py:841-844, 859-891. -/
noncomputable def VR.eSurcharge (x : VR) (B : Basis) (i : ℕ) (t : ℝ) : Except PyErr ℝ :=
  aDmagDt B x.mv x.surchargeDepth x.surchargeTime x.surchargeOm i t

open Classical in
/-- `_make_E_Igamv_the_vacuum` with the tests of `make_E_Igamv_the`, speccon1d_vr.py:845-850, 894-926. -/
noncomputable def VR.eVacuum (x : VR) (B : Basis) (i : ℕ) (t : ℝ) : Except PyErr ℝ :=
  match x.et, x.kh, x.dTh with
  | some et, some kh, some dTh => if dTh ≠ 0 then do
      let e ← abmag B kh et x.vacuumDepth x.vacuumTime x.vacuumOm i t
      pure (dTh * e)
    else pure 0
  | _, _, _ => pure 0

open Classical in
/-- The radial part of `_make_E_Igamv_the_BC`, speccon1d_vr.py:1075-1086. -/
noncomputable def VR.eBCH (x : VR) (B : Basis) (b : Boundary) (i : ℕ) (t : ℝ) : Except PyErr ℝ :=
  match x.et, x.kh, x.dTh with
  | some et, some kh, some dTh => if dTh ≠ 0 then do
      let e ← bcAbf B b (some kh) (some et) i t
      pure (dTh * e)
    else pure 0
  | _, _, _ => pure 0

open Classical in
/-- The vertical part of `_make_E_Igamv_the_BC`, speccon1d_vr.py:1088-1098. -/
noncomputable def VR.eBCV (x : VR) (B : Basis) (b : Boundary) (i : ℕ) (t : ℝ) : Except PyErr ℝ :=
  match x.kv, x.dTv with
  | some kv, some dTv => if dTv ≠ 0 then do
      let e ← bcDaDf B b (some kv) i t
      pure (dTv * e)
    else pure 0
  | _, _ => pure 0

/-- The fixed pore pressure part of `_make_E_Igamv_the_BC`, speccon1d_vr.py:1100-1109. -/
noncomputable def VR.eBCF (x : VR) (B : Basis) (b : Boundary) (i : ℕ) (t : ℝ) : Except PyErr ℝ :=
  match x.fixedPpress with
  | none => pure 0
  | some l => bcDeltaf B b (l.map (fun q => (q.1, q.2.1))) i t

/-- `_make_E_Igamv_the_BC` with the test of `make_E_Igamv_the`, speccon1d_vr.py:851-853, 1055-1109. -/
noncomputable def VR.eBC (x : VR) (B : Basis) (i : ℕ) (t : ℝ) : Except PyErr ℝ :=
  if x.top.isNone ∧ x.bot.isNone then pure 0
  else do
    let bot ← x.normBot
    let b := x.boundary bot
    let p ← bcADfDt B b (some x.mv) i t
    let q ← x.eBCH B b i t
    let r ← x.eBCV B b i t
    let u ← x.eBCF B b i t
    pure (0 - p - q + r - u)

/-- `_make_E_Igamv_the_fixed_ppress`, speccon1d_vr.py:854-856, 928-982. -/
noncomputable def VR.eFixed (x : VR) (B : Basis) (i : ℕ) (t : ℝ) : Except PyErr ℝ :=
  match x.fixedPpress with
  | none => pure 0
  | some l => deltamag B l x.fixedOm i t

/-- `_make_E_Igamv_the_pumping`, speccon1d_vr.py:857-859, 984-1031. -/
noncomputable def VR.ePumping (x : VR) (B : Basis) (i : ℕ) (t : ℝ) : Except PyErr ℝ :=
  match x.pumping with
  | none => pure 0
  | some l => do
    let mags ← l.mapM (fun q => scaled (fun v => v / (x.mvref * x.H)) q.2)
    deltamag B ((l.zip mags).map (fun q => (q.1.1, 1, some q.2))) x.pumpingOm i t

/-- `make_E_Igamv_the`, speccon1d_vr.py:819-857: entry `(i, t)`. -/
noncomputable def VR.E (x : VR) (B : Basis) (i : ℕ) (t : ℝ) : Except PyErr ℝ := do
  let a ← x.eSurcharge B i t
  let b ← x.eVacuum B i t
  let c ← x.eBC B i t
  let d ← x.eFixed B i t
  let e ← x.ePumping B i t
  pure (a + b + c + d + e)

/-- `np.dot(self.v, self.E_Igamv_the)`, speccon1d_vr.py:653: the column for time `t`. -/
noncomputable def VR.vE (x : VR) (B : Basis) (v : ℕ → ℕ → ℝ) (t : ℝ) : Except PyErr (ℕ → ℝ) := do
  let E ← (List.range B.m.length).mapM (fun i => x.E B i t)
  pure (fun j => dotV B.m.length v (fun i => E.getD i 0) j)

/-- The arguments common to all load functions. -/
def VR.basis (x : VR) (m : List ℝ) (eigs : ℕ → ℝ) (Igamv : ℕ → ℕ → ℝ) : Basis := ⟨m, eigs, Igamv, x.dT, x.impl⟩

/-- `_make_por`, speccon1d_vr.py:1110-1132, for one depth and time. -/
noncomputable def VR.por (x : VR) (m : List ℝ) (eigs : ℕ → ℝ) (v Igamv : ℕ → ℕ → ℝ) (z t : ℝ) : Except PyErr ℝ := do
  let vE ← x.vE (x.basis m eigs Igamv) v t
  let bot ← x.normBot
  dim1sinF m z t vE (x.boundary bot)

/-- `_make_avp`, speccon1d_vr.py:1134-1155, for one pair of depths and one time. -/
noncomputable def VR.avp (x : VR) (m : List ℝ) (eigs : ℕ → ℝ) (v Igamv : ℕ → ℕ → ℝ) (z1 z2 t : ℝ) : Except PyErr ℝ := do
  let vE ← x.vE (x.basis m eigs Igamv) v t
  let bot ← x.normBot
  dim1sinAvgF m z1 z2 t vE (x.boundary bot)

/-- `pxa_ya_cos_multiply_integrate_x1b_x2b_y1b_y2b_multiply_x1c_x2c_y1c_y2c_between_super(a, b, c, t, z1, z2,
omega_phase, achoose_max=True)` with lists `a`, `b`, piecewise_linear_1d.py:2011-2090: one entry. -/
noncomputable def superIntegrate (a b : List (PolyLine ℝ)) (c : PolyLine ℝ) (t z1 z2 : ℝ) (om : Option (List Om)) :
    Except PyErr ℝ :=
  if a.length ≠ b.length then .error .valueError
  else if a.length ≠ (omList a om).length then .error .valueError
  else sumM (fun q : PolyLine ℝ × PolyLine ℝ × Om => do
    let v ← pintegrateMul q.1 q.2.1 c t z1 z2
    pure (v * mult q.2.2 t)) (a.zip (b.zip (omList a om)))

/-- The surcharge part of `_make_set`, speccon1d_vr.py:1188-1203. -/
noncomputable def VR.settleLoad (x : VR) (z1 z2 t : ℝ) : Except PyErr ℝ :=
  match x.surchargeTime, x.surchargeDepth with
  | some a, some b => superIntegrate a b x.mv t z1 z2 x.surchargeOm
  | some _, none => .error .attributeError
  | none, _ => pure 0

/-- `_make_set`, speccon1d_vr.py:1157-1207, for one pair of depths and one time (`surcharge_vs_depth` is `None` together
with `surcharge_vs_time`, line 547). -/
noncomputable def VR.settle (x : VR) (m : List ℝ) (eigs : ℕ → ℝ) (v Igamv : ℕ → ℕ → ℝ) (z1 z2 t : ℝ) : Except PyErr ℝ := do
  let vE ← x.vE (x.basis m eigs Igamv) v t
  let bot ← x.normBot
  let w ← dim1sinIntegrateAf m z1 z2 t vE (x.boundary bot) x.mv
  let l ← x.settleLoad z1 z2 t
  pure ((-w + l) * (x.H * x.mvref))

end Geotecha.Speccon
