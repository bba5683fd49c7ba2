import Verif.Speccon.ModelVR

/-!
# Model of geotecha/speccon/speccon1d_vrw.py: vertical/radial consolidation with well resistance

The class has the attributes of `Speccon1dVR` except the vacuum, plus `kw` and `dTw`.  `base` holds the shared ones (its vacuum
fields are not read here).  `check_input_attributes` requires `dTw` and with it `kw` (speccon1d_vrw.py:565-588).  `np.linalg` is
not modelled: `Ipsi_w`, `eigs`, `v`, `Igamv` are arguments.  `_make_m` (speccon1d_vrw.py:733-750), `_make_gam` (752-778),
`_make_E_Igamv_the_surcharge` (899-935), `_make_E_Igamv_the_fixed_ppress` (937-957), `_make_E_Igamv_the_pumping` (959-982) and
`_normalised_bot_vs_time` (984-1004) have, but for line breaks, the text of those of speccon1d_vr.py, whose model is used.
-/

set_option linter.unusedVariables false
open Real
namespace Geotecha.Speccon
open Geotecha.Spec Geotecha.Piecewise

/-- Input attributes, speccon1d_vrw.py:513-528. -/
structure VRW where
  base : VR
  dTw : ℝ
  kw : PolyLine ℝ

/-- `self.psi_s`, speccon1d_vrw.py:817-823.  It is only created if `kh`, `et`, `dTh` are given; `_make_psi_w` reads it in
any case. -/
noncomputable def VRW.psiS (x : VRW) (m : List ℝ) : Except PyErr (ℕ → ℕ → ℝ) :=
  match x.base.kh, x.base.et, x.base.dTh with
  | some _, some _, some _ => x.base.psiH m
  | _, _, _ => .error .attributeError

/-- `_make_psi_w`, speccon1d_vrw.py:780-792. -/
noncomputable def VRW.psiW (x : VRW) (m : List ℝ) : Except PyErr (ℕ → ℕ → ℝ) := do
  let a ← pDaDf x.base.impl m x.kw
  let s ← x.psiS m
  pure (fun i j => -(x.dTw / x.base.dT * a i j) + s i j)

/-- `np.dot(self.psi_s, self.Ipsi_w)`, speccon1d_vrw.py:852. -/
noncomputable def matMul (n : ℕ) (a b : ℕ → ℕ → ℝ) (i j : ℕ) : ℝ := ∑ k ∈ Finset.range n, a i k * b k j

/-- `_make_psi` (speccon1d_vrw.py:794-832) and the correction and clean-up in `_make_eigs_and_v` (853-854). -/
noncomputable def VRW.psi (x : VRW) (m : List ℝ) (IpsiW : ℕ → ℕ → ℝ) : Except PyErr (ℕ → ℕ → ℝ) := do
  let a ← x.base.psiV m
  let s ← x.psiS m
  pure (chop (fun i j => a i j + s i j + x.base.psiF m i j - matMul m.length (matMul m.length s IpsiW) s i j))

open Classical in
/-- The well resistance part of `_make_E_Igamv_the_BC`, speccon1d_vrw.py:1046-1057. -/
noncomputable def VRW.eBCW (x : VRW) (B : Basis) (psS IpsiW : ℕ → ℕ → ℝ) (b : Boundary) (i : ℕ) (t : ℝ) : Except PyErr ℝ :=
  if x.dTw ≠ 0 then do
    let e ← bcDaDf { B with Igamv := matMul B.m.length B.Igamv (matMul B.m.length psS IpsiW) } b (some x.kw) i t
    pure (x.dTw * e)
  else pure 0

/-- `_make_E_Igamv_the_BC` with the test of `make_E_Igamv_the`, speccon1d_vrw.py:884-886, 1006-1057. -/
noncomputable def VRW.eBC (x : VRW) (B : Basis) (psS IpsiW : ℕ → ℕ → ℝ) (i : ℕ) (t : ℝ) : Except PyErr ℝ :=
  if x.base.top.isNone ∧ x.base.bot.isNone then pure 0
  else do
    let bot ← x.base.normBot
    let b := x.base.boundary bot
    let p ← bcADfDt B b (some x.base.mv) i t
    let r ← x.base.eBCV B b i t
    let u ← x.base.eBCF B b i t
    let w ← x.eBCW B psS IpsiW b i t
    pure (0 - p + r - u + w)

/-- `make_E_Igamv_the`, speccon1d_vrw.py:863-895: entry `(i, t)`. -/
noncomputable def VRW.E (x : VRW) (B : Basis) (psS IpsiW : ℕ → ℕ → ℝ) (i : ℕ) (t : ℝ) : Except PyErr ℝ := do
  let a ← x.base.eSurcharge B i t
  let c ← x.eBC B psS IpsiW i t
  let d ← x.base.eFixed B i t
  let e ← x.base.ePumping B i t
  pure (a + c + d + e)

/-- `np.dot(self.v, self.E_Igamv_the)`, speccon1d_vrw.py:665: the column for time `t`. -/
noncomputable def VRW.vE (x : VRW) (B : Basis) (psS IpsiW v : ℕ → ℕ → ℝ) (t : ℝ) : Except PyErr (ℕ → ℝ) := do
  let E ← (List.range B.m.length).mapM (fun i => x.E B psS IpsiW i t)
  pure (fun j => dotV B.m.length v (fun i => E.getD i 0) j)

/-- What `make_time_independent_arrays` leaves behind, speccon1d_vrw.py:627-647. -/
structure VRWArrays where
  m : List ℝ
  psiS : ℕ → ℕ → ℝ
  IpsiW : ℕ → ℕ → ℝ
  eigs : ℕ → ℝ
  v : ℕ → ℕ → ℝ
  Igamv : ℕ → ℕ → ℝ

/-- The column of `v_E_Igamv_the` for time `t`. -/
noncomputable def VRW.column (x : VRW) (a : VRWArrays) (t : ℝ) : Except PyErr (ℕ → ℝ) :=
  x.vE (x.base.basis a.m a.eigs a.Igamv) a.psiS a.IpsiW a.v t

/-- `_make_por`, speccon1d_vrw.py:1059-1083, for one depth and time. -/
noncomputable def VRW.por (x : VRW) (a : VRWArrays) (z t : ℝ) : Except PyErr ℝ := do
  let vE ← x.column a t
  let bot ← x.base.normBot
  dim1sinF a.m z t vE (x.base.boundary bot)

/-- `pinterp_x_y(mag_vs_time, t)` (`choose_max` keeps its default `False`), piecewise_linear_1d.py:1059-1084. -/
noncomputable def pinterpLeft (p : PolyLine ℝ) (t : ℝ) : Except PyErr ℝ := do
  let x ← p.getX.1
  let y ← p.getY.1
  interpXY x y t false

/-- One half (top or bottom) of `dim1sin_foft_Ipsiw_the_BC_D_aDf_linear`, speccon1d.py:2118-2152. -/
noncomputable def foftLoop (n : ℕ) (Ipsiw : ℕ → ℕ → ℝ) (theta : Except PyErr (ℕ → ℝ)) (vs_time : Option (List (PolyLine ℝ)))
    (om : Option (List Om)) (i : ℕ) (t : ℝ) : Except PyErr ℝ :=
  match vs_time with
  | none => .ok 0
  | some l => do
    let th ← theta
    sumM (fun q : PolyLine ℝ × Om => do
      let e ← pinterpLeft q.1 t
      pure (e * mult q.2 t * dotV n Ipsiw th i)) (l.zip (omList l om))

/-- `dim1sin_foft_Ipsiw_the_BC_D_aDf_linear`, speccon1d.py:1947-2160: entry `(i, t)`. -/
noncomputable def foftIpsiw (m : List ℝ) (Ipsiw : ℕ → ℕ → ℝ) (a : PolyLine ℝ) (b : Boundary) (i : ℕ) (t : ℝ) : Except PyErr ℝ := do
  let zd ← zdistTop b.drn a
  let x ← foftLoop m.length Ipsiw (pDaDb m a zd) b.top b.topOm i t
  let y ← foftLoop m.length Ipsiw (do pDaDb m a (← zdistBot a)) b.bot b.botOm i t
  pure (x + y)

/-- `_make_porwell`, speccon1d_vrw.py:1085-1112, for one depth and time.  The first call of `dim1sin_f` is given
`self.bot_vs_time`, the call of `dim1sin_foft_...` the normalised `bot_vs_time`. -/
noncomputable def VRW.porwell (x : VRW) (a : VRWArrays) (z t : ℝ) : Except PyErr ℝ := do
  let vE ← x.column a t
  let bot ← x.base.normBot
  let p ← dim1sinF a.m z t (dotV a.m.length (matMul a.m.length a.IpsiW a.psiS) vE) (x.base.boundary x.base.bot)
  let f ← (List.range a.m.length).mapM (fun i => foftIpsiw a.m a.IpsiW x.kw (x.base.boundary bot) i t)
  let q ← dim1sinF a.m z t (fun i => f.getD i 0) ⟨x.base.drn, none, none, none, none⟩
  pure (p + x.dTw * q)

/-- `_make_avp`, speccon1d_vrw.py:1115-1140. -/
noncomputable def VRW.avp (x : VRW) (a : VRWArrays) (z1 z2 t : ℝ) : Except PyErr ℝ := do
  let vE ← x.column a t
  let bot ← x.base.normBot
  dim1sinAvgF a.m z1 z2 t vE (x.base.boundary bot)

/-- `_make_set`, speccon1d_vrw.py:1142-1178. -/
noncomputable def VRW.settle (x : VRW) (a : VRWArrays) (z1 z2 t : ℝ) : Except PyErr ℝ := do
  let vE ← x.column a t
  let bot ← x.base.normBot
  let w ← dim1sinIntegrateAf a.m z1 z2 t vE (x.base.boundary bot) x.base.mv
  let l ← x.base.settleLoad z1 z2 t
  pure ((-w + l) * (x.base.H * x.base.mvref))

end Geotecha.Speccon
