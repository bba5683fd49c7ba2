import Verif.Speccon.ModelVRW

/-!
# Model of geotecha/speccon/speccon1d_vrc.py: soil improved with a permeable column

The class has the attributes of `Speccon1dVR` except vacuum, fixed pore pressure and pumping, plus `n`, `kvc`, `khc`, `dTvc`, `dThc`.
`base` holds the shared ones.  `check_input_attributes` requires `dTh`, `dThc`, `dTvc`, `dTv`, `n` and with them the permeabilities
(speccon1d_vrc.py:568-595).  `np.linalg` is not modelled: `bet`, `eigs`, `v`, `Igamv` are arguments.  `_make_m` (speccon1d_vrc.py:773-790), `_make_gam` (793-802),
`_make_E_Igamv_the_surcharge` (938-975) and `_normalised_bot_vs_time` (977-997) have, but for line breaks, the text of those of
speccon1d_vr.py, whose model is used.
-/

set_option linter.unusedVariables false
open Real
namespace Geotecha.Speccon
open Geotecha.Spec Geotecha.Piecewise

/-- Input attributes, speccon1d_vrc.py:524-539. -/
structure VRC where
  base : VR
  n : ℝ
  dTvc : ℝ
  dThc : ℝ
  kvc : PolyLine ℝ
  khc : PolyLine ℝ

/-- `self.alp = 1 / self.n**2`, speccon1d_vrc.py:663. -/
noncomputable def VRC.alp (x : VRC) : ℝ := 1 / x.n ^ 2

/-- `psi_sv`, `psi_sh`, `psi_cv`, `psi_ch`. -/
structure Psis where
  sv : ℕ → ℕ → ℝ
  sh : ℕ → ℕ → ℝ
  cv : ℕ → ℕ → ℝ
  ch : ℕ → ℕ → ℝ

/-- First part of `_make_psi`, speccon1d_vrc.py:812-840 (the PolyLines made by line 820 are not used; a matrix that is not made is missed
at line 844). -/
noncomputable def VRC.psis (x : VRC) (m : List ℝ) : Except PyErr Psis :=
  match x.base.kv, x.base.dTv, x.base.kh, x.base.et, x.base.dTh with
  | some kv, some dTv, some kh, some et, some dTh => do
    let sv ← pDaDf x.base.impl m kv
    let _ ← commonLines [kh, et]
    let sh ← pAbf x.base.impl m kh et
    let cv ← pDaDf x.base.impl m x.kvc
    let ch ← pAf x.base.impl m x.khc
    pure ⟨fun i j => dTv / x.base.dT * sv i j, fun i j => dTh / x.base.dT * sh i j, fun i j => x.dTvc / x.base.dT * cv i j,
      fun i j => x.dThc / x.base.dT * ch i j⟩
  | _, _, _, _, _ => .error .attributeError

/-- The blocks of `Ibet`, speccon1d_vrc.py:824, 840, 844-852. -/
noncomputable def Psis.block (P : Psis) (alp : ℝ) : ℕ → ℕ → ℕ → ℕ → ℝ
  | 0, 0, i, j => if i = j then 1 - alp else 0
  | 0, 1, i, j => if i = j then alp else 0
  | 0, _, i, j => 0
  | 1, 0, i, j => P.sh i j - P.sv i j
  | 1, 1, i, j => -(P.ch i j - P.cv i j)
  | 1, _, i, j => P.ch i j - P.sh i j
  | _, 0, i, j => P.sh i j - alp * P.sv i j
  | _, 1, i, j => alp * P.cv i j
  | _, _, i, j => -P.sh i j

/-- `Ibet = np.bmat(...)`, speccon1d_vrc.py:844-854, with `n = neig`. -/
noncomputable def Psis.Ibet (P : Psis) (alp : ℝ) (n p q : ℕ) : ℝ := P.block alp (p / n) (q / n) (p % n) (q % n)

/-- `bet00`, `bet01`, ..., speccon1d_vrc.py:858-868. -/
def betBlk (n : ℕ) (bet : ℕ → ℕ → ℝ) (a b i j : ℕ) : ℝ := bet (a * n + i) (b * n + j)

/-- `self.bet01 + self.alp * self.bet02` and `self.bet11 + self.alp * self.bet12`, speccon1d_vrc.py:1017-1018, 1083, 1105. -/
noncomputable def betX (n : ℕ) (alp : ℝ) (bet : ℕ → ℕ → ℝ) (a i j : ℕ) : ℝ := betBlk n bet a 1 i j + alp * betBlk n bet a 2 i j

/-- `self.psi`, speccon1d_vrc.py:871-873 and 899. -/
noncomputable def Psis.psi (P : Psis) (alp : ℝ) (n : ℕ) (bet : ℕ → ℕ → ℝ) : ℕ → ℕ → ℝ :=
  chop (fun i j => ((1 - alp) * matMul n P.sv (betBlk n bet 0 0) i j + alp * matMul n P.cv (betBlk n bet 1 0) i j) * (-1))

/-- `G` of `_make_E_Igamv_the_BC`, speccon1d_vrc.py:1016-1018. -/
noncomputable def Psis.G (P : Psis) (alp : ℝ) (n : ℕ) (bet : ℕ → ℕ → ℝ) (i j : ℕ) : ℝ :=
  (if i = j then alp else 0) - (1 - alp) * matMul n P.sv (betX n alp bet 0) i j - alp * matMul n P.cv (betX n alp bet 1) i j

/-- `np.identity(self.neig) - G`, speccon1d_vrc.py:1026, 1038. -/
noncomputable def Psis.oneG (P : Psis) (alp : ℝ) (n : ℕ) (bet : ℕ → ℕ → ℝ) (i j : ℕ) : ℝ := (if i = j then 1 else 0) - P.G alp n bet i j

open Classical in
/-- One of the two flow parts of `_make_E_Igamv_the_BC`, speccon1d_vrc.py:1021-1042. -/
noncomputable def eBCG (B : Basis) (M : ℕ → ℕ → ℝ) (dTv : ℝ) (kv : PolyLine ℝ) (b : Boundary) (i : ℕ) (t : ℝ) : Except PyErr ℝ :=
  if dTv ≠ 0 then do
    let e ← bcDaDf { B with Igamv := matMul B.m.length B.Igamv M } b (some kv) i t
    pure (dTv * e)
  else pure 0

/-- What `make_time_independent_arrays` leaves behind, speccon1d_vrc.py:649-671. -/
structure VRCArrays where
  m : List ℝ
  P : Psis
  bet : ℕ → ℕ → ℝ
  eigs : ℕ → ℝ
  v : ℕ → ℕ → ℝ
  Igamv : ℕ → ℕ → ℝ

/-- `_make_E_Igamv_the_BC` with the test of `make_E_Igamv_the`, speccon1d_vrc.py:932-934, 999-1042. -/
noncomputable def VRC.eBC (x : VRC) (a : VRCArrays) (i : ℕ) (t : ℝ) : Except PyErr ℝ :=
  if x.base.top.isNone ∧ x.base.bot.isNone then pure 0
  else do
    let bot ← x.base.normBot
    let b := x.base.boundary bot
    let B := x.base.basis a.m a.eigs a.Igamv
    let p ← bcADfDt B b (some x.base.mv) i t
    let M := a.P.oneG x.alp a.m.length a.bet
    let r ← (match x.base.kv, x.base.dTv with
      | some kv, some dTv => eBCG B M dTv kv b i t
      | _, _ => pure 0 : Except PyErr ℝ)
    let w ← eBCG B M x.dTvc x.kvc b i t
    pure (0 - p + r + w)

/-- `make_E_Igamv_the`, speccon1d_vrc.py:907-936: entry `(i, t)`. -/
noncomputable def VRC.E (x : VRC) (a : VRCArrays) (i : ℕ) (t : ℝ) : Except PyErr ℝ := do
  let s ← x.base.eSurcharge (x.base.basis a.m a.eigs a.Igamv) i t
  let c ← x.eBC a i t
  pure (s + c)

/-- `np.dot(self.v, self.E_Igamv_the)`, speccon1d_vrc.py:683: the column for time `t`. -/
noncomputable def VRC.column (x : VRC) (a : VRCArrays) (t : ℝ) : Except PyErr (ℕ → ℝ) := do
  let E ← (List.range a.m.length).mapM (fun i => x.E a i t)
  pure (fun j => dotV a.m.length a.v (fun i => E.getD i 0) j)

/-- `self.por` of `_make_por`, speccon1d_vrc.py:1065-1072, for one depth and time. -/
noncomputable def VRC.por (x : VRC) (a : VRCArrays) (z t : ℝ) : Except PyErr ℝ := do
  let vE ← x.column a t
  let bot ← x.base.normBot
  dim1sinF a.m z t vE (x.base.boundary bot)

/-- `a+b` of `_make_por`, `_make_avp`: the coefficients added to `pors` (`k = 0`) or `porc` (`k = 1`), speccon1d_vrc.py:1080-1093,
1102-1115 (`self.dTv` is not `None`). -/
noncomputable def VRC.added (x : VRC) (a : VRCArrays) (k : ℕ) (bot : Option (List (PolyLine ℝ))) (t : ℝ) : Except PyErr (ℕ → ℝ) :=
  match x.base.kv, x.base.dTv with
  | some kv, some dTv => do
    let p ← (List.range a.m.length).mapM (fun i => foftIpsiw a.m (betX a.m.length x.alp a.bet k) kv (x.base.boundary bot) i t)
    let q ← (List.range a.m.length).mapM (fun i => foftIpsiw a.m (betX a.m.length x.alp a.bet k) x.kvc (x.base.boundary bot) i t)
    pure (fun i => dTv * p.getD i 0 + x.dTvc * q.getD i 0)
  | _, _ => .error .typeError

/-- `self.pors` (`k = 0`) and `self.porc` (`k = 1`) of `_make_por`, speccon1d_vrc.py:1073-1117, for one depth and time. -/
noncomputable def VRC.part (x : VRC) (a : VRCArrays) (k : ℕ) (z t : ℝ) : Except PyErr ℝ := do
  let vE ← x.column a t
  let bot ← x.base.normBot
  let p ← dim1sinF a.m z t (dotV a.m.length (betBlk a.m.length a.bet k 0) vE) (x.base.boundary bot)
  if x.base.top.isNone ∧ x.base.bot.isNone then pure p
  else do
    let c ← x.added a k bot t
    let q ← dim1sinF a.m z t c ⟨x.base.drn, none, none, none, none⟩
    pure (p + q)

noncomputable def VRC.pors (x : VRC) (a : VRCArrays) (z t : ℝ) : Except PyErr ℝ := x.part a 0 z t
noncomputable def VRC.porc (x : VRC) (a : VRCArrays) (z t : ℝ) : Except PyErr ℝ := x.part a 1 z t

/-- `self.avp` of `_make_avp`, speccon1d_vrc.py:1136-1145. -/
noncomputable def VRC.avp (x : VRC) (a : VRCArrays) (z1 z2 t : ℝ) : Except PyErr ℝ := do
  let vE ← x.column a t
  let bot ← x.base.normBot
  dim1sinAvgF a.m z1 z2 t vE (x.base.boundary bot)

/-- `self.avps` (`k = 0`) and `self.avpc` (`k = 1`) of `_make_avp`, speccon1d_vrc.py:1146-1190. -/
noncomputable def VRC.avpart (x : VRC) (a : VRCArrays) (k : ℕ) (z1 z2 t : ℝ) : Except PyErr ℝ := do
  let vE ← x.column a t
  let bot ← x.base.normBot
  let p ← dim1sinAvgF a.m z1 z2 t (dotV a.m.length (betBlk a.m.length a.bet k 0) vE) (x.base.boundary bot)
  if x.base.top.isNone ∧ x.base.bot.isNone then pure p
  else do
    let c ← x.added a k bot t
    let q ← dim1sinAvgF a.m z1 z2 t c ⟨x.base.drn, none, none, none, none⟩
    pure (p + q)

/-- `_make_set`, speccon1d_vrc.py:1195-1233. -/
noncomputable def VRC.settle (x : VRC) (a : VRCArrays) (z1 z2 t : ℝ) : Except PyErr ℝ := do
  let vE ← x.column a t
  let bot ← x.base.normBot
  let w ← dim1sinIntegrateAf a.m z1 z2 t vE (x.base.boundary bot) x.base.mv
  let l ← x.base.settleLoad z1 z2 t
  pure ((-w + l) * (x.base.H * x.base.mvref))

end Geotecha.Speccon
