import Verif.Speccon.ModelVRC

/-!
# Model of geotecha/speccon/speccon1d_unsat.py: unsaturated soil, water and air phase

The attributes of a `Speccon1dUnsat` object after `check_input_attributes`.  `np.linalg` is not modelled: `eigs`, `v`, `Igamv` are arguments.
-/

set_option linter.unusedVariables false
open Real
namespace Geotecha.Speccon
open Geotecha.Spec Geotecha.Piecewise

/-- The boundary loads of one phase (`wtop_vs_time`, ... or `atop_vs_time`, ...), speccon1d_unsat.py:518-538. -/
structure PhaseIn where
  top : Option (List (PolyLine ℝ))
  topOm : Option (List Om)
  bot : Option (List (PolyLine ℝ))
  botOm : Option (List Om)

/-- Input attributes, speccon1d_unsat.py:518-538. -/
structure UnsatIn where
  H : ℝ
  mvref : ℝ
  ua_ : ℝ
  drn : ℤ
  dT : ℝ
  neig : ℕ
  dTw : ℝ
  dTa : ℝ
  m1kw : PolyLine ℝ
  m1ka : PolyLine ℝ
  m2w : PolyLine ℝ
  m2a : PolyLine ℝ
  kw : PolyLine ℝ
  Da : PolyLine ℝ
  S : PolyLine ℝ
  n : PolyLine ℝ
  surchargeDepth : Option (List (PolyLine ℝ))
  surchargeTime : Option (List (PolyLine ℝ))
  surchargeOm : Option (List Om)
  water : PhaseIn
  air : PhaseIn
  impl : Impl

/-- `_make_m`, speccon1d_unsat.py:768-789: `m` (`m_block` is `m ++ m`). -/
noncomputable def UnsatIn.m (x : UnsatIn) : Except PyErr (List ℝ) := (List.range x.neig).mapM (fun i => mFromSinMx i x.drn)

/-- A matrix of size `2n` made of four blocks, speccon1d_unsat.py:816-823, 847-850. -/
def block2 {α : Type} (n : ℕ) (a b c d : ℕ → ℕ → α) (i j : ℕ) : α :=
  if i < n then (if j < n then a i j else b i (j - n)) else (if j < n then c (i - n) j else d (i - n) (j - n))

/-- `_make_gam`, speccon1d_unsat.py:792-829. -/
noncomputable def UnsatIn.gam (x : UnsatIn) (m : List ℝ) : Except PyErr (ℕ → ℕ → ℝ) := do
  let g1kw ← pAf x.impl m x.m1kw
  let g1ka ← pAf x.impl m x.m1ka
  let g2w ← pAf x.impl m x.m2w
  let g2a ← pAf x.impl m x.m2a
  let gn ← pAf x.impl m x.n
  let gsn ← pAbf x.impl m x.n x.S
  pure (chop (block2 x.neig g2w (fun i j => g1kw i j - g2w i j) g2a
    (fun i j => g1ka i j - g2a i j - gn i j / (x.ua_ * x.mvref) + gsn i j / (x.ua_ * x.mvref))))

/-- `_make_psi`, speccon1d_unsat.py:832-857 (entries below 1e-8 are kept, line 853 is a comment). -/
noncomputable def UnsatIn.psi (x : UnsatIn) (m : List ℝ) : Except PyErr (ℕ → ℕ → ℝ) := do
  let w ← pDaDf x.impl m x.kw
  let a ← pDaDf x.impl m x.Da
  pure (block2 x.neig (fun i j => x.dTw / x.dT * w i j) (fun _ _ => 0) (fun _ _ => 0) (fun i j => x.dTa / x.dT * a i j))

/-- What `make_time_independent_arrays` leaves behind. -/
structure UnsatArrays where
  m : List ℝ
  eigs : ℕ → ℝ
  v : ℕ → ℕ → ℝ
  Igamv : ℕ → ℕ → ℝ

/-- The arguments common to the load functions, e.g. speccon1d_unsat.py:1013-1017: `m_block`, `eigs`, `Igamv`, `dT`. -/
def UnsatIn.basis (x : UnsatIn) (a : UnsatArrays) : Basis := ⟨a.m ++ a.m, a.eigs, a.Igamv, x.dT, x.impl⟩

/-- The argument `theta_zero_indexes`: `theta[theta_zero_indexes] = 0.0`, e.g. speccon1d.py:603-604.  The functions use theta only in
`np.dot(Igamv, theta)`; here the columns of `Igamv` are set to zero instead. -/
def Basis.zero (B : Basis) (p : ℕ → Bool) : Basis := { B with Igamv := fun i j => if p j then 0 else B.Igamv i j }

/-- `slice(self.neig, None)` and `slice(None, self.neig)`, speccon1d_unsat.py:1004-1005. -/
def botzero (n : ℕ) (j : ℕ) : Bool := decide (n ≤ j)
def topzero (n : ℕ) (j : ℕ) : Bool := decide (j < n)

/-- `_make_E_Igamv_the_surcharge` with the test of `make_E_Igamv_the`, speccon1d_unsat.py:914-917, 926-969. -/
noncomputable def UnsatIn.eSurcharge (x : UnsatIn) (B : Basis) (i : ℕ) (t : ℝ) : Except PyErr ℝ := do
  let p ← aDmagDt (B.zero (botzero x.neig)) x.m1kw x.surchargeDepth x.surchargeTime x.surchargeOm i t
  let q ← aDmagDt (B.zero (topzero x.neig)) x.m1ka x.surchargeDepth x.surchargeTime x.surchargeOm i t
  pure (p + q)

/-- One half of `_normalised_bot_vs_time`, speccon1d_unsat.py:974-1001. -/
noncomputable def UnsatIn.normBot (x : UnsatIn) (p : PhaseIn) : Except PyErr (Option (List (PolyLine ℝ))) :=
  match p.bot with
  | none => pure none
  | some l => if x.drn = 1 then do
      let l ← l.mapM (scaled (fun v => v * x.H))
      pure (some l)
    else pure (some l)

/-- The boundary loads of one phase. -/
def UnsatIn.boundary (x : UnsatIn) (p : PhaseIn) (bot : Option (List (PolyLine ℝ))) : Boundary := ⟨x.drn, p.top, bot, p.topOm, p.botOm⟩

open Classical in
/-- `_make_E_Igamv_the_BC`, speccon1d_unsat.py:1003-1121. -/
noncomputable def UnsatIn.eBC (x : UnsatIn) (B : Basis) (i : ℕ) (t : ℝ) : Except PyErr ℝ := do
  let wb ← x.normBot x.water
  let ab ← x.normBot x.air
  let w := x.boundary x.water wb
  let a := x.boundary x.air ab
  let P := B.zero (botzero x.neig)
  let Q := B.zero (topzero x.neig)
  let p1 ← bcADfDt P w (some x.m2w) i t
  let p2 ← bcADfDt P a (some x.m1kw) i t
  let p3 ← bcADfDt P a (some x.m2w) i t
  let p4 ← (if x.dTw ≠ 0 then do
    let e ← bcDaDf P w (some x.kw) i t
    pure (x.dTw * e) else pure 0 : Except PyErr ℝ)
  let q1 ← bcADfDt Q w (some x.m2a) i t
  let q2 ← bcADfDt Q a (some x.m1ka) i t
  let q3 ← bcADfDt Q a (some x.m2a) i t
  let q4 ← bcADfDt Q a (some x.n) i t
  let q5 ← bcAbDfDt Q a (some x.S) (some x.n) i t
  let q6 ← (if x.dTw ≠ 0 then do
    let e ← bcDaDf Q a (some x.Da) i t
    pure (x.dTa * e) else pure 0 : Except PyErr ℝ)
  pure (0 - p1 - p2 + p3 - p4 - q1 - q2 + q3 + q4 / (x.mvref * x.ua_) - q5 / (x.mvref * x.ua_) - q6)

/-- `make_E_Igamv_the`, speccon1d_unsat.py:888-924: entry `(i, t)`.  The boundary part is made if at least one of the four lists is
`None` (`sum(v is None ...) != 0`, lines 918-921). -/
noncomputable def UnsatIn.E (x : UnsatIn) (B : Basis) (i : ℕ) (t : ℝ) : Except PyErr ℝ := do
  let s ← x.eSurcharge B i t
  let c ← (if x.air.top.isNone ∨ x.air.bot.isNone ∨ x.water.top.isNone ∨ x.water.bot.isNone then x.eBC B i t else pure 0 : Except PyErr ℝ)
  pure (s + c)

/-- `np.dot(self.v, self.E_Igamv_the)`, speccon1d_unsat.py:662: the column for time `t`. -/
noncomputable def UnsatIn.column (x : UnsatIn) (a : UnsatArrays) (t : ℝ) : Except PyErr (ℕ → ℝ) := do
  let E ← (List.range (a.m ++ a.m).length).mapM (fun i => x.E (x.basis a) i t)
  pure (fun j => dotV (a.m ++ a.m).length a.v (fun i => E.getD i 0) j)

/-- `self.porw` of `_make_por`, speccon1d_unsat.py:1143-1152, for one depth and time. -/
noncomputable def UnsatIn.porw (x : UnsatIn) (a : UnsatArrays) (z t : ℝ) : Except PyErr ℝ := do
  let vE ← x.column a t
  let bot ← x.normBot x.water
  dim1sinF a.m z t vE (x.boundary x.water bot)

/-- `self.pora` of `_make_por`, speccon1d_unsat.py:1154-1159: the rows `neig:`. -/
noncomputable def UnsatIn.pora (x : UnsatIn) (a : UnsatArrays) (z t : ℝ) : Except PyErr ℝ := do
  let vE ← x.column a t
  let bot ← x.normBot x.air
  dim1sinF a.m z t (fun j => vE (x.neig + j)) (x.boundary x.air bot)

/-- `self.avpw` of `_make_avp`, speccon1d_unsat.py:1182-1191. -/
noncomputable def UnsatIn.avpw (x : UnsatIn) (a : UnsatArrays) (z1 z2 t : ℝ) : Except PyErr ℝ := do
  let vE ← x.column a t
  let bot ← x.normBot x.water
  dim1sinAvgF a.m z1 z2 t vE (x.boundary x.water bot)

/-- `self.avpa` of `_make_avp`, speccon1d_unsat.py:1193-1198. -/
noncomputable def UnsatIn.avpa (x : UnsatIn) (a : UnsatArrays) (z1 z2 t : ℝ) : Except PyErr ℝ := do
  let vE ← x.column a t
  let bot ← x.normBot x.air
  dim1sinAvgF a.m z1 z2 t (fun j => vE (x.neig + j)) (x.boundary x.air bot)

/-- `p - q` of two PolyLines, piecewise_linear_1d.py:2408-2409. -/
noncomputable def lineSub (p q : PolyLine ℝ) : Except PyErr (PolyLine ℝ) := do
  let a ← p.getXY.1
  let b ← q.getXY.1
  addSub (· - ·) (a.map Prod.fst, a.map Prod.snd) (b.map Prod.fst, b.map Prod.snd)

/-- The surcharge parts of `_make_set`, speccon1d_unsat.py:1256-1273. -/
noncomputable def UnsatIn.settleLoad (x : UnsatIn) (c : PolyLine ℝ) (z1 z2 t : ℝ) : Except PyErr ℝ :=
  match x.surchargeTime, x.surchargeDepth with
  | some a, some b => superIntegrate a b c t z1 z2 x.surchargeOm
  | some _, none => .error .attributeError
  | none, _ => pure 0

/-- `_make_set`, speccon1d_unsat.py:1202-1277, for one pair of depths and one time: `(setw, seta)`.  The part `m2a uw` is subtracted
from `setw` (line 1245). -/
noncomputable def UnsatIn.settle2 (x : UnsatIn) (a : UnsatArrays) (z1 z2 t : ℝ) : Except PyErr (ℝ × ℝ) := do
  let vE ← x.column a t
  let wb ← x.normBot x.water
  let ab ← x.normBot x.air
  let w := x.boundary x.water wb
  let b := x.boundary x.air ab
  let d1 ← lineSub x.m2w x.m1kw
  let s1 ← dim1sinIntegrateAf a.m z1 z2 t (fun j => vE (x.neig + j)) b d1
  let s2 ← dim1sinIntegrateAf a.m z1 z2 t vE w x.m2w
  let d2 ← lineSub x.m2a x.m1ka
  let s3 ← dim1sinIntegrateAf a.m z1 z2 t (fun j => vE (x.neig + j)) b d2
  let s4 ← dim1sinIntegrateAf a.m z1 z2 t vE w x.m2a
  let l1 ← x.settleLoad x.m1kw z1 z2 t
  let l2 ← x.settleLoad x.m1ka z1 z2 t
  pure ((s1 - s2 - s4 + l1) * (x.H * x.mvref), (s3 + l2) * (x.H * x.mvref))

noncomputable def UnsatIn.setw (x : UnsatIn) (a : UnsatArrays) (z1 z2 t : ℝ) : Except PyErr ℝ := do pure (← x.settle2 a z1 z2 t).1
noncomputable def UnsatIn.seta (x : UnsatIn) (a : UnsatArrays) (z1 z2 t : ℝ) : Except PyErr ℝ := do pure (← x.settle2 a z1 z2 t).2

/-- `self.set = self.seta + self.setw`, speccon1d_unsat.py:1277. -/
noncomputable def UnsatIn.settle (x : UnsatIn) (a : UnsatArrays) (z1 z2 t : ℝ) : Except PyErr ℝ := do
  let s ← x.settle2 a z1 z2 t
  pure (s.2 + s.1)

end Geotecha.Speccon
