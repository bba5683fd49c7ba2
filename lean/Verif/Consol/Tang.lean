import Verif.Consol.Terzaghi
import Verif.Speccon.ModelVRW

/-!
# Model of geotecha/consolidation/tangandonitsuka2000.py

Reals for floats; `z`, `t`, `tpor` are lists (the code takes `len` of them, so single numbers are not accepted).
-/

open Real
namespace Geotecha.Consol
open Geotecha.Piecewise Geotecha.Speccon

/-- Arguments of `tangandonitsuka2000`, tangandonitsuka2000.py:33-35. -/
structure TangArgs where
  kv : ℝ
  kh : ℝ
  ks : ℝ
  kw : ℝ
  mv : ℝ
  gamw : ℝ
  rw : ℝ
  rs : ℝ
  re : ℝ
  H : ℝ
  drn : ℤ

/-- `F_func`, tangandonitsuka2000.py:103-107. -/
noncomputable def tangF (n s kap : ℝ) : ℝ :=
  let term1 := (log (n / s) + kap * log s - 0.75) * n ^ 2 / (n ^ 2 - 1)
  let term2 := s ^ 2 / (n ^ 2 - 1) * (1 - kap) * (1 - s ^ 2 / 4 / n ^ 2)
  let term3 := kap / (n ^ 2 - 1) * (1 - 1 / 4 / n ^ 2)
  term1 + term2 + term3

/-- `_calc_Tm`, tangandonitsuka2000.py:110-160. -/
noncomputable def tangTm (alp t : ℝ) (p : PolyLine ℝ) : Except PyErr ℝ := do
  let P ← p.getY.1
  let T ← p.getX.1
  let g ← loadSegments T P t
  let a (l : List ℝ) (k : ℕ) : ℝ := l.getD k 0
  pure (
    (g.stepsLess.map (fun k => (a P (k+1) - a P k) * exp (-1 * alp ^ 2 * (t - a T k)))).sum +
    (g.rampsContaining.map (fun k => (-a P k + a P (k+1)) / (alp ^ 2 * 1 * (-a T k + a T (k+1)))
      - (-a P k + a P (k+1)) * exp (-alp ^ 2 * 1 * (t - a T k)) / (alp ^ 2 * 1 * (-a T k + a T (k+1))))).sum +
    (g.rampsLess.map (fun k => -(-a P k + a P (k+1)) * exp (-alp ^ 2 * 1 * (t - a T k)) / (alp ^ 2 * 1 * (-a T k + a T (k+1)))
      + (-a P k + a P (k+1)) * exp (-alp ^ 2 * 1 * (t - a T (k+1))) / (alp ^ 2 * 1 * (-a T k + a T (k+1))))).sum)

/-- `H_`, tangandonitsuka2000.py:174-186. -/
noncomputable def TangArgs.Hd (a : TangArgs) : ℝ := if a.drn = 0 then a.H / 2 else a.H

open Classical in
/-- The depth used in the series: mirrored below the middle if both ends drain, tangandonitsuka2000.py:174-186. -/
noncomputable def TangArgs.zz (a : TangArgs) (z : ℝ) : ℝ := if a.drn = 0 ∧ z > a.Hd then a.H - z else z

/-- `F`, `G`, `Dm`, tangandonitsuka2000.py:190-200. -/
noncomputable def TangArgs.F (a : TangArgs) : ℝ := tangF (a.re / a.rw) (a.rs / a.rw) (a.kh / a.ks)
noncomputable def TangArgs.G (a : TangArgs) : ℝ := a.kh / a.kw * (a.Hd / 2 / a.rw) ^ 2
noncomputable def TangArgs.Dm (a : TangArgs) (k : ℕ) : ℝ := 8 / bigM k ^ 2 * ((a.re / a.rw) ^ 2 - 1) / (a.re / a.rw) ^ 2 * a.G

/-- `bm`, tangandonitsuka2000.py:202-204. -/
noncomputable def TangArgs.b (a : TangArgs) (k : ℕ) : ℝ :=
  a.kv / a.mv / a.gamw * bigM k ^ 2 / a.Hd ^ 2 + a.kh / a.mv / a.gamw * 2 / a.re ^ 2 / (a.F + a.Dm k)

open Classical in
/-- `_calc_Tm(math.sqrt(bk), tj, surcharge_vs_time)`, tangandonitsuka2000.py:213, 227 (`math.sqrt` refuses negative numbers). -/
noncomputable def TangArgs.Tm (a : TangArgs) (p : PolyLine ℝ) (t : ℝ) (k : ℕ) : Except PyErr ℝ :=
  if a.b k < 0 then .error .valueError else tangTm (sqrt (a.b k)) t p

/-- Entry of `por`, tangandonitsuka2000.py:209-220. -/
noncomputable def TangArgs.por (a : TangArgs) (p : PolyLine ℝ) (n : ℕ) (z t : ℝ) : Except PyErr ℝ := do
  let T ← (List.range n).mapM (a.Tm p t)
  pure (∑ k ∈ Finset.range n, 2 / bigM k * sin (bigM k * a.zz z / a.Hd) * T.getD k 0)

/-- Entry of `avp`, tangandonitsuka2000.py:223-232. -/
noncomputable def TangArgs.avp (a : TangArgs) (p : PolyLine ℝ) (n : ℕ) (t : ℝ) : Except PyErr ℝ := do
  let T ← (List.range n).mapM (a.Tm p t)
  pure (∑ k ∈ Finset.range n, 2 / bigM k ^ 2 * T.getD k 0)

/-- Entry of `settle`, tangandonitsuka2000.py:236-237. -/
noncomputable def TangArgs.settle (a : TangArgs) (p : PolyLine ℝ) (n : ℕ) (t : ℝ) : Except PyErr ℝ := do
  let v ← a.avp p n t
  let l ← pinterpLeft p t
  pure (a.H * a.mv * (l - v))

/-- `tangandonitsuka2000`, tangandonitsuka2000.py:33-239. -/
noncomputable def tang (z t : List ℝ) (a : TangArgs) (load : List ℝ × List ℝ) (tpor : Option (List ℝ)) (n : ℕ) :
    Except PyErr (List (List ℝ) × List ℝ × List ℝ) := do
  let p ← PolyLine.ofX_Y load.1 load.2
  let por ← z.mapM fun z => (tpor.getD t).mapM fun t => a.por p n z t
  let avp ← t.mapM fun t => a.avp p n t
  let settle ← t.mapM fun t => a.settle p n t
  pure (por, avp, settle)

end Geotecha.Consol
