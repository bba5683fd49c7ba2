import Verif.Constitutive.Model
import Mathlib.Analysis.SpecialFunctions.Pow.Real
import Mathlib.Algebra.BigOperators.Group.Finset.Basic

/-!
# Model of geotecha/constitutive_models/swcc.py

Soil water characteristic curves (Fredlund and Xing 1994; Pham and Fredlund 2008), the relative permeabilities
computed from them, `kwrel_from_discrete_swcc` and `karel_air_from_saturation`.  Floats are reals, `np.log` is
`Real.log`, `**` is `Real.rpow`, arrays act componentwise.
-/

namespace Geotecha.Const

/-- Attributes of `SWCC_FredlundAndXing1994`, swcc.py:109-117. -/
structure FX where
  a : ℝ
  n : ℝ
  m : ℝ
  ws : ℝ
  psir : ℝ
  correction : Option ℝ

/-- The correction factor `corr` of both curves, swcc.py:153-157 and 510-514. -/
noncomputable def corrFactor (psir : ℝ) (correction : Option ℝ) (psi : ℝ) : ℝ :=
  match correction with
  | none => 1 - Real.log (1 + psi / psir) / Real.log (1 + 1000000 / psir)
  | some c => c

/-- `SWCC_FredlundAndXing1994.w_from_psi`, swcc.py:147-161. -/
noncomputable def FX.w (s : FX) (psi : ℝ) : ℝ :=
  corrFactor s.psir s.correction psi * s.ws / Real.log (Real.exp 1 + (psi / s.a) ^ s.n) ^ s.m

/-- `SWCC_FredlundAndXing1994.dw_dpsi`, swcc.py:259-276. -/
noncomputable def FX.dw (s : FX) (psi : ℝ) : ℝ :=
  let P := (psi / s.a) ^ s.n
  let E := Real.exp 1
  match s.correction with
  | none =>
      -s.m * s.n * s.ws * P * (1 - Real.log (psi / s.psir + 1) / Real.log (1 + 1000000 / s.psir))
          * Real.log (P + E) ^ (-s.m) / (psi * (P + E) * Real.log (P + E))
        - s.ws * Real.log (P + E) ^ (-s.m) / (s.psir * (psi / s.psir + 1) * Real.log (1 + 1000000 / s.psir))
  | some c =>
      c * (-s.m * s.n * s.ws * P * Real.log (P + E) ^ (-s.m) / (psi * (P + E) * Real.log (P + E)))

/-- Attributes of `SWCC_PhamAndFredlund2008`. -/
structure PF where
  ws : ℝ
  a : ℝ
  b : ℝ
  wr : ℝ
  s1 : ℝ
  psir : ℝ
  correction : Option ℝ

/-- `SWCC_PhamAndFredlund2008.__init__`, swcc.py:460-472 (`psir=None` gives `(2.7*a)**(1/b)`). -/
noncomputable def PF.init (ws a b wr s1 : ℝ) (psir correction : Option ℝ) : PF :=
  { ws, a, b, wr, s1, correction,
    psir := match psir with
      | none => (2.7 * a) ^ (1 / b)
      | some p => p }

/-- `SWCC_PhamAndFredlund2008.w_from_psi`, swcc.py:502-518. -/
noncomputable def PF.w (s : PF) (psi : ℝ) : ℝ :=
  corrFactor s.psir s.correction psi * ((s.ws - s.s1 * log10 psi - s.wr) * s.a / (psi ^ s.b + s.a) + s.wr)

/-- `SWCC_PhamAndFredlund2008.dw_dpsi`, swcc.py:631-650. -/
noncomputable def PF.dw (s : PF) (psi : ℝ) : ℝ :=
  let l10 := Real.log 10
  match s.correction with
  | none =>
      (1 - Real.log (psi / s.psir + 1) / Real.log (1 + 1000000 / s.psir)) *
          (-s.a * s.b * psi ^ s.b * (-s.wr + s.ws - s.s1 * Real.log psi / l10) / (psi * (s.a + psi ^ s.b) ^ 2)
            - s.a * s.s1 / (l10 * psi * (s.a + psi ^ s.b)))
        - (s.a * (-s.wr + s.ws - s.s1 * Real.log psi / l10) / (s.a + psi ^ s.b) + s.wr)
            / (s.psir * (psi / s.psir + 1) * Real.log (1 + 1000000 / s.psir))
  | some c =>
      c * (-s.a * s.b * psi ^ s.b * (-s.wr + s.ws - s.s1 * Real.log psi / l10) / (psi * (s.a + psi ^ s.b) ^ 2)
            - s.a * s.s1 / (l10 * psi * (s.a + psi ^ s.b)))

/-- `a + dy*(np.arange(npts) + 0.5)` with `dy = (b - a)/npts`, swcc.py:372-376 and 383-387 (also 749-753, 760-764). -/
noncomputable def kNode (lo hi : ℝ) (npts : ℕ) (j : ℕ) : ℝ := lo + (hi - lo) / npts * (j + 0.5)

/-- `np.sum(f)` of the permeability integrand with reference water content `w0`, swcc.py:379-381 and 390-393 (also 756-758, 769-770). -/
noncomputable def kSum (w dw : ℝ → ℝ) (w0 lo hi : ℝ) (npts : ℕ) : ℝ :=
  ∑ j ∈ Finset.range npts,
    (w (Real.exp (kNode lo hi npts j)) - w0) * dw (Real.exp (kNode lo hi npts j)) / Real.exp (kNode lo hi npts j)

/-- One component of `k_from_psi`, swcc.py:372-395 and 749-772: `wsat` is the reference of the denominator. -/
noncomputable def kComp (w dw : ℝ → ℝ) (wsat aev : ℝ) (npts : ℕ) (psi : ℝ) : ℝ :=
  let b := Real.log 1000000
  let a1 := Real.log psi
  let dy1 := (b - a1) / npts
  let numer := kSum w dw (w psi) a1 b npts
  let a2 := Real.log aev
  let dy2 := (b - a2) / npts
  let denom := kSum w dw wsat a2 b npts
  (numer * dy1) / (denom * dy2)

/-- What `k_from_psi` and `kwrel_from_discrete_swcc` hand back: a scalar when `k.size == 1`, else the array. -/
inductive KOut where
  | scalar (k : ℝ)
  | array (k : List ℝ)

/-- swcc.py:396-400 (also 773-777, 865-868). -/
def kOut (k : List ℝ) : KOut :=
  match k with
  | [x] => .scalar x
  | l => .array l

/-- `SWCC_FredlundAndXing1994.k_from_psi`, swcc.py:368-400 (a scalar argument is a one-element list, `np.atleast_1d`). -/
noncomputable def FX.k (s : FX) (aev : ℝ) (npts : ℕ) (psi : List ℝ) : KOut :=
  kOut (psi.map (kComp s.w s.dw s.ws aev npts))

/-- `SWCC_PhamAndFredlund2008.k_from_psi`, swcc.py:745-777: here the reference is `self.w_from_psi(aev)`. -/
noncomputable def PF.k (s : PF) (aev : ℝ) (npts : ℕ) (psi : List ℝ) : KOut :=
  kOut (psi.map (kComp s.w s.dw (s.w aev) aev npts))

/-! ## Discrete curve -/

/-- One interval of the discrete curve: `(dlogx, xbar, ybar, slopebar)`, swcc.py:840-845. -/
structure Seg where
  dlogx : ℝ
  xbar : ℝ
  ybar : ℝ
  slope : ℝ

/-- swcc.py:840-845 for one pair of consecutive points. -/
noncomputable def mkSeg (p q : ℝ × ℝ) : Seg :=
  let dlogx := log10 q.1 - log10 p.1
  let xbar := p.1 * (10:ℝ) ^ (0.5 * dlogx)
  let logslope := (q.2 - p.2) / dlogx
  { dlogx, xbar, ybar := 0.5 * (p.2 + q.2), slope := logslope / Real.log 10 / xbar }

/-- swcc.py:840-845: all intervals. -/
noncomputable def mkSegs (l : List (ℝ × ℝ)) : List Seg := List.zipWith mkSeg l l.tail

/-- `np.searchsorted(psi_swcc, psi, side="right") - 1`, swcc.py:847 (for increasing `psi_swcc`). -/
noncomputable def idxRight (l : List (ℝ × ℝ)) (psi : ℝ) : ℤ :=
  ((l.takeWhile (fun p => decide (p.1 ≤ psi))).length : ℤ) - 1

/-- `ybar[idx]` with numpy's rule for negative indices (swcc.py:851). -/
def pyGet (l : List ℝ) (i : ℤ) : Except PyErr ℝ :=
  let j := if i < 0 then i + l.length else i
  if j < 0 then .error .indexError
  else match l[j.toNat]? with
    | some v => .ok v
    | none => .error .indexError

/-- One entry of `f1` before the mask, swcc.py:851; also the summand of `denom`, swcc.py:860. -/
noncomputable def segTerm (y0 : ℝ) (s : Seg) : ℝ := s.dlogx * (s.ybar - y0) / s.xbar * s.slope

/-- `np.sum(f1, axis=0)` with `f1[row < idx] = 0`, swcc.py:851-858, one column. -/
noncomputable def maskedSum (y0 : ℝ) (idx : ℤ) (segs : List Seg) : ℝ :=
  (segs.zipIdx.map (fun p => if (p.2 : ℤ) < idx then 0 else segTerm y0 p.1)).sum

/-- One component of `kwrel_from_discrete_swcc`, swcc.py:840-862. -/
noncomputable def kwrelComp (l : List (ℝ × ℝ)) (psi : ℝ) : Except PyErr ℝ := do
  let segs := mkSegs l
  let idx := idxRight l psi
  let y0 ← pyGet (segs.map Seg.ybar) idx
  let yfirst ← pyGet (segs.map Seg.ybar) 0
  let denom := (segs.map (segTerm yfirst)).sum
  .ok (maskedSum y0 idx segs / denom)

/-- `kwrel_from_discrete_swcc(psi, psi_swcc, vw_swcc)`, swcc.py:781-868; the two arrays are given as points. -/
noncomputable def kwrel (psi : List ℝ) (l : List (ℝ × ℝ)) : Except PyErr KOut := do
  let k ← psi.mapM (kwrelComp l)
  .ok (kOut k)

/-- `karel_air_from_saturation`, swcc.py:871-894. -/
noncomputable def karelAir (Sr qfit : ℝ) : ℝ :=
  (1 - Sr) ^ (0.5:ℝ) * (1 - Sr ^ (1 / qfit)) ^ (2 * qfit)

end Geotecha.Const
