import Verif.Piecewise.Model
import Mathlib.Analysis.SpecialFunctions.Log.Base
import Mathlib.Analysis.SpecialFunctions.Pow.Real

/-!
# Model of geotecha/constitutive_models: void_ratio_permeability.py, velocity_hydraulic_gradient.py, void_ratio_stress.py
(simple models).

Scalars are reals; arrays act componentwise.  `np.log10` is `Real.logb 10`, `**` is `Real.rpow`.
-/

namespace Geotecha.Const

noncomputable def log10 (x : ℝ) : ℝ := Real.logb 10 x

/-- `CkPermeabilityModel`, void_ratio_permeability.py:52-69. -/
structure CkModel where
  Ck : ℝ
  ka : ℝ
  ea : ℝ

/-- void_ratio_permeability.py:97. -/
noncomputable def CkModel.eFromK (m : CkModel) (k : ℝ) : ℝ := m.ea + m.Ck * log10 (k / m.ka)

/-- void_ratio_permeability.py:128. -/
noncomputable def CkModel.kFromE (m : CkModel) (e : ℝ) : ℝ := m.ka * (10:ℝ) ^ ((e - m.ea) / m.Ck)

/-- `ConstantPermeabilityModel`, void_ratio_permeability.py:157-201 (both methods). -/
def constKFromE (ka : ℝ) (_e : ℝ) : Except PyErr ℝ := .ok ka
def constEFromK (_ka : ℝ) (_k : ℝ) : Except PyErr ℝ := .error .valueError
/-- `e_and_k_for_plotting`, void_ratio_permeability.py:204-228: it calls `e_from_k`. -/
def constForPlotting (ka : ℝ) (x : List ℝ) : Except PyErr (List ℝ) := x.mapM (constEFromK ka)

/-- `np.sign` (`Real.sign` is the same function; written out). -/
noncomputable def npSign (x : ℝ) : ℝ := if x < 0 then -1 else if x = 0 then 0 else 1

/-- `DarcyFlowModel.v_from_i`, velocity_hydraulic_gradient.py:146. -/
noncomputable def darcyV (k i : ℝ) : ℝ := k * i
/-- `DarcyFlowModel.i_from_v`, velocity_hydraulic_gradient.py:175. -/
noncomputable def darcyI (k v : ℝ) : ℝ := v / k
/-- `DarcyFlowModel.dv_di`, velocity_hydraulic_gradient.py:204. -/
noncomputable def darcyDv (k i : ℝ) : ℝ := 1 * k * npSign i

/-- Attributes of `HansboNonDarcianFlowModel`; `klinear` may be missing (attribute never set). -/
structure HansboAttrs where
  kstar : ℝ
  n : ℝ
  iL : ℝ
  i0 : ℝ
  klinear : Option ℝ

/-- The finished model. -/
structure Hansbo where
  kstar : ℝ
  n : ℝ
  iL : ℝ
  i0 : ℝ
  klinear : ℝ
  vL : ℝ

/-- The Darcy fallback used in most branches. -/
noncomputable def darcyLike (k : ℝ) : HansboAttrs := ⟨k, 1, 0, 0, some k⟩

/-- The branches of `HansboNonDarcianFlowModel.__init__`, velocity_hydraulic_gradient.py:402-559.  `fp` stands for
`root_finding.fixed_point_no_accel` applied to the iteration function (`none`: no convergence, RuntimeError). -/
noncomputable def hansboAttrs (fp : (ℝ → ℝ) → Option ℝ) (klinear kstar n i0 iL : Option ℝ) : Except PyErr HansboAttrs :=
  match kstar, n, iL, i0, klinear with
  | some kstar, some n, some iL, none, none =>
    -- `self.k_linear = kstar`: a misspelt attribute, `klinear` is never set
    if n = 1 ∨ iL = 0 then .ok ⟨kstar, 1, 0, 0, none⟩
    else .ok ⟨kstar, n, iL, (n - 1) / n * iL, some (kstar * n * iL ^ (n - 1))⟩
  | some kstar, some n, none, some i0, none =>
    if n = 1 ∨ i0 = 0 then .ok (darcyLike kstar)
    else
      let iL := i0 * n / (n - 1)
      .ok ⟨kstar, n, iL, i0, some (kstar * n * iL ^ (n - 1))⟩
  | some kstar, some n, none, none, some klinear =>
    if n = 1 then .ok (darcyLike klinear)
    else
      let iL := (klinear / (kstar * n)) ^ (1 / (n - 1))
      .ok ⟨kstar, n, iL, iL * (n - 1) / n, some klinear⟩
  | some kstar, none, some iL, some i0, none =>
    if iL = i0 then .ok (darcyLike kstar)
    else
      let n := iL / (iL - i0)
      .ok ⟨kstar, n, iL, i0, some (kstar * n * iL ^ (n - 1))⟩
  | some kstar, none, some iL, none, some klinear =>
    if iL = 0 then .ok (darcyLike klinear)
    else match fp (fun n => Real.log (klinear / kstar / n) / Real.log iL + 1) with
      | none => .error .other
      | some n => .ok ⟨kstar, n, iL, iL * (n - 1) / n, some klinear⟩
  | some kstar, none, none, some i0, some klinear =>
    if i0 = 0 then .ok (darcyLike klinear)
    else match fp (fun n => Real.log (klinear / kstar / n) / Real.log (i0 * n / (n - 1)) + 1) with
      | none => .error .other
      | some n => .ok ⟨kstar, n, i0 * n / (n - 1), i0, some klinear⟩
  | none, some n, some iL, none, some klinear =>
    if n = 1 ∨ iL = 0 then .ok (darcyLike klinear)
    else .ok ⟨klinear / (n * iL ^ (n - 1)), n, iL, iL * (n - 1) / n, some klinear⟩
  | none, some n, none, some i0, some klinear =>
    if n = 1 ∨ i0 = 0 then .ok (darcyLike klinear)
    else
      let iL := i0 * n / (n - 1)
      .ok ⟨klinear / (n * iL ^ (n - 1)), n, iL, i0, some klinear⟩
  | none, none, some iL, some i0, some klinear =>
    if iL - i0 = 0 then .error .zeroDivision
    else
      let n := iL / (iL - i0)
      .ok ⟨klinear / (n * iL ^ (n - 1)), n, iL, i0, some klinear⟩
  -- wrong number of parameters, or neither kstar nor klinear
  | _, _, _, _, _ => .error .typeError

/-- The checks and `vL` at the end of `__init__`, velocity_hydraulic_gradient.py:562-570. -/
noncomputable def hansboInit (fp : (ℝ → ℝ) → Option ℝ) (klinear kstar n i0 iL : Option ℝ) : Except PyErr Hansbo := do
  let a ← hansboAttrs fp klinear kstar n i0 iL
  if a.iL < a.i0 then .error .valueError
  else if a.iL ≤ a.i0 ∧ 0 < a.i0 then .error .valueError
  else if a.n < 1 then .error .valueError
  else match a.klinear with
    | none => .error .attributeError
    | some kl => .ok ⟨a.kstar, a.n, a.iL, a.i0, kl, kl * (a.iL - a.i0)⟩

/-- `v_from_i`, velocity_hydraulic_gradient.py:600-603. -/
noncomputable def Hansbo.vFromI (m : Hansbo) (i : ℝ) : ℝ :=
  (if |i| ≥ m.iL then m.klinear * (|i| - m.i0) else m.kstar * |i| ^ m.n) * npSign i * 1

/-- `i_from_v`, velocity_hydraulic_gradient.py:632-635. -/
noncomputable def Hansbo.iFromV (m : Hansbo) (v : ℝ) : ℝ :=
  (if |v| ≥ m.vL then |v| / m.klinear + m.i0 else (|v| / m.kstar) ^ (1 / m.n)) * npSign v * 1

/-- `dv_di`, velocity_hydraulic_gradient.py:661-664. -/
noncomputable def Hansbo.dvdi (m : Hansbo) (i : ℝ) : ℝ :=
  (if |i| ≥ m.iL then m.klinear else m.kstar * m.n * |i| ^ (m.n - 1)) * npSign i * 1

/-- `vdrain_strain_rate`, velocity_hydraulic_gradient.py:709-710. -/
noncomputable def Hansbo.strainRate (m : Hansbo) (eta head gamw : ℝ) : ℝ :=
  head ^ m.n * m.klinear * gamw ^ (m.n - 1) * eta

/-! ## void_ratio_stress.py -/

/-- `AvSoilModel.e_from_stress` and `stress_from_e`, void_ratio_stress.py:104, 130. -/
noncomputable def avE (av siga ea s : ℝ) : ℝ := ea - av * (s - siga)
noncomputable def avStress (av siga ea e : ℝ) : ℝ := siga + (ea - e) / av

/-- `CcCrSoilModel`, void_ratio_stress.py:168-187. -/
structure CcCr where
  Cc : ℝ
  Cr : ℝ
  siga : ℝ
  ea : ℝ

/-- `fact` in the source is the decimal 2.3025850929940459; the model takes its exact meaning `ln 10`. -/
noncomputable def fact : ℝ := Real.log 10

/-- `e_from_stress`, void_ratio_stress.py:229-245. `pstress = none`: keyword not given. -/
noncomputable def CcCr.eFromStress (m : CcCr) (estress : ℝ) (pstress : Option ℝ) : ℝ :=
  let p := pstress.getD estress
  let maxPast := max p estress
  (m.ea - m.Cc * log10 (maxPast / m.siga)) + m.Cr * log10 (maxPast / estress)

/-- `stress_from_e`, void_ratio_stress.py:288-314. -/
noncomputable def CcCr.stressFromE (m : CcCr) (e : ℝ) (pstress : Option ℝ) : ℝ :=
  match pstress with
  | none => m.siga * Real.exp (fact * (m.ea - e) / m.Cc)
  | some p =>
    let ep := m.ea - m.Cc * log10 (p / m.siga)
    let dpCc := p * (Real.exp (fact * (ep - e) / m.Cc) - 1)
    let dpCr := p * (Real.exp (fact * (ep - e) / m.Cr) - 1)
    p + min dpCc dpCr

/-- `av_from_stress`, void_ratio_stress.py:391-407; the decimal 0.43429448190325182 is `1/ln 10`. -/
noncomputable def CcCr.avFromStress (m : CcCr) (estress : ℝ) (pstress : Option ℝ) : ℝ :=
  let p := pstress.getD estress
  let Cx := if estress - p < 0 then m.Cr else m.Cc
  1 / Real.log 10 * Cx / estress

end Geotecha.Const
