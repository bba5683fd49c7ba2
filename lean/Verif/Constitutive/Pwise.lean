import Verif.Constitutive.Model

/-! # Model of the piecewise linear constitutive models (void_ratio_permeability.py:231-480, void_ratio_stress.py:410-991) -/

namespace Geotecha.Const

/-- `np.interp(x, xp, fp)` for increasing `xp` (numpy's documented semantics: linear in between, end values outside). -/
noncomputable def npInterp (x : ℝ) : List (ℝ × ℝ) → ℝ
  | [] => 0
  | [p] => p.2
  | p :: q :: r =>
    if x < p.1 then p.2
    else if x < q.1 then (q.2 - p.2) / (q.1 - p.1) * (x - p.1) + p.2
    else npInterp x (q :: r)

/-- `np.any(np.diff(l) <= 0)`. -/
noncomputable def anyDiffNonpos : List ℝ → Bool
  | a :: b :: r => decide (b - a ≤ 0) || anyDiffNonpos (b :: r)
  | _ => false

/-- `np.interp(x, xp[sl], fp[sl])` where `sl` is the slice chosen by the order of `key` (`[::-1]` if not increasing). -/
noncomputable def interpSl (key xp fp : List ℝ) (x : ℝ) : ℝ :=
  npInterp x (if anyDiffNonpos key then (List.zip xp fp).reverse else List.zip xp fp)

/-- `PwiseLinearPermeabilityModel` and `PwiseLinearSoilModel` data: x values (`ka`/`siga`), y values (`ea`), flags. -/
structure PwData where
  xs : List ℝ
  ea : List ℝ
  xlog : Bool
  ylog : Bool

/-- Length check of the constructors, void_ratio_permeability.py:273-274, void_ratio_stress.py:455-456. -/
def pwInit (xs ea : List ℝ) (xlog ylog : Bool) : Except PyErr PwData :=
  if xs.length ≠ ea.length then .error .indexError else .ok ⟨xs, ea, xlog, ylog⟩

/-- The data used for interpolation, `self.log_ka`/`self.ka`. -/
noncomputable def PwData.X (d : PwData) : List ℝ := if d.xlog then d.xs.map log10 else d.xs
noncomputable def PwData.Y (d : PwData) : List ℝ := if d.ylog then d.ea.map log10 else d.ea
/-- Transformation of an argument and back. -/
noncomputable def tr (b : Bool) (x : ℝ) : ℝ := if b then log10 x else x
noncomputable def untr (b : Bool) (x : ℝ) : ℝ := if b then (10:ℝ) ^ x else x

/-- `e_from_k`, void_ratio_permeability.py:347-363. -/
noncomputable def PwData.eFromK (d : PwData) (k : ℝ) : ℝ := untr d.ylog (interpSl d.xs d.X d.Y (tr d.xlog k))

/-- `k_from_e`, void_ratio_permeability.py:432-447. -/
noncomputable def PwData.kFromE (d : PwData) (e : ℝ) : ℝ := untr d.xlog (interpSl d.ea d.Y d.X (tr d.ylog e))

/-- `PwiseLinearSoilModel.e_from_stress`, void_ratio_stress.py:588-617. -/
noncomputable def PwData.eFromStress (d : PwData) (Cr estress : ℝ) (pstress : Option ℝ) : ℝ :=
  let p := pstress.getD estress
  let mp := tr d.xlog (max p estress)
  untr d.ylog (interpSl d.xs d.X d.Y mp + Cr * (mp - tr d.xlog estress))

/-- `PwiseLinearSoilModel.stress_from_e`, void_ratio_stress.py:746-792. -/
noncomputable def PwData.stressFromE (d : PwData) (Cr e : ℝ) (pstress : Option ℝ) : ℝ :=
  let e := tr d.ylog e
  match pstress with
  | none => untr d.xlog (interpSl d.ea d.Y d.X e)
  | some p =>
    let p := tr d.xlog p
    let ep := interpSl d.xs d.X d.Y p
    let dpi := interpSl d.ea d.Y d.X e - p
    let dpCr := (ep - e) / Cr
    untr d.xlog (p + min dpi dpCr)

/-- `np.searchsorted(l, x)` (left): number of elements below `x` (for increasing `l`). -/
noncomputable def searchsorted (l : List ℝ) (x : ℝ) : ℕ := (l.takeWhile (fun a => decide (a < x))).length

/-- `PwiseLinearSoilModel.av_from_stress`, void_ratio_stress.py:953-991 (`fact` is `ln 10`); `i - 1` may be `-1`. -/
noncomputable def PwData.avFromStress (d : PwData) (Cr estress : ℝ) (pstress : Option ℝ) : Except PyErr ℝ :=
  let p := pstress.getD estress
  let mp := tr d.xlog (max p estress)
  let es := tr d.xlog estress
  let sl (l : List ℝ) := if anyDiffNonpos d.xs then l.reverse else l
  let sg := sl d.X
  let ea := sl d.Y
  let i := searchsorted sg mp
  if i ≥ sg.length then .error .indexError
  else
    let im := if i = 0 then sg.length - 1 else i - 1
    let Cc := (ea.getD im 0 - ea.getD i 0) / (sg.getD i 0 - sg.getD im 0)
    let e := (ea.getD im 0 - Cc * (mp - sg.getD im 0)) + Cr * (mp - es)
    let Cx := if mp > es then Cr else Cc
    let dy := if d.ylog then fact * (10:ℝ) ^ e else 1
    let dx := if d.xlog then fact * (10:ℝ) ^ es else 1
    .ok (Cx * dy / dx)

end Geotecha.Const
