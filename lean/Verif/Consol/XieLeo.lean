import Mathlib.Analysis.SpecialFunctions.Log.Basic
import Mathlib.MeasureTheory.Integral.IntervalIntegral.Basic
import Verif.Constitutive.Pwise
import Verif.Piecewise.Model

/-!
# Model of geotecha/consolidation/xieandleo2004.py

Reals for floats (`np.log` of a number that is not positive, a nan in the code, is mathlib's `log`: theorems carry the positivity).  The
arrays over depth, time and term are written as functions of one depth and one time and a sum over the terms.  `integrate.quad` is the
exact integral.
-/

open Real
namespace Geotecha.Consol

/-- Constructor arguments of `XieAndLeo2004`, xieandleo2004.py:99-112. -/
structure XieLeo where
  qu : ℝ
  qp : ℝ
  H : ℝ
  Hw : ℝ
  kv0 : ℝ
  mvl : ℝ
  e00 : ℝ
  Gs : ℝ
  gamw : ℝ
  nterms : ℕ

namespace XieLeo
open Finset

/-- `self.M = np.pi * (np.arange(self.nterms) + 0.5)`, xieandleo2004.py:121: entry `k`. -/
noncomputable def M (k : ℕ) : ℝ := π * ((k : ℝ) + 0.5)

/-- `self.cv0`, xieandleo2004.py:128. -/
noncomputable def cv0 (o : XieLeo) : ℝ := o.kv0 / (o.mvl * o.gamw)

/-- `self.dTv`, xieandleo2004.py:130. -/
noncomputable def dTv (o : XieLeo) : ℝ := o.cv0 / o.H ^ 2

/-- `Tv`, xieandleo2004.py:132-148. -/
noncomputable def Tv (o : XieLeo) (t : ℝ) : ℝ := o.dTv * t

/-- `e0`, xieandleo2004.py:150-167. -/
noncomputable def e0 (o : XieLeo) (a : ℝ) : ℝ := o.e00 - o.mvl * o.gamw * (o.Gs - 1) * a

/-- `efinal`, xieandleo2004.py:169-191. -/
noncomputable def efinal (o : XieLeo) (a : ℝ) : ℝ := (1 + o.e0 a) * exp (-o.mvl * o.qu) - 1

/-- `settlement_final`, xieandleo2004.py:193-195. -/
noncomputable def settlementFinal (o : XieLeo) : ℝ := o.H * (1 - exp (-o.mvl * o.qu))

/-- `initial_effective_stress`, xieandleo2004.py:197-219. -/
noncomputable def initialEffectiveStress (o : XieLeo) (a : ℝ) : ℝ :=
  o.qp + 1 / o.mvl * log ((1 + o.e00) / (1 + o.e00 - o.mvl * o.gamw * (o.Gs - 1) * a))

/-- `u_PTIB`, xieandleo2004.py:223-254. -/
noncomputable def uPTIB (o : XieLeo) (a t : ℝ) : ℝ :=
  log ((∑ k ∈ range o.nterms, 2 / M k * sin (M k * (a / o.H)) * exp (-M k ^ 2 * o.Tv t)) * (exp (o.mvl * o.qu) - 1) + 1) / o.mvl

/-- `u_PTPB`, xieandleo2004.py:256-287. -/
noncomputable def uPTPB (o : XieLeo) (a t : ℝ) : ℝ :=
  log ((∑ k ∈ range o.nterms, 2 / M k * sin (2 * M k * (a / o.H)) * exp (-4 * M k ^ 2 * o.Tv t)) * (exp (o.mvl * o.qu) - 1) + 1) / o.mvl

/-- `settlement_PTIB`, xieandleo2004.py:289-320. -/
noncomputable def settlementPTIB (o : XieLeo) (a t : ℝ) : ℝ :=
  (-(∑ k ∈ range o.nterms, 2 / M k ^ 2 * cos (M k * (a / o.H)) * exp (-M k ^ 2 * o.Tv t)) + (1 - a / o.H)) *
    (1 - exp (-o.mvl * o.qu)) * o.H

/-- `settlement_PTPB`, xieandleo2004.py:322-353. -/
noncomputable def settlementPTPB (o : XieLeo) (a t : ℝ) : ℝ :=
  (-(∑ k ∈ range o.nterms, 1 / M k ^ 2 * (1 + cos (2 * M k * (a / o.H))) * exp (-4 * M k ^ 2 * o.Tv t)) + (1 - a / o.H)) *
    (1 - exp (-o.mvl * o.qu)) * o.H

/-- `Us_PTIB`, xieandleo2004.py:355-381. -/
noncomputable def usPTIB (o : XieLeo) (t : ℝ) : ℝ :=
  (∑ k ∈ range o.nterms, 2 / M k ^ 2 * exp (-M k ^ 2 * o.Tv t)) * (-1) + 1

/-- `Us_PTPB`, xieandleo2004.py:383-409. -/
noncomputable def usPTPB (o : XieLeo) (t : ℝ) : ℝ :=
  (∑ k ∈ range o.nterms, 2 / M k ^ 2 * exp (-4 * M k ^ 2 * o.Tv t)) * (-1) + 1

/-- `Up_PTIB`, xieandleo2004.py:413-442 (`integrate.quad` taken to be exact). -/
noncomputable def upPTIB (o : XieLeo) (t : ℝ) : ℝ := 1 - 1 / (o.H * o.qu) * ∫ a in (0:ℝ)..o.H, o.uPTIB a t

/-- `Up_PTPB`, xieandleo2004.py:445-474 (`integrate.quad` taken to be exact). -/
noncomputable def upPTPB (o : XieLeo) (t : ℝ) : ℝ := 1 - 1 / (o.H * o.qu) * ∫ a in (0:ℝ)..o.H, o.uPTPB a t

/-- `xi_PTIB`, xieandleo2004.py:845-865. -/
noncomputable def xiPTIB (o : XieLeo) (a t : ℝ) : ℝ := a + o.settlementPTIB a t

/-- `xi_PTPB`, xieandleo2004.py:867-888. -/
noncomputable def xiPTPB (o : XieLeo) (a t : ℝ) : ℝ := a + o.settlementPTPB a t

/-- `total_pore_pressure_PTIB`, xieandleo2004.py:580-605. -/
noncomputable def totalPorePTIB (o : XieLeo) (a t : ℝ) : ℝ := o.uPTIB a t + o.gamw * (o.Hw + a + o.settlementPTIB a t)

/-- `total_pore_pressure_PTPB`, xieandleo2004.py:607-632. -/
noncomputable def totalPorePTPB (o : XieLeo) (a t : ℝ) : ℝ := o.uPTPB a t + o.gamw * (o.Hw + a + o.settlementPTPB a t)

/-- `e_PTIB`, xieandleo2004.py:634-664. -/
noncomputable def ePTIB (o : XieLeo) (a t : ℝ) : ℝ :=
  (∑ k ∈ range o.nterms, 2 / M k * sin (M k * (a / o.H)) * exp (-M k ^ 2 * o.Tv t)) * (o.e0 a - o.efinal a) + o.efinal a

/-- `e_PTPB`, xieandleo2004.py:666-696. -/
noncomputable def ePTPB (o : XieLeo) (a t : ℝ) : ℝ :=
  (∑ k ∈ range o.nterms, 2 / M k * sin (2 * M k * (a / o.H)) * exp (-4 * M k ^ 2 * o.Tv t)) * (o.e0 a - o.efinal a) + o.efinal a

/-- `vs_PTIB`, xieandleo2004.py:698-729. -/
noncomputable def vsPTIB (o : XieLeo) (a t : ℝ) : ℝ :=
  (∑ k ∈ range o.nterms, cos (M k * (a / o.H)) * exp (-M k ^ 2 * o.Tv t)) * (1 - exp (-o.mvl * o.qu)) * (2 * o.cv0 / o.H)

/-- `vs_PTPB`, xieandleo2004.py:731-762. -/
noncomputable def vsPTPB (o : XieLeo) (a t : ℝ) : ℝ :=
  (∑ k ∈ range o.nterms, (1 + cos (2 * M k * (a / o.H))) * exp (-4 * M k ^ 2 * o.Tv t)) * (1 - exp (-o.mvl * o.qu)) * (4 * o.cv0 / o.H)

/-- `vw_PTIB`, xieandleo2004.py:764-798. -/
noncomputable def vwPTIB (o : XieLeo) (a t : ℝ) : ℝ :=
  (∑ k ∈ range o.nterms, cos (M k * (a / o.H)) * exp (-M k ^ 2 * o.Tv t)) * (1 - exp (-o.mvl * o.qu)) * (2 * o.cv0 / o.H) / o.ePTIB a t

/-- `f1` of `vw_PTPB`, xieandleo2004.py:828-832. -/
noncomputable def vwF1 (o : XieLeo) (a t : ℝ) : ℝ :=
  (∑ k ∈ range o.nterms, exp (-4 * M k ^ 2 * o.Tv t)) * (1 - exp (-o.mvl * o.qu)) * (4 * o.cv0 / o.H) * (1 + o.ePTPB a t) / o.ePTPB a t

/-- `f2` of `vw_PTPB`, xieandleo2004.py:837-841. -/
noncomputable def vwF2 (o : XieLeo) (a t : ℝ) : ℝ :=
  (∑ k ∈ range o.nterms, (1 + cos (2 * M k * (a / o.H))) * exp (-4 * M k ^ 2 * o.Tv t)) * (1 - exp (-o.mvl * o.qu)) *
    (2 * o.cv0 / o.H) / o.ePTPB a t

/-- `vw_PTPB`, xieandleo2004.py:800-843. -/
noncomputable def vwPTPB (o : XieLeo) (a t : ℝ) : ℝ := o.vwF1 a t - o.vwF2 a t

/-- `effective_stress_PTIB`, xieandleo2004.py:478-500: `qu` is not a name of the function but of the module; `g` is what the module has bound
to it (nothing: `NameError`). -/
noncomputable def effectiveStressPTIB (g : Option ℝ) (o : XieLeo) (a t : ℝ) : Except PyErr ℝ :=
  match g with
  | none => .error .other
  | some qu => .ok (o.initialEffectiveStress a + qu - o.uPTIB a t)

/-- `effective_stress_PTPB`, xieandleo2004.py:502-524. -/
noncomputable def effectiveStressPTPB (g : Option ℝ) (o : XieLeo) (a t : ℝ) : Except PyErr ℝ :=
  match g with
  | none => .error .other
  | some qu => .ok (o.initialEffectiveStress a + qu - o.uPTPB a t)

/-- `total_stress_PTIB`, xieandleo2004.py:526-551. -/
noncomputable def totalStressPTIB (g : Option ℝ) (o : XieLeo) (a t : ℝ) : Except PyErr ℝ :=
  match g with
  | none => .error .other
  | some qu => .ok (o.initialEffectiveStress a + qu + o.gamw * (o.Hw + a + o.settlementPTIB a t))

/-- `total_stress_PTPB`, xieandleo2004.py:553-578. -/
noncomputable def totalStressPTPB (g : Option ℝ) (o : XieLeo) (a t : ℝ) : Except PyErr ℝ :=
  match g with
  | none => .error .other
  | some qu => .ok (o.initialEffectiveStress a + qu + o.gamw * (o.Hw + a + o.settlementPTPB a t))

/-- What `import geotecha.consolidation.xieandleo2004` binds to the module's name `qu`: nothing (xieandleo2004.py:1-96 imports, 1141-1391
functions; the assignments to `qu` there are local to functions or under `if 0`). -/
def moduleQu : Option ℝ := none

/-- `np.logspace(np.log10(lo), np.log10(hi), num)`: `10 ** (log10 lo + i * (log10 hi - log10 lo) / (num - 1))`. -/
noncomputable def logspace (lo hi : ℝ) (num : ℕ) : List ℝ :=
  (List.range num).map fun i : ℕ =>
    (10 : ℝ) ^ (log lo / log 10 + (i : ℝ) * ((log hi / log 10 - log lo / log 10) / ((num : ℝ) - 1)))

/-- `t_from_Us_PTIB`, xieandleo2004.py:1092-1114. -/
noncomputable def tFromUsPTIB (o : XieLeo) (us : ℝ) : ℝ :=
  Const.npInterp us ((logspace (0.0001 / o.dTv) (10 / o.dTv) 500).map fun t => (o.usPTIB t, t))

/-- `t_from_Us_PTPB`, xieandleo2004.py:1116-1138. -/
noncomputable def tFromUsPTPB (o : XieLeo) (us : ℝ) : ℝ :=
  Const.npInterp us ((logspace (0.0001 / o.dTv) (10 / o.dTv) 500).map fun t => (o.usPTPB t, t))

end XieLeo
end Geotecha.Consol
