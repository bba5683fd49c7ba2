import Verif.Constitutive.ModelSwcc
import Verif.Constitutive.Props
import Mathlib.Analysis.SpecialFunctions.Pow.Deriv
import Mathlib.Analysis.SpecialFunctions.Log.Deriv
import Mathlib.Analysis.SpecialFunctions.Exp
import Mathlib.Tactic.FieldSimp
import Mathlib.Tactic.LinearCombination
import Mathlib.Tactic.Ring
import Mathlib.Tactic.Positivity

set_option linter.unusedVariables false
namespace Geotecha.Const

/-! # C98: the slope handed back is the derivative of the curve -/

theorem logend_pos {p : ℝ} (h : 0 < p) : 0 < Real.log (1 + 1000000 / p) := by
  apply Real.log_pos
  have : 0 < 1000000 / p := by positivity
  linarith

theorem E_gt : 1 < Real.exp 1 := by
  have := Real.add_one_lt_exp (one_ne_zero (α := ℝ)); linarith

theorem FXlog_pos {a n psi : ℝ} (ha : 0 < a) (hp : 0 < psi) : 1 < Real.log (Real.exp 1 + (psi / a) ^ n) := by
  have : 0 < (psi / a) ^ n := Real.rpow_pos_of_pos (by positivity) _
  calc (1:ℝ) = Real.log (Real.exp 1) := by simp
    _ < _ := Real.log_lt_log (Real.exp_pos _) (by linarith)

/-- derivative of the correction factor -/
noncomputable def corrSlope (psir : ℝ) (c : Option ℝ) (psi : ℝ) : ℝ :=
  match c with
  | none => -(1 / (psir * (psi / psir + 1)) / Real.log (1 + 1000000 / psir))
  | some _ => 0

theorem corr_deriv {psir : ℝ} (c : Option ℝ) {psi : ℝ} (hr : 0 < psir) (hp : 0 < psi) :
    HasDerivAt (corrFactor psir c) (corrSlope psir c psi) psi := by
  cases c with
  | some v => exact hasDerivAt_const _ _
  | none =>
    have h1 : HasDerivAt (fun x : ℝ => 1 + x / psir) (1 / psir) psi :=
      ((hasDerivAt_id psi).div_const psir).const_add 1
    have hne : 1 + psi / psir ≠ 0 := by positivity
    refine (((h1.log hne).div_const (Real.log (1 + 1000000 / psir))).const_sub 1).congr_deriv ?_
    have := (logend_pos hr).ne'
    unfold corrSlope
    simp only
    field_simp
    ring

theorem FX_L_deriv {a n psi : ℝ} (ha : 0 < a) (hp : 0 < psi) :
    HasDerivAt (fun x => Real.log (Real.exp 1 + (x / a) ^ n))
      (n * (psi / a) ^ n / psi / (Real.exp 1 + (psi / a) ^ n)) psi := by
  have h0 : (0:ℝ) < psi / a := by positivity
  have h1 : HasDerivAt (fun x : ℝ => x / a) (1 / a) psi := (hasDerivAt_id psi).div_const a
  have h2 := (h1.rpow_const (p := n) (Or.inl h0.ne')).const_add (Real.exp 1)
  have hP : 0 < (psi / a) ^ n := Real.rpow_pos_of_pos h0 _
  have hne : Real.exp 1 + (psi / a) ^ n ≠ 0 := (add_pos (Real.exp_pos _) hP).ne'
  refine (h2.log hne).congr_deriv ?_
  rw [Real.rpow_sub_one h0.ne']
  field_simp

/-- Fredlund-Xing: at every suction `dw_dpsi` is the derivative of `w_from_psi`, with computed or manual correction. -/
theorem C98_fredlund_xing (s : FX) (ha : 0 < s.a) (hr : 0 < s.psir) (psi : ℝ) (hp : 0 < psi) :
    HasDerivAt s.w (s.dw psi) psi := by
  have hL := FX_L_deriv (n := s.n) ha hp
  have hLp := FXlog_pos (n := s.n) ha hp
  have hL0 : Real.log (Real.exp 1 + (psi / s.a) ^ s.n) ≠ 0 := by linarith
  have hpow := (hL.rpow_const (p := -s.m) (Or.inl hL0))
  have hc := (corr_deriv s.correction hr hp).mul_const s.ws
  have hw : s.w =ᶠ[nhds psi] fun x => corrFactor s.psir s.correction x * s.ws *
      Real.log (Real.exp 1 + (x / s.a) ^ s.n) ^ (-s.m) := by
    filter_upwards [lt_mem_nhds hp] with x hx
    unfold FX.w
    rw [Real.rpow_neg (by linarith [FXlog_pos (n := s.n) ha hx]), div_eq_mul_inv]
  refine ((hc.mul hpow).congr_of_eventuallyEq hw).congr_deriv ?_
  rw [Real.rpow_sub_one hL0]
  have h0 : (0:ℝ) < psi / s.a := by positivity
  have hP : 0 < (psi / s.a) ^ s.n := Real.rpow_pos_of_pos h0 _
  have hE := Real.exp_pos 1
  have hend := (logend_pos hr).ne'
  unfold FX.dw corrFactor corrSlope
  dsimp only
  rw [add_comm ((psi / s.a) ^ s.n) (Real.exp 1), add_comm (1:ℝ) (psi / s.psir)]
  have hs : Real.exp 1 + (psi / s.a) ^ s.n ≠ 0 := (add_pos hE hP).ne'
  have hq : psi / s.psir + 1 ≠ 0 := by positivity
  have hq' : psi + s.psir ≠ 0 := by positivity
  generalize Real.exp 1 + (psi / s.a) ^ s.n = S at *
  generalize Real.log S = L at *
  generalize L ^ (-s.m) = Q at *
  generalize (psi / s.a) ^ s.n = P at *
  generalize Real.log (1 + 1000000 / s.psir) = K at *
  generalize Real.log (psi / s.psir + 1) = J at *
  cases s.correction with
  | none => simp only; field_simp; ring
  | some c => simp only; field_simp; ring

example : HasDerivAt (FX.w ⟨427, 0.794, 0.613, 1, 3000, none⟩) (FX.dw ⟨427, 0.794, 0.613, 1, 3000, none⟩ 10000) 10000 :=
  C98_fredlund_xing _ (by norm_num) (by norm_num) _ (by norm_num)

/-- Pham-Fredlund: at every suction `dw_dpsi` is the derivative of `w_from_psi`, with computed or manual correction. -/
theorem C98_pham_fredlund (s : PF) (ha : 0 < s.a) (hr : 0 < s.psir) (psi : ℝ) (hp : 0 < psi) :
    HasDerivAt s.w (s.dw psi) psi := by
  have hB := Real.hasDerivAt_rpow_const (p := s.b) (Or.inl hp.ne' : psi ≠ 0 ∨ 1 ≤ s.b)
  have hP : 0 < psi ^ s.b := Real.rpow_pos_of_pos hp _
  have hD := hB.add_const s.a
  have hl : HasDerivAt log10 (psi⁻¹ / Real.log 10) psi := (Real.hasDerivAt_log hp.ne').div_const _
  have hN := (((hl.const_mul s.s1).const_sub s.ws).sub_const s.wr).mul_const s.a
  have hc := corr_deriv s.correction hr hp
  have hs : psi ^ s.b + s.a ≠ 0 := (add_pos hP ha).ne'
  refine (hc.mul ((hN.div hD hs).add_const s.wr)).congr_deriv ?_
  rw [Real.rpow_sub_one hp.ne']
  have h10 := log10_pos.ne'
  have hend := (logend_pos hr).ne'
  unfold PF.dw corrFactor corrSlope
  dsimp only
  have hlog : log10 psi = Real.log psi / Real.log 10 := rfl
  simp only [Pi.div_apply, hlog]
  rw [add_comm s.a (psi ^ s.b), add_comm (1:ℝ) (psi / s.psir)]
  have hq : psi / s.psir + 1 ≠ 0 := by positivity
  have hq' : psi + s.psir ≠ 0 := by positivity
  generalize psi ^ s.b = P at *
  generalize Real.log 10 = T at *
  generalize Real.log psi = G at *
  generalize Real.log (1 + 1000000 / s.psir) = K at *
  generalize Real.log (psi / s.psir + 1) = J at *
  cases s.correction with
  | none => simp only; field_simp; ring
  | some c => simp only; field_simp; ring

example : HasDerivAt (PF.init 0.262 3100000 3.377 0.128 0.115 none none).w
    ((PF.init 0.262 3100000 3.377 0.128 0.115 none none).dw 200) 200 :=
  C98_pham_fredlund _ (by norm_num [PF.init]) (by simp only [PF.init]; positivity) _ (by norm_num)

end Geotecha.Const
