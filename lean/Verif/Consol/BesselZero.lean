import Verif.Consol.SpecVary
import Verif.Consol.ZhuYin
import Mathlib.Analysis.Calculus.SmoothSeries
import Mathlib.Analysis.SpecialFunctions.Log.NegMulLog
import Mathlib.Analysis.SpecialFunctions.Pow.Real
import Mathlib.Analysis.SpecialFunctions.Exponential
import Mathlib.Analysis.Normed.Algebra.Exponential

/-! # Bessel functions of order 0

The power series of the functions of order 0 and 1 and the proof that they meet `Spec.IsBessel`: the claims that assume this contract speak about
something. -/

set_option autoImplicit false
set_option linter.unusedVariables false
open Real
namespace Geotecha.Consol.Bes

/-- Coefficients that shrink fast. -/
def Small (a : ℕ → ℝ) : Prop := ∃ C, ∀ k, |a k| ≤ C / k.factorial

/-- Value of the power series. -/
noncomputable def F (a : ℕ → ℝ) (y : ℝ) : ℝ := ∑' k, a k * y ^ k

/-- Coefficients of the derivative. -/
def D (a : ℕ → ℝ) (k : ℕ) : ℝ := (k + 1) * a (k + 1)

variable {a b : ℕ → ℝ}

theorem small_D (h : Small a) : Small (D a) := by
  obtain ⟨C, hC⟩ := h
  refine ⟨C, fun k => ?_⟩
  have h1 := hC (k + 1)
  rw [Nat.factorial_succ] at h1
  push_cast at h1
  unfold D
  rw [abs_mul, abs_of_pos (by positivity : (0:ℝ) < k + 1)]
  have hk : (0:ℝ) < k.factorial := by positivity
  calc ((k:ℝ) + 1) * |a (k + 1)| ≤ (k + 1) * (C / ((k + 1) * k.factorial)) := mul_le_mul_of_nonneg_left h1 (by positivity)
    _ = C / k.factorial := by field_simp

theorem small_summable (h : Small a) (y : ℝ) : Summable fun k => a k * y ^ k := by
  obtain ⟨C, hC⟩ := h
  refine Summable.of_norm_bounded (g := fun k => C * (|y| ^ k / k.factorial)) ((Real.summable_pow_div_factorial |y|).mul_left C) fun k => ?_
  rw [norm_eq_abs, abs_mul, abs_pow]
  calc |a k| * |y| ^ k ≤ C / k.factorial * |y| ^ k := mul_le_mul_of_nonneg_right (hC k) (by positivity)
    _ = _ := by ring

theorem F_deriv (h : Small a) (y : ℝ) : HasDerivAt (F a) (F (D a) y) y := by
  obtain ⟨C, hC⟩ := small_D h
  set M := |y| + 1 with hM
  have hM0 : 0 ≤ M := by positivity
  have key := hasDerivAt_tsum_of_isPreconnected (u := fun k => C * (M ^ (k - 1) / (k - 1).factorial)) (t := Set.Ioo (-M) M) (y₀ := 0) (y := y)
    (g := fun k y => a k * y ^ k) (g' := fun k y => a k * (k * y ^ (k - 1))) ?_ isOpen_Ioo isPreconnected_Ioo
    (fun k x hx => (hasDerivAt_pow k x).const_mul (a k)) ?_ ⟨by rw [hM]; linarith [abs_nonneg y], by rw [hM]; linarith [abs_nonneg y]⟩
    (small_summable h 0) ⟨by rw [hM]; linarith [neg_abs_le y], by rw [hM]; linarith [le_abs_self y]⟩
  · refine key.congr_deriv ?_
    unfold F
    have hs : Summable fun k => a k * (k * y ^ (k - 1)) := by
      rw [← summable_nat_add_iff 1]
      refine (small_summable (small_D h) y).congr fun k => ?_
      unfold D
      push_cast
      ring
    rw [hs.tsum_eq_zero_add]
    simp only [Nat.cast_zero, zero_mul, mul_zero, zero_add]
    refine tsum_congr fun k => ?_
    unfold D
    push_cast
    ring
  · rw [← summable_nat_add_iff 1]
    refine ((Real.summable_pow_div_factorial M).mul_left C).congr fun k => by rw [Nat.add_sub_cancel]
  · intro k x hx
    have hxM : |x| ≤ M := abs_le.2 ⟨hx.1.le, hx.2.le⟩
    cases k with
    | zero =>
      have : 0 ≤ C := by have := (abs_nonneg _).trans (hC 0); simpa using this
      simp [this]
    | succ k =>
      have e : a (k + 1) * (((k + 1 : ℕ) : ℝ) * x ^ (k + 1 - 1)) = D a k * x ^ k := by
        unfold D; push_cast; ring
      rw [e, norm_eq_abs, abs_mul, abs_pow, Nat.add_sub_cancel]
      have h0 : 0 ≤ C / k.factorial := (abs_nonneg _).trans (hC k)
      calc |D a k| * |x| ^ k ≤ C / k.factorial * M ^ k :=
            mul_le_mul (hC k) (pow_le_pow_left₀ (abs_nonneg x) hxM k) (by positivity) h0
        _ = _ := by ring

theorem F_cont (h : Small a) : Continuous (F a) := continuous_iff_continuousAt.2 fun y => (F_deriv h y).continuousAt

theorem F_zero : F a 0 = a 0 := by
  unfold F
  rw [tsum_eq_single 0 (fun k hk => by rw [zero_pow hk, mul_zero])]
  simp

theorem F_comb (y : ℝ) {c : ℕ → ℝ} (hb : Small b) (hc : ∀ k : ℕ, (k + 1 : ℝ) ^ 2 * b (k + 1) + b k = c k) :
    y * F (D (D b)) y + F (D b) y + F b y = F c y := by
  have h1 := small_summable (small_D (small_D hb)) y
  have h2 := small_summable (small_D hb) y
  have h3 := small_summable hb y
  have e1 : HasSum (fun k : ℕ => (k : ℝ) * (k + 1) * b (k + 1) * y ^ k) (y * F (D (D b)) y) := by
    rw [← hasSum_nat_add_iff' 1]
    simp only [Finset.range_one, Finset.sum_singleton, Nat.cast_zero, zero_mul, sub_zero]
    have := h1.hasSum.mul_left y
    have hf : (fun k : ℕ => ((k + 1 : ℕ) : ℝ) * (((k + 1 : ℕ) : ℝ) + 1) * b (k + 1 + 1) * y ^ (k + 1)) = fun k => y * (D (D b) k * y ^ k) := by
      funext k; unfold D; push_cast; ring
    rw [hf]
    exact this
  have h := (e1.add h2.hasSum).add h3.hasSum
  unfold F at h ⊢
  rw [← h.tsum_eq]
  refine tsum_congr fun k => ?_
  rw [← hc k]
  unfold D; ring

/-- Coefficients of `J₀` in powers of a quarter of the square. -/
noncomputable def ja (k : ℕ) : ℝ := (-1) ^ k / (k.factorial : ℝ) ^ 2

/-- Coefficients of the part of `π Y₀` without the logarithm. -/
noncomputable def ra (k : ℕ) : ℝ := -2 * (∑ i ∈ Finset.range k, 1 / ((i : ℝ) + 1)) * ja k

theorem abs_ja (k : ℕ) : |ja k| = 1 / (k.factorial : ℝ) ^ 2 := by
  unfold ja
  rw [abs_div, abs_pow, abs_neg, abs_one, one_pow, abs_of_pos (by positivity : (0:ℝ) < (k.factorial : ℝ) ^ 2)]

theorem ja_small : Small ja := ⟨1, fun k => by
  rw [abs_ja]
  have : (1:ℝ) ≤ k.factorial := by exact_mod_cast Nat.factorial_pos k
  exact one_div_le_one_div_of_le (by positivity) (by nlinarith)⟩

theorem ra_small : Small ra := ⟨2, fun k => by
  unfold ra
  rw [abs_mul, abs_mul, abs_ja, abs_neg, abs_two]
  have h1 : |∑ i ∈ Finset.range k, 1 / ((i : ℝ) + 1)| ≤ k := by
    rw [abs_of_nonneg (Finset.sum_nonneg fun i _ => by positivity)]
    calc ∑ i ∈ Finset.range k, 1 / ((i : ℝ) + 1) ≤ ∑ i ∈ Finset.range k, (1:ℝ) :=
          Finset.sum_le_sum fun i _ => by rw [div_le_one (by positivity)]; linarith [Nat.cast_nonneg (α := ℝ) i]
      _ = k := by simp
  have h2 : (k:ℝ) ≤ k.factorial := by exact_mod_cast Nat.self_le_factorial k
  have h3 : (0:ℝ) < k.factorial := by positivity
  calc 2 * |∑ i ∈ Finset.range k, 1 / ((i : ℝ) + 1)| * (1 / (k.factorial : ℝ) ^ 2) ≤ 2 * k.factorial * (1 / (k.factorial : ℝ) ^ 2) :=
        mul_le_mul_of_nonneg_right (by linarith) (by positivity)
    _ = 2 / k.factorial := by field_simp⟩

noncomputable def P : ℝ → ℝ := F ja
noncomputable def P1 : ℝ → ℝ := F (D ja)
noncomputable def P2 : ℝ → ℝ := F (D (D ja))
noncomputable def R : ℝ → ℝ := F ra
noncomputable def R1 : ℝ → ℝ := F (D ra)
noncomputable def R2 : ℝ → ℝ := F (D (D ra))

theorem ja_succ (k : ℕ) : (k + 1 : ℝ) ^ 2 * ja (k + 1) + ja k = 0 := by
  unfold ja
  rw [Nat.factorial_succ, pow_succ]
  push_cast
  field_simp
  ring

theorem P_ode (y : ℝ) : y * P2 y + P1 y + P y = 0 := by
  have := F_comb y (c := fun _ => 0) ja_small ja_succ
  unfold P P1 P2
  rw [this]; simp [F]

theorem R_ode (y : ℝ) : y * R2 y + R1 y + R y = -2 * P1 y := by
  have := F_comb y (c := fun k => -2 * D ja k) ra_small (fun k => by
    have h := ja_succ k
    have h2 : ja k = -((k + 1 : ℝ) ^ 2 * ja (k + 1)) := by linarith
    unfold ra D
    rw [Finset.sum_range_succ, h2]
    field_simp
    ring)
  unfold R R1 R2 P1
  rw [this]
  unfold F
  rw [← tsum_mul_left]
  exact tsum_congr fun k => by ring

theorem P_deriv (y : ℝ) : HasDerivAt P (P1 y) y := F_deriv ja_small y
theorem P1_deriv (y : ℝ) : HasDerivAt P1 (P2 y) y := F_deriv (small_D ja_small) y
theorem R_deriv (y : ℝ) : HasDerivAt R (R1 y) y := F_deriv ra_small y
theorem R1_deriv (y : ℝ) : HasDerivAt R1 (R2 y) y := F_deriv (small_D ra_small) y

theorem P_zero : P 0 = 1 := by unfold P; rw [F_zero]; simp [ja]

theorem wronskian (y : ℝ) : P y ^ 2 + y * (P y * R1 y - P1 y * R y) = 1 := by
  have hd : ∀ y, HasDerivAt (fun y => P y ^ 2 + y * (P y * R1 y - P1 y * R y)) 0 y := fun y => by
    refine (((P_deriv y).pow 2).add ((hasDerivAt_id y).mul (((P_deriv y).mul (R1_deriv y)).sub ((P1_deriv y).mul (R_deriv y))))).congr_deriv ?_
    have h1 := P_ode y
    have h2 := R_ode y
    simp only [Pi.mul_apply, Pi.sub_apply, id]
    linear_combination P y * h2 - R y * h1
  have := is_const_of_deriv_eq_zero (fun y => (hd y).differentiableAt) (fun y => (hd y).deriv) y 0
  rw [this, P_zero]; ring

/-- The part of `Y₀` and `Y₁` as functions of a quarter of the square. -/
noncomputable def Q (y : ℝ) : ℝ := P y * log y + R y
noncomputable def Q1 (y : ℝ) : ℝ := P1 y * log y + P y / y + R1 y
noncomputable def Q2 (y : ℝ) : ℝ := P2 y * log y + 2 * P1 y / y - P y / y ^ 2 + R2 y

theorem Q_deriv {y : ℝ} (hy : 0 < y) : HasDerivAt Q (Q1 y) y := by
  refine (((P_deriv y).mul (hasDerivAt_log hy.ne')).add (R_deriv y)).congr_deriv ?_
  unfold Q1; ring

theorem Q1_deriv {y : ℝ} (hy : 0 < y) : HasDerivAt Q1 (Q2 y) y := by
  refine ((((P1_deriv y).mul (hasDerivAt_log hy.ne')).add ((P_deriv y).div (hasDerivAt_id y) hy.ne')).add (R1_deriv y)).congr_deriv ?_
  unfold Q2
  simp only [id]
  field_simp
  ring

theorem Q_ode {y : ℝ} (hy : 0 < y) : y * Q2 y + Q1 y + Q y = 0 := by
  unfold Q Q1 Q2
  have h1 := P_ode y
  have h2 := R_ode y
  field_simp
  linear_combination (y * log y) * h1 + y * h2

theorem Q_wr {y : ℝ} (hy : 0 < y) : P y * Q1 y - P1 y * Q y = 1 / y := by
  have := wronskian y
  unfold Q Q1
  field_simp
  linarith

open Classical in
/-- Bessel functions of order -1, 0, 1 on positive arguments. -/
noncomputable def fns : BesselFns where
  J := fun nu x => if x ≤ 0 then 0 else if nu = 0 then P (x ^ 2 / 4) else if nu = -1 then x / 2 * P1 (x ^ 2 / 4) else -(x / 2 * P1 (x ^ 2 / 4))
  Y := fun nu x => if x ≤ 0 then 0 else if nu = 0 then Q (x ^ 2 / 4) / π else if nu = -1 then x / 2 * Q1 (x ^ 2 / 4) / π
    else -(x / 2 * Q1 (x ^ 2 / 4) / π)

theorem J0 {x : ℝ} (hx : 0 < x) : fns.J 0 x = P (x ^ 2 / 4) := by simp [fns, hx.not_ge]
theorem Jm {x : ℝ} (hx : 0 < x) : fns.J (-1) x = x / 2 * P1 (x ^ 2 / 4) := by simp [fns, hx.not_ge]
theorem J1 {x : ℝ} (hx : 0 < x) : fns.J 1 x = -(x / 2 * P1 (x ^ 2 / 4)) := by
  simp [fns, hx.not_ge, show ¬(1:ℝ) = -1 by norm_num]
theorem Y0 {x : ℝ} (hx : 0 < x) : fns.Y 0 x = Q (x ^ 2 / 4) / π := by simp [fns, hx.not_ge]
theorem Ym {x : ℝ} (hx : 0 < x) : fns.Y (-1) x = x / 2 * Q1 (x ^ 2 / 4) / π := by simp [fns, hx.not_ge]
theorem Y1 {x : ℝ} (hx : 0 < x) : fns.Y 1 x = -(x / 2 * Q1 (x ^ 2 / 4) / π) := by
  simp [fns, hx.not_ge, show ¬(1:ℝ) = -1 by norm_num]

theorem near {f g : ℝ → ℝ} {f' x : ℝ} (hx : 0 < x) (h : ∀ y, 0 < y → f y = g y) (hg : HasDerivAt g f' x) : HasDerivAt f f' x :=
  hg.congr_of_eventuallyEq (Filter.mem_of_superset (Ioi_mem_nhds hx) fun y hy => h y hy)

theorem sq_deriv (x : ℝ) : HasDerivAt (fun x : ℝ => x ^ 2 / 4) (x / 2) x := by
  refine ((hasDerivAt_pow 2 x).div_const 4).congr_deriv ?_
  norm_num; ring

/-- These functions meet the contract. -/
theorem isBessel : Spec.IsBessel fns.J fns.Y 0 := by
  have hp := pi_pos
  have hh : ∀ x : ℝ, HasDerivAt (fun x : ℝ => x / 2) (1 / 2) x := fun x => (hasDerivAt_id x).div_const 2
  have e1 : (0:ℝ) - 1 = -1 := by norm_num
  have e2 : (0:ℝ) + 1 = 1 := by norm_num
  constructor <;> intro x hx <;> have hy : (0:ℝ) < x ^ 2 / 4 := by positivity
  · rw [e1, e2, Jm hx, J1 hx]
    refine (near hx (fun y hy => J0 hy) ((P_deriv _).comp x (sq_deriv x))).congr_deriv ?_
    ring
  · rw [e1, e2, Ym hx, Y1 hx]
    refine (near hx (fun y hy => Y0 hy) ((HasDerivAt.comp (h₂ := Q) x (Q_deriv hy) (sq_deriv x)).div_const π)).congr_deriv ?_
    ring
  · rw [e1, e2, Jm hx, J1 hx]; ring
  · rw [e1, e2, Ym hx, Y1 hx]; ring
  · rw [e2, J0 hx, J1 hx]
    refine (near hx (fun y hy => J1 hy) (((hh x).mul ((P1_deriv _).comp x (sq_deriv x))).neg)).congr_deriv ?_
    have := P_ode (x ^ 2 / 4)
    simp only [Function.comp_apply]
    field_simp
    linarith
  · rw [e2, Y0 hx, Y1 hx]
    refine (near hx (fun y hy => Y1 hy) ((((hh x).mul (HasDerivAt.comp (h₂ := Q1) x (Q1_deriv hy) (sq_deriv x))).div_const π).neg)).congr_deriv ?_
    have := Q_ode hy
    simp only [Function.comp_apply]
    field_simp
    linarith
  · rw [e2, J0 hx, J1 hx, Y0 hx, Y1 hx]
    have := Q_wr hy
    field_simp at this ⊢
    linarith

end Geotecha.Consol.Bes
