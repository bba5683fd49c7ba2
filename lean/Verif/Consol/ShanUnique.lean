import Verif.Consol.ShanGalerkin
import Mathlib.Analysis.ODE.ExistUnique

/-! # The Galerkin solution is unique -/

set_option autoImplicit false
set_option linter.unusedVariables false
open Real MeasureTheory
namespace Geotecha.Consol.Spec.Unsat
open Geotecha.Consol

/-- a linear system with constant coefficients started at zero stays at zero -/
theorem lin_zero (a b c d : ℝ) {x y : ℝ → ℝ} (hx : ∀ t, HasDerivAt x (a * x t + b * y t) t)
    (hy : ∀ t, HasDerivAt y (c * x t + d * y t) t) (x0 : x 0 = 0) (y0 : y 0 = 0) (t : ℝ) : x t = 0 ∧ y t = 0 := by
  let A : ℝ × ℝ →L[ℝ] ℝ × ℝ :=
    (a • ContinuousLinearMap.fst ℝ ℝ ℝ + b • ContinuousLinearMap.snd ℝ ℝ ℝ).prod
      (c • ContinuousLinearMap.fst ℝ ℝ ℝ + d • ContinuousLinearMap.snd ℝ ℝ ℝ)
  have h1 : ∀ t, HasDerivAt (fun t => (x t, y t)) (A (x t, y t)) t := fun t => by
    have := (hx t).prodMk (hy t)
    simpa [A] using this
  have h2 : ∀ t, HasDerivAt (fun _ : ℝ => ((0:ℝ), (0:ℝ))) (A (0, 0)) t := fun t => by
    have := hasDerivAt_const t ((0:ℝ), (0:ℝ))
    refine this.congr_deriv ?_
    simp [A]; rfl
  have := ODE_solution_unique_univ (v := fun _ => A) (s := fun _ => Set.univ) (K := ‖A‖₊) (t₀ := 0)
    (f := fun t => (x t, y t)) (g := fun _ => (0, 0)) (fun t => A.lipschitz.lipschitzOnWith)
    (fun t => ⟨h1 t, trivial⟩) (fun t => ⟨h2 t, trivial⟩) (by simp [x0, y0])
  have := congrFun this t
  simpa using this

namespace Problem

open Classical in
/-- arguments with the same modes -/
noncomputable def dummy (P : Problem) : ShanArgs :=
  ⟨P.H, 0, 0, 0, 0, if P.impervious then 1 else 0, 0, 0, (0, 0), (0, 0), 0, none, none, none, none, none⟩

theorem dummy_drn (P : Problem) : P.dummy.drn = 0 ∨ P.dummy.drn = 1 := by
  unfold dummy; dsimp only; split_ifs <;> simp

theorem dummy_M (P : Problem) (k : ℕ) : P.dummy.M k = P.freq k := by
  unfold dummy ShanArgs.M freq; dsimp only
  by_cases h : P.impervious
  · simp only [h, if_true]; ring
  · simp [h]

theorem freq_pos (P : Problem) (k : ℕ) : 0 < P.freq k := by rw [← dummy_M]; exact ShanArgs.M_pos _ _

theorem proj (P : Problem) (hH : P.H ≠ 0) (n : ℕ) (A B : ℝ) (X : ℕ → ℝ) {j : ℕ} (hj : j < n) :
    ∫ z in (0:ℝ)..P.H, (A + B * z + ∑ k ∈ Finset.range n, X k * sin (P.freq k * z / P.H)) * sin (P.freq j * z / P.H) =
      A * (P.H / P.freq j * (1 - cos (P.freq j))) + B * (P.H ^ 2 / P.freq j ^ 2 * (sin (P.freq j) - P.freq j * cos (P.freq j)))
        + X j * (P.H / 2) := by
  have := ShanArgs.int_proj P.dummy (dummy_drn P) hH n A B X hj
  simp only [dummy_M] at this
  exact this

theorem sin_freq (P : Problem) (h : ¬ P.impervious) (k : ℕ) : sin (P.freq k) = 0 := by
  unfold freq
  rw [if_neg h]
  have := sin_nat_mul_pi (k + 1)
  push_cast at this; exact this

theorem cos_freq (P : Problem) (h : P.impervious) (k : ℕ) : cos (P.freq k) = 0 := by
  unfold freq
  rw [if_pos h, cos_eq_zero_iff]
  exact ⟨k, by push_cast; ring⟩

/-- the shape of a Galerkin solution in one phase -/
structure Form (P : Problem) (n : ℕ) (u : ℝ → ℝ → ℝ) (A B : ℝ → ℝ) (X : ℕ → ℝ → ℝ) : Prop where
  dA : Differentiable ℝ A
  dB : Differentiable ℝ B
  dX : ∀ k, Differentiable ℝ (X k)
  eq : ∀ z t, u z t = A t + B t * z + ∑ k ∈ Finset.range n, X k t * sin (P.freq k * z / P.H)

namespace Form
variable {P : Problem} {n : ℕ} {u : ℝ → ℝ → ℝ} {A B : ℝ → ℝ} {X : ℕ → ℝ → ℝ}

theorem dt (h : Form P n u A B X) (z t : ℝ) : deriv (fun s => u z s) t =
    deriv A t + deriv B t * z + ∑ k ∈ Finset.range n, deriv (X k) t * sin (P.freq k * z / P.H) := by
  simp_rw [h.eq]
  refine HasDerivAt.deriv ?_
  refine ((h.dA t).hasDerivAt.add ((h.dB t).hasDerivAt.mul_const z)).add ?_
  exact HasDerivAt.fun_sum fun k hk => (h.dX k t).hasDerivAt.mul_const _

theorem dz (h : Form P n u A B X) (z t : ℝ) : HasDerivAt (fun z => u z t)
    (B t + ∑ k ∈ Finset.range n, X k t * (cos (P.freq k * z / P.H) * (P.freq k / P.H))) z := by
  simp_rw [h.eq]
  refine HasDerivAt.add ?_ ?_
  · simpa using ((hasDerivAt_id z).const_mul (B t)).const_add (A t)
  · refine HasDerivAt.fun_sum fun k hk => ?_
    have d : HasDerivAt (fun z : ℝ => P.freq k * z / P.H) (P.freq k / P.H) z := by simpa using ((hasDerivAt_id z).const_mul (P.freq k)).div_const P.H
    exact d.sin.const_mul _

theorem dzz (h : Form P n u A B X) (z t : ℝ) : deriv (deriv (fun x => u x t)) z =
    ∑ k ∈ Finset.range n, -((P.freq k / P.H) ^ 2 * X k t * sin (P.freq k * z / P.H)) := by
  have e : deriv (fun x => u x t) = fun z => B t + ∑ k ∈ Finset.range n, X k t * (cos (P.freq k * z / P.H) * (P.freq k / P.H)) := by
    funext z; exact (h.dz z t).deriv
  rw [e]
  refine HasDerivAt.deriv ?_
  refine HasDerivAt.const_add _ (HasDerivAt.fun_sum fun k hk => ?_)
  have d : HasDerivAt (fun z : ℝ => P.freq k * z / P.H) (P.freq k / P.H) z := by simpa using ((hasDerivAt_id z).const_mul (P.freq k)).div_const P.H
  refine ((d.cos.mul_const _).const_mul _).congr_deriv ?_
  ring

end Form

/-- what the projections of the equations say about the amplitudes -/
theorem mode_eqs (P : Problem) (hH : P.H ≠ 0) {n : ℕ} {u : Fin 2 → ℝ → ℝ → ℝ} (hu : P.Galerkin n u)
    {A B : Fin 2 → ℝ → ℝ} {X : Fin 2 → ℕ → ℝ → ℝ} (hf : ∀ l, Form P n (u l) (A l) (B l) (X l)) {j : ℕ} (hj : j < n) (t : ℝ) :
    (deriv (A 0) t + P.Cw * deriv (A 1) t - P.Csw * deriv P.q t) * (P.H / P.freq j * (1 - cos (P.freq j)))
      + (deriv (B 0) t + P.Cw * deriv (B 1) t) * (P.H ^ 2 / P.freq j ^ 2 * (sin (P.freq j) - P.freq j * cos (P.freq j)))
      + (deriv (X 0 j) t + P.Cw * deriv (X 1 j) t - (P.freq j / P.H) ^ 2 * P.Cvw * X 0 j t) * (P.H / 2) = 0 ∧
    (P.Ca * deriv (A 0) t + deriv (A 1) t - P.Csa * deriv P.q t) * (P.H / P.freq j * (1 - cos (P.freq j)))
      + (P.Ca * deriv (B 0) t + deriv (B 1) t) * (P.H ^ 2 / P.freq j ^ 2 * (sin (P.freq j) - P.freq j * cos (P.freq j)))
      + (P.Ca * deriv (X 0 j) t + deriv (X 1 j) t - (P.freq j / P.H) ^ 2 * P.Cva * X 1 j t) * (P.H / 2) = 0 := by
  constructor
  · rw [← proj P hH n _ _ (fun k => deriv (X 0 k) t + P.Cw * deriv (X 1 k) t - (P.freq k / P.H) ^ 2 * P.Cvw * X 0 k t) hj]
    refine Eq.trans ?_ (hu.water j hj t)
    refine intervalIntegral.integral_congr fun z _ => ?_
    congr 1
    unfold resW
    rw [(hf 0).dt, (hf 1).dt, (hf 0).dzz]
    have : ∑ k ∈ Finset.range n, (deriv (X 0 k) t + P.Cw * deriv (X 1 k) t - (P.freq k / P.H) ^ 2 * P.Cvw * X 0 k t) * sin (P.freq k * z / P.H)
        = ∑ k ∈ Finset.range n, deriv (X 0 k) t * sin (P.freq k * z / P.H)
          + P.Cw * ∑ k ∈ Finset.range n, deriv (X 1 k) t * sin (P.freq k * z / P.H)
          + P.Cvw * ∑ k ∈ Finset.range n, -((P.freq k / P.H) ^ 2 * X 0 k t * sin (P.freq k * z / P.H)) := by
      rw [Finset.mul_sum, Finset.mul_sum, ← Finset.sum_add_distrib, ← Finset.sum_add_distrib]
      exact Finset.sum_congr rfl fun k _ => by ring
    rw [this]; ring
  · rw [← proj P hH n _ _ (fun k => P.Ca * deriv (X 0 k) t + deriv (X 1 k) t - (P.freq k / P.H) ^ 2 * P.Cva * X 1 k t) hj]
    refine Eq.trans ?_ (hu.air j hj t)
    refine intervalIntegral.integral_congr fun z _ => ?_
    congr 1
    unfold resA
    rw [(hf 0).dt, (hf 1).dt, (hf 1).dzz]
    have : ∑ k ∈ Finset.range n, (P.Ca * deriv (X 0 k) t + deriv (X 1 k) t - (P.freq k / P.H) ^ 2 * P.Cva * X 1 k t) * sin (P.freq k * z / P.H)
        = P.Ca * ∑ k ∈ Finset.range n, deriv (X 0 k) t * sin (P.freq k * z / P.H)
          + ∑ k ∈ Finset.range n, deriv (X 1 k) t * sin (P.freq k * z / P.H)
          + P.Cva * ∑ k ∈ Finset.range n, -((P.freq k / P.H) ^ 2 * X 1 k t * sin (P.freq k * z / P.H)) := by
      rw [Finset.mul_sum, Finset.mul_sum, ← Finset.sum_add_distrib, ← Finset.sum_add_distrib]
      exact Finset.sum_congr rfl fun k _ => by ring
    rw [this]; ring

/-- the linear part is fixed by the boundary conditions -/
theorem lift_eq (P : Problem) (hH : P.H ≠ 0) {n : ℕ} {u : Fin 2 → ℝ → ℝ → ℝ} (hu : P.Galerkin n u)
    {A B : Fin 2 → ℝ → ℝ} {X : Fin 2 → ℕ → ℝ → ℝ} (hf : ∀ l, Form P n (u l) (A l) (B l) (X l)) (l : Fin 2) :
    A l = P.top l ∧ (P.impervious → B l = P.bot l) ∧ (¬ P.impervious → B l = fun t => (P.bot l t - P.top l t) / P.H) := by
  have hA : A l = P.top l := by
    funext t
    have := hu.top l t
    rw [(hf l).eq] at this
    simpa using this
  have hMH : ∀ k, P.freq k * P.H / P.H = P.freq k := fun k => by field_simp
  refine ⟨hA, fun h => funext fun t => ?_, fun h => funext fun t => ?_⟩
  · have := ((hf l).dz P.H t).unique (hu.bottom_impervious h l t)
    simpa [hMH, cos_freq P h] using this
  · have := hu.bottom_pervious h l t
    rw [(hf l).eq] at this
    simp only [hMH, sin_freq P h, mul_zero, Finset.sum_const_zero, add_zero, hA] at this
    rw [← this]; field_simp; ring

theorem init_coef (P : Problem) (hH : P.H ≠ 0) (hi : ∀ l, Continuous (P.init l)) {n : ℕ} {u : Fin 2 → ℝ → ℝ → ℝ} (hu : P.Galerkin n u)
    {A B : Fin 2 → ℝ → ℝ} {X : Fin 2 → ℕ → ℝ → ℝ} (hf : ∀ l, Form P n (u l) (A l) (B l) (X l)) (l : Fin 2) {j : ℕ} (hj : j < n) :
    A l 0 * (P.H / P.freq j * (1 - cos (P.freq j))) + B l 0 * (P.H ^ 2 / P.freq j ^ 2 * (sin (P.freq j) - P.freq j * cos (P.freq j)))
        + X l j 0 * (P.H / 2) = ∫ z in (0:ℝ)..P.H, P.init l z * sin (P.freq j * z / P.H) := by
  rw [← proj P hH n _ _ (fun k => X l k 0) hj]
  have h := hu.initial l j hj
  simp_rw [sub_mul, (hf l).eq] at h
  have := hi l
  rw [intervalIntegral.integral_sub (Continuous.intervalIntegrable (by fun_prop) _ _) (Continuous.intervalIntegrable (by fun_prop) _ _)] at h
  linarith

theorem Galerkin.unique (P : Problem) (hH : P.H ≠ 0) (hC : P.Cw * P.Ca ≠ 1) (hi : ∀ l, Continuous (P.init l)) (n : ℕ)
    {u w : Fin 2 → ℝ → ℝ → ℝ} (hu : P.Galerkin n u) (hw : P.Galerkin n w) : u = w := by
  choose A B X h using hu.shape
  choose A' B' X' h' using hw.shape
  have hf : ∀ l, Form P n (u l) (A l) (B l) (X l) := fun l => ⟨(h l).1, (h l).2.1, (h l).2.2.1, (h l).2.2.2⟩
  have hf' : ∀ l, Form P n (w l) (A' l) (B' l) (X' l) := fun l => ⟨(h' l).1, (h' l).2.1, (h' l).2.2.1, (h' l).2.2.2⟩
  have hA : A = A' := by
    funext l; rw [(lift_eq P hH hu hf l).1, (lift_eq P hH hw hf' l).1]
  have hB : B = B' := by
    funext l
    by_cases hp : P.impervious
    · rw [(lift_eq P hH hu hf l).2.1 hp, (lift_eq P hH hw hf' l).2.1 hp]
    · rw [(lift_eq P hH hu hf l).2.2 hp, (lift_eq P hH hw hf' l).2.2 hp]
  subst hA hB
  have hX : ∀ l, ∀ j < n, ∀ t, X l j t = X' l j t := by
    intro l j hj t
    have hd : (1 - P.Cw * P.Ca) ≠ 0 := fun e => hC (by linarith)
    have z0 : ∀ l, X l j 0 - X' l j 0 = 0 := fun l => by
      have e1 := init_coef P hH hi hu hf l hj
      have e2 := init_coef P hH hi hw hf' l hj
      rw [← e2] at e1
      have : (X l j 0 - X' l j 0) * (P.H / 2) = 0 := by linear_combination e1
      rcases mul_eq_zero.1 this with h | h
      · exact h
      · exact absurd h (by simpa using hH)
    set α := (P.freq j / P.H) ^ 2 with hα
    have key : ∀ t, (deriv (X 0 j) t - deriv (X' 0 j) t) + P.Cw * (deriv (X 1 j) t - deriv (X' 1 j) t) = α * P.Cvw * (X 0 j t - X' 0 j t)
        ∧ P.Ca * (deriv (X 0 j) t - deriv (X' 0 j) t) + (deriv (X 1 j) t - deriv (X' 1 j) t) = α * P.Cva * (X 1 j t - X' 1 j t) := fun t => by
      have e1 := mode_eqs P hH hu hf hj t
      have e2 := mode_eqs P hH hw hf' hj t
      have hH2 : P.H / 2 ≠ 0 := by simpa using hH
      constructor
      · apply mul_right_cancel₀ hH2
        linear_combination e1.1 - e2.1
      · apply mul_right_cancel₀ hH2
        linear_combination e1.2 - e2.2
    have := lin_zero (α * P.Cvw / (1 - P.Cw * P.Ca)) (-(P.Cw * α * P.Cva) / (1 - P.Cw * P.Ca))
      (-(P.Ca * α * P.Cvw) / (1 - P.Cw * P.Ca)) (α * P.Cva / (1 - P.Cw * P.Ca))
      (x := fun t => X 0 j t - X' 0 j t) (y := fun t => X 1 j t - X' 1 j t)
      (fun t => (((hf 0).dX j t).hasDerivAt.sub ((hf' 0).dX j t).hasDerivAt).congr_deriv (by
        have k := key t
        rw [div_mul_eq_mul_div, div_mul_eq_mul_div, ← add_div, eq_div_iff hd]
        linear_combination k.1 - P.Cw * k.2))
      (fun t => (((hf 1).dX j t).hasDerivAt.sub ((hf' 1).dX j t).hasDerivAt).congr_deriv (by
        have k := key t
        rw [div_mul_eq_mul_div, div_mul_eq_mul_div, ← add_div, eq_div_iff hd]
        linear_combination k.2 - P.Ca * k.1)) (z0 0) (z0 1) t
    fin_cases l
    · exact sub_eq_zero.1 this.1
    · exact sub_eq_zero.1 this.2
  funext l z t
  rw [(hf l).eq, (hf' l).eq]
  congr 1
  exact Finset.sum_congr rfl fun k hk => by rw [hX l k (Finset.mem_range.1 hk) t]

end Problem
end Geotecha.Consol.Spec.Unsat
