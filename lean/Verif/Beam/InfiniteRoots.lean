import Verif.Beam.InfiniteDecay
import Mathlib.Analysis.Complex.Polynomial.Basic
import Mathlib.Algebra.Polynomial.Roots
import Mathlib.Topology.Order.IntermediateValue
import Mathlib.Tactic.IntervalCases

/-!
# Infinite beam: where the roots lie, and what the response is (C219)
-/
set_option autoImplicit false
set_option linter.unusedVariables false

namespace Geotecha.Beam

open Complex Filter Topology Set

/-! ## Factorisation into two real quadratics -/

theorem exists_factor (α β : ℝ) (hab : α * β ≠ 0 ∨ α ^ 2 < 1) :
    ∃ a b c : ℝ, 0 < a ∧ 0 < b ∧ 0 < c ∧ ∀ z : ℂ, z ^ 4 + 4 * (α : ℂ) ^ 2 * z ^ 2 - 8 * α * β * z + 4
      = (z ^ 2 + a * z + b) * (z ^ 2 - a * z + c) := by
  -- a root of the resolvent
  obtain ⟨A, hA, hres⟩ : ∃ A : ℝ, 0 < A ∧ A * (4 * α ^ 2 + A) ^ 2 - 16 * A - 64 * (α * β) ^ 2 = 0 := by
    by_cases h0 : α * β = 0
    · have h1 : α ^ 2 < 1 := by rcases hab with h | h; exact absurd h0 h; exact h
      exact ⟨4 - 4 * α ^ 2, by linarith, by rw [h0]; ring⟩
    · set f : ℝ → ℝ := fun A => A * (4 * α ^ 2 + A) ^ 2 - 16 * A - 64 * (α * β) ^ 2 with hf
      have hc : ContinuousOn f (Icc 0 (5 + 64 * (α * β) ^ 2)) := by
        apply Continuous.continuousOn; rw [hf]; fun_prop
      have hp : 0 < (α * β) ^ 2 := by positivity
      have f0 : f 0 ≤ 0 := by simp only [hf]; nlinarith
      have f1 : 0 ≤ f (5 + 64 * (α * β) ^ 2) := by
        simp only [hf]
        set t := 64 * (α * β) ^ 2 with ht
        have htp : 0 < t := by positivity
        have h1 : (5 + t) ^ 2 ≤ (4 * α ^ 2 + (5 + t)) ^ 2 := by nlinarith [sq_nonneg α]
        nlinarith [mul_le_mul_of_nonneg_left h1 (by linarith : (0:ℝ) ≤ 5 + t)]
      obtain ⟨A, ⟨hA0, _⟩, hA⟩ := intermediate_value_Icc (by positivity) hc ⟨f0, f1⟩
      refine ⟨A, lt_of_le_of_ne hA0 ?_, hA⟩
      rintro rfl
      simp only [hf] at hA
      nlinarith
  have ha : 0 < Real.sqrt A := Real.sqrt_pos.mpr hA
  have haa : Real.sqrt A ^ 2 = A := Real.sq_sqrt hA.le
  set a := Real.sqrt A with hadef
  set b := (4 * α ^ 2 + A + 8 * (α * β) / a) / 2 with hb
  set c := (4 * α ^ 2 + A - 8 * (α * β) / a) / 2 with hc
  have hbc : b * c = 4 := by
    have e : b * c = ((4 * α ^ 2 + A) ^ 2 - 64 * (α * β) ^ 2 / a ^ 2) / 4 := by
      rw [hb, hc]; field_simp; ring
    rw [e, haa]
    have : 64 * (α * β) ^ 2 / A = (4 * α ^ 2 + A) ^ 2 - 16 := by
      rw [div_eq_iff hA.ne']; linarith
    rw [this]; ring
  have hsum : b + c = 4 * α ^ 2 + a ^ 2 := by rw [hb, hc, haa]; ring
  have hdif : a * (b - c) = 8 * (α * β) := by rw [hb, hc]; field_simp; ring
  have hbp : 0 < b := by
    by_contra hn
    push Not at hn
    have hcn : c < 0 := by
      by_contra hcn; push Not at hcn; nlinarith
    have := sq_nonneg α
    nlinarith
  have hcp : 0 < c := by
    by_contra hn; push Not at hn; nlinarith
  refine ⟨a, b, c, ha, hbp, hcp, fun z => ?_⟩
  have h1 : (b : ℂ) * c = 4 := by exact_mod_cast hbc
  have h2 : (b : ℂ) + c = 4 * α ^ 2 + a ^ 2 := by exact_mod_cast hsum
  have h3 : (a : ℂ) * (b - c) = 8 * (α * β) := by exact_mod_cast hdif
  linear_combination -h1 - z ^ 2 * h2 + z * h3

/-- A root of `z² + a z + b` with `a, b > 0` lies in the open left half plane. -/
theorem quad_left {a b : ℝ} (ha : 0 < a) (hb : 0 < b) {z : ℂ} (hz : z ^ 2 + a * z + b = 0) : z.re < 0 := by
  have h1 := congrArg Complex.re hz
  have h2 := congrArg Complex.im hz
  simp [pow_two] at h1 h2
  by_contra hn
  push Not at hn
  have : z.im * (2 * z.re + a) = 0 := by linarith
  rcases mul_eq_zero.mp this with h | h
  · rw [h] at h1; nlinarith
  · linarith

theorem quad_right {a b : ℝ} (ha : 0 < a) (hb : 0 < b) {z : ℂ} (hz : z ^ 2 - a * z + b = 0) : 0 < z.re := by
  have : (-z).re < 0 := quad_left ha hb (z := -z) (by linear_combination hz)
  simpa using this

theorem quad_split (p q : ℂ) : ∃ u v : ℂ, ∀ z, z ^ 2 + p * z + q = (z - u) * (z - v) := by
  obtain ⟨d, hd⟩ := IsAlgClosed.exists_pow_nat_eq (p ^ 2 - 4 * q) (n := 2) (by norm_num)
  refine ⟨(-p + d) / 2, (-p - d) / 2, fun z => ?_⟩
  linear_combination (1 / 4) * hd

/-- Two lists of four linear factors of one polynomial hold the same numbers. -/
theorem four_perm (γ : Fin 4 → ℂ) (u v p q : ℂ)
    (h : ∀ z, (z - γ 0) * (z - γ 1) * (z - γ 2) * (z - γ 3) = (z - u) * (z - v) * (z - p) * (z - q)) :
    ({γ 0, γ 1, γ 2, γ 3} : Multiset ℂ) = {u, v, p, q} := by
  classical
  have e : ∀ a b c d : ℂ, (Polynomial.X - Polynomial.C a) * (Polynomial.X - Polynomial.C b)
      * (Polynomial.X - Polynomial.C c) * (Polynomial.X - Polynomial.C d)
      = (({a, b, c, d} : Multiset ℂ).map fun x => Polynomial.X - Polynomial.C x).prod := by
    intro a b c d
    simp [mul_assoc]
  have hp : (Polynomial.X - Polynomial.C (γ 0)) * (Polynomial.X - Polynomial.C (γ 1))
      * (Polynomial.X - Polynomial.C (γ 2)) * (Polynomial.X - Polynomial.C (γ 3))
      = (Polynomial.X - Polynomial.C u) * (Polynomial.X - Polynomial.C v)
      * (Polynomial.X - Polynomial.C p) * (Polynomial.X - Polynomial.C q) := by
    apply Polynomial.funext
    intro z
    simpa using h z
  rw [e, e] at hp
  have := congrArg Polynomial.roots hp
  rwa [Polynomial.roots_multiset_prod_X_sub_C, Polynomial.roots_multiset_prod_X_sub_C] at this

/-- **C219** With damping and motion (`alp * bet ≠ 0`), or below the critical velocity (`|alp| < 1`), exactly
two of the four roots lie in each open half plane: an order as assumed by the code exists. -/
theorem C219_two_roots_each_side (α β : ℝ) (γ : Fin 4 → ℂ) (h : IsRoots α β γ)
    (hab : α * β ≠ 0 ∨ α ^ 2 < 1) :
    (Finset.univ.filter fun j => (γ j).re < 0).card = 2
    ∧ (Finset.univ.filter fun j => 0 < (γ j).re).card = 2 := by
  classical
  obtain ⟨a, b, c, ha, hb, hc, hf⟩ := exists_factor α β hab
  obtain ⟨u, v, huv⟩ := quad_split a b
  obtain ⟨p, q, hpq⟩ := quad_split (-a) c
  have hperm := four_perm γ u v p q (fun z => by
    rw [← h z, hf z, huv z, show z ^ 2 - (a:ℂ) * z + c = z ^ 2 + (-a) * z + c by ring, hpq z]; ring)
  have hu : u.re < 0 := quad_left ha hb (by rw [huv]; ring)
  have hv : v.re < 0 := quad_left ha hb (by rw [huv]; ring)
  have hp : 0 < p.re := quad_right ha hc (by
    rw [show p ^ 2 - (a:ℂ) * p + c = p ^ 2 + (-a) * p + c by ring, hpq]; ring)
  have hq : 0 < q.re := quad_right ha hc (by
    rw [show q ^ 2 - (a:ℂ) * q + c = q ^ 2 + (-a) * q + c by ring, hpq]; ring)
  have card : ∀ (P : ℂ → Prop) [DecidablePred P],
      (Finset.univ.filter fun j => P (γ j)).card = Multiset.countP P {γ 0, γ 1, γ 2, γ 3} := by
    intro P _
    rw [Finset.card_filter, Fin.sum_univ_four]
    simp only [Multiset.insert_eq_cons, Multiset.countP_cons, ← Multiset.cons_zero, Multiset.countP_zero]
    ring
  constructor
  · rw [card (fun z => z.re < 0), hperm]
    simp only [Multiset.insert_eq_cons, Multiset.countP_cons, ← Multiset.cons_zero, Multiset.countP_zero]
    rw [if_pos hu, if_pos hv, if_neg (by linarith), if_neg (by linarith)]
  · rw [card (fun z => 0 < z.re), hperm]
    simp only [Multiset.insert_eq_cons, Multiset.countP_cons, ← Multiset.cons_zero, Multiset.countP_zero]
    rw [if_pos hp, if_pos hq, if_neg (by linarith), if_neg (by linarith)]

/-- **C219** Otherwise (no damping, at or above the critical velocity) all roots are imaginary, so the
returned displacement dies out on neither side, in whatever order the roots are listed. -/
theorem C219_undamped_supercritical (α β : ℝ) (γ : Fin 4 → ℂ) (h : IsRoots α β γ)
    (h0 : α * β = 0) (h1 : 1 ≤ α ^ 2) :
    (∀ j, (γ j).re = 0)
    ∧ ∀ w : ℝ → ℂ, (∀ slim npts, movingLoad γ slim npts
        = .ok (linspaceN slim.1 slim.2 npts, (linspaceN slim.1 slim.2 npts).map w)) →
      ¬ Tendsto w atTop (𝓝 0) ∧ ¬ Tendsto w atBot (𝓝 0) := by
  have im : ∀ j, (γ j).re = 0 := by
    intro j
    have r := root_pow h j
    have h0' : (α : ℂ) * β = 0 := by exact_mod_cast h0
    have e : (γ j ^ 2 + 2 * α ^ 2) ^ 2 = ((4 * (α ^ 4 - 1) : ℝ) : ℂ) := by
      push_cast
      linear_combination r + 8 * γ j * h0'
    have hD : 0 ≤ 4 * (α ^ 4 - 1) := by nlinarith
    set D := Real.sqrt (4 * (α ^ 4 - 1)) with hDdef
    have hDD : D ^ 2 = 4 * (α ^ 4 - 1) := Real.sq_sqrt hD
    have hDlt : D < 2 * α ^ 2 := by
      have : 0 ≤ D := Real.sqrt_nonneg _
      nlinarith
    rw [← hDD] at e
    have e2 : (γ j ^ 2 + 2 * α ^ 2 - D) * (γ j ^ 2 + 2 * α ^ 2 + D) = 0 := by
      push_cast at e; linear_combination e
    have key : ∀ r : ℝ, r < 0 → γ j ^ 2 = r → (γ j).re = 0 := by
      intro r hr he
      have a := congrArg Complex.re he
      have b := congrArg Complex.im he
      simp [pow_two] at a b
      rcases (by have : (γ j).re * (γ j).im = 0 := by linarith
                 exact mul_eq_zero.mp this) with h | h
      · exact h
      · rw [h] at a; nlinarith [sq_nonneg (γ j).re]
    have Dn : 0 ≤ D := Real.sqrt_nonneg _
    rcases mul_eq_zero.mp e2 with h | h
    · exact key (D - 2 * α ^ 2) (by linarith) (by push_cast; linear_combination h)
    · exact key (-D - 2 * α ^ 2) (by nlinarith) (by push_cast; linear_combination h)
  refine ⟨im, fun w hw => ?_⟩
  have hi : Function.Injective γ := by
    by_contra hn
    have := ((C218_moving_load_response α β γ h (0, 0) 0).2).mp hn
    rw [hw] at this
    cases this
  have hwW : w = mlW α β γ 0 := by
    funext s
    have e1 := hw (s, s) 1
    rw [movingLoad_ok h hi] at e1
    have : linspaceN s s 1 = [s] := by simp [linspaceN]
    simp [this] at e1
    exact e1.symm
  rw [hwW, mlW_top h hi, mlW_bot h hi, im 0, im 2]
  simp

end Geotecha.Beam
