import Verif.Roots.PropsEnd
import Mathlib.Analysis.SpecificLimits.Basic
import Mathlib.Topology.Algebra.Order.Field
import Mathlib.Tactic.FieldSimp

set_option linter.unusedVariables false
namespace Geotecha.Roots
open Geotecha Spec Filter Topology

/-! # C103: missed roots -/

namespace Ex

/-- three roots: 2.5, 2.6, 6.5 -/
noncomputable def cubic (x : ℝ) : ℝ := (x - 5/2) * (x - 13/5) * (x - 13/2)

noncomputable def call3 (solve : ℝ → ℝ → ℝ → ℝ) : Args :=
  { f := cubic, solve := solve, n := 1, x0 := 0, dx := 1, p := 1, maxIter := 2000, atol := 1e-8, rtol := 1e-5 }

noncomputable def at3 (j : ℕ) : St :=
  { roots := [], iter := j, iterSame := none, x00 := 0, dx := 1, x0 := j, y0 := cubic j }

theorem walk3 (solve : ℝ → ℝ → ℝ → ℝ) (j : ℕ) (h : j < 6) : step (call3 solve) (at3 j) = .inl (at3 (j + 1)) := by
  rw [step_walk (by simp [call3, at3]) (by simp [call3, at3]; omega) ?_]
  · congr 1
    simp [call3, at3]
  · simp only [call3, at3, cubic]
    have : j = 0 ∨ j = 1 ∨ j = 2 ∨ j = 3 ∨ j = 4 ∨ j = 5 := by omega
    rcases this with rfl | rfl | rfl | rfl | rfl | rfl <;> norm_num

theorem ends3 {solve : ℝ → ℝ → ℝ → ℝ} (hs : Solves cubic solve) : Ends (call3 solve) (.returned [13/2]) := by
  have hr : ∀ g, solve 6 7 g = 13/2 := by
    intro g
    obtain ⟨r1, r2, r3⟩ := hs 6 7 g (by norm_num) (by norm_num [cubic]) (by norm_num [cubic])
    unfold cubic at r3
    rcases mul_eq_zero.mp r3 with h | h
    · rcases mul_eq_zero.mp h with h | h <;> linarith
    · linarith
  refine ⟨8, ?_⟩
  have h0 : start (call3 solve) = at3 0 := by simp [start, call3, at3]
  have h6 : step (call3 solve) (at3 6) = .inl (accept (call3 solve) (at3 6) (1 / 1) 7 (cubic 7) (13/2)) := by
    have e7 : ((6:ℕ):ℝ) + 1 = 7 := by norm_num
    have := step_first (a := call3 solve) (s := at3 6) (by simp [call3, at3]) (by simp [call3, at3])
      (by norm_num [call3, at3, cubic]) (by simp [at3]) rfl (by
        simp only [call3, close, at3]
        rw [e7]
        rw [show ((6:ℕ):ℝ) = 6 by norm_num, hr]
        norm_num [abs_of_pos])
    simp only [at3, call3, e7] at this ⊢
    rw [show ((6:ℕ):ℝ) = 6 by norm_num] at this ⊢
    rw [hr] at this
    exact this
  rw [h0]
  simp only [run, walk3 solve 0 (by norm_num), walk3 solve 1 (by norm_num), walk3 solve 2 (by norm_num),
    walk3 solve 3 (by norm_num), walk3 solve 4 (by norm_num), walk3 solve 5 (by norm_num), h6]
  rw [step_done (by simp [accept, at3, call3])]
  rfl

end Ex

/-- "The first `n` roots" is false in general: two roots closer than the step are both missed, whatever the solver. -/
theorem C103_negation : ∃ f : ℝ → ℝ, Continuous f ∧ ∀ solve, Solves f solve →
    ∃ a : Args, a.f = f ∧ a.solve = solve ∧ a.n = 1 ∧ 0 < a.dx ∧ a.p = 1 ∧ a.f a.x0 ≠ 0 ∧ ∃ r z, Ends a (.returned [r]) ∧
      a.x0 < z ∧ z < r ∧ f z = 0 :=
  ⟨Ex.cubic, by unfold Ex.cubic; fun_prop, fun solve hs => ⟨Ex.call3 solve, rfl, rfl, rfl, by norm_num [Ex.call3], rfl,
    by norm_num [Ex.call3, Ex.cubic], 13/2, 5/2, Ex.ends3 hs, by norm_num [Ex.call3], by norm_num, by norm_num [Ex.cubic]⟩⟩

/-! # C106: fixed point iteration -/

/-- The stopping test between two consecutive iterates. -/
def Spec.Settled (xtol p0 p : ℝ) : Prop := if p0 = 0 then |p| < xtol else |p - p0| < xtol * |p0|

theorem settled_iff {xtol p0 p : ℝ} : |relerr p0 p| < xtol ↔ Spec.Settled xtol p0 p := by
  unfold relerr Spec.Settled
  by_cases h : p0 = 0
  · rw [if_pos h, if_pos h]
  · rw [if_neg h, if_neg h, abs_div, div_lt_iff₀ (abs_pos.mpr h)]

theorem fixedPoint_spec (f : ℝ → ℝ) (xtol : ℝ) (k : ℕ) (last : Option ℝ) (x : ℝ) :
    (∀ p, fixedPoint f xtol k last x = .ok p ↔
      ∃ j < k, p = f^[j + 1] x ∧ Settled xtol (f^[j] x) p ∧ ∀ i < j, ¬ Settled xtol (f^[i] x) (f^[i + 1] x)) ∧
    ((∀ j < k, ¬ Settled xtol (f^[j] x) (f^[j + 1] x)) →
      fixedPoint f xtol k last x = .error (if k = 0 ∧ last = none then .unboundLocal else .other)) := by
  induction k generalizing last x with
  | zero =>
    constructor
    · intro p
      constructor
      · intro h; cases last <;> simp only [fixedPoint] at h <;> cases h
      · rintro ⟨j, hj, _⟩; omega
    · intro _
      cases last <;> simp [fixedPoint]
  | succ k ih =>
    by_cases h : |relerr x (f x)| < xtol
    · have e : fixedPoint f xtol (k + 1) last x = .ok (f x) := by simp only [fixedPoint]; rw [if_pos h]
      have h' := settled_iff.mp h
      constructor
      · intro p
        rw [e]
        constructor
        · intro hp
          injection hp with hp; subst hp
          exact ⟨0, by omega, rfl, h', fun i hi => by omega⟩
        · rintro ⟨j, hj, rfl, hst, hmin⟩
          rcases Nat.eq_zero_or_pos j with hj0 | hj0
          · subst hj0; rfl
          · exact absurd h' (hmin 0 hj0)
      · intro hall
        exact absurd h' (hall 0 (by omega))
    · have e : fixedPoint f xtol (k + 1) last x = fixedPoint f xtol k (some (f x)) (f x) := by
        simp only [fixedPoint]; rw [if_neg h]
      have h' : ¬ Settled xtol x (f x) := fun c => h (settled_iff.mpr c)
      have ih' := ih (some (f x)) (f x)
      rw [e]
      constructor
      · intro p
        rw [ih'.1 p]
        constructor
        · rintro ⟨j, hj, rfl, hst, hmin⟩
          refine ⟨j + 1, by omega, rfl, hst, ?_⟩
          intro i hi
          rcases Nat.eq_zero_or_pos i with hi0 | hi0
          · subst hi0; exact h'
          · obtain ⟨m, rfl⟩ : ∃ m, i = m + 1 := ⟨i - 1, by omega⟩
            exact hmin m (by omega)
        · rintro ⟨j, hj, rfl, hst, hmin⟩
          rcases Nat.eq_zero_or_pos j with hj0 | hj0
          · subst hj0; exact absurd hst h'
          · obtain ⟨m, rfl⟩ : ∃ m, j = m + 1 := ⟨j - 1, by omega⟩
            exact ⟨m, by omega, rfl, hst, fun i hi => hmin (i + 1) (by omega)⟩
      · intro hall
        have := ih'.2 (fun j hj => hall (j + 1) (by omega))
        rw [this]
        simp

/-- What the call does, for every function, start, tolerance and iteration limit: it returns the first iterate that
settled, and raises when none did within `maxiter` (the error is an unbound local when `maxiter` is zero). -/
theorem C106_iteration (f : ℝ → ℝ) (x0 xtol : ℝ) (maxiter : ℕ) :
    (∀ p, fixedPointNoAccel f x0 xtol maxiter = .ok p ↔
      ∃ j < maxiter, p = f^[j + 1] x0 ∧ Settled xtol (f^[j] x0) p ∧ ∀ i < j, ¬ Settled xtol (f^[i] x0) (f^[i + 1] x0)) ∧
    ((∀ j < maxiter, ¬ Settled xtol (f^[j] x0) (f^[j + 1] x0)) →
      fixedPointNoAccel f x0 xtol maxiter = .error (if maxiter = 0 then .unboundLocal else .other)) := by
  have h := fixedPoint_spec f xtol maxiter none x0
  simp only [and_true] at h
  exact h

theorem iter_err {f : ℝ → ℝ} {q z : ℝ} (hq0 : 0 ≤ q) (hf : ∀ x y, |f x - f y| ≤ q * |x - y|) (hz : f z = z) (x : ℝ) (j : ℕ) :
    |f^[j] x - z| ≤ q ^ j * |x - z| := by
  induction j with
  | zero => simp
  | succ j ih =>
    rw [Function.iterate_succ_apply']
    calc |f (f^[j] x) - z| = |f (f^[j] x) - f z| := by rw [hz]
      _ ≤ q * |f^[j] x - z| := hf _ _
      _ ≤ q * (q ^ j * |x - z|) := by gcongr
      _ = q ^ (j + 1) * |x - z| := by ring

/-- Error of a returned value when the function contracts distances by `q < 1`: the distance to the fixed point is at
most `q/(1-q)` times the last change, itself below the tolerance. -/
theorem C106_error (f : ℝ → ℝ) (q z : ℝ) (hq0 : 0 ≤ q) (hq1 : q < 1) (hf : ∀ x y, |f x - f y| ≤ q * |x - y|) (hz : f z = z)
    (x0 xtol : ℝ) (maxiter : ℕ) (p : ℝ) (h : fixedPointNoAccel f x0 xtol maxiter = .ok p) :
    ∃ p0, p = f p0 ∧ |p - z| ≤ q / (1 - q) * |p - p0| ∧ (p0 ≠ 0 → |p - p0| < xtol * |p0|) ∧ (p0 = 0 → |p - p0| < xtol) := by
  obtain ⟨j, _, hp, hst, _⟩ := ((C106_iteration f x0 xtol maxiter).1 p).mp h
  rw [Function.iterate_succ_apply'] at hp
  refine ⟨f^[j] x0, hp, ?_, ?_, ?_⟩
  · generalize f^[j] x0 = p0 at *
    have h1 : |p - z| ≤ q * |p0 - z| := by
      have := hf p0 z
      rw [hz, ← hp] at this
      exact this
    have h2 : |p0 - z| ≤ |p - p0| + |p - z| := by
      calc |p0 - z| = |-(p - p0) + (p - z)| := by ring_nf
        _ ≤ |-(p - p0)| + |p - z| := abs_add_le _ _
        _ = _ := by rw [abs_neg]
    rw [div_mul_eq_mul_div, le_div_iff₀ (by linarith)]
    nlinarith [abs_nonneg (p - p0)]
  · intro h0
    unfold Settled at hst
    rw [if_neg h0] at hst
    exact hst
  · intro h0
    unfold Settled at hst
    rw [if_pos h0] at hst
    rw [h0, sub_zero]; exact hst

/-- A contraction whose fixed point is not zero: with enough iterations the call always returns. -/
theorem C106_converges_partial (f : ℝ → ℝ) (q z : ℝ) (hq0 : 0 ≤ q) (hq1 : q < 1) (hf : ∀ x y, |f x - f y| ≤ q * |x - y|)
    (hz : f z = z) (hz0 : z ≠ 0) (x0 xtol : ℝ) (hx : 0 < xtol) :
    ∃ M, ∀ maxiter, M ≤ maxiter → ∃ p, fixedPointNoAccel f x0 xtol maxiter = .ok p := by
  have hzp := abs_pos.mpr hz0
  have hex : ∃ j, Settled xtol (f^[j] x0) (f^[j + 1] x0) := by
    set ε := min (|z| / 2) (xtol * |z| / 8) with hε
    have hεp : 0 < ε := lt_min (by positivity) (by positivity)
    obtain ⟨j, hj⟩ := exists_pow_lt_of_lt_one (show 0 < ε / (|x0 - z| + 1) by positivity) hq1
    have hb : q ^ j * |x0 - z| ≤ ε := by
      rw [lt_div_iff₀ (by positivity)] at hj
      have : 0 ≤ q ^ j := pow_nonneg hq0 j
      nlinarith [abs_nonneg (x0 - z)]
    have h1 := (iter_err hq0 hf hz x0 j).trans hb
    have h2 : |f^[j + 1] x0 - z| ≤ ε := by
      refine (iter_err hq0 hf hz x0 (j + 1)).trans (le_trans ?_ hb)
      rw [pow_succ]
      have : 0 ≤ q ^ j := pow_nonneg hq0 j
      nlinarith [mul_nonneg this (abs_nonneg (x0 - z))]
    refine ⟨j, ?_⟩
    generalize f^[j] x0 = p0 at *
    generalize f^[j + 1] x0 = p1 at *
    have e1 : ε ≤ |z| / 2 := min_le_left _ _
    have e2 : ε ≤ xtol * |z| / 8 := min_le_right _ _
    have h3 : |z| / 2 ≤ |p0| := by
      have : |z| ≤ |p0| + |p0 - z| := by
        calc |z| = |p0 + -(p0 - z)| := by ring_nf
          _ ≤ |p0| + |-(p0 - z)| := abs_add_le _ _
          _ = _ := by rw [abs_neg]
      linarith
    have hp0 : p0 ≠ 0 := by
      intro h; rw [h, abs_zero] at h3; linarith
    unfold Settled
    rw [if_neg hp0]
    have hd : |p1 - p0| ≤ 2 * ε := by
      calc |p1 - p0| = |(p1 - z) + -(p0 - z)| := by ring_nf
        _ ≤ |p1 - z| + |-(p0 - z)| := abs_add_le _ _
        _ ≤ 2 * ε := by rw [abs_neg]; linarith
    have hk : xtol * (|z| / 2) ≤ xtol * |p0| := mul_le_mul_of_nonneg_left h3 hx.le
    have hzx : 0 < xtol * |z| := mul_pos hx hzp
    linarith
  classical
  set j := Nat.find hex with hj
  refine ⟨j + 1, fun M hM => ⟨f^[j + 1] x0, ?_⟩⟩
  exact ((C106_iteration f x0 xtol M).1 _).mpr ⟨j, by omega, rfl, Nat.find_spec hex, fun i hi => Nat.find_min hex hi⟩

/-- A contraction towards zero never settles: `x/2` from one halves the value forever, the relative change stays one
half. -/
theorem C106_negation (xtol : ℝ) (hx : xtol ≤ 1 / 2) (maxiter : ℕ) :
    (∀ x y : ℝ, |x / 2 - y / 2| ≤ 1 / 2 * |x - y|) ∧ (0:ℝ) / 2 = 0 ∧
      ∃ e, fixedPointNoAccel (fun x => x / 2) 1 xtol maxiter = .error e := by
  refine ⟨fun x y => ?_, by norm_num, ?_⟩
  · rw [← sub_div, abs_div]; norm_num; linarith
  · have hit : ∀ j, (fun x : ℝ => x / 2)^[j] 1 = (1 / 2) ^ j := by
      intro j
      induction j with
      | zero => simp
      | succ j ih => rw [Function.iterate_succ_apply', ih, pow_succ]; ring
    refine ⟨_, (C106_iteration _ 1 xtol maxiter).2 (fun j _ h => ?_)⟩
    rw [hit, hit] at h
    unfold Settled at h
    have hp : (0:ℝ) < (1 / 2) ^ j := by positivity
    rw [if_neg hp.ne', pow_succ, abs_of_pos hp, show (1/2:ℝ)^j * (1/2) - (1/2)^j = -((1/2)^j * (1/2)) by ring, abs_neg,
      abs_of_pos (by positivity)] at h
    nlinarith

example : ∃ M, ∀ maxiter, M ≤ maxiter → ∃ p, fixedPointNoAccel (fun x => x / 2 + 1) 0 1e-8 maxiter = .ok p :=
  C106_converges_partial _ (1/2) 2 (by norm_num) (by norm_num) (fun x y => by
    rw [show x / 2 + 1 - (y / 2 + 1) = (x - y) / 2 by ring, abs_div]; norm_num; linarith) (by norm_num) (by norm_num) 0 _ (by norm_num)

/-- The array form: the first array of iterates all of whose entries settled, entry by entry, is returned. -/
theorem C106_arrays (f : List ℝ → List ℝ) (xtol : ℝ) (k : ℕ) (last : Option (List ℝ)) (x : List ℝ) (p : List ℝ)
    (h : fixedPointArr f xtol k last x = .ok p) :
    ∃ j < k, p = f (f^[j] x) ∧ (∀ (i : ℕ) p0 p1, (f^[j] x)[i]? = some p0 → p[i]? = some p1 → Settled xtol p0 p1) := by
  induction k generalizing last x with
  | zero => cases last <;> simp only [fixedPointArr] at h <;> cases h
  | succ k ih =>
    simp only [fixedPointArr] at h
    split at h
    · next hall =>
      injection h with h; subst h
      refine ⟨0, by omega, rfl, fun i p0 p1 h0 h1 => ?_⟩
      simp only [Function.iterate_zero, id] at h0
      refine settled_iff.mp (hall _ ?_)
      apply List.mem_of_getElem? (i := i)
      rw [List.getElem?_zipWith, h0, h1]
    · obtain ⟨j, hj, hp, hs⟩ := ih _ _ h
      exact ⟨j + 1, by omega, hp, hs⟩

example : fixedPointArr (fun _ => [2, 3]) 1e-8 2 none [1, 1] = .ok [2, 3] := by
  simp only [fixedPointArr]
  rw [if_neg, if_pos]
  · intro e he
    simp [relerr] at he
    rcases he with rfl | rfl <;> norm_num
  · intro h
    have := h 1 (by simp [relerr]; norm_num)
    norm_num at this

end Geotecha.Roots
