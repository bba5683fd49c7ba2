import Verif.Roots.PropsEnd
import Mathlib.Tactic.Positivity

/-! # A search for one root that walks four steps and finds it in the fifth (used for the concrete cases of other modules) -/

set_option linter.unusedVariables false
set_option autoImplicit false
namespace Geotecha.Roots
open Spec

/-- Before a step of the walk. -/
noncomputable def hopSt (a : Args) (x00 x d : ℝ) (j : ℤ) : St := ⟨[], j, none, x00, d, x, a.f x⟩

variable {a : Args} {x00 x d : ℝ}

theorem hop_walk (hn : a.n = 1) (hm : a.maxIter = 2000) {j : ℤ} (hj : j ≤ 10) {x d x' d' : ℝ} (hx : x + d = x') (hd : d * a.p = d')
    (h : 0 < a.f x * a.f x') : step a (hopSt a x00 x d j) = .inl (hopSt a x00 x' d' (j + 1)) := by
  subst hx hd
  rw [step_walk (by simp [hopSt, hn]) (by simp only [hopSt, hm]; omega) (by simp only [hopSt]; linarith)]
  rfl

theorem hop_back (hn : a.n = 1) (hm : a.maxIter = 2000) {j : ℤ} (hj : j < 4) (h : a.f x * a.f (x + d) ≤ 0) :
    step a (hopSt a x00 x d j) = .inl (hopSt a x00 x00 (d * 0.2) 0) := by
  rw [step_back (by simp [hopSt, hn]) (by simp only [hopSt, hm]; omega) (by simp only [hopSt]; linarith) (by simp only [hopSt]; omega)]
  rfl

theorem hop5_at (hn : a.n = 1) (hm : a.maxIter = 2000) (hp : a.p = 1.01) (hat : a.atol = 1e-8) (hs : Solves a.f a.solve) (hx : 1e-8 < x) (hd : 0 < d)
    (h1 : 0 < a.f x * a.f (x + d)) (h2 : 0 < a.f (x + d) * a.f (x + 2.01 * d)) (h3 : 0 < a.f (x + 2.01 * d) * a.f (x + 3.0301 * d))
    (h4 : 0 < a.f (x + 3.0301 * d) * a.f (x + 4.060401 * d)) (h5 : a.f (x + 4.060401 * d) * a.f (x + 5.10100501 * d) ≤ 0) :
    ∃ k b, run a k (hopSt a x00 x d 0) = .inr (.returned [b]) ∧ x + 4.060401 * d ≤ b ∧ b ≤ x + 5.10100501 * d ∧ a.f b = 0 := by
  have w1 := hop_walk (x00 := x00) hn hm (j := 0) (by norm_num) (x := x) (d := d) (x' := x + d) (d' := 1.01 * d) rfl (by rw [hp]; ring) h1
  have w2 := hop_walk (x00 := x00) hn hm (j := 1) (by norm_num) (x := x + d) (d := 1.01 * d) (x' := x + 2.01 * d) (d' := 1.0201 * d) (by ring) (by rw [hp]; ring) h2
  have w3 := hop_walk (x00 := x00) hn hm (j := 2) (by norm_num) (x := x + 2.01 * d) (d := 1.0201 * d) (x' := x + 3.0301 * d) (d' := 1.030301 * d)
    (by ring) (by rw [hp]; ring) h3
  have w4 := hop_walk (x00 := x00) hn hm (j := 3) (by norm_num) (x := x + 3.0301 * d) (d := 1.030301 * d) (x' := x + 4.060401 * d) (d' := 1.04060401 * d)
    (by ring) (by rw [hp]; ring) h4
  set s4 := hopSt a x00 (x + 4.060401 * d) (1.04060401 * d) 4 with hs4
  have e : s4.x0 + s4.dx = x + 5.10100501 * d := by rw [hs4]; simp only [hopSt]; ring
  have e0 : s4.x0 = x + 4.060401 * d := rfl
  have hne : a.f (x + 4.060401 * d) ≠ 0 := fun g => by rw [g, mul_zero] at h4; exact lt_irrefl _ h4
  obtain ⟨r1, r2, r3⟩ := hs (x + 4.060401 * d) (x + 5.10100501 * d) (x + 4.060401 * d) (by nlinarith) hne h5
  have h6 := step_first (a := a) (s := s4) (by simp [s4, hopSt, hn]) (by simp only [s4, hopSt, hm]; omega) (by rw [e]; exact h5) (by simp [s4, hopSt]) rfl (by
    unfold close
    rw [e, e0, abs_zero, mul_zero, add_zero, sub_zero, hat, not_le]
    refine lt_of_lt_of_le ?_ (le_abs_self _)
    nlinarith)
  refine ⟨6, a.solve s4.x0 (s4.x0 + s4.dx) s4.x0, ?_, by rw [e, e0]; exact ⟨r1, r2, r3⟩⟩
  simp only [zero_add] at w1
  have w2' : step a (hopSt a x00 (x + d) (1.01 * d) 1) = .inl (hopSt a x00 (x + 2.01 * d) (1.0201 * d) 2) := by rw [w2]; norm_num
  have w3' : step a (hopSt a x00 (x + 2.01 * d) (1.0201 * d) 2) = .inl (hopSt a x00 (x + 3.0301 * d) (1.030301 * d) 3) := by rw [w3]; norm_num
  have w4' : step a (hopSt a x00 (x + 3.0301 * d) (1.030301 * d) 3) = .inl s4 := by rw [w4, hs4]; norm_num
  simp only [run, w1, w2', w3', w4', h6]
  rw [step_done (by simp [accept, s4, hopSt, hn])]
  rfl

theorem hop5 (hn : a.n = 1) (hm : a.maxIter = 2000) (hp : a.p = 1.01) (hat : a.atol = 1e-8) (hs : Solves a.f a.solve) (hx : 1e-8 < x) (hd : 0 < d)
    (h1 : 0 < a.f x * a.f (x + d)) (h2 : 0 < a.f (x + d) * a.f (x + 2.01 * d)) (h3 : 0 < a.f (x + 2.01 * d) * a.f (x + 3.0301 * d))
    (h4 : 0 < a.f (x + 3.0301 * d) * a.f (x + 4.060401 * d)) (h5 : a.f (x + 4.060401 * d) * a.f (x + 5.10100501 * d) ≤ 0) :
    ∃ k b, run a k (hopSt a x00 x d 0) = .inr (.returned [b]) := by
  obtain ⟨k, b, h, _⟩ := hop5_at (x00 := x00) hn hm hp hat hs hx hd h1 h2 h3 h4 h5
  exact ⟨k, b, h⟩

/-- A search whose fifth hop ends at the first place where the function stops being positive. -/
theorem hop_to {a : Args} {c : ℝ} (hn : a.n = 1) (hm : a.maxIter = 2000) (hp : a.p = 1.01) (hat : a.atol = 1e-8) (hs : Solves a.f a.solve)
    (hx : 1e-8 < a.x0) (hc : a.x0 < c) (hd : a.dx = (c - a.x0) / 5.10100501) (hpos : ∀ x, a.x0 ≤ x → x < c → 0 < a.f x) (h0 : a.f c ≤ 0) :
    ∃ b, Ends a (.returned [b]) ∧ b ≤ c ∧ a.x0 ≤ b ∧ a.f b = 0 := by
  have hd0 : 0 < a.dx := by rw [hd]; exact div_pos (by linarith) (by norm_num)
  have he : a.x0 + 5.10100501 * a.dx = c := by rw [hd]; ring
  have hp' : ∀ q, 0 ≤ q → q < 5.10100501 → 0 < a.f (a.x0 + q * a.dx) := fun q h1 h2 => hpos _ (by nlinarith) (by nlinarith)
  have h1 : 0 < a.f a.x0 := hpos _ le_rfl hc
  have h2 : 0 < a.f (a.x0 + a.dx) := by have := hp' 1 (by norm_num) (by norm_num); rwa [one_mul] at this
  obtain ⟨k, b, h, g1, g2, g3⟩ := hop5_at (a := a) (x00 := a.x0) (x := a.x0) (d := a.dx) hn hm hp hat hs hx hd0 (mul_pos h1 h2)
    (mul_pos h2 (hp' _ (by norm_num) (by norm_num))) (mul_pos (hp' _ (by norm_num) (by norm_num)) (hp' _ (by norm_num) (by norm_num)))
    (mul_pos (hp' _ (by norm_num) (by norm_num)) (hp' _ (by norm_num) (by norm_num)))
    (mul_nonpos_of_nonneg_of_nonpos (hp' _ (by norm_num) (by norm_num)).le (by rw [he]; exact h0))
  exact ⟨b, ⟨k, h⟩, by rw [← he]; exact g2, le_trans (by nlinarith) g1, g3⟩

theorem run_unique {o o' : Outcome} : ∀ {k k' : ℕ} {s : St}, run a k s = .inr o → run a k' s = .inr o' → o = o'
  | 0, _, _, h, _ => by cases h
  | _ + 1, 0, _, _, h' => by cases h'
  | k + 1, k' + 1, s, h, h' => by
    unfold run at h h'
    cases hs : step a s with
    | inl s' => rw [hs] at h h'; exact run_unique (s := s') h h'
    | inr q =>
      rw [hs] at h h'
      injection h with h
      injection h' with h'
      rw [← h, ← h']

/-- A call ends in one way. -/
theorem Ends.unique {a : Args} {l l' : List ℝ} (h : Ends a (.returned l)) (h' : Ends a (.returned l')) : l = l' := by
  obtain ⟨k, h⟩ := h
  obtain ⟨k', h'⟩ := h'
  have := run_unique h h'
  injection this

end Geotecha.Roots
