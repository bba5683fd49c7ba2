import Verif.Piecewise.ModelPoly
import Verif.Piecewise.Mono
import Mathlib.Analysis.SpecialFunctions.Sqrt

set_option linter.unusedSectionVars false
set_option linter.unusedSimpArgs false
set_option linter.unusedVariables false

namespace Geotecha.Spec
variable {K : Type} [Field K] [LinearOrder K]

/-- The point `r` is within distance `tol` of the straight line through `p` and `q`. -/
def NearLine (p q r : K × K) (tol : K) : Prop :=
  ∃ s : K, (r.1 - (p.1 + s * (q.1 - p.1)))^2 + (r.2 - (p.2 + s * (q.2 - p.2)))^2 ≤ tol^2

end Geotecha.Spec

namespace Geotecha.Piecewise
open Geotecha.Spec
variable {K : Type} [Field K] [LinearOrder K] [IsStrictOrderedRing K]

/-- The squared tests of `rsStep` are the tests of the source. -/
theorem rs_tests_real (d2 c atol : ℝ) (hd : 0 ≤ d2) (ha : 0 ≤ atol) :
    (Real.sqrt d2 ≤ 1/100000000 ↔ d2 ≤ (1/100000000)^2) ∧
    (0 < d2 → (|c / Real.sqrt d2| > atol ↔ c^2 > atol^2 * d2)) := by
  constructor
  · exact Real.sqrt_le_left (by norm_num)
  · intro h
    have hs : 0 < Real.sqrt d2 := Real.sqrt_pos.2 h
    rw [abs_div, abs_of_pos hs, gt_iff_lt, lt_div_iff₀ hs]
    have e : atol^2 * d2 = (atol * Real.sqrt d2)^2 := by
      rw [mul_pow, Real.sq_sqrt hd]
    rw [e, gt_iff_lt, sq_lt_sq, abs_of_nonneg (mul_nonneg ha hs.le)]

theorem nearLine_of_cross {p q r : K × K} {tol : K} (hd : 0 < (q.1 - p.1)^2 + (q.2 - p.2)^2)
    (h : ((q.1 - p.1) * (p.2 - r.2) - (q.2 - p.2) * (p.1 - r.1))^2 ≤
      tol^2 * ((q.1 - p.1)^2 + (q.2 - p.2)^2)) : NearLine p q r tol := by
  refine ⟨((r.1 - p.1) * (q.1 - p.1) + (r.2 - p.2) * (q.2 - p.2)) / ((q.1 - p.1)^2 + (q.2 - p.2)^2), ?_⟩
  rw [← div_le_iff₀ hd] at h
  refine le_trans (le_of_eq ?_) h
  have := ne_of_gt hd
  field_simp
  ring

/-- every point strictly between two kept ones is near their line -/
def GoodGap (x y : List K) (atol : K) (a b : ℕ) : Prop :=
  ∀ k, a < k → k < b → NearLine (nth x a, nth y a) (nth x b, nth y b) (nth x k, nth y k) atol

theorem rs_inv (x y : List K) (atol : K) (P : ℕ → ℕ → Prop) (n : ℕ)
    (h0 : ∀ a, P a (a+1))
    (hstep : ∀ j i, j + 1 < i → i < n → (dist2 x y j i ≤ (1/100000000)^2 ∨
      ∀ k, j < k → k < i → crossAt x y j i k ^ 2 ≤ atol^2 * dist2 x y j i) → P j i)
    (m : ℕ) (hm : m + 2 ≤ n) :
    ∃ ks j, (List.range' 2 m).foldl (rsStep x y atol) (List.range n, 0) =
        (ks ++ j :: List.range' (m+1) (n - (m+1)), j) ∧ j < m + 1 ∧
      (ks ++ [j]).head? = some 0 ∧ (ks ++ [j]).IsChain (fun a b => a < b ∧ P a b) ∧ P j (m+1) := by
  induction m with
  | zero =>
    refine ⟨[], 0, ?_, by omega, rfl, by simp, h0 0⟩
    simp only [List.range'_zero, List.foldl_nil, List.nil_append, zero_add]
    congr 1
    rw [List.range_eq_range', show n = (n-1)+1 by omega, List.range'_succ]
    simp
  | succ m ih =>
    obtain ⟨ks, j, hf, hj, hh, hc, hp⟩ := ih (by omega)
    rw [List.range'_concat, List.foldl_append, hf]
    simp only [List.foldl_cons, List.foldl_nil, one_mul]
    have hlast : ∀ a ∈ ks ++ [j], a ≤ j := by
      intro a ha
      have hp' : (ks ++ [j]).Pairwise (· < ·) := (List.isChain_iff_pairwise).1 (hc.imp fun _ _ h => h.1)
      rw [List.pairwise_append] at hp'
      rcases List.mem_append.1 ha with h | h
      · exact le_of_lt (hp'.2.2 a h j (by simp))
      · simp at h; omega
    have herase : (ks ++ j :: List.range' (m+1) (n - (m+1))).erase (2 + m - 1) =
        ks ++ j :: List.range' (m+2) (n - (m+2)) := by
      have e1 : ks ++ j :: List.range' (m+1) (n - (m+1)) = (ks ++ [j]) ++ List.range' (m+1) (n - (m+1)) := by simp
      have hnot : (2 + m - 1) ∉ ks ++ [j] := by
        intro h; have := hlast _ h; omega
      rw [e1, List.erase_append_right _ hnot, show n - (m+1) = (n - (m+2)) + 1 by omega, List.range'_succ,
        show 2 + m - 1 = m + 1 by omega, List.erase_cons_head]
      simp
    unfold rsStep
    simp only
    split_ifs with c1 c2
    · refine ⟨ks, j, by rw [herase], by omega, hh, hc, ?_⟩
      rw [show m + 1 + 1 = 2 + m by omega]
      exact hstep j (2+m) (by omega) (by omega) (Or.inl c1)
    · refine ⟨ks ++ [j], m+1, ?_, by omega, ?_, ?_, h0 _⟩
      · congr 1
        · rw [List.append_assoc, show n - (m+1) = (n - (m+1+1)) + 1 by omega, List.range'_succ]; simp
        · omega
      · simp at hh ⊢; simpa using hh
      · rw [List.isChain_append]
        refine ⟨hc, by simp, ?_⟩
        intro a ha b hb
        simp at ha hb; subst ha; subst hb
        exact ⟨hj, hp⟩
    · refine ⟨ks, j, by rw [herase], by omega, hh, hc, ?_⟩
      rw [show m + 1 + 1 = 2 + m by omega]
      refine hstep j (2+m) (by omega) (by omega) (Or.inr ?_)
      intro k hk1 hk2
      by_contra hcon
      apply c2
      rw [List.any_eq_true]
      refine ⟨k, ?_, by simpa using hcon⟩
      rw [List.mem_range'_1]; omega

end Geotecha.Piecewise
