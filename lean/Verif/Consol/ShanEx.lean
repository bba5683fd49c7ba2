import Verif.Consol.ShanLong
import Mathlib.Analysis.Real.Pi.Bounds

/-! # shanetal2012: concrete arguments that meet the hypotheses of C146-C151 -/

set_option autoImplicit false
set_option linter.unusedVariables false
open Real MeasureTheory Filter Topology
namespace Geotecha.Consol
open Geotecha (PyErr)
open Spec.Unsat (IsEig Problem)
namespace ShanEx

/-- `{'type': 'exp', 'q0': 100, 'b': 5}` -/
def dexp : LoadDict := ⟨some "exp", fun k => if k = "q0" then some 100 else if k = "b" then some 5 else none⟩

/-- `{'type': 'sin', 'q0': 100, 'omega': 2}` -/
def dsin : LoadDict := ⟨some "sin", fun k => if k = "q0" then some 100 else if k = "omega" then some 2 else none⟩

/-- An unsaturated layer with a ramped load, a ramped water pressure at the top and an oscillating air gradient at the bottom. -/
noncomputable def args (f4 : Option LoadDict) : ShanArgs :=
  ⟨10, 1/2, -1, 3/4, -2, 1, 1/4, 1/10, (40, 40), (20, 10), 3, some dexp, some dexp, none, none, f4⟩

/-- An eigenvalue routine that is right on the matrix of `args`. -/
noncomputable def eig (_ : Mat2) : EigRes := ⟨![-4, -4/5], !![2, 2; -3, 1]⟩

theorem isEig (f4 : Option LoadDict) : IsEig (!![1, (args f4).Cw; (args f4).Ca, 1]⁻¹ * !![(args f4).Cvw, 0; 0, (args f4).Cva])
    (eig (!![1, (args f4).Cw; (args f4).Ca, 1]⁻¹ * !![(args f4).Cvw, 0; 0, (args f4).Cva])).eigs
    (eig (!![1, (args f4).Cw; (args f4).Ca, 1]⁻¹ * !![(args f4).Cvw, 0; 0, (args f4).Cva])).v := by
  refine ⟨by norm_num [eig, Matrix.det_fin_two], ?_⟩
  have hdet : (!![1, (args f4).Cw; (args f4).Ca, 1] : Mat2).det ≠ 0 := by norm_num [args, Matrix.det_fin_two]
  set v := (eig (!![1, (args f4).Cw; (args f4).Ca, 1]⁻¹ * !![(args f4).Cvw, 0; 0, (args f4).Cva])).v with hv
  set e := (eig (!![1, (args f4).Cw; (args f4).Ca, 1]⁻¹ * !![(args f4).Cvw, 0; 0, (args f4).Cva])).eigs with he
  have hv' : v = !![2, 2; -3, 1] := rfl
  have he' : e = ![-4, -4/5] := rfl
  have key : !![(args f4).Cvw, 0; 0, (args f4).Cva] * v = !![1, (args f4).Cw; (args f4).Ca, 1] * (v * Matrix.diagonal e) := by
    rw [hv', he']
    ext i j
    fin_cases i <;> fin_cases j <;> norm_num [args, Matrix.mul_apply, Fin.sum_univ_two, Matrix.diagonal, Matrix.vecHead, Matrix.vecTail]
  rw [Matrix.mul_assoc, key, ← Matrix.mul_assoc, Matrix.nonsing_inv_mul _ (Ne.isUnit hdet), Matrix.one_mul]

theorem loaded : (args (some dsin)).Loaded (fun t => 100 * (1 - exp (-5 * t))) ![fun t => 100 * (1 - exp (-5 * t)), fun _ => 0]
    ![fun _ => 0, fun t => 100 * sin (2 * t)] := by
  refine ⟨.exp dexp 100 5 rfl (by simp [dexp]) (by simp [dexp]), .exp dexp 100 5 rfl (by simp [dexp]) (by simp [dexp]), .none, .none,
    .sin dsin 100 2 rfl (by simp [dsin]) (by simp [dsin])⟩

theorem not_resonant (P : Problem) (hP : P.H = 10) (hi : P.impervious) (d : LoadDict) (hd : d = dexp ∨ d = dsin) :
    ¬ Resonant P 3 (![-4, -4/5]) d := by
  rintro ⟨k, hk, p, h⟩
  have hf : P.freq k ^ 2 < 100 := by
    have hpi := pi_lt_four
    have hp := pi_pos
    unfold Problem.freq
    rw [if_pos hi]
    have hk' : (k:ℝ) ≤ 2 := by exact_mod_cast (by omega : k ≤ 2)
    have h0 : (0:ℝ) ≤ k := by positivity
    have : (2 * (k:ℝ) + 1) * π / 2 < 10 := by nlinarith
    have : 0 ≤ (2 * (k:ℝ) + 1) * π / 2 := by positivity
    nlinarith
  have he : ∀ p : Fin 2, (![-4, -4/5] : Fin 2 → ℝ) p < 0 ∧ -4 ≤ (![-4, -4/5] : Fin 2 → ℝ) p := fun p => by
    fin_cases p <;> norm_num
  obtain ⟨e0, e1⟩ := he p
  rcases h with ⟨h1, b, h2, h3⟩ | ⟨h1, h2, h3⟩
  · rcases hd with rfl | rfl
    · simp [dexp] at h2
      rw [hP, div_pow] at h3
      have : 0 ≤ P.freq k ^ 2 := sq_nonneg _
      nlinarith
    · exact absurd h1 (by simp [dsin])
  · linarith

/-- C147, C148 and C149 at concrete arguments: the water pressure at the top is the ramp, not the documented decay. -/
example (t : ℝ) : ∃ ua, ShanArgs.shanetal2012 eig [0] [t] (args (some dsin)) = .ok ([[100 * (1 - exp (-5 * t))]], ua) := by
  obtain ⟨ua, h, -⟩ := ShanArgs.C149_documented_load_partial eig (args (some dsin)) _ _ _ loaded (by norm_num [args]) (Or.inr rfl)
    (by norm_num [args]) (isEig _) (fun d hd d' h => by
      refine not_resonant _ rfl rfl d' ?_
      subst h
      simpa [args] using hd) dexp 100 5 rfl rfl (by simp [dexp]) (by simp [dexp]) t
  exact ⟨ua, h⟩

/-- C150 at concrete arguments: at mid depth the water pressure tends to 100 and the air pressure to 0. -/
example : ∃ uw ua : ℝ → ℝ, (∀ t, ShanArgs.shanetal2012 eig [5] [t] (args none) = .ok ([[uw t]], [[ua t]])) ∧
    Tendsto uw atTop (𝓝 100) ∧ Tendsto ua atTop (𝓝 0) := by
  obtain ⟨uw, ua, h, -, h1⟩ := ShanArgs.C150_dissipation eig (args none) (by norm_num [args]) (Or.inr rfl) (by norm_num [args]) (by norm_num [args])
    (by norm_num [args]) (isEig _) 100 100 0 0 0 (.exp dexp 100 5 rfl (by simp [dexp]) (by simp [dexp]) (by norm_num))
    (.exp dexp 100 5 rfl (by simp [dexp]) (by simp [dexp]) (by norm_num)) .none .none .none 5
  refine ⟨uw, ua, h, ?_⟩
  simpa using h1 rfl

/-- C146 and C151 at concrete arguments. -/
example : ShanArgs.Bad ⟨some "exp", fun k => if k = "q0" then some 100 else none⟩ ∧ ¬ ShanArgs.Bad dexp ∧ (∀ N, (eig N).v.det ≠ 0) ∧
    0 < (args none).Cvw * (args none).Cva ∧ 0 < (args none).Cw * (args none).Ca ∧ (args none).Cw * (args none).Ca ≠ 1 := by
  refine ⟨⟨"exp", rfl, fun _ => Or.inr (by simp), fun h => absurd h (by decide)⟩, ?_, fun N => by norm_num [eig, Matrix.det_fin_two], by norm_num [args],
    by norm_num [args], by norm_num [args]⟩
  rintro ⟨ty, h1, h2, -⟩
  cases h1
  rcases h2 rfl with h | h <;> simp [dexp] at h

end ShanEx
end Geotecha.Consol
