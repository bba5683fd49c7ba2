import Verif.Beam.InfiniteAlg
import Mathlib.Analysis.Calculus.Deriv.Add
import Mathlib.Analysis.Calculus.Deriv.Mul
import Mathlib.Analysis.Calculus.Deriv.Pow
import Mathlib.Analysis.Calculus.MeanValue
import Mathlib.Analysis.Calculus.FDeriv.Extend

/-!
# Infinite beam under a moving load: the response solves the beam equation (C218, C219)
-/
set_option autoImplicit false
set_option linter.unusedVariables false

namespace Geotecha.Beam

open Complex Filter Topology Set

/-! ## Specification -/

/-- Specification: `w` (with derivatives `w1`, `w2`, `w3`) is a response of the infinite beam to a unit
load moving with velocity ratio `α` and damping ratio `β`, in the moving coordinate `s` (Esveld 2001):
`w'''' + 4α² w'' - 8αβ w' + 4 w = 0` away from the load, `w`, `w'`, `w''` continuous at the load, and
`w'''` jumping by 8 there. -/
structure IsResponse (α β : ℝ) (w w1 w2 w3 : ℝ → ℂ) : Prop where
  d1 : ∀ s, HasDerivAt w (w1 s) s
  d2 : ∀ s, HasDerivAt w1 (w2 s) s
  c2 : Continuous w2
  d3 : ∀ s, s ≠ 0 → HasDerivAt w2 (w3 s) s
  d4 : ∀ s, s ≠ 0 → HasDerivAt w3 (-(4 * (α : ℂ) ^ 2 * w2 s - 8 * α * β * w1 s + 4 * w s)) s
  jump : ∃ l, Tendsto w3 (𝓝[<] 0) (𝓝 l) ∧ Tendsto w3 (𝓝[>] 0) (𝓝 (l + 8))

/-! ## Derivatives -/

theorem exp_deriv (z : ℂ) (s : ℝ) : HasDerivAt (fun s : ℝ => exp (s * z)) (z * exp (s * z)) s := by
  have h : HasDerivAt (fun s : ℝ => (s : ℂ) * z) z s := by
    have := (Complex.ofRealCLM.hasDerivAt (x := s)).mul_const z
    simpa using this
  exact h.cexp.congr_deriv (by ring)

/-- `k`-th derivative of a sum of two exponentials. -/
noncomputable def twoExp (b c g h : ℂ) (k : ℕ) (s : ℝ) : ℂ :=
  b * g ^ k * exp (s * g) + c * h ^ k * exp (s * h)

theorem twoExp_deriv (b c g h : ℂ) (k : ℕ) (s : ℝ) :
    HasDerivAt (twoExp b c g h k) (twoExp b c g h (k + 1) s) s := by
  have := ((exp_deriv g s).const_mul (b * g ^ k)).fun_add ((exp_deriv h s).const_mul (c * h ^ k))
  refine this.congr_deriv ?_
  unfold twoExp; ring

theorem twoExp_zero (b c g h : ℂ) (k : ℕ) : twoExp b c g h k 0 = b * g ^ k + c * h ^ k := by
  unfold twoExp; simp

/-- Piece to the right of the load for `s ≥ 0`, piece to the left for `s < 0`. -/
noncomputable def glueC (f g : ℝ → ℂ) (s : ℝ) : ℂ := if s ≥ 0 then f s else g s

theorem glueC_deriv {f g f' g' : ℝ → ℂ} (hf : ∀ s, HasDerivAt f (f' s) s)
    (hg : ∀ s, HasDerivAt g (g' s) s) (h0 : f 0 = g 0) (h1 : f' 0 = g' 0) (s : ℝ) :
    HasDerivAt (glueC f g) (glueC f' g' s) s := by
  rcases lt_trichotomy s 0 with hs | rfl | hs
  · have : glueC f' g' s = g' s := if_neg (by linarith)
    rw [this]
    refine (hg s).congr_of_eventuallyEq ?_
    filter_upwards [gt_mem_nhds hs] with u hu
    exact if_neg (by linarith)
  · have e : glueC f' g' 0 = f' 0 := if_pos le_rfl
    rw [e]
    have a : HasDerivWithinAt (glueC f g) (f' 0) (Ici 0) 0 :=
      (hf 0).hasDerivWithinAt.congr (fun x hx => if_pos hx) (if_pos le_rfl)
    have b : HasDerivWithinAt (glueC f g) (f' 0) (Iic 0) 0 := by
      rw [h1]
      refine (hg 0).hasDerivWithinAt.congr (fun x hx => ?_) ?_
      · rcases lt_or_eq_of_le (show x ≤ 0 from hx) with hl | rfl
        · exact if_neg (by linarith)
        · rw [← h0]; exact if_pos le_rfl
      · rw [← h0]; exact if_pos le_rfl
    have := a.union b
    rwa [Ici_union_Iic, hasDerivWithinAt_univ] at this
  · have : glueC f' g' s = f' s := if_pos (by linarith)
    rw [this]
    refine (hf s).congr_of_eventuallyEq ?_
    filter_upwards [lt_mem_nhds hs] with u hu
    exact if_pos (by linarith)

theorem glueC_deriv_ne {f g f' g' : ℝ → ℂ} (hf : ∀ s, HasDerivAt f (f' s) s)
    (hg : ∀ s, HasDerivAt g (g' s) s) (s : ℝ) (hs0 : s ≠ 0) :
    HasDerivAt (glueC f g) (glueC f' g' s) s := by
  rcases lt_or_gt_of_ne hs0 with hs | hs
  · have : glueC f' g' s = g' s := if_neg (by linarith)
    rw [this]
    refine (hg s).congr_of_eventuallyEq ?_
    filter_upwards [gt_mem_nhds hs] with u hu
    exact if_neg (by linarith)
  · have : glueC f' g' s = f' s := if_pos (by linarith)
    rw [this]
    refine (hf s).congr_of_eventuallyEq ?_
    filter_upwards [lt_mem_nhds hs] with u hu
    exact if_pos (by linarith)

theorem glueC_right {f g : ℝ → ℂ} (hf : Continuous f) : Tendsto (glueC f g) (𝓝[>] 0) (𝓝 (f 0)) := by
  refine ((hf.tendsto 0).mono_left nhdsWithin_le_nhds).congr' ?_
  filter_upwards [self_mem_nhdsWithin] with u hu
  exact (if_pos (le_of_lt hu)).symm

theorem glueC_left {f g : ℝ → ℂ} (hg : Continuous g) : Tendsto (glueC f g) (𝓝[<] 0) (𝓝 (g 0)) := by
  refine ((hg.tendsto 0).mono_left nhdsWithin_le_nhds).congr' ?_
  filter_upwards [self_mem_nhdsWithin] with u hu
  exact (if_neg (not_le.mpr hu)).symm

/-- `k`-th derivative of the displacement returned by the code. -/
noncomputable def mlW (α β : ℝ) (γ : Fin 4 → ℂ) (k : ℕ) : ℝ → ℂ :=
  glueC (twoExp (8 / dPoly α β (γ 0)) (8 / dPoly α β (γ 1)) (γ 0) (γ 1) k)
    (twoExp (-(8 / dPoly α β (γ 2))) (-(8 / dPoly α β (γ 3))) (γ 2) (γ 3) k)

theorem mlDisp_eq (α β : ℝ) (γ : Fin 4 → ℂ) : mlDisp γ (mlCoef α β γ) = mlW α β γ 0 := by
  funext s
  unfold mlDisp mlW glueC twoExp mlCoef colSign
  simp

theorem root_pow {α β : ℝ} {γ : Fin 4 → ℂ} (h : IsRoots α β γ) (j : Fin 4) :
    γ j ^ 4 = -(4 * (α : ℂ) ^ 2 * γ j ^ 2 - 8 * α * β * γ j + 4) := by
  have h0 := h (γ j)
  have : (γ j - γ 0) * (γ j - γ 1) * (γ j - γ 2) * (γ j - γ 3) = 0 := by
    fin_cases j <;> simp
  rw [this] at h0
  linear_combination h0

theorem mlW_response {α β : ℝ} {γ : Fin 4 → ℂ} (h : IsRoots α β γ) (hi : Function.Injective γ) :
    IsResponse α β (mlW α β γ 0) (mlW α β γ 1) (mlW α β γ 2) (mlW α β γ 3) := by
  have sums := coef_sums h hi
  have z : ∀ k, k < 3 → twoExp (8 / dPoly α β (γ 0)) (8 / dPoly α β (γ 1)) (γ 0) (γ 1) k 0
      = twoExp (-(8 / dPoly α β (γ 2))) (-(8 / dPoly α β (γ 3))) (γ 2) (γ 3) k 0 := by
    intro k hk
    have := sums k (by omega)
    rw [if_neg (by omega)] at this
    rw [twoExp_zero, twoExp_zero]
    linear_combination this
  have z3 : twoExp (8 / dPoly α β (γ 0)) (8 / dPoly α β (γ 1)) (γ 0) (γ 1) 3 0
      = twoExp (-(8 / dPoly α β (γ 2))) (-(8 / dPoly α β (γ 3))) (γ 2) (γ 3) 3 0 + 8 := by
    have := sums 3 (by omega)
    rw [if_pos rfl] at this
    rw [twoExp_zero, twoExp_zero]
    linear_combination this
  have cont : ∀ b c g h k, Continuous (twoExp b c g h k) := fun b c g h k =>
    continuous_iff_continuousAt.mpr fun s => (twoExp_deriv b c g h k s).continuousAt
  refine ⟨fun s => glueC_deriv (twoExp_deriv _ _ _ _ 0) (twoExp_deriv _ _ _ _ 0) (z 0 (by omega))
      (z 1 (by omega)) s,
    fun s => glueC_deriv (twoExp_deriv _ _ _ _ 1) (twoExp_deriv _ _ _ _ 1) (z 1 (by omega))
      (z 2 (by omega)) s, ?_,
    fun s hs => glueC_deriv_ne (twoExp_deriv _ _ _ _ 2) (twoExp_deriv _ _ _ _ 2) s hs, fun s hs => ?_, ?_⟩
  · unfold mlW glueC
    exact Continuous.if_le (cont _ _ _ _ 2) (cont _ _ _ _ 2) continuous_const continuous_id
      (by rintro x rfl; exact z 2 (by omega))
  · refine (glueC_deriv_ne (twoExp_deriv _ _ _ _ 3) (twoExp_deriv _ _ _ _ 3) s hs).congr_deriv ?_
    have r := root_pow h
    unfold mlW glueC
    split_ifs
    · unfold twoExp
      rw [show 3 + 1 = 4 from rfl, r 0, r 1]; ring
    · unfold twoExp
      rw [show 3 + 1 = 4 from rfl, r 2, r 3]; ring
  · refine ⟨_, glueC_left (cont _ _ _ _ 3), ?_⟩
    rw [← z3]
    exact glueC_right (cont _ _ _ _ 3)

/-! ## Claims -/

/-- **C218** For every order in which the four (distinct) roots are listed, the returned displacement,
evaluated on the requested grid, is a response of the infinite beam: it solves the equation of motion on
both sides of the load and has the unit shear jump under it.  The call fails exactly when two roots
coincide. -/
theorem C218_moving_load_response (α β : ℝ) (γ : Fin 4 → ℂ) (h : IsRoots α β γ) (slim : ℝ × ℝ) (npts : ℕ) :
    (Function.Injective γ → ∃ w w1 w2 w3 : ℝ → ℂ, IsResponse α β w w1 w2 w3
      ∧ movingLoad γ slim npts
        = .ok (linspaceN slim.1 slim.2 npts, (linspaceN slim.1 slim.2 npts).map w))
    ∧ (¬ Function.Injective γ ↔ movingLoad γ slim npts = .error .other) := by
  constructor
  · intro hi
    refine ⟨_, _, _, _, mlW_response h hi, ?_⟩
    unfold movingLoad
    rw [mlA_ok h hi]
    show Except.ok _ = _
    rw [mlDisp_eq]
  · constructor
    · intro hn
      unfold movingLoad
      rw [mlA_error.mpr hn]
      rfl
    · intro he hi
      unfold movingLoad at he
      rw [mlA_ok h hi] at he
      cases he

/-- **C218** Without damping at the critical velocity (`alp = 1`, `bet = 0`, one of the panels of
`esveld_fig6p17`) roots coincide, so in exact arithmetic the solve fails whatever the order. -/
theorem C218_critical_velocity_fails (γ : Fin 4 → ℂ) (h : IsRoots 1 0 γ) (slim : ℝ × ℝ) (npts : ℕ) :
    movingLoad γ slim npts = .error .other := by
  refine ((C218_moving_load_response 1 0 γ h slim npts).2).mp fun hi => ?_
  have mem : ∀ j, γ j ^ 2 = -2 := by
    intro j
    have := root_pow h j
    have e : (γ j ^ 2 + 2) ^ 2 = 0 := by
      push_cast at this
      linear_combination this
    have := pow_eq_zero_iff (two_ne_zero) |>.mp e
    linear_combination this
  have pm : ∀ i j, i ≠ j → γ i = - γ j := by
    intro i j hij
    have : (γ i - γ j) * (γ i + γ j) = 0 := by linear_combination mem i - mem j
    rcases mul_eq_zero.mp this with h1 | h1
    · exact absurd (hi (sub_eq_zero.mp h1)) hij
    · linear_combination h1
  have a := pm 0 1 (by decide)
  have b := pm 0 2 (by decide)
  exact absurd (hi (neg_injective (a.symm.trans b))) (by decide)

/-- Non-vacuity of the previous theorem: `√2 i` and `-√2 i`, each twice. -/
example : IsRoots 1 0 ![Real.sqrt 2 * I, -(Real.sqrt 2 * I), Real.sqrt 2 * I, -(Real.sqrt 2 * I)] := by
  intro z
  have h2 : ((Real.sqrt 2 : ℝ) : ℂ) ^ 2 = 2 := by
    rw [← Complex.ofReal_pow, Real.sq_sqrt (by norm_num)]; norm_num
  simp
  linear_combination (-(Real.sqrt 2 : ℂ) ^ 4 * (I ^ 2 - 1) + 2 * (Real.sqrt 2 : ℂ) ^ 2 * z ^ 2) * I_sq
    - ((Real.sqrt 2 : ℂ) ^ 2 + 2 + 2 * z ^ 2) * h2

end Geotecha.Beam
