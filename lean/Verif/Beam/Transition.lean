import Verif.Piecewise.Model
import Mathlib.Analysis.SpecialFunctions.Artanh
import Mathlib.Analysis.SpecialFunctions.Trigonometric.Arctan
import Mathlib.Analysis.SpecialFunctions.Pow.Real
import Mathlib.Analysis.SpecialFunctions.Sqrt
import Mathlib.Topology.Algebra.Order.Floor

/-!
# Transition curves of `specbeam.py`

Model of `tanhtran`, `tanhtrani`, `tanhtranib` and `reverse_curve_transition`
(geotecha/beam_on_foundation/specbeam.py:8514-8604, 8983-9052) over the reals.
-/
set_option autoImplicit false
set_option linter.unusedVariables false

namespace Geotecha.Beam

open Real Set Filter Topology

/-! ## The tanh transition -/

/-- `tanhtran(x, a, b)` (specbeam.py:8514-8543).  The argument `a` is not used by the code.  `b = 0`
(division by zero) is outside the model. -/
noncomputable def tanhtran (x a b : ℝ) : ℝ := 0.5 + 0.5 * Real.tanh ((x - 0.5) / b)

/-- `tanhtrani(y, a, b)` (specbeam.py:8546-8573); `0 < y < 1`, otherwise numpy gives `inf` or `nan`. -/
noncomputable def tanhtrani (y a b : ℝ) : ℝ := b * Real.artanh ((y - 0.5) / 0.5) + a

/-- `tanhtranib(x, y, a)` (specbeam.py:8576-8604); `0 < y < 1`, `y ≠ 0.5`. -/
noncomputable def tanhtranib (x y a : ℝ) : ℝ := (x - a) / Real.artanh ((y - 0.5) / 0.5)

/-- Specification: the transition of the docstring, centred at `a` with width `b`. -/
noncomputable def tanhSpec (a b x : ℝ) : ℝ := 1 / 2 + 1 / 2 * Real.tanh ((x - a) / b)

theorem tanhtran_eq (x a b : ℝ) : tanhtran x a b = tanhSpec (1 / 2) b x := by
  unfold tanhtran tanhSpec; norm_num

theorem tanh_lt_tanh {x y : ℝ} (h : x < y) : Real.tanh x < Real.tanh y := by
  rw [← artanh_lt_artanh_iff ⟨neg_one_lt_tanh x, tanh_lt_one x⟩ ⟨neg_one_lt_tanh y, tanh_lt_one y⟩,
    artanh_tanh, artanh_tanh]
  exact h

theorem tanh_tendsto_top : Tendsto Real.tanh atTop (𝓝 1) := by
  have h : ∀ x : ℝ, Real.tanh x = 1 - 2 * Real.exp (-(2 * x)) / (1 + Real.exp (-(2 * x))) := by
    intro x
    have e : Real.exp (-(2 * x)) = Real.exp (-x) * Real.exp (-x) := by rw [← Real.exp_add]; ring_nf
    have e1 : Real.exp x * Real.exp (-x) = 1 := by rw [← Real.exp_add]; simp
    have p1 := Real.exp_pos x
    have p2 := Real.exp_pos (-x)
    rw [Real.tanh_eq, e]
    have : (Real.exp x + Real.exp (-x)) ≠ 0 := by positivity
    have : (1 + Real.exp (-x) * Real.exp (-x)) ≠ 0 := by positivity
    field_simp
    linear_combination (2 * Real.exp (-x)) * e1
  have t : Tendsto (fun x : ℝ => Real.exp (-(2 * x))) atTop (𝓝 0) :=
    Real.tendsto_exp_neg_atTop_nhds_zero.comp (tendsto_id.const_mul_atTop (by norm_num : (0:ℝ) < 2))
  have := ((t.const_mul 2).div (t.const_add 1) (by norm_num)).const_sub 1
  simp only [mul_zero, add_zero, zero_div, sub_zero] at this
  exact this.congr fun x => (h x).symm

theorem tanh_tendsto_bot : Tendsto Real.tanh atBot (𝓝 (-1)) := by
  have := (tanh_tendsto_top.comp tendsto_neg_atBot_atTop).neg
  exact this.congr fun x => by simp

/-- **C216** Weight function: values strictly between 0 and 1, increasing for `b > 0` (decreasing for
`b < 0`), with limits 0 and 1, one half at `x = 0.5` and point symmetric about it. -/
theorem C216_transition_weight (a b : ℝ) (hb : b ≠ 0) :
    (∀ x, 0 < tanhtran x a b ∧ tanhtran x a b < 1)
    ∧ (∀ x y, x < y → 0 < b → tanhtran x a b < tanhtran y a b)
    ∧ (∀ x y, x < y → b < 0 → tanhtran y a b < tanhtran x a b)
    ∧ (0 < b → Tendsto (fun x => tanhtran x a b) atTop (𝓝 1)
        ∧ Tendsto (fun x => tanhtran x a b) atBot (𝓝 0))
    ∧ tanhtran (1 / 2) a b = 1 / 2
    ∧ ∀ x, tanhtran x a b + tanhtran (1 - x) a b = 1 := by
  refine ⟨fun x => ?_, fun x y h hb => ?_, fun x y h hb => ?_, fun hb => ⟨?_, ?_⟩, ?_, fun x => ?_⟩
  · have h1 := neg_one_lt_tanh ((x - 0.5) / b)
    have h2 := tanh_lt_one ((x - 0.5) / b)
    unfold tanhtran
    constructor <;> norm_num at h1 h2 ⊢ <;> linarith
  · have := tanh_lt_tanh (div_lt_div_of_pos_right (sub_lt_sub_right h (1 / 2)) hb)
    rw [tanhtran_eq, tanhtran_eq]; unfold tanhSpec; linarith
  · have := tanh_lt_tanh (div_lt_div_of_neg_of_lt hb (sub_lt_sub_right h (1 / 2)))
    rw [tanhtran_eq, tanhtran_eq]; unfold tanhSpec; linarith
  · have t : Tendsto (fun x : ℝ => (x - 1 / 2) / b) atTop atTop :=
      (tendsto_atTop_add_const_right _ (-(1 / 2)) tendsto_id).atTop_div_const hb
    have := ((tanh_tendsto_top.comp t).const_mul (1 / 2)).const_add (1 / 2)
    norm_num at this
    refine this.congr fun x => ?_
    rw [tanhtran_eq]; unfold tanhSpec; simp
  · have t : Tendsto (fun x : ℝ => (x - 1 / 2) / b) atBot atBot :=
      (tendsto_atBot_add_const_right _ (-(1 / 2)) tendsto_id).atBot_div_const hb
    have := ((tanh_tendsto_bot.comp t).const_mul (1 / 2)).const_add (1 / 2)
    norm_num at this
    refine this.congr fun x => ?_
    rw [tanhtran_eq]; unfold tanhSpec; simp
  · rw [tanhtran_eq]; unfold tanhSpec; simp
  · rw [tanhtran_eq, tanhtran_eq]; unfold tanhSpec
    rw [show (1 - x - 1 / 2) / b = -((x - 1 / 2) / b) by ring, Real.tanh_neg]; ring

/-- **C216** The position argument is ignored: the documented curve `0.5 + 0.5 tanh((x-a)/b)` is what is
returned, at all `x` or at any single `x`, exactly when `a = 0.5`. -/
theorem C216_position_ignored (a b x : ℝ) (hb : b ≠ 0) :
    (∀ a', tanhtran x a b = tanhtran x a' b)
    ∧ (tanhtran x a b = 1 / 2 + 1 / 2 * Real.tanh ((x - a) / b) ↔ a = 1 / 2) := by
  refine ⟨fun _ => rfl, ?_⟩
  rw [tanhtran_eq]
  unfold tanhSpec
  constructor
  · intro h
    have h2 : Real.tanh ((x - 1 / 2) / b) = Real.tanh ((x - a) / b) := by linarith
    have := tanh_injective h2
    rw [div_left_inj' hb] at this
    linarith
  · rintro rfl; rfl

theorem half_arg (y : ℝ) (h0 : 0 < y) (h1 : y < 1) : (y - 0.5) / 0.5 ∈ Ioo (-1:ℝ) 1 := by
  constructor <;> norm_num <;> linarith

/-- **C216** The "inverse" is off by `a - 0.5` in `x`, so it inverts the transition iff `a = 0.5`; the
smoothing factor passes the curve through the given point iff `a = 0.5`. -/
theorem C216_inverse_partial (a b : ℝ) (hb : b ≠ 0) :
    (∀ x, tanhtrani (tanhtran x a b) a b = x + (a - 1 / 2))
    ∧ (∀ y, 0 < y → y < 1 → (tanhtran (tanhtrani y a b) a b = y ↔ a = 1 / 2))
    ∧ (∀ x y, 0 < y → y < 1 → y ≠ 1 / 2 → x ≠ a →
        (tanhtran x a (tanhtranib x y a) = y ↔ a = 1 / 2)) := by
  refine ⟨fun x => ?_, fun y h0 h1 => ?_, fun x y h0 h1 hy hx => ?_⟩
  · unfold tanhtrani tanhtran
    rw [show (0.5 + 0.5 * Real.tanh ((x - 0.5) / b) - 0.5) / 0.5 = Real.tanh ((x - 0.5) / b) by
      norm_num, artanh_tanh, mul_div_cancel₀ _ hb]
    norm_num; ring
  · have hm := half_arg y h0 h1
    have e : y = 0.5 + 0.5 * Real.tanh (Real.artanh ((y - 0.5) / 0.5)) := by
      rw [tanh_artanh hm]; norm_num; ring
    unfold tanhtran tanhtrani
    constructor
    · intro h
      rw [e] at h
      have h2 := tanh_injective (mul_left_cancel₀ (by norm_num : (0.5:ℝ) ≠ 0) (add_left_cancel h))
      rw [← e] at h2
      rw [div_eq_iff hb] at h2
      norm_num at h2 ⊢
      nlinarith
    · rintro rfl
      rw [show (b * Real.artanh ((y - 0.5) / 0.5) + 1 / 2 - 0.5) / b = Real.artanh ((y - 0.5) / 0.5) by
        field_simp; norm_num]
      exact e.symm
  · have hm := half_arg y h0 h1
    have e : y = 0.5 + 0.5 * Real.tanh (Real.artanh ((y - 0.5) / 0.5)) := by
      rw [tanh_artanh hm]; norm_num; ring
    have hne : Real.artanh ((y - 0.5) / 0.5) ≠ 0 := by
      intro h
      rw [h] at e
      apply hy; rw [e]; norm_num
    have hxa : x - a ≠ 0 := sub_ne_zero.mpr hx
    unfold tanhtran tanhtranib
    constructor
    · intro h
      rw [e] at h
      have h2 := tanh_injective (mul_left_cancel₀ (by norm_num : (0.5:ℝ) ≠ 0) (add_left_cancel h))
      rw [← e] at h2
      field_simp at h2
      norm_num at h2 ⊢
      linarith
    · rintro rfl
      rw [show (x - 0.5) / ((x - 1 / 2) / Real.artanh ((y - 0.5) / 0.5))
          = Real.artanh ((y - 0.5) / 0.5) by
        rw [show (0.5:ℝ) = 1 / 2 by norm_num] at *
        exact div_div_cancel₀ hxa]
      exact e.symm

/-- Non-vacuity: a sharp transition `a = 0`, `b = 0.1`; the inverse of 1/2 is `0`, but the code's curve is
at one half at `x = 0.5`. -/
example : tanhtrani (1 / 2) 0 0.1 = 0 ∧ tanhtran 0.5 0 0.1 = 1 / 2 ∧ tanhtran 0 0 0.1 ≠ 1 / 2 := by
  refine ⟨?_, ?_, ?_⟩
  · unfold tanhtrani; norm_num
  · unfold tanhtran; norm_num
  · have := (C216_transition_weight 0 0.1 (by norm_num)).2.1 0 (1 / 2) (by norm_num) (by norm_num)
    rw [(C216_transition_weight 0 0.1 (by norm_num)).2.2.2.2.1] at this
    exact this.ne

/-! ## The reverse curve -/

/-- Element type of the output array: `np.empty_like(x)` (specbeam.py:9017) has the type of `x`, so an
integer `x` truncates every value stored. -/
inductive DType where
  /-- floating point `x` -/ | float
  /-- integer `x` -/ | int

/-- Storing a float in an array of the given element type (numpy casts by truncation towards zero). -/
noncomputable def DType.store : DType → ℝ → ℝ
  | .float, v => v
  | .int, v => if 0 ≤ v then (⌊v⌋ : ℝ) else (⌈v⌉ : ℝ)

/-- `delta` (specbeam.py:9042). -/
noncomputable def rcDelta (xa ya xb yb : ℝ) : ℝ := 2 * Real.arctan (|yb - ya| / |xb - xa|)

/-- `R` (specbeam.py:9043). -/
noncomputable def rcR (xa ya xb yb : ℝ) : ℝ := |xb - xa| / (2 * Real.sin (rcDelta xa ya xb yb))

/-- One element of the output, after the end points have been ordered (specbeam.py:9023-9025, 9036-9052).
The later assignments of the code overwrite the earlier ones. -/
noncomputable def rcArc (x x1 x2 xa ya xb yb : ℝ) : ℝ :=
  if x ≥ xb then yb
  else if x ≤ xa then ya
  else if yb < ya then
    if x < (x2 + x1) / 2 then Real.sqrt (rcR xa ya xb yb ^ 2 - (x - xa) ^ 2) + ya - rcR xa ya xb yb
    else -Real.sqrt (rcR xa ya xb yb ^ 2 - (x - xb) ^ 2) + yb + rcR xa ya xb yb
  else
    if x < (x2 + x1) / 2 then -Real.sqrt (rcR xa ya xb yb ^ 2 - (x - xa) ^ 2) + ya + rcR xa ya xb yb
    else Real.sqrt (rcR xa ya xb yb ^ 2 - (x - xb) ^ 2) + yb - rcR xa ya xb yb

/-- `reverse_curve_transition(x, x1, y1, x2, y2)` (specbeam.py:8983-9054). -/
noncomputable def reverseCurve (dt : DType) (x : List ℝ) (x1 y1 x2 y2 : ℝ) : Except PyErr (List ℝ) :=
  if y1 = y2 then .ok (x.map fun _ => dt.store y1)
  else if x2 > x1 then .ok (x.map fun x => dt.store (rcArc x x1 x2 x1 y1 x2 y2))
  else if x1 > x2 then .ok (x.map fun x => dt.store (rcArc x x1 x2 x2 y2 x1 y1))
  else .error .valueError

end Geotecha.Beam
