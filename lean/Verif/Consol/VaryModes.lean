import Verif.Consol.SpecVary
import Mathlib.MeasureTheory.Integral.IntervalIntegral.FundThmCalculus
import Mathlib.Analysis.Calculus.Deriv.Mul
import Mathlib.Analysis.Calculus.Deriv.Add
import Mathlib.Tactic.Linarith
import Mathlib.Tactic.FieldSimp

/-! # Modes of a layer that varies with depth: orthogonality, projection, Bessel's inequality -/

set_option linter.unusedVariables false
set_option autoImplicit false
open MeasureTheory Finset
namespace Geotecha.Consol.Spec.Vary

variable {V : Vary}

/-- Continuous on the layer. -/
abbrev Cont (V : Vary) (f : ℝ → ℝ) : Prop := ContinuousOn f (Set.Icc 0 V.H)

theorem Mode.cont {lam : ℝ} {Z Zd : ℝ → ℝ} (m : V.Mode lam Z Zd) : V.Cont Z :=
  fun z hz => (m.slope z hz.1 hz.2).continuousAt.continuousWithinAt

section
variable (hH : 0 < V.H) (hmv : V.Cont V.mv)
include hH hmv

theorem int_ok {f : ℝ → ℝ} (hf : V.Cont f) : IntervalIntegrable (fun z => V.mv z * f z) volume 0 V.H := by
  refine ContinuousOn.intervalIntegrable ?_
  rw [Set.uIcc_of_le hH.le]
  exact hmv.mul hf

omit hmv in
theorem total_congr {f g : ℝ → ℝ} (h : ∀ z, 0 ≤ z → z ≤ V.H → f z = g z) : V.total f = V.total g := by
  unfold total
  refine intervalIntegral.integral_congr fun z hz => ?_
  rw [Set.uIcc_of_le hH.le] at hz
  show V.mv z * f z = V.mv z * g z
  rw [h z hz.1 hz.2]

theorem total_sub {f g : ℝ → ℝ} (hf : V.Cont f) (hg : V.Cont g) : V.total (fun z => f z - g z) = V.total f - V.total g := by
  unfold total
  rw [← intervalIntegral.integral_sub (int_ok hH hmv hf) (int_ok hH hmv hg)]
  simp only [mul_sub]

omit hH hmv in
theorem total_mul (c : ℝ) (f : ℝ → ℝ) : V.total (fun z => c * f z) = c * V.total f := by
  unfold total
  rw [← intervalIntegral.integral_const_mul]
  congr 1; funext z; ring

theorem total_sum {n : ℕ} {f : ℕ → ℝ → ℝ} (hf : ∀ m < n, V.Cont (f m)) :
    V.total (fun z => ∑ m ∈ range n, f m z) = ∑ m ∈ range n, V.total (f m) := by
  unfold total
  rw [← intervalIntegral.integral_finsetSum fun m hm => int_ok hH hmv (hf m (mem_range.1 hm))]
  congr 1; funext z; rw [mul_sum]

omit hmv in
theorem total_nonneg (hp : ∀ z, 0 ≤ z → z ≤ V.H → 0 ≤ V.mv z) {f : ℝ → ℝ} (hf : ∀ z, 0 ≤ f z) : 0 ≤ V.total f :=
  intervalIntegral.integral_nonneg hH.le fun z hz => mul_nonneg (hp z hz.1 hz.2) (hf z)

theorem mode_orth {l l' : ℝ} {Z Zd Y Yd : ℝ → ℝ} (m : V.Mode l Z Zd) (m' : V.Mode l' Y Yd) :
    (l - l') * V.total (fun z => Z z * Y z) = 0 := by
  set W : ℝ → ℝ := fun z => V.kv z / V.gamw * Zd z * Y z - Z z * (V.kv z / V.gamw * Yd z) with hW
  have hder : ∀ z ∈ Set.uIcc 0 V.H, HasDerivAt W (-(l - l') * (V.mv z * (Z z * Y z))) z := fun z hz => by
    rw [Set.uIcc_of_le hH.le] at hz
    refine (((m.eqn z hz.1 hz.2).mul (m'.slope z hz.1 hz.2)).sub ((m.slope z hz.1 hz.2).mul (m'.eqn z hz.1 hz.2))).congr_deriv ?_
    ring
  have hi := int_ok hH hmv (m.cont.mul m'.cont)
  have := intervalIntegral.integral_eq_sub_of_hasDerivAt hder (hi.const_mul _)
  rw [intervalIntegral.integral_const_mul] at this
  have h0 : W 0 = 0 := by rw [hW]; dsimp only; rw [m.fits.top, m'.fits.top]; ring
  have h1 : W V.H = 0 := by
    rw [hW]; dsimp only
    by_cases ht : V.botDrains
    · rw [m.fits.bot.1 ht, m'.fits.bot.1 ht]; ring
    · rw [m.fits.bot.2 ht, m'.fits.bot.2 ht]; ring
  rw [h0, h1] at this
  unfold total
  linarith

/-- The part of `1` that the modes `Z m`, `m < n`, hold, with the usual coefficients. -/
noncomputable def proj (V : Vary) (n : ℕ) (Z : ℕ → ℝ → ℝ) (z : ℝ) : ℝ :=
  ∑ m ∈ range n, V.total (Z m) / V.total (fun z => Z m z ^ 2) * Z m z

variable {n : ℕ} {Z Zd : ℕ → ℝ → ℝ} {lam : ℕ → ℝ} (hm : ∀ m < n, V.Mode (lam m) (Z m) (Zd m))
  (hinj : ∀ m < n, ∀ j < n, m ≠ j → lam m ≠ lam j) (hpos : ∀ m < n, 0 < V.total (fun z => Z m z ^ 2))
include hm

omit hH hmv in
theorem proj_cont : V.Cont (V.proj n Z) := by
  unfold proj
  exact continuousOn_finsetSum _ fun m h => continuousOn_const.mul (hm m (mem_range.1 h)).cont

include hinj hpos

theorem proj_inner {j : ℕ} (hj : j < n) : V.total (fun z => V.proj n Z z * Z j z) = V.total (Z j) := by
  have hc : ∀ m < n, V.Cont (Z m) := fun m h => (hm m h).cont
  have e : V.total (fun z => V.proj n Z z * Z j z) =
      V.total (fun z => ∑ m ∈ range n, V.total (Z m) / V.total (fun z => Z m z ^ 2) * (Z m z * Z j z)) :=
    total_congr hH fun z _ _ => by unfold proj; rw [sum_mul]; exact sum_congr rfl fun m _ => by ring
  rw [e, total_sum (f := fun m z => V.total (Z m) / V.total (fun z => Z m z ^ 2) * (Z m z * Z j z)) hH hmv fun m h => continuousOn_const.mul ((hc m h).mul (hc j hj))]
  rw [sum_eq_single_of_mem j (mem_range.2 hj)]
  · rw [total_mul]
    have := (hpos j hj).ne'
    have e2 : V.total (fun z => Z j z * Z j z) = V.total (fun z => Z j z ^ 2) := total_congr hH fun z _ _ => by ring
    rw [e2, div_mul_cancel₀ _ this]
  · intro m hmr hne
    have hmn := mem_range.1 hmr
    rw [total_mul]
    have := mode_orth hH hmv (hm m hmn) (hm j hj)
    rw [(mul_eq_zero.1 this).resolve_left (sub_ne_zero.2 (hinj m hmn j hj hne)), mul_zero]

/-- What the modes do not hold is orthogonal to each of them. -/
theorem proj_orth {j : ℕ} (hj : j < n) : V.total (fun z => (1 - V.proj n Z z) * Z j z) = 0 := by
  have hp := proj_cont hm
  have hc := (hm j hj).cont
  have e : V.total (fun z => (1 - V.proj n Z z) * Z j z) = V.total (fun z => Z j z - V.proj n Z z * Z j z) :=
    total_congr hH fun z _ _ => by ring
  rw [e, total_sub (g := fun z => V.proj n Z z * Z j z) hH hmv hc (hp.mul hc), proj_inner hH hmv hm hinj hpos hj, sub_self]

/-- Bessel's inequality for the function `1`. -/
theorem bessel (hmv0 : ∀ z, 0 ≤ z → z ≤ V.H → 0 ≤ V.mv z) :
    ∑ m ∈ range n, V.total (Z m) ^ 2 / V.total (fun z => Z m z ^ 2) ≤ V.total fun _ => 1 := by
  have hc : ∀ m < n, V.Cont (Z m) := fun m h => (hm m h).cont
  have hp := proj_cont hm
  have hq : V.Cont fun z => 1 - V.proj n Z z := continuousOn_const.sub hp
  have h0 : 0 ≤ V.total (fun z => (1 - V.proj n Z z) ^ 2) := total_nonneg hH hmv0 fun z => sq_nonneg _
  have e : V.total (fun z => (1 - V.proj n Z z) ^ 2) = V.total (fun z => 1 - V.proj n Z z) -
      ∑ m ∈ range n, V.total (Z m) / V.total (fun z => Z m z ^ 2) * V.total (fun z => (1 - V.proj n Z z) * Z m z) := by
    have e1 : V.total (fun z => (1 - V.proj n Z z) ^ 2) = V.total (fun z => (1 - V.proj n Z z) -
        ∑ m ∈ range n, V.total (Z m) / V.total (fun z => Z m z ^ 2) * ((1 - V.proj n Z z) * Z m z)) :=
      total_congr hH fun z _ _ => by
        have : ∑ m ∈ range n, V.total (Z m) / V.total (fun z => Z m z ^ 2) * ((1 - V.proj n Z z) * Z m z) =
            (1 - V.proj n Z z) * V.proj n Z z := by
          conv_rhs => rw [proj.eq_def, mul_sum]
          exact sum_congr rfl fun m _ => by
            unfold proj; ring
        rw [this]; ring
    rw [e1, total_sub (g := fun z => ∑ m ∈ range n, V.total (Z m) / V.total (fun z => Z m z ^ 2) * ((1 - V.proj n Z z) * Z m z)) hH hmv hq (continuousOn_finsetSum _ fun m h => continuousOn_const.mul (hq.mul (hc m (mem_range.1 h)))),
      total_sum (f := fun m z => V.total (Z m) / V.total (fun z => Z m z ^ 2) * ((1 - V.proj n Z z) * Z m z)) hH hmv (fun m h => continuousOn_const.mul (hq.mul (hc m h)))]
    congr 1
    exact sum_congr rfl fun m _ => total_mul _ _
  rw [e, sum_eq_zero fun m h => by rw [proj_orth hH hmv hm hinj hpos (mem_range.1 h), mul_zero], sub_zero,
    total_sub (f := fun _ => 1) hH hmv continuousOn_const hp] at h0
  have e3 : V.total (V.proj n Z) = ∑ m ∈ range n, V.total (Z m) ^ 2 / V.total (fun z => Z m z ^ 2) := by
    show V.total (fun z => V.proj n Z z) = _
    unfold proj
    rw [total_sum (f := fun m z => V.total (Z m) / V.total (fun z => Z m z ^ 2) * Z m z) hH hmv fun m h => continuousOn_const.mul (hc m h)]
    exact sum_congr rfl fun m _ => by rw [total_mul]; ring
  linarith
end

end Geotecha.Consol.Spec.Vary
