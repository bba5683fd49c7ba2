import Verif.Consol.SpecLayers
import Mathlib.MeasureTheory.Integral.IntervalIntegral.FundThmCalculus
import Mathlib.Analysis.Calculus.Deriv.Mul
import Mathlib.Analysis.Calculus.Deriv.Add
import Mathlib.Tactic.Linarith
import Mathlib.Tactic.FieldSimp

/-! # Modes of a layered column: orthogonality, projection, Bessel's inequality -/

set_option linter.unusedVariables false
open MeasureTheory Finset
namespace Geotecha.Consol.Spec.Column

variable {V : Column}

theorem depth_succ (V : Column) (i : ℕ) : V.depth (i + 1) = V.depth i + V.h i := by
  unfold depth; rw [sum_range_succ]

theorem Mode.cont {lam : ℝ} {Z Zd : ℕ → ℝ → ℝ} (m : V.Mode lam Z Zd) {i : ℕ} (hi : i < V.N) : Continuous (Z i) :=
  continuous_iff_continuousAt.2 fun z => (m.slope i hi z).continuousAt

/-- Telescoping over the layers. -/
theorem sum_telescope {N : ℕ} (hN : 0 < N) (a b : ℕ → ℝ) (h : ∀ i, i + 1 < N → b i = a (i + 1)) :
    ∑ i ∈ range N, (b i - a i) = b (N - 1) - a 0 := by
  obtain ⟨M, rfl⟩ : ∃ M, N = M + 1 := ⟨N - 1, by omega⟩
  clear hN
  induction M with
  | zero => simp
  | succ M ih =>
    rw [sum_range_succ, ih (fun i hi => h i (by omega))]
    have := h M (by omega)
    simp only [Nat.add_sub_cancel]
    rw [this]; ring

theorem mode_orth {l l' : ℝ} {Z Zd Y Yd : ℕ → ℝ → ℝ} (hN : 0 < V.N) (m : V.Mode l Z Zd) (m' : V.Mode l' Y Yd) :
    (l - l') * V.total (fun i z => Z i z * Y i z) = 0 := by
  set W : ℕ → ℝ → ℝ := fun i z => V.kv i * Zd i z * Y i z - Z i z * (V.kv i * Yd i z) with hW
  have hder : ∀ i < V.N, ∀ z, HasDerivAt (W i) (-((l - l') * V.mv i * (Z i z * Y i z))) z := fun i hi z => by
    refine (((m.eqn i hi z).mul (m'.slope i hi z)).sub ((m.slope i hi z).mul (m'.eqn i hi z))).congr_deriv ?_
    ring
  have hint : ∀ i < V.N, (l - l') * (V.mv i * ∫ z in V.depth i..V.depth (i + 1), Z i z * Y i z) =
      -(W i (V.depth (i + 1)) - W i (V.depth i)) := fun i hi => by
    have hc : Continuous fun z => -((l - l') * V.mv i * (Z i z * Y i z)) := by
      have := m.cont hi; have := m'.cont hi; fun_prop
    rw [← intervalIntegral.integral_eq_sub_of_hasDerivAt (fun z _ => hder i hi z) (hc.intervalIntegrable _ _),
      intervalIntegral.integral_neg, intervalIntegral.integral_const_mul]
    ring
  unfold total
  rw [mul_sum, sum_congr rfl fun i hi => hint i (mem_range.1 hi), sum_neg_distrib,
    sum_telescope hN (fun i => W i (V.depth i)) (fun i => W i (V.depth (i + 1))) ?_]
  · have h0 : W 0 (V.depth 0) = 0 := by
      have e : V.depth 0 = 0 := by simp [depth]
      rw [e, hW]; dsimp only
      by_cases ht : V.topDrains
      · rw [m.fits.top.1 ht, m'.fits.top.1 ht]; ring
      · rw [m.fits.top.2 ht, m'.fits.top.2 ht]; ring
    have h1 : W (V.N - 1) (V.depth (V.N - 1 + 1)) = 0 := by
      have e : V.N - 1 + 1 = V.N := by omega
      rw [e, hW]; dsimp only
      by_cases ht : V.botDrains
      · rw [m.fits.bot.1 ht, m'.fits.bot.1 ht]; ring
      · rw [m.fits.bot.2 ht, m'.fits.bot.2 ht]; ring
    rw [h0, h1]; ring
  · intro i hi
    simp only [hW]
    rw [m.fits.pressure i hi, m'.fits.pressure i hi, m.fits.flow i hi, m'.fits.flow i hi]

/-! ## Linearity of `total` -/

theorem total_congr {f g : ℕ → ℝ → ℝ} (h : ∀ i < V.N, ∀ z, f i z = g i z) : V.total f = V.total g := by
  unfold total
  refine sum_congr rfl fun i hi => ?_
  rw [show f i = g i from funext (h i (mem_range.1 hi))]

theorem total_sub {f g : ℕ → ℝ → ℝ} (hf : ∀ i < V.N, Continuous (f i)) (hg : ∀ i < V.N, Continuous (g i)) :
    V.total (fun i z => f i z - g i z) = V.total f - V.total g := by
  unfold total
  rw [← sum_sub_distrib]
  refine sum_congr rfl fun i hi => ?_
  have hi := mem_range.1 hi
  rw [intervalIntegral.integral_sub ((hf i hi).intervalIntegrable _ _) ((hg i hi).intervalIntegrable _ _), mul_sub]

theorem total_mul (c : ℝ) (f : ℕ → ℝ → ℝ) : V.total (fun i z => c * f i z) = c * V.total f := by
  unfold total
  rw [mul_sum]
  refine sum_congr rfl fun i hi => ?_
  rw [intervalIntegral.integral_const_mul]; ring

theorem total_sum {n : ℕ} {f : ℕ → ℕ → ℝ → ℝ} (hf : ∀ m < n, ∀ i < V.N, Continuous (f m i)) :
    V.total (fun i z => ∑ m ∈ range n, f m i z) = ∑ m ∈ range n, V.total (f m) := by
  unfold total
  rw [sum_comm]
  refine sum_congr rfl fun i hi => ?_
  have hi := mem_range.1 hi
  rw [intervalIntegral.integral_finsetSum fun m hm => (hf m (mem_range.1 hm) i hi).intervalIntegrable _ _, mul_sum]

theorem total_nonneg (hmv : ∀ i < V.N, 0 ≤ V.mv i) (hh : ∀ i < V.N, 0 ≤ V.h i) {f : ℕ → ℝ → ℝ} (hf : ∀ i < V.N, ∀ z, 0 ≤ f i z) :
    0 ≤ V.total f := by
  unfold total
  refine sum_nonneg fun i hi => ?_
  have hi := mem_range.1 hi
  refine mul_nonneg (hmv i hi) (intervalIntegral.integral_nonneg ?_ fun z _ => hf i hi z)
  rw [depth_succ]; linarith [hh i hi]

theorem total_const (c : ℝ) : V.total (fun _ _ => c) = c * ∑ i ∈ range V.N, V.mv i * V.h i := by
  unfold total
  rw [mul_sum]
  refine sum_congr rfl fun i hi => ?_
  rw [intervalIntegral.integral_const, depth_succ, smul_eq_mul]; ring

/-- The part of `1` that the modes `Z m`, `m < n`, hold, with the usual coefficients. -/
noncomputable def proj (V : Column) (n : ℕ) (Z : ℕ → ℕ → ℝ → ℝ) (i : ℕ) (z : ℝ) : ℝ :=
  ∑ m ∈ range n, V.total (Z m) / V.total (fun i z => Z m i z ^ 2) * Z m i z

section
variable {n : ℕ} {Z : ℕ → ℕ → ℝ → ℝ} (hc : ∀ m < n, ∀ i < V.N, Continuous (Z m i))
  (horth : ∀ m < n, ∀ j < n, m ≠ j → V.total (fun i z => Z m i z * Z j i z) = 0) (hpos : ∀ m < n, 0 < V.total (fun i z => Z m i z ^ 2))
include hc horth hpos

theorem proj_inner_of {j : ℕ} (hj : j < n) : V.total (fun i z => V.proj n Z i z * Z j i z) = V.total (Z j) := by
  have e : V.total (fun i z => V.proj n Z i z * Z j i z) =
      V.total (fun i z => ∑ m ∈ range n, V.total (Z m) / V.total (fun i z => Z m i z ^ 2) * (Z m i z * Z j i z)) :=
    total_congr fun i hi z => by unfold proj; rw [sum_mul]; exact sum_congr rfl fun m _ => by ring
  rw [e, total_sum fun m h i hi => by have := hc m h i hi; have := hc j hj i hi; fun_prop]
  rw [sum_eq_single_of_mem j (mem_range.2 hj)]
  · rw [total_mul]
    have := (hpos j hj).ne'
    have e2 : V.total (fun i z => Z j i z * Z j i z) = V.total (fun i z => Z j i z ^ 2) := total_congr fun i hi z => by ring
    rw [e2, div_mul_cancel₀ _ this]
  · intro m hmr hne
    rw [total_mul, horth m (mem_range.1 hmr) j hj hne, mul_zero]

/-- What the functions do not hold is orthogonal to each of them. -/
theorem proj_orth_of {j : ℕ} (hj : j < n) : V.total (fun i z => (1 - V.proj n Z i z) * Z j i z) = 0 := by
  have hp : ∀ i < V.N, Continuous (V.proj n Z i) := fun i hi => by
    unfold proj; exact continuous_finsetSum _ fun m h => (hc m (mem_range.1 h) i hi).const_mul _
  have e : V.total (fun i z => (1 - V.proj n Z i z) * Z j i z) = V.total (fun i z => Z j i z - V.proj n Z i z * Z j i z) :=
    total_congr fun i hi z => by ring
  rw [e, total_sub (g := fun i z => V.proj n Z i z * Z j i z) (fun i hi => hc j hj i hi) (fun i hi => (hp i hi).mul (hc j hj i hi)), proj_inner_of hc horth hpos hj, sub_self]

/-- Bessel's inequality for the function `1`. -/
theorem bessel_of (hmv : ∀ i < V.N, 0 ≤ V.mv i) (hh : ∀ i < V.N, 0 ≤ V.h i) :
    ∑ m ∈ range n, V.total (Z m) ^ 2 / V.total (fun i z => Z m i z ^ 2) ≤ ∑ i ∈ range V.N, V.mv i * V.h i := by
  have hp : ∀ i < V.N, Continuous (V.proj n Z i) := fun i hi => by
    unfold proj; exact continuous_finsetSum _ fun m h => (hc m (mem_range.1 h) i hi).const_mul _
  have h0 : 0 ≤ V.total (fun i z => (1 - V.proj n Z i z) ^ 2) := total_nonneg hmv hh fun i hi z => sq_nonneg _
  have e : V.total (fun i z => (1 - V.proj n Z i z) ^ 2) = V.total (fun i z => 1 - V.proj n Z i z) -
      ∑ m ∈ range n, V.total (Z m) / V.total (fun i z => Z m i z ^ 2) * V.total (fun i z => (1 - V.proj n Z i z) * Z m i z) := by
    have e1 : V.total (fun i z => (1 - V.proj n Z i z) ^ 2) = V.total (fun i z => (1 - V.proj n Z i z) -
        ∑ m ∈ range n, V.total (Z m) / V.total (fun i z => Z m i z ^ 2) * ((1 - V.proj n Z i z) * Z m i z)) :=
      total_congr fun i hi z => by
        have : ∑ m ∈ range n, V.total (Z m) / V.total (fun i z => Z m i z ^ 2) * ((1 - V.proj n Z i z) * Z m i z) =
            (1 - V.proj n Z i z) * V.proj n Z i z := by
          conv_rhs => rw [proj.eq_def, mul_sum]
          exact sum_congr rfl fun m _ => by
            unfold proj; ring
        rw [this]; ring
    rw [e1, total_sub (fun i hi => by have := hp i hi; fun_prop) (fun i hi => continuous_finsetSum _ fun m h => by
      have := hp i hi; have := hc m (mem_range.1 h) i hi; fun_prop),
      total_sum (fun m h i hi => by have := hp i hi; have := hc m h i hi; fun_prop)]
    congr 1
    exact sum_congr rfl fun m _ => total_mul _ _
  rw [e, sum_eq_zero fun m h => by rw [proj_orth_of hc horth hpos (mem_range.1 h), mul_zero], sub_zero,
    total_sub (f := fun _ _ => 1) (fun i hi => continuous_const) hp, total_const] at h0
  have e3 : V.total (V.proj n Z) = ∑ m ∈ range n, V.total (Z m) ^ 2 / V.total (fun i z => Z m i z ^ 2) := by
    show V.total (fun i z => V.proj n Z i z) = _
    unfold proj
    rw [total_sum fun m h i hi => (hc m h i hi).const_mul _]
    exact sum_congr rfl fun m _ => by rw [total_mul]; ring
  linarith
end

section
variable {n : ℕ} {Z Zd : ℕ → ℕ → ℝ → ℝ} {lam : ℕ → ℝ} (hN : 0 < V.N) (hm : ∀ m < n, V.Mode (lam m) (Z m) (Zd m))
  (hinj : ∀ m < n, ∀ j < n, m ≠ j → lam m ≠ lam j) (hpos : ∀ m < n, 0 < V.total (fun i z => Z m i z ^ 2))
include hN hm hinj

theorem modes_orth : ∀ m < n, ∀ j < n, m ≠ j → V.total (fun i z => Z m i z * Z j i z) = 0 := fun m hmn j hj hne =>
  (mul_eq_zero.1 (mode_orth hN (hm m hmn) (hm j hj))).resolve_left (sub_ne_zero.2 (hinj m hmn j hj hne))

include hpos

theorem proj_inner {j : ℕ} (hj : j < n) : V.total (fun i z => V.proj n Z i z * Z j i z) = V.total (Z j) :=
  proj_inner_of (fun m h i hi => (hm m h).cont hi) (modes_orth hN hm hinj) hpos hj

/-- What the modes do not hold is orthogonal to each of them. -/
theorem proj_orth {j : ℕ} (hj : j < n) : V.total (fun i z => (1 - V.proj n Z i z) * Z j i z) = 0 :=
  proj_orth_of (fun m h i hi => (hm m h).cont hi) (modes_orth hN hm hinj) hpos hj

/-- Bessel's inequality for the function `1`. -/
theorem bessel (hmv : ∀ i < V.N, 0 ≤ V.mv i) (hh : ∀ i < V.N, 0 ≤ V.h i) :
    ∑ m ∈ range n, V.total (Z m) ^ 2 / V.total (fun i z => Z m i z ^ 2) ≤ ∑ i ∈ range V.N, V.mv i * V.h i :=
  bessel_of (fun m h i hi => (hm m h).cont hi) (modes_orth hN hm hinj) hpos hmv hh
end

end Geotecha.Consol.Spec.Column
