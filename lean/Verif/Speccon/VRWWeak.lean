import Verif.Speccon.VRWSystem

/-!
# The coupled series inserted into the weak form (helpers for C80)
-/

set_option linter.unusedVariables false
open Real intervalIntegral MeasureTheory Filter Topology
namespace Geotecha.Speccon
open Geotecha.Spec Geotecha.Piecewise

variable {x : VRW} {S : Set ℝ} {s tend : ℝ} {G : Ground} {W : Well} {a : VRWArrays}

theorem flow_int {x : VR} (h : VRInput x S s tend G) (n : ℕ) (w : ℕ → ℝ) (A : ℕ → ℝ → ℝ) (hA : ∀ j, j < n → IntervalIntegrable (A j) volume s tend)
    (i : ℕ) (hw : ∀ j, j < n → sin (w i) * cos (w j) = 0) (t : ℝ) (h1 : s ≤ t) (h2 : t ≤ tend) :
    IntervalIntegrable (fun r => G.flow (series G n w A) (seriesZ G n w A) (fun z => sin (w i * z)) (fun z => w i * cos (w i * z)) r) volume s t := by
  simp only [flow_eq h n w A i hw]
  have iA : ∀ j ∈ Finset.range n, IntervalIntegrable (fun r => psiForm G (w i) (w j) * A j r) volume s t := fun j hj =>
    (int_sub (hA j (Finset.mem_range.1 hj)) h1 h2).const_mul _
  have iS : IntervalIntegrable (fun r => ∑ j ∈ Finset.range n, psiForm G (w i) (w j) * A j r) volume s t := by
    have := IntervalIntegrable.sum (Finset.range n) iA
    have e : (∑ j ∈ Finset.range n, fun r => psiForm G (w i) (w j) * A j r) = fun r => ∑ j ∈ Finset.range n, psiForm G (w i) (w j) * A j r := by
      funext r; simp
    rw [e] at this
    exact this
  have iT := (top_int h h1 h2).1.const_mul (cTop G (w i))
  have iB := (top_int h h1 h2).2.const_mul (cBot G (w i))
  have iD := drain_int h (w i) t h1 h2
  obtain ⟨iF, eF⟩ := list_integral G.fixed (fun f => f.2.1 * sin (w i * f.1)) (fun f => f.2.2) (fixed_int h h1 h2)
  obtain ⟨iP, eP⟩ := list_integral G.pumps (fun f => sin (w i * f.1)) (fun f => f.2) (pumps_int h h1 h2)
  exact (((((iS.add iT).add iB).sub iD).sub iF).sub iP)

/-- Radial flow seen by `sin(w z)` for the pressure difference `sin(w' z)`. -/
noncomputable def radial (G : Ground) (w w' : ℝ) : ℝ := ∫ z in (0:ℝ)..1, G.horiz z * sin (w * z) * sin (w' * z)

/-- The radial flow between two series with the same boundary part. -/
theorem radial_eq {x : VR} (h : VRInput x S s tend G) (n : ℕ) (w : ℕ → ℝ) (A C : ℕ → ℝ → ℝ) (i : ℕ) (r : ℝ) :
    ∫ z in (0:ℝ)..1, G.horiz z * sin (w i * z) * (series G n w A z r - series G n w C z r) =
      ∑ j ∈ Finset.range n, radial G (w i) (w j) * (A j r - C j r) := by
  have e := weight_sum (g := fun _ => 0) ((horiz_bdd h).mul (BddOn.of_continuous (f := fun z => sin (w i * z)) (by fun_prop) 0 1)) n
    (fun j => A j r - C j r) (fun j z => sin (w j * z)) (fun j => by fun_prop) 0 0 (q := fun _ => (0:ℝ)) (r := fun _ => (0:ℝ))
    continuous_const continuous_const (BddOn.of_continuous continuous_const 0 1)
  simp only [mul_zero, add_zero, sub_zero, intervalIntegral.integral_zero] at e
  unfold radial
  rw [← e]
  congr 1
  funext z
  congr 1
  unfold series
  simp only [sub_mul, Finset.sum_sub_distrib]
  ring

/-- The residual of the coupled problem, from that of the soil without radial flow. -/
theorem residual_coupled {x : VR} (h : VRInput x S s tend G) (n : ℕ) (w : ℕ → ℝ) (A C : ℕ → ℝ → ℝ)
    (hA : ∀ j, j < n → IntervalIntegrable (A j) volume s tend) (hC : ∀ j, j < n → IntervalIntegrable (C j) volume s tend)
    (i : ℕ) (hw : ∀ j, j < n → sin (w i) * cos (w j) = 0) (t : ℝ) (h1 : s ≤ t) (h2 : t ≤ tend) :
    ({ G with drain := series G n w C } : Ground).residual s (series G n w A) (seriesZ G n w A) (fun z => sin (w i * z)) (fun z => w i * cos (w i * z)) t =
      (∑ j ∈ Finset.range n, gamma G (w i) (w j) * A j t) + (∑ j ∈ Finset.range n, psiForm (soilG G) (w i) (w j) * ∫ r in s..t, A j r)
        - rhs (soilG G) s (w i) t + ∑ j ∈ Finset.range n, radial G (w i) (w j) * ((∫ r in s..t, A j r) - ∫ r in s..t, C j r) := by
  have e := residual_eq (soil_input h) n w A hA i hw t h1 h2
  have f1 : ∀ r, ({ G with drain := series G n w C } : Ground).flow (series G n w A) (seriesZ G n w A) (fun z => sin (w i * z)) (fun z => w i * cos (w i * z)) r
      = (soilG G).flow (series (soilG G) n w A) (seriesZ (soilG G) n w A) (fun z => sin (w i * z)) (fun z => w i * cos (w i * z)) r
        + ∑ j ∈ Finset.range n, radial G (w i) (w j) * (A j r - C j r) := by
    intro r
    rw [← radial_eq h n w A C i r]
    unfold Ground.flow
    have : ∫ z in (0:ℝ)..1, (soilG G).horiz z * sin (w i * z) * (series (soilG G) n w A z r - (soilG G).drain z r) = 0 := by simp [soilG]
    rw [this]
    simp only [soilG]
    have e1 : series (soilG G) n w A = series G n w A := rfl
    have e2 : seriesZ (soilG G) n w A = seriesZ G n w A := rfl
    simp only [soilG] at e1 e2
    rw [e1, e2]
    ring
  have i1 := flow_int (soil_input h) n w A hA i hw t h1 h2
  have i2 : ∀ j ∈ Finset.range n, IntervalIntegrable (fun r => radial G (w i) (w j) * (A j r - C j r)) volume s t := fun j hj =>
    ((int_sub (hA j (Finset.mem_range.1 hj)) h1 h2).sub (int_sub (hC j (Finset.mem_range.1 hj)) h1 h2)).const_mul _
  have i3 : IntervalIntegrable (fun r => ∑ j ∈ Finset.range n, radial G (w i) (w j) * (A j r - C j r)) volume s t := by
    have := IntervalIntegrable.sum (Finset.range n) i2
    have e : (∑ j ∈ Finset.range n, fun r => radial G (w i) (w j) * (A j r - C j r)) = fun r => ∑ j ∈ Finset.range n, radial G (w i) (w j) * (A j r - C j r) := by
      funext r; simp
    rw [e] at this
    exact this
  unfold Ground.residual at e ⊢
  simp only [f1]
  rw [intervalIntegral.integral_add i1 i3, intervalIntegral.integral_finsetSum i2, ← add_assoc]
  refine congrArg₂ (· + ·) ?_ ?_
  · refine Eq.trans ?_ e
    rfl
  · refine Finset.sum_congr rfl (fun j hj => ?_)
    rw [intervalIntegral.integral_const_mul, intervalIntegral.integral_sub (int_sub (hA j (Finset.mem_range.1 hj)) h1 h2)
      (int_sub (hC j (Finset.mem_range.1 hj)) h1 h2)]

/-- The drain balance of the series. -/
theorem balance_eq (h : VRWInput x S s tend G W) (n : ℕ) (w : ℕ → ℝ) (A C : ℕ → ℝ → ℝ) (i : ℕ)
    (hw : ∀ j, j < n → sin (w i) * cos (w j) = 0) (r : ℝ) :
    W.balance G (series G n w A) (series G n w C) (seriesZ G n w C) (fun z => sin (w i * z)) (fun z => w i * cos (w i * z)) r =
      (∑ j ∈ Finset.range n, psiForm (wellG G W) (w i) (w j) * C j r) + cTop (wellG G W) (w i) * G.top r + cBot (wellG G W) (w i) * G.bot r
      - ∑ j ∈ Finset.range n, radial G (w i) (w j) * (A j r - C j r) := by
  have e := flow_eq (well_input h) n w C i hw r
  rw [← radial_eq h.base n w A C i r]
  unfold Well.balance
  congr 1
  unfold Ground.flow at e
  have e1 : ∫ z in (0:ℝ)..1, (wellG G W).horiz z * sin (w i * z) * (series (wellG G W) n w C z r - (wellG G W).drain z r) = 0 := by
    simp [wellG, soilG]
  have e2 : ∫ z in (0:ℝ)..1, (wellG G W).horiz z * sin (w i * z) * (wellG G W).drain z r = 0 := by simp [wellG, soilG]
  have e3 : (wellG G W).fixed = [] := rfl
  have e4 : (wellG G W).pumps = [] := rfl
  rw [e1, e2, e3, e4] at e
  simp only [List.map_nil, List.sum_nil, add_zero, sub_zero] at e
  exact e

end Geotecha.Speccon
