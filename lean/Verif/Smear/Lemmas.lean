import Verif.Smear.Antideriv
import Verif.Smear.Model

/-! # Bridges between zones and the specification -/

set_option linter.unusedVariables false
namespace Geotecha.Smear
open MeasureTheory intervalIntegral Set Real

theorem pressure_congr {n : ℝ} {κ κ' : ℝ → ℝ} (h : ∀ x, 1 ≤ x → x < n → κ x = κ' x) {r : ℝ} (h1 : 1 ≤ r) (hr : r ≤ n) :
    pressure n κ r = pressure n κ' r := by
  unfold pressure
  apply intervalIntegral.integral_congr_ae
  have : ∀ᵐ x ∂(volume : Measure ℝ), x ≠ r := by rw [ae_iff]; simp
  filter_upwards [this] with x hx hm
  rw [uIoc_of_le h1] at hm
  rw [h x hm.1.le (lt_of_lt_of_le (lt_of_le_of_ne hm.2 hx) hr)]

/-- `μ` depends only on the permeability between the drain and the outer boundary. -/
theorem muSpec_congr {n : ℝ} (hn : 1 ≤ n) {κ κ' : ℝ → ℝ} (h : ∀ x, 1 ≤ x → x < n → κ x = κ' x) : muSpec n κ = muSpec n κ' := by
  unfold muSpec average
  congr 1
  apply intervalIntegral.integral_congr
  intro r hr
  rw [uIcc_of_le hn] at hr
  simp only
  rw [pressure_congr h hr.1 hr.2]

/-- A function is the one given zone by zone. -/
def Agrees (κ : ℝ → ℝ) (ps : List Piece) : Prop := ∀ p ∈ ps, ∀ x, p.lo ≤ x → x < p.hi → κ x = p.κ x

theorem agrees_profile {κ : ℝ → ℝ} {a n : ℝ} {ps : List Piece} (ht : Tiles a n ps) (h : Agrees κ ps) {x : ℝ} (h1 : a ≤ x) (h2 : x < n) :
    κ x = profile ps x := by
  induction ps generalizing a with
  | nil => exact absurd h2 (not_lt.2 (by rw [← (show a = n from ht)]; exact h1))
  | cons p ps ih =>
    obtain ⟨t1, t2, _, t4⟩ := ht
    rw [profile]
    split_ifs with hx
    · exact h p (by simp) x (by rw [t1]; exact h1) hx
    · exact ih t4 (fun q hq => h q (by simp [hq])) (not_lt.1 hx)

theorem mu_agrees {κ : ℝ → ℝ} {n : ℝ} (hn : 1 < n) {ps : List Piece} (ht : Tiles 1 n ps) (h : Agrees κ ps) :
    muSpec n κ = n ^ 2 / (n ^ 2 - 1) * (ps.map fun p => ∫ x in p.lo..p.hi, p.κ x * weight n x).sum := by
  rw [← mu_pieces hn ht]
  exact muSpec_congr hn.le (fun x h1 h2 => agrees_profile ht h h1 h2)

theorem pressure_agrees {κ : ℝ → ℝ} {n : ℝ} {ps : List Piece} (ht : Tiles 1 n ps) (h : Agrees κ ps) {r : ℝ} (h1 : 1 ≤ r) (hr : r ≤ n) :
    pressure n κ r = pressure n (profile ps) r := pressure_congr (fun x h1 h2 => agrees_profile ht h h1 h2) h1 hr

/-- Two zones. -/
theorem mu_two {κ κ₁ κ₂ : ℝ → ℝ} {n s : ℝ} (hn : 1 < n) (hs : 1 ≤ s) (hsn : s ≤ n) (c1 : ContinuousOn κ₁ (Icc 1 s)) (c2 : ContinuousOn κ₂ (Icc s n))
    (h1 : ∀ x, 1 ≤ x → x < s → κ x = κ₁ x) (h2 : ∀ x, s ≤ x → x < n → κ x = κ₂ x) :
    muSpec n κ = n ^ 2 / (n ^ 2 - 1) * ((∫ x in (1 : ℝ)..s, κ₁ x * weight n x) + ∫ x in s..n, κ₂ x * weight n x) := by
  have ht : Tiles 1 n [⟨1, s, κ₁⟩, ⟨s, n, κ₂⟩] := ⟨rfl, hs, c1, rfl, hsn, c2, rfl⟩
  have ha : Agrees κ [⟨1, s, κ₁⟩, ⟨s, n, κ₂⟩] := by
    intro p hp x l u
    simp only [List.mem_cons, List.not_mem_nil, or_false] at hp
    rcases hp with rfl | rfl
    · exact h1 x l u
    · exact h2 x l u
  rw [mu_agrees hn ht ha]
  simp

/-! ## Scaling and comparison -/

theorem pressure_smul (n c : ℝ) (κ : ℝ → ℝ) (r : ℝ) : pressure n (fun x => c * κ x) r = c * pressure n κ r := by
  unfold pressure
  rw [← intervalIntegral.integral_const_mul]
  congr 1
  funext x
  ring

theorem muSpec_smul (n c : ℝ) (κ : ℝ → ℝ) : muSpec n (fun x => c * κ x) = c * muSpec n κ := by
  unfold muSpec average
  simp only [pressure_smul]
  rw [show (fun r => r * (c * pressure n κ r)) = fun r => c * (r * pressure n κ r) by funext r; ring, intervalIntegral.integral_const_mul]
  ring

theorem isProfile_congr {n : ℝ} (hn : 1 ≤ n) {κ κ' : ℝ → ℝ} (h : ∀ x, 1 ≤ x → x < n → κ x = κ' x) (hp : IsProfile n κ') : IsProfile n κ := by
  obtain ⟨hi, S, hS, hc⟩ := hp
  refine ⟨hi.congr_ae ?_, S, hS, fun x hx => (hc x hx).congr ?_⟩
  · rw [Filter.EventuallyEq, ae_restrict_iff' measurableSet_uIoc]
    have : ∀ᵐ x ∂(volume : Measure ℝ), x ≠ n := by rw [ae_iff]; simp
    filter_upwards [this] with x hx hm
    rw [uIoc_of_le hn] at hm
    exact (h x hm.1.le (lt_of_le_of_ne hm.2 hx)).symm
  · filter_upwards [Ioo_mem_nhds hx.1.1 hx.1.2] with y hy
    exact (h y hy.1.le hy.2).symm

theorem isProfile_agrees {κ : ℝ → ℝ} {n : ℝ} {ps : List Piece} (ht : Tiles 1 n ps) (h : Agrees κ ps) : IsProfile n κ :=
  isProfile_congr (tiles_le ht) (fun x h1 h2 => agrees_profile ht h h1 h2) (isProfile ht)

theorem isProfile_two {κ κ₁ κ₂ : ℝ → ℝ} {n s : ℝ} (hs : 1 ≤ s) (hsn : s ≤ n) (c1 : ContinuousOn κ₁ (Icc 1 s)) (c2 : ContinuousOn κ₂ (Icc s n))
    (h1 : ∀ x, 1 ≤ x → x < s → κ x = κ₁ x) (h2 : ∀ x, s ≤ x → x < n → κ x = κ₂ x) : IsProfile n κ := by
  have ht : Tiles 1 n [⟨1, s, κ₁⟩, ⟨s, n, κ₂⟩] := ⟨rfl, hs, c1, rfl, hsn, c2, rfl⟩
  refine isProfile_agrees ht ?_
  intro p hp x l u
  simp only [List.mem_cons, List.not_mem_nil, or_false] at hp
  rcases hp with rfl | rfl
  · exact h1 x l u
  · exact h2 x l u

theorem isProfile_const (n c : ℝ) : IsProfile n (fun _ => c) := ⟨by simp, ∅, by simp, fun x _ => continuousAt_const⟩

theorem isProfile_smul {n : ℝ} {κ : ℝ → ℝ} (c : ℝ) (h : IsProfile n κ) : IsProfile n (fun x => c * κ x) := by
  obtain ⟨hi, S, hS, hc⟩ := h
  exact ⟨hi.const_mul c, S, hS, fun x hx => continuousAt_const.mul (hc x hx)⟩

theorem weight_nonneg (n : ℝ) {x : ℝ} (hx : 0 < x) : 0 ≤ weight n x := by unfold weight; positivity

/-- A soil that is nowhere more permeable has no smaller `μ`. -/
theorem muSpec_mono {n : ℝ} (hn : 1 < n) {κ κ' : ℝ → ℝ} (h : IsProfile n κ) (h' : IsProfile n κ') (hle : ∀ x, 1 ≤ x → x < n → κ x ≤ κ' x) :
    muSpec n κ ≤ muSpec n κ' := by
  rw [muSpec_eq hn h, muSpec_eq hn h']
  have hw := weight_cont n one_pos (by linarith : (0 : ℝ) < n)
  apply mul_le_mul_of_nonneg_left _ (div_nonneg (by positivity) (by nlinarith))
  have i1 : IntervalIntegrable (fun x => κ x * weight n x) volume 1 n := h.integrable.mul_continuousOn hw
  have i2 : IntervalIntegrable (fun x => κ' x * weight n x) volume 1 n := h'.integrable.mul_continuousOn hw
  apply intervalIntegral.integral_mono_on_of_le_Ioo hn.le i1 i2
  intro x hx
  exact mul_le_mul_of_nonneg_right (hle x hx.1.le hx.2) (weight_nonneg n (by linarith [hx.1]))

theorem muSpec_nonneg {n : ℝ} (hn : 1 < n) {κ : ℝ → ℝ} (h : IsProfile n κ) (hle : ∀ x, 1 ≤ x → x < n → 0 ≤ κ x) : 0 ≤ muSpec n κ := by
  have := muSpec_mono hn (isProfile_const n 0) h hle
  have e : muSpec n (fun _ => 0) = 0 := by
    have := muSpec_smul n 0 (fun _ => 1)
    simpa using this
  linarith

/-- Two-sided relative comparison. -/
theorem muSpec_close {n : ℝ} (hn : 1 < n) {κ κ' : ℝ → ℝ} (h : IsProfile n κ) (h' : IsProfile n κ') (d : ℝ)
    (hle : ∀ x, 1 ≤ x → x < n → |κ x - κ' x| ≤ d * κ' x) : |muSpec n κ - muSpec n κ'| ≤ d * muSpec n κ' := by
  have e1 := muSpec_mono hn h (isProfile_smul (1 + d) h') (fun x h1 h2 => by
    have := (abs_le.1 (hle x h1 h2)).2
    linarith)
  have e2 := muSpec_mono hn (isProfile_smul (1 - d) h') h (fun x h1 h2 => by
    have := (abs_le.1 (hle x h1 h2)).1
    linarith)
  rw [muSpec_smul] at e1 e2
  rw [abs_le]
  constructor <;> linarith

/-- A smear zone of negligible width: the change of `μ` is at most the width times the largest change of the permeability ratio. -/
theorem muSpec_thin {n s d : ℝ} (hs : 1 ≤ s) (hsn : s ≤ n) (hn : 1 < n) {κ : ℝ → ℝ} (h : IsProfile n κ)
    (h1 : ∀ x, 1 ≤ x → x < s → |κ x - 1| ≤ d) (h2 : ∀ x, s ≤ x → x < n → κ x = 1) :
    |muSpec n κ - muSpec n fun _ => 1| ≤ n ^ 2 / (n ^ 2 - 1) * (d * (s - 1)) := by
  have hw := weight_cont n one_pos (by linarith : (0 : ℝ) < n)
  have i1 : IntervalIntegrable (fun x => κ x * weight n x) volume 1 n := h.integrable.mul_continuousOn hw
  have i2 : IntervalIntegrable (fun x => (1 : ℝ) * weight n x) volume 1 n := (isProfile_const n 1).integrable.mul_continuousOn hw
  rw [muSpec_eq hn h, muSpec_eq hn (isProfile_const n 1), ← mul_sub, ← intervalIntegral.integral_sub i1 i2, abs_mul,
    abs_of_nonneg (div_nonneg (by positivity) (by nlinarith : (0 : ℝ) ≤ n ^ 2 - 1))]
  apply mul_le_mul_of_nonneg_left _ (div_nonneg (by positivity) (by nlinarith))
  have i3 : ∀ a b, 1 ≤ a → a ≤ b → b ≤ n → IntervalIntegrable (fun x => κ x * weight n x - 1 * weight n x) volume a b := by
    intro a b ha hab hb
    apply (i1.sub i2).mono_set
    rw [uIcc_of_le hab, uIcc_of_le hn.le]
    exact Icc_subset_Icc ha hb
  rw [← integral_add_adjacent_intervals (i3 1 s le_rfl hs hsn) (i3 s n hs hsn le_rfl)]
  have z : ∫ x in s..n, (κ x * weight n x - 1 * weight n x) = 0 := by
    rw [intervalIntegral.integral_congr_ae (g := fun _ => 0)]
    · simp
    · have : ∀ᵐ x ∂(volume : Measure ℝ), x ≠ n := by rw [ae_iff]; simp
      filter_upwards [this] with x hx hm
      rw [uIoc_of_le hsn] at hm
      rw [h2 x hm.1.le (lt_of_le_of_ne hm.2 hx)]; ring
  rw [z, add_zero]
  have b := intervalIntegral.norm_integral_le_of_norm_le_const_ae (a := 1) (b := s) (f := fun x => κ x * weight n x - 1 * weight n x) (C := d) (by
    have : ∀ᵐ x ∂(volume : Measure ℝ), x ≠ s := by rw [ae_iff]; simp
    filter_upwards [this] with x hx hm
    rw [uIoc_of_le hs] at hm
    have hx0 : 0 < x := by linarith [hm.1]
    have hb := h1 x hm.1.le (lt_of_le_of_ne hm.2 hx)
    rw [← sub_mul, Real.norm_eq_abs, abs_mul, abs_of_nonneg (weight_nonneg n hx0)]
    have hw1 : weight n x ≤ 1 := by
      unfold weight
      rw [div_le_one hx0]
      have u : x ^ 2 / n ^ 2 ≤ 1 := by rw [div_le_one (by positivity)]; nlinarith [hm.2, hm.1]
      have v : 0 ≤ x ^ 2 / n ^ 2 := by positivity
      nlinarith [hm.1]
    calc |κ x - 1| * weight n x ≤ d * 1 := mul_le_mul hb hw1 (weight_nonneg n hx0) (le_trans (abs_nonneg _) hb)
      _ = d := mul_one d)
  rw [Real.norm_eq_abs, abs_of_nonneg (by linarith : (0 : ℝ) ≤ s - 1)] at b
  exact b

end Geotecha.Smear
