import Mathlib.MeasureTheory.Integral.IntervalIntegral.FundThmCalculus
import Mathlib.MeasureTheory.Integral.DivergenceTheorem
import Mathlib.Analysis.SpecialFunctions.Integrals.Basic
import Mathlib.Tactic.Positivity

/-! # Specification: radial flow to a drain under equal strain

Radii are in units of the drain radius: the drain is at `r = 1`, the outer boundary at `r = n`. `κ x = k_h / k(x)` is the ratio of undisturbed to
local permeability. Under equal strain the flow through the cylinder of radius `x` is proportional to `n² - x²`, so by Darcy's law the
pressure gradient is proportional to `κ x (1/x - x/n²)`. `μ` is the mean over the annulus of the resulting normalised pressure. -/

namespace Geotecha.Smear
open MeasureTheory intervalIntegral Set

/-- Normalised excess pore pressure at radius `r` (zero at the drain). -/
noncomputable def pressure (n : ℝ) (κ : ℝ → ℝ) (r : ℝ) : ℝ := ∫ x in (1 : ℝ)..r, κ x * (1 / x - x / n ^ 2)

/-- Mean over the annulus `1 ≤ r ≤ n`: `∫ 2π r u dr / (π (n² - 1))`. -/
noncomputable def average (n : ℝ) (u : ℝ → ℝ) : ℝ := 2 / (n ^ 2 - 1) * ∫ r in (1 : ℝ)..n, r * u r

/-- The smear zone parameter of a permeability profile. -/
noncomputable def muSpec (n : ℝ) (κ : ℝ → ℝ) : ℝ := average n (pressure n κ)

/-- Profiles considered: integrable, and continuous but for countably many radii. -/
structure IsProfile (n : ℝ) (κ : ℝ → ℝ) : Prop where
  integrable : IntervalIntegrable κ volume 1 n
  continuous : ∃ S : Set ℝ, S.Countable ∧ ∀ x ∈ Ioo 1 n \ S, ContinuousAt κ x

/-- The weight of the permeability at radius `x` in `μ`. -/
noncomputable def weight (n x : ℝ) : ℝ := (1 - x ^ 2 / n ^ 2) ^ 2 / x

theorem flux_cont (n : ℝ) {a b : ℝ} (ha : 0 < a) (hb : 0 < b) : ContinuousOn (fun x : ℝ => 1 / x - x / n ^ 2) (uIcc a b) := by
  have : ∀ x ∈ uIcc a b, x ≠ 0 := fun x hx => ne_of_gt (lt_of_lt_of_le (lt_min ha hb) hx.1)
  apply ContinuousOn.sub
  · exact ContinuousOn.div continuousOn_const continuousOn_id this
  · fun_prop

theorem weight_cont (n : ℝ) {a b : ℝ} (ha : 0 < a) (hb : 0 < b) : ContinuousOn (weight n) (uIcc a b) := by
  have : ∀ x ∈ uIcc a b, x ≠ 0 := fun x hx => ne_of_gt (lt_of_lt_of_le (lt_min ha hb) hx.1)
  unfold weight
  exact ContinuousOn.div (by fun_prop) continuousOn_id this

/-- `μ` as a single integral (integration by parts). -/
theorem muSpec_eq {n : ℝ} (hn : 1 < n) {κ : ℝ → ℝ} (h : IsProfile n κ) :
    muSpec n κ = n ^ 2 / (n ^ 2 - 1) * ∫ x in (1 : ℝ)..n, κ x * weight n x := by
  obtain ⟨hi, S, hS, hc⟩ := h
  have hn0 : n ≠ 0 := by linarith
  set f : ℝ → ℝ := fun x => κ x * (1 / x - x / n ^ 2) with hf
  have hfi : IntervalIntegrable f volume 1 n := hi.mul_continuousOn (flux_cont n one_pos (by linarith))
  have hsub : ∀ x ∈ Icc 1 n, IntervalIntegrable f volume 1 x := fun x hx => hfi.mono_set (by
    rw [uIcc_of_le hx.1, uIcc_of_le hn.le]; exact Icc_subset_Icc le_rfl hx.2)
  have hUc : ContinuousOn (pressure n κ) (Icc 1 n) := by
    have := continuousOn_primitive_interval (f := f) (μ := volume) (a := 1) (b := n) (by
      rw [← intervalIntegrable_iff' ]; exact hfi)
    rw [uIcc_of_le hn.le] at this
    exact this
  have hUd : ∀ x ∈ Ioo 1 n \ S, HasDerivAt (pressure n κ) (f x) x := by
    intro x hx
    have hx0 : x ≠ 0 := by linarith [hx.1.1]
    refine integral_hasDerivAt_right (hsub x ⟨hx.1.1.le, hx.1.2.le⟩) ?_ ?_
    · refine ⟨Ioo 1 n, Ioo_mem_nhds hx.1.1 hx.1.2, ?_⟩
      have := hfi.1.aestronglyMeasurable
      exact this.mono_set Ioo_subset_Ioc_self
    · apply (hc x hx).mul
      exact (continuousAt_const.div continuousAt_id hx0).sub (continuousAt_id.div_const _)
  have key := integral_eq_of_hasDerivAt_off_countable_of_le
    (fun r => -((n ^ 2 - r ^ 2) / 2) * pressure n κ r) (fun r => r * pressure n κ r - (n ^ 2 - r ^ 2) / 2 * f r) hn.le hS
    ((by fun_prop : Continuous fun r : ℝ => -((n ^ 2 - r ^ 2) / 2)).continuousOn.mul hUc)
    (by
      intro x hx
      have h1 : HasDerivAt (fun r : ℝ => -((n ^ 2 - r ^ 2) / 2)) x x := by
        have := (((hasDerivAt_id x).pow 2).const_sub (n ^ 2)).div_const 2 |>.neg
        simp only [id] at this
        exact this.congr_deriv (by push_cast; ring)
      exact (h1.mul (hUd x hx)).congr_deriv (by ring))
    (by
      apply IntervalIntegrable.sub
      · apply ContinuousOn.intervalIntegrable
        rw [uIcc_of_le hn.le]
        exact continuousOn_id.mul hUc
      · exact hfi.continuousOn_mul (by fun_prop))
  have e1 : pressure n κ 1 = 0 := by unfold pressure; simp
  have i1 : IntervalIntegrable (fun r => r * pressure n κ r) volume 1 n := by
    apply ContinuousOn.intervalIntegrable
    rw [uIcc_of_le hn.le]
    exact continuousOn_id.mul hUc
  have i2 : IntervalIntegrable (fun r => (n ^ 2 - r ^ 2) / 2 * f r) volume 1 n := hfi.continuousOn_mul (by fun_prop)
  rw [intervalIntegral.integral_sub i1 i2, e1] at key
  have e2 : ∫ r in (1 : ℝ)..n, r * pressure n κ r = ∫ r in (1 : ℝ)..n, (n ^ 2 - r ^ 2) / 2 * f r := by
    have : -((n ^ 2 - n ^ 2) / 2) * pressure n κ n - -((n ^ 2 - 1 ^ 2) / 2) * 0 = 0 := by ring
    linarith
  have e3 : ∫ r in (1 : ℝ)..n, (n ^ 2 - r ^ 2) / 2 * f r = n ^ 2 / 2 * ∫ x in (1 : ℝ)..n, κ x * weight n x := by
    rw [← intervalIntegral.integral_const_mul]
    apply intervalIntegral.integral_congr
    intro x hx
    rw [uIcc_of_le hn.le] at hx
    have hx0 : x ≠ 0 := by linarith [hx.1]
    simp only [hf, weight]
    field_simp
  unfold muSpec average
  rw [e2, e3]
  ring

/-! ## Profiles given zone by zone -/

/-- A zone: its two radii and the permeability ratio inside. -/
structure Piece where
  lo : ℝ
  hi : ℝ
  κ : ℝ → ℝ

/-- The profile that in each zone is the zone's own. -/
noncomputable def profile : List Piece → ℝ → ℝ
  | [], _ => 1
  | p :: ps, x => if x < p.hi then p.κ x else profile ps x

/-- Consecutive zones from `a` to `n`, each with a continuous permeability. -/
def Tiles : ℝ → ℝ → List Piece → Prop
  | a, n, [] => a = n
  | a, n, p :: ps => p.lo = a ∧ a ≤ p.hi ∧ ContinuousOn p.κ (Icc p.lo p.hi) ∧ Tiles p.hi n ps

theorem tiles_le {a n : ℝ} {ps : List Piece} (h : Tiles a n ps) : a ≤ n := by
  induction ps generalizing a with
  | nil => exact le_of_eq h
  | cons p ps ih => exact le_trans h.2.1 (ih h.2.2.2)

theorem profile_congr {a b : ℝ} {p : Piece} {ps : List Piece} (hab : a ≤ b) (hb : b ≤ p.hi) {w : ℝ → ℝ} :
    ∀ᵐ x ∂volume, x ∈ uIoc a b → profile (p :: ps) x * w x = p.κ x * w x := by
  have : ∀ᵐ x ∂(volume : Measure ℝ), x ≠ b := by
    rw [ae_iff]; simp
  filter_upwards [this] with x hx hm
  rw [uIoc_of_le hab] at hm
  rw [profile, if_pos (lt_of_lt_of_le (lt_of_le_of_ne hm.2 hx) hb)]

theorem profile_tail_congr {a b : ℝ} {p : Piece} {ps : List Piece} (hab : a ≤ b) (hb : p.hi ≤ a) {w : ℝ → ℝ} :
    ∀ᵐ x ∂volume, x ∈ uIoc a b → profile (p :: ps) x * w x = profile ps x * w x := by
  filter_upwards with x hm
  rw [uIoc_of_le hab] at hm
  rw [profile, if_neg (not_lt.2 (le_trans hb hm.1.le))]

theorem profile_int {a n : ℝ} {ps : List Piece} (h : Tiles a n ps) : IntervalIntegrable (profile ps) volume a n := by
  induction ps generalizing a with
  | nil => rw [show n = a from h.symm]
  | cons p ps ih =>
    obtain ⟨h1, h2, h3, h4⟩ := h
    have i1 : IntervalIntegrable p.κ volume a p.hi := by
      apply ContinuousOn.intervalIntegrable
      rw [uIcc_of_le h2, ← h1]; exact h3
    have i2 := ih h4
    have hle := tiles_le h4
    have j1 : IntervalIntegrable (profile (p :: ps)) volume a p.hi := by
      refine i1.congr_ae ?_
      have := profile_congr (ps := ps) h2 le_rfl (w := fun _ => 1)
      simp only [mul_one] at this
      rw [Filter.EventuallyEq, ae_restrict_iff' measurableSet_uIoc]
      filter_upwards [this] with x hx hm
      exact (hx hm).symm
    have j2 : IntervalIntegrable (profile (p :: ps)) volume p.hi n := by
      refine i2.congr_ae ?_
      have := profile_tail_congr (p := p) (ps := ps) hle le_rfl (w := fun _ => 1)
      simp only [mul_one] at this
      rw [Filter.EventuallyEq, ae_restrict_iff' measurableSet_uIoc]
      filter_upwards [this] with x hx hm
      exact (hx hm).symm
    exact j1.trans j2

/-- Radii at which the profile may jump. -/
def breaks (ps : List Piece) : Set ℝ := {x | ∃ p ∈ ps, x = p.hi}

theorem profile_cont {a n : ℝ} {ps : List Piece} (h : Tiles a n ps) {x : ℝ} (hx : x ∈ Ioo a n) (hb : x ∉ breaks ps) :
    ContinuousAt (profile ps) x := by
  induction ps generalizing a with
  | nil =>
    have : a = n := h
    exact absurd hx (by rw [this]; simp)
  | cons p ps ih =>
    obtain ⟨h1, h2, h3, h4⟩ := h
    have hne : x ≠ p.hi := fun e => hb ⟨p, by simp, e⟩
    rcases lt_or_gt_of_ne hne with hlt | hgt
    · have hc : ContinuousAt p.κ x := h3.continuousAt (Icc_mem_nhds (by rw [h1]; exact hx.1) hlt)
      refine hc.congr ?_
      filter_upwards [Iio_mem_nhds hlt] with y hy
      rw [profile, if_pos (show y < p.hi from hy)]
    · have hc : ContinuousAt (profile ps) x := ih h4 ⟨hgt, hx.2⟩ (fun ⟨q, hq, e⟩ => hb ⟨q, by simp [hq], e⟩)
      refine hc.congr ?_
      filter_upwards [Ioi_mem_nhds hgt] with y hy
      rw [profile, if_neg (not_lt.2 (le_of_lt hy))]

theorem breaks_countable (ps : List Piece) : (breaks ps).Countable := by
  have : breaks ps = (fun p : Piece => p.hi) '' {p | p ∈ ps} := by
    ext x; simp [breaks, eq_comm]
  rw [this]
  exact (List.finite_toSet ps).countable.image _

theorem isProfile {n : ℝ} {ps : List Piece} (h : Tiles 1 n ps) : IsProfile n (profile ps) :=
  ⟨profile_int h, breaks ps, breaks_countable ps, fun _ hx => profile_cont h hx.1 hx.2⟩

/-- Integral over the zones. -/
theorem profile_integral {a n : ℝ} {ps : List Piece} (h : Tiles a n ps) {w : ℝ → ℝ} (hw : ContinuousOn w (Icc a n)) :
    ∫ x in a..n, profile ps x * w x = (ps.map fun p => ∫ x in p.lo..p.hi, p.κ x * w x).sum := by
  induction ps generalizing a with
  | nil => rw [show n = a from h.symm]; simp
  | cons p ps ih =>
    have hint := profile_int h
    obtain ⟨h1, h2, h3, h4⟩ := h
    have hle := tiles_le h4
    have hw1 : ContinuousOn w (Icc p.hi n) := hw.mono (Icc_subset_Icc h2 le_rfl)
    have i1 : IntervalIntegrable (fun x => profile (p :: ps) x * w x) volume a p.hi := by
      refine (hint.mono_set ?_).mul_continuousOn ?_
      · rw [uIcc_of_le h2, uIcc_of_le (le_trans h2 hle)]; exact Icc_subset_Icc le_rfl hle
      · rw [uIcc_of_le h2]; exact hw.mono (Icc_subset_Icc le_rfl hle)
    have i2 : IntervalIntegrable (fun x => profile (p :: ps) x * w x) volume p.hi n := by
      refine (hint.mono_set ?_).mul_continuousOn ?_
      · rw [uIcc_of_le hle, uIcc_of_le (le_trans h2 hle)]; exact Icc_subset_Icc h2 le_rfl
      · rw [uIcc_of_le hle]; exact hw1
    rw [← integral_add_adjacent_intervals i1 i2, integral_congr_ae (profile_congr h2 le_rfl), integral_congr_ae (profile_tail_congr hle le_rfl),
      ih h4 hw1, List.map_cons, List.sum_cons, h1]

/-- `μ` of a zoned profile. -/
theorem mu_pieces {n : ℝ} (hn : 1 < n) {ps : List Piece} (h : Tiles 1 n ps) :
    muSpec n (profile ps) = n ^ 2 / (n ^ 2 - 1) * (ps.map fun p => ∫ x in p.lo..p.hi, p.κ x * weight n x).sum := by
  rw [muSpec_eq hn (isProfile h), profile_integral h]
  have := weight_cont n one_pos (by linarith : (0 : ℝ) < n)
  rwa [uIcc_of_le hn.le] at this

end Geotecha.Smear
