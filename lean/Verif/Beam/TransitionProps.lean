import Verif.Beam.Transition
import Mathlib.Analysis.Calculus.Deriv.Add
import Mathlib.Analysis.Calculus.Deriv.Mul
import Mathlib.Analysis.Calculus.Deriv.Pow
import Mathlib.Analysis.Calculus.Deriv.Inv

/-!
# The reverse curve transition: proofs (C217)
-/
set_option autoImplicit false
set_option linter.unusedVariables false

namespace Geotecha.Beam

open Real Set Filter Topology

theorem sin_two_arctan (t : ℝ) : Real.sin (2 * Real.arctan t) = 2 * t / (1 + t ^ 2) := by
  have h : 0 < 1 + t ^ 2 := by positivity
  rw [Real.sin_two_mul, Real.sin_arctan, Real.cos_arctan]
  have hs := Real.sq_sqrt h.le
  have hp : Real.sqrt (1 + t ^ 2) ≠ 0 := (Real.sqrt_pos.mpr h).ne'
  rw [show 2 * (t / Real.sqrt (1 + t ^ 2)) * (1 / Real.sqrt (1 + t ^ 2))
    = 2 * t / Real.sqrt (1 + t ^ 2) ^ 2 by field_simp, hs]

/-- The radius computed by the code is that of the two arcs filling the rectangle `L × h`. -/
theorem rcR_eq (xa ya xb yb : ℝ) (hx : xa < xb) (hy : ya ≠ yb) :
    rcR xa ya xb yb = ((xb - xa) ^ 2 + (yb - ya) ^ 2) / (4 * |yb - ya|) := by
  have hh : 0 < |yb - ya| := abs_pos.mpr (sub_ne_zero.mpr hy.symm)
  have hL : 0 < xb - xa := by linarith
  unfold rcR rcDelta
  rw [sin_two_arctan, abs_of_pos hL]
  have : (1 + (|yb - ya| / (xb - xa)) ^ 2) ≠ 0 := by positivity
  rw [← sq_abs (yb - ya)]
  field_simp
  ring

/-! ### The unit profile -/

/-- Height of a circular arc of radius `R` starting horizontally. -/
noncomputable def arcH (R u : ℝ) : ℝ := R - Real.sqrt (R ^ 2 - u ^ 2)

/-- Rise of the reverse curve at distance `u` from its left end (rise `h`, length `L`, radius `R`). -/
noncomputable def riseS (R h L u : ℝ) : ℝ :=
  if u ≥ L then h else if u ≤ 0 then 0 else if u < L / 2 then arcH R u else h - arcH R (L - u)

theorem rcArc_eq (x x1 x2 xa ya xb yb : ℝ) (hx : xa < xb) (hm : x1 + x2 = xa + xb) (hy : ya ≠ yb) :
    rcArc x x1 x2 xa ya xb yb = ya + (if yb < ya then -1 else 1)
      * riseS (((xb - xa) ^ 2 + (yb - ya) ^ 2) / (4 * |yb - ya|)) |yb - ya| (xb - xa) (x - xa) := by
  unfold rcArc riseS arcH
  rw [rcR_eq xa ya xb yb hx hy]
  have hmid : (x2 + x1) / 2 = (xa + xb) / 2 := by rw [← hm]; ring
  rw [hmid]
  have e1 : xb - xa - (x - xa) = -(x - xb) := by ring
  by_cases h1 : x ≥ xb
  · rw [if_pos h1, if_pos (show x - xa ≥ xb - xa by linarith)]
    split_ifs with h
    · rw [abs_of_neg (by linarith)]; ring
    · rw [abs_of_nonneg (by linarith)]; ring
  rw [if_neg h1, if_neg (show ¬ (x - xa ≥ xb - xa) by intro h; apply h1; linarith)]
  by_cases h2 : x ≤ xa
  · rw [if_pos h2, if_pos (show x - xa ≤ 0 by linarith)]; ring
  rw [if_neg h2, if_neg (show ¬ (x - xa ≤ 0) by intro h; apply h2; linarith), e1, neg_sq]
  by_cases h3 : x < (xa + xb) / 2
  · rw [if_pos h3, if_pos h3, if_pos (show x - xa < (xb - xa) / 2 by linarith)]
    split_ifs with h <;> ring
  · rw [if_neg h3, if_neg h3, if_neg (show ¬ x - xa < (xb - xa) / 2 by intro h; apply h3; linarith)]
    split_ifs with h
    · rw [abs_of_neg (show yb - ya < 0 by linarith)]; ring
    · rw [abs_of_nonneg (show 0 ≤ yb - ya by linarith)]; ring

section
variable {R h L : ℝ}

theorem R_facts (hh : 0 < h) (hL : 0 < L) (hR : R = (L ^ 2 + h ^ 2) / (4 * h)) :
    0 < R ∧ L / 2 ≤ R ∧ Real.sqrt (R ^ 2 - (L / 2) ^ 2) = |L ^ 2 - h ^ 2| / (4 * h) := by
  have h4 : 0 < 4 * h := by positivity
  refine ⟨by rw [hR]; positivity, ?_, ?_⟩
  · rw [hR, le_div_iff₀ h4]; nlinarith [sq_nonneg (L - h)]
  · have e : R ^ 2 - (L / 2) ^ 2 = ((L ^ 2 - h ^ 2) / (4 * h)) ^ 2 := by
      rw [hR]; field_simp; ring
    rw [e, Real.sqrt_sq_eq_abs, abs_div, abs_of_pos h4]

theorem arcH_zero (hR : 0 ≤ R) : arcH R 0 = 0 := by
  unfold arcH; rw [show R ^ 2 - 0 ^ 2 = R ^ 2 by ring, Real.sqrt_sq hR]; ring

theorem arcH_mono {u v : ℝ} (hu : 0 ≤ u) (huv : u ≤ v) : arcH R u ≤ arcH R v := by
  unfold arcH
  have : Real.sqrt (R ^ 2 - v ^ 2) ≤ Real.sqrt (R ^ 2 - u ^ 2) := Real.sqrt_le_sqrt (by nlinarith)
  linarith

theorem arcH_circle {u : ℝ} (hu : |u| ≤ R) : u ^ 2 + (arcH R u - R) ^ 2 = R ^ 2 := by
  unfold arcH
  have h : 0 ≤ R ^ 2 - u ^ 2 := by
    have := sq_le_sq' (by linarith [abs_nonneg u, neg_abs_le |u|] : -R ≤ |u|) hu
    rw [sq_abs] at this; linarith
  have := Real.sq_sqrt h
  nlinarith

/-- Rise at the middle, seen from either side. -/
theorem arcH_mid (hh : 0 < h) (hL : 0 < L) (hR : R = (L ^ 2 + h ^ 2) / (4 * h)) :
    arcH R (L / 2) = if h ≤ L then h / 2 else L ^ 2 / (2 * h) := by
  unfold arcH
  rw [(R_facts hh hL hR).2.2, hR]
  split_ifs with hc
  · rw [abs_of_nonneg (by nlinarith)]; field_simp; ring
  · rw [abs_of_neg (by nlinarith)]; field_simp; ring

theorem arcH_continuous : Continuous (arcH R) := by unfold arcH; fun_prop

theorem arcH_deriv {u : ℝ} (hu : u ^ 2 < R ^ 2) :
    HasDerivAt (arcH R) (u / Real.sqrt (R ^ 2 - u ^ 2)) u := by
  have hp : R ^ 2 - u ^ 2 ≠ 0 := by linarith
  have h1 : HasDerivAt (fun u : ℝ => R ^ 2 - u ^ 2) (-(2 * u)) u := by
    exact (HasDerivAt.const_sub (R ^ 2) ((hasDerivAt_id' u).fun_pow 2)).congr_deriv (by simp)
  have h2 : HasDerivAt (arcH R) (-(-(2 * u) / (2 * Real.sqrt (R ^ 2 - u ^ 2)))) u :=
    HasDerivAt.const_sub R (h1.sqrt hp)
  refine h2.congr_deriv ?_
  have : Real.sqrt (R ^ 2 - u ^ 2) ≠ 0 := (Real.sqrt_pos.mpr (by linarith)).ne'
  field_simp

end

/-- Gluing two continuous functions. -/
theorem continuous_glue {f g : ℝ → ℝ} {c : ℝ} (hf : Continuous f) (hg : Continuous g) (h : f c = g c) :
    Continuous fun x => if x < c then f x else g x := by
  have : Continuous fun x => if c ≤ x then g x else f x :=
    Continuous.if_le hg hf continuous_const continuous_id (by rintro x rfl; exact h.symm)
  refine this.congr fun x => ?_
  by_cases hx : x < c
  · rw [if_pos hx, if_neg (not_le.mpr hx)]
  · rw [if_neg hx, if_pos (not_lt.mp hx)]

/-- Gluing two functions with equal values and slopes. -/
theorem hasDerivAt_glue {f g : ℝ → ℝ} {c d : ℝ} (h : f c = g c) (hf : HasDerivAt f d c)
    (hg : HasDerivAt g d c) : HasDerivAt (fun x => if x < c then f x else g x) d c := by
  have h1 : HasDerivWithinAt (fun x => if x < c then f x else g x) d (Iic c) c := by
    refine hf.hasDerivWithinAt.congr ?_ ?_
    · intro x hx
      rcases lt_or_eq_of_le (show x ≤ c from hx) with hl | rfl
      · exact if_pos hl
      · rw [if_neg (lt_irrefl _), h]
    · rw [if_neg (lt_irrefl _), h]
  have h2 : HasDerivWithinAt (fun x => if x < c then f x else g x) d (Ici c) c := by
    refine hg.hasDerivWithinAt.congr ?_ ?_
    · intro x hx
      exact if_neg (not_lt.mpr hx)
    · rw [if_neg (lt_irrefl _)]
  have := h1.union h2
  rwa [Iic_union_Ici, hasDerivWithinAt_univ] at this

section
variable {R h L : ℝ}

/-- The profile as three glued pieces. -/
theorem riseS_glue (hh : 0 < h) (hL : 0 < L) (hR : R = (L ^ 2 + h ^ 2) / (4 * h)) (u : ℝ) :
    riseS R h L u = if u < L / 2 then (if u < 0 then 0 else arcH R u)
      else (if u < L then h - arcH R (L - u) else h) := by
  have hR0 := (R_facts hh hL hR).1
  unfold riseS
  by_cases h1 : u ≥ L
  · rw [if_pos h1, if_neg (by linarith), if_neg (by linarith)]
  rw [if_neg h1]
  push Not at h1
  by_cases h2 : u ≤ 0
  · rw [if_pos h2, if_pos (by linarith)]
    rcases lt_or_eq_of_le h2 with hl | rfl
    · rw [if_pos hl]
    · rw [if_neg (lt_irrefl _), arcH_zero hR0.le]
  rw [if_neg h2, if_pos h1]
  by_cases h3 : u < L / 2
  · rw [if_pos h3, if_pos h3, if_neg (by linarith)]
  · rw [if_neg h3, if_neg h3]

theorem leftPiece_cont (hR0 : 0 < R) : Continuous fun u : ℝ => if u < 0 then 0 else arcH R u := by
  exact continuous_glue (f := fun _ => 0) continuous_const arcH_continuous (arcH_zero hR0.le).symm

theorem rightPiece_cont (hR0 : 0 < R) :
    Continuous fun u : ℝ => if u < L then h - arcH R (L - u) else h := by
  refine continuous_glue (f := fun u => h - arcH R (L - u)) (g := fun _ => h)
    (continuous_const.sub (arcH_continuous.comp (by fun_prop))) continuous_const ?_
  simp [arcH_zero hR0.le]

theorem riseS_continuous (hh : 0 < h) (hL : 0 < L) (hR : R = (L ^ 2 + h ^ 2) / (4 * h)) (hc : h ≤ L) :
    Continuous (riseS R h L) := by
  have hR0 := (R_facts hh hL hR).1
  rw [show riseS R h L = _ from funext fun u => riseS_glue hh hL hR u]
  refine continuous_glue (leftPiece_cont hR0) (rightPiece_cont hR0) ?_
  rw [if_neg (by linarith), if_pos (by linarith), show L - L / 2 = L / 2 by ring, arcH_mid hh hL hR,
    if_pos hc]
  ring

/-- For a curve steeper than 45 degrees the two arcs do not meet: the jump at the middle. -/
theorem riseS_jump (hh : 0 < h) (hL : 0 < L) (hR : R = (L ^ 2 + h ^ 2) / (4 * h)) (hc : L < h) :
    Tendsto (riseS R h L) (𝓝[<] (L / 2)) (𝓝 (L ^ 2 / (2 * h)))
    ∧ riseS R h L (L / 2) = h - L ^ 2 / (2 * h) := by
  have hR0 := (R_facts hh hL hR).1
  have hm := arcH_mid hh hL hR
  rw [if_neg (not_le.mpr hc)] at hm
  constructor
  · have h1 : Tendsto (fun u : ℝ => if u < 0 then 0 else arcH R u) (𝓝[<] (L / 2)) (𝓝 (L ^ 2 / (2 * h))) := by
      have := (leftPiece_cont hR0).tendsto (L / 2)
      rw [if_neg (by linarith), hm] at this
      exact this.mono_left nhdsWithin_le_nhds
    refine h1.congr' ?_
    filter_upwards [self_mem_nhdsWithin] with u hu
    rw [riseS_glue hh hL hR, if_pos (show u < L / 2 from hu)]
  · rw [riseS_glue hh hL hR, if_neg (lt_irrefl _), if_pos (by linarith), show L - L / 2 = L / 2 by ring, hm]

theorem riseS_mono (hh : 0 < h) (hL : 0 < L) (hR : R = (L ^ 2 + h ^ 2) / (4 * h)) :
    Monotone (riseS R h L) := by
  have hR0 := (R_facts hh hL hR).1
  have hm := arcH_mid hh hL hR
  have hm2 : arcH R (L / 2) ≤ h / 2 := by
    rw [hm]; split_ifs with hc
    · exact le_refl _
    · rw [div_le_div_iff₀ (by positivity) (by norm_num)]; nlinarith
  have nn : ∀ w, 0 ≤ w → 0 ≤ arcH R w := fun w hw => by
    have := arcH_mono (R := R) le_rfl hw; rwa [arcH_zero hR0.le] at this
  intro u v huv
  rw [riseS_glue hh hL hR, riseS_glue hh hL hR]
  have lo : ∀ u, u < L / 2 → (if u < 0 then 0 else arcH R u) ≤ h / 2 := by
    intro u hu
    split_ifs with h0
    · positivity
    · exact (arcH_mono (by linarith) hu.le).trans hm2
  have hi : ∀ u, ¬ u < L / 2 → h / 2 ≤ (if u < L then h - arcH R (L - u) else h) := by
    intro u hu
    split_ifs with h0
    · have := (arcH_mono (R := R) (u := L - u) (v := L / 2) (by linarith) (by linarith)).trans hm2
      linarith
    · linarith
  by_cases h1 : u < L / 2
  · rw [if_pos h1]
    by_cases h2 : v < L / 2
    · rw [if_pos h2]
      split_ifs with h3 h4 h5
      · exact le_rfl
      · exact nn v (by linarith)
      · linarith
      · exact arcH_mono (by linarith) huv
    · rw [if_neg h2]; exact (lo u h1).trans (hi v h2)
  · rw [if_neg h1, if_neg (show ¬ v < L / 2 by linarith)]
    split_ifs with h3 h4 h5
    · have := arcH_mono (R := R) (u := L - v) (v := L - u) (by linarith) (by linarith)
      linarith
    · have := nn (L - u) (by linarith); linarith
    · linarith
    · exact le_rfl

theorem riseS_range (hh : 0 < h) (hL : 0 < L) (hR : R = (L ^ 2 + h ^ 2) / (4 * h)) (u : ℝ) :
    0 ≤ riseS R h L u ∧ riseS R h L u ≤ h := by
  have h0 : riseS R h L (min u 0) = 0 := by
    unfold riseS; rw [if_neg (by have := min_le_right u 0; linarith), if_pos (min_le_right _ _)]
  have h1 : riseS R h L (max u L) = h := by
    unfold riseS; rw [if_pos (le_max_right _ _)]
  have m := riseS_mono hh hL hR
  exact ⟨h0 ▸ m (min_le_left u 0), (m (le_max_left u L)).trans_eq h1⟩

theorem riseS_symm (hh : 0 < h) (hL : 0 < L) (hR : R = (L ^ 2 + h ^ 2) / (4 * h)) (u : ℝ)
    (hu : u ≠ L / 2) : riseS R h L u + riseS R h L (L - u) = h := by
  have hR0 := (R_facts hh hL hR).1
  rw [riseS_glue hh hL hR, riseS_glue hh hL hR]
  rcases lt_or_gt_of_ne hu with hl | hg
  · rw [if_pos hl, if_neg (show ¬ L - u < L / 2 by linarith)]
    rcases lt_trichotomy u 0 with h0 | rfl | h0
    · rw [if_pos h0, if_neg (by linarith)]; ring
    · rw [if_neg (lt_irrefl _), if_neg (by linarith), arcH_zero hR0.le]; ring
    · rw [if_neg (by linarith), if_pos (by linarith), show L - (L - u) = u by ring]; ring
  · rw [if_neg (by linarith), if_pos (show L - u < L / 2 by linarith)]
    rcases lt_trichotomy u L with h0 | rfl | h0
    · rw [if_pos h0, if_neg (by linarith)]; ring
    · rw [if_neg (lt_irrefl _), if_neg (by linarith), sub_self, arcH_zero hR0.le]; ring
    · rw [if_neg (by linarith), if_pos (by linarith)]; ring

/-- Slope of the profile for `h < L`. -/
noncomputable def slopeS (R L u : ℝ) : ℝ :=
  if u < L / 2 then (if u < 0 then 0 else u / Real.sqrt (R ^ 2 - u ^ 2))
  else (if u < L then (L - u) / Real.sqrt (R ^ 2 - (L - u) ^ 2) else 0)

theorem riseS_deriv (hh : 0 < h) (hL : 0 < L) (hR : R = (L ^ 2 + h ^ 2) / (4 * h)) (hc : h < L) (u : ℝ) :
    HasDerivAt (riseS R h L) (slopeS R L u) u := by
  have hR0 := (R_facts hh hL hR).1
  have hRL : L / 2 < R := by
    rw [hR, lt_div_iff₀ (by positivity)]; nlinarith [sq_pos_of_pos (sub_pos.mpr hc)]
  have sqb : ∀ w, 0 ≤ w → w ≤ L / 2 → w ^ 2 < R ^ 2 := fun w h0 h1 => by nlinarith
  have hleft : ∀ u, u ≤ L / 2 → HasDerivAt (fun u : ℝ => if u < 0 then 0 else arcH R u)
      (if u < 0 then 0 else u / Real.sqrt (R ^ 2 - u ^ 2)) u := by
    intro u hu
    rcases lt_trichotomy u 0 with h0 | rfl | h0
    · rw [if_pos h0]
      refine (hasDerivAt_const u (0:ℝ)).congr_of_eventuallyEq ?_
      filter_upwards [gt_mem_nhds h0] with w hw
      rw [if_pos hw]
    · rw [if_neg (lt_irrefl _)]
      refine hasDerivAt_glue (f := fun _ => (0:ℝ)) (arcH_zero hR0.le).symm ?_
        (arcH_deriv (sqb 0 le_rfl (by linarith)))
      exact (hasDerivAt_const (0:ℝ) (0:ℝ)).congr_deriv (by simp)
    · rw [if_neg (by linarith)]
      refine (arcH_deriv (sqb u h0.le hu)).congr_of_eventuallyEq ?_
      filter_upwards [lt_mem_nhds h0] with w hw
      rw [if_neg (by linarith)]
  have harc : ∀ u, L / 2 ≤ u → u ≤ L → HasDerivAt (fun u : ℝ => h - arcH R (L - u))
      ((L - u) / Real.sqrt (R ^ 2 - (L - u) ^ 2)) u := by
    intro u h1 h2
    have h3 : HasDerivAt (fun u : ℝ => L - u) (-1) u := HasDerivAt.const_sub L (hasDerivAt_id' u)
    have h4 := HasDerivAt.const_sub h ((arcH_deriv (sqb (L - u) (by linarith) (by linarith))).comp u h3)
    exact h4.congr_deriv (by ring)
  have hright : ∀ u, L / 2 ≤ u → HasDerivAt (fun u : ℝ => if u < L then h - arcH R (L - u) else h)
      (if u < L then (L - u) / Real.sqrt (R ^ 2 - (L - u) ^ 2) else 0) u := by
    intro u hu
    rcases lt_trichotomy u L with h0 | rfl | h0
    · rw [if_pos h0]
      refine (harc u hu h0.le).congr_of_eventuallyEq ?_
      filter_upwards [gt_mem_nhds h0] with w hw
      rw [if_pos hw]
    · rw [if_neg (lt_irrefl _)]
      refine hasDerivAt_glue (g := fun _ => h) ?_ ((harc u hu le_rfl).congr_deriv (by simp))
        (hasDerivAt_const _ _)
      simp [arcH_zero hR0.le]
    · rw [if_neg (by linarith)]
      refine (hasDerivAt_const u h).congr_of_eventuallyEq ?_
      filter_upwards [lt_mem_nhds h0] with w hw
      rw [if_neg (by linarith)]
  rw [show riseS R h L = _ from funext fun u => riseS_glue hh hL hR u]
  unfold slopeS
  rcases lt_trichotomy u (L / 2) with h0 | rfl | h0
  · rw [if_pos h0]
    refine (hleft u h0.le).congr_of_eventuallyEq ?_
    filter_upwards [gt_mem_nhds h0] with w hw
    rw [if_pos hw]
  · rw [if_neg (lt_irrefl _)]
    refine hasDerivAt_glue ?_ ((hleft _ le_rfl).congr_deriv ?_) (hright _ le_rfl)
    · rw [if_neg (by linarith), if_pos (by linarith), show L - L / 2 = L / 2 by ring, arcH_mid hh hL hR,
        if_pos hc.le]; ring
    · rw [if_neg (by linarith), if_pos (by linarith), show L - L / 2 = L / 2 by ring]
  · rw [if_neg (by linarith)]
    refine (hright u h0.le).congr_of_eventuallyEq ?_
    filter_upwards [lt_mem_nhds h0] with w hw
    rw [if_neg (by linarith)]

theorem slopeS_continuous (hh : 0 < h) (hL : 0 < L) (hR : R = (L ^ 2 + h ^ 2) / (4 * h)) (hc : h < L) :
    Continuous (slopeS R L) := by
  have hR0 := (R_facts hh hL hR).1
  have hRL : L / 2 < R := by
    rw [hR, lt_div_iff₀ (by positivity)]; nlinarith [sq_pos_of_pos (sub_pos.mpr hc)]
  -- clamp the distance to the nearer end
  have e : slopeS R L = fun u => (max 0 (min u (min (L / 2) (L - u))))
      / Real.sqrt (R ^ 2 - (max 0 (min u (min (L / 2) (L - u)))) ^ 2) := by
    funext u
    unfold slopeS
    by_cases h1 : u < L / 2
    · rw [if_pos h1]
      have : min u (min (L / 2) (L - u)) = u := by
        rw [min_eq_left]; exact le_min h1.le (by linarith)
      rw [this]
      by_cases h2 : u < 0
      · rw [if_pos h2, max_eq_left h2.le]; simp
      · rw [if_neg h2, max_eq_right (by linarith)]
    · rw [if_neg h1]
      have : min u (min (L / 2) (L - u)) = L - u := by
        rw [min_eq_right (by linarith : L - u ≤ L / 2), min_eq_right (by linarith)]
      rw [this]
      by_cases h2 : u < L
      · rw [if_pos h2, max_eq_right (by linarith)]
      · rw [if_neg h2, max_eq_left (by linarith)]; simp
  rw [e]
  refine Continuous.div (by fun_prop) (by fun_prop) ?_
  intro u
  refine (Real.sqrt_pos.mpr ?_).ne'
  have h0 : 0 ≤ max 0 (min u (min (L / 2) (L - u))) := le_max_left _ _
  have h1 : max 0 (min u (min (L / 2) (L - u))) ≤ L / 2 :=
    max_le (by linarith) ((min_le_right _ _).trans (min_le_left _ _))
  nlinarith

end

end Geotecha.Beam
