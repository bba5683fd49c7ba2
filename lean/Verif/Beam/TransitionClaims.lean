import Verif.Beam.TransitionProps

/-!
# The reverse curve transition: claims (C217)
-/
set_option autoImplicit false
set_option linter.unusedVariables false

namespace Geotecha.Beam

open Real Set Filter Topology

/-- Specification: sign of the rise. -/
noncomputable def upDown (y1 y2 : ℝ) : ℝ := if y2 < y1 then -1 else 1

theorem upDown_rise (y1 y2 : ℝ) : upDown y1 y2 * |y2 - y1| = y2 - y1 := by
  unfold upDown
  split_ifs with h
  · rw [abs_of_neg (by linarith)]; ring
  · rw [abs_of_nonneg (by linarith)]; ring

theorem upDown_sq (y1 y2 : ℝ) : upDown y1 y2 ^ 2 = 1 := by
  unfold upDown; split_ifs <;> norm_num

/-- The function traced by the code. -/
noncomputable def rcFun (x1 y1 x2 y2 x : ℝ) : ℝ :=
  y1 + upDown y1 y2 * riseS (((x2 - x1) ^ 2 + |y2 - y1| ^ 2) / (4 * |y2 - y1|)) |y2 - y1| (x2 - x1) (x - x1)

theorem rcFun_eq (x1 y1 x2 y2 x : ℝ) (hx : x1 < x2) (hy : y1 ≠ y2) :
    rcArc x x1 x2 x1 y1 x2 y2 = rcFun x1 y1 x2 y2 x := by
  rw [rcArc_eq x x1 x2 x1 y1 x2 y2 hx rfl hy]
  unfold rcFun upDown
  rw [sq_abs]

theorem reverseCurve_float (x1 y1 x2 y2 : ℝ) (hx : x1 < x2) (hy : y1 ≠ y2) (xs : List ℝ) :
    reverseCurve .float xs x1 y1 x2 y2 = .ok (xs.map (rcFun x1 y1 x2 y2)) := by
  unfold reverseCurve
  rw [if_neg hy, if_pos hx]
  congr 1
  refine List.map_congr_left fun x _ => ?_
  rw [rcFun_eq x1 y1 x2 y2 x hx hy]
  rfl

/-- **C217** The curve: level outside the two end points, monotone and within the two levels between them,
on a circle tangent to the left level up to the middle and on a circle of the same radius tangent to the
right level after it, and point symmetric. -/
theorem C217_reverse_curve (x1 y1 x2 y2 : ℝ) (hx : x1 < x2) (hy : y1 ≠ y2) :
    ∃ f : ℝ → ℝ, (∀ xs, reverseCurve .float xs x1 y1 x2 y2 = .ok (xs.map f))
    ∧ (∀ x, x ≤ x1 → f x = y1) ∧ (∀ x, x2 ≤ x → f x = y2)
    ∧ (y1 < y2 → Monotone f) ∧ (y2 < y1 → Antitone f)
    ∧ (∀ x, min y1 y2 ≤ f x ∧ f x ≤ max y1 y2)
    ∧ (∀ x, x ≠ (x1 + x2) / 2 → f x + f (x1 + x2 - x) = y1 + y2)
    ∧ ∃ R : ℝ, 0 < R ∧ 4 * |y2 - y1| * R = (x2 - x1) ^ 2 + (y2 - y1) ^ 2
      ∧ (∀ x, x1 ≤ x → x < (x1 + x2) / 2 →
          (x - x1) ^ 2 + (f x - (y1 + upDown y1 y2 * R)) ^ 2 = R ^ 2)
      ∧ (∀ x, (x1 + x2) / 2 ≤ x → x ≤ x2 →
          (x - x2) ^ 2 + (f x - (y2 - upDown y1 y2 * R)) ^ 2 = R ^ 2) := by
  have hh : 0 < |y2 - y1| := abs_pos.mpr (sub_ne_zero.mpr hy.symm)
  have hL : 0 < x2 - x1 := by linarith
  set h := |y2 - y1| with hdef
  set L := x2 - x1 with Ldef
  obtain ⟨R, hR⟩ : ∃ R, R = (L ^ 2 + h ^ 2) / (4 * h) := ⟨_, rfl⟩
  have F : ∀ x, rcFun x1 y1 x2 y2 x = y1 + upDown y1 y2 * riseS R h L (x - x1) := by
    intro x; unfold rcFun; rw [hR]
  have hs := upDown_rise y1 y2
  rw [← hdef] at hs
  have hsq := upDown_sq y1 y2
  obtain ⟨R0, R1, _⟩ := R_facts hh hL hR
  have mono := riseS_mono hh hL hR
  refine ⟨rcFun x1 y1 x2 y2, reverseCurve_float x1 y1 x2 y2 hx hy, fun x hxl => ?_, fun x hxr => ?_,
    fun hu x x' hxx => ?_, fun hu x x' hxx => ?_, fun x => ?_, fun x hxm => ?_, R, R0, ?_,
    fun x h1 h2 => ?_, fun x h1 h2 => ?_⟩
  · rw [F]; unfold riseS; rw [if_neg (by linarith), if_pos (by linarith)]; ring
  · rw [F]; unfold riseS; rw [if_pos (by linarith), hs]; ring
  · rw [F, F]; unfold upDown; rw [if_neg (by linarith)]
    have := mono (show x - x1 ≤ x' - x1 by linarith); linarith
  · rw [F, F]; unfold upDown; rw [if_pos hu]
    have := mono (show x - x1 ≤ x' - x1 by linarith); linarith
  · obtain ⟨r0, r1⟩ := riseS_range hh hL hR (x - x1)
    rw [F]
    rcases lt_or_gt_of_ne hy with hl | hg
    · rw [min_eq_left hl.le, max_eq_right hl.le]
      unfold upDown at hs ⊢; rw [if_neg (by linarith)] at hs ⊢
      constructor <;> linarith
    · rw [min_eq_right hg.le, max_eq_left hg.le]
      unfold upDown at hs ⊢; rw [if_pos hg] at hs ⊢
      constructor <;> linarith
  · have := riseS_symm hh hL hR (x - x1) (by intro h'; apply hxm; rw [Ldef] at h'; linarith)
    rw [F, F, show x1 + x2 - x - x1 = L - (x - x1) by rw [Ldef]; ring]
    linear_combination upDown y1 y2 * this + hs
  · rw [hR, ← sq_abs (y2 - y1), ← hdef]; field_simp
  · have e : riseS R h L (x - x1) = arcH R (x - x1) := by
      rw [riseS_glue hh hL hR, if_pos (by rw [Ldef]; linarith), if_neg (by linarith)]
    have c := arcH_circle (R := R) (u := x - x1) (by rw [abs_of_nonneg (by linarith)]; rw [Ldef] at R1; linarith)
    rw [F, e]
    linear_combination c + (arcH R (x - x1) - R) ^ 2 * hsq
  · have e : riseS R h L (x - x1) = h - arcH R (x2 - x) := by
      rw [riseS_glue hh hL hR, if_neg (by rw [Ldef]; linarith)]
      have e1 : L - (x - x1) = x2 - x := by rw [Ldef]; ring
      rw [e1]
      rcases lt_or_eq_of_le h2 with hl | rfl
      · rw [if_pos (by rw [Ldef]; linarith)]
      · rw [if_neg (by rw [Ldef]; exact lt_irrefl _), sub_self, arcH_zero R0.le, sub_zero]
    have c := arcH_circle (R := R) (u := x2 - x) (by rw [abs_of_nonneg (by linarith)]; rw [Ldef] at R1; linarith)
    rw [F, e]
    have e2 : y1 + upDown y1 y2 * (h - arcH R (x2 - x)) - (y2 - upDown y1 y2 * R)
      = -(upDown y1 y2) * (arcH R (x2 - x) - R) := by linear_combination hs
    rw [e2]
    linear_combination c + (arcH R (x2 - x) - R) ^ 2 * hsq

/-- **C217** When the rise does not exceed the length the curve is continuous, passes through the mid
point, and (strictly flatter) has a continuous slope which vanishes at both ends. -/
theorem C217_smooth_partial (x1 y1 x2 y2 : ℝ) (hx : x1 < x2) (hy : y1 ≠ y2) :
    ∃ f : ℝ → ℝ, (∀ xs, reverseCurve .float xs x1 y1 x2 y2 = .ok (xs.map f))
    ∧ (|y2 - y1| ≤ x2 - x1 → Continuous f ∧ f ((x1 + x2) / 2) = (y1 + y2) / 2)
    ∧ (|y2 - y1| < x2 - x1 → ∃ f' : ℝ → ℝ, Continuous f' ∧ (∀ x, HasDerivAt f (f' x) x)
        ∧ f' x1 = 0 ∧ f' x2 = 0
        ∧ f' ((x1 + x2) / 2) = 2 * (y2 - y1) * (x2 - x1) / ((x2 - x1) ^ 2 - (y2 - y1) ^ 2)) := by
  have hh : 0 < |y2 - y1| := abs_pos.mpr (sub_ne_zero.mpr hy.symm)
  have hL : 0 < x2 - x1 := by linarith
  have hsq2 : |y2 - y1| ^ 2 = (y2 - y1) ^ 2 := sq_abs _
  set h := |y2 - y1| with hdef
  set L := x2 - x1 with Ldef
  obtain ⟨R, hR⟩ : ∃ R, R = (L ^ 2 + h ^ 2) / (4 * h) := ⟨_, rfl⟩
  have F : ∀ x, rcFun x1 y1 x2 y2 x = y1 + upDown y1 y2 * riseS R h L (x - x1) := by
    intro x; unfold rcFun; rw [hR]
  have hs := upDown_rise y1 y2
  rw [← hdef] at hs
  obtain ⟨R0, R1, R2⟩ := R_facts hh hL hR
  have hmid : (x1 + x2) / 2 - x1 = L / 2 := by rw [Ldef]; ring
  refine ⟨rcFun x1 y1 x2 y2, reverseCurve_float x1 y1 x2 y2 hx hy, fun hc => ⟨?_, ?_⟩, fun hc => ?_⟩
  · rw [show rcFun x1 y1 x2 y2 = _ from funext F]
    exact continuous_const.add (continuous_const.mul ((riseS_continuous hh hL hR hc).comp
      (continuous_id.sub continuous_const)))
  · rw [F, hmid, riseS_glue hh hL hR, if_neg (lt_irrefl _), if_pos (by linarith),
      show L - L / 2 = L / 2 by ring, arcH_mid hh hL hR, if_pos hc]
    linear_combination hs / 2
  · refine ⟨fun x => upDown y1 y2 * slopeS R L (x - x1), ?_, fun x => ?_, ?_, ?_, ?_⟩
    · exact continuous_const.mul ((slopeS_continuous hh hL hR hc).comp
        (continuous_id.sub continuous_const))
    · rw [show rcFun x1 y1 x2 y2 = _ from funext F]
      have h3 : HasDerivAt (fun x : ℝ => x - x1) 1 x := (hasDerivAt_id' x).sub_const x1
      have h4 : HasDerivAt (fun x => riseS R h L (x - x1)) (slopeS R L (x - x1) * 1) x :=
        HasDerivAt.comp (h₂ := riseS R h L) x (riseS_deriv hh hL hR hc (x - x1)) h3
      exact ((h4.const_mul (upDown y1 y2)).const_add y1).congr_deriv (by ring)
    · simp [slopeS, hL]
    · simp only [slopeS]
      rw [if_neg (by rw [Ldef]; linarith), if_neg (by rw [Ldef]; exact lt_irrefl _), mul_zero]
    · simp only [slopeS]
      rw [hmid, if_neg (lt_irrefl _), if_pos (by linarith), show L - L / 2 = L / 2 by ring, R2, ← hsq2, ← hs,
        abs_of_pos (by nlinarith)]
      have : L ^ 2 - h ^ 2 ≠ 0 := by nlinarith
      field_simp
      try ring

/-- **C217** When the rise exceeds the length the two arcs do not meet: the curve jumps at the middle by
`h - L²/h`, so it is not continuous. -/
theorem C217_steep_jump (x1 y1 x2 y2 : ℝ) (hx : x1 < x2) (hy : y1 ≠ y2) (hc : x2 - x1 < |y2 - y1|) :
    ∃ f : ℝ → ℝ, (∀ xs, reverseCurve .float xs x1 y1 x2 y2 = .ok (xs.map f))
    ∧ Tendsto f (𝓝[<] ((x1 + x2) / 2)) (𝓝 (y1 + upDown y1 y2 * ((x2 - x1) ^ 2 / (2 * |y2 - y1|))))
    ∧ f ((x1 + x2) / 2) = y2 - upDown y1 y2 * ((x2 - x1) ^ 2 / (2 * |y2 - y1|))
    ∧ ¬ Continuous f := by
  have hh : 0 < |y2 - y1| := abs_pos.mpr (sub_ne_zero.mpr hy.symm)
  have hL : 0 < x2 - x1 := by linarith
  set h := |y2 - y1| with hdef
  set L := x2 - x1 with Ldef
  obtain ⟨R, hR⟩ : ∃ R, R = (L ^ 2 + h ^ 2) / (4 * h) := ⟨_, rfl⟩
  have F : ∀ x, rcFun x1 y1 x2 y2 x = y1 + upDown y1 y2 * riseS R h L (x - x1) := by
    intro x; unfold rcFun; rw [hR]
  have hs := upDown_rise y1 y2
  rw [← hdef] at hs
  have hsq := upDown_sq y1 y2
  obtain ⟨j1, j2⟩ := riseS_jump hh hL hR hc
  have hmid : (x1 + x2) / 2 - x1 = L / 2 := by rw [Ldef]; ring
  have t1 : Tendsto (rcFun x1 y1 x2 y2) (𝓝[<] ((x1 + x2) / 2))
      (𝓝 (y1 + upDown y1 y2 * (L ^ 2 / (2 * h)))) := by
    rw [show rcFun x1 y1 x2 y2 = _ from funext F]
    refine Tendsto.const_add _ (Tendsto.const_mul _ (j1.comp ?_))
    refine tendsto_nhdsWithin_iff.mpr ⟨?_, ?_⟩
    · have : Tendsto (fun x : ℝ => x - x1) (𝓝 ((x1 + x2) / 2)) (𝓝 ((x1 + x2) / 2 - x1)) :=
        (continuous_id.sub continuous_const).tendsto _
      rw [hmid] at this
      exact this.mono_left nhdsWithin_le_nhds
    · filter_upwards [self_mem_nhdsWithin] with x hx
      have : x < (x1 + x2) / 2 := hx
      show x - x1 < L / 2
      linarith
  have v : rcFun x1 y1 x2 y2 ((x1 + x2) / 2) = y2 - upDown y1 y2 * (L ^ 2 / (2 * h)) := by
    rw [F, hmid, j2]
    linear_combination hs
  refine ⟨rcFun x1 y1 x2 y2, reverseCurve_float x1 y1 x2 y2 hx hy, t1, v, fun hcont => ?_⟩
  have t2 := (hcont.tendsto ((x1 + x2) / 2)).mono_left (nhdsWithin_le_nhds (s := Iio ((x1 + x2) / 2)))
  have e := tendsto_nhds_unique t1 t2
  rw [v] at e
  have e2 : upDown y1 y2 * (h - L ^ 2 / h) = 0 := by
    have : L ^ 2 / h = 2 * (L ^ 2 / (2 * h)) := by field_simp
    rw [this]
    linear_combination hs - e
  rcases mul_eq_zero.mp e2 with h0 | h0
  · rw [h0] at hsq; norm_num at hsq
  · have : h * h = L ^ 2 := by
      have h0' : h = L ^ 2 / h := by linarith
      rwa [eq_div_iff hh.ne'] at h0'
    nlinarith

/-- **C217** The end points may be given in either order; a level "transition" is constant whatever the
`x` coordinates, and otherwise equal `x` coordinates are refused. -/
theorem C217_end_points (dt : DType) (xs : List ℝ) (x1 y1 x2 y2 : ℝ) :
    reverseCurve dt xs x1 y1 x2 y2 = reverseCurve dt xs x2 y2 x1 y1
    ∧ (y1 = y2 → reverseCurve dt xs x1 y1 x2 y2 = .ok (xs.map fun _ => dt.store y1))
    ∧ (y1 ≠ y2 → (reverseCurve dt xs x1 y1 x2 y2 = .error .valueError ↔ x1 = x2)) := by
  refine ⟨?_, fun h => by unfold reverseCurve; rw [if_pos h], fun h => ?_⟩
  · unfold reverseCurve
    by_cases h : y1 = y2
    · rw [if_pos h, if_pos h.symm, h]
    rw [if_neg h, if_neg (Ne.symm h)]
    rcases lt_trichotomy x1 x2 with hl | rfl | hg
    · rw [if_pos hl, if_neg (show ¬ x1 > x2 by linarith), if_pos hl]
      congr 1
      refine List.map_congr_left fun x _ => ?_
      unfold rcArc; rw [add_comm x2 x1]
    · simp
    · rw [if_neg (show ¬ x2 > x1 by linarith), if_pos hg, if_pos hg]
      congr 1
      refine List.map_congr_left fun x _ => ?_
      unfold rcArc; rw [add_comm x2 x1]
  · unfold reverseCurve
    rw [if_neg h]
    rcases lt_trichotomy x1 x2 with hl | rfl | hg
    · rw [if_pos hl]; simp [hl.ne]
    · simp
    · rw [if_neg (show ¬ x2 > x1 by linarith), if_pos hg]; simp [hg.ne']

/-- **C217** With integer `x` every value is truncated towards zero when stored; a transition between
levels in `[0, 1)` is returned as all zeros. -/
theorem C217_integer_grid (xs : List ℝ) (x1 y1 x2 y2 : ℝ) (hx : x1 < x2) (hy : y1 ≠ y2) :
    ∃ f : ℝ → ℝ, (∀ xs, reverseCurve .float xs x1 y1 x2 y2 = .ok (xs.map f))
    ∧ reverseCurve .int xs x1 y1 x2 y2
        = .ok (xs.map fun x => if 0 ≤ f x then (⌊f x⌋ : ℝ) else (⌈f x⌉ : ℝ))
    ∧ (0 ≤ y1 → y1 < 1 → 0 ≤ y2 → y2 < 1 → reverseCurve .int xs x1 y1 x2 y2 = .ok (xs.map fun _ => 0)) := by
  have e : reverseCurve .int xs x1 y1 x2 y2
      = .ok (xs.map fun x => if 0 ≤ rcFun x1 y1 x2 y2 x then (⌊rcFun x1 y1 x2 y2 x⌋ : ℝ)
        else (⌈rcFun x1 y1 x2 y2 x⌉ : ℝ)) := by
    unfold reverseCurve
    rw [if_neg hy, if_pos hx]
    congr 1
    refine List.map_congr_left fun x _ => ?_
    rw [rcFun_eq x1 y1 x2 y2 x hx hy]
    rfl
  refine ⟨rcFun x1 y1 x2 y2, reverseCurve_float x1 y1 x2 y2 hx hy, e, fun a b c d => ?_⟩
  rw [e]
  congr 1
  refine List.map_congr_left fun x _ => ?_
  obtain ⟨f, hf, _, _, _, _, hr, _⟩ := C217_reverse_curve x1 y1 x2 y2 hx hy
  have hfx := hf [x]
  rw [reverseCurve_float x1 y1 x2 y2 hx hy] at hfx
  have hfx2 : rcFun x1 y1 x2 y2 x = f x := by simpa using hfx
  obtain ⟨lo, hi⟩ := hr x
  rw [← hfx2] at lo hi
  have h0 : 0 ≤ rcFun x1 y1 x2 y2 x := (le_min a c).trans lo
  have h1 : rcFun x1 y1 x2 y2 x < 1 := hi.trans_lt (max_lt b d)
  rw [if_pos h0, Int.floor_eq_zero_iff.mpr ⟨h0, h1⟩]
  simp

/-- Non-vacuity: a rise of 1 over a length of 4 (smooth), a rise of 4 over 1 (jump), from 0 to 9/10 with
integer positions (all zeros). -/
example : (∃ f : ℝ → ℝ, (∀ xs, reverseCurve .float xs 0 0 4 1 = .ok (xs.map f))
      ∧ (|1 - 0| ≤ (4:ℝ) - 0 → Continuous f ∧ f ((0 + 4) / 2) = (0 + 1) / 2))
    ∧ (4:ℝ) - 0 < 5 ∧ reverseCurve .int [0, 5, 10] 0 0 10 (9 / 10) = .ok [0, 0, 0] := by
  refine ⟨?_, by norm_num, ?_⟩
  · obtain ⟨f, h1, h2, _⟩ := C217_smooth_partial 0 0 4 1 (by norm_num) (by norm_num)
    exact ⟨f, h1, h2⟩
  · obtain ⟨f, _, _, h⟩ := C217_integer_grid [0, 5, 10] 0 0 10 (9 / 10) (by norm_num) (by norm_num)
    simpa using h (by norm_num) (by norm_num) (by norm_num) (by norm_num)

example : ∃ f : ℝ → ℝ, (∀ xs, reverseCurve .float xs 0 0 1 4 = .ok (xs.map f)) ∧ ¬ Continuous f := by
  obtain ⟨f, h1, _, _, h2⟩ := C217_steep_jump 0 0 1 4 (by norm_num) (by norm_num) (by norm_num)
  exact ⟨f, h1, h2⟩

end Geotecha.Beam
