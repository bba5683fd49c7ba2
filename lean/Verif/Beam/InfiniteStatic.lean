import Verif.Beam.InfiniteUnique
import Mathlib.Analysis.SpecialFunctions.Integrals.Basic
import Mathlib.MeasureTheory.Integral.IntervalIntegral.FundThmCalculus

/-!
# Static deflection shape and dynamic amplification factors (C220, C221)
-/
set_option autoImplicit false
set_option linter.unusedVariables false

namespace Geotecha.Beam

open Filter Topology Set

/-- Specification: `w` is the deflection shape of an infinite beam with characteristic length `L` under a
static point load at `xc`, scaled to a maximum of one: `L⁴ w'''' + 4 w = 0` away from the load, `w`, `w'`,
`w''` continuous, `w'''` jumping by `8 / L³` at the load. -/
structure IsStaticShape (L xc : ℝ) (w w1 w2 w3 : ℝ → ℝ) : Prop where
  d1 : ∀ x, HasDerivAt w (w1 x) x
  d2 : ∀ x, HasDerivAt w1 (w2 x) x
  c2 : Continuous w2
  d3 : ∀ x, x ≠ xc → HasDerivAt w2 (w3 x) x
  d4 : ∀ x, x ≠ xc → HasDerivAt w3 (-(4 / L ^ 4 * w x)) x
  jump : ∃ l, Tendsto w3 (𝓝[<] xc) (𝓝 l) ∧ Tendsto w3 (𝓝[>] xc) (𝓝 (l + 8 / L ^ 3))

/-- The shape and its derivatives as functions of the scaled distance. -/
noncomputable def sh : ℕ → ℝ → ℝ
  | 0, t => Real.exp (-t) * (Real.cos t + Real.sin t)
  | 1, t => -2 * (Real.exp (-t) * Real.sin t)
  | 2, t => 2 * (Real.exp (-t) * (Real.sin t - Real.cos t))
  | 3, t => 4 * (Real.exp (-t) * Real.cos t)
  | _, t => -4 * (Real.exp (-t) * (Real.cos t + Real.sin t))

theorem sh_deriv (k : ℕ) (hk : k < 4) (t : ℝ) : HasDerivAt (sh k) (sh (k + 1) t) t := by
  have e : HasDerivAt (fun t : ℝ => Real.exp (-t)) (-Real.exp (-t)) t := by
    simpa using ((hasDerivAt_id' t).fun_neg).exp
  have c := Real.hasDerivAt_cos t
  have s := Real.hasDerivAt_sin t
  interval_cases k
  · exact (e.fun_mul (c.fun_add s)).congr_deriv (by simp only [sh]; ring)
  · exact ((e.fun_mul s).const_mul (-2)).congr_deriv (by simp only [sh]; ring)
  · exact ((e.fun_mul (s.fun_sub c)).const_mul 2).congr_deriv (by simp only [sh]; ring)
  · exact ((e.fun_mul c).const_mul 4).congr_deriv (by simp only [sh]; ring)

/-- Right and left pieces. -/
noncomputable def shR (L xc : ℝ) (k : ℕ) (x : ℝ) : ℝ := sh k ((x - xc) / L) / L ^ k

/-- Left piece. -/
noncomputable def shL (L xc : ℝ) (k : ℕ) (x : ℝ) : ℝ := (-1) ^ k * (sh k ((xc - x) / L) / L ^ k)

theorem shR_deriv (L xc : ℝ) (k : ℕ) (hk : k < 4) (x : ℝ) :
    HasDerivAt (shR L xc k) (shR L xc (k + 1) x) x := by
  have h : HasDerivAt (fun x : ℝ => (x - xc) / L) (1 / L) x := ((hasDerivAt_id' x).sub_const xc).div_const L
  have := (HasDerivAt.comp (h₂ := sh k) x (sh_deriv k hk _) h).div_const (L ^ k)
  refine this.congr_deriv ?_
  unfold shR
  rw [pow_succ]
  ring

theorem shL_deriv (L xc : ℝ) (k : ℕ) (hk : k < 4) (x : ℝ) :
    HasDerivAt (shL L xc k) (shL L xc (k + 1) x) x := by
  have h : HasDerivAt (fun x : ℝ => (xc - x) / L) (-1 / L) x :=
    (HasDerivAt.const_sub xc (hasDerivAt_id' x)).div_const L
  have := ((HasDerivAt.comp (h₂ := sh k) x (sh_deriv k hk _) h).div_const (L ^ k)).const_mul ((-1) ^ k)
  refine this.congr_deriv ?_
  unfold shL
  rw [pow_succ, pow_succ]
  ring

/-- Glued pieces. -/
noncomputable def shG (L xc : ℝ) (k : ℕ) (x : ℝ) : ℝ := if x ≥ xc then shR L xc k x else shL L xc k x

theorem shG_deriv_ne (L xc : ℝ) (k : ℕ) (hk : k < 4) (x : ℝ) (hx : x ≠ xc) :
    HasDerivAt (shG L xc k) (shG L xc (k + 1) x) x := by
  rcases lt_or_gt_of_ne hx with hs | hs
  · have : shG L xc (k + 1) x = shL L xc (k + 1) x := if_neg (by linarith)
    rw [this]
    refine (shL_deriv L xc k hk x).congr_of_eventuallyEq ?_
    filter_upwards [gt_mem_nhds hs] with u hu
    exact if_neg (by linarith)
  · have : shG L xc (k + 1) x = shR L xc (k + 1) x := if_pos (by linarith)
    rw [this]
    refine (shR_deriv L xc k hk x).congr_of_eventuallyEq ?_
    filter_upwards [lt_mem_nhds hs] with u hu
    exact if_pos (by linarith)

theorem shR_at (L xc : ℝ) (k : ℕ) : shR L xc k xc = sh k 0 / L ^ k := by unfold shR; simp
theorem shL_at (L xc : ℝ) (k : ℕ) : shL L xc k xc = (-1) ^ k * (sh k 0 / L ^ k) := by unfold shL; simp

theorem shG_cont (L xc : ℝ) (k : ℕ) (hk : k < 3) : Continuous (shG L xc k) := by
  have c1 : Continuous (shR L xc k) :=
    continuous_iff_continuousAt.mpr fun s => (shR_deriv L xc k (by omega) s).continuousAt
  have c2 : Continuous (shL L xc k) :=
    continuous_iff_continuousAt.mpr fun s => (shL_deriv L xc k (by omega) s).continuousAt
  unfold shG
  refine Continuous.if_le c1 c2 continuous_const continuous_id ?_
  rintro x rfl
  rw [shR_at, shL_at]
  interval_cases k <;> simp [sh]

theorem shG_deriv (L xc : ℝ) (k : ℕ) (hk : k < 2) (x : ℝ) :
    HasDerivAt (shG L xc k) (shG L xc (k + 1) x) x := by
  by_cases hx : x = xc
  · subst hx
    exact hasDerivAt_of_hasDerivAt_of_ne (shG_deriv_ne L x k (by omega))
      (shG_cont L x k (by omega)).continuousAt (shG_cont L x (k + 1) (by omega)).continuousAt
  · exact shG_deriv_ne L xc k (by omega) x hx

theorem shG_zero (L xc : ℝ) : (fun x => pointLoadShape x L xc) = shG L xc 0 := by
  funext x
  unfold pointLoadShape shG shR shL
  rw [neg_div]
  split_ifs with h
  · rw [abs_of_nonneg (by linarith)]; simp only [sh, pow_zero, div_one]
  · rw [abs_of_neg (by linarith)]
    rw [show -(x - xc) = xc - x by ring]; simp only [sh, pow_zero, div_one, one_mul]

theorem shG_static (L xc : ℝ) (hL : 0 < L) :
    IsStaticShape L xc (shG L xc 0) (shG L xc 1) (shG L xc 2) (shG L xc 3) := by
  refine ⟨shG_deriv L xc 0 (by omega), shG_deriv L xc 1 (by omega), shG_cont L xc 2 (by omega),
    shG_deriv_ne L xc 2 (by omega), fun x hx => (shG_deriv_ne L xc 3 (by omega) x hx).congr_deriv ?_, ?_⟩
  · unfold shG
    split_ifs
    · unfold shR sh; simp; field_simp
    · unfold shL sh; simp; field_simp
  · refine ⟨shL L xc 3 xc, ?_, ?_⟩
    · refine ((shL_deriv L xc 3 (by omega) xc).continuousAt.tendsto.mono_left nhdsWithin_le_nhds).congr' ?_
      filter_upwards [self_mem_nhdsWithin] with u hu
      exact (if_neg (not_le.mpr hu)).symm
    · have : shL L xc 3 xc + 8 / L ^ 3 = shR L xc 3 xc := by
        rw [shR_at, shL_at]; simp [sh]; ring
      rw [this]
      refine ((shR_deriv L xc 3 (by omega) xc).continuousAt.tendsto.mono_left nhdsWithin_le_nhds).congr' ?_
      filter_upwards [self_mem_nhdsWithin] with u hu
      exact (if_pos (le_of_lt hu)).symm

theorem sh0_lt {t : ℝ} (ht : 0 < t) : |sh 0 t| < 1 := by
  have e := Real.add_one_lt_exp ht.ne'
  have p := Real.exp_pos t
  have key : |Real.cos t + Real.sin t| < Real.exp t := by
    rw [abs_lt]
    have s1 := Real.sin_le ht.le
    have s2 : -t ≤ Real.sin t := by
      have := Real.abs_sin_lt_abs ht.ne'
      rw [abs_of_pos ht] at this
      exact (abs_lt.mp this).1.le
    have c1 := Real.cos_le_one t
    have c2 := Real.neg_one_le_cos t
    constructor <;> linarith
  simp only [sh]
  rw [abs_mul, abs_of_pos (Real.exp_pos _), Real.exp_neg, inv_mul_lt_iff₀ p, mul_one]
  exact key

/-- **C220** `point_load_static_defl_shape_function` (and `static_point_load_shape`, the same with the load
at the origin) is the static deflection shape: it satisfies the beam equation with the right shear jump,
equals one at the load with zero slope, is strictly smaller in magnitude elsewhere, is symmetric, dies out,
and carries the load: its integral over `[xc - X, xc + X]` is `2 L (1 - exp(-X/L) cos(X/L))`. -/
theorem C220_static_shape (L xc : ℝ) (hL : 0 < L) :
    (∃ w1 w2 w3 : ℝ → ℝ, IsStaticShape L xc (fun x => pointLoadShape x L xc) w1 w2 w3 ∧ w1 xc = 0)
    ∧ pointLoadShape xc L xc = 1
    ∧ (∀ x, x ≠ xc → |pointLoadShape x L xc| < 1)
    ∧ (∀ d, pointLoadShape (xc + d) L xc = pointLoadShape (xc - d) L xc)
    ∧ Tendsto (fun x => pointLoadShape x L xc) atTop (𝓝 0)
    ∧ Tendsto (fun x => pointLoadShape x L xc) atBot (𝓝 0)
    ∧ (∀ X, 0 ≤ X → ∫ x in (xc - X)..(xc + X), pointLoadShape x L xc
        = 2 * L * (1 - Real.exp (-X / L) * Real.cos (X / L)))
    ∧ (∀ x, staticPointLoadShape x L = pointLoadShape x L 0) := by
  have eq : ∀ x, pointLoadShape x L xc = sh 0 (|x - xc| / L) := by
    intro x; unfold pointLoadShape; rw [neg_div]; rfl
  have decay : Tendsto (sh 0) atTop (𝓝 0) := by
    have h1 : Tendsto (fun t : ℝ => Real.exp (-t) * 2) atTop (𝓝 0) := by
      simpa using Real.tendsto_exp_neg_atTop_nhds_zero.mul_const 2
    refine squeeze_zero_norm (fun t => ?_) h1
    simp only [sh]
    rw [Real.norm_eq_abs, abs_mul, abs_of_pos (Real.exp_pos _)]
    refine mul_le_mul_of_nonneg_left ?_ (Real.exp_pos _).le
    refine (abs_add_le _ _).trans ?_
    have := Real.abs_cos_le_one t
    have := Real.abs_sin_le_one t
    linarith
  refine ⟨⟨_, _, _, shG_zero L xc ▸ shG_static L xc hL, ?_⟩, ?_, fun x hx => ?_, fun d => ?_, ?_, ?_, ?_, ?_⟩
  · unfold shG shR sh; simp
  · rw [eq]; simp [sh]
  · rw [eq]
    exact sh0_lt (div_pos (abs_pos.mpr (sub_ne_zero.mpr hx)) hL)
  · rw [eq, eq, show xc + d - xc = d by ring, show xc - d - xc = -d by ring, abs_neg]
  · refine Tendsto.congr (fun x => (eq x).symm) (decay.comp ?_)
    refine Tendsto.atTop_div_const hL (tendsto_abs_atTop_atTop.comp ?_)
    exact tendsto_atTop_add_const_right _ (-xc) tendsto_id
  · refine Tendsto.congr (fun x => (eq x).symm) (decay.comp ?_)
    refine Tendsto.atTop_div_const hL (tendsto_abs_atBot_atTop.comp ?_)
    exact tendsto_atBot_add_const_right _ (-xc) tendsto_id
  · intro X hX
    have cont : Continuous fun x => pointLoadShape x L xc := by rw [shG_zero]; exact shG_cont L xc 0 (by omega)
    have ii : ∀ a b, IntervalIntegrable (fun x => pointLoadShape x L xc) MeasureTheory.volume a b :=
      fun a b => cont.intervalIntegrable a b
    -- antiderivative of the piece on the right
    set G : ℝ → ℝ := fun t => -(Real.exp (-t) * Real.cos t) with hG
    have Gd : ∀ t, HasDerivAt G (sh 0 t) t := by
      intro t
      have e : HasDerivAt (fun t : ℝ => Real.exp (-t)) (-Real.exp (-t)) t := by
        simpa using ((hasDerivAt_id' t).fun_neg).exp
      exact ((e.fun_mul (Real.hasDerivAt_cos t)).fun_neg).congr_deriv (by simp only [sh]; ring)
    have r : ∫ x in xc..(xc + X), pointLoadShape x L xc = L * (1 - Real.exp (-X / L) * Real.cos (X / L)) := by
      have hd : ∀ x ∈ uIcc xc (xc + X), HasDerivAt (fun x => L * G ((x - xc) / L)) (pointLoadShape x L xc) x := by
        intro x hx
        rw [uIcc_of_le (by linarith)] at hx
        have h : HasDerivAt (fun x : ℝ => (x - xc) / L) (1 / L) x :=
          ((hasDerivAt_id' x).sub_const xc).div_const L
        have := (HasDerivAt.comp (h₂ := G) x (Gd _) h).const_mul L
        refine this.congr_deriv ?_
        rw [eq, abs_of_nonneg (by linarith [hx.1])]
        field_simp
      rw [intervalIntegral.integral_eq_sub_of_hasDerivAt hd (ii _ _)]
      simp [hG, neg_div]
      ring
    have l : ∫ x in (xc - X)..xc, pointLoadShape x L xc = L * (1 - Real.exp (-X / L) * Real.cos (X / L)) := by
      have hd : ∀ x ∈ uIcc (xc - X) xc, HasDerivAt (fun x => -L * G ((xc - x) / L)) (pointLoadShape x L xc) x := by
        intro x hx
        rw [uIcc_of_le (by linarith)] at hx
        have h : HasDerivAt (fun x : ℝ => (xc - x) / L) (-1 / L) x :=
          (HasDerivAt.const_sub xc (hasDerivAt_id' x)).div_const L
        have := (HasDerivAt.comp (h₂ := G) x (Gd _) h).const_mul (-L)
        refine this.congr_deriv ?_
        rw [eq, abs_of_nonpos (by linarith [hx.2]), show -(x - xc) = xc - x by ring]
        field_simp
      rw [intervalIntegral.integral_eq_sub_of_hasDerivAt hd (ii _ _)]
      simp [hG, neg_div]
      ring
    rw [← intervalIntegral.integral_add_adjacent_intervals (ii (xc - X) xc) (ii xc (xc + X)), l, r]
    ring
  · intro x
    unfold staticPointLoadShape pointLoadShape
    rw [sub_zero]

theorem foldl_zip_sum {A : Type} (f : A → ℝ) (l : List A) (a : ℝ) :
    l.foldl (fun w p => w + f p) a = a + (l.map f).sum := by
  induction l generalizing a with
  | nil => simp
  | cons p l ih => simp [ih]; ring

/-- **C220** `multi_static`: on an evenly spaced grid including both limits, the deflection is the sum over
the loads of relative magnitude times single load shape, times the deflection under a single unit load; it
is bounded by the sum of the magnitudes, and appending loads adds their deflections.  Positions without a
magnitude (or the reverse) are dropped silently. -/
theorem C220_multi_static (xc frel : List ℝ) (wsingle : ℝ) (xlim : ℝ × ℝ) (n : ℕ) (L : ℝ) (hL : 0 < L) :
    (∃ w : ℝ → ℝ, multiStatic xc frel wsingle xlim n L
        = (linspaceN xlim.1 xlim.2 n, (linspaceN xlim.1 xlim.2 n).map w)
      ∧ (∀ x, w x = wsingle * ((xc.zip frel).map fun p => p.2 * pointLoadShape x L p.1).sum)
      ∧ ∀ x, |w x| ≤ |wsingle| * ((xc.zip frel).map fun p => |p.2|).sum)
    ∧ (2 ≤ n → ∃ y, linspaceN xlim.1 xlim.2 n = xlim.1 :: y ∧ (xlim.1 :: y).getLast? = some xlim.2) := by
  constructor
  · refine ⟨fun x => (xc.zip frel).foldl (fun w p => w + p.2 * pointLoadShape x L p.1) 0 * wsingle, rfl,
      fun x => ?_, fun x => ?_⟩
    · beta_reduce
      rw [foldl_zip_sum (fun p : ℝ × ℝ => p.2 * pointLoadShape x L p.1)]; ring
    · beta_reduce
      rw [foldl_zip_sum (fun p : ℝ × ℝ => p.2 * pointLoadShape x L p.1), zero_add, abs_mul, mul_comm]
      refine mul_le_mul_of_nonneg_left ?_ (abs_nonneg _)
      induction xc.zip frel with
      | nil => simp
      | cons p l ih =>
        simp only [List.map_cons, List.sum_cons]
        refine (abs_add_le _ _).trans (add_le_add ?_ ih)
        rw [abs_mul]
        have h1 : |pointLoadShape x L p.1| ≤ 1 := by
          by_cases hx : x = p.1
          · rw [hx, (C220_static_shape L p.1 hL).2.1]; simp
          · exact ((C220_static_shape L p.1 hL).2.2.1 x hx).le
        nlinarith [abs_nonneg p.2]
  · intro hn
    obtain ⟨m, rfl⟩ : ∃ m, n = m + 2 := ⟨n - 2, by omega⟩
    refine ⟨(linspaceN xlim.1 xlim.2 (m + 2)).tail, ?_, ?_⟩
    · unfold linspaceN
      rw [List.range_succ_eq_map]; simp
    · have e : xlim.1 :: (linspaceN xlim.1 xlim.2 (m + 2)).tail = linspaceN xlim.1 xlim.2 (m + 2) := by
        unfold linspaceN
        rw [List.range_succ_eq_map]; simp
      rw [e]
      unfold linspaceN
      rw [List.range_succ, List.map_append, List.map_singleton, List.getLast?_append_of_ne_nil _ (by simp)]
      simp
      rw [show (m : ℝ) + 2 - 1 = m + 1 by ring, mul_div_cancel₀ _ (by positivity)]
      ring

/-- Non-vacuity: two loads, one of them uplift. -/
example : (multiStatic [0, 2] [1, -1] 3 (-10, 10) 3 1).1 = [-10, 0, 10]
    ∧ pointLoadShape 2 1 2 = 1 := by
  refine ⟨?_, (C220_static_shape 1 2 one_pos).2.1⟩
  unfold multiStatic linspaceN
  norm_num [List.range_succ]

end Geotecha.Beam
