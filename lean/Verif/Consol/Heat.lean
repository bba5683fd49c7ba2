import Verif.Consol.TerzaghiProps

/-! # The series solution of the heat equation with a drained end, uniform initial value 1 -/

open Real intervalIntegral Finset Filter Topology
namespace Geotecha.Consol

/-- Coefficient `k` at time `t`: drainage path `H`, coefficient of consolidation `cv`. -/
noncomputable def heatC (H cv t : ℝ) (k : ℕ) : ℝ := 2 / bigM k * exp (-bigM k ^ 2 * (cv / H ^ 2 * t))
/-- The series with `n` terms. -/
noncomputable def heat (n : ℕ) (H cv a t : ℝ) : ℝ := sinSer n H (heatC H cv t) a
/-- Its gradient. -/
noncomputable def heatG (n : ℕ) (H cv a t : ℝ) : ℝ := cosSer n H (fun k => heatC H cv t k * (bigM k / H)) a
/-- Its second derivative in depth. -/
noncomputable def heatGG (n : ℕ) (H cv a t : ℝ) : ℝ := sinSer n H (fun k => -(heatC H cv t k * (bigM k / H) * (bigM k / H))) a

theorem heat_grad (n : ℕ) (H cv a t : ℝ) : HasDerivAt (fun a => heat n H cv a t) (heatG n H cv a t) a :=
  hasDerivAt_sinSer n H (heatC H cv t) a

theorem heat_grad2 (n : ℕ) (H cv a t : ℝ) : HasDerivAt (fun a => heatG n H cv a t) (heatGG n H cv a t) a :=
  hasDerivAt_cosSer n H _ a

theorem heatC_deriv (H cv : ℝ) (k : ℕ) (t : ℝ) :
    HasDerivAt (fun t => heatC H cv t k) (-(bigM k ^ 2 * (cv / H ^ 2)) * heatC H cv t k) t := by
  unfold heatC
  have h : HasDerivAt (fun t => -bigM k ^ 2 * (cv / H ^ 2 * t)) (-bigM k ^ 2 * (cv / H ^ 2)) t := by
    have := ((hasDerivAt_id t).const_mul (cv / H ^ 2)).const_mul (-bigM k ^ 2)
    exact this.congr_deriv (by simp)
  exact (h.exp.const_mul (2 / bigM k)).congr_deriv (by ring)

theorem heat_time (n : ℕ) {H : ℝ} (hH : H ≠ 0) (cv a t : ℝ) :
    HasDerivAt (fun t => heat n H cv a t) (cv * heatGG n H cv a t) t := by
  refine (hasDerivAt_sinSer_time n H a (fun k t => heatC H cv t k) _ t fun k _ => heatC_deriv H cv k t).congr_deriv ?_
  unfold heatGG sinSer
  rw [mul_sum]
  refine sum_congr rfl fun k _ => ?_
  field_simp

theorem heat_top (n : ℕ) (H cv t : ℝ) : heat n H cv 0 t = 0 := sinSer_zero n H _

theorem heatG_end (n : ℕ) {H : ℝ} (hH : H ≠ 0) (cv t : ℝ) : heatG n H cv H t = 0 := cosSer_end n hH _

theorem sin_two_bigM (k : ℕ) : sin (2 * bigM k) = 0 := by rw [sin_two_mul, cos_bigM, mul_zero]
theorem cos_two_bigM (k : ℕ) : cos (2 * bigM k) = -1 := by rw [cos_two_mul, cos_bigM]; norm_num

theorem heat_far (n : ℕ) {H : ℝ} (hH : H ≠ 0) (cv t : ℝ) : heat n H cv (2 * H) t = 0 := by
  unfold heat sinSer
  refine sum_eq_zero fun k _ => ?_
  rw [show bigM k * (2 * H / H) = 2 * bigM k by field_simp, sin_two_bigM, mul_zero]

/-- `sin x (sin x + sin 3x + ... + sin (2n-1)x) = sin² n x`. -/
theorem sum_sin_odd (n : ℕ) (x : ℝ) : sin x * ∑ k ∈ range n, sin ((2 * k + 1) * x) = sin (n * x) ^ 2 := by
  induction n with
  | zero => simp
  | succ n ih =>
    rw [sum_range_succ, mul_add, ih]
    have h1 : ((2 * n + 1 : ℝ) * x) = n * x + (n + 1) * x := by ring
    have h2 : ((n + 1 : ℕ) : ℝ) * x = n * x + x := by push_cast; ring
    have h3 : ((n : ℝ) + 1) * x = n * x + x := by ring
    rw [h1, h2, h3]
    generalize (n : ℝ) * x = y
    rw [sin_add y (y + x), sin_add y x, cos_add y x]
    nlinarith [sin_sq_add_cos_sq x, sin_sq_add_cos_sq y]

/-- Abel summation: nonnegative partial sums with decreasing nonnegative weights. -/
theorem abel_nonneg (n : ℕ) (c s : ℕ → ℝ) (hc : ∀ k, 0 ≤ c k) (hd : ∀ k, c (k + 1) ≤ c k)
    (hs : ∀ m, 0 ≤ ∑ k ∈ range m, s k) : 0 ≤ ∑ k ∈ range n, c k * s k := by
  have key : ∀ n, c n * ∑ k ∈ range n, s k ≤ ∑ k ∈ range n, c k * s k := fun n => by
    induction n with
    | zero => simp
    | succ n ih =>
      rw [sum_range_succ (fun k => c k * s k)]
      have h1 := mul_le_mul_of_nonneg_right (hd n) (hs (n + 1))
      refine h1.trans ?_
      rw [sum_range_succ, mul_add]
      linarith
  exact (mul_nonneg (hc n) (hs n)).trans (key n)

theorem heatC_nonneg (H cv t : ℝ) (k : ℕ) : 0 ≤ heatC H cv t k :=
  mul_nonneg (div_nonneg zero_le_two (bigM_pos k).le) (exp_pos _).le

theorem bigM_mono {i j : ℕ} (h : i ≤ j) : bigM i ≤ bigM j := by
  have : (i:ℝ) ≤ j := by exact_mod_cast h
  unfold bigM; have := pi_pos; nlinarith

theorem heatC_anti {H cv t : ℝ} (h : 0 ≤ cv / H ^ 2 * t) (k : ℕ) : heatC H cv t (k + 1) ≤ heatC H cv t k := by
  unfold heatC
  have hm := bigM_mono (Nat.le_succ k)
  have h0 := bigM_pos k
  refine mul_le_mul (div_le_div_of_nonneg_left zero_le_two h0 hm) (exp_le_exp.2 ?_) (exp_pos _).le
    (div_nonneg zero_le_two h0.le)
  have : bigM k ^ 2 ≤ bigM (k + 1) ^ 2 := by gcongr
  nlinarith

/-- Truncated anywhere, the series is nonnegative between the two drained faces of the mirrored layer. -/
theorem heat_nonneg (n : ℕ) {H cv a t : ℝ} (hH : 0 < H) (h : 0 ≤ cv / H ^ 2 * t) (ha : 0 ≤ a) (ha2 : a ≤ 2 * H) :
    0 ≤ heat n H cv a t := by
  unfold heat sinSer
  refine abel_nonneg n _ _ (heatC_nonneg H cv t) (heatC_anti h) fun m => ?_
  have e : ∀ k : ℕ, sin (bigM k * (a / H)) = sin ((2 * k + 1) * (π / 2 * (a / H))) := fun k => by
    congr 1; unfold bigM; ring
  simp only [e]
  set x := π / 2 * (a / H)
  have hx0 : 0 ≤ x := by positivity
  have hxp : x ≤ π := by
    have : a / H ≤ 2 := by rw [div_le_iff₀ hH]; linarith
    have := pi_pos
    simp only [x]; nlinarith
  have h1 := sum_sin_odd m x
  rcases eq_or_lt_of_le (sin_nonneg_of_nonneg_of_le_pi hx0 hxp) with h2 | h2
  · have hz : ∀ k : ℕ, sin ((2 * k + 1) * x) = 0 := fun k => by
      obtain ⟨j, hj⟩ := sin_eq_zero_iff.1 h2.symm
      rw [← hj]
      have := sin_int_mul_pi ((2 * k + 1) * j)
      push_cast at this
      rw [← mul_assoc]; exact this
    simp [hz]
  · by_contra hn
    push Not at hn
    nlinarith [sq_nonneg (sin (m * x)), mul_neg_of_pos_of_neg h2 hn]

theorem heat_integral_grad (n : ℕ) {H : ℝ} (hH : H ≠ 0) (cv t a b : ℝ) :
    ∫ x in a..b, heat n H cv x t = H * (∑ k ∈ range n, heatC H cv t k / bigM k * cos (bigM k * (a / H))
      - ∑ k ∈ range n, heatC H cv t k / bigM k * cos (bigM k * (b / H))) := by
  have hF : ∀ z ∈ Set.uIcc a b, HasDerivAt (cosSer n H (fun k => -(heatC H cv t k * (H / bigM k)))) (heat n H cv z t) z := fun z _ => by
    refine (hasDerivAt_cosSer n H _ z).congr_deriv ?_
    unfold heat sinSer
    refine sum_congr rfl fun k _ => ?_
    have := bigM_ne k
    field_simp
  rw [integral_eq_sub_of_hasDerivAt hF ((continuous_sinSer n H _).intervalIntegrable _ _)]
  unfold cosSer
  rw [mul_sub, mul_sum, mul_sum, ← sum_sub_distrib, ← sum_sub_distrib]
  exact sum_congr rfl fun k _ => by ring

theorem heatC_le {H cv t : ℝ} (h : 0 ≤ cv / H ^ 2 * t) (k : ℕ) :
    heatC H cv t k ≤ 2 / bigM k * exp (-bigM 0 ^ 2 * (cv / H ^ 2 * t)) := by
  unfold heatC
  refine mul_le_mul_of_nonneg_left (exp_le_exp.2 ?_) (div_nonneg zero_le_two (bigM_pos k).le)
  have : bigM 0 ^ 2 ≤ bigM k ^ 2 := by have := bigM_pos 0; gcongr; exact bigM_mono (Nat.zero_le k)
  nlinarith

theorem tendsto_heatC {H cv : ℝ} (h : 0 < cv / H ^ 2) (k : ℕ) : Tendsto (fun t => heatC H cv t k) atTop (𝓝 0) := by
  unfold heatC
  have h1 : Tendsto (fun t : ℝ => -bigM k ^ 2 * (cv / H ^ 2 * t)) atTop atBot := by
    have : Tendsto (fun t : ℝ => (bigM k ^ 2 * (cv / H ^ 2)) * t) atTop atTop :=
      tendsto_id.const_mul_atTop (mul_pos (pow_pos (bigM_pos k) 2) h)
    refine (tendsto_neg_atTop_atBot.comp this).congr fun t => ?_
    simp only [Function.comp_apply]; ring
  have := (tendsto_exp_atBot.comp h1).const_mul (2 / bigM k)
  simpa using this

theorem tendsto_heat (n : ℕ) {H cv : ℝ} (h : 0 < cv / H ^ 2) (a : ℝ) : Tendsto (fun t => heat n H cv a t) atTop (𝓝 0) := by
  unfold heat sinSer
  have := tendsto_finsetSum (range n) fun k _ => (tendsto_heatC h k).mul_const (sin (bigM k * (a / H)))
  simpa using this

/-- **C84**: truncated after any number of terms, the pore pressure of Terzaghi's layer is nowhere of the opposite sign to `ui`. -/
theorem C84_nonneg (L : Layer) (hH : 0 < L.H) (hu : 0 ≤ L.ui) (n : ℕ) (z t : ℝ) (hT : 0 ≤ L.dTv * t) (hz : 0 ≤ z) (hz2 : z ≤ L.H) :
    0 ≤ L.por n z t := by
  have e : L.por n z t = L.ui * heat n L.H (L.kv / L.mv / L.gamw) z t := by
    unfold Layer.por heat sinSer heatC Layer.dTv
    congr 1
    refine sum_congr rfl fun k _ => ?_
    rw [show L.kv / L.H ^ 2 / L.mv / L.gamw = L.kv / L.mv / L.gamw / L.H ^ 2 by ring]
    ring
  rw [e]
  refine mul_nonneg hu (heat_nonneg n hH ?_ hz (by linarith))
  rw [show L.kv / L.mv / L.gamw / L.H ^ 2 = L.dTv by unfold Layer.dTv; ring]
  exact hT

example (n : ℕ) : 0 ≤ (⟨2, 1, 1, 10, 5⟩ : Layer).por n 1 3 :=
  C84_nonneg _ (by norm_num) (by norm_num) n 1 3 (by norm_num [Layer.dTv]) (by norm_num) (by norm_num)

end Geotecha.Consol
