import Verif.Consol.Series
import Verif.Consol.Spec

/-!
# Properties of geotecha/consolidation/terzahi.py

C84: the pore pressures are those of Terzaghi's consolidation equation; C85: degree of consolidation and flow rate.
-/

open Real intervalIntegral Finset Filter Topology
namespace Geotecha.Consol

variable {L : Layer}

/-- Time coefficients of the pore pressure. -/
noncomputable def Layer.coef (L : Layer) (t : ℝ) (k : ℕ) : ℝ := L.ui * (2 / bigM k * exp (-bigM k ^ 2 * (L.dTv * t)))

theorem por_eq (n : ℕ) (z t : ℝ) : L.por n z t = sinSer n L.H (L.coef t) z := by
  unfold Layer.por sinSer Layer.coef; rw [mul_sum]; exact sum_congr rfl fun k _ => by ring

theorem coef_deriv (k : ℕ) (t : ℝ) : HasDerivAt (fun t => L.coef t k) (-(bigM k ^ 2 * L.dTv) * L.coef t k) t := by
  unfold Layer.coef
  have h : HasDerivAt (fun t => -bigM k ^ 2 * (L.dTv * t)) (-bigM k ^ 2 * L.dTv) t := by
    have := ((hasDerivAt_id t).const_mul L.dTv).const_mul (-bigM k ^ 2)
    exact this.congr_deriv (by simp)
  exact ((h.exp.const_mul (2 / bigM k)).const_mul L.ui).congr_deriv (by ring)

theorem por_solves (hH : L.H ≠ 0) (hm : L.mv ≠ 0) (hg : L.gamw ≠ 0) (n : ℕ) :
    Spec.Terzaghi L.kv L.mv L.gamw L.H (L.por n) (fun z t => cosSer n L.H (fun k => L.coef t k * (bigM k / L.H)) z) := by
  refine ⟨fun z t => ?_, fun t => ?_, fun t => cosSer_end n hH _, fun z t => ?_⟩
  · exact (hasDerivAt_sinSer n L.H (L.coef t) z).congr_of_eventuallyEq (Eventually.of_forall fun z => por_eq n z t)
  · rw [por_eq, sinSer_zero]
  · refine ⟨_, _, (hasDerivAt_sinSer_time n L.H z (fun k t => L.coef t k) (fun k => -(bigM k ^ 2 * L.dTv) * L.coef t k) t
      fun k _ => coef_deriv k t).congr_of_eventuallyEq (Eventually.of_forall fun t => por_eq n z t), hasDerivAt_cosSer n L.H _ z, ?_⟩
    unfold sinSer
    rw [mul_sum, mul_sum]
    refine sum_congr rfl fun k _ => ?_
    unfold Layer.dTv
    field_simp

theorem flow_eq (hH : L.H ≠ 0) (n : ℕ) (z t : ℝ) :
    L.flow n z t = L.kv / L.gamw * cosSer n L.H (fun k => L.coef t k * (bigM k / L.H)) z := by
  unfold Layer.flow cosSer Layer.coef
  rw [mul_sum, mul_sum]
  refine sum_congr rfl fun k _ => ?_
  have := bigM_ne k
  field_simp

/-- **C84**: whatever the number of terms, the tabulated pore pressures are samples of one function `u` that satisfies
Terzaghi's equation with the given properties, is zero at the top and has no gradient at depth `H`, and the tabulated flow rates are
`kv/gamw` times its gradient. -/
theorem C84_solves (L : Layer) (hH : L.H ≠ 0) (hm : L.mv ≠ 0) (hg : L.gamw ≠ 0) (n : ℕ) :
    ∃ u uz, Spec.Terzaghi L.kv L.mv L.gamw L.H u uz ∧ (∀ zs ts, (terzaghi1d zs ts L n).1 = zs.map fun z => ts.map fun t => u z t) ∧
      ∀ zs ts, terzaghi1dFlowrate zs ts L n = zs.map fun z => ts.map fun t => L.kv / L.gamw * uz z t :=
  ⟨_, _, por_solves hH hm hg n, fun _ _ => rfl, fun zs ts => by
    unfold terzaghi1dFlowrate; simp only [flow_eq hH]⟩

/-- **C84**: with more and more terms the pore pressure at time zero approaches the uniform pressure `ui` (in mean square over the
layer). -/
theorem C84_initial (L : Layer) (hH : L.H ≠ 0) :
    Tendsto (fun n => ∫ z in (0:ℝ)..L.H, (L.ui - L.por n z 0) ^ 2) atTop (𝓝 0) := by
  have hc : ∀ k, ∫ z in (0:ℝ)..L.H, (fun _ => L.ui) z * sin (bigM k * (z / L.H)) = L.H / 2 * L.coef 0 k := fun k => by
    simp only [intervalIntegral.integral_const_mul]
    rw [integral_one_sin L.H hH]
    unfold Layer.coef; simp; ring
  have e : ∀ n, ∫ z in (0:ℝ)..L.H, (L.ui - L.por n z 0) ^ 2 = L.H * L.ui ^ 2 * (1 - ∑ k ∈ range n, 2 / bigM k ^ 2) := fun n => by
    simp only [por_eq]
    rw [integral_sub_sinSer_sq n hH (L.coef 0) (fun _ => L.ui) continuous_const fun k _ => hc k]
    have : ∑ k ∈ range n, L.coef 0 k ^ 2 = L.ui ^ 2 * (2 * ∑ k ∈ range n, 2 / bigM k ^ 2) := by
      rw [mul_sum, mul_sum]
      refine sum_congr rfl fun k _ => ?_
      unfold Layer.coef; simp; ring
    rw [this]; simp; ring
  simp only [e]
  have := (tendsto_const_nhds (x := (1:ℝ))).sub hasSum_two_div_sq.tendsto_sum_nat
  simpa using this.const_mul (L.H * L.ui ^ 2)

theorem bigM_add (n j : ℕ) : bigM (n + j) = bigM n + j * π := by unfold bigM; push_cast; ring

theorem term_bound (n j : ℕ) {T : ℝ} (hT : 0 < T) :
    2 / bigM (n + j) * exp (-bigM (n + j) ^ 2 * T) ≤ 2 / bigM n * exp (-bigM n ^ 2 * T) * exp (-(2 * π * bigM n * T)) ^ j := by
  have hM := bigM_pos n
  have hj : (0:ℝ) ≤ j * π := by positivity
  have h1 : 2 / bigM (n + j) ≤ 2 / bigM n := by
    rw [bigM_add]; exact div_le_div_of_nonneg_left (by norm_num) hM (by linarith)
  have h2 : exp (-bigM (n + j) ^ 2 * T) ≤ exp (-bigM n ^ 2 * T) * exp (-(2 * π * bigM n * T)) ^ j := by
    rw [← exp_nat_mul, ← exp_add, exp_le_exp, bigM_add]
    nlinarith [mul_nonneg (sq_nonneg ((j:ℝ) * π)) hT.le]
  calc _ ≤ 2 / bigM n * (exp (-bigM n ^ 2 * T) * exp (-(2 * π * bigM n * T)) ^ j) :=
        mul_le_mul h1 h2 (exp_pos _).le (by positivity)
    _ = _ := by ring

/-- **C84**: after time zero, using more than `n` terms changes the pore pressure nowhere by more than this bound, in which `T` is the time
factor and `M = (2 n + 1) pi / 2` belongs to the first term left out. -/
theorem C84_truncation (L : Layer) (n m : ℕ) (hnm : n ≤ m) (z t : ℝ) (hT : 0 < L.dTv * t) :
    |L.por m z t - L.por n z t| ≤ |L.ui| * (2 / ((2 * n + 1) * π / 2) * exp (-((2 * n + 1) * π / 2) ^ 2 * (L.dTv * t)) /
      (1 - exp (-(2 * π * ((2 * n + 1) * π / 2) * (L.dTv * t))))) := by
  have hM : (2 * (n:ℝ) + 1) * π / 2 = bigM n := by unfold bigM; ring
  rw [hM]
  set T := L.dTv * t with hTd
  have hq : exp (-(2 * π * bigM n * T)) < 1 := by rw [exp_lt_one_iff]; have := bigM_pos n; have := pi_pos; have : 0 < 2 * π * bigM n * T := by positivity
                                                  linarith
  obtain ⟨d, rfl⟩ := Nat.exists_eq_add_of_le hnm
  have e : L.por (n + d) z t - L.por n z t =
      L.ui * ∑ j ∈ range d, 2 / bigM (n + j) * sin (bigM (n + j) * (z / L.H)) * exp (-bigM (n + j) ^ 2 * T) := by
    unfold Layer.por; rw [sum_range_add]; ring
  rw [e, abs_mul]
  refine mul_le_mul_of_nonneg_left ?_ (abs_nonneg _)
  refine (abs_sum_le_sum_abs _ _).trans ?_
  have hb : ∀ j ∈ range d, |2 / bigM (n + j) * sin (bigM (n + j) * (z / L.H)) * exp (-bigM (n + j) ^ 2 * T)| ≤
      2 / bigM n * exp (-bigM n ^ 2 * T) * exp (-(2 * π * bigM n * T)) ^ j := fun j _ => by
    refine le_trans ?_ (term_bound n j hT)
    rw [abs_mul, abs_mul, abs_of_pos (exp_pos _), abs_of_pos (div_pos two_pos (bigM_pos _))]
    have : |sin (bigM (n + j) * (z / L.H))| ≤ 1 := abs_sin_le_one _
    have h2 : 0 < 2 / bigM (n + j) := div_pos two_pos (bigM_pos _)
    have h3 := exp_pos (-bigM (n + j) ^ 2 * T)
    nlinarith [mul_pos h2 h3]
  refine (sum_le_sum hb).trans ?_
  rw [← mul_sum, mul_div_assoc]
  have h0 : 0 ≤ 2 / bigM n := (div_pos two_pos (bigM_pos _)).le
  rw [mul_assoc]
  refine mul_le_mul_of_nonneg_left ?_ h0
  rw [div_eq_mul_inv]
  refine mul_le_mul_of_nonneg_left ?_ (exp_pos _).le
  rw [← tsum_geometric_of_lt_one (exp_pos _).le hq]
  exact (summable_geometric_of_lt_one (exp_pos _).le hq).sum_le_tsum _ fun _ _ => (pow_pos (exp_pos _) _).le

/-! ## C85 -/

/-- **C85**: the degree of consolidation is one minus the mean pore pressure over `ui`. -/
theorem C85_mean (L : Layer) (hH : L.H ≠ 0) (hu : L.ui ≠ 0) (n : ℕ) (zs ts : List ℝ) :
    (terzaghi1d zs ts L n).2 = ts.map fun t => 1 - Spec.mean L.H (fun z => L.por n z t) / L.ui := by
  unfold terzaghi1d Spec.mean
  refine List.map_congr_left fun t _ => ?_
  simp only [por_eq]
  rw [integral_sinSer n hH]
  unfold Layer.doc Layer.coef
  rw [mul_div_cancel_left₀ _ hH, sum_div]
  congr 1
  exact sum_congr rfl fun k _ => by have := bigM_ne k; field_simp

theorem doc_deriv (n : ℕ) (t : ℝ) :
    HasDerivAt (L.doc n) (2 * L.dTv * ∑ k ∈ range n, exp (-bigM k ^ 2 * (L.dTv * t))) t := by
  have h : ∀ k, HasDerivAt (fun t => -bigM k ^ 2 * (L.dTv * t)) (-bigM k ^ 2 * L.dTv) t := fun k => by
    have := ((hasDerivAt_id t).const_mul L.dTv).const_mul (-bigM k ^ 2)
    exact this.congr_deriv (by simp)
  have := (HasDerivAt.fun_sum (u := range n) fun k _ => (h k).exp.const_mul (2 / bigM k ^ 2)).const_sub 1
  refine this.congr_deriv ?_
  rw [mul_sum, ← sum_neg_distrib]
  exact sum_congr rfl fun k _ => by have := bigM_ne k; field_simp

/-- **C85**: the settlement `mv H ui doc` grows at the rate at which water leaves through the top. -/
theorem C85_mass_balance (L : Layer) (hH : L.H ≠ 0) (hm : L.mv ≠ 0) (hg : L.gamw ≠ 0) (n : ℕ) (t : ℝ) :
    HasDerivAt (fun t => L.mv * L.H * L.ui * L.doc n t) (L.flow n 0 t) t := by
  refine ((doc_deriv n t).const_mul _).congr_deriv ?_
  unfold Layer.flow
  simp only [zero_div, mul_zero, cos_zero, one_mul]
  generalize ∑ k ∈ range n, exp (-bigM k ^ 2 * (L.dTv * t)) = S
  unfold Layer.dTv
  field_simp

theorem dTv_pos (hk : 0 < L.kv) (hH : L.H ≠ 0) (hm : 0 < L.mv) (hg : 0 < L.gamw) : 0 < L.dTv := by
  unfold Layer.dTv; positivity

/-- **C85**: for positive soil properties the degree of consolidation increases strictly with time, is between 0 and 1 from time
zero on, and tends to 1. -/
theorem C85_monotone (L : Layer) (hk : 0 < L.kv) (hH : L.H ≠ 0) (hm : 0 < L.mv) (hg : 0 < L.gamw) (n : ℕ) (hn : 0 < n) :
    StrictMono (L.doc n) ∧ (∀ t, 0 ≤ t → 0 < L.doc n t ∧ L.doc n t < 1) ∧ Tendsto (L.doc n) atTop (𝓝 1) := by
  have hd := dTv_pos hk hH hm hg
  have hmono : StrictMono (L.doc n) := by
    refine strictMono_of_deriv_pos fun t => ?_
    rw [(doc_deriv n t).deriv]
    have : 0 < ∑ k ∈ range n, exp (-bigM k ^ 2 * (L.dTv * t)) := sum_pos (fun _ _ => exp_pos _) ⟨0, mem_range.2 hn⟩
    positivity
  have h0 : 0 < L.doc n 0 := by
    unfold Layer.doc
    simp only [mul_zero, exp_zero, mul_one]
    have h1 : ∑ k ∈ range (n + 1), 2 / bigM k ^ 2 ≤ 1 :=
      sum_le_hasSum _ (fun k _ => (div_pos two_pos (pow_pos (bigM_pos k) 2)).le) hasSum_two_div_sq
    rw [sum_range_succ] at h1
    have := div_pos two_pos (pow_pos (bigM_pos n) 2)
    linarith
  refine ⟨hmono, fun t ht => ⟨h0.trans_le (hmono.monotone ht), ?_⟩, ?_⟩
  · unfold Layer.doc
    have : 0 < ∑ k ∈ range n, 2 / bigM k ^ 2 * exp (-bigM k ^ 2 * (L.dTv * t)) :=
      sum_pos (fun k _ => mul_pos (div_pos two_pos (pow_pos (bigM_pos k) 2)) (exp_pos _)) ⟨0, mem_range.2 hn⟩
    linarith
  · have : Tendsto (fun t => ∑ k ∈ range n, 2 / bigM k ^ 2 * exp (-bigM k ^ 2 * (L.dTv * t))) atTop (𝓝 (∑ k ∈ range n, 2 / bigM k ^ 2 * 0)) := by
      refine tendsto_finsetSum _ fun k _ => Tendsto.const_mul _ ?_
      refine tendsto_exp_atBot.comp ?_
      have e : (fun t => -bigM k ^ 2 * (L.dTv * t)) = fun t => -(bigM k ^ 2 * L.dTv) * t := by funext t; ring
      rw [e]
      exact tendsto_id.const_mul_atTop_of_neg (neg_neg_of_pos (mul_pos (pow_pos (bigM_pos k) 2) hd))
    have h2 := this.const_sub 1
    simp only [mul_zero, sum_const_zero, sub_zero] at h2
    exact h2

/-- **C85**: the degree of consolidation computed with `n` terms exceeds that with more terms by at most `2 / (pi^2 n)`, at all times from
zero on; at time zero it tends to zero. -/
theorem C85_truncation (L : Layer) (n m : ℕ) (hn : 0 < n) (hnm : n ≤ m) (t : ℝ) (ht : 0 ≤ L.dTv * t) :
    (0 ≤ L.doc n t - L.doc m t ∧ L.doc n t - L.doc m t ≤ 2 / (π ^ 2 * n)) ∧ Tendsto (fun n => L.doc n 0) atTop (𝓝 0) := by
  obtain ⟨d, rfl⟩ := Nat.exists_eq_add_of_le hnm
  have e : L.doc n t - L.doc (n + d) t = ∑ j ∈ range d, 2 / bigM (n + j) ^ 2 * exp (-bigM (n + j) ^ 2 * (L.dTv * t)) := by
    unfold Layer.doc; rw [sum_range_add]; ring
  refine ⟨⟨?_, ?_⟩, ?_⟩
  · rw [e]; exact sum_nonneg fun k _ => (mul_pos (div_pos two_pos (pow_pos (bigM_pos _) 2)) (exp_pos _)).le
  · rw [e]
    have hb : ∀ j ∈ range d, 2 / bigM (n + j) ^ 2 * exp (-bigM (n + j) ^ 2 * (L.dTv * t)) ≤
        2 / π ^ 2 * (1 / ((n + j : ℕ) : ℝ) - 1 / ((n + (j + 1) : ℕ) : ℝ)) := fun j _ => by
      have hp : 0 < 2 / bigM (n + j) ^ 2 := div_pos two_pos (pow_pos (bigM_pos _) 2)
      have h1 : exp (-bigM (n + j) ^ 2 * (L.dTv * t)) ≤ 1 := by
        rw [exp_le_one_iff]; have := sq_nonneg (bigM (n + j)); nlinarith
      have hx : (0:ℝ) < ((n + j : ℕ) : ℝ) := by exact_mod_cast (by omega : 0 < n + j)
      have h2 : 2 / bigM (n + j) ^ 2 ≤ 2 / π ^ 2 * (1 / ((n + j : ℕ) : ℝ) - 1 / ((n + (j + 1) : ℕ) : ℝ)) := by
        have e1 : bigM (n + j) ^ 2 = π ^ 2 * (((n + j : ℕ) : ℝ) + 1 / 2) ^ 2 := by unfold bigM; ring
        have e2 : ((n + (j + 1) : ℕ) : ℝ) = ((n + j : ℕ) : ℝ) + 1 := by push_cast; ring
        rw [e1, e2]
        generalize ((n + j : ℕ) : ℝ) = x at hx
        have hpi := pi_pos
        rw [← div_div]
        have : 1 / x - 1 / (x + 1) = 1 / (x * (x + 1)) := by field_simp; ring
        rw [this, ← mul_one_div (2 / π ^ 2) ((x + 1 / 2) ^ 2)]
        refine mul_le_mul_of_nonneg_left ?_ (by positivity)
        exact one_div_le_one_div_of_le (by positivity) (by nlinarith)
      nlinarith
    refine (sum_le_sum hb).trans ?_
    rw [← mul_sum, sum_range_sub' (fun j => 1 / ((n + j : ℕ) : ℝ))]
    have h3 : (0:ℝ) ≤ 1 / ((n + d : ℕ) : ℝ) := by positivity
    have h4 : (0:ℝ) < 2 / π ^ 2 := by have := pi_pos; positivity
    have h5 : 2 / (π ^ 2 * (n:ℝ)) = 2 / π ^ 2 * (1 / ((n + 0 : ℕ) : ℝ)) := by rw [add_zero, ← div_div, div_eq_mul_one_div (2 / π ^ 2)]
    rw [h5]
    exact mul_le_mul_of_nonneg_left (by linarith) h4.le
  · unfold Layer.doc
    simp only [mul_zero, exp_zero, mul_one]
    have := (tendsto_const_nhds (x := (1:ℝ))).sub hasSum_two_div_sq.tendsto_sum_nat
    simpa using this

/-- The default layer of the code meets all the hypotheses above: `H = 1`, `kv = 1`, `mv = 1/10`, `gamw = 10`, `ui = 1`; its time factor
is `t`, and with one term its mid-depth pressure is not zero. -/
example : let L : Layer := ⟨1, 1, 1/10, 10, 1⟩
    L.H ≠ 0 ∧ 0 < L.mv ∧ 0 < L.gamw ∧ 0 < L.kv ∧ L.ui ≠ 0 ∧ 0 < L.dTv * 1 ∧ L.por 1 1 0 = 4 / π := by
  have h1 : sin (bigM 0) = 1 := by rw [sin_bigM]; simp
  refine ⟨by norm_num, by norm_num, by norm_num, by norm_num, by norm_num, by norm_num [Layer.dTv], ?_⟩
  unfold Layer.por
  simp [h1]
  unfold bigM; have := pi_ne_zero; field_simp; norm_num

end Geotecha.Consol
