import Verif.Smear.LemmasU

/-! # C71: the pore pressure functions -/

set_option linter.unusedVariables false
namespace Geotecha.Smear
open MeasureTheory intervalIntegral Set Real Geotecha.Piecewise

theorem mu_pos {n : ℝ} (hn : 1 < n) {κ : ℝ → ℝ} (h : IsProfile n κ) (c : ℝ) (hc : 0 < c) (hle : ∀ x, 1 ≤ x → x < n → c ≤ κ x) : 0 < muSpec n κ := by
  have e := muSpec_mono hn (isProfile_const n c) h hle
  have e2 : muSpec n (fun _ => c) = c * muSpec n (fun _ => 1) := by
    have := muSpec_smul n c (fun _ => 1)
    simpa using this
  have e3 : 0 < muSpec n (fun _ => 1) := by
    rw [muSpec_eq hn (isProfile_const n 1)]
    obtain ⟨h0, h1⟩ := hn0 hn
    apply mul_pos (div_pos (by positivity) (by nlinarith))
    simp only [one_mul]
    apply intervalIntegral.intervalIntegral_pos_of_pos_on
    · exact (weight_cont n one_pos (by linarith)).intervalIntegrable
    · intro x hx
      unfold weight
      have hx0 : 0 < x := by linarith [hx.1]
      have : x ^ 2 / n ^ 2 < 1 := by rw [div_lt_one (by positivity)]; nlinarith [hx.1, hx.2]
      have : 0 < 1 - x ^ 2 / n ^ 2 := by linarith
      positivity
    · exact hn
  rw [e2] at e
  exact lt_of_lt_of_le (by positivity) e

theorem const_one_pressure {n r : ℝ} (hn : 1 < n) (hr : 1 ≤ r) : pressure n (fun _ => 1) r = log r - 1 / (2 * n ^ 2) * (r ^ 2 - 1) := by
  obtain ⟨h0, h1⟩ := hn0 hn
  unfold pressure
  rw [int_const_flux h0 one_pos hr]
  unfold G1
  rw [log_one]
  field_simp
  ring

/-- **C71** `u_ideal`. -/
theorem C71_ideal (n uavg uw muw : ℝ) (hn : 1 < n) (hw : 0 ≤ muw) :
    ∃ u : ℝ → ℝ, (∀ r, 1 ≤ r → r ≤ n → uIdeal n r uavg uw muw = .ok (u r)) ∧ IsPorePressure n (fun _ => 1) uavg uw muw u := by
  have hp := mu_pos hn (isProfile_const n 1) 1 one_pos (fun _ _ _ => le_rfl)
  refine ⟨fun r => uForm (muSpec n fun _ => 1) uavg uw muw (pressure n (fun _ => 1) r), ?_, ?_⟩
  · intro r h1 h2
    unfold uIdeal
    rw [if_neg (not_le.2 hn), if_neg (by push Not; exact ⟨h1, h2⟩), (C69_ideal n).1 hn]
    simp only [Except.map]
    rw [const_one_pressure hn h1]
  · exact uForm_ok hn (isProfile_const n 1) uavg uw muw (by linarith) _ (fun r _ _ => rfl)

/-- Every function of this family refuses radii outside `[1, n]` and bad parameters. -/
theorem C71_refused (n s kap x uavg uw muw : ℝ) (h : n ≤ 1 ∨ s < 1 ∨ kap ≤ 0 ∨ n < s ∨ x < 1 ∨ n < x) :
    uConstant n s kap x uavg uw muw = .error .valueError ∧ uLinear n s kap x uavg uw muw = .error .valueError ∧
    uParabolic n s kap x uavg uw muw = .error .valueError := by
  have : BadArgs false n s kap ∨ (x < 1 ∨ n < x) := by unfold BadArgs; simp; tauto
  unfold uConstant uLinear uParabolic
  rcases this with h | h
  · simp only [if_pos h, and_self]
  · by_cases hb : BadArgs false n s kap
    · simp only [if_pos hb, and_self]
    · simp only [if_neg hb, if_pos h, and_self]

theorem constant_in {n s kap r : ℝ} (hn : 1 < n) (hr : 1 ≤ r) (hrs : r ≤ s) : pressure n (constantSmear s kap) r = uConstantIn n kap r := by
  obtain ⟨h0, _⟩ := hn0 hn
  rw [pressure_in (κ₁ := fun _ => kap) (fun x _ hx => by unfold constantSmear; rw [if_pos hx]) hr hrs, int_const_flux h0 one_pos hr]
  unfold uConstantIn G1
  rw [log_one]; field_simp; ring

theorem constant_out {n s kap r : ℝ} (hn : 1 < n) (hs : 1 ≤ s) (hsr : s ≤ r) (hrn : r ≤ n) : pressure n (constantSmear s kap) r = uConstantOut n s kap r := by
  obtain ⟨h0, _⟩ := hn0 hn
  rw [pressure_out (κ₁ := fun _ => kap) hs hsr hrn (isProfile_constant hs (by linarith)) (fun x _ hx => by unfold constantSmear; rw [if_pos hx])
    (fun x hx _ => by unfold constantSmear; rw [if_neg (not_lt.2 hx)]), int_const_flux h0 one_pos hs, int_flux h0 (by linarith) hsr]
  unfold uConstantOut G1
  rw [log_one, log_div (by linarith) (by linarith)]; field_simp; ring

theorem pressure_one_congr {n r : ℝ} (hn : 1 < n) {κ : ℝ → ℝ} (h : ∀ x, 1 ≤ x → x < n → κ x = 1) (h1 : 1 ≤ r) (h2 : r ≤ n) :
    pressure n κ r = pressure n (fun _ => 1) r := pressure_congr h h1 h2

theorem porePressure_congr {n uavg uw muw : ℝ} (hn : 1 < n) {κ κ' : ℝ → ℝ} {u : ℝ → ℝ} (h : ∀ x, 1 ≤ x → x < n → κ x = κ' x)
    (hu : IsPorePressure n κ' uavg uw muw u) : IsPorePressure n κ uavg uw muw u := by
  obtain ⟨a, b, q, c, d⟩ := hu
  exact ⟨a, b, q, c, fun r h1 h2 => by rw [d r h1 h2, pressure_congr h h1 h2]⟩

/-- **C71** `u_constant`. -/
theorem C71_constant (n s kap uavg uw muw : ℝ) (hn : 1 < n) (hs : 1 ≤ s) (hsn : s ≤ n) (hk : 0 < kap) (hw : 0 ≤ muw) (c1 : Sharp s 1) (c2 : Sharp kap 1) :
    ∃ u : ℝ → ℝ, (∀ r, 1 ≤ r → r ≤ n → uConstant n s kap r uavg uw muw = .ok (u r)) ∧ IsPorePressure n (constantSmear s kap) uavg uw muw u := by
  have hb : ¬ BadArgs false n s kap := by unfold BadArgs; simp; exact ⟨hn, hs, hk, hsn⟩
  by_cases hi : isclose s 1 ∨ isclose kap 1
  · obtain ⟨u, h1, h2⟩ := C71_ideal n uavg uw muw hn hw
    refine ⟨u, fun r a b => ?_, porePressure_congr hn ?_ h2⟩
    · unfold uConstant
      rw [if_neg hb, if_neg (by push Not; exact ⟨a, b⟩), if_pos hi, h1 r a b]
    · intro x hx _
      rcases hi with h | h
      · unfold constantSmear; rw [c1 h, if_neg (not_lt.2 hx)]
      · rw [c2 h, constantSmear_one]
  have hp := mu_pos hn (isProfile_constant (kap := kap) hs hsn) (min 1 kap) (lt_min one_pos hk) (fun x _ _ => by
    unfold constantSmear; split_ifs <;> simp)
  refine ⟨fun r => uForm (muSpec n (constantSmear s kap)) uavg uw muw (pressure n (constantSmear s kap) r), ?_, ?_⟩
  · intro r a b
    unfold uConstant
    rw [if_neg hb, if_neg (by push Not; exact ⟨a, b⟩), if_neg hi, C69_constant n s kap hn hs hsn hk]
    simp only [Except.map]
    split_ifs with h
    · rw [constant_in hn a h.le]
    · rw [constant_out hn hs (not_lt.1 h) b]
  · exact uForm_ok hn (isProfile_constant hs hsn) uavg uw muw (by linarith) _ (fun r _ _ => rfl)

theorem linear_in {n s kap r : ℝ} (hn : 1 < n) (hs : 1 < s) (hk : 0 < kap) (hk1 : kap ≠ 1) (c3 : Sharp s kap) (hr : 1 ≤ r) (hrs : r ≤ s) :
    pressure n (linearSmear s kap) r = uLinearIn n s kap r := by
  obtain ⟨h0, _⟩ := hn0 hn
  have hr0 : r ≠ 0 := by linarith
  unfold uLinearIn
  split_ifs with h
  · have e := c3 h
    subst e
    rw [pressure_in (κ₁ := fun x => s / x) (fun x h1 h2 => linearSmear_self hs h1 h2) hr hrs, int_inv_flux h0 one_pos hr]
    unfold G2
    field_simp; ring
  · have hsk : s ≠ kap := fun e => h (by rw [e]; exact isclose_refl _)
    have hs1 : s - 1 ≠ 0 := by linarith
    have hA : (kap - 1) / (s - 1) ≠ 0 := div_ne_zero (sub_ne_zero.2 hk1) hs1
    have hB : (s - kap) / (s - 1) ≠ 0 := div_ne_zero (sub_ne_zero.2 hsk) hs1
    rw [pressure_in (κ₁ := fun x => kap / ((kap - 1) / (s - 1) * x + (s - kap) / (s - 1))) (fun x h1 h2 => linearSmear_eq hs hk h1 h2) hr hrs,
      int_lin_flux h0 one_pos hr hA hB (fun x hx => lin_pos hs hk hx.1 (le_trans hx.2 hrs))]
    unfold G3
    have e2 : (kap - 1) / (s - 1) * 1 + (s - kap) / (s - 1) = 1 := by field_simp; ring
    rw [e2]
    simp only [log_one]
    have eB : (s - kap) / (s - 1) = 1 - (kap - 1) / (s - 1) := by field_simp; ring
    generalize log ((kap - 1) / (s - 1) * r + (s - kap) / (s - 1)) = L
    rw [eB] at hB ⊢
    generalize (kap - 1) / (s - 1) = A at *
    field_simp
    ring

theorem linear_out {n s kap r : ℝ} (hn : 1 < n) (hs : 1 < s) (hk : 0 < kap) (hk1 : kap ≠ 1) (c3 : Sharp s kap) (hsr : s ≤ r) (hrn : r ≤ n) :
    pressure n (linearSmear s kap) r = uLinearOut n s kap r := by
  obtain ⟨h0, _⟩ := hn0 hn
  have hs0 : s ≠ 0 := by linarith
  have e : pressure n (linearSmear s kap) r = pressure n (linearSmear s kap) s + (G1 n r - G1 n s) := by
    rw [pressure_out (κ₁ := linearSmear s kap) hs.le hsr hrn (isProfile_linear hs.le (by linarith) hk) (fun _ _ _ => rfl)
      (fun x hx _ => by unfold linearSmear; rw [if_neg (not_lt.2 hx)]), int_flux h0 (by linarith) hsr]
    rfl
  rw [e, linear_in hn hs hk hk1 c3 hs.le le_rfl]
  unfold uLinearIn uLinearOut G1
  have hs1 : s - 1 ≠ 0 := by linarith
  have e1 : (kap - 1) / (s - 1) * s + (s - kap) / (s - 1) = kap := by field_simp; ring
  rw [log_div (by linarith) hs0]
  split_ifs with h
  · field_simp; ring
  · dsimp only
    rw [e1, log_div hs0 hk.ne']
    ring

/-- **C71** `u_linear` (for `s = n` it raises the error of `mu_linear`). -/
theorem C71_linear (n s kap uavg uw muw : ℝ) (hs : 1 ≤ s) (hsn : s < n) (hk : 0 < kap) (hw : 0 ≤ muw) (c1 : Sharp s 1) (c2 : Sharp kap 1) (c3 : Sharp s kap) :
    ∃ u : ℝ → ℝ, (∀ r, 1 ≤ r → r ≤ n → uLinear n s kap r uavg uw muw = .ok (u r)) ∧ IsPorePressure n (linearSmear s kap) uavg uw muw u := by
  have hn : 1 < n := by linarith
  have hb : ¬ BadArgs false n s kap := by unfold BadArgs; simp; exact ⟨hn, hs, hk, hsn.le⟩
  by_cases hi : isclose s 1 ∨ isclose kap 1
  · obtain ⟨u, h1, h2⟩ := C71_ideal n uavg uw muw hn hw
    refine ⟨u, fun r a b => ?_, porePressure_congr hn ?_ h2⟩
    · unfold uLinear
      rw [if_neg hb, if_neg (by push Not; exact ⟨a, b⟩), if_pos hi, h1 r a b]
    · intro x hx _
      rcases hi with h | h
      · rw [c1 h, linearSmear_one_left hx]
      · rw [c2 h, linearSmear_one_right]
  have e1 : s ≠ 1 := fun e => hi (Or.inl (by rw [e]; exact isclose_refl _))
  have e2 : kap ≠ 1 := fun e => hi (Or.inr (by rw [e]; exact isclose_refl _))
  have hs1 : 1 < s := lt_of_le_of_ne hs (Ne.symm e1)
  have hp := mu_pos hn (isProfile_linear hs hsn.le hk) (min 1 kap) (lt_min one_pos hk) (fun x h1 _ => by
    by_cases h : x < s
    · rw [linearSmear_eq hs1 hk h1 h, le_div_iff₀ (lin_pos hs1 hk h1 h.le)]
      have hA : (kap - 1) / (s - 1) * x + (s - kap) / (s - 1) ≤ max 1 kap := by
        have hd : 0 < s - 1 := by linarith
        rw [show (kap - 1) / (s - 1) * x + (s - kap) / (s - 1) = ((kap - 1) * x + (s - kap)) / (s - 1) by field_simp, div_le_iff₀ hd]
        rcases le_total 1 kap with h2 | h2
        · rw [max_eq_right h2]; nlinarith
        · rw [max_eq_left h2]; nlinarith
      have : min 1 kap * max 1 kap = kap := by rw [min_mul_max, one_mul]
      calc min 1 kap * _ ≤ min 1 kap * max 1 kap := mul_le_mul_of_nonneg_left hA (le_min zero_le_one hk.le)
        _ = kap := this
    · unfold linearSmear; rw [if_neg h]; exact min_le_left _ _)
  refine ⟨fun r => uForm (muSpec n (linearSmear s kap)) uavg uw muw (pressure n (linearSmear s kap) r), ?_, ?_⟩
  · intro r a b
    unfold uLinear
    rw [if_neg hb, if_neg (by push Not; exact ⟨a, b⟩), if_neg hi, C69_linear n s kap hs hsn hk c1 c2 c3]
    simp only [Except.map]
    split_ifs with h
    · rw [linear_in hn hs1 hk e2 c3 a h.le]
    · rw [linear_out hn hs1 hk e2 c3 (not_lt.1 h) b]
  · exact uForm_ok hn (isProfile_linear hs hsn.le hk) uavg uw muw (by linarith) _ (fun r _ _ => rfl)

theorem parabolic_in {n s kap r : ℝ} (hn : 1 < n) (hs : 1 < s) (hk : 1 < kap) (hne : kap / (kap - 1) ≠ (s / (s - 1)) ^ 2) (hr : 1 ≤ r) (hrs : r ≤ s) :
    pressure n (parabolicSmear s kap) r = uParabolicIn n s kap r := by
  obtain ⟨h0, _⟩ := hn0 hn
  have hr0 : r ≠ 0 := by linarith
  obtain ⟨A, B, hA, hB, eA, eB, eC, ek, es⟩ := par_data hs hk
  have hk1 : 0 < kap - 1 := by linarith
  have hA2 : A ^ 2 = kap / (kap - 1) := by rw [← eA, sq_sqrt (by positivity)]
  have hAB : A ^ 2 - B ^ 2 ≠ 0 := by rw [hA2, ← eB]; exact sub_ne_zero.2 hne
  have hBA : B - A ≠ 0 := fun e => hAB (by nlinarith)
  have hB1 : B - 1 ≠ 0 := by linarith
  have hp : ∀ x ∈ Icc 1 r, 0 < A - B + (B - 1) * x := fun x hx => (par_pos hA hB hx.1 (es ▸ le_trans hx.2 hrs)).1
  have hq : ∀ x ∈ Icc 1 r, 0 < A + B - (B - 1) * x := fun x hx => (par_pos hA hB hx.1 (es ▸ le_trans hx.2 hrs)).2
  rw [pressure_in (κ₁ := fun x => A ^ 2 / ((A - B + (B - 1) * x) * (A + B - (B - 1) * x)))
    (fun x _ h2 => parabolicSmear_eq hA hB ek es h2) hr hrs, int_par_flux h0 one_pos hr (by linarith) hB1 hBA (by linarith) hp hq]
  unfold uParabolicIn G4
  have a1 : A + 1 ≠ 0 := by linarith
  have a2 : A - 1 ≠ 0 := by linarith
  have a0 : A ≠ 0 := by linarith
  have ab : A + B ≠ 0 := by linarith
  have p0 := (hp r ⟨hr, le_rfl⟩).ne'
  have q0 := (hq r ⟨hr, le_rfl⟩).ne'
  rw [eA, eB, eC, ← hA2]
  simp only [log_one, log_div q0 a1, log_div p0 a2, show A - B + (B - 1) * 1 = A - 1 by ring, show A + B - (B - 1) * 1 = A + 1 by ring]
  generalize log (A - B + (B - 1) * r) = L1
  generalize log (A + B - (B - 1) * r) = L2
  generalize log (A - 1) = L3
  generalize log (A + 1) = L4
  have hd : A ^ 2 - B ^ 2 = -((B - A) * (A + B)) := by ring
  rw [hd]
  field_simp
  ring

theorem parabolic_out {n s kap r : ℝ} (hn : 1 < n) (hs : 1 < s) (hk : 1 < kap) (hne : kap / (kap - 1) ≠ (s / (s - 1)) ^ 2) (hsr : s ≤ r) (hrn : r ≤ n) :
    pressure n (parabolicSmear s kap) r = uParabolicOut n s kap r := by
  obtain ⟨h0, _⟩ := hn0 hn
  have hs0 : s ≠ 0 := by linarith
  have e : pressure n (parabolicSmear s kap) r = pressure n (parabolicSmear s kap) s + (G1 n r - G1 n s) := by
    rw [pressure_out (κ₁ := parabolicSmear s kap) hs.le hsr hrn (isProfile_parabolic hs.le (by linarith) (by linarith)) (fun _ _ _ => rfl)
      (fun x hx _ => by unfold parabolicSmear; rw [if_neg (not_lt.2 hx)]), int_flux h0 (by linarith) hsr]
    rfl
  rw [e, parabolic_in hn hs hk hne hs.le le_rfl]
  obtain ⟨A, B, hA, hB, eA, eB, eC, ek, es⟩ := par_data hs hk
  have hk1 : 0 < kap - 1 := by linarith
  have hA2 : A ^ 2 = kap / (kap - 1) := by rw [← eA, sq_sqrt (by positivity)]
  have hAB : A ^ 2 - B ^ 2 ≠ 0 := by rw [hA2, ← eB]; exact sub_ne_zero.2 hne
  have a1 : A + 1 ≠ 0 := by linarith
  have a2 : A - 1 ≠ 0 := by linarith
  have a0 : A ≠ 0 := by linarith
  have hB1 : B - 1 ≠ 0 := by linarith
  have e1 : (B - 1) * s = B := by rw [es]; field_simp
  have lk : log kap = 2 * log A - log (A - 1) - log (A + 1) := by rw [ek, log_kap hA]
  unfold uParabolicIn uParabolicOut G1
  rw [eA, eB, eC, ← hA2]
  simp only [e1, show A - B + B = A by ring, show A + B - B = A by ring, log_div a0 a1, log_div a0 a2, log_div a1 a2, lk,
    log_div (show r ≠ 0 by linarith) hs0]
  generalize log s = L1
  generalize log r = L2
  generalize log (A - 1) = L3
  generalize log (A + 1) = L4
  generalize log A = L5
  generalize A ^ 2 - B ^ 2 = D at *
  field_simp
  ring

/-- **C71** `u_parabolic`. -/
theorem C71_parabolic (n s kap uavg uw muw : ℝ) (hn : 1 < n) (hs : 1 ≤ s) (hsn : s ≤ n) (hk : 1 ≤ kap) (hne : kap / (kap - 1) ≠ (s / (s - 1)) ^ 2)
    (hw : 0 ≤ muw) (c1 : Sharp s 1) (c2 : Sharp kap 1) :
    ∃ u : ℝ → ℝ, (∀ r, 1 ≤ r → r ≤ n → uParabolic n s kap r uavg uw muw = .ok (u r)) ∧ IsPorePressure n (parabolicSmear s kap) uavg uw muw u := by
  have hk0 : 0 < kap := by linarith
  have hb : ¬ BadArgs false n s kap := by unfold BadArgs; simp; exact ⟨hn, hs, hk0, hsn⟩
  by_cases hi : isclose s 1 ∨ isclose kap 1
  · obtain ⟨u, h1, h2⟩ := C71_ideal n uavg uw muw hn hw
    refine ⟨u, fun r a b => ?_, porePressure_congr hn ?_ h2⟩
    · unfold uParabolic
      rw [if_neg hb, if_neg (by push Not; exact ⟨a, b⟩), if_pos hi, h1 r a b]
    · intro x hx _
      rcases hi with h | h
      · unfold parabolicSmear; rw [c1 h, if_neg (not_lt.2 hx)]
      · unfold parabolicSmear; rw [c2 h]; simp
  have e1 : s ≠ 1 := fun e => hi (Or.inl (by rw [e]; exact isclose_refl _))
  have e2 : kap ≠ 1 := fun e => hi (Or.inr (by rw [e]; exact isclose_refl _))
  have hs1 : 1 < s := lt_of_le_of_ne hs (Ne.symm e1)
  have hk1 : 1 < kap := lt_of_le_of_ne hk (Ne.symm e2)
  have hp := mu_pos hn (isProfile_parabolic hs hsn hk0) 1 one_pos (fun x h1 _ => by
    by_cases h : x < s
    · obtain ⟨t, t0, t1, e, p⟩ := par_bounds hk0 h1 h
      rw [e, le_div_iff₀ p]
      have : 0 ≤ 1 - 1 / kap := by rw [sub_nonneg, div_le_one hk0]; exact hk
      have := mul_nonneg this t0
      linarith
    · unfold parabolicSmear; rw [if_neg h])
  refine ⟨fun r => uForm (muSpec n (parabolicSmear s kap)) uavg uw muw (pressure n (parabolicSmear s kap) r), ?_, ?_⟩
  · intro r a b
    unfold uParabolic
    obtain ⟨v, hv, _, hx⟩ := C69_parabolic n s kap hn hs hsn hk hne
    rw [if_neg hb, if_neg (by push Not; exact ⟨a, b⟩), if_neg hi, hv, hx c1 c2]
    simp only [Except.map]
    split_ifs with h
    · rw [parabolic_in hn hs1 hk1 hne a h.le]
    · rw [parabolic_out hn hs1 hk1 hne (not_lt.1 h) b]
  · exact uForm_ok hn (isProfile_parabolic hs hsn hk0) uavg uw muw (by linarith) _ (fun r _ _ => rfl)

/-! ## Piecewise profiles -/

theorem cB_eq {n : ℝ} (hn : n ≠ 0) {z : CZone} (hz : 0 < z.lo) (hz' : z.lo ≤ z.hi) : cB n z = ∫ x in z.lo..z.hi, z.kap * (1 / x - x / n ^ 2) := by
  rw [int_const_flux hn hz hz']
  unfold cB G1
  rw [log_div (lt_of_lt_of_le hz hz').ne' hz.ne']
  field_simp
  ring

theorem flux_split {a b c n : ℝ} {ps : List Piece} {p : Piece} (ha : 0 < a) (ht : Tiles a n (p :: ps)) (h1 : p.hi ≤ c) (h2 : c ≤ n) :
    ∫ x in a..c, profile (p :: ps) x * (1 / x - x / n ^ 2) = (∫ x in p.lo..p.hi, p.κ x * (1 / x - x / n ^ 2)) + ∫ x in p.hi..c, profile ps x * (1 / x - x / n ^ 2) := by
  have hint := profile_int ht
  obtain ⟨t1, t2, t3, t4⟩ := ht
  have hle := tiles_le t4
  have i1 : IntervalIntegrable (fun x => profile (p :: ps) x * (1 / x - x / n ^ 2)) volume a p.hi := by
    refine (hint.mono_set ?_).mul_continuousOn (flux_cont n ha (lt_of_lt_of_le ha t2))
    rw [uIcc_of_le t2, uIcc_of_le (le_trans t2 hle)]; exact Icc_subset_Icc le_rfl hle
  have i2 : IntervalIntegrable (fun x => profile (p :: ps) x * (1 / x - x / n ^ 2)) volume p.hi c := by
    refine (hint.mono_set ?_).mul_continuousOn (flux_cont n (lt_of_lt_of_le ha t2) (lt_of_lt_of_le ha (le_trans t2 h1)))
    rw [uIcc_of_le h1, uIcc_of_le (le_trans t2 hle)]; exact Icc_subset_Icc t2 h2
  rw [← integral_add_adjacent_intervals i1 i2, intervalIntegral.integral_congr_ae (profile_congr t2 le_rfl), intervalIntegral.integral_congr_ae (profile_tail_congr h1 le_rfl), t1]

theorem flux_first {a c n : ℝ} {ps : List Piece} {p : Piece} (h1 : a ≤ c) (h2 : c ≤ p.hi) :
    ∫ x in a..c, profile (p :: ps) x * (1 / x - x / n ^ 2) = ∫ x in a..c, p.κ x * (1 / x - x / n ^ 2) :=
  intervalIntegral.integral_congr_ae (profile_congr h1 h2)

theorem uStep_eq {n a r : ℝ} (hn : n ≠ 0) (done todo : List CZone) (ha : 0 < a) (ht : Tiles a n (todo.map cPiece)) (hk : ∀ z ∈ todo, z.kap ≠ 0)
    (har : a ≤ r) (hrn : r ≤ n) (hne : todo ≠ []) :
    uStep n r done todo = some ((done.map (cB n)).sum + ∫ x in a..r, profile (todo.map cPiece) x * (1 / x - x / n ^ 2)) := by
  induction todo generalizing done a with
  | nil => exact absurd rfl hne
  | cons z zs ih =>
    have ht0 := ht
    obtain ⟨t1, t2, _, t4⟩ := ht
    have t1 : z.lo = a := t1
    have t2 : a ≤ z.hi := t2
    rw [uStep]
    split_ifs with h
    · dsimp only
      congr 1
      rw [List.map_cons, flux_first har (p := cPiece z) h]
      change _ = _ + ∫ x in a..r, z.kap * (1 / x - x / n ^ 2)
      rw [int_const_flux hn ha har, t1]
      unfold G1
      rw [log_div (lt_of_lt_of_le ha har).ne' ha.ne']
      have := hk z (by simp)
      field_simp
      ring
    · push Not at h
      have hzs : zs ≠ [] := by
        rintro rfl
        have : z.hi = n := t4
        linarith
      rw [ih (a := z.hi) _ (lt_of_lt_of_le ha t2) t4 (fun y hy => hk y (by simp [hy])) h.le hzs]
      congr 1
      rw [List.map_cons, flux_split (b := 0) ha ht0 (p := cPiece z) h.le hrn]
      simp only [List.map_append, List.sum_append, List.map_cons, List.map_nil, List.sum_cons, List.sum_nil, add_zero]
      rw [cB_eq hn (by rw [t1]; exact ha) (by rw [t1]; exact t2)]
      simp only [cPiece]
      ring

theorem min_pos_list (ks : List ℝ) (h : ∀ k ∈ ks, 0 < k) : ∃ c, 0 < c ∧ c ≤ 1 ∧ ∀ k ∈ ks, c ≤ k := by
  induction ks with
  | nil => exact ⟨1, one_pos, le_rfl, by simp⟩
  | cons k ks ih =>
    obtain ⟨c, c0, c1, hc⟩ := ih (fun x hx => h x (by simp [hx]))
    refine ⟨min c k, lt_min c0 (h k (by simp)), le_trans (min_le_left _ _) c1, ?_⟩
    intro x hx
    rcases List.mem_cons.1 hx with rfl | hx
    · exact min_le_right _ _
    · exact le_trans (min_le_left _ _) (hc x hx)

theorem stepRatio_ge {c : ℝ} (hc : c ≤ 1) (s kap : List ℝ) (h : ∀ k ∈ kap, c ≤ k) (x : ℝ) : c ≤ stepRatio s kap x := by
  induction s generalizing kap with
  | nil => cases kap <;> simpa [stepRatio] using hc
  | cons b s ih =>
    cases kap with
    | nil => simpa [stepRatio] using hc
    | cons k kap =>
      rw [stepRatio]
      split_ifs
      · exact h k (by simp)
      · exact ih kap (fun y hy => h y (by simp [hy]))

/-- **C71** `u_piecewise_constant`, any number of zones. -/
theorem C71_piecewise_constant (s kap : List ℝ) (N uavg uw muw : ℝ) (hl : s.length = kap.length) (h1 : ∀ x ∈ s, 1 < x) (hk : ∀ k ∈ kap, 0 < k)
    (hi : Increasing s) (hN : s.getLast? = some N) (hw : 0 ≤ muw) :
    ∃ u : ℝ → ℝ, (∀ r, 1 ≤ r → r ≤ N → uPiecewiseConstant s kap r uavg uw muw none none = .ok (u r)) ∧ IsPorePressure N (stepRatio s kap) uavg uw muw u := by
  have hN1 : 1 < N := h1 N (List.mem_of_getLast? hN)
  obtain ⟨n0, _⟩ := hn0 hN1
  have hT : Tiles 1 N ((cZones 1 s kap).map cPiece) := by
    apply cZones_tiles hl (increasing_cons hi h1)
    cases s with
    | nil => simp at hN
    | cons b s => rw [List.getLast?_cons_cons]; exact hN
  have hst : stepRatio s kap = profile ((cZones 1 s kap).map cPiece) := by funext x; exact step_profile 1 s kap x
  have hP : IsProfile N (stepRatio s kap) := by rw [hst]; exact isProfile hT
  obtain ⟨c, c0, c1, hc⟩ := min_pos_list kap hk
  have hp := mu_pos hN1 hP c c0 (fun x _ _ => stepRatio_ge c1 s kap hc x)
  refine ⟨fun r => uForm (muSpec N (stepRatio s kap)) uavg uw muw (pressure N (stepRatio s kap) r), ?_, ?_⟩
  · intro r a b
    have hne : cZones 1 s kap ≠ [] := by
      cases s with
      | nil => simp at hN
      | cons b s =>
        cases kap with
        | nil => simp at hl
        | cons k kap => simp [cZones]
    unfold uPiecewiseConstant extend
    rw [if_neg (by simp)]
    dsimp only
    rw [if_neg (by simpa using hl), if_neg (by push Not; exact h1), if_neg (by push Not; exact hk), if_neg (by simpa using hi), hN]
    dsimp only
    rw [if_neg (by push Not; exact ⟨a, b⟩), C70_constant s kap N hl h1 hk hi hN,
      uStep_eq n0 [] _ one_pos hT (fun z hz => (hk _ (cZones_kap z hz)).ne') a b hne]
    simp only [List.map_nil, List.sum_nil, zero_add]
    unfold pressure
    rw [← hst]
  · exact uForm_ok hN1 hP uavg uw muw (by linarith) _ (fun r _ _ => rfl)

/-- Zones on which the tests of `u_piecewise_linear` are exact. -/
def SharpU (z : LZone) : Prop := SharpZone z ∧ (isclose (z.k0 / z.k1) 1 → z.k0 = z.k1)

theorem phi_eq {n r : ℝ} (hn : n ≠ 0) {z : LZone} (hz : 0 < z.lo) (hlt : z.lo < z.hi) (h0 : 0 < z.k0) (h1 : 0 < z.k1) (hsh : SharpU z) (hr : z.lo ≤ r)
    (hr' : r ≤ z.hi) : z.k0 * phi n z r = ∫ x in z.lo..r, (lPiece z).κ x * (1 / x - x / n ^ 2) := by
  obtain ⟨⟨c1, c2, c3⟩, c4⟩ := hsh
  have hh : 0 < z.hi := lt_trans hz hlt
  have hr0 : 0 < r := lt_of_lt_of_le hz hr
  have hd : z.hi - z.lo ≠ 0 := by linarith
  have hint : ∀ f : ℝ → ℝ, (∀ x ∈ Icc z.lo r, (lPiece z).κ x = f x) →
      ∫ x in z.lo..r, (lPiece z).κ x * (1 / x - x / n ^ 2) = ∫ x in z.lo..r, f x * (1 / x - x / n ^ 2) := by
    intro f hf
    apply intervalIntegral.integral_congr
    intro x hx
    rw [uIcc_of_le hr] at hx
    simp only [hf x hx]
  unfold phi
  by_cases e2 : isclose (z.k0 / z.k1) 1
  · rw [if_pos e2, hint (fun _ => z.k0) (fun x _ => by simp only [lPiece]; rw [← c4 e2]; simp), int_const_flux hn hz hr]
    unfold G1
    rw [log_div hr0.ne' hz.ne']
    field_simp
    ring
  rw [if_neg e2]
  have k01 : z.k0 ≠ z.k1 := fun e => e2 (by rw [e, div_self h1.ne']; exact isclose_refl _)
  by_cases e3 : isclose (z.k0 / z.k1) (z.hi / z.lo)
  · have e4 := c3 e3
    rw [if_pos e3, hint (fun x => z.k0 * z.lo / x) ?_, int_inv_flux hn hz hr]
    · unfold G2
      have := hz.ne'
      field_simp
      ring
    · intro x hx
      have hx0 : x ≠ 0 := (lt_of_lt_of_le hz hx.1).ne'
      rw [lPiece_eq hlt h0 h1]
      have A1 : lA z = 1 / z.lo := by unfold lA; rw [e4]; have := hz.ne'; field_simp
      have B1 : lB z = 0 := by unfold lB; rw [e4]; have := hz.ne'; field_simp; simp
      rw [A1, B1]
      have := hz.ne'
      rw [add_zero, one_div, inv_mul_eq_div, div_div_eq_mul_div]
  rw [if_neg e3]
  have hA : lA z ≠ 0 := by
    unfold lA
    apply div_ne_zero _ hd
    rw [sub_ne_zero, Ne, div_eq_one_iff_eq h1.ne']
    exact k01
  have hB : lB z ≠ 0 := by
    unfold lB
    apply div_ne_zero _ hd
    intro e
    apply e3
    have : z.k0 / z.k1 = z.hi / z.lo := by rw [eq_div_iff hz.ne']; linarith
    rw [this]; exact isclose_refl _
  have hp : ∀ x ∈ Icc z.lo r, 0 < lA z * x + lB z := by
    intro x hx
    have := ramp_pos h0 h1 hx.1 (le_trans hx.2 hr')
    have e : 1 / z.k0 + (1 / z.k1 - 1 / z.k0) * ((x - z.lo) / (z.hi - z.lo)) = (lA z * x + lB z) / z.k0 := by
      unfold lA lB; field_simp; ring
    rw [e] at this
    have := mul_pos this h0
    rwa [div_mul_cancel₀ _ h0.ne'] at this
  rw [hint (fun x => z.k0 / (lA z * x + lB z)) (fun x _ => lPiece_eq hlt h0 h1), int_lin_flux hn hz hr hA hB hp]
  have eA : (z.k0 / z.k1 - 1) / (z.hi - z.lo) = lA z := rfl
  have eB : (z.hi - z.lo * z.k0 / z.k1) / (z.hi - z.lo) = lB z := by unfold lB; congr 2; ring
  dsimp only
  rw [eA, eB]
  unfold G3
  have v0 : lA z * z.lo + lB z = 1 := by unfold lA lB; field_simp; ring
  rw [v0, log_one, log_div hr0.ne' hz.ne']
  generalize log (lA z * r + lB z) = L3
  generalize lA z = A at *
  generalize lB z = B at *
  field_simp
  ring

theorem psiTerm_eq {n : ℝ} (hn : n ≠ 0) {z : LZone} (hz : 0 < z.lo) (hz' : z.lo ≤ z.hi) (h0 : 0 < z.k0) (h1 : 0 < z.k1) (hsh : SharpU z) :
    psiTerm n z = ∫ x in z.lo..z.hi, (lPiece z).κ x * (1 / x - x / n ^ 2) := by
  unfold psiTerm
  split_ifs with h
  · rw [hsh.1.1 h]; simp
  · have hlt : z.lo < z.hi := lt_of_le_of_ne hz' (fun e => h (by rw [← e]; exact isclose_refl _))
    exact phi_eq hn hz hlt h0 h1 hsh hz' le_rfl

theorem uRamp_eq {n a r : ℝ} (hn : n ≠ 0) (done todo : List LZone) (ha : 0 < a) (ht : Tiles a n (todo.map lPiece))
    (hk : ∀ z ∈ todo, 0 < z.k0 ∧ 0 < z.k1 ∧ SharpU z) (har : a ≤ r) (hrn : r ≤ n) (hne : todo ≠ [])
    (h1 : ∀ z ∈ todo.head?, r ≤ z.hi → z.lo < z.hi) :
    uRamp n r done todo = some ((done.map (psiTerm n)).sum + ∫ x in a..r, profile (todo.map lPiece) x * (1 / x - x / n ^ 2)) := by
  induction todo generalizing done a with
  | nil => exact absurd rfl hne
  | cons z zs ih =>
    have ht0 := ht
    obtain ⟨t1, t2, _, t4⟩ := ht
    have t1 : z.lo = a := t1
    have t2 : a ≤ z.hi := t2
    obtain ⟨k0, k1, sh⟩ := hk z (by simp)
    rw [uRamp]
    split_ifs with h
    · congr 1
      rw [List.map_cons, flux_first har (p := lPiece z) h, phi_eq hn (by rw [t1]; exact ha) (h1 z (by simp) h) k0 k1 sh (by rw [t1]; exact har) h, t1]
      ring
    · push Not at h
      have hzs : zs ≠ [] := by
        rintro rfl
        have : z.hi = n := t4
        linarith
      have hnext : ∀ y ∈ zs.head?, r ≤ y.hi → y.lo < y.hi := by
        intro y hy hr
        cases zs with
        | nil => simp at hy
        | cons w ws =>
          simp only [List.head?_cons, Option.mem_def, Option.some.injEq] at hy
          subst hy
          have : w.lo = z.hi := t4.1
          linarith
      rw [ih (a := z.hi) _ (lt_of_lt_of_le ha t2) t4 (fun y hy => hk y (by simp [hy])) h.le hzs hnext]
      congr 1
      rw [List.map_cons, flux_split (b := 0) ha ht0 (p := lPiece z) h.le hrn]
      simp only [List.map_append, List.sum_append, List.map_cons, List.map_nil, List.sum_cons, List.sum_nil, add_zero]
      rw [psiTerm_eq hn (by rw [t1]; exact ha) (by rw [t1]; exact t2) k0 k1 sh]
      have : (lPiece z).lo = z.lo ∧ (lPiece z).hi = z.hi := ⟨rfl, rfl⟩
      rw [this.1, this.2]
      ring

theorem rampRatio_ge {c : ℝ} (hc0 : 0 < c) (hc : c ≤ 1) (s kap : List ℝ) (hs : NonDecreasing s) (h : ∀ k ∈ kap, c ≤ k) (x : ℝ) (hx : ∀ a ∈ s.head?, a ≤ x) : c ≤ rampRatio s kap x := by
  induction s generalizing kap with
  | nil => simpa [rampRatio] using hc
  | cons a s ih =>
    cases s with
    | nil => simpa [rampRatio] using hc
    | cons b s =>
      match kap with
      | [] => simpa [rampRatio] using hc
      | [_] => simpa [rampRatio] using hc
      | k0 :: k1 :: kap =>
        rw [rampRatio]
        have e0 := h k0 (by simp)
        have e1 := h k1 (by simp)
        split_ifs with hb
        · have ha : a ≤ x := hx a (by simp)
          have p := ramp_pos (lo := a) (hi := b) (lt_of_lt_of_le hc0 e0) (lt_of_lt_of_le hc0 e1) ha hb.le
          rw [le_div_iff₀ p]
          have t0 : 0 ≤ (x - a) / (b - a) := div_nonneg (by linarith) (by linarith)
          have t1 : (x - a) / (b - a) ≤ 1 := by rw [div_le_one (by linarith)]; linarith
          have i0 : 1 / k0 ≤ 1 / c := one_div_le_one_div_of_le hc0 e0
          have i1 : 1 / k1 ≤ 1 / c := one_div_le_one_div_of_le hc0 e1
          have : 1 / k0 + (1 / k1 - 1 / k0) * ((x - a) / (b - a)) ≤ 1 / c := by
            generalize (x - a) / (b - a) = t at *
            have := mul_le_mul_of_nonneg_right i1 t0
            have := mul_le_mul_of_nonneg_right i0 (by linarith : 0 ≤ 1 - t)
            nlinarith
          calc c * _ ≤ c * (1 / c) := mul_le_mul_of_nonneg_left this hc0.le
            _ = 1 := by field_simp
        · exact ih (k1 :: kap) hs.2 (fun k hk => h k (List.mem_cons_of_mem _ hk)) (fun y hy => by
            simp only [List.head?_cons, Option.mem_def, Option.some.injEq] at hy
            rw [← hy]; exact not_lt.1 hb)

/-- **C71** `u_piecewise_linear`, any number of points; the second radius must exceed the first (else the radius 1 gives nan). -/
theorem C71_piecewise_linear (s₁ : ℝ) (s kap : List ℝ) (N uavg uw muw : ℝ) (hl : (1 :: s₁ :: s).length = kap.length) (hk : ∀ k ∈ kap, 0 < k)
    (hi : NonDecreasing (1 :: s₁ :: s)) (h1 : 1 < s₁) (hN : (1 :: s₁ :: s).getLast? = some N)
    (hsh : ∀ z ∈ lZones (1 :: s₁ :: s) kap, SharpU z) (hw : 0 ≤ muw) :
    ∃ u : ℝ → ℝ, (∀ r, 1 ≤ r → r ≤ N → uPiecewiseLinear (1 :: s₁ :: s) kap r uavg uw muw none none = .ok (u r)) ∧
      IsPorePressure N (rampRatio (1 :: s₁ :: s) kap) uavg uw muw u := by
  have hge : ∀ (l : List ℝ) (a : ℝ), NonDecreasing l → l.head? = some a → ∀ x ∈ l, a ≤ x := by
    intro l
    induction l with
    | nil => intro a _ h; simp at h
    | cons b l ih =>
      intro a hl h x hx
      simp only [List.head?_cons, Option.some.injEq] at h
      subst h
      rcases List.mem_cons.1 hx with rfl | hx
      · exact le_rfl
      · cases l with
        | nil => simp at hx
        | cons c l => exact le_trans hl.1 (ih c hl.2 rfl x hx)
  have hN1 : 1 < N := by
    have : N ∈ s₁ :: s := by rw [List.getLast?_cons_cons] at hN; exact List.mem_of_getLast? hN
    exact lt_of_lt_of_le h1 (hge _ s₁ hi.2 rfl N this)
  obtain ⟨n0, _⟩ := hn0 hN1
  have hT := lZones_tiles hl hi hk 1 rfl hN
  have hst : rampRatio (1 :: s₁ :: s) kap = profile ((lZones (1 :: s₁ :: s) kap).map lPiece) := by funext x; exact ramp_profile _ kap x
  have hP : IsProfile N (rampRatio (1 :: s₁ :: s) kap) := by rw [hst]; exact isProfile hT
  obtain ⟨c, c0, c1, hc⟩ := min_pos_list kap hk
  have hp := mu_pos hN1 hP c c0 (fun x hx _ => rampRatio_ge c0 c1 _ kap hi hc x (by simpa using hx))
  refine ⟨fun r => uForm (muSpec N (rampRatio (1 :: s₁ :: s) kap)) uavg uw muw (pressure N (rampRatio (1 :: s₁ :: s) kap) r), ?_, ?_⟩
  · intro r a b
    match kap, hl with
    | k0 :: k1 :: ks, hl =>
    have hz : lZones (1 :: s₁ :: s) (k0 :: k1 :: ks) = ⟨1, s₁, k0, k1⟩ :: lZones (s₁ :: s) (k1 :: ks) := rfl
    unfold uPiecewiseLinear extend
    rw [if_neg (by simp)]
    dsimp only
    rw [if_neg (by simpa using hl), if_neg (by push Not; exact hge _ 1 hi rfl), if_neg (by push Not; exact hk), if_neg (by simpa using hi), hN]
    dsimp only
    rw [if_neg (by push Not; exact ⟨a, b⟩), C70_linear _ _ N hl rfl hk hi hN hN1 (fun z hz => (hsh z hz).1),
      uRamp_eq n0 [] _ one_pos hT (fun z hz => ⟨hk _ (lZones_mem z hz).1, hk _ (lZones_mem z hz).2, hsh z hz⟩) a b (by rw [hz]; simp) (by
        rw [hz]
        intro y hy _
        simp only [List.head?_cons, Option.mem_def, Option.some.injEq] at hy
        rw [← hy]; exact h1)]
    rw [← hst]
    rw [hz]
    dsimp only
    rw [if_neg (by rintro ⟨_, e, _⟩; exact h1.ne e)]
    simp only [List.map_nil, List.sum_nil, zero_add]
    rfl
  · exact uForm_ok hN1 hP uavg uw muw (by linarith) _ (fun r _ _ => rfl)

/-- Non-trivial inputs meeting the hypotheses of `C71_piecewise_linear`. -/
example : ∀ z ∈ lZones [(1 : ℝ), 2, 2, 4, 30] [4, 2, 3, 1, 1], SharpU z := by
  intro z hz
  simp only [lZones, List.mem_cons, List.not_mem_nil, or_false] at hz
  rcases hz with rfl | rfl | rfl | rfl <;>
    (refine ⟨⟨fun h => ?_, fun h => ?_, fun h => ?_⟩, fun h => ?_⟩ <;> (first | (unfold isclose at h; norm_num at h; done) | norm_num))

/-- The meaning of `IsPorePressure`: with `uavg > uw` and a positive permeability ratio, pressures never decrease away from the drain and lie above `uw`. -/
theorem C71_monotone {n uavg uw muw : ℝ} (hn : 1 < n) {κ u : ℝ → ℝ} (hκ : IsProfile n κ) (hpos : ∀ x, 1 ≤ x → x < n → 0 ≤ κ x)
    (hu : IsPorePressure n κ uavg uw muw u) (hw : 0 ≤ muw) (hm : 0 < muSpec n κ) (h : uw ≤ uavg) :
    (∀ r r', 1 ≤ r → r ≤ r' → r' ≤ n → u r ≤ u r') ∧ (∀ r, 1 ≤ r → r ≤ n → uw ≤ u r) := by
  obtain ⟨hc, hmean, q, h1, h2⟩ := hu
  have hp := pressure_cont hn.le hκ
  have e : average n u = q * muSpec n κ + (uw + q * muw) := by
    have e0 : average n u = average n (fun r => q * pressure n κ r + (uw + q * muw)) := by
      unfold average
      congr 1
      apply intervalIntegral.integral_congr
      intro r hr
      rw [uIcc_of_le hn.le] at hr
      simp only
      rw [h2 r hr.1 hr.2, h1]; ring
    rw [e0, average_affine hn hp]
    rfl
  have hq : 0 ≤ q := by
    rw [hmean] at e
    have : 0 ≤ q * (muSpec n κ + muw) := by linarith
    by_contra hneg
    push Not at hneg
    have := mul_neg_of_neg_of_pos hneg (by linarith : 0 < muSpec n κ + muw)
    linarith
  have hfi : IntervalIntegrable (fun x => κ x * (1 / x - x / n ^ 2)) volume 1 n := hκ.integrable.mul_continuousOn (flux_cont n one_pos (by linarith))
  have mono : ∀ r r', 1 ≤ r → r ≤ r' → r' ≤ n → pressure n κ r ≤ pressure n κ r' := by
    intro r r' a b c
    have i1 : IntervalIntegrable (fun x => κ x * (1 / x - x / n ^ 2)) volume 1 r := hfi.mono_set (by
      rw [uIcc_of_le a, uIcc_of_le hn.le]; exact Icc_subset_Icc le_rfl (by linarith))
    have i2 : IntervalIntegrable (fun x => κ x * (1 / x - x / n ^ 2)) volume r r' := hfi.mono_set (by
      rw [uIcc_of_le b, uIcc_of_le hn.le]; exact Icc_subset_Icc a c)
    have : pressure n κ r' = pressure n κ r + ∫ x in r..r', κ x * (1 / x - x / n ^ 2) := by
      unfold pressure; rw [integral_add_adjacent_intervals i1 i2]
    rw [this]
    have : 0 ≤ ∫ x in r..r', κ x * (1 / x - x / n ^ 2) := by
      apply intervalIntegral.integral_nonneg_of_ae_restrict b
      rw [Filter.EventuallyLE, ae_restrict_iff' measurableSet_Icc]
      have hne : ∀ᵐ x ∂(volume : Measure ℝ), x ≠ n := by rw [ae_iff]; simp
      filter_upwards [hne] with x hx hm
      have hx1 : 1 ≤ x := le_trans a hm.1
      have hxn : x < n := lt_of_le_of_ne (le_trans hm.2 c) hx
      apply mul_nonneg (hpos x hx1 hxn)
      rw [sub_nonneg, div_le_div_iff₀ (by positivity) (by linarith)]
      nlinarith
    linarith
  have e1 : pressure n κ 1 = 0 := by unfold pressure; simp
  constructor
  · intro r r' a b c
    rw [h2 r a (le_trans b c), h2 r' (le_trans a b) c]
    have := mul_le_mul_of_nonneg_left (mono r r' a b c) hq
    linarith
  · intro r a b
    rw [h2 r a b, h1]
    have := mul_nonneg hq (le_trans (le_of_eq e1.symm) (mono 1 r le_rfl a b))
    have := mul_nonneg hq hw
    linarith

end Geotecha.Smear
