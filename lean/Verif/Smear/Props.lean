import Verif.Smear.Lemmas

/-! # C69: the smear zone parameters are what radial flow gives -/

set_option linter.unusedVariables false
namespace Geotecha.Smear
open MeasureTheory intervalIntegral Set Real Geotecha.Piecewise

theorem hn0 {n : ℝ} (h : 1 < n) : n ≠ 0 ∧ n ^ 2 - 1 ≠ 0 := ⟨by linarith, by nlinarith⟩

/-- **C69** `mu_ideal` is the parameter of undisturbed soil, for all `n > 1`; otherwise `ValueError`. -/
theorem C69_ideal (n : ℝ) : (1 < n → muIdeal n = .ok (muSpec n fun _ => 1)) ∧ (n ≤ 1 → muIdeal n = .error .valueError) := by
  refine ⟨fun hn => ?_, fun hn => by unfold muIdeal; rw [if_pos hn]⟩
  obtain ⟨h0, h1⟩ := hn0 hn
  unfold muIdeal
  rw [if_neg (not_le.2 hn)]
  congr 1
  rw [muSpec_eq hn ⟨by simp, ∅, by simp, fun x _ => continuousAt_const⟩]
  simp only [one_mul]
  rw [int_weight h0 one_pos hn.le]
  unfold muIdealF F1
  simp only [log_one]
  field_simp
  ring

/-- A smear zone up to `s` in which the permeability is `1/kap` of the undisturbed one. -/
noncomputable def constantSmear (s kap x : ℝ) : ℝ := if x < s then kap else 1

theorem muConstantF_eq {n s kap : ℝ} (hn : 1 < n) (hs : 1 ≤ s) (hsn : s ≤ n) : muConstantF n s kap = muSpec n (constantSmear s kap) := by
  obtain ⟨h0, h1⟩ := hn0 hn
  rw [mu_two (κ₁ := fun _ => kap) (κ₂ := fun _ => 1) hn hs hsn continuousOn_const continuousOn_const
    (fun x _ hx => by unfold constantSmear; rw [if_pos hx]) (fun x hx _ => by unfold constantSmear; rw [if_neg (not_lt.2 hx)]),
    int_const_weight h0 one_pos hs, int_const_weight h0 (by linarith) hsn]
  unfold muConstantF F1
  have hs0 : s ≠ 0 := by linarith
  simp only [log_one, log_div h0 hs0]
  field_simp
  ring

/-- **C69** `mu_constant`. -/
theorem C69_constant (n s kap : ℝ) (hn : 1 < n) (hs : 1 ≤ s) (hsn : s ≤ n) (hk : 0 < kap) :
    muConstant n s kap = .ok (muSpec n (constantSmear s kap)) := by
  unfold muConstant
  rw [if_neg (by unfold BadArgs; simp; exact ⟨hn, hs, hk, hsn⟩), muConstantF_eq hn hs hsn]

/-- A smear zone in which the permeability rises linearly from `1/kap` at the drain to `1` at `s`. -/
noncomputable def linearSmear (s kap x : ℝ) : ℝ := if x < s then 1 / (1 / kap + (1 - 1 / kap) * ((x - 1) / (s - 1))) else 1

theorem lin_pos {s kap x : ℝ} (hs : 1 < s) (hk : 0 < kap) (h1 : 1 ≤ x) (h2 : x ≤ s) : 0 < (kap - 1) / (s - 1) * x + (s - kap) / (s - 1) := by
  have e : (kap - 1) / (s - 1) * x + (s - kap) / (s - 1) = (kap * (x - 1) + (s - x)) / (s - 1) := by
    have : s - 1 ≠ 0 := by linarith
    field_simp; ring
  rw [e]
  apply div_pos _ (by linarith)
  rcases eq_or_lt_of_le h2 with rfl | h2
  · have : 0 < kap * (x - 1) := mul_pos hk (by linarith)
    linarith
  · have : 0 ≤ kap * (x - 1) := mul_nonneg hk.le (by linarith)
    linarith

theorem linearSmear_eq {s kap x : ℝ} (hs : 1 < s) (hk : 0 < kap) (h1 : 1 ≤ x) (h2 : x < s) :
    linearSmear s kap x = kap / ((kap - 1) / (s - 1) * x + (s - kap) / (s - 1)) := by
  unfold linearSmear
  rw [if_pos h2]
  have hp := (lin_pos hs hk h1 h2.le).ne'
  have hs1 : s - 1 ≠ 0 := by linarith
  have hk0 := hk.ne'
  have e : 1 / kap + (1 - 1 / kap) * ((x - 1) / (s - 1)) = ((kap - 1) / (s - 1) * x + (s - kap) / (s - 1)) / kap := by
    field_simp; ring
  rw [e, one_div_div]

theorem muLinearNeqF_eq {n s kap : ℝ} (hn : 1 < n) (hs : 1 < s) (hsn : s ≤ n) (hk : 0 < kap) (hk1 : kap ≠ 1) (hsk : s ≠ kap) :
    muLinearNeqF n s kap = muSpec n (linearSmear s kap) := by
  obtain ⟨h0, h1⟩ := hn0 hn
  have hs1 : s - 1 ≠ 0 := by linarith
  have hs0 : s ≠ 0 := by linarith
  have hk0 := hk.ne'
  have hA : (kap - 1) / (s - 1) ≠ 0 := div_ne_zero (sub_ne_zero.2 hk1) hs1
  have hB : (s - kap) / (s - 1) ≠ 0 := div_ne_zero (sub_ne_zero.2 hsk) hs1
  have hp : ∀ x ∈ Icc 1 s, 0 < (kap - 1) / (s - 1) * x + (s - kap) / (s - 1) := fun x hx => lin_pos hs hk hx.1 hx.2
  rw [mu_two (κ₁ := fun x => kap / ((kap - 1) / (s - 1) * x + (s - kap) / (s - 1))) (κ₂ := fun _ => 1) hn hs.le hsn
    (clin_cont hp) continuousOn_const
    (fun x h1 h2 => linearSmear_eq hs hk h1 h2) (fun x hx _ => by unfold linearSmear; rw [if_neg (not_lt.2 hx)]),
    int_lin_weight h0 one_pos hs.le hA hB hp, int_const_weight h0 (by linarith) hsn]
  unfold muLinearNeqF F3 F1
  have e1 : (kap - 1) / (s - 1) * s + (s - kap) / (s - 1) = kap := by field_simp; ring
  have e2 : (kap - 1) / (s - 1) * 1 + (s - kap) / (s - 1) = 1 := by field_simp; ring
  rw [e1, e2]
  simp only [log_one, log_div h0 hs0, log_div hs0 hk0]
  have d1 : kap - 1 ≠ 0 := sub_ne_zero.2 hk1
  have d2 : s - kap ≠ 0 := sub_ne_zero.2 hsk
  generalize log n = Ln
  generalize log s = Ls
  generalize log kap = Lk
  field_simp
  ring

theorem linearSmear_self {s x : ℝ} (hs : 1 < s) (h1 : 1 ≤ x) (h2 : x < s) : linearSmear s s x = s / x := by
  rw [linearSmear_eq hs (by linarith) h1 h2]
  have : s - 1 ≠ 0 := by linarith
  rw [div_self this]; simp

theorem muLinearEqF_eq {n s : ℝ} (hn : 1 < n) (hs : 1 < s) (hsn : s ≤ n) : muLinearEqF n s = muSpec n (linearSmear s s) := by
  obtain ⟨h0, h1⟩ := hn0 hn
  have hs0 : s ≠ 0 := by linarith
  rw [mu_two (κ₁ := fun x => s / x) (κ₂ := fun _ => 1) hn hs.le hsn (cdiv_cont one_pos) continuousOn_const
    (fun x h1 h2 => linearSmear_self hs h1 h2) (fun x hx _ => by unfold linearSmear; rw [if_neg (not_lt.2 hx)]),
    int_inv_weight h0 one_pos hs.le, int_const_weight h0 (by linarith) hsn]
  unfold muLinearEqF F2 F1
  simp only [log_div h0 hs0]
  generalize log n = Ln
  generalize log s = Ls
  field_simp
  ring

theorem linearSmear_one_right {s x : ℝ} : linearSmear s 1 x = 1 := by unfold linearSmear; simp
theorem linearSmear_one_left {kap x : ℝ} (h : 1 ≤ x) : linearSmear 1 kap x = 1 := by unfold linearSmear; rw [if_neg (not_lt.2 h)]

/-- Inputs that `np.isclose` does not confuse. -/
def Sharp (a b : ℝ) : Prop := isclose a b → a = b

/-- **C69** `mu_linear`: for inputs that are not within `isclose` of a special case without being it. -/
theorem C69_linear (n s kap : ℝ) (hs : 1 ≤ s) (hsn : s < n) (hk : 0 < kap) (c1 : Sharp s 1) (c2 : Sharp kap 1) (c3 : Sharp s kap) :
    muLinear n s kap = .ok (muSpec n (linearSmear s kap)) := by
  have hn : 1 < n := by linarith
  unfold muLinear
  rw [if_neg (by unfold BadArgs; simp; exact ⟨hn, hs, hk, hsn⟩)]
  by_cases hi : isclose s 1 ∨ isclose kap 1
  · rw [if_pos hi, (C69_ideal n).1 hn]
    congr 1
    apply muSpec_congr hn.le
    intro x h1 _
    rcases hi with h | h
    · rw [c1 h, linearSmear_one_left h1]
    · rw [c2 h, linearSmear_one_right]
  · rw [if_neg hi]
    push Not at hi
    have e1 : s ≠ 1 := fun e => hi.1 (by rw [e]; unfold isclose; norm_num)
    have e2 : kap ≠ 1 := fun e => hi.2 (by rw [e]; unfold isclose; norm_num)
    have hs1 : 1 < s := lt_of_le_of_ne hs (Ne.symm e1)
    split_ifs with h
    · rw [muLinearEqF_eq hn hs1 hsn.le, ← c3 h]
    · rw [muLinearNeqF_eq hn hs1 hsn.le hk e2 (fun e => h (by rw [e]; unfold isclose; simp; positivity))]

example : Sharp (2 : ℝ) 1 ∧ Sharp (5 : ℝ) 1 ∧ Sharp (2 : ℝ) 5 := by
  refine ⟨fun h => ?_, fun h => ?_, fun h => ?_⟩ <;> · unfold isclose at h; norm_num at h

/-! ## Parabolic permeability -/

/-- A smear zone in which the permeability rises along a parabola with its top at `s`: from `1/kap` at the drain to `1` at `s`. -/
noncomputable def parabolicSmear (s kap x : ℝ) : ℝ := if x < s then 1 / (1 - (1 - 1 / kap) * ((s - x) / (s - 1)) ^ 2) else 1

theorem par_data {s kap : ℝ} (hs : 1 < s) (hk : 1 < kap) : ∃ A B : ℝ, 1 < A ∧ 1 < B ∧ sqrt (kap / (kap - 1)) = A ∧ s / (s - 1) = B ∧
    1 / (s - 1) = B - 1 ∧ kap = A ^ 2 / (A ^ 2 - 1) ∧ s = B / (B - 1) := by
  have h1 : 0 < kap - 1 := by linarith
  have h2 : 0 < s - 1 := by linarith
  have hA : 1 < kap / (kap - 1) := by rw [lt_div_iff₀ h1]; linarith
  refine ⟨sqrt (kap / (kap - 1)), s / (s - 1), ?_, by rw [lt_div_iff₀ h2]; linarith, rfl, rfl, by field_simp; ring, ?_, by field_simp; ring⟩
  · have := sqrt_lt_sqrt (by norm_num) hA
    rwa [sqrt_one] at this
  · rw [sq_sqrt (by linarith)]
    field_simp
    ring

theorem parabolicSmear_eq {s kap A B x : ℝ} (hA : 1 < A) (hB : 1 < B) (hk : kap = A ^ 2 / (A ^ 2 - 1)) (hs : s = B / (B - 1)) (h : x < s) :
    parabolicSmear s kap x = A ^ 2 / ((A - B + (B - 1) * x) * (A + B - (B - 1) * x)) := by
  unfold parabolicSmear
  rw [if_pos h]
  have hA0 : A ≠ 0 := by linarith
  have hA2 : A ^ 2 - 1 ≠ 0 := by nlinarith
  have hB1 : B - 1 ≠ 0 := by linarith
  have e1 : 1 - 1 / kap = 1 / A ^ 2 := by rw [hk]; field_simp; ring
  have e2 : (s - x) / (s - 1) = B - (B - 1) * x := by
    have : s - 1 = 1 / (B - 1) := by rw [hs]; field_simp; ring
    rw [this, hs]; field_simp
  rw [e1, e2]
  have : 1 - 1 / A ^ 2 * (B - (B - 1) * x) ^ 2 = ((A - B + (B - 1) * x) * (A + B - (B - 1) * x)) / A ^ 2 := by field_simp; ring
  rw [this, one_div_div]

theorem par_pos {A B x : ℝ} (hA : 1 < A) (hB : 1 < B) (h1 : 1 ≤ x) (h2 : x ≤ B / (B - 1)) : 0 < A - B + (B - 1) * x ∧ 0 < A + B - (B - 1) * x := by
  have hb : 0 < B - 1 := by linarith
  rw [le_div_iff₀ hb] at h2
  constructor <;> nlinarith

theorem log_kap {A : ℝ} (hA : 1 < A) : log (A ^ 2 / (A ^ 2 - 1)) = 2 * log A - log (A - 1) - log (A + 1) := by
  have h1 : A - 1 ≠ 0 := by linarith
  have h2 : A + 1 ≠ 0 := by linarith
  have h0 : A ≠ 0 := by linarith
  rw [show A ^ 2 - 1 = (A - 1) * (A + 1) by ring, log_div (by positivity) (mul_ne_zero h1 h2), log_mul h1 h2, log_pow]
  push_cast
  ring

theorem muParabolicF_eq {n s kap : ℝ} (hn : 1 < n) (hs : 1 < s) (hsn : s ≤ n) (hk : 1 < kap) (hne : kap / (kap - 1) ≠ (s / (s - 1)) ^ 2) :
    muParabolicF n s kap = muSpec n (parabolicSmear s kap) := by
  obtain ⟨h0, h1⟩ := hn0 hn
  obtain ⟨A, B, hA, hB, eA, eB, eC, ek, es⟩ := par_data hs hk
  have hk1 : 0 < kap - 1 := by linarith
  have hA2 : A ^ 2 = kap / (kap - 1) := by rw [← eA, sq_sqrt (by positivity)]
  have hAB : A ^ 2 - B ^ 2 ≠ 0 := by rw [hA2, ← eB]; exact sub_ne_zero.2 hne
  have hBA : B - A ≠ 0 := fun e => hAB (by nlinarith)
  have hB1 : B - 1 ≠ 0 := by linarith
  have hp : ∀ x ∈ Icc 1 s, 0 < A - B + (B - 1) * x := fun x hx => (par_pos hA hB hx.1 (es ▸ hx.2)).1
  have hq : ∀ x ∈ Icc 1 s, 0 < A + B - (B - 1) * x := fun x hx => (par_pos hA hB hx.1 (es ▸ hx.2)).2
  rw [mu_two (κ₁ := fun x => A ^ 2 / ((A - B + (B - 1) * x) * (A + B - (B - 1) * x))) (κ₂ := fun _ => 1) hn hs.le hsn
    (cpar_cont hp hq) continuousOn_const
    (fun x _ h2 => parabolicSmear_eq hA hB ek es h2) (fun x hx _ => by unfold parabolicSmear; rw [if_neg (not_lt.2 hx)]),
    int_par_weight h0 one_pos hs.le (by linarith) hB1 hBA (by linarith) hp hq, int_const_weight h0 (by linarith) hsn]
  unfold muParabolicF F4 F1
  have k0 : 0 < kap := by linarith
  have s0 : s ≠ 0 := by linarith
  have q0 : sqrt kap ≠ 0 := (sqrt_pos.2 k0).ne'
  have a1 : A + 1 ≠ 0 := by linarith
  have a2 : A - 1 ≠ 0 := by linarith
  have a0 : A ≠ 0 := by linarith
  have b0 : B ≠ 0 := by linarith
  have ab : A + B ≠ 0 := by linarith
  have lk : log kap = 2 * log A - log (A - 1) - log (A + 1) := by rw [ek, log_kap hA]
  have e1 : (B - 1) * s = B := by rw [es]; field_simp
  rw [eA, eB, eC]
  simp only [log_one, log_div h0 s0, log_div s0 q0, log_sqrt k0.le, log_div a1 a2, lk, e1, show A - B + B = A by ring, show A + B - B = A by ring,
    show A - B + (B - 1) * 1 = A - 1 by ring, show A + B - (B - 1) * 1 = A + 1 by ring]
  generalize log n = Ln
  generalize log s = Ls
  generalize log A = LA
  generalize log (A + 1) = LA1
  generalize log (A - 1) = LA2
  rw [es]
  have hd : A ^ 2 - B ^ 2 = -((B - A) * (A + B)) := by ring
  rw [hd]
  field_simp
  ring

end Geotecha.Smear
