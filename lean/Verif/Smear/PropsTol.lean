import Verif.Smear.Props

/-! # C69: every valid input, including those `np.isclose` sends to a special case -/

set_option linter.unusedVariables false
namespace Geotecha.Smear
open MeasureTheory intervalIntegral Set Real Geotecha.Piecewise

theorem isProfile_constant {n s kap : ℝ} (hs : 1 ≤ s) (hsn : s ≤ n) : IsProfile n (constantSmear s kap) :=
  isProfile_two (κ₁ := fun _ => kap) (κ₂ := fun _ => 1) hs hsn continuousOn_const continuousOn_const
    (fun x _ hx => by unfold constantSmear; rw [if_pos hx]) (fun x hx _ => by unfold constantSmear; rw [if_neg (not_lt.2 hx)])

theorem isProfile_linear {n s kap : ℝ} (hs : 1 ≤ s) (hsn : s ≤ n) (hk : 0 < kap) : IsProfile n (linearSmear s kap) := by
  rcases eq_or_lt_of_le hs with rfl | hs
  · exact isProfile_congr hsn (fun x h1 _ => linearSmear_one_left h1) (isProfile_const n 1)
  · exact isProfile_two (κ₁ := fun x => kap / ((kap - 1) / (s - 1) * x + (s - kap) / (s - 1))) (κ₂ := fun _ => 1) hs.le hsn
      (clin_cont fun x hx => lin_pos hs hk hx.1 hx.2) continuousOn_const
      (fun x h1 h2 => linearSmear_eq hs hk h1 h2) (fun x hx _ => by unfold linearSmear; rw [if_neg (not_lt.2 hx)])

theorem par_bounds {s kap x : ℝ} (hk : 0 < kap) (h1 : 1 ≤ x) (h2 : x < s) :
    ∃ t, 0 ≤ t ∧ t ≤ 1 ∧ parabolicSmear s kap x = 1 / (1 - (1 - 1 / kap) * t) ∧ 0 < 1 - (1 - 1 / kap) * t := by
  have hs : 0 < s - 1 := by linarith
  have a : 0 ≤ (s - x) / (s - 1) := div_nonneg (by linarith) hs.le
  have b : (s - x) / (s - 1) ≤ 1 := by rw [div_le_one hs]; linarith
  refine ⟨((s - x) / (s - 1)) ^ 2, by positivity, by nlinarith, by unfold parabolicSmear; rw [if_pos h2], ?_⟩
  have hi : 0 < 1 / kap := by positivity
  generalize ((s - x) / (s - 1)) = t at *
  have : t ^ 2 ≤ 1 := by nlinarith
  rcases eq_or_lt_of_le this with e | e
  · rw [e]; linarith
  · have : 0 ≤ 1 / kap * t ^ 2 := by positivity
    nlinarith

theorem isProfile_parabolic {n s kap : ℝ} (hs : 1 ≤ s) (hsn : s ≤ n) (hk : 0 < kap) : IsProfile n (parabolicSmear s kap) := by
  rcases eq_or_lt_of_le hs with rfl | hs
  · exact isProfile_congr hsn (fun x h1 _ => by unfold parabolicSmear; rw [if_neg (not_lt.2 h1)]) (isProfile_const n 1)
  · refine isProfile_two (κ₁ := fun x => 1 / (1 - (1 - 1 / kap) * ((s - x) / (s - 1)) ^ 2)) (κ₂ := fun _ => 1) hs.le hsn
      (ContinuousOn.div continuousOn_const (by fun_prop) ?_) continuousOn_const
      (fun x h1 h2 => by unfold parabolicSmear; rw [if_pos h2]) (fun x hx _ => by unfold parabolicSmear; rw [if_neg (not_lt.2 hx)])
    intro x hx
    rcases eq_or_lt_of_le hx.2 with rfl | h2
    · simp
    · obtain ⟨t, _, _, e, p⟩ := par_bounds hk hx.1 h2
      unfold parabolicSmear at e
      rw [if_pos h2] at e
      intro z
      rw [z] at e
      have : 0 < 1 / (1 - (1 - 1 / kap) * t) := by positivity
      rw [← e] at this
      simp at this

/-- Values between `1` and `kap`. -/
theorem between {kap t : ℝ} (hk : 0 < kap) (h0 : 0 ≤ t) (h1 : t ≤ 1) (hp : 0 < 1 - (1 - 1 / kap) * t) : |1 / (1 - (1 - 1 / kap) * t) - 1| ≤ |kap - 1| := by
  have e : 1 / (1 - (1 - 1 / kap) * t) - 1 = (kap - 1) * (t / (kap - (kap - 1) * t)) := by
    have q : kap - (kap - 1) * t = kap * (1 - (1 - 1 / kap) * t) := by field_simp
    have q' : kap - (kap - 1) * t ≠ 0 := by rw [q]; positivity
    have := hp.ne'
    rw [div_sub_one this, div_eq_iff this]
    have : 1 - (1 - 1 / kap) * t = (kap - (kap - 1) * t) / kap := by rw [q]; field_simp
    rw [this]
    generalize hQ : kap - (kap - 1) * t = Q at *
    field_simp
    rw [← hQ]; ring
  have q : 0 < kap - (kap - 1) * t := by
    have : kap - (kap - 1) * t = kap * (1 - (1 - 1 / kap) * t) := by field_simp
    rw [this]; positivity
  rw [e, abs_mul]
  have : |t / (kap - (kap - 1) * t)| ≤ 1 := by
    rw [abs_of_nonneg (div_nonneg h0 q.le), div_le_one q]
    nlinarith
  calc |kap - 1| * |t / (kap - (kap - 1) * t)| ≤ |kap - 1| * 1 := mul_le_mul_of_nonneg_left this (abs_nonneg _)
    _ = |kap - 1| := mul_one _

theorem parabolic_dev {s kap x : ℝ} (hk : 0 < kap) (h1 : 1 ≤ x) : |parabolicSmear s kap x - 1| ≤ |kap - 1| := by
  by_cases h2 : x < s
  · obtain ⟨t, a, b, e, p⟩ := par_bounds hk h1 h2
    rw [e]; exact between hk a b p
  · unfold parabolicSmear; rw [if_neg h2]; simp

theorem linear_dev {s kap x : ℝ} (hk : 0 < kap) (h1 : 1 ≤ x) : |linearSmear s kap x - 1| ≤ |kap - 1| := by
  by_cases h2 : x < s
  · unfold linearSmear
    rw [if_pos h2]
    have hs : 0 < s - 1 := by linarith
    have e : 1 / kap + (1 - 1 / kap) * ((x - 1) / (s - 1)) = 1 - (1 - 1 / kap) * ((s - x) / (s - 1)) := by field_simp; ring
    have a : 0 ≤ (s - x) / (s - 1) := div_nonneg (by linarith) hs.le
    have b : (s - x) / (s - 1) ≤ 1 := by rw [div_le_one hs]; linarith
    rw [e]
    apply between hk a b
    have hi : 0 < 1 / kap := by positivity
    generalize ((s - x) / (s - 1)) = t at *
    rcases eq_or_lt_of_le b with e | e
    · rw [e]; linarith
    · have : 0 ≤ 1 / kap * t := by positivity
      nlinarith
  · unfold linearSmear; rw [if_neg h2]; simp

/-- The special case taken for `s` or `kap` close to one. -/
theorem ideal_close {n s kap : ℝ} (hs : 1 ≤ s) (hsn : s ≤ n) (hn : 1 < n) (hk : 0 < kap) {κ : ℝ → ℝ} (hκ : IsProfile n κ)
    (hd : ∀ x, 1 ≤ x → |κ x - 1| ≤ |kap - 1|) (hu : ∀ x, s ≤ x → κ x = 1) (h : isclose s 1 ∨ isclose kap 1) :
    |(muSpec n fun _ => 1) - muSpec n κ| ≤ 2 / 10 ^ 5 * ((muSpec n fun _ => 1) + n ^ 2 / (n ^ 2 - 1) * |kap - 1|) := by
  have m0 := muSpec_nonneg hn (isProfile_const n 1) (fun _ _ _ => zero_le_one)
  have c0 : 0 ≤ n ^ 2 / (n ^ 2 - 1) * |kap - 1| := mul_nonneg (div_nonneg (by positivity) (by nlinarith)) (abs_nonneg _)
  rw [abs_sub_comm]
  rcases h with h | h
  · unfold isclose at h
    rw [abs_one, abs_of_nonneg (by linarith)] at h
    refine (muSpec_thin hs hsn hn hκ (fun x h1 _ => hd x h1) (fun x h1 _ => hu x h1)).trans ?_
    calc n ^ 2 / (n ^ 2 - 1) * (|kap - 1| * (s - 1)) = (n ^ 2 / (n ^ 2 - 1) * |kap - 1|) * (s - 1) := by ring
      _ ≤ (n ^ 2 / (n ^ 2 - 1) * |kap - 1|) * (2 / 10 ^ 5) := by
        apply mul_le_mul_of_nonneg_left _ c0
        norm_num at h ⊢
        linarith
      _ ≤ _ := by nlinarith
  · unfold isclose at h
    rw [abs_one] at h
    refine (muSpec_close hn hκ (isProfile_const n 1) |kap - 1| (fun x h1 _ => by simpa using hd x h1)).trans ?_
    have : |kap - 1| ≤ 2 / 10 ^ 5 := by norm_num at h ⊢; linarith
    nlinarith

/-- The special case taken for `kap` close to `s`. -/
theorem eq_close {n s kap : ℝ} (hs : 1 < s) (hsn : s ≤ n) (hk : 0 < kap) (h : isclose s kap) :
    |muSpec n (linearSmear s s) - muSpec n (linearSmear s kap)| ≤ 2 / 10 ^ 5 * muSpec n (linearSmear s s) := by
  have hn : 1 < n := by linarith
  have hs0 : 0 < s := by linarith
  have hI := isProfile_linear (kap := s) hs.le hsn hs0
  have hpos : ∀ x, 1 ≤ x → 0 ≤ linearSmear s s x := by
    intro x h1
    by_cases h2 : x < s
    · rw [linearSmear_self hs h1 h2]; positivity
    · unfold linearSmear; rw [if_neg h2]; exact zero_le_one
  have m0 := muSpec_nonneg hn hI (fun x h1 _ => hpos x h1)
  unfold isclose at h
  rw [abs_of_pos hk] at h
  have hb := abs_le.1 h
  have hks : |kap / s - 1| ≤ 2 / 10 ^ 5 := by
    have e : kap / s - 1 = (kap - s) / s := by field_simp
    rw [e, abs_div, abs_of_pos hs0, div_le_iff₀ hs0, abs_sub_comm]
    refine h.trans ?_
    norm_num at hb ⊢
    linarith [hb.1, hb.2]
  rw [abs_sub_comm]
  refine (muSpec_close hn (isProfile_linear hs.le hsn hk) hI |kap / s - 1| ?_).trans (mul_le_mul_of_nonneg_right hks m0)
  intro x h1 _
  by_cases h2 : x < s
  · rw [linearSmear_eq hs hk h1 h2, linearSmear_self hs h1 h2]
    have hp := lin_pos hs hk h1 h2.le
    have hs1 : 0 < s - 1 := by linarith
    have e : (kap - 1) / (s - 1) * x + (s - kap) / (s - 1) = (kap * (x - 1) + (s - x)) / (s - 1) := by
      field_simp; ring
    rw [e] at hp ⊢
    have hq : 0 < kap * (x - 1) + (s - x) := by
      have := mul_pos hp hs1
      rwa [div_mul_cancel₀ _ hs1.ne'] at this
    have hx0 : 0 < x := by linarith
    have e2 : kap / ((kap * (x - 1) + (s - x)) / (s - 1)) - s / x = (kap / s - 1) * (s / x) * (s * ((s - x) / (kap * (x - 1) + (s - x)) / s)) := by
      generalize hQ : kap * (x - 1) + (s - x) = Q at *
      field_simp
      rw [← hQ]; ring
    rw [e2, abs_mul, abs_mul, abs_of_pos (by positivity : 0 < s / x)]
    have u : |s * ((s - x) / (kap * (x - 1) + (s - x)) / s)| ≤ 1 := by
      have : s * ((s - x) / (kap * (x - 1) + (s - x)) / s) = (s - x) / (kap * (x - 1) + (s - x)) := by field_simp
      rw [this, abs_of_nonneg (div_nonneg (by linarith) hq.le), div_le_one hq]
      have : 0 ≤ kap * (x - 1) := mul_nonneg hk.le (by linarith)
      linarith
    calc |kap / s - 1| * (s / x) * |s * ((s - x) / (kap * (x - 1) + (s - x)) / s)| ≤ |kap / s - 1| * (s / x) * 1 :=
          mul_le_mul_of_nonneg_left u (by positivity)
      _ = _ := mul_one _
  · have e : ∀ k, linearSmear s k x = 1 := fun k => by unfold linearSmear; rw [if_neg h2]
    rw [e, e]; simp

/-- **C69** `mu_linear` for every valid input: a number within `2e-5` (relative to `μ` and, for a very thin smear zone, to `kap - 1`) of the parameter of the
linear profile. (When no special case is taken the value is exact: `C69_linear`.) -/
theorem C69_linear_all (n s kap : ℝ) (hs : 1 ≤ s) (hsn : s < n) (hk : 0 < kap) :
    ∃ v, muLinear n s kap = .ok v ∧ |v - muSpec n (linearSmear s kap)| ≤ 2 / 10 ^ 5 * (v + n ^ 2 / (n ^ 2 - 1) * |kap - 1|) := by
  have hn : 1 < n := by linarith
  have c0 : 0 ≤ n ^ 2 / (n ^ 2 - 1) * |kap - 1| := mul_nonneg (div_nonneg (by positivity) (by nlinarith)) (abs_nonneg _)
  unfold muLinear
  rw [if_neg (by unfold BadArgs; simp; exact ⟨hn, hs, hk, hsn⟩)]
  by_cases hi : isclose s 1 ∨ isclose kap 1
  · rw [if_pos hi, (C69_ideal n).1 hn]
    exact ⟨_, rfl, ideal_close hs hsn.le hn hk (isProfile_linear hs hsn.le hk) (fun x h1 => linear_dev hk h1)
      (fun x hx => by unfold linearSmear; rw [if_neg (not_lt.2 hx)]) hi⟩
  · rw [if_neg hi]
    push Not at hi
    have e1 : s ≠ 1 := fun e => hi.1 (by rw [e]; unfold isclose; norm_num)
    have e2 : kap ≠ 1 := fun e => hi.2 (by rw [e]; unfold isclose; norm_num)
    have hs1 : 1 < s := lt_of_le_of_ne hs (Ne.symm e1)
    split_ifs with h
    · refine ⟨_, rfl, ?_⟩
      rw [muLinearEqF_eq hn hs1 hsn.le]
      refine (eq_close hs1 hsn.le hk h).trans ?_
      nlinarith
    · refine ⟨_, rfl, ?_⟩
      rw [muLinearNeqF_eq hn hs1 hsn.le hk e2 (fun e => h (by rw [e]; unfold isclose; simp; positivity))]
      rw [sub_self, abs_zero]
      have : 0 ≤ muSpec n (linearSmear s kap) := muSpec_nonneg hn (isProfile_linear hs hsn.le hk) (fun x h1 h2 => by
        by_cases h2 : x < s
        · rw [linearSmear_eq hs1 hk h1 h2]
          exact div_nonneg hk.le (lin_pos hs1 hk h1 h2.le).le
        · unfold linearSmear; rw [if_neg h2]; exact zero_le_one)
      positivity

/-- **C69** `mu_linear` refuses everything else, including a smear zone that reaches the outer boundary. -/
theorem C69_linear_refused (n s kap : ℝ) (h : n ≤ 1 ∨ s < 1 ∨ kap ≤ 0 ∨ n ≤ s) : muLinear n s kap = .error .valueError := by
  unfold muLinear
  rw [if_pos (by unfold BadArgs; simpa using h)]

/-- **C69** `mu_parabolic` for every valid input with `kap ≥ 1`, except where the formula divides by zero (`kap/(kap-1) = (s/(s-1))²`). -/
theorem C69_parabolic (n s kap : ℝ) (hn : 1 < n) (hs : 1 ≤ s) (hsn : s ≤ n) (hk : 1 ≤ kap) (hne : kap / (kap - 1) ≠ (s / (s - 1)) ^ 2) :
    ∃ v, muParabolic n s kap = .ok v ∧ |v - muSpec n (parabolicSmear s kap)| ≤ 2 / 10 ^ 5 * (v + n ^ 2 / (n ^ 2 - 1) * |kap - 1|) ∧
      (Sharp s 1 → Sharp kap 1 → v = muSpec n (parabolicSmear s kap)) := by
  have hk0 : 0 < kap := by linarith
  unfold muParabolic
  rw [if_neg (by unfold BadArgs; simp; exact ⟨hn, hs, hk0, hsn⟩)]
  by_cases hi : isclose s 1 ∨ isclose kap 1
  · rw [if_pos hi, (C69_ideal n).1 hn]
    refine ⟨_, rfl, ideal_close hs hsn hn hk0 (isProfile_parabolic hs hsn hk0) (fun x h1 => parabolic_dev hk0 h1)
      (fun x hx => by unfold parabolicSmear; rw [if_neg (not_lt.2 hx)]) hi, fun c1 c2 => muSpec_congr hn.le ?_⟩
    intro x h1 _
    rcases hi with h | h
    · unfold parabolicSmear; rw [c1 h, if_neg (not_lt.2 h1)]
    · unfold parabolicSmear; rw [c2 h]; simp
  · rw [if_neg hi]
    push Not at hi
    have e1 : s ≠ 1 := fun e => hi.1 (by rw [e]; unfold isclose; norm_num)
    have e2 : kap ≠ 1 := fun e => hi.2 (by rw [e]; unfold isclose; norm_num)
    have hs1 : 1 < s := lt_of_le_of_ne hs (Ne.symm e1)
    have hk1 : 1 < kap := lt_of_le_of_ne hk (Ne.symm e2)
    rw [if_neg (by push Not; exact ⟨hk, hne⟩), muParabolicF_eq hn hs1 hsn hk1 hne]
    refine ⟨_, rfl, ?_, fun _ _ => rfl⟩
    rw [sub_self, abs_zero]
    have c0 : 0 ≤ n ^ 2 / (n ^ 2 - 1) * |kap - 1| := mul_nonneg (div_nonneg (by positivity) (by nlinarith)) (abs_nonneg _)
    have : 0 ≤ muSpec n (parabolicSmear s kap) := muSpec_nonneg hn (isProfile_parabolic hs hsn hk0) (fun x h1 h2 => by
      by_cases h2 : x < s
      · obtain ⟨t, _, _, e, p⟩ := par_bounds hk0 h1 h2
        rw [e]; positivity
      · unfold parabolicSmear; rw [if_neg h2]; exact zero_le_one)
    positivity

/-- **C69** The exception is met by ordinary inputs: `s = 2`, `kap = 4/3` gives no number. -/
theorem C69_parabolic_singular (n : ℝ) (hn : 2 ≤ n) : muParabolic n 2 (4 / 3) = .error .other := by
  unfold muParabolic
  rw [if_neg (by unfold BadArgs; simp; constructor <;> linarith), if_neg (by unfold isclose; norm_num [abs_of_pos]), if_pos (by right; norm_num)]

example : ((5 : ℝ) / (5 - 1) ≠ (3 / (3 - 1)) ^ 2) := by norm_num

/-! ## Overlapping smear zones -/

/-- Overlapping linear smear zones: the permeability rises linearly from `1/kap` at the drain, stops rising where the soil is disturbed by the neighbouring drain too
(`2n - s`), and is `1` beyond `s`. -/
noncomputable def overlapSmear (n s kap x : ℝ) : ℝ := 1 / (1 / kap + (1 - 1 / kap) * ((min (min x s) (max 1 (2 * n - s)) - 1) / (s - 1)))

theorem overlap_normal {n s kap x : ℝ} (hs : 1 < s) (hsn : s ≤ n) (hx : x < n) : overlapSmear n s kap x = linearSmear s kap x := by
  unfold overlapSmear linearSmear
  have e : max 1 (2 * n - s) = 2 * n - s := max_eq_right (by linarith)
  rw [e]
  split_ifs with h
  · rw [min_eq_left (by rw [min_eq_left h.le]; linarith), min_eq_left h.le]
  · push Not at h
    rw [min_eq_right h, min_eq_left (by linarith), div_self (by linarith)]
    simp

theorem overlap_full {n s kap x : ℝ} (h : 2 * n - s ≤ 1) (hn : 1 < n) (hx : 1 ≤ x) : overlapSmear n s kap x = kap := by
  unfold overlapSmear
  rw [max_eq_left h, min_eq_right (le_min hx (by linarith))]
  simp

theorem kapx_pos {n s kap : ℝ} (hk : 0 < kap) (hn : 1 < n) (h1 : 1 < 2 * n - s) (h2 : n < s) : 0 < kapx n s kap := by
  have := lin_pos (s := s) (kap := kap) (x := sx n s) (by linarith) hk (by unfold sx; linarith) (by unfold sx; linarith)
  have hs : s - 1 ≠ 0 := by linarith
  have e : (kap - 1) / (s - 1) * sx n s + (s - kap) / (s - 1) = kapx n s kap := by unfold kapx; field_simp; ring
  rwa [e] at this

theorem overlap_part {n s kap x : ℝ} (hk : 0 < kap) (hn : 1 < n) (h1 : 1 < 2 * n - s) (h2 : n < s) (hx1 : 1 ≤ x) (hx : x < n) :
    overlapSmear n s kap x = kap / kapx n s kap * linearSmear (sx n s) (kapx n s kap) x := by
  have hkx := kapx_pos hk hn h1 h2
  have hs1 : s - 1 ≠ 0 := by linarith
  have hsx : sx n s - 1 ≠ 0 := by unfold sx; linarith
  have ek : kapx n s kap - 1 = (kap - 1) / (s - 1) * (sx n s - 1) := by unfold kapx; ring
  unfold overlapSmear
  rw [min_eq_left (show x ≤ s by linarith), max_eq_right h1.le]
  change 1 / (1 / kap + (1 - 1 / kap) * ((min x (sx n s) - 1) / (s - 1))) = _
  unfold linearSmear
  split_ifs with h
  · rw [min_eq_left h.le]
    have e : 1 / kapx n s kap + (1 - 1 / kapx n s kap) * ((x - 1) / (sx n s - 1)) = (1 + (kap - 1) / (s - 1) * (x - 1)) / kapx n s kap := by
      have : (kap - 1) / (s - 1) = (kapx n s kap - 1) / (sx n s - 1) := by rw [ek]; field_simp
      rw [this]
      field_simp
    have e2 : 1 / kap + (1 - 1 / kap) * ((x - 1) / (s - 1)) = (1 + (kap - 1) / (s - 1) * (x - 1)) / kap := by field_simp
    rw [e, e2, one_div_div, one_div_div]
    field_simp
  · push Not at h
    rw [min_eq_right h, mul_one]
    have e2 : 1 / kap + (1 - 1 / kap) * ((sx n s - 1) / (s - 1)) = kapx n s kap / kap := by unfold kapx; field_simp
    rw [e2, one_div_div]

/-- **C69** `mu_overlapping_linear`, all three regimes. -/
theorem C69_overlapping (n s kap : ℝ) (hn : 1 < n) (hs : 1 < s) (hsn : s ≠ n) (hk : 0 < kap) (c1 : Sharp s 1) (c2 : Sharp kap 1) (c3 : Sharp s kap)
    (d1 : Sharp (2 * n - s) 1) (d2 : Sharp (1 + (kap - 1) / (s - 1) * (2 * n - s - 1)) 1)
    (d3 : Sharp (2 * n - s) (1 + (kap - 1) / (s - 1) * (2 * n - s - 1))) :
    muOverlapping n s kap = .ok (muSpec n (overlapSmear n s kap)) := by
  unfold muOverlapping
  rw [if_neg (by push Not; exact ⟨hn, hs.le, hk⟩)]
  by_cases hi : isclose s 1 ∨ isclose kap 1
  · rw [if_pos hi, (C69_ideal n).1 hn]
    rcases hi with h | h
    · exact absurd (c1 h) hs.ne'
    · congr 1
      apply muSpec_congr hn.le
      intro x _ _
      unfold overlapSmear
      rw [c2 h]; simp
  rw [if_neg hi]
  by_cases h1 : s ≤ n
  · rw [if_pos h1, C69_linear n s kap hs.le (lt_of_le_of_ne h1 hsn) hk c1 c2 c3]
    congr 1
    exact muSpec_congr hn.le (fun x _ hx => (overlap_normal hs h1 hx).symm)
  rw [if_neg h1]
  push Not at h1
  by_cases h2 : 2 * n - s ≤ 1
  · rw [if_pos h2, (C69_ideal n).1 hn]
    simp only [Except.map]
    congr 1
    rw [← muSpec_smul]
    exact muSpec_congr hn.le (fun x hx _ => by rw [overlap_full h2 hn hx, mul_one])
  · rw [if_neg h2]
    push Not at h2
    rw [C69_linear n (sx n s) (kapx n s kap) h2.le (by unfold sx; linarith) (kapx_pos hk hn h2 h1) d1 d2 d3]
    simp only [Except.map]
    congr 1
    rw [show muSpec n (linearSmear (sx n s) (kapx n s kap)) * kap / kapx n s kap = kap / kapx n s kap * muSpec n (linearSmear (sx n s) (kapx n s kap)) by ring, ← muSpec_smul]
    exact muSpec_congr hn.le (fun x h3 h4 => (overlap_part hk hn h2 h1 h3 h4).symm)

/-- **C69** Smear zones that just touch (`s = n`) are refused by `mu_overlapping_linear`, which passes them to `mu_linear`. -/
theorem C69_overlapping_touching (n kap : ℝ) (hn : 2 ≤ n) (hk : 2 ≤ kap) : muOverlapping n n kap = .error .valueError := by
  unfold muOverlapping
  rw [if_neg (by push Not; exact ⟨by linarith, by linarith, by linarith⟩), if_neg, if_pos le_rfl, C69_linear_refused _ _ _ (by simp)]
  unfold isclose
  rw [abs_one, abs_of_nonneg (by linarith), abs_of_nonneg (by linarith)]
  push Not
  constructor <;> norm_num <;> linarith

/-! ## The permeability functions are the profiles -/

/-- **C69** `k_linear`, `k_parabolic` and `k_overlapping_linear` return the permeability of the profiles above. -/
theorem C69_permeability (n s kap x : ℝ) (hs : 1 ≤ s) (hk : 0 < kap) (h1 : 1 ≤ x) (hx : x ≤ n) (hn : 1 < n)
    (c1 : Sharp s 1) (c2 : Sharp kap 1) (c3 : Sharp s kap) :
    (s ≤ n → kLinear n s kap x = .ok (1 / linearSmear s kap x)) ∧
    (s ≤ n → 1 ≤ kap → kParabolic n s kap x = .ok (1 / parabolicSmear s kap x)) ∧
    (1 < s → x < n → kOverlapping n s kap x = .ok (1 / overlapSmear n s kap x)) := by
  have hL : s ≤ n → kLinear n s kap x = .ok (1 / linearSmear s kap x) := by
    intro hsn
    unfold kLinear
    rw [if_neg (by unfold BadArgs; simp; exact ⟨⟨hn, hs, hk, hsn⟩, h1, hx⟩)]
    by_cases hi : isclose s 1 ∨ isclose kap 1
    · rw [if_pos hi]
      rcases hi with h | h
      · rw [c1 h, linearSmear_one_left h1]; simp
      · rw [c2 h, linearSmear_one_right]; simp
    rw [if_neg hi]
    split_ifs with a b
    · have hs1 : 1 < s := by linarith
      rw [← c3 b, linearSmear_self hs1 h1 a, one_div_div]; congr 1; ring
    · have hs1 : 1 < s := by linarith
      rw [linearSmear_eq hs1 hk h1 a, one_div_div]; congr 1; ring
    · unfold linearSmear; rw [if_neg a]; simp
  refine ⟨hL, fun hsn hk1 => ?_, fun hs1 hxn => ?_⟩
  · unfold kParabolic
    rw [if_neg (by unfold BadArgs; simp; exact ⟨⟨hn, hs, hk, hsn⟩, h1, hx⟩)]
    by_cases hi : isclose s 1 ∨ isclose kap 1
    · rw [if_pos hi]
      rcases hi with h | h
      · unfold parabolicSmear; rw [c1 h, if_neg (not_lt.2 h1)]; simp
      · unfold parabolicSmear; rw [c2 h]; simp
    rw [if_neg hi]
    push Not at hi
    have e2 : kap ≠ 1 := fun e => hi.2 (by rw [e]; unfold isclose; norm_num)
    have hk2 : 1 < kap := lt_of_le_of_ne hk1 (Ne.symm e2)
    split_ifs with a b
    · exact absurd b (not_lt.2 hk1)
    · have hs1 : 1 < s := by linarith
      obtain ⟨A, B, hA, hB, eA, eB, eC, ek, es⟩ := par_data hs1 hk2
      rw [parabolicSmear_eq hA hB ek es a, one_div_div]
      unfold kParabolicPart
      rw [eA, eB, eC]
      congr 1
      have a0 : A ≠ 0 := by linarith
      have a2 : A ^ 2 - 1 ≠ 0 := by nlinarith
      have : 1 / kap * (kap - 1) = 1 / A ^ 2 := by rw [ek]; field_simp; ring
      dsimp only
      rw [this]; ring
    · unfold parabolicSmear; rw [if_neg a]; simp
  · have hs0 : s - 1 ≠ 0 := by linarith
    unfold kOverlapping
    rw [if_neg (by push Not; exact ⟨hn, hs, hk, h1, hx⟩)]
    by_cases hi : isclose s 1 ∨ isclose kap 1
    · rw [if_pos hi]
      rcases hi with h | h
      · exact absurd (c1 h) hs1.ne'
      · unfold overlapSmear; rw [c2 h]; simp
    rw [if_neg hi]
    by_cases a : 2 * n - s ≤ 1
    · rw [if_pos a, overlap_full a hn h1]
    rw [if_neg a]
    push Not at a
    by_cases b : s ≤ n
    · rw [if_pos b, hL b, overlap_normal hs1 b hxn]
    rw [if_neg b]
    push Not at b
    have : overlapSmear n s kap x = 1 / (1 / kap + (1 - 1 / kap) * ((min x (sx n s) - 1) / (s - 1))) := by
      unfold overlapSmear
      rw [min_eq_left (show x ≤ s by linarith), max_eq_right a.le]
      rfl
    rw [this, one_div_one_div]
    split_ifs with c
    · rw [min_eq_left c.le]; congr 1; field_simp; ring
    · rw [min_eq_right (not_lt.1 c)]; congr 1; unfold kapx; field_simp

end Geotecha.Smear
