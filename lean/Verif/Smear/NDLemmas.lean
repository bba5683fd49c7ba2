import Verif.Smear.NDAnti
import Verif.Smear.SpecND

/-! # The non-Darcian zone sums as integrals -/

set_option autoImplicit false
set_option linter.unusedVariables false
namespace Geotecha.Smear
open MeasureTheory intervalIntegral Set Real Filter Topology
open Geotecha (PyErr)

theorem int_beta {n nf a b : ℝ} (h : 1 < nf) (T : ℕ) (ha : 0 < a) (hab : a ≤ b) (k : ℝ) :
    ∫ x in a..b, k * ((n ^ 2 - x ^ 2) * wT n nf T x) =
      k * (((n ^ 2 - b ^ 2) * gRec b n nf T + 2 * gbarRec b n nf T) - ((n ^ 2 - a ^ 2) * gRec a n nf T + 2 * gbarRec a n nf T)) := by
  have := integral_eq_sub_of_hasDerivAt (f := fun x => k * ((n ^ 2 - x ^ 2) * gRec x n nf T + 2 * gbarRec x n nf T))
    (f' := fun x => k * ((n ^ 2 - x ^ 2) * wT n nf T x)) (a := a) (b := b)
    (by
      intro x hx
      rw [uIcc_of_le hab] at hx
      have hx0 : 0 < x := lt_of_lt_of_le ha hx.1
      have h1 : HasDerivAt (fun r : ℝ => n ^ 2 - r ^ 2) (-(2 * x)) x := by
        have := ((hasDerivAt_id x).pow 2).const_sub (n ^ 2)
        simp only [id] at this
        exact this.congr_deriv (by push_cast; ring)
      exact (((h1.mul (gRec_deriv hx0 h T)).add ((gbarRec_deriv hx0 h T).const_mul 2)).const_mul k).congr_deriv (by ring))
    (by
      apply ContinuousOn.intervalIntegrable
      rw [uIcc_of_le hab]
      exact continuousOn_const.mul ((by fun_prop : Continuous fun x : ℝ => n ^ 2 - x ^ 2).continuousOn.mul (wT_cont n nf T ha)))
  rw [this]; ring

theorem int_wT {n nf a b : ℝ} (h : 1 < nf) (T : ℕ) (ha : 0 < a) (hab : a ≤ b) (k : ℝ) :
    ∫ x in a..b, k * wT n nf T x = k * (gRec b n nf T - gRec a n nf T) := by
  have := integral_eq_sub_of_hasDerivAt (f := fun x => k * gRec x n nf T) (f' := fun x => k * wT n nf T x) (a := a) (b := b)
    (by
      intro x hx
      rw [uIcc_of_le hab] at hx
      exact (gRec_deriv (lt_of_lt_of_le ha hx.1) h T).const_mul k)
    (by
      apply ContinuousOn.intervalIntegrable
      rw [uIcc_of_le hab]
      exact continuousOn_const.mul (wT_cont n nf T ha))
  rw [this]; ring

/-- The zones with the permeability ratio to the power `1/nf`. -/
noncomputable def powPiece (nf : ℝ) (z : CZone) : Piece := ⟨z.lo, z.hi, fun _ => z.kap ^ (1 / nf)⟩

theorem pow_tiles {a n nf : ℝ} {zs : List CZone} (h : Tiles a n (zs.map cPiece)) : Tiles a n (zs.map (powPiece nf)) := by
  induction zs generalizing a with
  | nil => exact h
  | cons z zs ih => exact ⟨h.1, h.2.1, continuousOn_const, ih h.2.2.2⟩

theorem pow_profile (nf : ℝ) (zs : List CZone) (x : ℝ) : profile (zs.map cPiece) x ^ (1 / nf) = profile (zs.map (powPiece nf)) x := by
  induction zs with
  | nil => simp [profile]
  | cons z zs ih =>
    simp only [List.map_cons, profile, powPiece, cPiece]
    split_ifs
    · rfl
    · exact ih

theorem ndSum_eq {n nf a : ℝ} (h : 1 < nf) (T : ℕ) (done todo : List CZone) (ha : 0 < a) (ht : Tiles a n (todo.map (powPiece nf)))
    (hk : ∀ z ∈ todo, 0 < z.kap) :
    ndSum n nf T done todo = ((todo.map (powPiece nf)).map fun p => ∫ x in p.lo..p.hi, p.κ x * ((n ^ 2 - x ^ 2) * wT n nf T x)).sum
      + ndPsi n nf T done * (n ^ 2 - a ^ 2) := by
  induction todo generalizing done a with
  | nil =>
    have : a = n := ht
    rw [this]
    simp [ndSum]
  | cons z zs ih =>
    obtain ⟨t1, t2, _, t4⟩ := ht
    have t1 : z.lo = a := t1
    have t2 : a ≤ z.hi := t2
    have hz : z.kap ^ (1 / nf) ≠ 0 := (rpow_pos_of_pos (hk z (by simp)) _).ne'
    rw [ndSum, ih (a := z.hi) _ (lt_of_lt_of_le ha t2) t4 (fun y hy => hk y (by simp [hy]))]
    simp only [List.map_cons, List.sum_cons]
    have e : ndPsi n nf T (done ++ [z]) = ndPsi n nf T done + z.kap ^ (1 / nf) * (gRec z.hi n nf T - gRec z.lo n nf T) := by
      unfold ndPsi; simp
    have e2 : ∫ x in (powPiece nf z).lo..(powPiece nf z).hi, (powPiece nf z).κ x * ((n ^ 2 - x ^ 2) * wT n nf T x) =
        ∫ x in z.lo..z.hi, z.kap ^ (1 / nf) * ((n ^ 2 - x ^ 2) * wT n nf T x) := rfl
    rw [e, e2, int_beta h T (by rw [t1]; exact ha) (by rw [t1]; exact t2), t1]
    field_simp
    ring

theorem head_split {a c n : ℝ} {w : ℝ → ℝ} {ps : List Piece} {p : Piece} (hw : ContinuousOn w (Icc a n)) (ht : Tiles a n (p :: ps)) (h1 : p.hi ≤ c) (h2 : c ≤ n) :
    ∫ x in a..c, profile (p :: ps) x * w x = (∫ x in p.lo..p.hi, p.κ x * w x) + ∫ x in p.hi..c, profile ps x * w x := by
  have hint := profile_int ht
  obtain ⟨t1, t2, t3, t4⟩ := ht
  have hle := tiles_le t4
  have i1 : IntervalIntegrable (fun x => profile (p :: ps) x * w x) volume a p.hi := by
    refine (hint.mono_set ?_).mul_continuousOn ?_
    · rw [uIcc_of_le t2, uIcc_of_le (le_trans t2 hle)]; exact Icc_subset_Icc le_rfl hle
    · rw [uIcc_of_le t2]; exact hw.mono (Icc_subset_Icc le_rfl hle)
  have i2 : IntervalIntegrable (fun x => profile (p :: ps) x * w x) volume p.hi c := by
    refine (hint.mono_set ?_).mul_continuousOn ?_
    · rw [uIcc_of_le h1, uIcc_of_le (le_trans t2 hle)]; exact Icc_subset_Icc t2 h2
    · rw [uIcc_of_le h1]; exact hw.mono (Icc_subset_Icc t2 h2)
  rw [← integral_add_adjacent_intervals i1 i2, intervalIntegral.integral_congr_ae (profile_congr t2 le_rfl), intervalIntegral.integral_congr_ae (profile_tail_congr h1 le_rfl), t1]

theorem ndStep_eq {n nf a r : ℝ} (h : 1 < nf) (T : ℕ) (done todo : List CZone) (ha : 0 < a) (ht : Tiles a n (todo.map (powPiece nf)))
    (hk : ∀ z ∈ todo, 0 < z.kap) (har : a ≤ r) (hrn : r ≤ n) (hne : todo ≠ []) :
    ndStep n nf T r done todo = some (ndPsi n nf T done + ∫ x in a..r, profile (todo.map (powPiece nf)) x * wT n nf T x) := by
  induction todo generalizing done a with
  | nil => exact absurd rfl hne
  | cons z zs ih =>
    have ht0 := ht
    obtain ⟨t1, t2, _, t4⟩ := ht
    have t1 : z.lo = a := t1
    have t2 : a ≤ z.hi := t2
    have hz : z.kap ^ (1 / nf) ≠ 0 := (rpow_pos_of_pos (hk z (by simp)) _).ne'
    rw [ndStep]
    split_ifs with hle
    · congr 1
      rw [List.map_cons, intervalIntegral.integral_congr_ae (profile_congr har (p := powPiece nf z) hle)]
      change _ = _ + ∫ x in a..r, z.kap ^ (1 / nf) * wT n nf T x
      rw [int_wT h T ha har, t1]
      field_simp
      ring
    · push Not at hle
      have hzs : zs ≠ [] := by
        rintro rfl
        have : z.hi = n := t4
        linarith
      rw [ih (a := z.hi) _ (lt_of_lt_of_le ha t2) t4 (fun y hy => hk y (by simp [hy])) hle.le hzs]
      congr 1
      rw [List.map_cons, head_split (wT_cont n nf T ha) ht0 (p := powPiece nf z) hle.le hrn]
      have e : ndPsi n nf T (done ++ [z]) = ndPsi n nf T done + z.kap ^ (1 / nf) * (gRec z.hi n nf T - gRec z.lo n nf T) := by
        unfold ndPsi; simp
      have e2 : ∫ x in (powPiece nf z).lo..(powPiece nf z).hi, (powPiece nf z).κ x * wT n nf T x =
          ∫ x in z.lo..z.hi, z.kap ^ (1 / nf) * wT n nf T x := rfl
      have e3 : (powPiece nf z).hi = z.hi := rfl
      rw [e, e2, e3, int_wT h T (by rw [t1]; exact ha) (by rw [t1]; exact t2)]
      ring

/-! ## The truncation error -/

theorem int_pow {n : ℝ} (hn : 1 < n) (T : ℕ) :
    ∫ x in (1 : ℝ)..n, (n ^ 2 - x ^ 2) * (x / n) ^ (2 * T) ≤ 2 * n ^ 3 / ((2 * T + 1) * (2 * T + 3)) := by
  have hn0 : n ≠ 0 := by linarith
  have := integral_eq_sub_of_hasDerivAt (f := fun x : ℝ => (n ^ 2 * x ^ (2 * T + 1) / (2 * T + 1) - x ^ (2 * T + 3) / (2 * T + 3)) / n ^ (2 * T))
    (f' := fun x => (n ^ 2 - x ^ 2) * (x / n) ^ (2 * T)) (a := 1) (b := n)
    (by
      intro x _
      have h1 := ((hasDerivAt_pow (2 * T + 1) x).const_mul (n ^ 2)).div_const ((2 : ℝ) * T + 1)
      have h2 := (hasDerivAt_pow (2 * T + 3) x).div_const ((2 : ℝ) * T + 3)
      refine ((h1.sub h2).div_const (n ^ (2 * T))).congr_deriv ?_
      have e1 : (2 : ℝ) * T + 1 ≠ 0 := by positivity
      have e2 : (2 : ℝ) * T + 3 ≠ 0 := by positivity
      rw [div_pow, show 2 * T + 1 - 1 = 2 * T by omega, show 2 * T + 3 - 1 = 2 * T + 2 by omega, pow_add]
      push_cast
      field_simp)
    (Continuous.intervalIntegrable (by fun_prop) _ _)
  rw [this]
  have e1 : (0 : ℝ) < 2 * T + 1 := by positivity
  have e2 : (0 : ℝ) < 2 * T + 3 := by positivity
  have ht : (0 : ℝ) ≤ T := Nat.cast_nonneg T
  have hpos : 0 ≤ (n ^ 2 * 1 ^ (2 * T + 1) / (2 * T + 1) - 1 ^ (2 * T + 3) / (2 * T + 3)) / n ^ (2 * T) := by
    apply div_nonneg _ (by positivity)
    rw [one_pow, one_pow, mul_one, sub_nonneg, div_le_div_iff₀ e2 e1]
    have h2 : 1 ≤ n ^ 2 := by nlinarith
    nlinarith
  have hn' : (n ^ 2 * n ^ (2 * T + 1) / (2 * T + 1) - n ^ (2 * T + 3) / (2 * T + 3)) / n ^ (2 * T) = 2 * n ^ 3 / ((2 * T + 1) * (2 * T + 3)) := by
    rw [pow_add n (2 * T) 1, pow_add n (2 * T) 3]
    field_simp
    ring
  rw [hn']
  linarith

/-- The bound on the error of `β` with `T` terms when `κ ^ (1/nf) ≤ K`. -/
noncomputable def betaTol (n nf K : ℝ) (T : ℕ) : ℝ := K * (2 * n ^ 3 / ((n ^ 2 - 1) * ((2 * T + 1) * (2 * T + 3)))) * (T : ℝ) ^ (-(1 / nf))

theorem beta_error {n nf : ℝ} (hn : 1 < n) (h : 1 < nf) {T : ℕ} (hT : 0 < T) {κ : ℝ → ℝ} (hP : IsProfile n κ) (h0 : ∀ x, 1 ≤ x → x < n → 0 ≤ κ x) {K : ℝ}
    (hK : ∀ x, 1 ≤ x → x < n → κ x ≤ K) :
    average n (head (wE n nf) κ) ≤ average n (head (wT n nf T) κ) ∧
    average n (head (wT n nf T) κ) - average n (head (wE n nf) κ) ≤ betaTol n nf K T := by
  have cT := wT_cont n nf T one_pos (b := n)
  have cE := wE_cont n h one_pos hn.le
  have hn2 : 0 < n ^ 2 - 1 := by nlinarith
  constructor
  · refine average_head_mono hn hP hP cE cT fun x a b => mul_le_mul_of_nonneg_left ?_ (h0 x a b)
    exact (wT_error h hT a b.le).1
  · rw [average_head hn hP cT, average_head hn hP cE, ← mul_sub]
    have cq : ContinuousOn (fun x : ℝ => n ^ 2 - x ^ 2) (Icc 1 n) := by fun_prop
    have i1 : IntervalIntegrable (fun x => κ x * ((n ^ 2 - x ^ 2) * wT n nf T x)) volume 1 n :=
      hP.integrable.mul_continuousOn (by rw [uIcc_of_le hn.le]; exact cq.mul cT)
    have i2 : IntervalIntegrable (fun x => κ x * ((n ^ 2 - x ^ 2) * wE n nf x)) volume 1 n :=
      hP.integrable.mul_continuousOn (by rw [uIcc_of_le hn.le]; exact cq.mul cE)
    rw [← intervalIntegral.integral_sub i1 i2]
    have hK0 : 0 ≤ K := le_trans (h0 1 le_rfl hn) (hK 1 le_rfl hn)
    have hle : (∫ x in (1 : ℝ)..n, (κ x * ((n ^ 2 - x ^ 2) * wT n nf T x) - κ x * ((n ^ 2 - x ^ 2) * wE n nf x))) ≤
        ∫ x in (1 : ℝ)..n, (K * (T : ℝ) ^ (-(1 / nf))) * ((n ^ 2 - x ^ 2) * (x / n) ^ (2 * T)) := by
      apply intervalIntegral.integral_mono_on hn.le (i1.sub i2) (Continuous.intervalIntegrable (by fun_prop) _ _)
      intro x hx
      rcases lt_or_eq_of_le hx.2 with hlt | rfl
      · have e := (wT_error h hT hx.1 hx.2).2
        have e0 := (wT_error h hT hx.1 hx.2).1
        have q : 0 ≤ n ^ 2 - x ^ 2 := by nlinarith [hx.1]
        have hp : 0 ≤ (x / n) ^ (2 * T) * (T : ℝ) ^ (-(1 / nf)) := by
          have : 0 ≤ x / n := div_nonneg (by linarith [hx.1]) (by linarith)
          positivity
        calc _ = κ x * ((n ^ 2 - x ^ 2) * (wT n nf T x - (1 / x - x / n ^ 2) ^ (1 / nf))) := by unfold wE; ring
          _ ≤ κ x * ((n ^ 2 - x ^ 2) * ((x / n) ^ (2 * T) * (T : ℝ) ^ (-(1 / nf)))) :=
            mul_le_mul_of_nonneg_left (mul_le_mul_of_nonneg_left e q) (h0 x hx.1 hlt)
          _ ≤ K * ((n ^ 2 - x ^ 2) * ((x / n) ^ (2 * T) * (T : ℝ) ^ (-(1 / nf)))) :=
            mul_le_mul_of_nonneg_right (hK x hx.1 hlt) (mul_nonneg q hp)
          _ = _ := by ring
      · simp
    rw [intervalIntegral.integral_const_mul] at hle
    have hb := int_pow hn T
    have hT0 : 0 ≤ (T : ℝ) ^ (-(1 / nf)) := rpow_nonneg (Nat.cast_nonneg T) _
    calc _ ≤ 1 / (n ^ 2 - 1) * (K * (T : ℝ) ^ (-(1 / nf)) * (2 * n ^ 3 / ((2 * T + 1) * (2 * T + 3)))) := by
          apply mul_le_mul_of_nonneg_left _ (by positivity)
          exact hle.trans (mul_le_mul_of_nonneg_left hb (mul_nonneg hK0 hT0))
      _ = _ := by unfold betaTol; field_simp

theorem betaTol_tendsto {n nf : ℝ} (hn : 1 < n) (h : 1 < nf) (K : ℝ) : Tendsto (betaTol n nf K) atTop (𝓝 0) := by
  have h1 : Tendsto (fun T : ℕ => (T : ℝ) ^ (-(1 / nf))) atTop (𝓝 0) :=
    (tendsto_rpow_neg_atTop (inv_bounds h).1).comp tendsto_natCast_atTop_atTop
  have h2 : Tendsto (fun T : ℕ => (2 * (T : ℝ) + 1) * (2 * T + 3)) atTop atTop := by
    apply tendsto_atTop_mono (f := fun T : ℕ => (T : ℝ)) _ tendsto_natCast_atTop_atTop
    intro T
    have : (0 : ℝ) ≤ T := Nat.cast_nonneg T
    nlinarith
  have h3 : Tendsto (fun T : ℕ => K * (2 * n ^ 3 / ((n ^ 2 - 1) * ((2 * (T : ℝ) + 1) * (2 * T + 3))))) atTop (𝓝 (K * 0)) := by
    apply Tendsto.const_mul
    apply Tendsto.div_atTop tendsto_const_nhds
    exact h2.const_mul_atTop (by nlinarith)
  have := h3.mul h1
  rw [mul_zero] at this
  exact this

end Geotecha.Smear
