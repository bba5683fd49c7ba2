import Verif.Speccon.VRSystem

/-!
# The truncated series inserted into the weak form (helpers for C77)
-/

set_option linter.unusedVariables false
open Real intervalIntegral MeasureTheory Filter Topology
namespace Geotecha.Speccon
open Geotecha.Spec Geotecha.Piecewise

variable {x : VR} {S : Set ℝ} {s tend : ℝ} {G : Ground}

/-- Storage seen by `sin(w z)` for the pressure `sin(w' z)`. -/
noncomputable def gamma (G : Ground) (w w' : ℝ) : ℝ := ∫ z in (0:ℝ)..1, G.mv z * sin (w * z) * sin (w' * z)

/-- Outflow seen by `sin(w z)` for the pressure `sin(w' z)`. -/
noncomputable def psiForm (G : Ground) (w w' : ℝ) : ℝ :=
  (∫ z in (0:ℝ)..1, G.vert z * (w * cos (w * z)) * (w' * cos (w' * z))) + (∫ z in (0:ℝ)..1, G.horiz z * sin (w * z) * sin (w' * z))
    + (G.fixed.map (fun f => f.2.1 * sin (w * f.1) * sin (w' * f.1))).sum

theorem vert_bdd (h : VRInput x S s tend G) : BddOn G.vert 0 1 := by
  have hh := h.vert
  have hz : ∀ (c : ℝ), BddOn (fun _ => c) 0 1 := fun c => BddOn.of_continuous continuous_const 0 1
  rcases e1 : x.kv with _ | kv <;> rcases e3 : x.dTv with _ | c <;> rw [e1, e3] at hh <;>
    first
      | (obtain ⟨f, k, hf, hk, hfg, hke⟩ := hh
         rw [show G.vert = fun z => c * f z from funext hfg]
         exact (hz c).mul (Profile.bdd hf))
      | (rw [show G.vert = fun z => 0 from funext hh.1]; exact hz 0)

theorem horiz_bdd (h : VRInput x S s tend G) : BddOn G.horiz 0 1 :=
  (eVacuum_solves (B := ⟨[], fun _ => 0, fun _ _ => 0, 0, x.impl⟩) h (by simp) (by simp)).2.1

theorem drain_bdd (h : VRInput x S s tend G) (r : ℝ) : BddOn (fun z => G.drain z r) 0 1 :=
  (eVacuum_solves (B := ⟨[], fun _ => 0, fun _ _ => 0, 0, x.impl⟩) h (by simp) (by simp)).2.2.1 r

theorem drain_int (h : VRInput x S s tend G) (w t : ℝ) (h1 : s ≤ t) (h2 : t ≤ tend) :
    IntervalIntegrable (fun r => ∫ z in (0:ℝ)..1, G.horiz z * sin (w * z) * G.drain z r) volume s t :=
  (eVacuum_solves (B := ⟨[], fun _ => 0, fun _ _ => 0, 0, x.impl⟩) h (by simp) (by simp)).2.2.2 w t h1 h2

theorem surcharge_bdd (h : VRInput x S s tend G) (t : ℝ) : BddOn (fun z => G.surcharge z t - G.surcharge0 z) 0 1 := by
  have hs := h.surcharge
  have hz : ∀ (c : ℝ), BddOn (fun _ => c) 0 1 := fun c => BddOn.of_continuous continuous_const 0 1
  rcases e1 : x.surchargeDepth with _ | d <;> rcases e2 : x.surchargeTime with _ | l <;> rw [e1, e2] at hs <;>
    first
      | (obtain ⟨hs, a1, a2, a3⟩ := hs
         have hb : ∀ y ∈ hs, BddOn y.1 0 1 := forall₂_right a1 (fun a b hab => Profile.bdd hab.1)
         have c1 : BddOn (fun z => (hs.map (fun h => h.1 z * h.2.1 t)).sum) 0 1 := BddOn.listSum (fun w hw => (hb w hw).mul (hz _))
         have c2 : BddOn (fun z => (hs.map (fun h => h.1 z * h.2.2)).sum) 0 1 := BddOn.listSum (fun w hw => (hb w hw).mul (hz _))
         refine (c1.add (c2.mul (hz (-1)))).congr_Ioo (fun z _ _ => ?_)
         rw [a2, a3]; ring)
      | (refine (hz 0).congr_Ioo (fun z _ _ => ?_)
         rw [hs.1, hs.2]; ring)

theorem top_int (h : VRInput x S s tend G) {t : ℝ} (h1 : s ≤ t) (h2 : t ≤ tend) :
    IntervalIntegrable G.top volume s t ∧ IntervalIntegrable G.bot volume s t := by
  obtain ⟨bot, tops, bots, e0, hb, ht1, ht2, hb1, hb2, hn⟩ := normBot_ok h
  rw [← show (fun r => total tops r) = G.top from funext ht1, ← show (fun r => total bots r) = G.bot from funext hb1]
  exact ⟨(hb.top.total_int h1 h2).1, (hb.bot.total_int h1 h2).1⟩

theorem fixed_int (h : VRInput x S s tend G) {t : ℝ} (h1 : s ≤ t) (h2 : t ≤ tend) : ∀ f ∈ G.fixed, IntervalIntegrable f.2.2 volume s t := by
  have hh := h.fixed
  rcases e1 : x.fixedPpress with _ | l <;> rw [e1] at hh
  · simp [show G.fixed = [] from hh]
  · refine forall₂_right hh.2 (fun a b hab => ?_)
    obtain ⟨_, _, h3⟩ := hab
    cases hq : a.1.2.2 with
    | none =>
      rw [hq] at h3
      rw [show b.2.2 = fun _ => 0 from funext h3]
      exact intervalIntegrable_const
    | some p =>
      rw [hq] at h3
      obtain ⟨h0, H⟩ := h3
      exact H.solve.2.1 t h1 h2

theorem pumps_int (h : VRInput x S s tend G) {t : ℝ} (h1 : s ≤ t) (h2 : t ≤ tend) : ∀ p ∈ G.pumps, IntervalIntegrable p.2 volume s t := by
  have hh := h.pumps
  rcases e1 : x.pumping with _ | l <;> rw [e1] at hh
  · simp [show G.pumps = [] from hh]
  · refine forall₂_right hh.2 (fun a b hab => ?_)
    obtain ⟨_, g, g0, hg, he⟩ := hab
    rw [show b.2 = fun t => g t / (x.mvref * x.H) from funext he]
    exact (hg.solve.2.1 t h1 h2).div_const _

/-- Depth integral of a weight times the series. -/
theorem weight_sum {F g : ℝ → ℝ} (hF : BddOn F 0 1) (n : ℕ) (c : ℕ → ℝ) (p : ℕ → ℝ → ℝ) (hp : ∀ j, Continuous (p j)) (T Bt : ℝ) {q r : ℝ → ℝ}
    (hq : Continuous q) (hr : Continuous r) (hg : BddOn g 0 1) :
    ∫ z in (0:ℝ)..1, F z * ((∑ j ∈ Finset.range n, c j * p j z) + q z * T + r z * Bt - g z) =
      (∑ j ∈ Finset.range n, (∫ z in (0:ℝ)..1, F z * p j z) * c j) + (∫ z in (0:ℝ)..1, F z * q z) * T + (∫ z in (0:ℝ)..1, F z * r z) * Bt
        - ∫ z in (0:ℝ)..1, F z * g z := by
  have cc : ∀ {k : ℝ → ℝ}, Continuous k → BddOn k 0 1 := fun hk => BddOn.of_continuous hk 0 1
  have i1 : ∀ j, IntervalIntegrable (fun z => (F z * p j z) * c j) volume 0 1 := fun j => ((hF.mul (cc (hp j))).int zero_le_one).mul_const _
  have i0 : IntervalIntegrable (fun z => ∑ j ∈ Finset.range n, (F z * p j z) * c j) volume 0 1 :=
    (BddOn.sum (fun j _ => (hF.mul (cc (hp j))).mul (cc continuous_const))).int zero_le_one
  have i2 : IntervalIntegrable (fun z => (F z * q z) * T) volume 0 1 := ((hF.mul (cc hq)).int zero_le_one).mul_const _
  have i3 : IntervalIntegrable (fun z => (F z * r z) * Bt) volume 0 1 := ((hF.mul (cc hr)).int zero_le_one).mul_const _
  have i4 : IntervalIntegrable (fun z => F z * g z) volume 0 1 := (hF.mul hg).int zero_le_one
  have ex : (fun z => F z * ((∑ j ∈ Finset.range n, c j * p j z) + q z * T + r z * Bt - g z)) =
      fun z => (∑ j ∈ Finset.range n, (F z * p j z) * c j) + (F z * q z) * T + (F z * r z) * Bt - F z * g z := by
    funext z
    rw [mul_sub, mul_add, mul_add, Finset.mul_sum]
    congr 1
    congr 1
    · congr 1
      · exact Finset.sum_congr rfl (fun j _ => by ring)
      · ring
    · ring
  rw [ex, intervalIntegral.integral_sub ((i0.add i2).add i3) i4, intervalIntegral.integral_add (i0.add i2) i3,
    intervalIntegral.integral_add i0 i2, intervalIntegral.integral_finsetSum (fun j _ => i1 j)]
  simp only [intervalIntegral.integral_mul_const]

theorem list_expand (l : List (ℝ × ℝ × (ℝ → ℝ))) (n : ℕ) (c : ℕ → ℝ) (p : ℕ → ℝ → ℝ) (P q r : ℝ → ℝ) (T Bt τ : ℝ) :
    (l.map (fun f => f.2.1 * P f.1 * (((∑ j ∈ Finset.range n, c j * p j f.1) + q f.1 * T + r f.1 * Bt) - f.2.2 τ))).sum =
      (∑ j ∈ Finset.range n, (l.map (fun f => f.2.1 * P f.1 * p j f.1)).sum * c j) + (l.map (fun f => f.2.1 * P f.1 * q f.1)).sum * T
      + (l.map (fun f => f.2.1 * P f.1 * r f.1)).sum * Bt - (l.map (fun f => f.2.1 * P f.1 * f.2.2 τ)).sum := by
  induction l with
  | nil => simp
  | cons a l ih =>
    simp only [List.map_cons, List.sum_cons, ih]
    have e : ∑ j ∈ Finset.range n, (a.2.1 * P a.1 * p j a.1 + (l.map (fun f => f.2.1 * P f.1 * p j f.1)).sum) * c j =
        a.2.1 * P a.1 * (∑ j ∈ Finset.range n, c j * p j a.1) + ∑ j ∈ Finset.range n, (l.map (fun f => f.2.1 * P f.1 * p j f.1)).sum * c j := by
      rw [Finset.mul_sum, ← Finset.sum_add_distrib]
      exact Finset.sum_congr rfl (fun j _ => by ring)
    rw [e]
    ring

/-- The series with its boundary part. -/
noncomputable def series (G : Ground) (n : ℕ) (w : ℕ → ℝ) (A : ℕ → ℝ → ℝ) (z t : ℝ) : ℝ :=
  (∑ j ∈ Finset.range n, A j t * sin (w j * z)) + bTop G z * G.top t + z * G.bot t

/-- Its gradient with depth. -/
noncomputable def seriesZ (G : Ground) (n : ℕ) (w : ℕ → ℝ) (A : ℕ → ℝ → ℝ) (z t : ℝ) : ℝ :=
  (∑ j ∈ Finset.range n, A j t * (w j * cos (w j * z))) + (G.drn - 1 : ℝ) * G.top t + 1 * G.bot t

theorem series_deriv (G : Ground) (n : ℕ) (w : ℕ → ℝ) (A : ℕ → ℝ → ℝ) (z t : ℝ) :
    HasDerivAt (fun z => series G n w A z t) (seriesZ G n w A z t) z := by
  unfold series seriesZ bTop
  refine (HasDerivAt.add (HasDerivAt.add ?_ ?_) ?_)
  · refine HasDerivAt.fun_sum (fun j _ => ?_)
    exact (((hasDerivAt_id z).const_mul (w j)).sin.const_mul (A j t)).congr_deriv (by simp only [id, mul_one]; ring)
  · exact ((((hasDerivAt_id z).const_mul (1 - (G.drn:ℝ))).const_sub 1).mul_const _).congr_deriv (by simp)
  · exact (hasDerivAt_id z).mul_const _

/-- Flow of the series at one time. -/
theorem flow_eq (h : VRInput x S s tend G) (n : ℕ) (w : ℕ → ℝ) (A : ℕ → ℝ → ℝ) (i : ℕ)
    (hw : ∀ j, j < n → sin (w i) * cos (w j) = 0) (r : ℝ) :
    G.flow (series G n w A) (seriesZ G n w A) (fun z => sin (w i * z)) (fun z => w i * cos (w i * z)) r =
      (∑ j ∈ Finset.range n, psiForm G (w i) (w j) * A j r) + cTop G (w i) * G.top r + cBot G (w i) * G.bot r
      - (∫ z in (0:ℝ)..1, G.horiz z * sin (w i * z) * G.drain z r)
      - (G.fixed.map (fun f => f.2.1 * sin (w i * f.1) * f.2.2 r)).sum
      - (G.pumps.map (fun p => sin (w i * p.1) * p.2 r)).sum := by
  unfold Ground.flow
  have cc : ∀ {k : ℝ → ℝ}, Continuous k → BddOn k 0 1 := fun hk => BddOn.of_continuous hk 0 1
  have e1 := weight_sum (g := fun _ => 0) ((vert_bdd h).mul (cc (k := fun z => w i * cos (w i * z)) (by fun_prop))) n (fun j => A j r)
    (fun j z => w j * cos (w j * z)) (fun j => by fun_prop) (G.top r) (G.bot r) (q := fun _ => (G.drn - 1 : ℝ)) (r := fun _ => (1:ℝ))
    continuous_const continuous_const (cc continuous_const)
  have e2 := weight_sum ((horiz_bdd h).mul (cc (k := fun z => sin (w i * z)) (by fun_prop))) n (fun j => A j r)
    (fun j z => sin (w j * z)) (fun j => by fun_prop) (G.top r) (G.bot r) (q := bTop G) (r := fun z => z)
    (by unfold bTop; fun_prop) (by fun_prop) (drain_bdd h r)
  have e3 := list_expand G.fixed n (fun j => A j r) (fun j z => sin (w j * z)) (fun z => sin (w i * z)) (bTop G) (fun z => z)
    (G.top r) (G.bot r) r
  simp only [sub_zero, mul_zero, intervalIntegral.integral_zero] at e1
  have e4 : G.vertEnd * sin (w i * 1) * seriesZ G n w A 1 r = G.vertEnd * sin (w i * 1) * ((G.drn - 1 : ℝ) * G.top r + G.bot r) := by
    have : sin (w i * 1) * ∑ j ∈ Finset.range n, A j r * (w j * cos (w j * 1)) = 0 := by
      rw [Finset.mul_sum]
      refine Finset.sum_eq_zero (fun j hj => ?_)
      have := hw j (Finset.mem_range.1 hj)
      rw [mul_one, mul_one]
      linear_combination A j r * w j * this
    unfold seriesZ
    linear_combination G.vertEnd * this
  rw [e4]
  unfold series seriesZ
  rw [e1, e2, e3]
  simp only [psiForm, add_mul, Finset.sum_add_distrib]
  unfold cTop cBot
  ring

theorem list_integral {α : Type} (l : List α) (c : α → ℝ) (f : α → ℝ → ℝ) {a b : ℝ} (h : ∀ q ∈ l, IntervalIntegrable (f q) volume a b) :
    IntervalIntegrable (fun r => (l.map (fun q => c q * f q r)).sum) volume a b ∧
    ∫ r in a..b, (l.map (fun q => c q * f q r)).sum = (l.map (fun q => c q * ∫ r in a..b, f q r)).sum := by
  induction l with
  | nil => simp
  | cons q l ih =>
    obtain ⟨i1, i2⟩ := ih (fun y hy => h y (by simp [hy]))
    have i3 := (h q (by simp)).const_mul (c q)
    simp only [List.map_cons, List.sum_cons]
    exact ⟨i3.add i1, by rw [intervalIntegral.integral_add i3 i1, i2, intervalIntegral.integral_const_mul]⟩

/-- The residual of the series. -/
theorem residual_eq (h : VRInput x S s tend G) (n : ℕ) (w : ℕ → ℝ) (A : ℕ → ℝ → ℝ) (hA : ∀ j, j < n → IntervalIntegrable (A j) volume s tend)
    (i : ℕ) (hw : ∀ j, j < n → sin (w i) * cos (w j) = 0) (t : ℝ) (h1 : s ≤ t) (h2 : t ≤ tend) :
    G.residual s (series G n w A) (seriesZ G n w A) (fun z => sin (w i * z)) (fun z => w i * cos (w i * z)) t =
      (∑ j ∈ Finset.range n, gamma G (w i) (w j) * A j t) + (∑ j ∈ Finset.range n, psiForm G (w i) (w j) * ∫ r in s..t, A j r)
        - rhs G s (w i) t := by
  have cc : ∀ {k : ℝ → ℝ}, Continuous k → BddOn k 0 1 := fun hk => BddOn.of_continuous hk 0 1
  unfold Ground.residual
  simp only [flow_eq h n w A i hw]
  have iA : ∀ j ∈ Finset.range n, IntervalIntegrable (fun r => psiForm G (w i) (w j) * A j r) volume s t := fun j hj =>
    (int_sub (hA j (Finset.mem_range.1 hj)) h1 h2).const_mul _
  have iS : IntervalIntegrable (fun r => ∑ j ∈ Finset.range n, psiForm G (w i) (w j) * A j r) volume s t := by
    have := IntervalIntegrable.sum (Finset.range n) iA
    have e : (∑ j ∈ Finset.range n, fun r => psiForm G (w i) (w j) * A j r) = fun r => ∑ j ∈ Finset.range n, psiForm G (w i) (w j) * A j r := by
      funext r; simp
    rw [e] at this
    exact this
  have iT := (top_int h h1 h2).1.const_mul (cTop G (w i))
  have iB := (top_int h h1 h2).2.const_mul (cBot G (w i))
  have iD := drain_int h (w i) t h1 h2
  obtain ⟨iF, eF⟩ := list_integral G.fixed (fun f => f.2.1 * sin (w i * f.1)) (fun f => f.2.2) (fixed_int h h1 h2)
  obtain ⟨iP, eP⟩ := list_integral G.pumps (fun f => sin (w i * f.1)) (fun f => f.2) (pumps_int h h1 h2)
  rw [intervalIntegral.integral_sub ((((iS.add iT).add iB).sub iD).sub iF) iP,
    intervalIntegral.integral_sub (((iS.add iT).add iB).sub iD) iF,
    intervalIntegral.integral_sub ((iS.add iT).add iB) iD, intervalIntegral.integral_add (iS.add iT) iB,
    intervalIntegral.integral_add iS iT, intervalIntegral.integral_finsetSum iA, eF, eP]
  simp only [intervalIntegral.integral_const_mul]
  have e1 := weight_sum ((Profile.bdd h.mv).mul (cc (k := fun z => sin (w i * z)) (by fun_prop))) n (fun j => A j t)
    (fun j z => sin (w j * z)) (fun j => by fun_prop) (G.top t - G.top0) (G.bot t - G.bot0) (q := bTop G) (r := fun z => z)
    (by unfold bTop; fun_prop) (by fun_prop) (surcharge_bdd h t)
  have e2 : (fun z => G.mv z * sin (w i * z) * ((series G n w A z t - G.surcharge z t) - (G.initial z - G.surcharge0 z))) =
      fun z => G.mv z * sin (w i * z) * ((∑ j ∈ Finset.range n, A j t * sin (w j * z)) + bTop G z * (G.top t - G.top0)
        + z * (G.bot t - G.bot0) - (G.surcharge z t - G.surcharge0 z)) := by
    funext z
    simp only [series, Ground.initial, bTop]
    ring
  rw [e2, e1]
  unfold rhs
  simp only [gamma]
  ring

end Geotecha.Speccon
