import Verif.Beam.SpecAna
import Verif.Beam.SpecUnique
import Verif.Speccon.History
import Verif.Smear.NDClaims2

/-!
# The loads of the analytical solution as convolutions
-/
set_option autoImplicit false
set_option linter.unusedVariables false

namespace Geotecha.Beam

open Real Geotecha.Speccon Geotecha.Piecewise Geotecha.Spec intervalIntegral MeasureTheory

namespace Spec

/-- Force of an axle at time `t`: nothing when it is not on the beam. -/
noncomputable def axleForce (c : Vehicle) (a : ℝ × ℝ) (t : ℝ) : ℝ := open Classical in if OnBeam c a t then a.2 else 0

/-- A history of forces, through the points `pts`, nothing before the first and after the last point. -/
noncomputable def hist (pts : List (ℝ × ℝ)) (t : ℝ) : ℝ :=
  open Classical in
  if (∃ p ∈ pts, p.1 ≤ t) ∧ (∃ p ∈ pts, t ≤ p.1) then polyLeft pts t else 0

end Spec

/-! ## Load histories are integrable -/

theorem locate {T : List ℝ} {τ : ℝ} (hne : ∀ k < T.length, nth T k ≠ τ) : ∀ m, m < T.length → nth T 0 < τ → τ < nth T m →
    ∃ k, k + 1 ≤ m ∧ nth T k < τ ∧ τ < nth T (k+1)
  | 0, _, h1, h2 => absurd (h1.trans h2) (lt_irrefl _)
  | m+1, hm, h1, h2 => by
    rcases lt_or_gt_of_ne (hne m (by omega)) with h | h
    · exact ⟨m, le_refl _, h, h2⟩
    · obtain ⟨k, hk, g⟩ := locate hne m (by omega) h1 h
      exact ⟨k, by omega, g⟩

theorem curve_int {T P : List ℝ} {load : ℝ → ℝ} (hs : SortedLe T) (hT : 0 < T.length) (hl : LoadCurve load T P) (a b : ℝ) :
    IntervalIntegrable load volume a b := by
  have h1 : IntervalIntegrable (pw T (segLine T P)) volume a b := (pw_cont T (fun k => by unfold segLine; fun_prop)).int a b
  refine h1.congr_ae (Filter.Eventually.filter_mono (ae_mono Measure.restrict_le_self) ?_)
  have hfin : (T.toFinset : Set ℝ).Countable := (Finset.finite_toSet _).countable
  have := hfin.ae_notMem volume
  filter_upwards [this] with τ hτ
  have hne : ∀ k < T.length, nth T k ≠ τ := fun k hk h => hτ (by
    rw [nth_eq_getElem hk] at h
    simp only [List.coe_toFinset, Set.mem_setOf_eq, ← h]
    exact List.getElem_mem hk)
  have hp := loadCurve_pw hs hl.len
  rcases lt_or_gt_of_ne (hne 0 hT) with g | g
  · rcases lt_or_gt_of_ne (hne (T.length - 1) (by omega)) with g' | g'
    · rw [hp.out hT τ (Or.inr (by rw [← nth_eq_getElem]; exact g')), hl.out hT τ (Or.inr (by rw [← nth_eq_getElem]; exact g'))]
    · obtain ⟨k, hk, k1, k2⟩ := locate hne (T.length - 1) (by omega) g g'
      rw [nth_eq_getElem (by omega)] at k1 k2
      rw [hp.seg k (by omega) τ k1 k2, hl.seg k (by omega) τ k1 k2]
  · rw [hp.out hT τ (Or.inl (by rw [← nth_eq_getElem]; exact g)), hl.out hT τ (Or.inl (by rw [← nth_eq_getElem]; exact g))]

/-! ## The convolution is linear -/

open Ana in
theorem cdecay_add {f g : ℝ → ℂ} (hf : ∀ a b, IntervalIntegrable f volume a b) (hg : ∀ a b, IntervalIntegrable g volume a b) (c : ℂ) (s t : ℝ) :
    cdecay (fun τ => f τ + g τ) c s t = cdecay f c s t + cdecay g c s t := by
  unfold cdecay
  rw [← intervalIntegral.integral_add]
  · congr 1; funext τ; ring
  · exact (hf s t).mul_continuousOn (Continuous.continuousOn (by fun_prop))
  · exact (hg s t).mul_continuousOn (Continuous.continuousOn (by fun_prop))

open Ana in
theorem cdecay_mul (f : ℝ → ℂ) (k c : ℂ) (s t : ℝ) : cdecay (fun τ => k * f τ) c s t = k * cdecay f c s t := by
  unfold cdecay
  rw [← intervalIntegral.integral_const_mul]
  congr 1; funext τ; ring

theorem list_int {α : Type} {g : α → ℝ → ℝ} (l : List α) (h : ∀ x ∈ l, ∀ a b, IntervalIntegrable (g x) volume a b) (a b : ℝ) :
    IntervalIntegrable (fun τ => (l.map fun x => g x τ).sum) volume a b := by
  induction l with
  | nil => simp
  | cons x l ih =>
    simp only [List.map_cons, List.sum_cons]
    exact (h x (by simp) a b).add (ih fun y hy => h y (by simp [hy]))

theorem int_c {g : ℝ → ℝ} {a b : ℝ} (h : IntervalIntegrable g volume a b) : IntervalIntegrable (fun τ => (g τ : ℂ)) volume a b :=
  ⟨h.1.ofReal, h.2.ofReal⟩

open Ana in
theorem cdecay_list {α : Type} {g : α → ℝ → ℝ} (l : List α) (h : ∀ x ∈ l, ∀ a b, IntervalIntegrable (g x) volume a b) (c : ℂ) (s t : ℝ) :
    cdecay (fun τ => (((l.map fun x => g x τ).sum : ℝ) : ℂ)) c s t = (l.map fun x => cdecay (fun τ => (g x τ : ℂ)) c s t).sum := by
  induction l with
  | nil => simp [cdecay]
  | cons x l ih =>
    simp only [List.map_cons, List.sum_cons, Complex.ofReal_add]
    rw [cdecay_add (fun a b => int_c (h x (by simp) a b)) (fun a b => int_c (list_int l (fun y hy => h y (by simp [hy])) a b)),
      ih fun y hy => h y (by simp [hy])]

open Ana in
theorem cdecay_finset {ι : Type} (S : Finset ι) {g : ι → ℝ → ℂ} (h : ∀ x ∈ S, ∀ a b, IntervalIntegrable (g x) volume a b) (c : ℂ) (s t : ℝ) :
    cdecay (fun τ => ∑ x ∈ S, g x τ) c s t = ∑ x ∈ S, cdecay (g x) c s t := by
  unfold cdecay
  rw [← intervalIntegral.integral_finsetSum]
  · congr 1; funext τ; rw [Finset.sum_mul]
  · intro x hx
    exact (h x hx s t).mul_continuousOn (Continuous.continuousOn (by fun_prop))

/-! ## Moving loads -/

/-- The moving loads on mode `i`: the axles on the beam, each times the mode where it is. -/
noncomputable def Spec.onMode (vs : List Vehicle) (b t : ℝ) : ℝ :=
  (vs.map fun c => (c.axles.map fun a => Spec.axleForce c a t * sin (b * Spec.axleAt c a t)).sum).sum

/-- The stationary loads on mode `i`. -/
noncomputable def Spec.stillMode (ls : List SLoad) (b t : ℝ) : ℝ :=
  (ls.map fun l => Spec.hist l.pts t * sin (b * l.x)).sum

/-- Vehicles that the analytical solution can take: they move, every axle carries some force, none enters before `T0`. -/
def Spec.Ready (T0 : ℝ) (vs : List Vehicle) : Prop :=
  ∀ c ∈ vs, c.v ≠ 0 ∧ 0 < c.L ∧ ∀ a ∈ c.axles, a.2 ≠ 0 ∧ ∀ t, Spec.OnBeam c a t → T0 ≤ t

/-- No eigenvalue is zero, or `±i` times the frequency with which a vehicle passes a mode. -/
def Spec.OffResonance (s : SBeam) (e : Eigs s.n) : Prop :=
  ∀ j, e.eigs j ≠ 0 ∧ ∀ c ∈ s.veh, ∀ i : ℕ, i < s.n → e.eigs j ^ 2 + ((c.v * (π * ((i : ℝ) + 1)) : ℝ) : ℂ) ^ 2 ≠ 0

theorem axleAt_cont (c : Vehicle) (a : ℝ × ℝ) : Continuous (Spec.axleAt c a) := by
  unfold Spec.axleAt
  by_cases h : 0 < c.v
  · simp only [if_pos h]; fun_prop
  · simp only [if_neg h]; fun_prop

theorem axle_int (c : Vehicle) (hv : c.v ≠ 0) (hL : 0 < c.L) (a : ℝ × ℝ) (b p q : ℝ) :
    IntervalIntegrable (fun t => Spec.axleForce c a t * sin (b * Spec.axleAt c a t)) volume p q := by
  have h := axle_curve c hv hL a
  have := curve_int h.1 (by simp) h.2 p q
  refine this.mul_continuousOn (Continuous.continuousOn ?_)
  exact continuous_sin.comp (continuous_const.mul (axleAt_cont c a))

theorem onMode_int {T0 : ℝ} {vs : List Vehicle} (h : Spec.Ready T0 vs) (b p q : ℝ) : IntervalIntegrable (Spec.onMode vs b) volume p q := by
  unfold Spec.onMode
  refine list_int vs (fun c hc p q => list_int c.axles (fun a ha p q => ?_) p q) p q
  exact axle_int c (h c hc).1 (h c hc).2.1 a b p q

theorem axleAt_lin (c : Vehicle) (a : ℝ × ℝ) (t : ℝ) : c.v * t + Spec.axleAt c a 0 = Spec.axleAt c a t := by
  unfold Spec.axleAt
  split_ifs <;> ring

open Ana in
/-- The moving loads as the code evaluates them. -/
theorem mvpl_ok {s : SBeam} {e : Eigs s.n} {T0 : ℝ} (hr : Spec.Ready T0 s.veh) (ho : Spec.OffResonance s e) {t : ℝ} (ht : T0 ≤ t)
    (j : Fin s.n ⊕ Fin s.n) :
    s.mvpl e t j = .ok (∑ i : Fin s.n, cdecay (fun τ => ((Spec.onMode s.veh (s.beta.getD i 0) τ : ℝ) : ℂ)) (e.eigs j) T0 t * e.W j (.inr i)) := by
  set toH : Vehicle → ℝ × ℝ → Harmonic := fun c a => ⟨[c.startTime (c.xt a), c.startTime (c.xt a), c.endTime (c.xt a), c.endTime (c.xt a)],
    [0, a.2, a.2, 0], c.v, Spec.axleAt c a 0⟩ with htoH
  have e1 : s.veh.mapM (fun c => c.convert none none none none) = .ok (s.veh.map fun c => c.axles.map (toH c)) :=
    Smear.mapM_ok_map _ _ _ fun c hc => convert_own c (hr c hc).1
  have hcdec : ∀ (f : ℝ → ℝ), (∫ τ in T0..t, ((f τ : ℝ) : ℂ) * Complex.exp (-((1 : ℝ) * e.eigs j) * ((t : ℂ) - τ))) =
      cdecay (fun τ => (f τ : ℂ)) (e.eigs j) T0 t := fun f => by
    unfold cdecay; simp only [Complex.ofReal_one, one_mul]
  -- one axle
  have one : ∀ i : Fin s.n, ∀ c ∈ s.veh, ∀ a ∈ c.axles,
      Cx.eloadSin s.impl (toH c a).T (toH c a).P ((toH c a).omega * s.beta.getD i 0) ((toH c a).phase * s.beta.getD i 0) 1 t (e.eigs j) =
      .ok (cdecay (fun τ => ((Spec.axleForce c a τ * sin (s.beta.getD i 0 * Spec.axleAt c a τ) : ℝ) : ℂ)) (e.eigs j) T0 t) := by
    intro i c hc a ha
    obtain ⟨hv, hL, hax⟩ := hr c hc
    obtain ⟨hne, hT0⟩ := hax a ha
    obtain ⟨hs, hcv⟩ := axle_curve c hv hL a
    have hse := start_lt_end c hv hL (c.xt a)
    have hb := beta_getD s i.2
    rw [Cx.C184_Eload_sin_complex s.impl _ _ _ _ 1 T0 t (e.eigs j) _ (by simp [htoH]) hs hcv ?_ ?_ ?_ ?_ ht, ← hcdec]
    · congr 2
      funext τ
      simp only [htoH]
      rw [show c.v * s.beta.getD (↑i) 0 * τ + Spec.axleAt c a 0 * s.beta.getD (↑i) 0 = s.beta.getD (↑i) 0 * (c.v * τ + Spec.axleAt c a 0) by ring, axleAt_lin]
      rfl
    · unfold NoRepeatedPoint
      intro k hk hk'
      have hk4 : k + 1 < 4 := by simpa [htoH] using hk
      rcases (by omega : k = 0 ∨ k = 1 ∨ k = 2) with rfl | rfl | rfl
      · simp [htoH, Ne.symm hne]
      · simp [htoH, hse.ne]
      · simp [htoH, hne]
    · simpa using (ho j).1
    · have := (ho j).2 c hc i i.2
      rw [← hb] at this
      simpa [htoH] using this
    · show T0 ≤ c.startTime (c.xt a)
      exact hT0 _ ((axle_window c hv a _).2 ⟨le_refl _, hse.le⟩)
  unfold SBeam.mvpl
  rw [e1]
  simp only [Bind.bind, Except.bind]
  have e2 : ∀ i : Fin s.n, (s.veh.map fun c => c.axles.map (toH c)).flatten.mapM (fun h =>
      Cx.eloadSin s.impl h.T h.P (h.omega * s.beta.getD i 0) (h.phase * s.beta.getD i 0) 1 t (e.eigs j)) =
      .ok ((s.veh.map fun c => c.axles.map fun a =>
        cdecay (fun τ => ((Spec.axleForce c a τ * sin (s.beta.getD i 0 * Spec.axleAt c a τ) : ℝ) : ℂ)) (e.eigs j) T0 t).flatten) := by
    intro i
    have : ∀ vs : List Vehicle, (∀ c ∈ vs, c ∈ s.veh) → (vs.map fun c => c.axles.map (toH c)).flatten.mapM (fun h =>
      Cx.eloadSin s.impl h.T h.P (h.omega * s.beta.getD i 0) (h.phase * s.beta.getD i 0) 1 t (e.eigs j)) =
      .ok ((vs.map fun c => c.axles.map fun a =>
        cdecay (fun τ => ((Spec.axleForce c a τ * sin (s.beta.getD i 0 * Spec.axleAt c a τ) : ℝ) : ℂ)) (e.eigs j) T0 t).flatten) := by
      intro vs hvs
      induction vs with
      | nil => rfl
      | cons c vs ih =>
        simp only [List.map_cons, List.flatten_cons, List.mapM_append]
        rw [ih fun c hc => hvs c (by simp [hc])]
        have hc := hvs c (by simp)
        have : ∀ as : List (ℝ × ℝ), (∀ a ∈ as, a ∈ c.axles) → (as.map (toH c)).mapM (fun h =>
          Cx.eloadSin s.impl h.T h.P (h.omega * s.beta.getD i 0) (h.phase * s.beta.getD i 0) 1 t (e.eigs j)) =
          .ok (as.map fun a => cdecay (fun τ => ((Spec.axleForce c a τ * sin (s.beta.getD i 0 * Spec.axleAt c a τ) : ℝ) : ℂ)) (e.eigs j) T0 t) := by
          intro as has
          induction as with
          | nil => rfl
          | cons a as ih2 =>
            rw [List.map_cons, List.mapM_cons, one i c hc a (has a (by simp)), ih2 fun a ha => has a (by simp [ha])]
            rfl
        rw [this c.axles fun a ha => ha]
        rfl
    exact this s.veh fun c hc => hc
  rw [Smear.mapM_ok_map _ (fun i : Fin s.n => cdecay (fun τ => ((Spec.onMode s.veh (s.beta.getD i 0) τ : ℝ) : ℂ)) (e.eigs j) T0 t * e.W j (.inr i))]
  · simp only [pure, Except.pure]
    rw [← List.ofFn_eq_map, List.sum_ofFn]
  · intro i _
    rw [e2 i]
    simp only [pure, Except.pure]
    congr 2
    rw [List.sum_flatten, List.map_map]
    unfold Spec.onMode
    rw [cdecay_list s.veh (g := fun c τ => (c.axles.map fun a => Spec.axleForce c a τ * sin (s.beta.getD i 0 * Spec.axleAt c a τ)).sum)
      (fun c hc p q => list_int c.axles (fun a ha p q => axle_int c (hr c hc).1 (hr c hc).2.1 a _ p q) p q)]
    congr 1
    refine List.map_congr_left fun c hc => ?_
    rw [cdecay_list c.axles (g := fun a τ => Spec.axleForce c a τ * sin (s.beta.getD i 0 * Spec.axleAt c a τ))
      (fun a ha p q => axle_int c (hr c hc).1 (hr c hc).2.1 a _ p q)]
    rfl

end Geotecha.Beam
