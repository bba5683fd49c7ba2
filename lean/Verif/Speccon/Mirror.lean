import Verif.Speccon.PropsSuperpose

/-!
# C225: turning a profile upside down turns the computed pore pressure upside down
-/

set_option linter.unusedVariables false
set_option autoImplicit false
open Real intervalIntegral MeasureTheory Filter Topology
namespace Geotecha.Speccon
open Geotecha.Spec Geotecha.Piecewise

variable {x x1 : VR} {S S1 : Set ℝ} {s tend : ℝ} {G G1 : Ground} {a a1 : VRArrays}

/-- Sign of mode `i` under reflection. -/
def msign (i : ℕ) : ℝ := (-1) ^ i

theorem msign_sq (i : ℕ) : msign i * msign i = 1 := by
  unfold msign; rw [← mul_pow]; norm_num

theorem sin_mirror (i : ℕ) (w z : ℝ) (hw : w = π * ((i:ℝ) + 1)) : sin (w * (1 - z)) = msign i * sin (w * z) := by
  have e : w * (1 - z) = ((i + 1 : ℕ) : ℝ) * π - w * z := by rw [hw]; push_cast; ring
  rw [e, sin_sub, sin_nat_mul_pi, cos_nat_mul_pi, pow_succ]
  unfold msign; ring

theorem cos_mirror (i : ℕ) (w z : ℝ) (hw : w = π * ((i:ℝ) + 1)) : cos (w * (1 - z)) = -msign i * cos (w * z) := by
  have e : w * (1 - z) = ((i + 1 : ℕ) : ℝ) * π - w * z := by rw [hw]; push_cast; ring
  rw [e, cos_sub, sin_nat_mul_pi, cos_nat_mul_pi, pow_succ]
  unfold msign; ring

/-- Change of variable `z → 1 - z`. -/
theorem int_mirror {f g : ℝ → ℝ} {c : ℝ} (h : ∀ z, 0 < z → z < 1 → f z = c * g (1 - z)) : ∫ z in (0:ℝ)..1, f z = c * ∫ z in (0:ℝ)..1, g z := by
  rw [int01_congr h, intervalIntegral.integral_const_mul]
  congr 1
  have := intervalIntegral.integral_comp_sub_left (a := 0) (b := 1) g 1
  simpa using this

theorem Mirrored.fixed3 {t : ℝ} (hM : G.Mirrored G1 s t) {p p' q q' : ℝ → ℝ} {c : ℝ} (h : ∀ z, p (1 - z) * q (1 - z) = c * (p' z * q' z)) :
    (G1.fixed.map (fun f => f.2.1 * p f.1 * q f.1)).sum = c * (G.fixed.map (fun f => f.2.1 * p' f.1 * q' f.1)).sum := by
  have := hM.fixed (fun z => p z * q z)
  simp only [← mul_assoc] at this
  rw [this, ← List.sum_map_mul_left]
  congr 1
  refine List.map_congr_left (fun f _ => ?_)
  have := h f.1
  linear_combination f.2.1 * this

theorem Mirrored.gamma {t : ℝ} (hM : G.Mirrored G1 s t) {i j : ℕ} {w w' : ℝ} (hw : w = π * ((i:ℝ) + 1)) (hw' : w' = π * ((j:ℝ) + 1)) :
    gamma G1 w w' = msign i * msign j * gamma G w w' := by
  unfold Speccon.gamma
  refine int_mirror (fun z c d => ?_)
  rw [hM.mv z c d, sin_mirror i w z hw, sin_mirror j w' z hw']
  linear_combination -(G.mv (1 - z) * sin (w * z) * sin (w' * z)) * (msign j ^ 2 * msign_sq i + msign_sq j)

theorem Mirrored.psiForm {t : ℝ} (hM : G.Mirrored G1 s t) {i j : ℕ} {w w' : ℝ} (hw : w = π * ((i:ℝ) + 1)) (hw' : w' = π * ((j:ℝ) + 1)) :
    psiForm G1 w w' = msign i * msign j * psiForm G w w' := by
  unfold Speccon.psiForm
  have e1 : ∫ z in (0:ℝ)..1, G1.vert z * (w * cos (w * z)) * (w' * cos (w' * z)) =
      msign i * msign j * ∫ z in (0:ℝ)..1, G.vert z * (w * cos (w * z)) * (w' * cos (w' * z)) := by
    refine int_mirror (fun z c d => ?_)
    rw [hM.vert z c d, cos_mirror i w z hw, cos_mirror j w' z hw']
    linear_combination -(G.vert (1 - z) * (w * cos (w * z)) * (w' * cos (w' * z))) * (msign j ^ 2 * msign_sq i + msign_sq j)
  have e2 : ∫ z in (0:ℝ)..1, G1.horiz z * sin (w * z) * sin (w' * z) =
      msign i * msign j * ∫ z in (0:ℝ)..1, G.horiz z * sin (w * z) * sin (w' * z) := by
    refine int_mirror (fun z c d => ?_)
    rw [hM.horiz z c d, sin_mirror i w z hw, sin_mirror j w' z hw']
    linear_combination -(G.horiz (1 - z) * sin (w * z) * sin (w' * z)) * (msign j ^ 2 * msign_sq i + msign_sq j)
  have e3 := Mirrored.fixed3 hM (p := fun z => sin (w * z)) (q := fun z => sin (w' * z)) (p' := fun z => sin (w * z)) (q' := fun z => sin (w' * z))
    (c := msign i * msign j) (fun z => by
      beta_reduce
      rw [sin_mirror i w z hw, sin_mirror j w' z hw']; ring)
  rw [e1, e2, e3]; ring

theorem sin_end {i : ℕ} {w : ℝ} (hw : w = π * ((i:ℝ) + 1)) : sin (w * 1) = 0 := by
  have : w * 1 = ((i + 1 : ℕ) : ℝ) * π := by rw [hw]; push_cast; ring
  rw [this, sin_nat_mul_pi]

theorem Mirrored.bTop {t : ℝ} (hM : G.Mirrored G1 s t) (z : ℝ) : bTop G1 z = 1 - z ∧ bTop G z = 1 - z := by
  unfold Speccon.bTop; rw [hM.drn, hM.drn']; push_cast; constructor <;> ring

theorem Mirrored.cTop {t : ℝ} (hM : G.Mirrored G1 s t) {i : ℕ} {w : ℝ} (hw : w = π * ((i:ℝ) + 1)) :
    cTop G1 w = msign i * cBot G w ∧ cBot G1 w = msign i * cTop G w := by
  unfold Speccon.cTop Speccon.cBot
  simp only [(Mirrored.bTop hM _).1, (Mirrored.bTop hM _).2, sin_end hw, hM.drn, hM.drn']
  have e1 : ∀ c : ℝ, ∫ z in (0:ℝ)..1, G1.vert z * (w * cos (w * z)) * c = -msign i * ∫ z in (0:ℝ)..1, G.vert z * (w * cos (w * z)) * c := by
    intro c
    refine int_mirror (fun z p q => ?_)
    rw [hM.vert z p q, cos_mirror i w z hw]
    linear_combination -(G.vert (1 - z) * (w * cos (w * z)) * c) * msign_sq i
  have e2 : ∫ z in (0:ℝ)..1, G1.horiz z * sin (w * z) * (1 - z) = msign i * ∫ z in (0:ℝ)..1, G.horiz z * sin (w * z) * z := by
    refine int_mirror (fun z p q => ?_)
    rw [hM.horiz z p q, sin_mirror i w z hw]
    linear_combination -(G.horiz (1 - z) * sin (w * z) * (1 - z)) * msign_sq i
  have e3 : ∫ z in (0:ℝ)..1, G1.horiz z * sin (w * z) * z = msign i * ∫ z in (0:ℝ)..1, G.horiz z * sin (w * z) * (1 - z) := by
    refine int_mirror (fun z p q => ?_)
    rw [hM.horiz z p q, sin_mirror i w z hw]
    linear_combination -(G.horiz (1 - z) * sin (w * z) * z) * msign_sq i
  have e4 := Mirrored.fixed3 hM (p := fun z => sin (w * z)) (q := fun z => 1 - z) (p' := fun z => sin (w * z)) (q' := fun z => z)
    (c := msign i) (fun z => by beta_reduce; rw [sin_mirror i w z hw]; ring)
  have e5 := Mirrored.fixed3 hM (p := fun z => sin (w * z)) (q := fun z => z) (p' := fun z => sin (w * z)) (q' := fun z => 1 - z)
    (c := msign i) (fun z => by beta_reduce; rw [sin_mirror i w z hw]; ring)
  have e6 : ∀ H : Ground, ∫ z in (0:ℝ)..1, H.vert z * (w * cos (w * z)) * (((0:ℤ):ℝ) - 1) = -∫ z in (0:ℝ)..1, H.vert z * (w * cos (w * z)) * 1 := by
    intro H
    rw [← intervalIntegral.integral_neg]
    exact int01_congr (fun z _ _ => by push_cast; ring)
  rw [e6, e6, e1, e2, e3, e4, e5]
  constructor <;> ring

theorem Mirrored.rhs {t : ℝ} (hM : G.Mirrored G1 s t) (h : VRInput x S s tend G) (h1 : VRInput x1 S1 s tend G1) (hst : s ≤ t) (ht : t ≤ tend)
    {i : ℕ} {w : ℝ} (hw : w = π * ((i:ℝ) + 1)) : rhs G1 s w t = msign i * rhs G s w t := by
  have a1 : ∫ z in (0:ℝ)..1, G1.mv z * sin (w * z) * (G1.surcharge z t - G1.surcharge0 z) =
      msign i * ∫ z in (0:ℝ)..1, G.mv z * sin (w * z) * (G.surcharge z t - G.surcharge0 z) := by
    refine int_mirror (fun z p q => ?_)
    rw [hM.mv z p q, hM.surcharge z t p q hst le_rfl, hM.surcharge0 z p q, sin_mirror i w z hw]
    linear_combination -(G.mv (1 - z) * sin (w * z) * (G.surcharge (1 - z) t - G.surcharge0 (1 - z))) * msign_sq i
  have a2 : ∫ r in s..t, ∫ z in (0:ℝ)..1, G1.horiz z * sin (w * z) * G1.drain z r =
      msign i * ∫ r in s..t, ∫ z in (0:ℝ)..1, G.horiz z * sin (w * z) * G.drain z r := by
    rw [← intervalIntegral.integral_const_mul]
    refine integral_congr_Ioo' hst (fun r c d => ?_)
    refine int_mirror (fun z p q => ?_)
    rw [hM.horiz z p q, hM.drain z r p q c.le d.le, sin_mirror i w z hw]
    linear_combination -(G.horiz (1 - z) * sin (w * z) * G.drain (1 - z) r) * msign_sq i
  have a3 : ∫ r in s..t, G1.top r = ∫ r in s..t, G.bot r := integral_congr_Ioo' hst (fun r c d => hM.top r c.le d.le)
  have a4 : ∫ r in s..t, G1.bot r = ∫ r in s..t, G.top r := integral_congr_Ioo' hst (fun r c d => hM.bot r c.le d.le)
  have a5 : (G1.fixed.map (fun f => f.2.1 * sin (w * f.1) * ∫ r in s..t, f.2.2 r)).sum =
      msign i * (G.fixed.map (fun f => f.2.1 * sin (w * f.1) * ∫ r in s..t, f.2.2 r)).sum := by
    rw [← (fixed_total h w hst ht).2, ← (fixed_total h1 w hst ht).2, ← intervalIntegral.integral_const_mul]
    refine integral_congr_Ioo' hst (fun r c d => ?_)
    rw [hM.fixedLoad (fun z => sin (w * z)) r c.le d.le, ← List.sum_map_mul_left]
    congr 1
    refine List.map_congr_left (fun f _ => ?_)
    rw [sin_mirror i w f.1 hw]; ring
  have a6 : (G1.pumps.map (fun f => sin (w * f.1) * ∫ r in s..t, f.2 r)).sum =
      msign i * (G.pumps.map (fun f => sin (w * f.1) * ∫ r in s..t, f.2 r)).sum := by
    rw [← (pumps_total h w hst ht).2, ← (pumps_total h1 w hst ht).2, ← intervalIntegral.integral_const_mul]
    refine integral_congr_Ioo' hst (fun r c d => ?_)
    rw [hM.pumps (fun z => sin (w * z)) r c.le d.le, ← List.sum_map_mul_left]
    congr 1
    refine List.map_congr_left (fun f _ => ?_)
    rw [sin_mirror i w f.1 hw]; ring
  have b1 : ∫ z in (0:ℝ)..1, G1.mv z * sin (w * z) * (1 - z) = msign i * ∫ z in (0:ℝ)..1, G.mv z * sin (w * z) * z := by
    refine int_mirror (fun z p q => ?_)
    rw [hM.mv z p q, sin_mirror i w z hw]
    linear_combination -(G.mv (1 - z) * sin (w * z) * (1 - z)) * msign_sq i
  have b2 : ∫ z in (0:ℝ)..1, G1.mv z * sin (w * z) * z = msign i * ∫ z in (0:ℝ)..1, G.mv z * sin (w * z) * (1 - z) := by
    refine int_mirror (fun z p q => ?_)
    rw [hM.mv z p q, sin_mirror i w z hw]
    linear_combination -(G.mv (1 - z) * sin (w * z) * z) * msign_sq i
  unfold Speccon.rhs
  simp only [(Mirrored.bTop hM _).1, (Mirrored.bTop hM _).2]
  rw [a1, a2, a3, a4, a5, a6, b1, b2, (Mirrored.cTop hM hw).1, (Mirrored.cTop hM hw).2, hM.top t hst le_rfl, hM.bot t hst le_rfl, hM.top0, hM.bot0]
  ring

theorem Mirrored.mono {t t' : ℝ} (h : G.Mirrored G1 s t) (ht : t' ≤ t) : G.Mirrored G1 s t' where
  drn := h.drn
  drn' := h.drn'
  mv := h.mv
  vert := h.vert
  horiz := h.horiz
  surcharge z r a b c d := h.surcharge z r a b c (d.trans ht)
  surcharge0 := h.surcharge0
  drain z r a b c d := h.drain z r a b c (d.trans ht)
  top r c d := h.top r c (d.trans ht)
  top0 := h.top0
  bot r c d := h.bot r c (d.trans ht)
  bot0 := h.bot0
  fixed := h.fixed
  fixedLoad p r c d := h.fixedLoad p r c (d.trans ht)
  pumps p r c d := h.pumps p r c (d.trans ht)

theorem chop_sign {f g : ℕ → ℕ → ℝ} {i j : ℕ} {c : ℝ} (hc : |c| = 1) (h : f i j = c * g i j) : chop f i j = c * chop g i j := by
  unfold chop
  have : |f i j| = |g i j| := by rw [h, abs_mul, hc, one_mul]
  rw [this]
  split_ifs
  · simp
  · exact h

theorem msign_abs (i j : ℕ) : |msign i * msign j| = 1 := by
  unfold msign; rw [abs_mul, abs_pow, abs_pow]; simp

/-- **C225** If the second input is the first one upside down (prescribed pressure at both ends), its pore pressure at depth `z`
is that of the first at depth `1 - z`, at every time up to which the loads are mirrored. -/
theorem C225_mirror (h : VRInput x S s tend G) (h1 : VRInput x1 S1 s tend G1) (ha : a.Made x) (ha1 : a1.Made x1)
    (hn1 : x1.neig = x.neig) (hd1 : x1.dT = x.dT) (t : ℝ) (hst : s ≤ t) (ht : t ≤ tend) (hM : G.Mirrored G1 s t) :
    ∀ z, 0 ≤ z → z ≤ 1 → ∃ u : ℝ, x1.por a1.m a1.eigs a1.v a1.Igamv z t = .ok u ∧ x.por a.m a.eigs a.v a.Igamv (1 - z) t = .ok u := by
  obtain ⟨hl, hget, hd, hne, hsc⟩ := m_ok h ha.m
  have hmm : a1.m = a.m := by
    have d : x1.drn = x.drn := by rw [← h.drnG, ← h1.drnG, hM.drn, hM.drn']
    have : x1.m = x.m := by unfold VR.m; rw [hn1, d]
    have e := ha1.m
    rw [this, ha.m] at e
    injection e with e
    exact e.symm
  have hw : ∀ j, j < a.m.length → a.m.getD j 0 = π * ((j:ℝ) + 1) := by
    intro j hj
    rw [hget j (by omega), hM.drn]; push_cast; ring
  obtain ⟨g, eg, hge⟩ := gam_ok h hd
  obtain ⟨p, ep, hpe⟩ := psi_ok h hd
  obtain ⟨g1, eg1, hge1⟩ := gam_ok h1 hd
  obtain ⟨p1, ep1, hpe1⟩ := psi_ok h1 hd
  have kg : ∀ i j, i < a.m.length → j < a.m.length → chop g1 i j = msign i * msign j * chop g i j := fun i j hi hj =>
    chop_sign (msign_abs i j) (by rw [hge i j hi hj, hge1 i j hi hj, Mirrored.gamma hM (hw i hi) (hw j hj)])
  have kp : ∀ i j, i < a.m.length → j < a.m.length → chop p1 i j = msign i * msign j * chop p i j := fun i j hi hj =>
    chop_sign (msign_abs i j) (by
      have c := hpe i j hi hj
      have d := hpe1 i j hi hj
      rw [Mirrored.psiForm hM (hw i hi) (hw j hj), ← c, hd1] at d
      refine mul_left_cancel₀ h.dT ?_
      rw [d]; ring)
  obtain ⟨A, hA, hc, hsol⟩ := coefficients_made h ha (gam := chop g) (P := fun i j => x.dT * chop p i j) (fun g' p' e1 e2 i j hi hj => by
    rw [eg] at e1; rw [ep] at e2
    injection e1 with e1; injection e2 with e2
    rw [← e1, ← e2]; exact ⟨rfl, rfl⟩)
  obtain ⟨A1, hA1, hc1, hsol1⟩ := coefficients_made h1 ha1 (gam := chop g1) (P := fun i j => x.dT * chop p1 i j) (fun g' p' e1 e2 i j hi hj => by
    rw [hmm, eg1] at e1; rw [hmm, ep1] at e2
    injection e1 with e1; injection e2 with e2
    rw [← e1, ← e2, hd1]; exact ⟨rfl, rfl⟩)
  rw [hmm] at hsol1
  obtain ⟨g', p', eg', ep', hE⟩ := ha.eig
  obtain ⟨L, hL⟩ := hE.left
  rw [eg] at eg'
  injection eg' with eg'
  subst eg'
  have sub : ∀ {f : ℝ → ℝ}, IntervalIntegrable f volume s tend → IntervalIntegrable f volume s t := fun hf => int_sub hf hst ht
  -- the reflected coefficients of the first run solve the equations of the second
  have hcomb := volterra_combine (n := a.m.length) (gam := chop g) (P := fun i j => x.dT * chop p i j) (L := L)
    (A := fun j r => msign j * A1 j r) (A1 := A) (A2 := A)
    (Q := fun i r => rhs G s (a.m.getD i 0) r) (Q1 := fun i r => rhs G s (a.m.getD i 0) r) (Q2 := fun i r => rhs G s (a.m.getD i 0) r)
    (s := s) (T := t) (α := 1) (β := 0) hL
    (fun j => (sub (hA1 j)).const_mul _) (fun j => sub (hA j)) (fun j => sub (hA j))
    (fun i hi r c d => by
      have e := hsol1 i hi r c (d.trans ht)
      rw [Mirrored.rhs (Mirrored.mono hM d) h h1 c (d.trans ht) (hw i hi)] at e
      have f1 : ∑ j ∈ Finset.range a.m.length, chop g1 i j * A1 j r = msign i * ∑ j ∈ Finset.range a.m.length, chop g i j * (msign j * A1 j r) := by
        rw [Finset.mul_sum]
        exact Finset.sum_congr rfl (fun j hj => by rw [kg i j hi (Finset.mem_range.1 hj)]; ring)
      have f2 : ∑ j ∈ Finset.range a.m.length, x.dT * chop p1 i j * ∫ q in s..r, A1 j q =
          msign i * ∑ j ∈ Finset.range a.m.length, x.dT * chop p i j * ∫ q in s..r, msign j * A1 j q := by
        rw [Finset.mul_sum]
        exact Finset.sum_congr rfl (fun j hj => by rw [kp i j hi (Finset.mem_range.1 hj), intervalIntegral.integral_const_mul]; ring)
      rw [f1, f2, ← mul_add] at e
      have k := congrArg (fun y => msign i * y) e
      simp only [← mul_assoc, msign_sq, one_mul] at k
      simpa only [mul_assoc] using k)
    (fun i hi r c d => hsol i hi r c (d.trans ht)) (fun i hi r c d => hsol i hi r c (d.trans ht)) (fun i hi r c d => by ring)
  obtain ⟨c, ec, ecA⟩ := hc t hst ht
  obtain ⟨c1, ec1, ecA1⟩ := hc1 t hst ht
  intro z z0 z1
  refine ⟨_, por_series h1 ha1.m hst ht ec1 ecA1 z z0 z1, ?_⟩
  rw [por_series h ha.m hst ht ec ecA (1 - z) (by linarith) (by linarith)]
  congr 1
  unfold series
  rw [hmm, hn1, ← hl, (Mirrored.bTop hM _).1, (Mirrored.bTop hM _).2, hM.top t hst le_rfl, hM.bot t hst le_rfl]
  have : ∑ j ∈ Finset.range a.m.length, A j t * sin (a.m.getD j 0 * (1 - z)) = ∑ j ∈ Finset.range a.m.length, A1 j t * sin (a.m.getD j 0 * z) := by
    refine Finset.sum_congr rfl (fun j hj => ?_)
    have hj' := Finset.mem_range.1 hj
    have e := hcomb j hj' t hst le_rfl
    simp only [one_mul, zero_mul, add_zero] at e
    rw [sin_mirror j _ z (hw j hj'), ← e]
    linear_combination (A1 j t * sin (a.m.getD j 0 * z)) * msign_sq j
  rw [this]
  ring

/-- **C225** A problem that is its own mirror image has a pore pressure symmetric about mid depth. -/
theorem C225_symmetric (h : VRInput x S s tend G) (ha : a.Made x) (t : ℝ) (hst : s ≤ t) (ht : t ≤ tend) (hM : G.Mirrored G s t) :
    ∀ z, 0 ≤ z → z ≤ 1 → ∃ u : ℝ, x.por a.m a.eigs a.v a.Igamv z t = .ok u ∧ x.por a.m a.eigs a.v a.Igamv (1 - z) t = .ok u :=
  C225_mirror h h ha ha rfl rfl t hst ht hM

end Geotecha.Speccon
