import Verif.Speccon.SpecCombine
import Verif.Speccon.Volterra

/-!
# The modal equations of two problems with the same soil
-/

set_option linter.unusedVariables false
set_option autoImplicit false
open Real intervalIntegral MeasureTheory Filter Topology
namespace Geotecha.Speccon
open Geotecha.Spec Geotecha.Piecewise

variable {x x1 x2 : VR} {S S1 S2 : Set ℝ} {s tend : ℝ} {G G1 G2 : Ground}

theorem int01_congr {f g : ℝ → ℝ} (h : ∀ z, 0 < z → z < 1 → f z = g z) : ∫ z in (0:ℝ)..1, f z = ∫ z in (0:ℝ)..1, g z :=
  integral_congr_Ioo' zero_le_one h

/-! ## The soil -/

theorem SameSoil.gamma (h : G.SameSoil G1) (w w' : ℝ) : gamma G w w' = gamma G1 w w' := by
  unfold Speccon.gamma
  exact int01_congr (fun z a b => by rw [h.mv z a b])

theorem SameSoil.fixed3 (h : G.SameSoil G1) (p q : ℝ → ℝ) : (G.fixed.map (fun f => f.2.1 * p f.1 * q f.1)).sum =
    (G1.fixed.map (fun f => f.2.1 * p f.1 * q f.1)).sum := by
  simpa only [mul_assoc] using h.fixed (fun z => p z * q z)

theorem SameSoil.psiForm (h : G.SameSoil G1) (w w' : ℝ) : psiForm G w w' = psiForm G1 w w' := by
  unfold Speccon.psiForm
  congr 1
  · congr 1
    · exact int01_congr (fun z a b => by rw [h.vert z a b])
    · exact int01_congr (fun z a b => by rw [h.horiz z a b])
  · exact SameSoil.fixed3 h (fun z => sin (w * z)) (fun z => sin (w' * z))

theorem SameSoil.bTop (h : G.SameSoil G1) (z : ℝ) : bTop G z = bTop G1 z := by
  unfold Speccon.bTop; rw [h.drn]

theorem SameSoil.cTop (h : G.SameSoil G1) (w : ℝ) : cTop G w = cTop G1 w := by
  unfold Speccon.cTop
  congr 1
  · congr 1
    · rw [h.drn, h.vertEnd]
      congr 1
      exact int01_congr (fun z a b => by rw [h.vert z a b])
    · exact int01_congr (fun z a b => by rw [h.horiz z a b, SameSoil.bTop h])
  · simp only [SameSoil.bTop h]
    exact SameSoil.fixed3 h (fun z => sin (w * z)) (fun z => Speccon.bTop G1 z)

theorem SameSoil.cBot (h : G.SameSoil G1) (w : ℝ) : cBot G w = cBot G1 w := by
  unfold Speccon.cBot
  congr 1
  · congr 1
    · rw [h.vertEnd]
      congr 1
      exact int01_congr (fun z a b => by rw [h.vert z a b])
    · exact int01_congr (fun z a b => by rw [h.horiz z a b])
  · exact SameSoil.fixed3 h (fun z => sin (w * z)) (fun z => z)

/-! ## The loads -/

theorem fixed_total (h : VRInput x S s tend G) (w : ℝ) {t : ℝ} (h1 : s ≤ t) (h2 : t ≤ tend) :
    IntervalIntegrable (fun r => (G.fixed.map (fun f => f.2.1 * sin (w * f.1) * f.2.2 r)).sum) volume s t ∧
    ∫ r in s..t, (G.fixed.map (fun f => f.2.1 * sin (w * f.1) * f.2.2 r)).sum =
      (G.fixed.map (fun f => f.2.1 * sin (w * f.1) * ∫ r in s..t, f.2.2 r)).sum :=
  list_integral G.fixed (fun f => f.2.1 * sin (w * f.1)) (fun f => f.2.2) (fixed_int h h1 h2)

theorem pumps_total (h : VRInput x S s tend G) (w : ℝ) {t : ℝ} (h1 : s ≤ t) (h2 : t ≤ tend) :
    IntervalIntegrable (fun r => (G.pumps.map (fun f => sin (w * f.1) * f.2 r)).sum) volume s t ∧
    ∫ r in s..t, (G.pumps.map (fun f => sin (w * f.1) * f.2 r)).sum = (G.pumps.map (fun f => sin (w * f.1) * ∫ r in s..t, f.2 r)).sum :=
  list_integral G.pumps (fun f => sin (w * f.1)) (fun f => f.2) (pumps_int h h1 h2)

theorem int_combine {f f1 f2 : ℝ → ℝ} {a b α β : ℝ} (hab : a ≤ b) (h1 : IntervalIntegrable f1 volume a b) (h2 : IntervalIntegrable f2 volume a b)
    (h : ∀ r, a < r → r < b → f r = α * f1 r + β * f2 r) : ∫ r in a..b, f r = α * (∫ r in a..b, f1 r) + β * ∫ r in a..b, f2 r := by
  rw [integral_congr_Ioo' hab h, intervalIntegral.integral_add (h1.const_mul α) (h2.const_mul β), intervalIntegral.integral_const_mul,
    intervalIntegral.integral_const_mul]

/-- The right hand side of the modal equations is linear in the loads. -/
theorem rhs_combine (h1 : VRInput x1 S1 s tend G1) (h2 : VRInput x2 S2 s tend G2)
    (e1 : G1.SameSoil G) (e2 : G2.SameSoil G) {α β t : ℝ} (hst : s ≤ t) (ht : t ≤ tend) (hL : G.LoadsCombine G1 G2 α β s t)
    (h : VRInput x S s tend G) (w : ℝ) :
    rhs G s w t = α * rhs G1 s w t + β * rhs G2 s w t := by
  have bs : ∀ (H : Ground) (y : VR) (T : Set ℝ), VRInput y T s tend H →
      IntervalIntegrable (fun z => H.mv z * sin (w * z) * (H.surcharge z t - H.surcharge0 z)) volume 0 1 := fun H y T hy =>
    BddOn.int zero_le_one (((Profile.bdd hy.mv).mul (BddOn.of_continuous (f := fun z => sin (w * z)) (by fun_prop) 0 1)).mul (surcharge_bdd hy t))
  have bd : ∀ (H : Ground) (y : VR) (T : Set ℝ), VRInput y T s tend H → ∀ r,
      IntervalIntegrable (fun z => H.horiz z * sin (w * z) * H.drain z r) volume 0 1 := fun H y T hy r =>
    BddOn.int zero_le_one (((horiz_bdd hy).mul (BddOn.of_continuous (f := fun z => sin (w * z)) (by fun_prop) 0 1)).mul (drain_bdd hy r))
  have a1 : ∫ z in (0:ℝ)..1, G.mv z * sin (w * z) * (G.surcharge z t - G.surcharge0 z) =
      α * (∫ z in (0:ℝ)..1, G1.mv z * sin (w * z) * (G1.surcharge z t - G1.surcharge0 z)) +
      β * ∫ z in (0:ℝ)..1, G2.mv z * sin (w * z) * (G2.surcharge z t - G2.surcharge0 z) :=
    int_combine zero_le_one (bs G1 x1 S1 h1) (bs G2 x2 S2 h2) (fun z a b => by
      rw [hL.surcharge z t a b hst le_rfl, hL.surcharge0 z a b, e1.mv z a b, e2.mv z a b]; ring)
  have a2 : ∫ r in s..t, ∫ z in (0:ℝ)..1, G.horiz z * sin (w * z) * G.drain z r =
      α * (∫ r in s..t, ∫ z in (0:ℝ)..1, G1.horiz z * sin (w * z) * G1.drain z r) +
      β * ∫ r in s..t, ∫ z in (0:ℝ)..1, G2.horiz z * sin (w * z) * G2.drain z r :=
    int_combine hst (drain_int h1 w t hst ht) (drain_int h2 w t hst ht) (fun r a b =>
      int_combine zero_le_one (bd G1 x1 S1 h1 r) (bd G2 x2 S2 h2 r) (fun z c d => by
        rw [hL.drain z r c d a.le b.le, e1.horiz z c d, e2.horiz z c d]; ring))
  have a3 : ∫ r in s..t, G.top r = α * (∫ r in s..t, G1.top r) + β * ∫ r in s..t, G2.top r :=
    int_combine hst (top_int h1 hst ht).1 (top_int h2 hst ht).1 (fun r a b => hL.top r a.le b.le)
  have a4 : ∫ r in s..t, G.bot r = α * (∫ r in s..t, G1.bot r) + β * ∫ r in s..t, G2.bot r :=
    int_combine hst (top_int h1 hst ht).2 (top_int h2 hst ht).2 (fun r a b => hL.bot r a.le b.le)
  have a5 : (G.fixed.map (fun f => f.2.1 * sin (w * f.1) * ∫ r in s..t, f.2.2 r)).sum =
      α * (G1.fixed.map (fun f => f.2.1 * sin (w * f.1) * ∫ r in s..t, f.2.2 r)).sum +
      β * (G2.fixed.map (fun f => f.2.1 * sin (w * f.1) * ∫ r in s..t, f.2.2 r)).sum := by
    rw [← (fixed_total h w hst ht).2, ← (fixed_total h1 w hst ht).2, ← (fixed_total h2 w hst ht).2]
    exact int_combine hst (fixed_total h1 w hst ht).1 (fixed_total h2 w hst ht).1 (fun r a b => hL.fixed (fun z => sin (w * z)) r a.le b.le)
  have a6 : (G.pumps.map (fun f => sin (w * f.1) * ∫ r in s..t, f.2 r)).sum =
      α * (G1.pumps.map (fun f => sin (w * f.1) * ∫ r in s..t, f.2 r)).sum +
      β * (G2.pumps.map (fun f => sin (w * f.1) * ∫ r in s..t, f.2 r)).sum := by
    rw [← (pumps_total h w hst ht).2, ← (pumps_total h1 w hst ht).2, ← (pumps_total h2 w hst ht).2]
    exact int_combine hst (pumps_total h1 w hst ht).1 (pumps_total h2 w hst ht).1 (fun r a b => hL.pumps (fun z => sin (w * z)) r a.le b.le)
  have b1 : ∀ {H : Ground}, H.SameSoil G → ∫ z in (0:ℝ)..1, H.mv z * sin (w * z) * bTop H z = ∫ z in (0:ℝ)..1, G.mv z * sin (w * z) * bTop G z :=
    fun e => int01_congr (fun z a b => by rw [e.mv z a b, SameSoil.bTop e])
  have b2 : ∀ {H : Ground}, H.SameSoil G → ∫ z in (0:ℝ)..1, H.mv z * sin (w * z) * z = ∫ z in (0:ℝ)..1, G.mv z * sin (w * z) * z :=
    fun e => int01_congr (fun z a b => by rw [e.mv z a b])
  unfold rhs
  rw [a1, a2, a3, a4, a5, a6, b1 e1, b1 e2, b2 e1, b2 e2, SameSoil.cTop e1, SameSoil.cTop e2, SameSoil.cBot e1, SameSoil.cBot e2,
    hL.top t hst le_rfl, hL.bot t hst le_rfl, hL.top0, hL.bot0]
  ring

theorem LoadsCombine.mono {α β t t' : ℝ} (h : G.LoadsCombine G1 G2 α β s t) (ht : t' ≤ t) : G.LoadsCombine G1 G2 α β s t' where
  surcharge z r a b c d := h.surcharge z r a b c (d.trans ht)
  surcharge0 := h.surcharge0
  drain z r a b c d := h.drain z r a b c (d.trans ht)
  top r c d := h.top r c (d.trans ht)
  top0 := h.top0
  bot r c d := h.bot r c (d.trans ht)
  bot0 := h.bot0
  fixed p r c d := h.fixed p r c (d.trans ht)
  pumps p r c d := h.pumps p r c (d.trans ht)

/-- The matrices the program makes for two inputs with the same soil, the same number of terms and the same `dT` are the same. -/
theorem matrices_same (h : VRInput x S s tend G) (h1 : VRInput x1 S1 s tend G1) (e1 : G1.SameSoil G) (hn : x1.neig = x.neig)
    (hdT : x1.dT = x.dT) {m m1 : List ℝ} (hm : x.m = .ok m) (hm1 : x1.m = .ok m1) {gam psi gam1 psi1 : ℕ → ℕ → ℝ} (hg : x.gam m = .ok gam)
    (hp : x.psi m = .ok psi) (hg1 : x1.gam m1 = .ok gam1) (hp1 : x1.psi m1 = .ok psi1) :
    m1 = m ∧ ∀ i j, i < m.length → j < m.length → gam1 i j = gam i j ∧ psi1 i j = psi i j := by
  obtain ⟨hl, hget, hd, hne, hsc⟩ := m_ok h hm
  have hmm : m1 = m := by
    have d : x1.drn = x.drn := by rw [← h.drnG, ← h1.drnG, e1.drn]
    have : x1.m = x.m := by unfold VR.m; rw [hn, d]
    rw [this, hm] at hm1
    injection hm1 with hm1
    exact hm1.symm
  subst hmm
  refine ⟨rfl, fun i j hi hj => ?_⟩
  obtain ⟨g, eg, hge⟩ := gam_ok h hd
  obtain ⟨p, ep, hpe⟩ := psi_ok h hd
  obtain ⟨g1, eg1, hge1⟩ := gam_ok h1 hd
  obtain ⟨p1, ep1, hpe1⟩ := psi_ok h1 hd
  rw [hg] at eg; rw [hp] at ep; rw [hg1] at eg1; rw [hp1] at ep1
  injection eg with eg; injection ep with ep; injection eg1 with eg1; injection ep1 with ep1
  subst eg ep eg1 ep1
  have k1 : g1 i j = g i j := by rw [hge i j hi hj, hge1 i j hi hj, SameSoil.gamma e1]
  have k2 : p1 i j = p i j := by
    have a := hpe i j hi hj
    have b := hpe1 i j hi hj
    rw [SameSoil.psiForm e1, ← a, hdT] at b
    exact mul_left_cancel₀ h.dT b
  unfold chop
  rw [k1, k2]
  exact ⟨rfl, rfl⟩

/-- What `_make_m`, `_make_gam`, `_make_psi` and `_make_eigs_and_v` leave behind, speccon1d_vr.py:712-817. -/
structure VRArrays where
  m : List ℝ
  eigs : ℕ → ℝ
  v : ℕ → ℕ → ℝ
  Igamv : ℕ → ℕ → ℝ

/-- The arrays were made from the input `x`, `np.linalg` returning an eigensystem without zero eigenvalues. -/
structure VRArrays.Made (x : VR) (a : VRArrays) : Prop where
  m : x.m = .ok a.m
  eig : ∃ gam psi, x.gam a.m = .ok gam ∧ x.psi a.m = .ok psi ∧ EigenSystem a.m.length gam psi a.eigs a.v a.Igamv
  nonzero : ∀ i, i < a.m.length → a.eigs i ≠ 0

variable {a a1 a2 : VRArrays}

/-- Coefficients of the series, with the equations written with given matrices `gam`, `P`. -/
theorem coefficients_made (h : VRInput x S s tend G) (ha : a.Made x) {gam P : ℕ → ℕ → ℝ}
    (hgP : ∀ g p, x.gam a.m = .ok g → x.psi a.m = .ok p → ∀ i j, i < a.m.length → j < a.m.length → g i j = gam i j ∧ x.dT * p i j = P i j) :
    ∃ A : ℕ → ℝ → ℝ, (∀ j, IntervalIntegrable (A j) volume s tend) ∧
      (∀ t, s ≤ t → t ≤ tend → ∃ c, x.vE (x.basis a.m a.eigs a.Igamv) a.v t = .ok c ∧ ∀ j, c j = A j t) ∧
      ∀ i, i < a.m.length → ∀ t, s ≤ t → t ≤ tend →
        (∑ j ∈ Finset.range a.m.length, gam i j * A j t) + (∑ j ∈ Finset.range a.m.length, P i j * ∫ r in s..t, A j r) =
          rhs G s (a.m.getD i 0) t := by
  obtain ⟨g, p, eg, ep, hE⟩ := ha.eig
  obtain ⟨A, hA, hc, hsol⟩ := coefficients h ha.m hE ha.nonzero
  refine ⟨A, hA, hc, fun i hi t c d => ?_⟩
  rw [← hsol i hi t c d, Finset.mul_sum]
  congr 1
  · exact Finset.sum_congr rfl (fun j hj => by rw [(hgP g p eg ep i j hi (Finset.mem_range.1 hj)).1])
  · exact Finset.sum_congr rfl (fun j hj => by rw [← (hgP g p eg ep i j hi (Finset.mem_range.1 hj)).2]; ring)

/-- The pore pressures of three runs, as functions, related by the combination of the loads, once the matrices agree. -/
theorem por_combine_of (h : VRInput x S s tend G) (h1 : VRInput x1 S1 s tend G1) (h2 : VRInput x2 S2 s tend G2) (ha : a.Made x) (ha1 : a1.Made x1)
    (ha2 : a2.Made x2) (e1 : G1.SameSoil G) (e2 : G2.SameSoil G) {α β t : ℝ} (hst : s ≤ t) (ht : t ≤ tend) (hL : G.LoadsCombine G1 G2 α β s t)
    (m1 : a1.m = a.m) (m2 : a2.m = a.m) {gam P : ℕ → ℕ → ℝ}
    (k : ∀ g p, x.gam a.m = .ok g → x.psi a.m = .ok p → ∀ i j, i < a.m.length → j < a.m.length → g i j = gam i j ∧ x.dT * p i j = P i j)
    (k1 : ∀ g p, x1.gam a1.m = .ok g → x1.psi a1.m = .ok p → ∀ i j, i < a1.m.length → j < a1.m.length → g i j = gam i j ∧ x1.dT * p i j = P i j)
    (k2 : ∀ g p, x2.gam a2.m = .ok g → x2.psi a2.m = .ok p → ∀ i j, i < a2.m.length → j < a2.m.length → g i j = gam i j ∧ x2.dT * p i j = P i j) :
    ∃ u u1 u2 : ℝ → ℝ, (∀ z, 0 ≤ z → z ≤ 1 → x.por a.m a.eigs a.v a.Igamv z t = .ok (u z)) ∧
      (∀ z, 0 ≤ z → z ≤ 1 → x1.por a1.m a1.eigs a1.v a1.Igamv z t = .ok (u1 z)) ∧
      (∀ z, 0 ≤ z → z ≤ 1 → x2.por a2.m a2.eigs a2.v a2.Igamv z t = .ok (u2 z)) ∧
      (Continuous u ∧ Continuous u1 ∧ Continuous u2) ∧ ∀ z, u z = α * u1 z + β * u2 z := by
  obtain ⟨A, hA, hc, hsol⟩ := coefficients_made h ha k
  obtain ⟨A1, hA1, hc1, hsol1⟩ := coefficients_made h1 ha1 k1
  obtain ⟨A2, hA2, hc2, hsol2⟩ := coefficients_made h2 ha2 k2
  obtain ⟨g, p, eg, ep, hE⟩ := ha.eig
  obtain ⟨L, hL'⟩ := hE.left
  rw [m1] at hsol1
  rw [m2] at hsol2
  have sub : ∀ {f : ℝ → ℝ}, IntervalIntegrable f volume s tend → IntervalIntegrable f volume s t := fun hf => int_sub hf hst ht
  have hcomb := volterra_combine (n := a.m.length) (gam := gam) (P := P) (L := L) (A := A) (A1 := A1) (A2 := A2)
    (Q := fun i r => rhs G s (a.m.getD i 0) r) (Q1 := fun i r => rhs G1 s (a.m.getD i 0) r) (Q2 := fun i r => rhs G2 s (a.m.getD i 0) r)
    (s := s) (T := t) (α := α) (β := β)
    (fun i j hi hj => by
      rw [← hL' i j hi hj]
      exact Finset.sum_congr rfl (fun l hl => by rw [(k g p eg ep l j (Finset.mem_range.1 hl) hj).1]))
    (fun j => sub (hA j)) (fun j => sub (hA1 j)) (fun j => sub (hA2 j))
    (fun i hi r c d => hsol i hi r c (d.trans ht)) (fun i hi r c d => hsol1 i hi r c (d.trans ht)) (fun i hi r c d => hsol2 i hi r c (d.trans ht))
    (fun i hi r c d => rhs_combine h1 h2 e1 e2 c (d.trans ht) (LoadsCombine.mono hL d) h _)
  obtain ⟨c, ec, ecA⟩ := hc t hst ht
  obtain ⟨c1, ec1, ecA1⟩ := hc1 t hst ht
  obtain ⟨c2, ec2, ecA2⟩ := hc2 t hst ht
  have hl := (m_ok h ha.m).1
  have hl1 := (m_ok h1 ha1.m).1
  have hl2 := (m_ok h2 ha2.m).1
  have hcont : ∀ (H : Ground) (n : ℕ) (w : ℕ → ℝ) (B : ℕ → ℝ → ℝ), Continuous (fun z => series H n w B z t) := by
    intro H n w B
    unfold series bTop
    fun_prop
  refine ⟨fun z => series G x.neig (fun j => a.m.getD j 0) A z t, fun z => series G1 x1.neig (fun j => a1.m.getD j 0) A1 z t,
    fun z => series G2 x2.neig (fun j => a2.m.getD j 0) A2 z t,
    fun z z0 z1 => por_series h ha.m hst ht ec ecA z z0 z1, fun z z0 z1 => por_series h1 ha1.m hst ht ec1 ecA1 z z0 z1,
    fun z z0 z1 => por_series h2 ha2.m hst ht ec2 ecA2 z z0 z1, ⟨hcont _ _ _ _, hcont _ _ _ _, hcont _ _ _ _⟩, fun z => ?_⟩
  unfold series
  beta_reduce
  rw [m1, m2, ← hl1, ← hl2, m1, m2, ← hl, hL.top t hst le_rfl, hL.bot t hst le_rfl, SameSoil.bTop e1, SameSoil.bTop e2]
  have : ∑ j ∈ Finset.range a.m.length, A j t * sin (a.m.getD j 0 * z) =
      α * (∑ j ∈ Finset.range a.m.length, A1 j t * sin (a.m.getD j 0 * z)) + β * ∑ j ∈ Finset.range a.m.length, A2 j t * sin (a.m.getD j 0 * z) := by
    rw [Finset.mul_sum, Finset.mul_sum, ← Finset.sum_add_distrib]
    exact Finset.sum_congr rfl (fun j hj => by rw [hcomb j (Finset.mem_range.1 hj) t hst le_rfl]; ring)
  rw [this]
  ring

end Geotecha.Speccon
