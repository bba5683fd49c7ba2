import Verif.Speccon.PropsSuperpose
import Verif.Speccon.PropsVRWell

/-!
# C227: superposition and causality in speccon1d_vrw (drains of finite permeability)
-/

set_option linter.unusedVariables false
set_option autoImplicit false
open Real intervalIntegral MeasureTheory Filter Topology
namespace Geotecha.Spec

/-- The same drain. -/
structure Well.Same (W W' : Well) : Prop where
  cond : ∀ z, 0 < z → z < 1 → W.cond z = W'.cond z
  condEnd : W.condEnd = W'.condEnd

theorem Well.Same.rfl (W : Well) : W.Same W := ⟨fun _ _ _ => Eq.refl _, Eq.refl _⟩

end Geotecha.Spec

namespace Geotecha.Speccon
open Geotecha.Spec Geotecha.Piecewise

variable {x x1 x2 : VRW} {S S1 S2 : Set ℝ} {s tend : ℝ} {G G1 G2 : Ground} {W W1 W2 : Well} {a a1 a2 : VRWArrays}

theorem SameSoil.soil (e : G1.SameSoil G) : (soilG G1).SameSoil (soilG G) :=
  ⟨e.drn, e.mv, e.vert, e.vertEnd, fun _ _ _ => rfl, e.fixed⟩

theorem SameSoil.well (e : G1.SameSoil G) (w : W1.Same W) : (wellG G1 W1).SameSoil (wellG G W) :=
  ⟨e.drn, e.mv, w.cond, w.condEnd, fun _ _ _ => rfl, fun _ => rfl⟩

theorem LoadsCombine.soil {α β t : ℝ} (h : G.LoadsCombine G1 G2 α β s t) : (soilG G).LoadsCombine (soilG G1) (soilG G2) α β s t where
  surcharge := h.surcharge
  surcharge0 := h.surcharge0
  drain z r _ _ _ _ := by simp [soilG]
  top := h.top
  top0 := h.top0
  bot := h.bot
  bot0 := h.bot0
  fixed := h.fixed
  pumps := h.pumps

theorem SameSoil.radial (e : G1.SameSoil G) (w w' : ℝ) : radial G1 w w' = radial G w w' := by
  unfold Speccon.radial
  exact int01_congr (fun z a b => by rw [e.horiz z a b])

/-- A right inverse is determined by the matrix. -/
theorem inv_unique {n : ℕ} {P P' I I' : ℕ → ℕ → ℝ} (hP : ∀ i j, i < n → j < n → P i j = P' i j)
    (h : ∀ i j, i < n → j < n → matMul n P I i j = if i = j then 1 else 0) (h' : ∀ i j, i < n → j < n → matMul n P' I' i j = if i = j then 1 else 0) :
    ∀ i j, i < n → j < n → I i j = I' i j := by
  let M : Matrix (Fin n) (Fin n) ℝ := Matrix.of fun i j => P i j
  let J : Matrix (Fin n) (Fin n) ℝ := Matrix.of fun i j => I i j
  let J' : Matrix (Fin n) (Fin n) ℝ := Matrix.of fun i j => I' i j
  have h1 : M * J = 1 := by
    ext i j
    have := h i j i.2 j.2
    unfold matMul at this
    simp only [Matrix.mul_apply, Matrix.one_apply, M, J, Matrix.of_apply]
    rw [← Fin.sum_univ_eq_sum_range (fun k => P i k * I k j) n] at this
    rw [this]; simp [Fin.ext_iff]
  have h2 : M * J' = 1 := by
    ext i j
    have := h' i j i.2 j.2
    unfold matMul at this
    simp only [Matrix.mul_apply, Matrix.one_apply, M, J', Matrix.of_apply]
    rw [← Fin.sum_univ_eq_sum_range (fun k => P' i k * I' k j) n] at this
    rw [Finset.sum_congr rfl (fun k _ => by rw [hP i k i.2 k.2]), this]; simp [Fin.ext_iff]
  intro i j hi hj
  have : J = J' := by
    have h3 := mul_eq_one_comm.1 h1
    calc J = J * (M * J') := by rw [h2, mul_one]
      _ = J' := by rw [← mul_assoc, h3, one_mul]
  exact congrFun (congrFun this ⟨i, hi⟩) ⟨j, hj⟩

theorem matMul_congr {n : ℕ} {A A' B B' : ℕ → ℕ → ℝ} (hA : ∀ i j, i < n → j < n → A i j = A' i j) (hB : ∀ i j, i < n → j < n → B i j = B' i j) :
    ∀ i j, i < n → j < n → matMul n A B i j = matMul n A' B' i j := by
  intro i j hi hj
  unfold matMul
  exact Finset.sum_congr rfl (fun k hk => by rw [hA i k hi (Finset.mem_range.1 hk), hB k j (Finset.mem_range.1 hk) hj])

/-- The arrays of two runs with the same soil, drain, number of terms and `dT`. -/
theorem vrw_arrays_same (h : VRWInput x S s tend G W) (h1 : VRWInput x1 S1 s tend G1 W1) (ha : a.Made x) (ha1 : a1.Made x1)
    (e1 : G1.SameSoil G) (w1 : W1.Same W) (hn : x1.base.neig = x.base.neig) (hdT : x1.base.dT = x.base.dT) :
    a1.m = a.m ∧ (∀ i j, i < a.m.length → j < a.m.length → a1.psiS i j = a.psiS i j ∧ a1.IpsiW i j = a.IpsiW i j) ∧
    ∀ g p g1 p1, x.base.gam a.m = .ok g → x.psi a.m a.IpsiW = .ok p → x1.base.gam a1.m = .ok g1 → x1.psi a1.m a1.IpsiW = .ok p1 →
      ∀ i j, i < a.m.length → j < a.m.length → g1 i j = g i j ∧ p1 i j = p i j := by
  obtain ⟨hl, hget, hd, hne, hsc⟩ := m_ok h.base ha.m
  have hm : a1.m = a.m := by
    have d : x1.base.drn = x.base.drn := by rw [← h.base.drnG, ← h1.base.drnG, e1.drn]
    have e : x1.base.m = x.base.m := by unfold VR.m; rw [hn, d]
    have q := ha1.m
    rw [e, ha.m] at q
    injection q with q
    exact q.symm
  obtain ⟨ps, es, hs⟩ := psiS_ok h hd
  obtain ⟨ps1, es1, hs1⟩ := psiS_ok h1 hd
  have b1 := ha1.psiS
  rw [hm, es1] at b1
  have b := ha.psiS
  rw [es] at b
  injection b1 with b1
  injection b with b
  subst b1 b
  have hpsi : ∀ i j, i < a.m.length → j < a.m.length → a1.psiS i j = a.psiS i j := fun i j hi hj => by
    have q := hs1 i j hi hj
    rw [SameSoil.radial e1, ← hs i j hi hj, hdT] at q
    exact mul_left_cancel₀ h.base.dT q
  obtain ⟨pw, ew, hw⟩ := psiW_ok h hd es
  obtain ⟨pw1, ew1, hw1⟩ := psiW_ok h1 hd es1
  obtain ⟨pw', ew', hinv⟩ := ha.inv
  obtain ⟨pw1', ew1', hinv1⟩ := ha1.inv
  rw [ew] at ew'
  rw [hm, ew1] at ew1'
  injection ew' with ew'
  injection ew1' with ew1'
  subst ew' ew1'
  rw [hm] at hinv1
  have hpw : ∀ i j, i < a.m.length → j < a.m.length → pw1 i j = pw i j := fun i j hi hj => by
    have q := hw1 i j hi hj
    rw [SameSoil.psiForm (SameSoil.well e1 w1), hpsi i j hi hj, hdT, ← hw i j hi hj] at q
    exact mul_left_cancel₀ h.base.dT q
  have hI := inv_unique hpw hinv1 hinv
  refine ⟨hm, fun i j hi hj => ⟨hpsi i j hi hj, hI i j hi hj⟩, fun g p g1 p1 eg ep eg1 ep1 i j hi hj => ?_⟩
  obtain ⟨g', fg, hge⟩ := gam_ok h.base hd
  obtain ⟨p', fp, hpe⟩ := psi_vrw_ok h hd es a.IpsiW
  obtain ⟨g1', fg1, hge1⟩ := gam_ok h1.base hd
  obtain ⟨p1', fp1, hpe1⟩ := psi_vrw_ok h1 hd es1 a1.IpsiW
  rw [hm] at eg1 ep1
  rw [fg] at eg; rw [fp] at ep; rw [fg1] at eg1; rw [fp1] at ep1
  injection eg with eg; injection ep with ep; injection eg1 with eg1; injection ep1 with ep1
  subst eg ep eg1 ep1
  have k1 : g1' i j = g' i j := by rw [hge i j hi hj, hge1 i j hi hj, SameSoil.gamma e1]
  have k2 : p1' i j = p' i j := by
    have q := hpe1 i j hi hj
    rw [SameSoil.psiForm (SameSoil.soil e1), hpsi i j hi hj, hdT,
      matMul_congr (matMul_congr hpsi hI) hpsi i j hi hj, ← hpe i j hi hj] at q
    exact mul_left_cancel₀ h.base.dT q
  unfold chop
  rw [k1, k2]
  exact ⟨rfl, rfl⟩

/-- Equations of the coefficients of the series. -/
theorem vrw_coefficients (h : VRWInput x S s tend G W) (ha : a.Made x) (h0 : ∀ i, i < a.m.length → a.eigs i ≠ 0) {gam psi : ℕ → ℕ → ℝ}
    (hg : x.base.gam a.m = .ok gam) (hp : x.psi a.m a.IpsiW = .ok psi) :
    ∃ A : ℕ → ℝ → ℝ, (∀ j, IntervalIntegrable (A j) volume s tend) ∧
      (∀ t, s ≤ t → t ≤ tend → ∃ c, x.column a t = .ok c ∧ ∀ j, c j = A j t) ∧
      ∀ i, i < a.m.length → ∀ t, s ≤ t → t ≤ tend →
        (∑ j ∈ Finset.range a.m.length, gam i j * A j t) + (∑ j ∈ Finset.range a.m.length, x.base.dT * psi i j * ∫ r in s..t, A j r) =
          rhs (soilG G) s (a.m.getD i 0) t - dotV a.m.length (matMul a.m.length a.psiS a.IpsiW) (fun l => wellQ G W s (a.m.getD l 0) t) i := by
  obtain ⟨hl, hget, hd, hne, hsc⟩ := m_ok h.base ha.m
  obtain ⟨g, p, f1, f2, hE⟩ := ha.eig
  rw [hg] at f1; rw [hp] at f2
  injection f1 with f1; injection f2 with f2
  subst f1 f2
  have hB : ∀ i, i < (x.base.basis a.m a.eigs a.Igamv).m.length → (x.base.basis a.m a.eigs a.Igamv).dT * (x.base.basis a.m a.eigs a.Igamv).eigs i ≠ 0 :=
    fun i hi => mul_ne_zero h.base.dT (h0 i hi)
  obtain ⟨A, hA, hc, hsol⟩ := coeffs_of (E_eq (B := x.base.basis a.m a.eigs a.Igamv) h hB hne a.psiS a.IpsiW) hE
  refine ⟨A, hA, hc, fun i hi t c d => ?_⟩
  have e := hsol i hi t c d
  rw [Finset.mul_sum] at e
  simp only [mul_assoc] at e ⊢
  exact e

theorem wellQ_combine (h1 : VRWInput x1 S1 s tend G1 W1) (h2 : VRWInput x2 S2 s tend G2 W2) (e1 : G1.SameSoil G) (e2 : G2.SameSoil G)
    (w1 : W1.Same W) (w2 : W2.Same W) {α β t : ℝ} (hst : s ≤ t) (ht : t ≤ tend) (hL : G.LoadsCombine G1 G2 α β s t) (w : ℝ) :
    wellQ G W s w t = α * wellQ G1 W1 s w t + β * wellQ G2 W2 s w t := by
  have a3 : ∫ r in s..t, G.top r = α * (∫ r in s..t, G1.top r) + β * ∫ r in s..t, G2.top r :=
    int_combine hst (top_int h1.base hst ht).1 (top_int h2.base hst ht).1 (fun r a b => hL.top r a.le b.le)
  have a4 : ∫ r in s..t, G.bot r = α * (∫ r in s..t, G1.bot r) + β * ∫ r in s..t, G2.bot r :=
    int_combine hst (top_int h1.base hst ht).2 (top_int h2.base hst ht).2 (fun r a b => hL.bot r a.le b.le)
  unfold wellQ
  rw [a3, a4, SameSoil.cTop (SameSoil.well e1 w1), SameSoil.cTop (SameSoil.well e2 w2), SameSoil.cBot (SameSoil.well e1 w1),
    SameSoil.cBot (SameSoil.well e2 w2)]
  ring

/-- The coefficients of three runs. -/
theorem vrw_column_combine (h : VRWInput x S s tend G W) (h1 : VRWInput x1 S1 s tend G1 W1) (h2 : VRWInput x2 S2 s tend G2 W2) (ha : a.Made x)
    (ha1 : a1.Made x1) (ha2 : a2.Made x2) (n0 : ∀ i, i < a.m.length → a.eigs i ≠ 0) (n1 : ∀ i, i < a1.m.length → a1.eigs i ≠ 0)
    (n2 : ∀ i, i < a2.m.length → a2.eigs i ≠ 0) (hn1 : x1.base.neig = x.base.neig) (hn2 : x2.base.neig = x.base.neig)
    (hd1 : x1.base.dT = x.base.dT) (hd2 : x2.base.dT = x.base.dT) (e1 : G1.SameSoil G) (e2 : G2.SameSoil G) (w1 : W1.Same W) (w2 : W2.Same W)
    {α β t : ℝ} (hst : s ≤ t) (ht : t ≤ tend) (hL : G.LoadsCombine G1 G2 α β s t) :
    ∃ c c1 c2 : ℕ → ℝ, x.column a t = .ok c ∧ x1.column a1 t = .ok c1 ∧ x2.column a2 t = .ok c2 ∧
      ∀ j, j < a.m.length → c j = α * c1 j + β * c2 j := by
  obtain ⟨g, p, eg, ep, hE⟩ := ha.eig
  obtain ⟨g1, p1, eg1, ep1, hE1⟩ := ha1.eig
  obtain ⟨g2, p2, eg2, ep2, hE2⟩ := ha2.eig
  obtain ⟨m1, q1, r1⟩ := vrw_arrays_same h h1 ha ha1 e1 w1 hn1 hd1
  obtain ⟨m2, q2, r2⟩ := vrw_arrays_same h h2 ha ha2 e2 w2 hn2 hd2
  have r1 := r1 g p g1 p1 eg ep eg1 ep1
  have r2 := r2 g p g2 p2 eg ep eg2 ep2
  obtain ⟨A, hA, hc, hsol⟩ := vrw_coefficients h ha n0 eg ep
  obtain ⟨A1, hA1, hc1, hsol1⟩ := vrw_coefficients h1 ha1 n1 eg1 ep1
  obtain ⟨A2, hA2, hc2, hsol2⟩ := vrw_coefficients h2 ha2 n2 eg2 ep2
  obtain ⟨L, hL'⟩ := hE.left
  rw [m1] at hsol1
  rw [m2] at hsol2
  have sub : ∀ {f : ℝ → ℝ}, IntervalIntegrable f volume s tend → IntervalIntegrable f volume s t := fun hf => int_sub hf hst ht
  have K : ∀ {b : VRWArrays}, (∀ i j, i < a.m.length → j < a.m.length → b.psiS i j = a.psiS i j ∧ b.IpsiW i j = a.IpsiW i j) → ∀ f i, i < a.m.length →
      dotV a.m.length (matMul a.m.length b.psiS b.IpsiW) f i = dotV a.m.length (matMul a.m.length a.psiS a.IpsiW) f i := by
    intro b q f i hi
    unfold dotV
    exact Finset.sum_congr rfl (fun j hj => by
      rw [matMul_congr (fun i j hi hj => (q i j hi hj).1) (fun i j hi hj => (q i j hi hj).2) i j hi (Finset.mem_range.1 hj)])
  have hcomb := volterra_combine (n := a.m.length) (gam := g) (P := fun i j => x.base.dT * p i j) (L := L) (A := A) (A1 := A1) (A2 := A2)
    (Q := fun i r => rhs (soilG G) s (a.m.getD i 0) r - dotV a.m.length (matMul a.m.length a.psiS a.IpsiW) (fun l => wellQ G W s (a.m.getD l 0) r) i)
    (Q1 := fun i r => rhs (soilG G1) s (a.m.getD i 0) r - dotV a.m.length (matMul a.m.length a.psiS a.IpsiW) (fun l => wellQ G1 W1 s (a.m.getD l 0) r) i)
    (Q2 := fun i r => rhs (soilG G2) s (a.m.getD i 0) r - dotV a.m.length (matMul a.m.length a.psiS a.IpsiW) (fun l => wellQ G2 W2 s (a.m.getD l 0) r) i)
    (s := s) (T := t) (α := α) (β := β) hL'
    (fun j => sub (hA j)) (fun j => sub (hA1 j)) (fun j => sub (hA2 j))
    (fun i hi r c d => hsol i hi r c (d.trans ht))
    (fun i hi r c d => by
      have e := hsol1 i hi r c (d.trans ht)
      rw [K q1 _ i hi] at e
      rw [← e]
      congr 1
      · exact Finset.sum_congr rfl (fun j hj => by rw [(r1 i j hi (Finset.mem_range.1 hj)).1])
      · exact Finset.sum_congr rfl (fun j hj => by rw [(r1 i j hi (Finset.mem_range.1 hj)).2, hd1]))
    (fun i hi r c d => by
      have e := hsol2 i hi r c (d.trans ht)
      rw [K q2 _ i hi] at e
      rw [← e]
      congr 1
      · exact Finset.sum_congr rfl (fun j hj => by rw [(r2 i j hi (Finset.mem_range.1 hj)).1])
      · exact Finset.sum_congr rfl (fun j hj => by rw [(r2 i j hi (Finset.mem_range.1 hj)).2, hd2]))
    (fun i hi r c d => by
      have hL2 := LoadsCombine.mono hL d
      have f1 := rhs_combine (soil_input h1.base) (soil_input h2.base) (SameSoil.soil e1) (SameSoil.soil e2) c (d.trans ht) (LoadsCombine.soil hL2)
        (soil_input h.base) (a.m.getD i 0)
      rw [f1]
      unfold dotV
      simp only [wellQ_combine h1 h2 e1 e2 w1 w2 c (d.trans ht) hL2]
      have : ∑ j ∈ Finset.range a.m.length, matMul a.m.length a.psiS a.IpsiW i j * (α * wellQ G1 W1 s (a.m.getD j 0) r + β * wellQ G2 W2 s (a.m.getD j 0) r) =
          α * (∑ j ∈ Finset.range a.m.length, matMul a.m.length a.psiS a.IpsiW i j * wellQ G1 W1 s (a.m.getD j 0) r) +
          β * ∑ j ∈ Finset.range a.m.length, matMul a.m.length a.psiS a.IpsiW i j * wellQ G2 W2 s (a.m.getD j 0) r := by
        rw [Finset.mul_sum, Finset.mul_sum, ← Finset.sum_add_distrib]
        exact Finset.sum_congr rfl (fun j _ => by ring)
      rw [this]
      ring)
  obtain ⟨c, ec, ecA⟩ := hc t hst ht
  obtain ⟨c1, ec1, ecA1⟩ := hc1 t hst ht
  obtain ⟨c2, ec2, ecA2⟩ := hc2 t hst ht
  exact ⟨c, c1, c2, ec, ec1, ec2, fun j hj => by rw [ecA, ecA1, ecA2, hcomb j hj t hst le_rfl]⟩

/-- The pore pressures of three runs as functions of depth. -/
theorem vrw_por_combine (h : VRWInput x S s tend G W) (h1 : VRWInput x1 S1 s tend G1 W1) (h2 : VRWInput x2 S2 s tend G2 W2) (ha : a.Made x)
    (ha1 : a1.Made x1) (ha2 : a2.Made x2) (n0 : ∀ i, i < a.m.length → a.eigs i ≠ 0) (n1 : ∀ i, i < a1.m.length → a1.eigs i ≠ 0)
    (n2 : ∀ i, i < a2.m.length → a2.eigs i ≠ 0) (hn1 : x1.base.neig = x.base.neig) (hn2 : x2.base.neig = x.base.neig)
    (hd1 : x1.base.dT = x.base.dT) (hd2 : x2.base.dT = x.base.dT) (e1 : G1.SameSoil G) (e2 : G2.SameSoil G) (w1 : W1.Same W) (w2 : W2.Same W)
    {α β t : ℝ} (hst : s ≤ t) (ht : t ≤ tend) (hL : G.LoadsCombine G1 G2 α β s t) :
    ∃ u u1 u2 : ℝ → ℝ, (∀ z, 0 ≤ z → z ≤ 1 → x.por a z t = .ok (u z)) ∧ (∀ z, 0 ≤ z → z ≤ 1 → x1.por a1 z t = .ok (u1 z)) ∧
      (∀ z, 0 ≤ z → z ≤ 1 → x2.por a2 z t = .ok (u2 z)) ∧ (Continuous u ∧ Continuous u1 ∧ Continuous u2) ∧ ∀ z, u z = α * u1 z + β * u2 z := by
  obtain ⟨c, c1, c2, ec, ec1, ec2, hcomb⟩ := vrw_column_combine h h1 h2 ha ha1 ha2 n0 n1 n2 hn1 hn2 hd1 hd2 e1 e2 w1 w2 hst ht hL
  have m1 := (vrw_arrays_same h h1 ha ha1 e1 w1 hn1 hd1).1
  have m2 := (vrw_arrays_same h h2 ha ha2 e2 w2 hn2 hd2).1
  have hl := (m_ok h.base ha.m).1
  have hcont : ∀ (H : Ground) (n : ℕ) (w : ℕ → ℝ) (B : ℕ → ℝ → ℝ), Continuous (fun z => series H n w B z t) := by
    intro H n w B
    unfold series bTop
    fun_prop
  have por : ∀ {y : VRW} {T : Set ℝ} {H : Ground} {V : Well} {b : VRWArrays} {c : ℕ → ℝ} {B : ℕ → ℝ → ℝ}, VRWInput y T s tend H V → b.Made y →
      y.column b t = .ok c → (∀ j, c j = B j t) → ∀ z, 0 ≤ z → z ≤ 1 →
      y.por b z t = .ok (series H y.base.neig (fun j => b.m.getD j 0) B z t) := by
    intro y T H V b c B hy hb e ec z z0 z1
    obtain ⟨bot, tops, bots, e0, _⟩ := normBot_ok hy.base
    unfold VRW.por
    simp only [e, e0, Bind.bind, Except.bind]
    exact dim1sinF_series hy.base hb.m e0 hst ht (fun j _ => ec j) z z0 z1
  refine ⟨_, _, _, por (B := fun j _ => c j) h ha ec (fun _ => rfl), por (B := fun j _ => c1 j) h1 ha1 ec1 (fun _ => rfl), por (B := fun j _ => c2 j) h2 ha2 ec2 (fun _ => rfl), ⟨hcont _ _ _ _, hcont _ _ _ _, hcont _ _ _ _⟩, fun z => ?_⟩
  unfold series
  beta_reduce
  rw [m1, m2, hn1, hn2, ← hl, hL.top t hst le_rfl, hL.bot t hst le_rfl, SameSoil.bTop e1, SameSoil.bTop e2]
  have : ∑ j ∈ Finset.range a.m.length, c j * sin (a.m.getD j 0 * z) =
      α * (∑ j ∈ Finset.range a.m.length, c1 j * sin (a.m.getD j 0 * z)) + β * ∑ j ∈ Finset.range a.m.length, c2 j * sin (a.m.getD j 0 * z) := by
    rw [Finset.mul_sum, Finset.mul_sum, ← Finset.sum_add_distrib]
    exact Finset.sum_congr rfl (fun j hj => by rw [hcomb j (Finset.mem_range.1 hj)]; ring)
  rw [this]
  ring

/-- A superposition of three runs: same soil, drain, number of terms and `dT`, loads combined up to time `t`. -/
structure Runs3 (x x1 x2 : VRW) (a a1 a2 : VRWArrays) (S S1 S2 : Set ℝ) (s tend t α β : ℝ) (G G1 G2 : Ground) (W W1 W2 : Well) : Prop where
  ok : VRWInput x S s tend G W
  ok1 : VRWInput x1 S1 s tend G1 W1
  ok2 : VRWInput x2 S2 s tend G2 W2
  made : a.Made x
  made1 : a1.Made x1
  made2 : a2.Made x2
  nonzero : ∀ i, i < a.m.length → a.eigs i ≠ 0
  nonzero1 : ∀ i, i < a1.m.length → a1.eigs i ≠ 0
  nonzero2 : ∀ i, i < a2.m.length → a2.eigs i ≠ 0
  neig1 : x1.base.neig = x.base.neig
  neig2 : x2.base.neig = x.base.neig
  dT1 : x1.base.dT = x.base.dT
  dT2 : x2.base.dT = x.base.dT
  soil1 : G1.SameSoil G
  soil2 : G2.SameSoil G
  well1 : W1.Same W
  well2 : W2.Same W
  start : s ≤ t
  stop : t ≤ tend
  loads : G.LoadsCombine G1 G2 α β s t

variable {t α β : ℝ}

/-- **C227** Superposition with drains of finite permeability: the pore pressure. -/
theorem C227_pore_pressure (R : Runs3 x x1 x2 a a1 a2 S S1 S2 s tend t α β G G1 G2 W W1 W2) :
    ∀ z, 0 ≤ z → z ≤ 1 → ∃ u u1 u2 : ℝ, x.por a z t = .ok u ∧ x1.por a1 z t = .ok u1 ∧ x2.por a2 z t = .ok u2 ∧ u = α * u1 + β * u2 := by
  obtain ⟨u, u1, u2, p, p1, p2, cu, hu⟩ := vrw_por_combine R.ok R.ok1 R.ok2 R.made R.made1 R.made2 R.nonzero R.nonzero1 R.nonzero2 R.neig1 R.neig2 R.dT1 R.dT2
    R.soil1 R.soil2 R.well1 R.well2 R.start R.stop R.loads
  exact fun z z0 z1 => ⟨_, _, _, p z z0 z1, p1 z z0 z1, p2 z z0 z1, hu z⟩

theorem vrw_out (h : VRWInput x S s tend G W) (hb : a.Made x) (h0 : ∀ i, i < a.m.length → a.eigs i ≠ 0) (hl : SurchargeLengths x.base) {z1 z2 : ℝ}
    (hz0 : 0 ≤ z1) (hz : z1 < z2) (hz1 : z2 ≤ 1) (hst : s ≤ t) (ht : t ≤ tend) {w : ℝ → ℝ} (cw : Continuous w)
    (hw : ∀ z, 0 ≤ z → z ≤ 1 → x.por a z t = .ok (w z)) :
    x.avp a z1 z2 t = .ok ((∫ z in z1..z2, w z) / (z2 - z1)) ∧
    x.settle a z1 z2 t = .ok (x.base.H * x.base.mvref * ∫ z in z1..z2, G.mv z * (G.surcharge z t - w z)) ∧
    IntervalIntegrable (fun z => G.mv z * (G.surcharge z t - w z)) volume z1 z2 := by
  obtain ⟨w', v, q1, q2, q3, q4⟩ := C82_outputs_agree h hb h0 z1 z2 t hz0 hz hz1 hst ht hl.1 hl.2
  have e : ∀ z, z1 < z → z < z2 → w' z = w z := fun z c d => by
    have c0 := q1 z (by linarith) (by linarith)
    rw [hw z (by linarith) (by linarith)] at c0
    injection c0 with c0
    exact c0.symm
  have e1 : ∫ z in z1..z2, w' z = ∫ z in z1..z2, w z := integral_congr_Ioo' hz.le e
  have e2 : ∫ z in z1..z2, G.mv z * (G.surcharge z t - w' z) = ∫ z in z1..z2, G.mv z * (G.surcharge z t - w z) :=
    integral_congr_Ioo' hz.le (fun z c d => by rw [e z c d])
  refine ⟨?_, by rw [q4, e2], ?_⟩
  · rw [q2, ← e1, ← q3, mul_div_cancel_right₀ _ (sub_ne_zero.2 hz.ne')]
  · have : BddOn (fun z => G.mv z * (G.surcharge z t + (-1) * w z)) 0 1 := (Profile.bdd h.base.mv).mul
      ((surcharge_bdd_at h.base t).add (BddOn.of_continuous (f := fun z => (-1) * w z) (by fun_prop) 0 1))
    have i := (this.int zero_le_one).mono_set (c := z1) (d := z2) (by
      rw [Set.uIcc_of_le hz.le, Set.uIcc_of_le zero_le_one]; exact Set.Icc_subset_Icc hz0 hz1)
    exact i.congr (fun z _ => by ring)

/-- **C227** The average pore pressure and the settlement. -/
theorem C227_average_and_settlement (R : Runs3 x x1 x2 a a1 a2 S S1 S2 s tend t α β G G1 G2 W W1 W2) (l : SurchargeLengths x.base)
    (l1 : SurchargeLengths x1.base) (l2 : SurchargeLengths x2.base) (z1 z2 : ℝ) (hz0 : 0 ≤ z1) (hz : z1 < z2) (hz1 : z2 ≤ 1) :
    (∃ v v1 v2 : ℝ, x.avp a z1 z2 t = .ok v ∧ x1.avp a1 z1 z2 t = .ok v1 ∧ x2.avp a2 z1 z2 t = .ok v2 ∧ v = α * v1 + β * v2) ∧
    (x.base.H * x.base.mvref = x1.base.H * x1.base.mvref → x.base.H * x.base.mvref = x2.base.H * x2.base.mvref →
      ∃ v v1 v2 : ℝ, x.settle a z1 z2 t = .ok v ∧ x1.settle a1 z1 z2 t = .ok v1 ∧ x2.settle a2 z1 z2 t = .ok v2 ∧ v = α * v1 + β * v2) := by
  obtain ⟨u, u1, u2, p, p1, p2, cu, hu⟩ := vrw_por_combine R.ok R.ok1 R.ok2 R.made R.made1 R.made2 R.nonzero R.nonzero1 R.nonzero2 R.neig1 R.neig2 R.dT1 R.dT2
    R.soil1 R.soil2 R.well1 R.well2 R.start R.stop R.loads
  obtain ⟨o1, o2, o3⟩ := vrw_out R.ok R.made R.nonzero l hz0 hz hz1 R.start R.stop cu.1 p
  obtain ⟨q1, q2, q3⟩ := vrw_out R.ok1 R.made1 R.nonzero1 l1 hz0 hz hz1 R.start R.stop cu.2.1 p1
  obtain ⟨r1, r2, r3⟩ := vrw_out R.ok2 R.made2 R.nonzero2 l2 hz0 hz hz1 R.start R.stop cu.2.2 p2
  refine ⟨⟨_, _, _, o1, q1, r1, ?_⟩, fun k1 k2 => ⟨_, _, _, o2, q2, r2, ?_⟩⟩
  · rw [int_combine hz.le (cu.2.1.intervalIntegrable _ _) (cu.2.2.intervalIntegrable _ _) (fun r _ _ => hu r)]
    ring
  · rw [int_combine (α := α) (β := β) hz.le q3 r3 (fun z c d => by
      have c' : 0 < z := by linarith
      have d' : z < 1 := by linarith
      rw [R.loads.surcharge z t c' d' R.start le_rfl, hu, R.soil1.mv z c' d', R.soil2.mv z c' d']; ring), ← k1, ← k2]
    ring

/-- The value added to the drain pressure by the bottom loads (zero unless a bottom gradient is given). -/
theorem raw_bot (h : VRWInput x S s tend G W) : ∃ g : ℝ → ℝ, (∃ bots, Loads x.base.bot x.base.botOm s tend bots ∧ ∀ t, g t = total bots t) ∧
    ∀ t, g t = (if x.base.drn = 1 then 1 / x.base.H else 1) * G.bot t := by
  obtain ⟨_, bots, hb, hb1, _⟩ := h.base.bot
  refine ⟨total bots, ⟨bots, hb, fun _ => rfl⟩, fun t => ?_⟩
  rw [hb1]
  have := h.base.H
  split
  · field_simp
  · ring

/-- **C227** The reported pressure in the drain, at a time without a step in a boundary load; `H` the same. -/
theorem C227_drain_pressure (R : Runs3 x x1 x2 a a1 a2 S S1 S2 s tend t α β G G1 G2 W W1 W2) (H1 : x1.base.H = x.base.H) (H2 : x2.base.H = x.base.H)
    (j1 : NoStep x.base.top t ∧ NoStep x.base.bot t) (j2 : NoStep x1.base.top t ∧ NoStep x1.base.bot t) (j3 : NoStep x2.base.top t ∧ NoStep x2.base.bot t) :
    ∀ z, 0 ≤ z → z ≤ 1 → ∃ u u1 u2 : ℝ, x.porwell a z t = .ok u ∧ x1.porwell a1 z t = .ok u1 ∧ x2.porwell a2 z t = .ok u2 ∧ u = α * u1 + β * u2 := by
  intro z z0 z1
  obtain ⟨c, c1, c2, ec, ec1, ec2, hcomb⟩ := vrw_column_combine R.ok R.ok1 R.ok2 R.made R.made1 R.made2 R.nonzero R.nonzero1 R.nonzero2 R.neig1 R.neig2 R.dT1 R.dT2
    R.soil1 R.soil2 R.well1 R.well2 R.start R.stop R.loads
  obtain ⟨m1, q1, _⟩ := vrw_arrays_same R.ok R.ok1 R.made R.made1 R.soil1 R.well1 R.neig1 R.dT1
  obtain ⟨m2, q2, _⟩ := vrw_arrays_same R.ok R.ok2 R.made R.made2 R.soil2 R.well2 R.neig2 R.dT2
  obtain ⟨g, hg, eg⟩ := raw_bot R.ok
  obtain ⟨g1, hg1, eg1⟩ := raw_bot R.ok1
  obtain ⟨g2, hg2, eg2⟩ := raw_bot R.ok2
  obtain ⟨A, hA, _, p⟩ := porwell_core R.ok R.made R.nonzero hg
  obtain ⟨A1, hA1, _, p1⟩ := porwell_core R.ok1 R.made1 R.nonzero1 hg1
  obtain ⟨A2, hA2, _, p2⟩ := porwell_core R.ok2 R.made2 R.nonzero2 hg2
  have key : ∀ {y : VRW} {b : VRWArrays} {d : ℕ → ℝ} {B : ℕ → ℝ → ℝ}, (∀ t, s ≤ t → t ≤ tend → ∃ c, y.column b t = .ok c ∧ ∀ j, c j = B j t) →
      y.column b t = .ok d → ∀ j, B j t = d j := by
    intro y b d B hB e j
    obtain ⟨c', f, hf⟩ := hB t R.start R.stop
    rw [e] at f
    injection f with f
    subst f
    exact (hf j).symm
  have kA := key hA ec
  have kA1 := key hA1 ec1
  have kA2 := key hA2 ec2
  refine ⟨_, _, _, p z t z0 z1 R.start R.stop j1.1 j1.2, p1 z t z0 z1 R.start R.stop j2.1 j2.2, p2 z t z0 z1 R.start R.stop j3.1 j3.2, ?_⟩
  have d1 : x1.base.drn = x.base.drn := by rw [← R.ok.base.drnG, ← R.ok1.base.drnG, R.soil1.drn]
  have d2 : x2.base.drn = x.base.drn := by rw [← R.ok.base.drnG, ← R.ok2.base.drnG, R.soil2.drn]
  have hl := (m_ok R.ok.base R.made.m).1
  rw [eg, eg1, eg2, H1, H2, d1, d2, R.dT1, R.dT2, m1, m2, R.neig1, R.neig2]
  unfold series wellCoef
  beta_reduce
  rw [m1, m2, R.dT1, R.dT2, ← hl, SameSoil.bTop R.soil1, SameSoil.bTop R.soil2]
  simp only [kA, kA1, kA2, SameSoil.cTop (SameSoil.well R.soil1 R.well1), SameSoil.cTop (SameSoil.well R.soil2 R.well2),
    SameSoil.cBot (SameSoil.well R.soil1 R.well1), SameSoil.cBot (SameSoil.well R.soil2 R.well2)]
  rw [R.loads.top t R.start le_rfl, R.loads.bot t R.start le_rfl]
  set n := a.m.length with hn
  set ct : ℕ → ℝ := fun k => Speccon.cTop (wellG G W) (a.m.getD k 0) with hct
  set cb : ℕ → ℝ := fun k => Speccon.cBot (wellG G W) (a.m.getD k 0) with hcb
  -- the two sums over the modes
  have f1 : ∀ {b : VRWArrays} (d : ℕ → ℝ) (T B : ℝ), (∀ i j, i < n → j < n → b.psiS i j = a.psiS i j ∧ b.IpsiW i j = a.IpsiW i j) → ∀ j, j < n →
      ∑ k ∈ Finset.range n, b.IpsiW j k * ((∑ l ∈ Finset.range n, b.psiS k l * d l) - 1 / x.base.dT * (ct k * T + cb k * B)) =
      ∑ k ∈ Finset.range n, a.IpsiW j k * ((∑ l ∈ Finset.range n, a.psiS k l * d l) - 1 / x.base.dT * (ct k * T + cb k * B)) := by
    intro b d T B q j hj
    refine Finset.sum_congr rfl (fun k hk => ?_)
    rw [(q j k hj (Finset.mem_range.1 hk)).2]
    congr 2
    exact Finset.sum_congr rfl (fun l hl => by rw [(q k l (Finset.mem_range.1 hk) (Finset.mem_range.1 hl)).1])
  have f2 : ∀ {b : VRWArrays} (T B : ℝ), (∀ i j, i < n → j < n → b.psiS i j = a.psiS i j ∧ b.IpsiW i j = a.IpsiW i j) → ∀ j, j < n →
      ∑ k ∈ Finset.range n, b.IpsiW j k * (ct k * T + cb k * B) = ∑ k ∈ Finset.range n, a.IpsiW j k * (ct k * T + cb k * B) := by
    intro b T B q j hj
    exact Finset.sum_congr rfl (fun k hk => by rw [(q j k hj (Finset.mem_range.1 hk)).2])
  have g1' : ∀ {b : VRWArrays} (d : ℕ → ℝ) (T B : ℝ), (∀ i j, i < n → j < n → b.psiS i j = a.psiS i j ∧ b.IpsiW i j = a.IpsiW i j) →
      ∑ j ∈ Finset.range n, (∑ k ∈ Finset.range n, b.IpsiW j k * ((∑ l ∈ Finset.range n, b.psiS k l * d l) - 1 / x.base.dT * (ct k * T + cb k * B))) * sin (a.m.getD j 0 * z) =
      ∑ j ∈ Finset.range n, (∑ k ∈ Finset.range n, a.IpsiW j k * ((∑ l ∈ Finset.range n, a.psiS k l * d l) - 1 / x.base.dT * (ct k * T + cb k * B))) * sin (a.m.getD j 0 * z) :=
    fun d T B q => Finset.sum_congr rfl (fun j hj => by rw [f1 d T B q j (Finset.mem_range.1 hj)])
  have g2' : ∀ {b : VRWArrays} (T B : ℝ), (∀ i j, i < n → j < n → b.psiS i j = a.psiS i j ∧ b.IpsiW i j = a.IpsiW i j) →
      ∑ j ∈ Finset.range n, sin (a.m.getD j 0 * z) * ∑ k ∈ Finset.range n, b.IpsiW j k * (ct k * T + cb k * B) =
      ∑ j ∈ Finset.range n, sin (a.m.getD j 0 * z) * ∑ k ∈ Finset.range n, a.IpsiW j k * (ct k * T + cb k * B) :=
    fun T B q => Finset.sum_congr rfl (fun j hj => by rw [f2 T B q j (Finset.mem_range.1 hj)])
  rw [g1' c1 _ _ q1, g1' c2 _ _ q2, g2' _ _ q1, g2' _ _ q2]
  have s1 : ∀ T T1 T2 B B1 B2 : ℝ, T = α * T1 + β * T2 → B = α * B1 + β * B2 →
      ∑ j ∈ Finset.range n, (∑ k ∈ Finset.range n, a.IpsiW j k * ((∑ l ∈ Finset.range n, a.psiS k l * c l) - 1 / x.base.dT * (ct k * T + cb k * B))) * sin (a.m.getD j 0 * z) =
      α * (∑ j ∈ Finset.range n, (∑ k ∈ Finset.range n, a.IpsiW j k * ((∑ l ∈ Finset.range n, a.psiS k l * c1 l) - 1 / x.base.dT * (ct k * T1 + cb k * B1))) * sin (a.m.getD j 0 * z)) +
      β * ∑ j ∈ Finset.range n, (∑ k ∈ Finset.range n, a.IpsiW j k * ((∑ l ∈ Finset.range n, a.psiS k l * c2 l) - 1 / x.base.dT * (ct k * T2 + cb k * B2))) * sin (a.m.getD j 0 * z) := by
    intro T T1 T2 B B1 B2 hT hB
    simp only [Finset.mul_sum, Finset.sum_mul, ← Finset.sum_add_distrib]
    refine Finset.sum_congr rfl (fun j hj => Finset.sum_congr rfl (fun k hk => ?_))
    have : ∑ l ∈ Finset.range n, a.psiS k l * c l = α * (∑ l ∈ Finset.range n, a.psiS k l * c1 l) + β * ∑ l ∈ Finset.range n, a.psiS k l * c2 l := by
      rw [Finset.mul_sum, Finset.mul_sum, ← Finset.sum_add_distrib]
      exact Finset.sum_congr rfl (fun l hl => by rw [hcomb l (Finset.mem_range.1 hl)]; ring)
    rw [this, hT, hB]
    ring
  have s2 : ∀ T T1 T2 B B1 B2 : ℝ, T = α * T1 + β * T2 → B = α * B1 + β * B2 →
      ∑ j ∈ Finset.range n, sin (a.m.getD j 0 * z) * ∑ k ∈ Finset.range n, a.IpsiW j k * (ct k * T + cb k * B) =
      α * (∑ j ∈ Finset.range n, sin (a.m.getD j 0 * z) * ∑ k ∈ Finset.range n, a.IpsiW j k * (ct k * T1 + cb k * B1)) +
      β * ∑ j ∈ Finset.range n, sin (a.m.getD j 0 * z) * ∑ k ∈ Finset.range n, a.IpsiW j k * (ct k * T2 + cb k * B2) := by
    intro T T1 T2 B B1 B2 hT hB
    simp only [Finset.mul_sum, ← Finset.sum_add_distrib]
    refine Finset.sum_congr rfl (fun j hj => Finset.sum_congr rfl (fun k hk => ?_))
    rw [hT, hB]
    ring
  rw [s1 _ _ _ _ _ _ rfl rfl, s2 _ _ _ _ _ _ rfl rfl]
  ring

/-- **C227** Causality and independence of the representation. -/
theorem C227_causal (h : VRWInput x S s tend G W) (h1 : VRWInput x1 S1 s tend G1 W1) (ha : a.Made x) (ha1 : a1.Made x1)
    (n0 : ∀ i, i < a.m.length → a.eigs i ≠ 0) (n1 : ∀ i, i < a1.m.length → a1.eigs i ≠ 0) (hn1 : x1.base.neig = x.base.neig)
    (hd1 : x1.base.dT = x.base.dT) (e1 : G1.SameSoil G) (w1 : W1.Same W) (hst : s ≤ t) (ht : t ≤ tend) (hL : G.SameLoads G1 s t) :
    ∀ z, 0 ≤ z → z ≤ 1 → ∃ u : ℝ, x.por a z t = .ok u ∧ x1.por a1 z t = .ok u := by
  intro z z0 z1
  obtain ⟨u, u1, u2, q, q1, q2, e⟩ := C227_pore_pressure (x := x) (x1 := x1) (x2 := x1) (α := 1) (β := 0)
    ⟨h, h1, h1, ha, ha1, ha1, n0, n1, n1, hn1, hn1, hd1, hd1, e1, e1, w1, w1, hst, ht, hL.combine⟩ z z0 z1
  exact ⟨u, q, by rw [q1, e]; simp⟩

/-- **C227** No pressure before the first load. -/
theorem C227_quiescent (h : VRWInput x S s tend G W) (ha : a.Made x) (n0 : ∀ i, i < a.m.length → a.eigs i ≠ 0) (hst : s ≤ t) (ht : t ≤ tend)
    (hL : G.NoLoads s t) : ∀ z, 0 ≤ z → z ≤ 1 → x.por a z t = .ok 0 := by
  intro z z0 z1
  obtain ⟨u, u1, u2, q, q1, q2, e⟩ := C227_pore_pressure (x := x) (x1 := x) (x2 := x) (α := 0) (β := 0)
    ⟨h, h, h, ha, ha, ha, n0, n0, n0, rfl, rfl, rfl, rfl, SameSoil.rfl G, SameSoil.rfl G, Well.Same.rfl W, Well.Same.rfl W, hst, ht, hL.combine⟩ z z0 z1
  rw [q, e]; simp

end Geotecha.Speccon
