import Verif.Speccon.SuperposeVRW
import Verif.Speccon.PropsVRCParts
import Verif.Speccon.VRCEigen
import Verif.Speccon.ExampleSuperpose

/-!
# C241: superposition and causality in speccon1d_vrc (permeable columns)
-/

set_option linter.unusedVariables false
set_option autoImplicit false
open Real intervalIntegral MeasureTheory Filter Topology
namespace Geotecha.Spec

/-- The same column. -/
structure Column.Same (C C' : Column) : Prop where
  cond : ∀ z, 0 < z → z < 1 → C.cond z = C'.cond z
  condEnd : C.condEnd = C'.condEnd
  horiz : ∀ z, 0 < z → z < 1 → C.horiz z = C'.horiz z

theorem Column.Same.rfl (C : Column) : C.Same C := ⟨fun _ _ _ => Eq.refl _, Eq.refl _, fun _ _ _ => Eq.refl _⟩

end Geotecha.Spec

namespace Geotecha.Speccon
open Geotecha.Spec Geotecha.Piecewise

variable {x x1 x2 : VRC} {S S1 S2 : Set ℝ} {s tend : ℝ} {G G1 G2 : Ground} {C C1 C2 : Column} {a a1 a2 : VRCArrays}

theorem SameSoil.soilW (e : G1.SameSoil G) : (soilW G1).Same (soilW G) := ⟨e.vert, e.vertEnd⟩

theorem Column.Same.colW (e : C1.Same C) : (colW C1).Same (colW C) := ⟨e.cond, e.condEnd⟩

theorem LoadsCombine.bare {α β t : ℝ} (h : G.LoadsCombine G1 G2 α β s t) (W W1 W2 : Well) : (wellG G W).LoadsCombine (wellG G1 W1) (wellG G2 W2) α β s t where
  surcharge := h.surcharge
  surcharge0 := h.surcharge0
  drain z r _ _ _ _ := by simp [wellG, soilG]
  top := h.top
  top0 := h.top0
  bot := h.bot
  bot0 := h.bot0
  fixed p r _ _ := by simp [wellG, soilG]
  pumps p r _ _ := by simp [wellG, soilG]

/-- The arrays of two runs with the same soil, column, radius ratio, number of terms and `dT`. -/
theorem vrc_arrays_same (h : VRCInput x S s tend G C) (h1 : VRCInput x1 S1 s tend G1 C1) (ha : a.Made x) (ha1 : a1.Made x1)
    (e1 : G1.SameSoil G) (c1 : C1.Same C) (hr : x1.n = x.n) (hn : x1.base.neig = x.base.neig) (hdT : x1.base.dT = x.base.dT) :
    a1.m = a.m ∧ (∀ k b i j, k < 3 → b < 3 → i < a.m.length → j < a.m.length → betBlk a.m.length a1.bet k b i j = betBlk a.m.length a.bet k b i j) ∧
    (∀ i j, i < a.m.length → j < a.m.length → a1.P.psi x1.alp a.m.length a1.bet i j = a.P.psi x.alp a.m.length a.bet i j ∧
      a1.P.oneG x1.alp a.m.length a1.bet i j = a.P.oneG x.alp a.m.length a.bet i j) ∧
    ∀ g g1, x.base.gam a.m = .ok g → x1.base.gam a1.m = .ok g1 → ∀ i j, i < a.m.length → j < a.m.length → g1 i j = g i j := by
  obtain ⟨hl, hget, hd, hne, hsc⟩ := m_ok h.base ha.m
  have hm : a1.m = a.m := by
    have d : x1.base.drn = x.base.drn := by rw [← h.base.drnG, ← h1.base.drnG, e1.drn]
    have e : x1.base.m = x.base.m := by unfold VR.m; rw [hn, d]
    have q := ha1.m
    rw [e, ha.m] at q
    injection q with q
    exact q.symm
  have halp : x1.alp = x.alp := by unfold VRC.alp; rw [hr]
  obtain ⟨P, eP, hP⟩ := psis_ok h hd
  obtain ⟨P1, eP1, hP1⟩ := psis_ok h1 hd
  have q := ha.P
  rw [eP] at q
  have q1 := ha1.P
  rw [hm, eP1] at q1
  injection q with q
  injection q1 with q1
  rw [q] at hP
  rw [q1] at hP1
  have hsame : ∀ i j, i < a.m.length → j < a.m.length → a1.P.sv i j = a.P.sv i j ∧ a1.P.cv i j = a.P.cv i j ∧ a1.P.sh i j = a.P.sh i j ∧ a1.P.ch i j = a.P.ch i j := by
    intro i j hi hj
    obtain ⟨u1, u2, u3, u4⟩ := hP i j hi hj
    obtain ⟨v1, v2, v3, v4⟩ := hP1 i j hi hj
    rw [hdT] at v1 v2 v3 v4
    rw [SameSoil.psiForm (SameSoil.well e1 (SameSoil.soilW e1)), ← u1] at v1
    rw [SameSoil.psiForm (SameSoil.well e1 (Column.Same.colW c1)), ← u2] at v2
    have r3 : radialK G1.horiz (a.m.getD i 0) (a.m.getD j 0) = radialK G.horiz (a.m.getD i 0) (a.m.getD j 0) :=
      int01_congr (fun z b c => by rw [e1.horiz z b c])
    have r4 : radialK C1.horiz (a.m.getD i 0) (a.m.getD j 0) = radialK C.horiz (a.m.getD i 0) (a.m.getD j 0) :=
      int01_congr (fun z b c => by rw [c1.horiz z b c])
    rw [r3, ← u3] at v3
    rw [r4, ← u4] at v4
    exact ⟨mul_left_cancel₀ h.base.dT v1, mul_left_cancel₀ h.base.dT v2, mul_left_cancel₀ h.base.dT v3, mul_left_cancel₀ h.base.dT v4⟩
  have hI : ∀ p q, p < 3 * a.m.length → q < 3 * a.m.length → a1.P.Ibet x1.alp a.m.length p q = a.P.Ibet x.alp a.m.length p q := by
    intro p q hp hq
    have hpos : 0 < a.m.length := by omega
    have k1 := Nat.mod_lt p hpos
    have k2 := Nat.mod_lt q hpos
    have d1 : p / a.m.length < 3 := Nat.div_lt_of_lt_mul (by omega)
    have d2 : q / a.m.length < 3 := Nat.div_lt_of_lt_mul (by omega)
    obtain ⟨w1, w2, w3, w4⟩ := hsame _ _ k1 k2
    unfold Psis.Ibet
    rw [halp]
    generalize p / a.m.length = b at *
    generalize q / a.m.length = c at *
    interval_cases b <;> interval_cases c <;> simp only [Psis.block, w1, w2, w3, w4]
  have i0 : ∀ p q, p < 3 * a.m.length → q < 3 * a.m.length → matMul (3 * a.m.length) (a.P.Ibet x.alp a.m.length) a.bet p q = if p = q then 1 else 0 := ha.inv
  have i1 : ∀ p q, p < 3 * a.m.length → q < 3 * a.m.length → matMul (3 * a.m.length) (a1.P.Ibet x1.alp a.m.length) a1.bet p q = if p = q then 1 else 0 := by
    have := ha1.inv
    unfold VRCArrays.Inv at this
    rw [hm] at this
    exact this
  have hbet := inv_unique hI i1 i0
  have hblk : ∀ k b i j, k < 3 → b < 3 → i < a.m.length → j < a.m.length → betBlk a.m.length a1.bet k b i j = betBlk a.m.length a.bet k b i j := by
    intro k b i j hk hb hi hj
    unfold betBlk
    refine hbet _ _ ?_ ?_
    · have : k * a.m.length ≤ 2 * a.m.length := Nat.mul_le_mul_right _ (by omega)
      omega
    · have : b * a.m.length ≤ 2 * a.m.length := Nat.mul_le_mul_right _ (by omega)
      omega
  have hX : ∀ k i j, k < 3 → i < a.m.length → j < a.m.length → betX a.m.length x1.alp a1.bet k i j = betX a.m.length x.alp a.bet k i j := by
    intro k i j hk hi hj
    unfold betX
    rw [hblk k 1 i j hk (by omega) hi hj, hblk k 2 i j hk (by omega) hi hj, halp]
  refine ⟨hm, hblk, fun i j hi hj => ⟨?_, ?_⟩, fun g g1 eg eg1 i j hi hj => ?_⟩
  · have t1 := matMul_congr (fun i j hi hj => (hsame i j hi hj).1) (fun i j hi hj => hblk 0 0 i j (by omega) (by omega) hi hj) i j hi hj
    have t2 := matMul_congr (fun i j hi hj => (hsame i j hi hj).2.1) (fun i j hi hj => hblk 1 0 i j (by omega) (by omega) hi hj) i j hi hj
    have e : ∀ u v : ℝ, u = v → (if |u| < 1 / 100000000 then (0:ℝ) else u) = if |v| < 1 / 100000000 then 0 else v := fun u v k => by rw [k]
    refine e _ _ ?_
    dsimp only
    rw [t1, t2, halp]
  · unfold Psis.oneG Psis.G
    rw [matMul_congr (fun i j hi hj => (hsame i j hi hj).1) (fun i j hi hj => hX 0 i j (by omega) hi hj) i j hi hj,
      matMul_congr (fun i j hi hj => (hsame i j hi hj).2.1) (fun i j hi hj => hX 1 i j (by omega) hi hj) i j hi hj, halp]
  · obtain ⟨g', fg, hge⟩ := gam_ok h.base hd
    obtain ⟨g1', fg1, hge1⟩ := gam_ok h1.base hd
    rw [hm] at eg1
    rw [fg] at eg; rw [fg1] at eg1
    injection eg with eg; injection eg1 with eg1
    subst eg eg1
    have k1 : g1' i j = g' i j := by rw [hge i j hi hj, hge1 i j hi hj, SameSoil.gamma e1]
    unfold chop
    rw [k1]

/-- Equations of the coefficients of the series. -/
theorem vrc_coefficients (h : VRCInput x S s tend G C) (ha : a.Made x) (h0 : ∀ i, i < a.m.length → a.eigs i ≠ 0) {gam : ℕ → ℕ → ℝ}
    (hg : x.base.gam a.m = .ok gam) :
    ∃ A : ℕ → ℝ → ℝ, (∀ j, IntervalIntegrable (A j) volume s tend) ∧
      (∀ t, s ≤ t → t ≤ tend → ∃ c, x.column a t = .ok c ∧ ∀ j, c j = A j t) ∧
      ∀ i, i < a.m.length → ∀ t, s ≤ t → t ≤ tend →
        (∑ j ∈ Finset.range a.m.length, gam i j * A j t) + (∑ j ∈ Finset.range a.m.length, x.base.dT * a.P.psi x.alp a.m.length a.bet i j * ∫ r in s..t, A j r) =
          rhs (wellG G ⟨fun _ => 0, 0⟩) s (a.m.getD i 0) t - dotV a.m.length (a.P.oneG x.alp a.m.length a.bet)
            (fun l => wellQ G (soilW G) s (a.m.getD l 0) t + wellQ G (colW C) s (a.m.getD l 0) t) i := by
  obtain ⟨hl, hget, hd, hne, hsc⟩ := m_ok h.base ha.m
  obtain ⟨g, f1, hE⟩ := ha.eig
  rw [hg] at f1
  injection f1 with f1
  subst f1
  have hB : ∀ i, i < (x.base.basis a.m a.eigs a.Igamv).m.length → (x.base.basis a.m a.eigs a.Igamv).dT * (x.base.basis a.m a.eigs a.Igamv).eigs i ≠ 0 :=
    fun i hi => mul_ne_zero h.base.dT (h0 i hi)
  obtain ⟨A, hA, hc, hsol⟩ := coeffs_of (E_vrc h a hB hne) hE
  refine ⟨A, hA, hc, fun i hi t c d => ?_⟩
  have e := hsol i hi t c d
  rw [Finset.mul_sum] at e
  simp only [mul_assoc] at e ⊢
  exact e

theorem wellQ_combine_base {x1 x2 : VR} {W W1 W2 : Well} (h1 : VRInput x1 S1 s tend G1) (h2 : VRInput x2 S2 s tend G2) (e1 : G1.SameSoil G) (e2 : G2.SameSoil G)
    (w1 : W1.Same W) (w2 : W2.Same W) {α β t : ℝ} (hst : s ≤ t) (ht : t ≤ tend) (hL : G.LoadsCombine G1 G2 α β s t) (w : ℝ) :
    wellQ G W s w t = α * wellQ G1 W1 s w t + β * wellQ G2 W2 s w t := by
  have a3 : ∫ r in s..t, G.top r = α * (∫ r in s..t, G1.top r) + β * ∫ r in s..t, G2.top r :=
    int_combine hst (top_int h1 hst ht).1 (top_int h2 hst ht).1 (fun r a b => hL.top r a.le b.le)
  have a4 : ∫ r in s..t, G.bot r = α * (∫ r in s..t, G1.bot r) + β * ∫ r in s..t, G2.bot r :=
    int_combine hst (top_int h1 hst ht).2 (top_int h2 hst ht).2 (fun r a b => hL.bot r a.le b.le)
  unfold wellQ
  rw [a3, a4, SameSoil.cTop (SameSoil.well e1 w1), SameSoil.cTop (SameSoil.well e2 w2), SameSoil.cBot (SameSoil.well e1 w1),
    SameSoil.cBot (SameSoil.well e2 w2)]
  ring

/-- A superposition of three runs: same soil, column, radius ratio, number of terms and `dT`, loads combined up to time `t`. -/
structure Runs3C (x x1 x2 : VRC) (a a1 a2 : VRCArrays) (S S1 S2 : Set ℝ) (s tend t α β : ℝ) (G G1 G2 : Ground) (C C1 C2 : Column) : Prop where
  ok : VRCInput x S s tend G C
  ok1 : VRCInput x1 S1 s tend G1 C1
  ok2 : VRCInput x2 S2 s tend G2 C2
  made : a.Made x
  made1 : a1.Made x1
  made2 : a2.Made x2
  nonzero : ∀ i, i < a.m.length → a.eigs i ≠ 0
  nonzero1 : ∀ i, i < a1.m.length → a1.eigs i ≠ 0
  nonzero2 : ∀ i, i < a2.m.length → a2.eigs i ≠ 0
  ratio1 : x1.n = x.n
  ratio2 : x2.n = x.n
  neig1 : x1.base.neig = x.base.neig
  neig2 : x2.base.neig = x.base.neig
  dT1 : x1.base.dT = x.base.dT
  dT2 : x2.base.dT = x.base.dT
  soil1 : G1.SameSoil G
  soil2 : G2.SameSoil G
  col1 : C1.Same C
  col2 : C2.Same C
  start : s ≤ t
  stop : t ≤ tend
  loads : G.LoadsCombine G1 G2 α β s t

variable {t α β : ℝ}

/-- The coefficients of three runs. -/
theorem vrc_column_combine (R : Runs3C x x1 x2 a a1 a2 S S1 S2 s tend t α β G G1 G2 C C1 C2) :
    ∃ c c1 c2 : ℕ → ℝ, x.column a t = .ok c ∧ x1.column a1 t = .ok c1 ∧ x2.column a2 t = .ok c2 ∧
      ∀ j, j < a.m.length → c j = α * c1 j + β * c2 j := by
  obtain ⟨h, h1, h2, ha, ha1, ha2, n0, n1, n2, hr1, hr2, hn1, hn2, hd1, hd2, e1, e2, w1, w2, hst, ht, hL⟩ := R
  obtain ⟨g, eg, hE⟩ := ha.eig
  obtain ⟨g1, eg1, hE1⟩ := ha1.eig
  obtain ⟨g2, eg2, hE2⟩ := ha2.eig
  obtain ⟨m1, _, q1, r1⟩ := vrc_arrays_same h h1 ha ha1 e1 w1 hr1 hn1 hd1
  obtain ⟨m2, _, q2, r2⟩ := vrc_arrays_same h h2 ha ha2 e2 w2 hr2 hn2 hd2
  have r1 := r1 g g1 eg eg1
  have r2 := r2 g g2 eg eg2
  obtain ⟨A, hA, hc, hsol⟩ := vrc_coefficients h ha n0 eg
  obtain ⟨A1, hA1, hc1, hsol1⟩ := vrc_coefficients h1 ha1 n1 eg1
  obtain ⟨A2, hA2, hc2, hsol2⟩ := vrc_coefficients h2 ha2 n2 eg2
  obtain ⟨L, hL'⟩ := hE.left
  rw [m1] at hsol1
  rw [m2] at hsol2
  have sub : ∀ {f : ℝ → ℝ}, IntervalIntegrable f volume s tend → IntervalIntegrable f volume s t := fun hf => int_sub hf hst ht
  have K : ∀ {y : VRC} {b : VRCArrays}, (∀ i j, i < a.m.length → j < a.m.length → b.P.psi y.alp a.m.length b.bet i j = a.P.psi x.alp a.m.length a.bet i j ∧
      b.P.oneG y.alp a.m.length b.bet i j = a.P.oneG x.alp a.m.length a.bet i j) → ∀ f i, i < a.m.length →
      dotV a.m.length (b.P.oneG y.alp a.m.length b.bet) f i = dotV a.m.length (a.P.oneG x.alp a.m.length a.bet) f i := by
    intro y b q f i hi
    unfold dotV
    exact Finset.sum_congr rfl (fun j hj => by rw [(q i j hi (Finset.mem_range.1 hj)).2])
  have hcomb := volterra_combine (n := a.m.length) (gam := g) (P := fun i j => x.base.dT * a.P.psi x.alp a.m.length a.bet i j) (L := L) (A := A) (A1 := A1) (A2 := A2)
    (Q := fun i r => rhs (wellG G ⟨fun _ => 0, 0⟩) s (a.m.getD i 0) r - dotV a.m.length (a.P.oneG x.alp a.m.length a.bet)
      (fun l => wellQ G (soilW G) s (a.m.getD l 0) r + wellQ G (colW C) s (a.m.getD l 0) r) i)
    (Q1 := fun i r => rhs (wellG G1 ⟨fun _ => 0, 0⟩) s (a.m.getD i 0) r - dotV a.m.length (a.P.oneG x.alp a.m.length a.bet)
      (fun l => wellQ G1 (soilW G1) s (a.m.getD l 0) r + wellQ G1 (colW C1) s (a.m.getD l 0) r) i)
    (Q2 := fun i r => rhs (wellG G2 ⟨fun _ => 0, 0⟩) s (a.m.getD i 0) r - dotV a.m.length (a.P.oneG x.alp a.m.length a.bet)
      (fun l => wellQ G2 (soilW G2) s (a.m.getD l 0) r + wellQ G2 (colW C2) s (a.m.getD l 0) r) i)
    (s := s) (T := t) (α := α) (β := β) hL'
    (fun j => sub (hA j)) (fun j => sub (hA1 j)) (fun j => sub (hA2 j))
    (fun i hi r c d => hsol i hi r c (d.trans ht))
    (fun i hi r c d => by
      have e := hsol1 i hi r c (d.trans ht)
      rw [K q1 _ i hi] at e
      rw [← e]
      congr 1
      · exact Finset.sum_congr rfl (fun j hj => by rw [r1 i j hi (Finset.mem_range.1 hj)])
      · exact Finset.sum_congr rfl (fun j hj => by rw [(q1 i j hi (Finset.mem_range.1 hj)).1, hd1]))
    (fun i hi r c d => by
      have e := hsol2 i hi r c (d.trans ht)
      rw [K q2 _ i hi] at e
      rw [← e]
      congr 1
      · exact Finset.sum_congr rfl (fun j hj => by rw [r2 i j hi (Finset.mem_range.1 hj)])
      · exact Finset.sum_congr rfl (fun j hj => by rw [(q2 i j hi (Finset.mem_range.1 hj)).1, hd2]))
    (fun i hi r c d => by
      have hL2 := LoadsCombine.mono hL d
      have z1 : (Well.mk (fun _ => 0) 0).Same ⟨fun _ => 0, 0⟩ := Well.Same.rfl _
      have f1 := rhs_combine (bare_input h1.base) (bare_input h2.base) (SameSoil.well e1 z1) (SameSoil.well e2 z1) c (d.trans ht) (LoadsCombine.bare hL2 _ _ _)
        (bare_input h.base) (a.m.getD i 0)
      rw [f1]
      unfold dotV
      simp only [wellQ_combine_base h1.base h2.base e1 e2 (SameSoil.soilW e1) (SameSoil.soilW e2) c (d.trans ht) hL2,
        wellQ_combine_base h1.base h2.base e1 e2 (Column.Same.colW w1) (Column.Same.colW w2) c (d.trans ht) hL2]
      have : ∀ (M u1 u2 v1 v2 : ℕ → ℝ), ∑ j ∈ Finset.range a.m.length, M j * (α * u1 j + β * u2 j + (α * v1 j + β * v2 j)) =
          α * (∑ j ∈ Finset.range a.m.length, M j * (u1 j + v1 j)) + β * ∑ j ∈ Finset.range a.m.length, M j * (u2 j + v2 j) := by
        intro M u1 u2 v1 v2
        rw [Finset.mul_sum, Finset.mul_sum, ← Finset.sum_add_distrib]
        exact Finset.sum_congr rfl (fun j _ => by ring)
      rw [this]
      ring)
  obtain ⟨c, ec, ecA⟩ := hc t hst ht
  obtain ⟨c1, ec1, ecA1⟩ := hc1 t hst ht
  obtain ⟨c2, ec2, ecA2⟩ := hc2 t hst ht
  exact ⟨c, c1, c2, ec, ec1, ec2, fun j hj => by rw [ecA, ecA1, ecA2, hcomb j hj t hst le_rfl]⟩

/-- The pore pressures of three runs as functions of depth. -/
theorem vrc_por_combine (R : Runs3C x x1 x2 a a1 a2 S S1 S2 s tend t α β G G1 G2 C C1 C2) :
    ∃ u u1 u2 : ℝ → ℝ, (∀ z, 0 ≤ z → z ≤ 1 → x.por a z t = .ok (u z)) ∧ (∀ z, 0 ≤ z → z ≤ 1 → x1.por a1 z t = .ok (u1 z)) ∧
      (∀ z, 0 ≤ z → z ≤ 1 → x2.por a2 z t = .ok (u2 z)) ∧ (Continuous u ∧ Continuous u1 ∧ Continuous u2) ∧ ∀ z, u z = α * u1 z + β * u2 z := by
  obtain ⟨c, c1, c2, ec, ec1, ec2, hcomb⟩ := vrc_column_combine R
  have m1 := (vrc_arrays_same R.ok R.ok1 R.made R.made1 R.soil1 R.col1 R.ratio1 R.neig1 R.dT1).1
  have m2 := (vrc_arrays_same R.ok R.ok2 R.made R.made2 R.soil2 R.col2 R.ratio2 R.neig2 R.dT2).1
  have hl := (m_ok R.ok.base R.made.m).1
  have hcont : ∀ (H : Ground) (n : ℕ) (w : ℕ → ℝ) (B : ℕ → ℝ → ℝ), Continuous (fun z => series H n w B z t) := by
    intro H n w B
    unfold series bTop
    fun_prop
  have por : ∀ {y : VRC} {T : Set ℝ} {H : Ground} {D : Column} {b : VRCArrays} {c : ℕ → ℝ} {B : ℕ → ℝ → ℝ}, VRCInput y T s tend H D → b.Made y →
      y.column b t = .ok c → (∀ j, c j = B j t) → ∀ z, 0 ≤ z → z ≤ 1 →
      y.por b z t = .ok (series H y.base.neig (fun j => b.m.getD j 0) B z t) := by
    intro y T H V b c B hy hb e ec z z0 z1
    obtain ⟨bot, tops, bots, e0, _⟩ := normBot_ok hy.base
    unfold VRC.por
    simp only [e, e0, Bind.bind, Except.bind]
    exact dim1sinF_series hy.base hb.m e0 R.start R.stop (fun j _ => ec j) z z0 z1
  refine ⟨_, _, _, por (B := fun j _ => c j) R.ok R.made ec (fun _ => rfl), por (B := fun j _ => c1 j) R.ok1 R.made1 ec1 (fun _ => rfl),
    por (B := fun j _ => c2 j) R.ok2 R.made2 ec2 (fun _ => rfl), ⟨hcont _ _ _ _, hcont _ _ _ _, hcont _ _ _ _⟩, fun z => ?_⟩
  unfold series
  beta_reduce
  rw [m1, m2, R.neig1, R.neig2, ← hl, R.loads.top t R.start le_rfl, R.loads.bot t R.start le_rfl, SameSoil.bTop R.soil1, SameSoil.bTop R.soil2]
  have : ∑ j ∈ Finset.range a.m.length, c j * sin (a.m.getD j 0 * z) =
      α * (∑ j ∈ Finset.range a.m.length, c1 j * sin (a.m.getD j 0 * z)) + β * ∑ j ∈ Finset.range a.m.length, c2 j * sin (a.m.getD j 0 * z) := by
    rw [Finset.mul_sum, Finset.mul_sum, ← Finset.sum_add_distrib]
    exact Finset.sum_congr rfl (fun j hj => by rw [hcomb j (Finset.mem_range.1 hj)]; ring)
  rw [this]
  ring

/-- **C241** Superposition with a permeable column: the pore pressure. -/
theorem C241_pore_pressure (R : Runs3C x x1 x2 a a1 a2 S S1 S2 s tend t α β G G1 G2 C C1 C2) :
    ∀ z, 0 ≤ z → z ≤ 1 → ∃ u u1 u2 : ℝ, x.por a z t = .ok u ∧ x1.por a1 z t = .ok u1 ∧ x2.por a2 z t = .ok u2 ∧ u = α * u1 + β * u2 := by
  obtain ⟨u, u1, u2, p, p1, p2, cu, hu⟩ := vrc_por_combine R
  exact fun z z0 z1 => ⟨_, _, _, p z z0 z1, p1 z z0 z1, p2 z z0 z1, hu z⟩

theorem vrc_out (h : VRCInput x S s tend G C) (hb : a.Made x) (h0 : ∀ i, i < a.m.length → a.eigs i ≠ 0) (hl : SurchargeLengths x.base) {z1 z2 : ℝ}
    (hz0 : 0 ≤ z1) (hz : z1 < z2) (hz1 : z2 ≤ 1) (hst : s ≤ t) (ht : t ≤ tend) {w : ℝ → ℝ} (cw : Continuous w)
    (hw : ∀ z, 0 ≤ z → z ≤ 1 → x.por a z t = .ok (w z)) :
    x.avp a z1 z2 t = .ok ((∫ z in z1..z2, w z) / (z2 - z1)) ∧
    x.settle a z1 z2 t = .ok (x.base.H * x.base.mvref * ∫ z in z1..z2, G.mv z * (G.surcharge z t - w z)) ∧
    IntervalIntegrable (fun z => G.mv z * (G.surcharge z t - w z)) volume z1 z2 := by
  obtain ⟨w', v, q1, q2, q3, q4⟩ := C91_outputs_agree h hb h0 z1 z2 t hz0 hz hz1 hst ht hl.1 hl.2
  have e : ∀ z, z1 < z → z < z2 → w' z = w z := fun z c d => by
    have c0 := q1 z (by linarith) (by linarith)
    rw [hw z (by linarith) (by linarith)] at c0
    injection c0 with c0
    exact c0.symm
  have e1 : ∫ z in z1..z2, w' z = ∫ z in z1..z2, w z := integral_congr_Ioo' hz.le e
  have e2 : ∫ z in z1..z2, G.mv z * (G.surcharge z t - w' z) = ∫ z in z1..z2, G.mv z * (G.surcharge z t - w z) :=
    integral_congr_Ioo' hz.le (fun z c d => by rw [e z c d])
  refine ⟨?_, by rw [q4, e2], ?_⟩
  · rw [q2, ← e1, ← q3, mul_div_cancel_right₀ _ (sub_ne_zero.2 hz.ne')]
  · have : BddOn (fun z => G.mv z * (G.surcharge z t + (-1) * w z)) 0 1 := (Profile.bdd h.base.mv).mul
      ((surcharge_bdd_at h.base t).add (BddOn.of_continuous (f := fun z => (-1) * w z) (by fun_prop) 0 1))
    have i := (this.int zero_le_one).mono_set (c := z1) (d := z2) (by
      rw [Set.uIcc_of_le hz.le, Set.uIcc_of_le zero_le_one]; exact Set.Icc_subset_Icc hz0 hz1)
    exact i.congr (fun z _ => by ring)

/-- **C241** The average pore pressure and the settlement. -/
theorem C241_average_and_settlement (R : Runs3C x x1 x2 a a1 a2 S S1 S2 s tend t α β G G1 G2 C C1 C2) (l : SurchargeLengths x.base)
    (l1 : SurchargeLengths x1.base) (l2 : SurchargeLengths x2.base) (z1 z2 : ℝ) (hz0 : 0 ≤ z1) (hz : z1 < z2) (hz1 : z2 ≤ 1) :
    (∃ v v1 v2 : ℝ, x.avp a z1 z2 t = .ok v ∧ x1.avp a1 z1 z2 t = .ok v1 ∧ x2.avp a2 z1 z2 t = .ok v2 ∧ v = α * v1 + β * v2) ∧
    (x.base.H * x.base.mvref = x1.base.H * x1.base.mvref → x.base.H * x.base.mvref = x2.base.H * x2.base.mvref →
      ∃ v v1 v2 : ℝ, x.settle a z1 z2 t = .ok v ∧ x1.settle a1 z1 z2 t = .ok v1 ∧ x2.settle a2 z1 z2 t = .ok v2 ∧ v = α * v1 + β * v2) := by
  obtain ⟨u, u1, u2, p, p1, p2, cu, hu⟩ := vrc_por_combine R
  obtain ⟨o1, o2, o3⟩ := vrc_out R.ok R.made R.nonzero l hz0 hz hz1 R.start R.stop cu.1 p
  obtain ⟨q1, q2, q3⟩ := vrc_out R.ok1 R.made1 R.nonzero1 l1 hz0 hz hz1 R.start R.stop cu.2.1 p1
  obtain ⟨r1, r2, r3⟩ := vrc_out R.ok2 R.made2 R.nonzero2 l2 hz0 hz hz1 R.start R.stop cu.2.2 p2
  refine ⟨⟨_, _, _, o1, q1, r1, ?_⟩, fun k1 k2 => ⟨_, _, _, o2, q2, r2, ?_⟩⟩
  · rw [int_combine hz.le (cu.2.1.intervalIntegrable _ _) (cu.2.2.intervalIntegrable _ _) (fun r _ _ => hu r)]
    ring
  · rw [int_combine (α := α) (β := β) hz.le q3 r3 (fun z c d => by
      have c' : 0 < z := by linarith
      have d' : z < 1 := by linarith
      rw [R.loads.surcharge z t c' d' R.start le_rfl, hu, R.soil1.mv z c' d', R.soil2.mv z c' d']; ring), ← k1, ← k2]
    ring

/-- The reported pressure in the soil (`k = 0`) or in the column (`k = 1`), at a time without a step in a boundary load. -/
theorem vrc_part_combine (R : Runs3C x x1 x2 a a1 a2 S S1 S2 s tend t α β G G1 G2 C C1 C2)
    (j : NoStep x.base.top t ∧ NoStep x.base.bot t) (j1 : NoStep x1.base.top t ∧ NoStep x1.base.bot t) (j2 : NoStep x2.base.top t ∧ NoStep x2.base.bot t)
    (k : ℕ) (hk : k < 3) : ∀ z, 0 ≤ z → z ≤ 1 → ∃ u u1 u2 : ℝ, x.part a k z t = .ok u ∧ x1.part a1 k z t = .ok u1 ∧ x2.part a2 k z t = .ok u2 ∧
      u = α * u1 + β * u2 := by
  intro z z0 z1
  obtain ⟨c, c1, c2, ec, ec1, ec2, hcomb⟩ := vrc_column_combine R
  obtain ⟨m1, b1, _⟩ := vrc_arrays_same R.ok R.ok1 R.made R.made1 R.soil1 R.col1 R.ratio1 R.neig1 R.dT1
  obtain ⟨m2, b2, _⟩ := vrc_arrays_same R.ok R.ok2 R.made R.made2 R.soil2 R.col2 R.ratio2 R.neig2 R.dT2
  obtain ⟨τ, σ, n1, n2, p⟩ := part_ok R.ok R.made R.start R.stop ec
  obtain ⟨τ1, σ1, n11, n21, p1⟩ := part_ok R.ok1 R.made1 R.start R.stop ec1
  obtain ⟨τ2, σ2, n12, n22, p2⟩ := part_ok R.ok2 R.made2 R.start R.stop ec2
  refine ⟨_, _, _, p k z z0 z1, p1 k z z0 z1, p2 k z z0 z1, ?_⟩
  rw [n1 j.1, n2 j.2, n11 j1.1, n21 j1.2, n12 j2.1, n22 j2.2, m1, m2]
  have al1 : x1.alp = x.alp := by unfold VRC.alp; rw [R.ratio1]
  have al2 : x2.alp = x.alp := by unfold VRC.alp; rw [R.ratio2]
  rw [al1, al2]
  set n := a.m.length with hn
  have X : ∀ {b : VRCArrays}, (∀ k b' i j, k < 3 → b' < 3 → i < n → j < n → betBlk n b.bet k b' i j = betBlk n a.bet k b' i j) → ∀ (c L : ℕ → ℝ),
      ∑ j ∈ Finset.range n, (dotV n (betBlk n b.bet k 0) c j - dotV n (betX n x.alp b.bet k) L j) * sin (a.m.getD j 0 * z) =
      ∑ j ∈ Finset.range n, (dotV n (betBlk n a.bet k 0) c j - dotV n (betX n x.alp a.bet k) L j) * sin (a.m.getD j 0 * z) := by
    intro b hb c L
    refine Finset.sum_congr rfl (fun j hj => ?_)
    have u1 : dotV n (betBlk n b.bet k 0) c j = dotV n (betBlk n a.bet k 0) c j := by
      unfold dotV
      exact Finset.sum_congr rfl (fun l hl => by rw [hb k 0 j l hk (by omega) (Finset.mem_range.1 hj) (Finset.mem_range.1 hl)])
    have u2 : dotV n (betX n x.alp b.bet k) L j = dotV n (betX n x.alp a.bet k) L j := by
      unfold dotV betX
      exact Finset.sum_congr rfl (fun l hl => by rw [hb k 1 j l hk (by omega) (Finset.mem_range.1 hj) (Finset.mem_range.1 hl),
        hb k 2 j l hk (by omega) (Finset.mem_range.1 hj) (Finset.mem_range.1 hl)])
    rw [u1, u2]
  rw [X b1, X b2]
  simp only [Lt, SameSoil.cTop (SameSoil.well R.soil1 (SameSoil.soilW R.soil1)), SameSoil.cTop (SameSoil.well R.soil2 (SameSoil.soilW R.soil2)),
    SameSoil.cBot (SameSoil.well R.soil1 (SameSoil.soilW R.soil1)), SameSoil.cBot (SameSoil.well R.soil2 (SameSoil.soilW R.soil2)),
    SameSoil.cTop (SameSoil.well R.soil1 (Column.Same.colW R.col1)), SameSoil.cTop (SameSoil.well R.soil2 (Column.Same.colW R.col2)),
    SameSoil.cBot (SameSoil.well R.soil1 (Column.Same.colW R.col1)), SameSoil.cBot (SameSoil.well R.soil2 (Column.Same.colW R.col2)),
    R.soil1.drn, R.soil2.drn, R.loads.top t R.start le_rfl, R.loads.bot t R.start le_rfl]
  have dl : ∀ (M : ℕ → ℕ → ℝ) (f f1 f2 : ℕ → ℝ) (j : ℕ), (∀ l, l < n → f l = α * f1 l + β * f2 l) → dotV n M f j = α * dotV n M f1 j + β * dotV n M f2 j := by
    intro M f f1 f2 j hf
    unfold dotV
    rw [Finset.mul_sum, Finset.mul_sum, ← Finset.sum_add_distrib]
    exact Finset.sum_congr rfl (fun l hl => by rw [hf l (Finset.mem_range.1 hl)]; ring)
  have sl : ∀ f f1 f2 : ℕ → ℝ, (∀ l, f l = α * f1 l + β * f2 l) → ∑ j ∈ Finset.range n, f j * sin (a.m.getD j 0 * z) =
      α * (∑ j ∈ Finset.range n, f1 j * sin (a.m.getD j 0 * z)) + β * ∑ j ∈ Finset.range n, f2 j * sin (a.m.getD j 0 * z) := by
    intro f f1 f2 hf
    rw [Finset.mul_sum, Finset.mul_sum, ← Finset.sum_add_distrib]
    exact Finset.sum_congr rfl (fun l hl => by rw [hf l]; ring)
  rw [sl _ _ _ (fun l => by
    rw [dl _ c c1 c2 l hcomb, dl (betX n x.alp a.bet k) _ _ _ l (fun l' _ => by
      show _ = α * (cTop (wellG G (soilW G)) (a.m.getD l' 0) * G1.top t + cBot (wellG G (soilW G)) (a.m.getD l' 0) * G1.bot t +
          (cTop (wellG G (colW C)) (a.m.getD l' 0) * G1.top t + cBot (wellG G (colW C)) (a.m.getD l' 0) * G1.bot t)) +
        β * (cTop (wellG G (soilW G)) (a.m.getD l' 0) * G2.top t + cBot (wellG G (soilW G)) (a.m.getD l' 0) * G2.bot t +
          (cTop (wellG G (colW C)) (a.m.getD l' 0) * G2.top t + cBot (wellG G (colW C)) (a.m.getD l' 0) * G2.bot t))
      ring)]
    show _ = α * (dotV n (betBlk n a.bet k 0) c1 l - dotV n (betX n x.alp a.bet k) (fun l' => cTop (wellG G (soilW G)) (a.m.getD l' 0) * G1.top t + cBot (wellG G (soilW G)) (a.m.getD l' 0) * G1.bot t +
          (cTop (wellG G (colW C)) (a.m.getD l' 0) * G1.top t + cBot (wellG G (colW C)) (a.m.getD l' 0) * G1.bot t)) l) +
        β * (dotV n (betBlk n a.bet k 0) c2 l - dotV n (betX n x.alp a.bet k) (fun l' => cTop (wellG G (soilW G)) (a.m.getD l' 0) * G2.top t + cBot (wellG G (soilW G)) (a.m.getD l' 0) * G2.bot t +
          (cTop (wellG G (colW C)) (a.m.getD l' 0) * G2.top t + cBot (wellG G (colW C)) (a.m.getD l' 0) * G2.bot t)) l)
    ring)]
  ring

/-- **C241** The pressures in the soil and in the column, at a time without a step in a boundary load. -/
theorem C241_soil_and_column (R : Runs3C x x1 x2 a a1 a2 S S1 S2 s tend t α β G G1 G2 C C1 C2)
    (j : NoStep x.base.top t ∧ NoStep x.base.bot t) (j1 : NoStep x1.base.top t ∧ NoStep x1.base.bot t) (j2 : NoStep x2.base.top t ∧ NoStep x2.base.bot t)
    (z : ℝ) (z0 : 0 ≤ z) (z1 : z ≤ 1) :
    (∃ u u1 u2 : ℝ, x.pors a z t = .ok u ∧ x1.pors a1 z t = .ok u1 ∧ x2.pors a2 z t = .ok u2 ∧ u = α * u1 + β * u2) ∧
    ∃ u u1 u2 : ℝ, x.porc a z t = .ok u ∧ x1.porc a1 z t = .ok u1 ∧ x2.porc a2 z t = .ok u2 ∧ u = α * u1 + β * u2 :=
  ⟨vrc_part_combine R j j1 j2 0 (by omega) z z0 z1, vrc_part_combine R j j1 j2 1 (by omega) z z0 z1⟩

/-- **C241** Causality and independence of the representation. -/
theorem C241_causal (h : VRCInput x S s tend G C) (h1 : VRCInput x1 S1 s tend G1 C1) (ha : a.Made x) (ha1 : a1.Made x1)
    (n0 : ∀ i, i < a.m.length → a.eigs i ≠ 0) (n1 : ∀ i, i < a1.m.length → a1.eigs i ≠ 0) (hr1 : x1.n = x.n) (hn1 : x1.base.neig = x.base.neig)
    (hd1 : x1.base.dT = x.base.dT) (e1 : G1.SameSoil G) (w1 : C1.Same C) (hst : s ≤ t) (ht : t ≤ tend) (hL : G.SameLoads G1 s t) :
    ∀ z, 0 ≤ z → z ≤ 1 → ∃ u : ℝ, x.por a z t = .ok u ∧ x1.por a1 z t = .ok u := by
  intro z z0 z1
  obtain ⟨u, u1, u2, q, q1, q2, e⟩ := C241_pore_pressure (x := x) (x1 := x1) (x2 := x1) (α := 1) (β := 0)
    ⟨h, h1, h1, ha, ha1, ha1, n0, n1, n1, hr1, hr1, hn1, hn1, hd1, hd1, e1, e1, w1, w1, hst, ht, hL.combine⟩ z z0 z1
  exact ⟨u, q, by rw [q1, e]; simp⟩

/-- **C241** No pressure before the first load. -/
theorem C241_quiescent (h : VRCInput x S s tend G C) (ha : a.Made x) (n0 : ∀ i, i < a.m.length → a.eigs i ≠ 0) (hst : s ≤ t) (ht : t ≤ tend)
    (hL : G.NoLoads s t) : ∀ z, 0 ≤ z → z ≤ 1 → x.por a z t = .ok 0 := by
  intro z z0 z1
  obtain ⟨u, u1, u2, q, q1, q2, e⟩ := C241_pore_pressure (x := x) (x1 := x) (x2 := x) (α := 0) (β := 0)
    ⟨h, h, h, ha, ha, ha, n0, n0, n0, rfl, rfl, rfl, rfl, rfl, rfl, SameSoil.rfl G, SameSoil.rfl G, Column.Same.rfl C, Column.Same.rfl C, hst, ht, hL.combine⟩ z z0 z1
  rw [q, e]; simp

/-! ## The hypotheses are met -/

/-- `Ex.columnInput` under the surcharge alone. -/
noncomputable def Ex.columnPart1 : VRC :=
  ⟨{ Ex.part1 with vacuumDepth := none, vacuumTime := none, fixedPpress := none, pumping := none }, 2, 3, 5, Ex.layers, Ex.layers⟩
noncomputable def Ex.columnPart1G : Ground := { Ex.partG1 with drain := fun _ _ => 0, fixed := [], pumps := [] }

/-- `Ex.columnInput` under the boundary loads alone. -/
noncomputable def Ex.columnPart2 : VRC :=
  ⟨{ Ex.part2 with vacuumDepth := none, vacuumTime := none, fixedPpress := none, pumping := none }, 2, 3, 5, Ex.layers, Ex.layers⟩
noncomputable def Ex.columnPart2G : Ground := { Ex.partG2 with drain := fun _ _ => 0, fixed := [], pumps := [] }

theorem Ex.columnPart1_ok : VRCInput Ex.columnPart1 {0, 1/2, 1} 0 5 Ex.columnPart1G Ex.column where
  base := { Ex.part1_ok with drain := fun z t => rfl, fixed := rfl, pumps := rfl }
  noVac := ⟨rfl, rfl, rfl⟩
  n := by norm_num [Ex.columnPart1]
  given := ⟨rfl, rfl, rfl, rfl, rfl⟩
  col := Ex.well_ok.well
  colH := ⟨_, Ex.layers_profile, fun z => rfl⟩

theorem Ex.columnPart2_ok : VRCInput Ex.columnPart2 {0, 1/2, 1} 0 5 Ex.columnPart2G Ex.column where
  base := { Ex.part2_ok with drain := fun z t => rfl, fixed := rfl, pumps := rfl }
  noVac := ⟨rfl, rfl, rfl⟩
  n := by norm_num [Ex.columnPart2]
  given := ⟨rfl, rfl, rfl, rfl, rfl⟩
  col := Ex.well_ok.well
  colH := ⟨_, Ex.layers_profile, fun z => rfl⟩

theorem Ex.columnPart1_solvable : (∃ a : VRCArrays, a.Made Ex.columnPart1) ∧ ∀ a : VRCArrays, a.Made Ex.columnPart1 → ∀ i, i < a.m.length → 0 < a.eigs i := by
  refine C93_eigensystem Ex.columnPart1_ok (by norm_num [Ex.columnPart1, Ex.part1, Ex.input]) (by norm_num [Ex.columnPart1]) 1 1 2 (fun z _ _ => Ex.layersF_ge z) one_pos
    (fun z _ _ => by simpa [Ex.columnPart1G, Ex.partG1, Ex.ground] using Ex.layersF_ge z) (fun z _ _ => ?_) (by norm_num) (fun z _ _ => ?_) (fun z _ _ => ?_)
    (by norm_num [Ex.columnPart1, Ex.part1, Ex.input]) ?_
  · have := Ex.layersF_ge z
    simp only [Ex.column]; linarith
  · have := Ex.layersF_ge z
    simp only [Ex.columnPart1G, Ex.partG1, Ex.ground]; nlinarith
  · have := Ex.layersF_ge z
    simp only [Ex.column]; linarith
  · have := two_le_pi
    norm_num [Ex.columnPart1, Ex.part1, Ex.input]; nlinarith

theorem Ex.columnPart2_solvable : (∃ a : VRCArrays, a.Made Ex.columnPart2) ∧ ∀ a : VRCArrays, a.Made Ex.columnPart2 → ∀ i, i < a.m.length → 0 < a.eigs i := by
  refine C93_eigensystem Ex.columnPart2_ok (by norm_num [Ex.columnPart2, Ex.part2, Ex.input]) (by norm_num [Ex.columnPart2]) 1 1 2 (fun z _ _ => Ex.layersF_ge z) one_pos
    (fun z _ _ => by simpa [Ex.columnPart2G, Ex.partG2, Ex.ground] using Ex.layersF_ge z) (fun z _ _ => ?_) (by norm_num) (fun z _ _ => ?_) (fun z _ _ => ?_)
    (by norm_num [Ex.columnPart2, Ex.part2, Ex.input]) ?_
  · have := Ex.layersF_ge z
    simp only [Ex.column]; linarith
  · have := Ex.layersF_ge z
    simp only [Ex.columnPart2G, Ex.partG2, Ex.ground]; nlinarith
  · have := Ex.layersF_ge z
    simp only [Ex.column]; linarith
  · have := two_le_pi
    norm_num [Ex.columnPart2, Ex.part2, Ex.input]; nlinarith

/-- Three runs as in the theorems: all the loads, the surcharge alone, the boundary loads alone. -/
theorem Ex.column_runs (t : ℝ) (h0 : 0 ≤ t) (h5 : t ≤ 5) : ∃ a a1 a2 : VRCArrays, Runs3C Ex.columnInput Ex.columnPart1 Ex.columnPart2 a a1 a2
    {0, 1/2, 1} {0, 1/2, 1} {0, 1/2, 1} 0 5 t 1 1 Ex.columnGround Ex.columnPart1G Ex.columnPart2G Ex.column Ex.column Ex.column := by
  obtain ⟨⟨a, hM⟩, p⟩ := Ex.column_solvable
  obtain ⟨⟨a1, hM1⟩, p1⟩ := Ex.columnPart1_solvable
  obtain ⟨⟨a2, hM2⟩, p2⟩ := Ex.columnPart2_solvable
  exact ⟨a, a1, a2, ⟨Ex.column_ok, Ex.columnPart1_ok, Ex.columnPart2_ok, hM, hM1, hM2, fun i hi => (p a hM i hi).ne', fun i hi => (p1 a1 hM1 i hi).ne',
    fun i hi => (p2 a2 hM2 i hi).ne', rfl, rfl, rfl, rfl, rfl, rfl,
    ⟨rfl, fun _ _ _ => rfl, fun _ _ _ => rfl, rfl, fun _ _ _ => rfl, fun _ => rfl⟩,
    ⟨rfl, fun _ _ _ => rfl, fun _ _ _ => rfl, rfl, fun _ _ _ => rfl, fun _ => rfl⟩, Column.Same.rfl _, Column.Same.rfl _, h0, h5,
    ⟨fun z r _ _ _ _ => by simp [Ex.columnPart1G, Ex.columnPart2G, Ex.columnGround, Ex.partG1, Ex.partG2, Ex.ground],
      fun z _ _ => by simp [Ex.columnPart1G, Ex.columnPart2G, Ex.columnGround, Ex.partG1, Ex.partG2, Ex.ground],
      fun z r _ _ _ _ => by simp [Ex.columnPart1G, Ex.columnPart2G, Ex.columnGround],
      fun r _ _ => by simp [Ex.columnPart1G, Ex.columnPart2G, Ex.columnGround, Ex.partG1, Ex.partG2, Ex.ground],
      by simp [Ex.columnPart1G, Ex.columnPart2G, Ex.columnGround, Ex.partG1, Ex.partG2, Ex.ground],
      fun r _ _ => by simp [Ex.columnPart1G, Ex.columnPart2G, Ex.columnGround, Ex.partG1, Ex.partG2, Ex.ground],
      by simp [Ex.columnPart1G, Ex.columnPart2G, Ex.columnGround, Ex.partG1, Ex.partG2, Ex.ground],
      fun p r _ _ => by simp [Ex.columnPart1G, Ex.columnPart2G, Ex.columnGround],
      fun p r _ _ => by simp [Ex.columnPart1G, Ex.columnPart2G, Ex.columnGround]⟩⟩⟩

/-- C241: the settlement under all the loads is that under the surcharge plus that under the boundary loads. -/
example : ∃ a a1 a2 : VRCArrays, a.Made Ex.columnInput ∧ a1.Made Ex.columnPart1 ∧ a2.Made Ex.columnPart2 ∧ ∃ v v1 v2 : ℝ,
    Ex.columnInput.settle a (1/4) 1 2 = .ok v ∧ Ex.columnPart1.settle a1 (1/4) 1 2 = .ok v1 ∧ Ex.columnPart2.settle a2 (1/4) 1 2 = .ok v2 ∧ v = 1 * v1 + 1 * v2 := by
  obtain ⟨a, a1, a2, R⟩ := Ex.column_runs 2 (by norm_num) (by norm_num)
  exact ⟨a, a1, a2, R.made, R.made1, R.made2, (C241_average_and_settlement R
    ⟨fun l d h1 h2 => by cases h1; cases h2; exact ⟨rfl, rfl⟩, fun h => (by cases h)⟩
    ⟨fun l d h1 h2 => by cases h1; cases h2; exact ⟨rfl, rfl⟩, fun h => (by cases h)⟩ ⟨fun l d h1 h2 => (by cases h1), fun _ => rfl⟩
    (1/4) 1 (by norm_num) (by norm_num) (by norm_num)).2 rfl rfl⟩

/-- C241: so are the pressures in the soil and in the column. -/
example : ∃ a a1 a2 : VRCArrays, a.Made Ex.columnInput ∧ ∃ u u1 u2 : ℝ,
    Ex.columnInput.porc a (1/4) 2 = .ok u ∧ Ex.columnPart1.porc a1 (1/4) 2 = .ok u1 ∧ Ex.columnPart2.porc a2 (1/4) 2 = .ok u2 ∧ u = 1 * u1 + 1 * u2 := by
  obtain ⟨a, a1, a2, R⟩ := Ex.column_runs 2 (by norm_num) (by norm_num)
  exact ⟨a, a1, a2, R.made, (C241_soil_and_column R ⟨Ex.load_noStep 2 (by norm_num) (by norm_num), Ex.load_noStep 2 (by norm_num) (by norm_num)⟩ ⟨(fun ps e => by cases e), (fun ps e => by cases e)⟩ ⟨Ex.load_noStep 2 (by norm_num) (by norm_num), Ex.load_noStep 2 (by norm_num) (by norm_num)⟩ (1/4) (by norm_num) (by norm_num)).2⟩

/-- C241: before the first load (`Ex.columnPart1` without its surcharge). -/
example : ∃ a : VRCArrays, VRC.por ⟨{ Ex.columnPart1.base with surchargeDepth := none, surchargeTime := none }, 2, 3, 5, Ex.layers, Ex.layers⟩ a (1/4) 2 = .ok 0 := by
  have hok : VRCInput ⟨{ Ex.columnPart1.base with surchargeDepth := none, surchargeTime := none }, 2, 3, 5, Ex.layers, Ex.layers⟩ {0, 1/2, 1} 0 5
      { Ex.columnPart1G with surcharge := fun _ _ => 0 } Ex.column :=
    ⟨{ Ex.columnPart1_ok.base with surcharge := ⟨fun _ _ => rfl, fun _ => rfl⟩ }, ⟨rfl, rfl, rfl⟩, Ex.columnPart1_ok.n, ⟨rfl, rfl, rfl, rfl, rfl⟩, Ex.well_ok.well,
      ⟨_, Ex.layers_profile, fun z => rfl⟩⟩
  obtain ⟨⟨a, hM⟩, p⟩ := C93_eigensystem hok (by norm_num [Ex.columnPart1, Ex.part1, Ex.input]) (by norm_num) 1 1 2 (fun z _ _ => Ex.layersF_ge z) one_pos
    (fun z _ _ => by simpa [Ex.columnPart1G, Ex.partG1, Ex.ground] using Ex.layersF_ge z)
    (fun z _ _ => by have := Ex.layersF_ge z; simp only [Ex.column]; linarith) (by norm_num)
    (fun z _ _ => by have := Ex.layersF_ge z; simp only [Ex.columnPart1G, Ex.partG1, Ex.ground]; nlinarith)
    (fun z _ _ => by have := Ex.layersF_ge z; simp only [Ex.column]; linarith)
    (by norm_num [Ex.columnPart1, Ex.part1, Ex.input]) (by have := two_le_pi; norm_num [Ex.columnPart1, Ex.part1, Ex.input]; nlinarith)
  exact ⟨a, C241_quiescent hok hM (fun i hi => (p a hM i hi).ne') (by norm_num) (by norm_num)
    ⟨fun _ _ _ _ _ _ => rfl, fun _ _ _ => rfl, fun _ _ _ _ _ _ => rfl, fun _ _ _ => rfl, rfl, fun _ _ _ => rfl, rfl,
      fun f hf => absurd hf (by simp [Ex.columnPart1G]), fun f hf => absurd hf (by simp [Ex.columnPart1G])⟩ (1/4) (by norm_num) (by norm_num)⟩

end Geotecha.Speccon
