import Verif.Speccon.SpecUnsatCombine
import Verif.Speccon.UnsatEigen
import Verif.Speccon.PropsSuperpose

/-!
# C243: superposition and causality in speccon1d_unsat (unsaturated soil)
-/

set_option linter.unusedVariables false
set_option autoImplicit false
open Real intervalIntegral MeasureTheory Filter Topology
namespace Geotecha.Speccon
open Geotecha.Spec Geotecha.Piecewise

variable {x x1 x2 : UnsatIn} {S S1 S2 : Set ℝ} {s tend t α β : ℝ} {U U1 U2 : Unsat} {a a1 a2 : UnsatArrays}

/-- A superposition of three runs: same soil, number of terms, `dT` and `dTw`, loads combined up to time `t`, all of them with a missing boundary
list or none of them. -/
structure RunsU (x x1 x2 : UnsatIn) (a a1 a2 : UnsatArrays) (S S1 S2 : Set ℝ) (s tend t α β : ℝ) (U U1 U2 : Unsat) : Prop where
  ok : UnsatInput x S s tend U
  ok1 : UnsatInput x1 S1 s tend U1
  ok2 : UnsatInput x2 S2 s tend U2
  made : a.Made x
  made1 : a1.Made x1
  made2 : a2.Made x2
  nonzero : ∀ i, i < 2 * x.neig → a.eigs i ≠ 0
  nonzero1 : ∀ i, i < 2 * x1.neig → a1.eigs i ≠ 0
  nonzero2 : ∀ i, i < 2 * x2.neig → a2.eigs i ≠ 0
  neig1 : x1.neig = x.neig
  neig2 : x2.neig = x.neig
  dT1 : x1.dT = x.dT
  dT2 : x2.dT = x.dT
  dTw1 : x1.dTw = x.dTw
  dTw2 : x2.dTw = x.dTw
  soil1 : U1.SameSoil U
  soil2 : U2.SameSoil U
  start : s ≤ t
  stop : t ≤ tend
  loads : U.LoadsCombine U1 U2 α β s t

theorem Fluid.Combine.mono {F F1 F2 : Fluid} {t' : ℝ} (h : F.Combine F1 F2 α β s t) (ht : t' ≤ t) : F.Combine F1 F2 α β s t' :=
  ⟨fun r c d => h.top r c (d.trans ht), h.top0, fun r c d => h.bot r c (d.trans ht), h.bot0⟩

theorem unsatMono {t' : ℝ} (h : U.LoadsCombine U1 U2 α β s t) (ht : t' ≤ t) : U.LoadsCombine U1 U2 α β s t' :=
  ⟨fun z r a b c d => h.surcharge z r a b c (d.trans ht), h.surcharge0, Fluid.Combine.mono h.water ht, Fluid.Combine.mono h.air ht⟩

/-! ## The arrays -/

theorem gm_congr {f g : ℝ → ℝ} (h : ∀ z, 0 < z → z < 1 → f z = g z) (w w' : ℝ) : gm f w w' = gm g w w' :=
  int01_congr (fun z a b => by rw [h z a b])

theorem sameWater (e : U1.SameSoil U) : (phG U1 U1.water).SameSoil (phG U U.water) :=
  ⟨e.drn, fun _ _ _ => rfl, e.water, e.waterEnd, fun _ _ _ => rfl, fun _ => rfl⟩

theorem sameAir (e : U1.SameSoil U) : (phG U1 U1.air).SameSoil (phG U U.air) :=
  ⟨e.drn, fun _ _ _ => rfl, e.air, e.airEnd, fun _ _ _ => rfl, fun _ => rfl⟩

/-- Two runs with the same soil have the same matrices. -/
theorem unsat_arrays_same (h : UnsatInput x S s tend U) (h1 : UnsatInput x1 S1 s tend U1) (ha : a.Made x) (ha1 : a1.Made x1)
    (e1 : U1.SameSoil U) (hn : x1.neig = x.neig) (hdT : x1.dT = x.dT) :
    a1.m = a.m ∧ ∀ g g1 p p1, x.gam a.m = .ok g → x1.gam a1.m = .ok g1 → x.psi a.m = .ok p → x1.psi a1.m = .ok p1 →
      ∀ i j, i < 2 * x.neig → j < 2 * x.neig → g1 i j = g i j ∧ p1 i j = p i j := by
  obtain ⟨hl, hget, hd, hne, hsc⟩ := unsat_m h ha.m
  have hm : a1.m = a.m := by
    have d : x1.drn = x.drn := by rw [← h.drnU, ← h1.drnU, e1.drn]
    have e : x1.m = x.m := by unfold UnsatIn.m; rw [hn, d]
    have q := ha1.m
    rw [e, ha.m] at q
    injection q with q
    exact q.symm
  refine ⟨hm, fun g g1 p p1 eg eg1 ep ep1 => ?_⟩
  obtain ⟨G, fg, hG⟩ := unsat_gam h hd hl
  obtain ⟨G1, fg1, hG1⟩ := unsat_gam h1 hd (hl.trans hn.symm)
  obtain ⟨P, fp, hP⟩ := unsat_psi h hd hl
  obtain ⟨P1, fp1, hP1⟩ := unsat_psi h1 hd (hl.trans hn.symm)
  rw [hm] at eg1 ep1
  rw [fg] at eg; rw [fg1] at eg1; rw [fp] at ep; rw [fp1] at ep1
  injection eg with eg; injection eg1 with eg1; injection ep with ep; injection ep1 with ep1
  subst eg eg1 ep ep1
  rw [hn] at hG1 hP1
  have key : ∀ i j, i < x.neig → j < x.neig →
      (G1 i j = G i j ∧ G1 i (x.neig + j) = G i (x.neig + j) ∧ G1 (x.neig + i) j = G (x.neig + i) j ∧ G1 (x.neig + i) (x.neig + j) = G (x.neig + i) (x.neig + j)) ∧
      (P1 i j = P i j ∧ P1 i (x.neig + j) = P i (x.neig + j) ∧ P1 (x.neig + i) j = P (x.neig + i) j ∧ P1 (x.neig + i) (x.neig + j) = P (x.neig + i) (x.neig + j)) := by
    intro i j hi hj
    obtain ⟨u1, u2, u3, u4⟩ := hG i j hi hj
    obtain ⟨v1, v2, v3, v4⟩ := hG1 i j hi hj
    obtain ⟨w1, w2, w3, w4⟩ := hP i j hi hj
    obtain ⟨y1, y2, y3, y4⟩ := hP1 i j hi hj
    rw [hdT, SameSoil.psiForm (sameWater e1), ← w1] at y1
    rw [hdT, SameSoil.psiForm (sameAir e1), ← w4] at y4
    refine ⟨⟨?_, ?_, ?_, ?_⟩, mul_left_cancel₀ h.dT y1, by rw [y2, w2], by rw [y3, w3], mul_left_cancel₀ h.dT y4⟩
    · rw [u1, v1, gm_congr e1.m2w]
    · rw [u2, v2, gm_congr e1.m2w, gm_congr e1.m1kw]
    · rw [u3, v3, gm_congr e1.m2a]
    · rw [u4, v4, gm_congr e1.m2a, gm_congr e1.m1ka, gm_congr e1.n, e1.airRef,
        gm_congr (f := fun z => U1.S z * U1.n z) (g := fun z => U.S z * U.n z) (fun z a b => by rw [e1.S z a b, e1.n z a b])]
  have all : ∀ i j, i < 2 * x.neig → j < 2 * x.neig → G1 i j = G i j ∧ P1 i j = P i j := by
    intro i j hi hj
    by_cases ci : i < x.neig <;> by_cases cj : j < x.neig
    · exact ⟨(key i j ci cj).1.1, (key i j ci cj).2.1⟩
    · have k := key i (j - x.neig) ci (by omega)
      rw [show x.neig + (j - x.neig) = j by omega] at k
      exact ⟨k.1.2.1, k.2.2.1⟩
    · have k := key (i - x.neig) j (by omega) cj
      rw [show x.neig + (i - x.neig) = i by omega] at k
      exact ⟨k.1.2.2.1, k.2.2.2.1⟩
    · have k := key (i - x.neig) (j - x.neig) (by omega) (by omega)
      rw [show x.neig + (j - x.neig) = j by omega, show x.neig + (i - x.neig) = i by omega] at k
      exact ⟨k.1.2.2.2, k.2.2.2.2⟩
  intro i j hi hj
  refine ⟨?_, (all i j hi hj).2⟩
  unfold chop
  rw [(all i j hi hj).1]

/-! ## The right hand sides -/

theorem loadT_combine (h1 : UnsatInput x1 S1 s tend U1) (h2 : UnsatInput x2 S2 s tend U2) (hst : s ≤ t) (hL : U.LoadsCombine U1 U2 α β s t)
    {f f1 f2 : ℝ → ℝ} {l1 l2 : PolyLine ℝ} (p1 : Profile S1 l1 f1) (p2 : Profile S2 l2 f2) (e1 : ∀ z, 0 < z → z < 1 → f1 z = f z)
    (e2 : ∀ z, 0 < z → z < 1 → f2 z = f z) (w : ℝ) : loadT U f w t = α * loadT U1 f1 w t + β * loadT U2 f2 w t := by
  have bs : ∀ {y : UnsatIn} {V : Unsat} {T : Set ℝ} {l : PolyLine ℝ} {k : ℝ → ℝ}, UnsatInput y T s tend V → Profile T l k →
      IntervalIntegrable (fun z => k z * sin (w * z) * (V.surcharge z t - V.surcharge0 z)) volume 0 1 := fun hy hk =>
    BddOn.int zero_le_one (((Profile.bdd hk).mul (BddOn.of_continuous (f := fun z => sin (w * z)) (by fun_prop) 0 1)).mul
      (surcharge_bdd (aux_input hy hy.water hk hy.kw) t))
  unfold loadT
  exact int_combine zero_le_one (bs h1 p1) (bs h2 p2) (fun z c d => by
    rw [hL.surcharge z t c d hst le_rfl, hL.surcharge0 z c d, e1 z c d, e2 z c d]; ring)

theorem stBC_combine {F F1 F2 : Fluid} (d1 : U1.drn = U.drn) (d2 : U2.drn = U.drn) (hst : s ≤ t) (hL : F.Combine F1 F2 α β s t)
    {f f1 f2 : ℝ → ℝ} (e1 : ∀ z, 0 < z → z < 1 → f1 z = f z) (e2 : ∀ z, 0 < z → z < 1 → f2 z = f z) (w : ℝ) :
    stBC U F f w t = α * stBC U1 F1 f1 w t + β * stBC U2 F2 f2 w t := by
  unfold stBC
  rw [d1, d2, hL.top t hst le_rfl, hL.bot t hst le_rfl, hL.top0, hL.bot0,
    int01_congr (f := fun z => f1 z * sin (w * z) * (1 - (1 - (U.drn:ℝ)) * z)) (g := fun z => f z * sin (w * z) * (1 - (1 - (U.drn:ℝ)) * z)) (fun z a b => by rw [e1 z a b]),
    int01_congr (f := fun z => f2 z * sin (w * z) * (1 - (1 - (U.drn:ℝ)) * z)) (g := fun z => f z * sin (w * z) * (1 - (1 - (U.drn:ℝ)) * z)) (fun z a b => by rw [e2 z a b]),
    int01_congr (f := fun z => f1 z * sin (w * z) * z) (g := fun z => f z * sin (w * z) * z) (fun z a b => by rw [e1 z a b]),
    int01_congr (f := fun z => f2 z * sin (w * z) * z) (g := fun z => f z * sin (w * z) * z) (fun z a b => by rw [e2 z a b])]
  ring

theorem flBC_combine {F F1 F2 : Fluid} (s1 : (phG U1 F1).SameSoil (phG U F)) (s2 : (phG U2 F2).SameSoil (phG U F)) (hst : s ≤ t)
    (hL : F.Combine F1 F2 α β s t) (i1 : IntervalIntegrable F1.top volume s t ∧ IntervalIntegrable F1.bot volume s t)
    (i2 : IntervalIntegrable F2.top volume s t ∧ IntervalIntegrable F2.bot volume s t) (w : ℝ) :
    flBC U F s w t = α * flBC U1 F1 s w t + β * flBC U2 F2 s w t := by
  unfold flBC
  rw [SameSoil.cTop s1, SameSoil.cTop s2, SameSoil.cBot s1, SameSoil.cBot s2,
    int_combine hst i1.1 i2.1 (fun r a b => hL.top r a.le b.le), int_combine hst i1.2 i2.2 (fun r a b => hL.bot r a.le b.le)]
  ring

theorem rhsP_combine (h1 : UnsatInput x1 S1 s tend U1) (h2 : UnsatInput x2 S2 s tend U2) (n1 : x1.neig = x.neig) (n2 : x2.neig = x.neig)
    (w1 : x1.dTw = x.dTw) (w2 : x2.dTw = x.dTw) (k1 : x1.OneMissing ↔ x.OneMissing) (k2 : x2.OneMissing ↔ x.OneMissing)
    (e1 : U1.SameSoil U) (e2 : U2.SameSoil U) (hst : s ≤ t) (ht : t ≤ tend) (hL : U.LoadsCombine U1 U2 α β s t) (w : ℝ) (j : ℕ) :
    rhsP x U s w j t = α * rhsP x1 U1 s w j t + β * rhsP x2 U2 s w j t := by
  have W : ∀ {y : UnsatIn} {V : Unsat} {T : Set ℝ}, UnsatInput y T s tend V → IntervalIntegrable V.water.top volume s t ∧ IntervalIntegrable V.water.bot volume s t :=
    fun hy => top_int (aux_input hy hy.water hy.m2w hy.kw) hst ht
  have A : ∀ {y : UnsatIn} {V : Unsat} {T : Set ℝ}, UnsatInput y T s tend V → IntervalIntegrable V.air.top volume s t ∧ IntervalIntegrable V.air.bot volume s t :=
    fun hy => top_int (aux_input hy hy.air hy.m2w hy.Da) hst ht
  have l1 := loadT_combine h1 h2 hst hL h1.m1kw h2.m1kw e1.m1kw e2.m1kw w
  have l2 := loadT_combine h1 h2 hst hL h1.m1ka h2.m1ka e1.m1ka e2.m1ka w
  have fw := flBC_combine (sameWater e1) (sameWater e2) hst hL.water (W h1) (W h2) w
  have fa := flBC_combine (sameAir e1) (sameAir e2) hst hL.air (A h1) (A h2) w
  have rW : rhsW U s w t = α * rhsW U1 s w t + β * rhsW U2 s w t := by
    unfold rhsW
    rw [l1, fw, stBC_combine e1.drn e2.drn hst hL.water e1.m2w e2.m2w, stBC_combine e1.drn e2.drn hst hL.air e1.m1kw e2.m1kw,
      stBC_combine e1.drn e2.drn hst hL.air e1.m2w e2.m2w]
    ring
  have rA : rhsA U s w t = α * rhsA U1 s w t + β * rhsA U2 s w t := by
    unfold rhsA
    rw [l2, fa, stBC_combine e1.drn e2.drn hst hL.water e1.m2a e2.m2a, stBC_combine e1.drn e2.drn hst hL.air e1.m1ka e2.m1ka,
      stBC_combine e1.drn e2.drn hst hL.air e1.m2a e2.m2a, stBC_combine e1.drn e2.drn hst hL.air e1.n e2.n,
      stBC_combine (f := fun z => U.S z * U.n z) (f1 := fun z => U1.S z * U1.n z) (f2 := fun z => U2.S z * U2.n z) e1.drn e2.drn hst hL.air
        (fun z a b => by rw [e1.S z a b, e1.n z a b]) (fun z a b => by rw [e2.S z a b, e2.n z a b]), e1.airRef, e2.airRef]
    ring
  unfold rhsP
  by_cases hj : j < x.neig
  · rw [if_pos hj, if_pos (show j < x1.neig by omega), if_pos (show j < x2.neig by omega)]
    by_cases hm : x.OneMissing
    · rw [if_pos hm, if_pos (k1.2 hm), if_pos (k2.2 hm)]
      exact rW
    · rw [if_neg hm, if_neg (fun q => hm (k1.1 q)), if_neg (fun q => hm (k2.1 q))]
      exact l1
  · rw [if_neg hj, if_neg (show ¬ j < x1.neig by omega), if_neg (show ¬ j < x2.neig by omega)]
    by_cases hm : x.OneMissing
    · rw [if_pos hm, if_pos (k1.2 hm), if_pos (k2.2 hm), w1, w2]
      by_cases hw : x.dTw = 0
      · rw [if_pos hw, if_pos hw, if_pos hw, rA, fa]; ring
      · rw [if_neg hw, if_neg hw, if_neg hw, rA]; ring
    · rw [if_neg hm, if_neg (fun q => hm (k1.1 q)), if_neg (fun q => hm (k2.1 q))]
      exact l2

/-! ## The coefficients -/

theorem unsat_coefficients (h : UnsatInput x S s tend U) (hM : a.Made x) (h0 : ∀ i, i < 2 * x.neig → a.eigs i ≠ 0) {g p : ℕ → ℕ → ℝ}
    (eg : x.gam a.m = .ok g) (ep : x.psi a.m = .ok p) :
    ∃ A : ℕ → ℝ → ℝ, (∀ j, IntervalIntegrable (A j) volume s tend) ∧
      (∀ t, s ≤ t → t ≤ tend → ∃ c, x.column a t = .ok c ∧ ∀ j, c j = A j t) ∧
      ∀ i, i < 2 * x.neig → ∀ t, s ≤ t → t ≤ tend →
        (∑ j ∈ Finset.range (2 * x.neig), g i j * A j t) + (∑ j ∈ Finset.range (2 * x.neig), x.dT * p i j * ∫ r in s..t, A j r) =
          rhsP x U s ((a.m ++ a.m).getD i 0) i t := by
  obtain ⟨hl, hget, hd, hne, hsc⟩ := unsat_m h hM.m
  obtain ⟨gam, psi, eg', ep', hE⟩ := hM.eig
  rw [eg] at eg'; rw [ep] at ep'
  injection eg' with eg'; injection ep' with ep'
  subst eg' ep'
  have hl2 : (a.m ++ a.m).length = 2 * x.neig := by rw [List.length_append, hl]; ring
  have hB : ∀ i, i < (x.basis a).m.length → (x.basis a).dT * (x.basis a).eigs i ≠ 0 := fun i hi =>
    mul_ne_zero h.dT (h0 i (by rw [← hl2]; exact hi))
  have hm2 : ∀ v ∈ (x.basis a).m, v ≠ 0 := fun v hv => hne v (by
    rcases List.mem_append.1 (show v ∈ a.m ++ a.m from hv) with h | h <;> exact h)
  obtain ⟨A, hA, hc, hsol⟩ := coeffs_of (E_unsat h hB hm2) (show EigenSystem (x.basis a).m.length g p (x.basis a).eigs a.v (x.basis a).Igamv from hE)
  have hbl : (x.basis a).m.length = 2 * x.neig := hl2
  refine ⟨A, hA, hc, fun i hi t c d => ?_⟩
  have e := hsol i (by rw [hbl]; exact hi) t c d
  rw [Finset.mul_sum, hbl] at e
  simp only [mul_assoc] at e ⊢
  exact e

theorem unsat_column_combine (R : RunsU x x1 x2 a a1 a2 S S1 S2 s tend t α β U U1 U2) (k1 : x1.OneMissing ↔ x.OneMissing)
    (k2 : x2.OneMissing ↔ x.OneMissing) :
    ∃ c c1 c2 : ℕ → ℝ, x.column a t = .ok c ∧ x1.column a1 t = .ok c1 ∧ x2.column a2 t = .ok c2 ∧
      ∀ j, j < 2 * x.neig → c j = α * c1 j + β * c2 j := by
  obtain ⟨h, h1, h2, ha, ha1, ha2, n0, n1, n2, hn1, hn2, hd1, hd2, w1, w2, e1, e2, hst, ht, hL⟩ := R
  obtain ⟨g, p, eg, ep, hE⟩ := ha.eig
  obtain ⟨g1, p1, eg1, ep1, hE1⟩ := ha1.eig
  obtain ⟨g2, p2, eg2, ep2, hE2⟩ := ha2.eig
  obtain ⟨m1, r1⟩ := unsat_arrays_same h h1 ha ha1 e1 hn1 hd1
  obtain ⟨m2, r2⟩ := unsat_arrays_same h h2 ha ha2 e2 hn2 hd2
  have r1 := r1 g g1 p p1 eg eg1 ep ep1
  have r2 := r2 g g2 p p2 eg eg2 ep ep2
  obtain ⟨A, hA, hc, hsol⟩ := unsat_coefficients h ha n0 eg ep
  obtain ⟨A1, hA1, hc1, hsol1⟩ := unsat_coefficients h1 ha1 n1 eg1 ep1
  obtain ⟨A2, hA2, hc2, hsol2⟩ := unsat_coefficients h2 ha2 n2 eg2 ep2
  obtain ⟨hl, _⟩ := unsat_m h ha.m
  have hl2 : (a.m ++ a.m).length = 2 * x.neig := by rw [List.length_append, hl]; ring
  rw [hl2] at hE
  obtain ⟨L, hL'⟩ := hE.left
  rw [m1, hn1] at hsol1
  rw [m2, hn2] at hsol2
  have sub : ∀ {f : ℝ → ℝ}, IntervalIntegrable f volume s tend → IntervalIntegrable f volume s t := fun hf => int_sub hf hst ht
  have hcomb := volterra_combine (n := 2 * x.neig) (gam := g) (P := fun i j => x.dT * p i j) (L := L) (A := A) (A1 := A1) (A2 := A2)
    (Q := fun i r => rhsP x U s ((a.m ++ a.m).getD i 0) i r) (Q1 := fun i r => rhsP x1 U1 s ((a.m ++ a.m).getD i 0) i r)
    (Q2 := fun i r => rhsP x2 U2 s ((a.m ++ a.m).getD i 0) i r) (s := s) (T := t) (α := α) (β := β) hL'
    (fun j => sub (hA j)) (fun j => sub (hA1 j)) (fun j => sub (hA2 j))
    (fun i hi r c d => hsol i hi r c (d.trans ht))
    (fun i hi r c d => by
      rw [← hsol1 i hi r c (d.trans ht)]
      congr 1
      · exact Finset.sum_congr rfl (fun j hj => by rw [(r1 i j hi (Finset.mem_range.1 hj)).1])
      · exact Finset.sum_congr rfl (fun j hj => by rw [(r1 i j hi (Finset.mem_range.1 hj)).2, hd1]))
    (fun i hi r c d => by
      rw [← hsol2 i hi r c (d.trans ht)]
      congr 1
      · exact Finset.sum_congr rfl (fun j hj => by rw [(r2 i j hi (Finset.mem_range.1 hj)).1])
      · exact Finset.sum_congr rfl (fun j hj => by rw [(r2 i j hi (Finset.mem_range.1 hj)).2, hd2]))
    (fun i hi r c d => rhsP_combine h1 h2 hn1 hn2 w1 w2 k1 k2 e1 e2 c (d.trans ht) (unsatMono hL d) _ i)
  obtain ⟨c, ec, ecA⟩ := hc t hst ht
  obtain ⟨c1, ec1, ecA1⟩ := hc1 t hst ht
  obtain ⟨c2, ec2, ecA2⟩ := hc2 t hst ht
  exact ⟨c, c1, c2, ec, ec1, ec2, fun j hj => by rw [ecA, ecA1, ecA2, hcomb j hj t hst le_rfl]⟩

/-- The pressures of three runs as functions of depth. -/
theorem unsat_por_combine (R : RunsU x x1 x2 a a1 a2 S S1 S2 s tend t α β U U1 U2) (k1 : x1.OneMissing ↔ x.OneMissing)
    (k2 : x2.OneMissing ↔ x.OneMissing) :
    ∃ w w1 w2 v v1 v2 : ℝ → ℝ, (∀ z, 0 ≤ z → z ≤ 1 → x.porw a z t = .ok (w z) ∧ x.pora a z t = .ok (v z)) ∧
      (∀ z, 0 ≤ z → z ≤ 1 → x1.porw a1 z t = .ok (w1 z) ∧ x1.pora a1 z t = .ok (v1 z)) ∧
      (∀ z, 0 ≤ z → z ≤ 1 → x2.porw a2 z t = .ok (w2 z) ∧ x2.pora a2 z t = .ok (v2 z)) ∧
      ((Continuous w ∧ Continuous v) ∧ (Continuous w1 ∧ Continuous v1) ∧ (Continuous w2 ∧ Continuous v2)) ∧
      ∀ z, w z = α * w1 z + β * w2 z ∧ v z = α * v1 z + β * v2 z := by
  obtain ⟨c, c1, c2, ec, ec1, ec2, hcomb⟩ := unsat_column_combine R k1 k2
  have m1 := (unsat_arrays_same R.ok R.ok1 R.made R.made1 R.soil1 R.neig1 R.dT1).1
  have m2 := (unsat_arrays_same R.ok R.ok2 R.made R.made2 R.soil2 R.neig2 R.dT2).1
  have hcont : ∀ (H : Ground) (n : ℕ) (w : ℕ → ℝ) (B : ℕ → ℝ → ℝ), Continuous (fun z => series H n w B z t) := by
    intro H n w B
    unfold series bTop
    fun_prop
  have p := unsat_por R.ok R.made (A := fun j _ => c j) (C := fun j _ => c (x.neig + j)) R.start R.stop ec (fun _ => rfl) (fun _ => rfl)
  have p1 := unsat_por R.ok1 R.made1 (A := fun j _ => c1 j) (C := fun j _ => c1 (x1.neig + j)) R.start R.stop ec1 (fun _ => rfl) (fun _ => rfl)
  have p2 := unsat_por R.ok2 R.made2 (A := fun j _ => c2 j) (C := fun j _ => c2 (x2.neig + j)) R.start R.stop ec2 (fun _ => rfl) (fun _ => rfl)
  refine ⟨_, _, _, _, _, _, p, p1, p2, ⟨⟨hcont _ _ _ _, hcont _ _ _ _⟩, ⟨hcont _ _ _ _, hcont _ _ _ _⟩, hcont _ _ _ _, hcont _ _ _ _⟩, fun z => ?_⟩
  have sum : ∀ (f f1 f2 : ℕ → ℝ), (∀ j, j < x.neig → f j = α * f1 j + β * f2 j) → ∑ j ∈ Finset.range x.neig, f j * sin (a.m.getD j 0 * z) =
      α * (∑ j ∈ Finset.range x.neig, f1 j * sin (a.m.getD j 0 * z)) + β * ∑ j ∈ Finset.range x.neig, f2 j * sin (a.m.getD j 0 * z) := by
    intro f f1 f2 hf
    rw [Finset.mul_sum, Finset.mul_sum, ← Finset.sum_add_distrib]
    exact Finset.sum_congr rfl (fun j hj => by rw [hf j (Finset.mem_range.1 hj)]; ring)
  rw [m1, m2, R.neig1, R.neig2]
  constructor
  · unfold series
    beta_reduce
    rw [sum _ _ _ (fun j hj => hcomb j (by omega)), SameSoil.bTop (sameWater R.soil1), SameSoil.bTop (sameWater R.soil2)]
    simp only [auxG, R.loads.water.top t R.start le_rfl, R.loads.water.bot t R.start le_rfl]
    ring
  · unfold series
    beta_reduce
    rw [sum _ _ _ (fun j hj => hcomb (x.neig + j) (by omega)), SameSoil.bTop (sameAir R.soil1), SameSoil.bTop (sameAir R.soil2)]
    simp only [auxG, R.loads.air.top t R.start le_rfl, R.loads.air.bot t R.start le_rfl]
    ring

/-- **C243** Superposition in unsaturated soil: the pressures of water and air; if all three runs lack a boundary list, or none does. -/
theorem C243_pore_pressures_partial (R : RunsU x x1 x2 a a1 a2 S S1 S2 s tend t α β U U1 U2) (k1 : x1.OneMissing ↔ x.OneMissing)
    (k2 : x2.OneMissing ↔ x.OneMissing) : ∀ z, 0 ≤ z → z ≤ 1 →
    (∃ u u1 u2 : ℝ, x.porw a z t = .ok u ∧ x1.porw a1 z t = .ok u1 ∧ x2.porw a2 z t = .ok u2 ∧ u = α * u1 + β * u2) ∧
    ∃ u u1 u2 : ℝ, x.pora a z t = .ok u ∧ x1.pora a1 z t = .ok u1 ∧ x2.pora a2 z t = .ok u2 ∧ u = α * u1 + β * u2 := by
  obtain ⟨w, w1, w2, v, v1, v2, p, p1, p2, cc, e⟩ := unsat_por_combine R k1 k2
  exact fun z z0 z1 => ⟨⟨_, _, _, (p z z0 z1).1, (p1 z z0 z1).1, (p2 z z0 z1).1, (e z).1⟩, _, _, _, (p z z0 z1).2, (p1 z z0 z1).2, (p2 z z0 z1).2, (e z).2⟩

/-! ## Averages and settlements -/

/-- What `_make_set` needs besides: surcharge lists of equal lengths, and the differences of compressibilities (C14). -/
structure SettleReady (x : UnsatIn) (S : Set ℝ) (U : Unsat) : Prop where
  lens : ∀ l d, x.surchargeTime = some l → x.surchargeDepth = some d → d.length = l.length ∧ OmLen l x.surchargeOm
  none : x.surchargeDepth = none → x.surchargeTime = none
  water : ∃ d, lineSub x.m2w x.m1kw = .ok d ∧ Profile S d (fun z => U.m2w z - U.m1kw z)
  air : ∃ d, lineSub x.m2a x.m1ka = .ok d ∧ Profile S d (fun z => U.m2a z - U.m1ka z)

theorem unsat_strain_int (h : UnsatInput x S s tend U) {w v : ℝ → ℝ} (cw : Continuous w) (cv : Continuous v) {z1 z2 : ℝ} (hz0 : 0 ≤ z1) (hz : z1 < z2)
    (hz1 : z2 ≤ 1) : IntervalIntegrable (fun z => U.strainW (U.surcharge z t) (w z) (v z) z) volume z1 z2 ∧
      IntervalIntegrable (fun z => U.strainA (U.surcharge z t) (w z) (v z) z) volume z1 z2 ∧
      IntervalIntegrable (fun z => U.m2a z * w z) volume z1 z2 := by
  have sb := surcharge_bdd_at (aux_input h h.water h.m1kw h.kw) t
  have cb : ∀ {f : ℝ → ℝ}, Continuous f → BddOn f 0 1 := fun cf => BddOn.of_continuous cf 0 1
  have key : ∀ {p q : ℝ → ℝ} {l k : PolyLine ℝ}, Profile S l p → Profile S k q →
      IntervalIntegrable (fun z => p z * (U.surcharge z t - v z) + q z * (v z - w z)) volume z1 z2 := by
    intro p q l k hp hq
    have b : BddOn (fun z => p z * (U.surcharge z t + (-1) * v z) + q z * (v z - w z)) 0 1 :=
      ((Profile.bdd hp).mul (sb.add (cb (f := fun z => (-1) * v z) (by fun_prop)))).add ((Profile.bdd hq).mul (cb (f := fun z => v z - w z) (by fun_prop)))
    have i := (b.int zero_le_one).mono_set (c := z1) (d := z2) (by
      rw [Set.uIcc_of_le hz.le, Set.uIcc_of_le zero_le_one]; exact Set.Icc_subset_Icc hz0 hz1)
    exact i.congr (fun z _ => by ring)
  exact ⟨key h.m1kw h.m2w, key h.m1ka h.m2a, profile_reads h.m2a hz0 hz.le hz1 cw⟩

theorem unsat_out (h : UnsatInput x S s tend U) (hM : a.Made x) (h0 : ∀ i, i < 2 * x.neig → a.eigs i ≠ 0) (hr : SettleReady x S U) {z1 z2 : ℝ}
    (hz0 : 0 ≤ z1) (hz : z1 < z2) (hz1 : z2 ≤ 1) (hst : s ≤ t) (ht : t ≤ tend) {w v : ℝ → ℝ}
    (p : ∀ z, 0 ≤ z → z ≤ 1 → x.porw a z t = .ok (w z) ∧ x.pora a z t = .ok (v z)) :
    x.avpw a z1 z2 t = .ok ((∫ z in z1..z2, w z) / (z2 - z1)) ∧ x.avpa a z1 z2 t = .ok ((∫ z in z1..z2, v z) / (z2 - z1)) ∧
    x.settle a z1 z2 t = .ok (x.H * x.mvref * ∫ z in z1..z2, (U.strainW (U.surcharge z t) (w z) (v z) z + U.strainA (U.surcharge z t) (w z) (v z) z)) ∧
    x.setw a z1 z2 t = .ok (x.H * x.mvref * ((∫ z in z1..z2, U.strainW (U.surcharge z t) (w z) (v z) z) - ∫ z in z1..z2, U.m2a z * w z)) ∧
    x.seta a z1 z2 t = .ok (x.H * x.mvref * ((∫ z in z1..z2, U.strainA (U.surcharge z t) (w z) (v z) z) + ∫ z in z1..z2, U.m2a z * w z)) := by
  obtain ⟨d1, e1, q1⟩ := hr.water
  obtain ⟨d2, e2, q2⟩ := hr.air
  obtain ⟨w', v', mw, ma, r1, r2, r3, r4, r5, r6, r7, r8⟩ := unsat_outputs h hM h0 d1 d2 e1 q1 e2 q2 z1 z2 t hz0 hz hz1 hst ht hr.lens hr.none
  have e : ∀ z, z1 < z → z < z2 → w' z = w z ∧ v' z = v z := fun z c d => by
    have c0 := r1 z (by linarith) (by linarith)
    have d0 := p z (by linarith) (by linarith)
    rw [d0.1, d0.2] at c0
    obtain ⟨c1, c2⟩ := c0
    injection c1 with c1
    injection c2 with c2
    exact ⟨c1.symm, c2.symm⟩
  have i : ∀ F : ℝ → ℝ → ℝ → ℝ, ∫ z in z1..z2, F (w' z) (v' z) z = ∫ z in z1..z2, F (w z) (v z) z := fun F =>
    integral_congr_Ioo' hz.le (fun z c d => by rw [(e z c d).1, (e z c d).2])
  have i1 := i (fun u _ _ => u)
  have i2 := i (fun _ u _ => u)
  have i3 := i (fun u u' z => U.strainW (U.surcharge z t) u u' z + U.strainA (U.surcharge z t) u u' z)
  have i4 := i (fun u u' z => U.strainW (U.surcharge z t) u u' z)
  have i5 := i (fun u u' z => U.strainA (U.surcharge z t) u u' z)
  have i6 := i (fun u u' z => U.m2a z * u)
  have hd : z2 - z1 ≠ 0 := sub_ne_zero.2 hz.ne'
  refine ⟨?_, ?_, by rw [r6, i3], by rw [r7, i4, i6], by rw [r8, i5, i6]⟩
  · rw [r2, ← i1, ← r3, mul_div_cancel_right₀ _ hd]
  · rw [r4, ← i2, ← r5, mul_div_cancel_right₀ _ hd]

/-- **C243** The average pressures and the settlements: total, of the water part and of the air part; under the condition of
`C243_pore_pressures_partial`. -/
theorem C243_averages_and_settlements_partial (R : RunsU x x1 x2 a a1 a2 S S1 S2 s tend t α β U U1 U2) (k1 : x1.OneMissing ↔ x.OneMissing)
    (k2 : x2.OneMissing ↔ x.OneMissing) (q : SettleReady x S U) (q1 : SettleReady x1 S1 U1) (q2 : SettleReady x2 S2 U2)
    (z1 z2 : ℝ) (hz0 : 0 ≤ z1) (hz : z1 < z2) (hz1 : z2 ≤ 1) :
    (∃ m m1 m2 : ℝ, x.avpw a z1 z2 t = .ok m ∧ x1.avpw a1 z1 z2 t = .ok m1 ∧ x2.avpw a2 z1 z2 t = .ok m2 ∧ m = α * m1 + β * m2) ∧
    (∃ m m1 m2 : ℝ, x.avpa a z1 z2 t = .ok m ∧ x1.avpa a1 z1 z2 t = .ok m1 ∧ x2.avpa a2 z1 z2 t = .ok m2 ∧ m = α * m1 + β * m2) ∧
    (x1.H * x1.mvref = x.H * x.mvref → x2.H * x2.mvref = x.H * x.mvref →
      (∃ m m1 m2 : ℝ, x.settle a z1 z2 t = .ok m ∧ x1.settle a1 z1 z2 t = .ok m1 ∧ x2.settle a2 z1 z2 t = .ok m2 ∧ m = α * m1 + β * m2) ∧
      (∃ m m1 m2 : ℝ, x.setw a z1 z2 t = .ok m ∧ x1.setw a1 z1 z2 t = .ok m1 ∧ x2.setw a2 z1 z2 t = .ok m2 ∧ m = α * m1 + β * m2) ∧
      ∃ m m1 m2 : ℝ, x.seta a z1 z2 t = .ok m ∧ x1.seta a1 z1 z2 t = .ok m1 ∧ x2.seta a2 z1 z2 t = .ok m2 ∧ m = α * m1 + β * m2) := by
  obtain ⟨w, w1, w2, v, v1, v2, p, p1, p2, ⟨⟨cw, cv⟩, ⟨cw1, cv1⟩, cw2, cv2⟩, e⟩ := unsat_por_combine R k1 k2
  obtain ⟨o1, o2, o3, o4, o5⟩ := unsat_out R.ok R.made R.nonzero q hz0 hz hz1 R.start R.stop p
  obtain ⟨l1, l2, l3, l4, l5⟩ := unsat_out R.ok1 R.made1 R.nonzero1 q1 hz0 hz hz1 R.start R.stop p1
  obtain ⟨r1, r2, r3, r4, r5⟩ := unsat_out R.ok2 R.made2 R.nonzero2 q2 hz0 hz hz1 R.start R.stop p2
  obtain ⟨iW1, iA1, iM1⟩ := unsat_strain_int (t := t) R.ok1 cw1 cv1 hz0 hz hz1
  obtain ⟨iW2, iA2, iM2⟩ := unsat_strain_int (t := t) R.ok2 cw2 cv2 hz0 hz hz1
  have sW : ∀ z, z1 < z → z < z2 → U.strainW (U.surcharge z t) (w z) (v z) z =
      α * U1.strainW (U1.surcharge z t) (w1 z) (v1 z) z + β * U2.strainW (U2.surcharge z t) (w2 z) (v2 z) z := by
    intro z c d
    have c' : 0 < z := by linarith
    have d' : z < 1 := by linarith
    unfold Unsat.strainW
    rw [R.loads.surcharge z t c' d' R.start le_rfl, (e z).1, (e z).2, R.soil1.m1kw z c' d', R.soil2.m1kw z c' d', R.soil1.m2w z c' d', R.soil2.m2w z c' d']
    ring
  have sA : ∀ z, z1 < z → z < z2 → U.strainA (U.surcharge z t) (w z) (v z) z =
      α * U1.strainA (U1.surcharge z t) (w1 z) (v1 z) z + β * U2.strainA (U2.surcharge z t) (w2 z) (v2 z) z := by
    intro z c d
    have c' : 0 < z := by linarith
    have d' : z < 1 := by linarith
    unfold Unsat.strainA
    rw [R.loads.surcharge z t c' d' R.start le_rfl, (e z).1, (e z).2, R.soil1.m1ka z c' d', R.soil2.m1ka z c' d', R.soil1.m2a z c' d', R.soil2.m2a z c' d']
    ring
  have sM : ∫ z in z1..z2, U.m2a z * w z = α * (∫ z in z1..z2, U1.m2a z * w1 z) + β * ∫ z in z1..z2, U2.m2a z * w2 z :=
    int_combine hz.le iM1 iM2 (fun z c d => by
      rw [(e z).1, R.soil1.m2a z (by linarith) (by linarith), R.soil2.m2a z (by linarith) (by linarith)]; ring)
  refine ⟨⟨_, _, _, o1, l1, r1, ?_⟩, ⟨_, _, _, o2, l2, r2, ?_⟩, fun j1 j2 => ⟨⟨_, _, _, o3, l3, r3, ?_⟩, ⟨_, _, _, o4, l4, r4, ?_⟩, ⟨_, _, _, o5, l5, r5, ?_⟩⟩⟩
  · rw [int_combine hz.le (cw1.intervalIntegrable _ _) (cw2.intervalIntegrable _ _) (fun z _ _ => (e z).1)]; ring
  · rw [int_combine hz.le (cv1.intervalIntegrable _ _) (cv2.intervalIntegrable _ _) (fun z _ _ => (e z).2)]; ring
  · rw [int_combine (α := α) (β := β) hz.le (iW1.add iA1) (iW2.add iA2) (fun z c d => by rw [sW z c d, sA z c d]; ring), j1, j2]; ring
  · rw [int_combine hz.le iW1 iW2 sW, sM, j1, j2]; ring
  · rw [int_combine hz.le iA1 iA2 sA, sM, j1, j2]; ring

/-- **C243** Causality: runs with the same soil whose loads agree up to `t` report the same pressures at `t`. -/
theorem C243_causal_partial (h : UnsatInput x S s tend U) (h1 : UnsatInput x1 S1 s tend U1) (ha : a.Made x) (ha1 : a1.Made x1)
    (n0 : ∀ i, i < 2 * x.neig → a.eigs i ≠ 0) (n1 : ∀ i, i < 2 * x1.neig → a1.eigs i ≠ 0) (hn1 : x1.neig = x.neig) (hd1 : x1.dT = x.dT) (hw1 : x1.dTw = x.dTw)
    (e1 : U1.SameSoil U) (k1 : x1.OneMissing ↔ x.OneMissing) (hst : s ≤ t) (ht : t ≤ tend) (hL : U.SameLoads U1 s t) :
    ∀ z, 0 ≤ z → z ≤ 1 → ∃ u v : ℝ, (x.porw a z t = .ok u ∧ x1.porw a1 z t = .ok u) ∧ x.pora a z t = .ok v ∧ x1.pora a1 z t = .ok v := by
  intro z z0 z1
  obtain ⟨⟨u, u1, u2, q, q1, q2, e⟩, v, v1, v2, p, p1, p2, f⟩ := C243_pore_pressures_partial (x := x) (x1 := x1) (x2 := x1) (α := 1) (β := 0)
    ⟨h, h1, h1, ha, ha1, ha1, n0, n1, n1, hn1, hn1, hd1, hd1, hw1, hw1, e1, e1, hst, ht, hL.combine⟩ k1 k1 z z0 z1
  exact ⟨u, v, ⟨q, by rw [q1, e]; simp⟩, p, by rw [p1, f]; simp⟩

/-- **C243** No pressure before the first load. -/
theorem C243_quiescent (h : UnsatInput x S s tend U) (ha : a.Made x) (n0 : ∀ i, i < 2 * x.neig → a.eigs i ≠ 0) (hst : s ≤ t) (ht : t ≤ tend)
    (hL : U.NoLoads s t) : ∀ z, 0 ≤ z → z ≤ 1 → x.porw a z t = .ok 0 ∧ x.pora a z t = .ok 0 := by
  intro z z0 z1
  obtain ⟨⟨u, u1, u2, q, q1, q2, e⟩, v, v1, v2, p, p1, p2, f⟩ := C243_pore_pressures_partial (x := x) (x1 := x) (x2 := x) (α := 0) (β := 0)
    ⟨h, h, h, ha, ha, ha, n0, n0, n0, rfl, rfl, rfl, rfl, rfl, rfl, Unsat.SameSoil.rfl U, Unsat.SameSoil.rfl U, hst, ht, hL.combine⟩ Iff.rfl Iff.rfl z z0 z1
  exact ⟨by rw [q, e]; simp, by rw [p, f]; simp⟩

/-! ## The hypotheses are met -/

/-- A pressure of 100 at the top (`b1`), at the bottom (`b2`). -/
noncomputable def Ex.phase (b1 b2 : Bool) : PhaseIn := ⟨if b1 then some [Ex.load] else none, none, if b2 then some [Ex.load] else none, none⟩
noncomputable def Ex.fluid (f : ℝ → ℝ) (k : ℝ) (b1 b2 : Bool) : Fluid := ⟨f, k, fun _ => if b1 then 100 else 0, 0, fun _ => if b2 then 100 else 0, 0⟩

/-- The soil of `Ex.unsatInput` with a choice of loads. -/
noncomputable def Ex.unsatV (b w1 w2 a1 a2 : Bool) : UnsatIn :=
  { Ex.unsatInput with surchargeDepth := if b then some [Ex.layers] else none, surchargeTime := if b then some [Ex.load] else none, water := Ex.phase w1 w2, air := Ex.phase a1 a2 }

noncomputable def Ex.unsatG (b w1 w2 a1 a2 : Bool) : Unsat :=
  { Ex.unsat with surcharge := fun z _ => if b then Ex.layersF z * 100 else 0, water := Ex.fluid (fun z => 1 * Ex.layersF z) (1 * 2) w1 w2, air := Ex.fluid (fun z => 2 * Ex.layersF z) (2 * 2) a1 a2 }

theorem Ex.phase_ok {x : UnsatIn} (hd : x.drn = 0) (f : ℝ → ℝ) (k : ℝ) (b1 b2 : Bool) : PhaseInput x (Ex.phase b1 b2) 0 5 (Ex.fluid f k b1 b2) := by
  have L : ∀ b : Bool, ∃ tops, Loads (if b then some [Ex.load] else none) none 0 5 tops ∧ (∀ t : ℝ, (if b then (100:ℝ) else 0) = total tops t) ∧ (0:ℝ) = total0 tops := by
    intro b
    cases b
    · exact ⟨[], rfl, fun t => by simp [total], by simp [total0]⟩
    · exact ⟨[(fun t => 100 * mult none t, 0)], .cons (Ex.load_history _) .nil, fun t => by simp [total, mult], by simp [total0]⟩
  refine ⟨L b1, fun l e => ?_, ?_⟩
  · cases b2 with
    | false => exact absurd e (by simp [Ex.phase])
    | true => simp only [Ex.phase, if_true, Option.some.injEq] at e; subst e; rfl
  · obtain ⟨bots, e1, e2, e3⟩ := L b2
    refine ⟨bots, e1, fun t => ?_, ?_⟩
    · simp only [Ex.fluid, hd, e2 t]; norm_num
    · simp only [Ex.fluid, hd, ← e3]; norm_num

theorem Ex.unsatV_ok (b w1 w2 a1 a2 : Bool) : UnsatInput (Ex.unsatV b w1 w2 a1 a2) {0, 1/2, 1} 0 5 (Ex.unsatG b w1 w2 a1 a2) where
  sep := Ex.depths_sep
  drn := Or.inl rfl
  drnU := rfl
  H := by norm_num [Ex.unsatV, Ex.unsatInput]
  dT := one_ne_zero
  mvref := by norm_num [Ex.unsatV, Ex.unsatInput]
  ua := one_ne_zero
  ref := rfl
  m1kw := Ex.const_profile 3
  m2w := Ex.const_profile 2
  m1ka := Ex.const_profile 4
  m2a := Ex.const_profile 1
  n := Ex.const_profile 1
  sat := Ex.const_profile (1/2)
  kw := ⟨_, 2, Ex.layers_profile, Ex.layers_end, fun z => rfl, rfl⟩
  Da := ⟨_, 2, Ex.layers_profile, Ex.layers_end, fun z => rfl, rfl⟩
  surcharge := by
    cases b
    · exact ⟨fun z t => rfl, fun z => rfl⟩
    · exact ⟨[(Ex.layersF, fun t => 100 * mult none t, 0)], .cons ⟨Ex.layers_profile, Ex.load_history _⟩ .nil,
        fun z t => by simp [Ex.unsatG, mult], fun z => by simp [Ex.unsatG, Ex.unsat]⟩
  water := Ex.phase_ok rfl _ _ _ _
  air := Ex.phase_ok rfl _ _ _ _

theorem Ex.unsatV_solved (b w1 w2 a1 a2 : Bool) : ∃ a : UnsatArrays, a.Made (Ex.unsatV b w1 w2 a1 a2) ∧
    ∀ i, i < 2 * (Ex.unsatV b w1 w2 a1 a2).neig → a.eigs i ≠ 0 := by
  obtain ⟨a, hM⟩ := Ex.unsat_made (Ex.unsatV_ok b w1 w2 a1 a2) rfl rfl rfl rfl rfl rfl rfl rfl (by norm_num [Ex.unsatG, Ex.unsat])
  exact ⟨a, hM, C97_eigenvalues (Ex.unsatV_ok b w1 w2 a1 a2) hM 1 one_pos (fun z _ _ => by simpa [Ex.unsatG, Ex.fluid] using Ex.layersF_ge z)
    (fun z _ _ => by have := Ex.layersF_ge z; simp only [Ex.unsatG, Ex.fluid]; linarith)⟩

theorem Ex.unsatV_ready (b w1 w2 a1 a2 : Bool) : SettleReady (Ex.unsatV b w1 w2 a1 a2) {0, 1/2, 1} (Ex.unsatG b w1 w2 a1 a2) where
  lens l d h1 h2 := by
    cases b with
    | false => exact absurd h1 (by simp [Ex.unsatV])
    | true =>
      simp only [Ex.unsatV, if_true, Option.some.injEq] at h1 h2
      subst h1 h2
      exact ⟨rfl, rfl⟩
  none h := by
    cases b with
    | false => rfl
    | true => exact absurd h (by simp [Ex.unsatV])
  water := ⟨_, Ex.const_sub 2 3, Ex.const_profile _⟩
  air := ⟨_, Ex.const_sub 1 4, Ex.const_profile _⟩

/-- Three runs, the loads of the first those of the other two together. -/
theorem Ex.unsatV_runs (b w1 w2 a1 a2 b' w1' w2' a1' a2' : Bool) (t : ℝ) (h0 : 0 ≤ t) (h5 : t ≤ 5)
    (d : (b && b') = false ∧ (w1 && w1') = false ∧ (w2 && w2') = false ∧ (a1 && a1') = false ∧ (a2 && a2') = false) :
    ∃ c c1 c2 : UnsatArrays, RunsU (Ex.unsatV (b || b') (w1 || w1') (w2 || w2') (a1 || a1') (a2 || a2')) (Ex.unsatV b w1 w2 a1 a2) (Ex.unsatV b' w1' w2' a1' a2') c c1 c2
      {0, 1/2, 1} {0, 1/2, 1} {0, 1/2, 1} 0 5 t 1 1 (Ex.unsatG (b || b') (w1 || w1') (w2 || w2') (a1 || a1') (a2 || a2')) (Ex.unsatG b w1 w2 a1 a2) (Ex.unsatG b' w1' w2' a1' a2') := by
  obtain ⟨c, hM, h⟩ := Ex.unsatV_solved (b || b') (w1 || w1') (w2 || w2') (a1 || a1') (a2 || a2')
  obtain ⟨c1, hM1, h1⟩ := Ex.unsatV_solved b w1 w2 a1 a2
  obtain ⟨c2, hM2, h2⟩ := Ex.unsatV_solved b' w1' w2' a1' a2'
  obtain ⟨d1, d2, d3, d4, d5⟩ := d
  have K : ∀ p q : Bool, (p && q) = false → ∀ v : ℝ, (if (p || q) = true then v else 0) = 1 * (if p = true then v else 0) + 1 * (if q = true then v else 0) := by
    intro p q e v
    cases p <;> cases q <;> simp at e ⊢
  refine ⟨c, c1, c2, Ex.unsatV_ok _ _ _ _ _, Ex.unsatV_ok _ _ _ _ _, Ex.unsatV_ok _ _ _ _ _, hM, hM1, hM2, h, h1, h2, rfl, rfl, rfl, rfl, rfl, rfl,
    ⟨rfl, fun _ _ _ => rfl, fun _ _ _ => rfl, fun _ _ _ => rfl, fun _ _ _ => rfl, fun _ _ _ => rfl, fun _ _ _ => rfl, rfl, fun _ _ _ => rfl, rfl, fun _ _ _ => rfl, rfl⟩,
    ⟨rfl, fun _ _ _ => rfl, fun _ _ _ => rfl, fun _ _ _ => rfl, fun _ _ _ => rfl, fun _ _ _ => rfl, fun _ _ _ => rfl, rfl, fun _ _ _ => rfl, rfl, fun _ _ _ => rfl, rfl⟩,
    h0, h5, ⟨fun z r _ _ _ _ => K _ _ d1 _, fun z _ _ => by simp [Ex.unsatG, Ex.unsat], ⟨fun r _ _ => K _ _ d2 _, by simp [Ex.unsatG, Ex.fluid], fun r _ _ => K _ _ d3 _, by simp [Ex.unsatG, Ex.fluid]⟩,
      ⟨fun r _ _ => K _ _ d4 _, by simp [Ex.unsatG, Ex.fluid], fun r _ _ => K _ _ d5 _, by simp [Ex.unsatG, Ex.fluid]⟩⟩⟩

theorem Ex.unsatV_missing (b w1 w2 a1 a2 : Bool) : (Ex.unsatV b w1 w2 a1 a2).OneMissing ↔ (w1 && w2 && a1 && a2) = false := by
  cases w1 <;> cases w2 <;> cases a1 <;> cases a2 <;> simp [UnsatIn.OneMissing, Ex.unsatV, Ex.phase]

/-- C243: a surcharge, a water pressure at the top and an air pressure at the bottom, together and apart. -/
example : ∃ c c1 c2 : UnsatArrays, c.Made (Ex.unsatV true true false false true) ∧
    (∃ u u1 u2 : ℝ, (Ex.unsatV true true false false true).porw c (1/4) 2 = .ok u ∧ (Ex.unsatV true false false false false).porw c1 (1/4) 2 = .ok u1 ∧
      (Ex.unsatV false true false false true).porw c2 (1/4) 2 = .ok u2 ∧ u = 1 * u1 + 1 * u2) ∧
    ∃ m m1 m2 : ℝ, (Ex.unsatV true true false false true).settle c (1/4) 1 2 = .ok m ∧ (Ex.unsatV true false false false false).settle c1 (1/4) 1 2 = .ok m1 ∧
      (Ex.unsatV false true false false true).settle c2 (1/4) 1 2 = .ok m2 ∧ m = 1 * m1 + 1 * m2 := by
  obtain ⟨c, c1, c2, R⟩ := Ex.unsatV_runs true false false false false false true false false true 2 (by norm_num) (by norm_num) (by decide)
  have k1 := (Ex.unsatV_missing true false false false false).trans (Ex.unsatV_missing true true false false true).symm
  have k2 := (Ex.unsatV_missing false true false false true).trans (Ex.unsatV_missing true true false false true).symm
  exact ⟨c, c1, c2, R.made, (C243_pore_pressures_partial R k1 k2 (1/4) (by norm_num) (by norm_num)).1,
    ((C243_averages_and_settlements_partial R k1 k2 (Ex.unsatV_ready _ _ _ _ _) (Ex.unsatV_ready _ _ _ _ _) (Ex.unsatV_ready _ _ _ _ _) (1/4) 1
      (by norm_num) (by norm_num) (by norm_num)).2.2 rfl rfl).1⟩

/-- C243: no load. -/
example : ∃ c : UnsatArrays, c.Made (Ex.unsatV false false false false false) ∧ (Ex.unsatV false false false false false).porw c (1/4) 2 = .ok 0 := by
  obtain ⟨c, hM, h⟩ := Ex.unsatV_solved false false false false false
  exact ⟨c, hM, (C243_quiescent (Ex.unsatV_ok _ _ _ _ _) hM h (by norm_num) (by norm_num : (2:ℝ) ≤ 5) ⟨fun z r _ _ _ _ => rfl, fun z _ _ => rfl,
    ⟨fun r _ _ => rfl, rfl, fun r _ _ => rfl, rfl⟩, ⟨fun r _ _ => rfl, rfl, fun r _ _ => rfl, rfl⟩⟩ (1/4) (by norm_num) (by norm_num)).1⟩

/-! ## Where superposition fails -/

/-- What is reported at time 0 and mid depth, and the first modal equation. -/
theorem Ex.unsatV_start (b w1 w2 a1 a2 : Bool) {c : UnsatArrays} (hM : c.Made (Ex.unsatV b w1 w2 a1 a2))
    (h0 : ∀ i, i < 2 * (Ex.unsatV b w1 w2 a1 a2).neig → c.eigs i ≠ 0) {g : ℕ → ℕ → ℝ} (eg : (Ex.unsatV b w1 w2 a1 a2).gam c.m = .ok g) :
    ∃ A B : ℝ, (Ex.unsatV b w1 w2 a1 a2).porw c (1/2) 0 = .ok (A + ((if w1 then 100 else 0) + if w2 then 100 else 0) / 2) ∧
      (Ex.unsatV b w1 w2 a1 a2).pora c (1/2) 0 = .ok (B + ((if a1 then 100 else 0) + if a2 then 100 else 0) / 2) ∧
      g 0 0 * A + g 0 1 * B = rhsP (Ex.unsatV b w1 w2 a1 a2) (Ex.unsatG b w1 w2 a1 a2) 0 π 0 0 := by
  obtain ⟨g', P, eg', ep, hE⟩ := hM.eig
  obtain ⟨hl, hget, _⟩ := unsat_m (Ex.unsatV_ok b w1 w2 a1 a2) hM.m
  have w0 : c.m.getD 0 0 = π := by
    rw [hget 0 Nat.one_pos]; simp [Ex.unsatG, Ex.unsat]
  obtain ⟨A, hA, hc, hsol⟩ := unsat_coefficients (Ex.unsatV_ok b w1 w2 a1 a2) hM h0 eg ep
  obtain ⟨d, ed, dA⟩ := hc 0 le_rfl (by norm_num)
  have s0 := hsol 0 Nat.two_pos 0 le_rfl (by norm_num)
  have r := unsat_por (Ex.unsatV_ok b w1 w2 a1 a2) hM (A := fun j _ => A j 0) (C := fun j _ => A (1 + j) 0) le_rfl (by norm_num : (0:ℝ) ≤ 5) ed dA (fun j => dA _)
    (1/2) (by norm_num) (by norm_num)
  have e2 : 2 * (Ex.unsatV b w1 w2 a1 a2).neig = 2 := rfl
  have e1 : (Ex.unsatV b w1 w2 a1 a2).neig = 1 := rfl
  have mg : (c.m ++ c.m).getD 0 0 = π := by
    have := getD_block hl (j := 0) Nat.two_pos
    rw [if_pos (show 0 < (Ex.unsatV b w1 w2 a1 a2).neig from Nat.one_pos), w0] at this
    exact this
  rw [e2, mg] at s0
  simp only [intervalIntegral.integral_same, mul_zero, Finset.sum_const_zero, add_zero] at s0
  rw [Finset.sum_range_succ, Finset.sum_range_one] at s0
  have ser : ∀ (F : Fluid) (B : ℕ → ℝ), series (phG (Ex.unsatG b w1 w2 a1 a2) F) (Ex.unsatV b w1 w2 a1 a2).neig (fun j => c.m.getD j 0) (fun j _ => B j) (1/2) 0 =
      B 0 + (F.top 0 + F.bot 0) / 2 := by
    intro F B
    unfold series bTop
    rw [e1, Finset.sum_range_one]
    beta_reduce
    rw [w0, show π * (1/2) = π / 2 by ring, sin_pi_div_two]
    simp only [auxG, Ex.unsatG, Ex.unsat]
    norm_num
    ring
  rw [ser, ser] at r
  exact ⟨A 0 0, A 1 0, r.1, r.2, s0⟩

/-- **C243** All four boundary pressures are given in the sum, only two of them in each part: at time 0 and mid depth the reported pressures are not the
sums of those of the parts, though the soil is the same and the loads are the sums. -/
theorem C243_negation : ∃ (x x1 x2 : UnsatIn) (a a1 a2 : UnsatArrays) (S : Set ℝ) (U U1 U2 : Unsat), RunsU x x1 x2 a a1 a2 S S S 0 5 0 1 1 U U1 U2 ∧
    x1.OneMissing ∧ x2.OneMissing ∧ ¬ x.OneMissing ∧
    ¬ ∃ u u1 u2 v v1 v2 : ℝ, (x.porw a (1/2) 0 = .ok u ∧ x1.porw a1 (1/2) 0 = .ok u1 ∧ x2.porw a2 (1/2) 0 = .ok u2 ∧ u = 1 * u1 + 1 * u2) ∧
      x.pora a (1/2) 0 = .ok v ∧ x1.pora a1 (1/2) 0 = .ok v1 ∧ x2.pora a2 (1/2) 0 = .ok v2 ∧ v = 1 * v1 + 1 * v2 := by
  obtain ⟨c, c1, c2, R⟩ := Ex.unsatV_runs false true false true false false false true false true 0 le_rfl (by norm_num) (by decide)
  refine ⟨_, _, _, c, c1, c2, _, _, _, _, R, (Ex.unsatV_missing _ _ _ _ _).2 rfl, (Ex.unsatV_missing _ _ _ _ _).2 rfl, fun k => ?_, ?_⟩
  · exact absurd ((Ex.unsatV_missing _ _ _ _ _).1 k) (by decide)
  rintro ⟨u, u1, u2, v, v1, v2, ⟨q, q1, q2, e⟩, p, p1, p2, f⟩
  obtain ⟨m1, r1⟩ := unsat_arrays_same R.ok R.ok1 R.made R.made1 R.soil1 R.neig1 R.dT1
  obtain ⟨m2, r2⟩ := unsat_arrays_same R.ok R.ok2 R.made R.made2 R.soil2 R.neig2 R.dT2
  obtain ⟨g, P, eg, ep, hE⟩ := R.made.eig
  obtain ⟨g1, P1, eg1, ep1, hE1⟩ := R.made1.eig
  obtain ⟨g2, P2, eg2, ep2, hE2⟩ := R.made2.eig
  have r1 := r1 g g1 P P1 eg eg1 ep ep1
  have r2 := r2 g g2 P P2 eg eg2 ep ep2
  obtain ⟨A, B, y, z, s0⟩ := Ex.unsatV_start _ _ _ _ _ R.made R.nonzero eg
  obtain ⟨A1, B1, y1, z1, s1⟩ := Ex.unsatV_start _ _ _ _ _ R.made1 R.nonzero1 eg1
  obtain ⟨A2, B2, y2, z2, s2⟩ := Ex.unsatV_start _ _ _ _ _ R.made2 R.nonzero2 eg2
  rw [(r1 0 0 Nat.two_pos Nat.two_pos).1, (r1 0 1 Nat.two_pos Nat.one_lt_two).1] at s1
  rw [(r2 0 0 Nat.two_pos Nat.two_pos).1, (r2 0 1 Nat.two_pos Nat.one_lt_two).1] at s2
  rw [y] at q; rw [y1] at q1; rw [y2] at q2; rw [z] at p; rw [z1] at p1; rw [z2] at p2
  injection q with q; injection q1 with q1; injection q2 with q2; injection p with p; injection p1 with p1; injection p2 with p2
  simp at q q1 q2 p p1 p2
  have eA : A = A1 + A2 := by linarith
  have eB : B = B1 + B2 := by linarith
  have k0 : rhsP (Ex.unsatV false true true true true) (Ex.unsatG false true true true true) 0 π 0 0 = 0 := by
    unfold rhsP
    rw [if_pos (show 0 < (Ex.unsatV false true true true true).neig from Nat.one_pos), if_neg (fun k => absurd ((Ex.unsatV_missing _ _ _ _ _).1 k) (by decide))]
    simp [loadT, Ex.unsatG, Ex.unsat]
  have kk : ∀ w1 w2 a1 a2 : Bool, (w1 && w2 && a1 && a2) = false → rhsP (Ex.unsatV false w1 w2 a1 a2) (Ex.unsatG false w1 w2 a1 a2) 0 π 0 0 =
      rhsW (Ex.unsatG false w1 w2 a1 a2) 0 π 0 := by
    intro w1 w2 a1 a2 h
    unfold rhsP
    rw [if_pos (show 0 < (Ex.unsatV false w1 w2 a1 a2).neig from Nat.one_pos), if_pos ((Ex.unsatV_missing _ _ _ _ _).2 h)]
  have I : ∀ k : ℝ, (∫ z in (0:ℝ)..1, k * sin (π * z) * (1 - z)) + (∫ z in (0:ℝ)..1, k * sin (π * z) * z) = k * (2 / π) := by
    intro k
    rw [← intervalIntegral.integral_add (Continuous.intervalIntegrable (by fun_prop) _ _) (Continuous.intervalIntegrable (by fun_prop) _ _)]
    have : (fun z => k * sin (π * z) * (1 - z) + k * sin (π * z) * z) = fun z => k * sin (π * z) := by funext z; ring
    rw [this, intervalIntegral.integral_const_mul, intervalIntegral.integral_comp_mul_left (fun z => sin z) pi_ne_zero, integral_sin]
    simp
    left; field_simp; norm_num
  have rT : rhsW (Ex.unsatG false true false true false) 0 π 0 = -(∫ z in (0:ℝ)..1, 3 * sin (π * z) * (1 - z)) * 100 := by
    clear * -
    simp [rhsW, loadT, stBC, flBC, Ex.unsatG, Ex.unsat, Ex.fluid]
    try ring
  have rB : rhsW (Ex.unsatG false false true false true) 0 π 0 = -(∫ z in (0:ℝ)..1, 3 * sin (π * z) * z) * 100 := by
    clear * -
    simp [rhsW, loadT, stBC, flBC, Ex.unsatG, Ex.unsat, Ex.fluid]
    try ring
  have t0 : g 0 0 * A + g 0 1 * B = 0 := s0.trans k0
  have t1 := s1.trans ((kk true false true false rfl).trans rT)
  have t2 := s2.trans ((kk false true false true rfl).trans rB)
  have i3 := I 3
  have pos : 0 < 3 * (2 / π) := by have := pi_pos; positivity
  rw [eA, eB] at t0
  have : g 0 0 * A1 + g 0 1 * B1 + (g 0 0 * A2 + g 0 1 * B2) = 0 := by linarith
  rw [t1, t2] at this
  linarith

end Geotecha.Speccon
