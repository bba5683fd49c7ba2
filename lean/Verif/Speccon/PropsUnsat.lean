import Verif.Speccon.UnsatWeak

/-!
# Properties C94, C95: speccon1d_unsat and the consolidation equations of unsaturated soil

Specification: `Verif/Speccon/SpecUnsat.lean`.  `np.linalg` is assumed to satisfy its contract: `EigenSystem`.
-/

set_option linter.unusedVariables false
open Real intervalIntegral MeasureTheory Filter Topology
namespace Geotecha.Speccon
open Geotecha.Spec Geotecha.Piecewise

variable {x : UnsatIn} {S : Set ℝ} {s tend : ℝ} {U : Unsat} {a : UnsatArrays}

/-- What `_make_m`, `_make_gam`, `_make_psi`, `_make_eigs_and_v` leave behind. -/
structure UnsatArrays.Made (x : UnsatIn) (a : UnsatArrays) : Prop where
  m : x.m = .ok a.m
  eig : ∃ gam psi, x.gam a.m = .ok gam ∧ x.psi a.m = .ok psi ∧ EigenSystem (a.m ++ a.m).length gam psi a.eigs a.v a.Igamv

theorem sum2 (n : ℕ) (f : ℕ → ℝ) : ∑ r ∈ Finset.range (n + n), f r = (∑ k ∈ Finset.range n, f k) + ∑ k ∈ Finset.range n, f (n + k) :=
  Finset.sum_range_add f n n

theorem unsat_core (h : UnsatInput x S s tend U) (hM : a.Made x) (h0 : ∀ i, i < 2 * x.neig → a.eigs i ≠ 0) :
    ∃ A C : ℕ → ℝ → ℝ, (∀ t, s ≤ t → t ≤ tend → ∃ c, x.column a t = .ok c ∧ (∀ j, c j = A j t) ∧ ∀ j, c (x.neig + j) = C j t) ∧
      ∀ i, i < x.neig → ∀ t, s ≤ t → t ≤ tend → ∀ w, w = (fun j => a.m.getD j 0) →
      (|U.residualW s (series (phG U U.water) x.neig w A) (seriesZ (phG U U.water) x.neig w A) (series (phG U U.air) x.neig w C) (fun z => sin (w i * z))
        (fun z => w i * cos (w i * z)) t - (rhsP x U s (w i) i t - rhsW U s (w i) t)| ≤
          1 / 100000000 * ((∑ j ∈ Finset.range x.neig, |A j t|) + ∑ j ∈ Finset.range x.neig, |C j t|)) ∧
      (|U.residualA s (series (phG U U.water) x.neig w A) (series (phG U U.air) x.neig w C) (seriesZ (phG U U.air) x.neig w C) (fun z => sin (w i * z))
        (fun z => w i * cos (w i * z)) t - (rhsP x U s (w i) (x.neig + i) t - rhsA U s (w i) t)| ≤
          1 / 100000000 * ((∑ j ∈ Finset.range x.neig, |A j t|) + ∑ j ∈ Finset.range x.neig, |C j t|)) := by
  obtain ⟨hl, hget, hd, hne, hsc⟩ := unsat_m h hM.m
  obtain ⟨gam, psi, eg, ep, hE⟩ := hM.eig
  obtain ⟨g, eg', hg⟩ := unsat_gam h hd hl
  obtain ⟨p, ep', hp⟩ := unsat_psi h hd hl
  rw [eg'] at eg
  injection eg with eg
  rw [ep'] at ep
  injection ep with ep
  subst eg ep
  have hl2 : (a.m ++ a.m).length = x.neig + x.neig := by rw [List.length_append, hl]
  have hB : ∀ i, i < (x.basis a).m.length → (x.basis a).dT * (x.basis a).eigs i ≠ 0 := fun i hi =>
    mul_ne_zero h.dT (h0 i (by have : i < x.neig + x.neig := by rw [← hl2]; exact hi
                               omega))
  have hm2 : ∀ v ∈ (x.basis a).m, v ≠ 0 := fun v hv => hne v (by
    rcases List.mem_append.1 (show v ∈ a.m ++ a.m from hv) with h | h <;> exact h)
  obtain ⟨A, hA, hc, hsol⟩ := coeffs_of (E_unsat h hB hm2) (show EigenSystem (x.basis a).m.length (chop g) p (x.basis a).eigs a.v (x.basis a).Igamv from hE)
  refine ⟨A, fun j => A (x.neig + j), fun t h1 h2 => ?_, fun i hi t h1 h2 w hw => ?_⟩
  · obtain ⟨c, e, ec⟩ := hc t h1 h2
    exact ⟨c, e, ec, fun j => ec _⟩
  have hbl : (x.basis a).m.length = x.neig + x.neig := hl2
  have hwi : ∀ k, k < x.neig → (x.basis a).m.getD k 0 = w k ∧ (x.basis a).m.getD (x.neig + k) 0 = w k := by
    intro k hk
    have e1 := getD_block hl (j := k) (by omega)
    have e2 := getD_block hl (j := x.neig + k) (by omega)
    rw [if_pos hk] at e1
    rw [if_neg (by omega), Nat.add_sub_cancel_left] at e2
    subst hw
    exact ⟨e1, e2⟩
  have hsc' : ∀ j, j < x.neig → sin (w i) * cos (w j) = 0 := by subst hw; exact fun j hj => hsc i j hi hj
  have rW := residualW_eq h x.neig w A (fun j => A (x.neig + j)) hA i hsc' h1 h2
  have rA := residualA_eq h x.neig w A (fun j => A (x.neig + j)) (fun j => hA _) i hsc' h1 h2
  have sW := hsol i (by rw [hbl]; omega) t h1 h2
  have sA := hsol (x.neig + i) (by rw [hbl]; omega) t h1 h2
  rw [hbl, sum2, sum2, (hwi i hi).1] at sW
  rw [hbl, sum2, sum2, (hwi i hi).2] at sA
  have bdT : (x.basis a).dT = x.dT := rfl
  rw [bdT] at sW sA
  have bound : ∀ k, |(∑ j ∈ Finset.range x.neig, (g k j - chop g k j) * A j t) + ∑ j ∈ Finset.range x.neig, (g k (x.neig + j) - chop g k (x.neig + j)) * A (x.neig + j) t|
      ≤ 1 / 100000000 * ((∑ j ∈ Finset.range x.neig, |A j t|) + ∑ j ∈ Finset.range x.neig, |A (x.neig + j) t|) := by
    intro k
    refine (abs_add_le _ _).trans ?_
    rw [mul_add, Finset.mul_sum, Finset.mul_sum]
    refine add_le_add ((Finset.abs_sum_le_sum_abs _ _).trans ?_) ((Finset.abs_sum_le_sum_abs _ _).trans ?_) <;>
    · refine Finset.sum_le_sum fun j _ => ?_
      rw [abs_mul]
      exact mul_le_mul_of_nonneg_right (chop_near g _ _) (abs_nonneg _)
  have gW1 : ∑ j ∈ Finset.range x.neig, gm U.m2w (w i) (w j) * A j t = ∑ j ∈ Finset.range x.neig, g i j * A j t :=
    Finset.sum_congr rfl fun j hj => by subst hw; rw [(hg i j hi (Finset.mem_range.1 hj)).1]
  have gW2 : ∑ j ∈ Finset.range x.neig, (gm U.m1kw (w i) (w j) - gm U.m2w (w i) (w j)) * A (x.neig + j) t = ∑ j ∈ Finset.range x.neig, g i (x.neig + j) * A (x.neig + j) t :=
    Finset.sum_congr rfl fun j hj => by subst hw; rw [(hg i j hi (Finset.mem_range.1 hj)).2.1]
  have gA1 : ∑ j ∈ Finset.range x.neig, gm U.m2a (w i) (w j) * A j t = ∑ j ∈ Finset.range x.neig, g (x.neig + i) j * A j t :=
    Finset.sum_congr rfl fun j hj => by subst hw; rw [(hg i j hi (Finset.mem_range.1 hj)).2.2.1]
  have gA2 : ∑ j ∈ Finset.range x.neig, (gm U.m1ka (w i) (w j) - gm U.m2a (w i) (w j)
        - gm U.n (w i) (w j) / U.airRef + gm (fun z => U.S z * U.n z) (w i) (w j) / U.airRef) * A (x.neig + j) t =
      ∑ j ∈ Finset.range x.neig, g (x.neig + i) (x.neig + j) * A (x.neig + j) t :=
    Finset.sum_congr rfl fun j hj => by subst hw; rw [(hg i j hi (Finset.mem_range.1 hj)).2.2.2]
  have pW1 : x.dT * ∑ j ∈ Finset.range x.neig, p i j * ∫ r in s..t, A j r = -∑ j ∈ Finset.range x.neig, psiForm (phG U U.water) (w i) (w j) * ∫ r in s..t, A j r := by
    rw [Finset.mul_sum, ← Finset.sum_neg_distrib]
    exact Finset.sum_congr rfl fun j hj => by subst hw; rw [← mul_assoc, (hp i j hi (Finset.mem_range.1 hj)).1]; ring
  have pW2 : ∑ j ∈ Finset.range x.neig, p i (x.neig + j) * ∫ r in s..t, A (x.neig + j) r = 0 :=
    Finset.sum_eq_zero fun j hj => by rw [(hp i j hi (Finset.mem_range.1 hj)).2.1, zero_mul]
  have pA1 : ∑ j ∈ Finset.range x.neig, p (x.neig + i) j * ∫ r in s..t, A j r = 0 :=
    Finset.sum_eq_zero fun j hj => by rw [(hp i j hi (Finset.mem_range.1 hj)).2.2.1, zero_mul]
  have pA2 : x.dT * ∑ j ∈ Finset.range x.neig, p (x.neig + i) (x.neig + j) * ∫ r in s..t, A (x.neig + j) r =
      -∑ j ∈ Finset.range x.neig, psiForm (phG U U.air) (w i) (w j) * ∫ r in s..t, A (x.neig + j) r := by
    rw [Finset.mul_sum, ← Finset.sum_neg_distrib]
    exact Finset.sum_congr rfl fun j hj => by subst hw; rw [← mul_assoc, (hp i j hi (Finset.mem_range.1 hj)).2.2.2]; ring
  have b1 := bound i
  have b2 := bound (x.neig + i)
  simp only [sub_mul, Finset.sum_sub_distrib] at b1 b2
  constructor
  · refine le_trans (le_of_eq ?_) b1
    congr 1
    rw [rW, gW1, gW2]
    rw [pW2, add_zero, pW1] at sW
    linarith
  · refine le_trans (le_of_eq ?_) b2
    congr 1
    rw [rA, gA1, gA2]
    rw [pA1, zero_add, pA2] at sA
    linarith

/-- The reported pressures as series. -/
theorem unsat_por (h : UnsatInput x S s tend U) (hM : a.Made x) {A C : ℕ → ℝ → ℝ} {t : ℝ} (h1 : s ≤ t) (h2 : t ≤ tend) {c : ℕ → ℝ}
    (e : x.column a t = .ok c) (eA : ∀ j, c j = A j t) (eC : ∀ j, c (x.neig + j) = C j t) (z : ℝ) (hz0 : 0 ≤ z) (hz1 : z ≤ 1) :
    x.porw a z t = .ok (series (phG U U.water) x.neig (fun j => a.m.getD j 0) A z t) ∧
    x.pora a z t = .ok (series (phG U U.air) x.neig (fun j => a.m.getD j 0) C z t) := by
  obtain ⟨wb, ew, _⟩ := phase_solves h h.water h.kw
  obtain ⟨ab, ea, _⟩ := phase_solves h h.air h.Da
  constructor
  · unfold UnsatIn.porw
    simp only [e, ew, Bind.bind, Except.bind]
    exact dim1sinF_series (aux_input h h.water h.m2w h.kw) hM.m ew h1 h2 (fun j _ => eA j) z hz0 hz1
  · unfold UnsatIn.pora
    simp only [e, ea, Bind.bind, Except.bind]
    exact dim1sinF_series (aux_input h h.air h.m2w h.Da) hM.m ea h1 h2 (fun j _ => eC j) z hz0 hz1

/-- The reported pressures of water and air satisfy the boundary conditions and the weak form of both equations, tested with each sine of the
series, up to the matrix entries below 1e-8 set to zero; if one of the four boundary lists is missing, and `dTw ≠ 0` or the air has no boundary
loads. -/
theorem C94_weak_form_partial (h : UnsatInput x S s tend U) (hM : a.Made x) (h0 : ∀ i, i < 2 * x.neig → a.eigs i ≠ 0)
    (hmiss : x.air.top = none ∨ x.air.bot = none ∨ x.water.top = none ∨ x.water.bot = none)
    (hw : x.dTw ≠ 0 ∨ (x.air.top = none ∧ x.air.bot = none)) :
    ∃ (A C : ℕ → ℝ → ℝ) (uw uwz ua uaz : ℝ → ℝ → ℝ),
      (∀ z t, 0 ≤ z → z ≤ 1 → s ≤ t → t ≤ tend → x.porw a z t = .ok (uw z t) ∧ x.pora a z t = .ok (ua z t)) ∧
      (∀ z t, HasDerivAt (fun z => uw z t) (uwz z t) z ∧ HasDerivAt (fun z => ua z t) (uaz z t) z) ∧
      (∀ z t, uw z t = (∑ j ∈ Finset.range x.neig, A j t * sin (π * ((j:ℝ) + 1 - U.drn / 2) * z)) + (1 - (1 - U.drn) * z) * U.water.top t + z * U.water.bot t) ∧
      (∀ z t, ua z t = (∑ j ∈ Finset.range x.neig, C j t * sin (π * ((j:ℝ) + 1 - U.drn / 2) * z)) + (1 - (1 - U.drn) * z) * U.air.top t + z * U.air.bot t) ∧
      (∀ t, uw 0 t = U.water.top t ∧ (U.drn = 0 → uw 1 t = U.water.bot t) ∧ (U.drn = 1 → uwz 1 t = U.water.bot t)) ∧
      (∀ t, ua 0 t = U.air.top t ∧ (U.drn = 0 → ua 1 t = U.air.bot t) ∧ (U.drn = 1 → uaz 1 t = U.air.bot t)) ∧
      ∀ i, i < x.neig → ∀ t, s ≤ t → t ≤ tend → ∀ f, f = π * ((i:ℝ) + 1 - U.drn / 2) →
        |U.residualW s uw uwz ua (fun z => sin (f * z)) (fun z => f * cos (f * z)) t| ≤
          1 / 100000000 * ((∑ j ∈ Finset.range x.neig, |A j t|) + ∑ j ∈ Finset.range x.neig, |C j t|) ∧
        |U.residualA s uw ua uaz (fun z => sin (f * z)) (fun z => f * cos (f * z)) t| ≤
          1 / 100000000 * ((∑ j ∈ Finset.range x.neig, |A j t|) + ∑ j ∈ Finset.range x.neig, |C j t|) := by
  obtain ⟨hl, hget, hd, hne, hsc⟩ := unsat_m h hM.m
  obtain ⟨A, C, hcol, hres⟩ := unsat_core h hM h0
  have hser : ∀ (F : Fluid) (Y : ℕ → ℝ → ℝ) z t, series (phG U F) x.neig (fun j => a.m.getD j 0) Y z t =
      (∑ j ∈ Finset.range x.neig, Y j t * sin (π * ((j:ℝ) + 1 - U.drn / 2) * z)) + (1 - (1 - U.drn) * z) * F.top t + z * F.bot t := by
    intro F Y z t
    have : ∑ j ∈ Finset.range x.neig, Y j t * sin (a.m.getD j 0 * z) = ∑ j ∈ Finset.range x.neig, Y j t * sin (π * ((j:ℝ) + 1 - U.drn / 2) * z) :=
      Finset.sum_congr rfl fun j hj => by rw [hget j (Finset.mem_range.1 hj)]
    unfold series bTop
    rw [this]
    rfl
  refine ⟨A, C, series (phG U U.water) x.neig (fun j => a.m.getD j 0) A, seriesZ (phG U U.water) x.neig (fun j => a.m.getD j 0) A,
    series (phG U U.air) x.neig (fun j => a.m.getD j 0) C, seriesZ (phG U U.air) x.neig (fun j => a.m.getD j 0) C, ?_,
    fun z t => ⟨series_deriv _ _ _ _ _ _, series_deriv _ _ _ _ _ _⟩, hser _ A, hser _ C,
    series_bc (aux_input h h.water h.m2w h.kw) hM.m A, series_bc (aux_input h h.air h.m2w h.Da) hM.m C, ?_⟩
  · intro z t hz0 hz1 h1 h2
    obtain ⟨c, e, eA, eC⟩ := hcol t h1 h2
    exact unsat_por h hM h1 h2 e eA eC z hz0 hz1
  · rintro i hi t h1 h2 f rfl
    obtain ⟨rW, rA⟩ := hres i hi t h1 h2 _ rfl
    have e1 : rhsP x U s (a.m.getD i 0) i t = rhsW U s (a.m.getD i 0) t := by
      unfold rhsP
      rw [if_pos hi, if_pos (show x.OneMissing from hmiss)]
    have e2 : rhsP x U s (a.m.getD i 0) (x.neig + i) t = rhsA U s (a.m.getD i 0) t := by
      unfold rhsP
      rw [if_neg (by omega), if_pos (show x.OneMissing from hmiss)]
      rcases hw with hw | hw
      · rw [if_neg hw, sub_zero]
      · obtain ⟨bot, tops, bots, e0, hb, ht1, ht2, hb1, hb2, hn⟩ := normBot_ok (aux_input h h.air h.m2w h.Da)
        have t1 : tops = [] := by
          have := hb.top
          simpa [VR.boundary, auxIn, hw.1, Loads] using this
        have t2 : bots = [] := by
          have := hb.bot
          simpa [VR.boundary, hn hw.2, Loads] using this
        subst t1 t2
        have g1 : ∀ t, U.air.top t = 0 := fun t => by
          have := ht1 t
          simpa [total, auxG] using this.symm
        have g2 : ∀ t, U.air.bot t = 0 := fun t => by
          have := hb1 t
          simpa [total, auxG] using this.symm
        have : flBC U U.air s (a.m.getD i 0) t = 0 := by simp [flBC, g1, g2]
        rw [this]; simp
    simp only [e1, e2, sub_self, sub_zero] at rW rA
    rw [hget i hi] at rW rA
    exact ⟨rW, rA⟩

/-- If all four boundary lists are given, the boundary loads do not act on the soil: what is reported is the solution for zero boundary
values, with the boundary part added. -/
theorem C94_all_given (h : UnsatInput x S s tend U) (hM : a.Made x) (h0 : ∀ i, i < 2 * x.neig → a.eigs i ≠ 0)
    (hall : x.air.top ≠ none ∧ x.air.bot ≠ none ∧ x.water.top ≠ none ∧ x.water.bot ≠ none)
    (V : Unsat) (hV : V = { U with water := ⟨U.water.cond, U.water.condEnd, fun _ => 0, 0, fun _ => 0, 0⟩,
                                   air := ⟨U.air.cond, U.air.condEnd, fun _ => 0, 0, fun _ => 0, 0⟩ }) :
    ∃ (A C : ℕ → ℝ → ℝ) (vw vwz va vaz : ℝ → ℝ → ℝ),
      (∀ z t, 0 ≤ z → z ≤ 1 → s ≤ t → t ≤ tend →
        x.porw a z t = .ok (vw z t + (1 - (1 - U.drn) * z) * U.water.top t + z * U.water.bot t) ∧
        x.pora a z t = .ok (va z t + (1 - (1 - U.drn) * z) * U.air.top t + z * U.air.bot t)) ∧
      (∀ z t, HasDerivAt (fun z => vw z t) (vwz z t) z ∧ HasDerivAt (fun z => va z t) (vaz z t) z) ∧
      ∀ i, i < x.neig → ∀ t, s ≤ t → t ≤ tend → ∀ f, f = π * ((i:ℝ) + 1 - U.drn / 2) →
        |V.residualW s vw vwz va (fun z => sin (f * z)) (fun z => f * cos (f * z)) t| ≤
          1 / 100000000 * ((∑ j ∈ Finset.range x.neig, |A j t|) + ∑ j ∈ Finset.range x.neig, |C j t|) ∧
        |V.residualA s vw va vaz (fun z => sin (f * z)) (fun z => f * cos (f * z)) t| ≤
          1 / 100000000 * ((∑ j ∈ Finset.range x.neig, |A j t|) + ∑ j ∈ Finset.range x.neig, |C j t|) := by
  set y : UnsatIn := { x with water := ⟨none, none, none, none⟩, air := ⟨none, none, none, none⟩ } with hy
  have hph : ∀ F : Fluid, PhaseInput y ⟨none, none, none, none⟩ s tend ⟨F.cond, F.condEnd, fun _ => 0, 0, fun _ => 0, 0⟩ := by
    intro F
    refine ⟨⟨[], rfl, fun t => ?_, ?_⟩, fun l hl => by simp at hl, [], rfl, fun t => ?_, ?_⟩ <;> simp [total, total0]
  have hyV : UnsatInput y S s tend V := by
    subst hV
    exact ⟨h.sep, h.drn, h.drnU, h.H, h.dT, h.mvref, h.ua, h.ref, h.m1kw, h.m2w, h.m1ka, h.m2a, h.n, h.sat, h.kw, h.Da, h.surcharge, hph _, hph _⟩
  have hMy : a.Made y := ⟨hM.m, hM.eig⟩
  have hcol : ∀ t, s ≤ t → t ≤ tend → y.column a t = x.column a t := by
    intro t h1 h2
    obtain ⟨hl, hget, hd, hne, hsc⟩ := unsat_m h hM.m
    have hE : ∀ i, i < (a.m ++ a.m).length → y.E (y.basis a) i t = x.E (x.basis a) i t := by
      intro i hi
      have hl2 : (a.m ++ a.m).length = x.neig + x.neig := by rw [List.length_append, hl]
      have hB : ∀ i, i < (y.basis a).m.length → (y.basis a).dT * (y.basis a).eigs i ≠ 0 := fun i hi =>
        mul_ne_zero h.dT (h0 i (by have : i < x.neig + x.neig := by rw [← hl2]; exact hi
                                   omega))
      have hm2 : ∀ v ∈ (y.basis a).m, v ≠ 0 := fun v hv => hne v (by
        rcases List.mem_append.1 (show v ∈ a.m ++ a.m from hv) with h | h <;> exact h)
      obtain ⟨wb, ew, hwn, hw⟩ := phase_solves hyV hyV.water hyV.kw
      obtain ⟨ab, ea, han, ha⟩ := phase_solves hyV hyV.air hyV.Da
      have wn : wb = none := hwn rfl
      have an : ab = none := han rfl
      subst wn an
      have z1 : ∀ (B : Basis) (c : PolyLine ℝ) f, Profile S c f → bcADfDt B (y.boundary ⟨none, none, none, none⟩ none) (some c) i t = .ok 0 := by
        intro B c f hc
        obtain ⟨q, hq, hqp⟩ := zdistTop_ok hc y.drn h.drn
        have hq' : zdistTop (y.boundary ⟨none, none, none, none⟩ none).drn c = .ok q := hq
        unfold bcADfDt
        simp only [Bind.bind, Except.bind, hq']
        simp [UnsatIn.boundary, bcLoop, pure, Except.pure]
      have z2 : ∀ (B : Basis) (c : PolyLine ℝ) f, Profile S c f → bcDaDf B (y.boundary ⟨none, none, none, none⟩ none) (some c) i t = .ok 0 := by
        intro B c f hc
        obtain ⟨q, hq, hqp⟩ := zdistTop_ok hc y.drn h.drn
        have hq' : zdistTop (y.boundary ⟨none, none, none, none⟩ none).drn c = .ok q := hq
        unfold bcDaDf
        simp only [Bind.bind, Except.bind, hq']
        simp [UnsatIn.boundary, bcLoop, pure, Except.pure]
      have z3 : ∀ (B : Basis) (c d : PolyLine ℝ) f g, Profile S c f → Profile S d g → bcAbDfDt B (y.boundary ⟨none, none, none, none⟩ none) (some c) (some d) i t = .ok 0 := by
        intro B c d f g hc hd
        obtain ⟨a', c', zt, zb, y1, y2, w1, w2, e, ha', hc', _⟩ := common2 h.sep hc hd
        obtain ⟨q, hq, hqp⟩ := zdistTop_ok ha' y.drn h.drn
        have hq' : zdistTop (y.boundary ⟨none, none, none, none⟩ none).drn a' = .ok q := hq
        unfold bcAbDfDt
        simp only [e, Bind.bind, Except.bind, hq']
        simp [UnsatIn.boundary, bcLoop, pure, Except.pure]
      have e1 : y.eBC (y.basis a) i t = .ok 0 := by
        obtain ⟨fk, _, hfk, _⟩ := h.kw
        obtain ⟨fd, _, hfd, _⟩ := h.Da
        unfold UnsatIn.eBC
        simp only [ew, ea, Bind.bind, Except.bind]
        have yw : y.water = ⟨none, none, none, none⟩ := rfl
        have ya : y.air = ⟨none, none, none, none⟩ := rfl
        simp only [yw, ya, z1 _ _ _ hyV.m2w, z1 _ _ _ hyV.m1kw, z1 _ _ _ hyV.m2a, z1 _ _ _ hyV.m1ka, z1 _ _ _ hyV.n, z3 _ _ _ _ _ hyV.sat hyV.n,
          z2 _ y.kw fk hfk, z2 _ y.Da fd hfd, pure, Except.pure, ite_self, mul_zero]
        norm_num
      have e2 : y.eSurcharge (y.basis a) i t = x.eSurcharge (x.basis a) i t := rfl
      obtain ⟨X, _, hX⟩ := eSurchargeU hyV hB hm2 i hi
      have eX := (hX t h1 h2).1
      have c1 : y.air.top.isNone = true ∨ y.air.bot.isNone = true ∨ y.water.top.isNone = true ∨ y.water.bot.isNone = true := Or.inl rfl
      have c2 : ¬ (x.air.top.isNone = true ∨ x.air.bot.isNone = true ∨ x.water.top.isNone = true ∨ x.water.bot.isNone = true) := by
        simp only [Option.isNone_iff_eq_none]
        tauto
      unfold UnsatIn.E
      rw [if_pos c1, if_neg c2]
      rw [e2] at eX
      simp only [e1, e2, eX, Bind.bind, Except.bind, pure, Except.pure]
    have hmap : ∀ l : List ℕ, (∀ i ∈ l, i < (a.m ++ a.m).length) → l.mapM (fun i => y.E (y.basis a) i t) = l.mapM (fun i => x.E (x.basis a) i t) := by
      intro l
      induction l with
      | nil => intro _; rfl
      | cons b l ih =>
        intro hb
        rw [List.mapM_cons, List.mapM_cons, hE b (hb b (by simp)), ih (fun i hi => hb i (by simp [hi]))]
    unfold UnsatIn.column
    rw [hmap _ (fun i hi => List.mem_range.1 hi)]
  obtain ⟨hl, hget, hd, hne, hsc⟩ := unsat_m h hM.m
  obtain ⟨A, C, hc, hres⟩ := unsat_core hyV hMy h0
  refine ⟨A, C, series (phG V V.water) x.neig (fun j => a.m.getD j 0) A, seriesZ (phG V V.water) x.neig (fun j => a.m.getD j 0) A,
    series (phG V V.air) x.neig (fun j => a.m.getD j 0) C, seriesZ (phG V V.air) x.neig (fun j => a.m.getD j 0) C, ?_,
    fun z t => ⟨series_deriv _ _ _ _ _ _, series_deriv _ _ _ _ _ _⟩, ?_⟩
  · intro z t hz0 hz1 h1 h2
    obtain ⟨c, e, eA, eC⟩ := hc t h1 h2
    rw [hcol t h1 h2] at e
    have r := unsat_por h hM h1 h2 e eA eC z hz0 hz1
    have q : ∀ (F F' : Fluid) (Y : ℕ → ℝ → ℝ), (∀ t, F'.top t = 0) → (∀ t, F'.bot t = 0) → series (phG U F) x.neig (fun j => a.m.getD j 0) Y z t =
        series (phG V F') x.neig (fun j => a.m.getD j 0) Y z t + (1 - (1 - U.drn) * z) * F.top t + z * F.bot t := by
      intro F F' Y e1 e2
      unfold series bTop
      simp only [auxG, e1, e2]
      ring
    rw [q U.water V.water A (by intro t; rw [hV]) (by intro t; rw [hV]), q U.air V.air C (by intro t; rw [hV]) (by intro t; rw [hV])] at r
    exact r
  · rintro i hi t h1 h2 f rfl
    obtain ⟨rW, rA⟩ := hres i hi t h1 h2 _ rfl
    have e1 : rhsP y V s (a.m.getD i 0) i t = rhsW V s (a.m.getD i 0) t := by
      unfold rhsP
      rw [if_pos hi, if_pos (show y.OneMissing from Or.inl rfl)]
    have e2 : rhsP y V s (a.m.getD i 0) (x.neig + i) t = rhsA V s (a.m.getD i 0) t := by
      unfold rhsP
      rw [if_neg (by show ¬ (x.neig + i < x.neig); omega), if_pos (show y.OneMissing from Or.inl rfl)]
      have : flBC V V.air s (a.m.getD i 0) t = 0 := by rw [hV]; simp [flBC]
      rw [this]; simp
    have e2' : rhsP y V s (a.m.getD i 0) (y.neig + i) t = rhsA V s (a.m.getD i 0) t := e2
    simp only [e1, e2', sub_self, sub_zero] at rW rA
    rw [hget i hi] at rW rA
    exact ⟨rW, rA⟩

end Geotecha.Speccon
