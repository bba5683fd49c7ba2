import Verif.Speccon.VRCWeak

/-!
# Properties C90, C91, C92: speccon1d_vrc and the consolidation equations of soil and column

Specification: `Verif/Speccon/SpecVR.lean` (data) and `Verif/Speccon/SpecVRC.lean` (equations).
-/

set_option linter.unusedVariables false
open Real intervalIntegral MeasureTheory Filter Topology
namespace Geotecha.Speccon
open Geotecha.Spec Geotecha.Piecewise

variable {x : VRC} {S : Set ℝ} {s tend : ℝ} {G : Ground} {C : Column} {a : VRCArrays}

theorem dot_scale {n : ℕ} {k : ℝ} {M N : ℕ → ℕ → ℝ} {i : ℕ} (h : ∀ j, j < n → N i j = k * M i j) (f : ℕ → ℝ) : dotV n N f i = k * dotV n M f i := by
  unfold dotV
  rw [Finset.mul_sum]
  exact Finset.sum_congr rfl fun j hj => by rw [h j (Finset.mem_range.1 hj)]; ring

theorem dot_diag {n i : ℕ} (hi : i < n) (k : ℝ) (f : ℕ → ℝ) : dotV n (fun i j => if i = j then k else 0) f i = k * f i := by
  unfold dotV
  simp [hi]

/-- The three flows of the series, and the three rows, in terms of the matrices. -/
theorem flows (h : VRCInput x S s tend G C) (hM : a.Made x) (A : ℕ → ℝ → ℝ) (i : ℕ) (hi : i < a.m.length) (t : ℝ) (Y : ℕ → ℕ → ℝ → ℝ) :
    vflow G.vert G.vertEnd (seriesZ G x.base.neig (fun j => a.m.getD j 0) (Y 0)) (fun z => sin (a.m.getD i 0 * z)) (fun z => a.m.getD i 0 * cos (a.m.getD i 0 * z)) t
      = -(x.base.dT * dotV a.m.length a.P.sv (fun j => Y 0 j t) i) + Qt G (soilW G) (a.m.getD i 0) t ∧
    vflow C.cond C.condEnd (seriesZ G x.base.neig (fun j => a.m.getD j 0) (Y 1)) (fun z => sin (a.m.getD i 0 * z)) (fun z => a.m.getD i 0 * cos (a.m.getD i 0 * z)) t
      = -(x.base.dT * dotV a.m.length a.P.cv (fun j => Y 1 j t) i) + Qt G (colW C) (a.m.getD i 0) t ∧
    (∫ z in (0:ℝ)..1, G.horiz z * sin (a.m.getD i 0 * z) * (series G x.base.neig (fun j => a.m.getD j 0) (Y 0) z t - series G x.base.neig (fun j => a.m.getD j 0) (Y 2) z t))
      = x.base.dT * (dotV a.m.length a.P.sh (fun j => Y 0 j t) i - dotV a.m.length a.P.sh (fun j => Y 2 j t) i) ∧
    (∫ z in (0:ℝ)..1, C.horiz z * sin (a.m.getD i 0 * z) * (series G x.base.neig (fun j => a.m.getD j 0) (Y 1) z t - series G x.base.neig (fun j => a.m.getD j 0) (Y 2) z t))
      = x.base.dT * (dotV a.m.length a.P.ch (fun j => Y 1 j t) i - dotV a.m.length a.P.ch (fun j => Y 2 j t) i) := by
  obtain ⟨hl, hget, hd, hne, hsc⟩ := m_ok h.base hM.m
  obtain ⟨P, eP, hP⟩ := psis_ok h hd
  rw [hM.P] at eP
  injection eP with eP
  subst eP
  obtain ⟨kv, c, ekv, edT, hW⟩ := soil_cond h
  have hw : ∀ j, j < x.base.neig → sin (a.m.getD i 0) * cos (a.m.getD j 0) = 0 := fun j hj => hsc i j (by omega) hj
  have e1 := vflow_series h.base hW x.base.neig (fun j => a.m.getD j 0) (Y 0) i hw t
  have e2 := vflow_series h.base (W := colW C) h.col x.base.neig (fun j => a.m.getD j 0) (Y 1) i hw t
  have e3 := radialK_eq (G := G) (horiz_bdd h.base) x.base.neig (fun j => a.m.getD j 0) (Y 0) (Y 2) i t
  have e4 := radialK_eq (G := G) (colH_bdd h) x.base.neig (fun j => a.m.getD j 0) (Y 1) (Y 2) i t
  rw [← hl] at e1 e2 e3 e4 ⊢
  have key : ∀ (M N : ℕ → ℕ → ℝ) (k : ℝ) (f : ℕ → ℝ), (∀ j, j < a.m.length → N i j = k * M i j) →
      ∑ j ∈ Finset.range a.m.length, N i j * f j = k * dotV a.m.length M f i := fun M N k f hk => dot_scale (N := N) hk f
  refine ⟨e1.trans ?_, e2.trans ?_, e3.trans ?_, e4.trans ?_⟩
  · rw [key a.P.sv (fun i j => psiForm (wellG G (soilW G)) (a.m.getD i 0) (a.m.getD j 0)) (-x.base.dT) (fun j => Y 0 j t) (fun j hj => by
      have := (hP i j hi hj).1
      linarith)]
    ring
  · rw [key a.P.cv (fun i j => psiForm (wellG G (colW C)) (a.m.getD i 0) (a.m.getD j 0)) (-x.base.dT) (fun j => Y 1 j t) (fun j hj => by
      have := (hP i j hi hj).2.1
      linarith)]
    ring
  · rw [key a.P.sh (fun i j => radialK G.horiz (a.m.getD i 0) (a.m.getD j 0)) (x.base.dT) (fun j => Y 0 j t - Y 2 j t) (fun j hj =>
      (hP i j hi hj).2.2.1.symm)]
    congr 1
    unfold dotV
    rw [← Finset.sum_sub_distrib]
    exact Finset.sum_congr rfl fun j _ => by ring
  · rw [key a.P.ch (fun i j => radialK C.horiz (a.m.getD i 0) (a.m.getD j 0)) (x.base.dT) (fun j => Y 1 j t - Y 2 j t) (fun j hj =>
      (hP i j hi hj).2.2.2.symm)]
    congr 1
    unfold dotV
    rw [← Finset.sum_sub_distrib]
    exact Finset.sum_congr rfl fun j _ => by ring

/-- The three rows written out. -/
theorem rows (hM : a.Inv x) (A : ℕ → ℝ → ℝ) (i : ℕ) (hi : i < a.m.length) (t : ℝ) {Y : ℕ → ℕ → ℝ → ℝ} (hY : Y = vrcCoef x a G C A) :
    (1 - x.alp) * Y 0 i t + x.alp * Y 1 i t = A i t ∧
    dotV a.m.length a.P.sh (fun j => Y 0 j t) i - dotV a.m.length a.P.sv (fun j => Y 0 j t) i - dotV a.m.length a.P.ch (fun j => Y 1 j t) i
      + dotV a.m.length a.P.cv (fun j => Y 1 j t) i + dotV a.m.length a.P.ch (fun j => Y 2 j t) i - dotV a.m.length a.P.sh (fun j => Y 2 j t) i = rVec x a G C i t ∧
    dotV a.m.length a.P.sh (fun j => Y 0 j t) i - x.alp * dotV a.m.length a.P.sv (fun j => Y 0 j t) i + x.alp * dotV a.m.length a.P.cv (fun j => Y 1 j t) i
      - dotV a.m.length a.P.sh (fun j => Y 2 j t) i = x.alp * rVec x a G C i t := by
  subst hY
  have r0 := row_eq (G := G) (C := C) hM A (p := 0) (by omega) hi t
  have r1 := row_eq (G := G) (C := C) hM A (p := 1) (by omega) hi t
  have r2 := row_eq (G := G) (C := C) hM A (p := 2) (by omega) hi t
  refine ⟨?_, ?_, ?_⟩
  · have e1 : a.P.block x.alp 0 0 = fun i j => if i = j then 1 - x.alp else 0 := rfl
    have e2 : a.P.block x.alp 0 1 = fun i j => if i = j then x.alp else 0 := rfl
    have e3 : a.P.block x.alp 0 2 = fun i j => 0 := rfl
    rw [e1, e2, e3, dot_diag hi, dot_diag hi] at r0
    simpa [dotV] using r0
  · have e1 : a.P.block x.alp 1 0 = fun i j => a.P.sh i j + -1 * a.P.sv i j := by funext i j; simp [Psis.block]; ring
    have e2 : a.P.block x.alp 1 1 = fun i j => a.P.cv i j + -1 * a.P.ch i j := by funext i j; simp [Psis.block]; ring
    have e3 : a.P.block x.alp 1 2 = fun i j => a.P.ch i j + -1 * a.P.sh i j := by funext i j; simp [Psis.block]; ring
    rw [e1, e2, e3, dot_addM, dot_addM, dot_addM] at r1
    simp only [one_ne_zero, if_false, if_true, show (1:ℕ) ≠ 2 by omega, mul_zero, add_zero, zero_add] at r1
    linarith
  · have e1 : a.P.block x.alp 2 0 = fun i j => a.P.sh i j + -x.alp * a.P.sv i j := by funext i j; simp [Psis.block]; ring
    have e2 : dotV a.m.length (a.P.block x.alp 2 1) (fun j => vrcCoef x a G C A 1 j t) i = x.alp * dotV a.m.length a.P.cv (fun j => vrcCoef x a G C A 1 j t) i :=
      dot_scale (fun j _ => rfl) _
    have e3 : dotV a.m.length (a.P.block x.alp 2 2) (fun j => vrcCoef x a G C A 2 j t) i = -1 * dotV a.m.length a.P.sh (fun j => vrcCoef x a G C A 2 j t) i :=
      dot_scale (fun j _ => by simp [Psis.block]) _
    rw [e1, e2, e3, dot_addM] at r2
    simp only [show (2:ℕ) ≠ 0 by omega, show (2:ℕ) ≠ 1 by omega, if_false, if_true, add_zero, zero_add] at r2
    linarith

theorem coef_int (h : VRCInput x S s tend G C) {A : ℕ → ℝ → ℝ} (hA : ∀ j, IntervalIntegrable (A j) volume s tend) (k j : ℕ) {t : ℝ}
    (h1 : s ≤ t) (h2 : t ≤ tend) :
    IntervalIntegrable (vrcCoef x a G C A k j) volume s t ∧
    ∫ r in s..t, vrcCoef x a G C A k j r = dotV a.m.length (betBlk a.m.length a.bet k 0) (fun l => ∫ r in s..t, A l r) j
      - 1 / x.base.dT * (dotV a.m.length (betX a.m.length x.alp a.bet k) (fun l => wellQ G (soilW G) s (a.m.getD l 0) t) j
        - dotV a.m.length (betX a.m.length x.alp a.bet k) (fun l => wellQ G (colW C) s (a.m.getD l 0) t) j) := by
  obtain ⟨iT, iB⟩ := top_int h.base h1 h2
  have i1 := sum_int (n := a.m.length) (c := betBlk a.m.length a.bet k 0 j) (f := A) (p := s) (q := t) (fun l _ => int_sub (hA l) h1 h2)
  have iQ : ∀ (W : Well) l, IntervalIntegrable (fun r => Qt G W (a.m.getD l 0) r) volume s t := fun W l => (iT.const_mul _).add (iB.const_mul _)
  have eQ : ∀ (W : Well) l, ∫ r in s..t, Qt G W (a.m.getD l 0) r = wellQ G W s (a.m.getD l 0) t := by
    intro W l
    unfold Qt wellQ
    rw [intervalIntegral.integral_add (iT.const_mul _) (iB.const_mul _), intervalIntegral.integral_const_mul, intervalIntegral.integral_const_mul]
  have i2 : ∀ l, l < a.m.length → IntervalIntegrable (fun r => rVec x a G C l r) volume s t := fun l _ => ((iQ (soilW G) l).sub (iQ (colW C) l)).const_mul _
  have e2 : ∀ l, ∫ r in s..t, rVec x a G C l r = -(1 / x.base.dT) * (wellQ G (soilW G) s (a.m.getD l 0) t - wellQ G (colW C) s (a.m.getD l 0) t) := by
    intro l
    unfold rVec
    rw [intervalIntegral.integral_const_mul, intervalIntegral.integral_sub (iQ (soilW G) l) (iQ (colW C) l), eQ, eQ]
  have i3 := sum_int (n := a.m.length) (c := betX a.m.length x.alp a.bet k j) (f := rVec x a G C) (p := s) (q := t) i2
  refine ⟨i1.1.add i3.1, ?_⟩
  refine (intervalIntegral.integral_add i1.1 i3.1).trans ?_
  rw [i1.2, i3.2]
  simp only [e2]
  unfold dotV
  rw [sub_eq_add_neg, ← Finset.sum_sub_distrib, Finset.mul_sum, ← Finset.sum_neg_distrib]
  congr 1
  exact Finset.sum_congr rfl fun l _ => by ring

theorem dot_matMul_left (n : ℕ) (P M N : ℕ → ℕ → ℝ) (k : ℝ) (f g : ℕ → ℝ) (i : ℕ) :
    dotV n P (fun j => dotV n M f j - k * dotV n N g j) i = dotV n (matMul n P M) f i - k * dotV n (matMul n P N) g i := by
  rw [dot_matMul, dot_matMul]
  unfold dotV
  rw [Finset.mul_sum, ← Finset.sum_sub_distrib]
  exact Finset.sum_congr rfl fun j _ => by ring

/-- What the program gets wrong in the equation of the section: `2 G - 1` times the boundary flow of the column. -/
noncomputable def vrcError (x : VRC) (a : VRCArrays) (G : Ground) (C : Column) (s : ℝ) (i : ℕ) (t : ℝ) : ℝ :=
  2 * dotV a.m.length (a.P.G x.alp a.m.length a.bet) (fun l => wellQ G (colW C) s (a.m.getD l 0) t) i - wellQ G (colW C) s (a.m.getD i 0) t

theorem section_residual (h : VRCInput x S s tend G C) (hM : a.Made x) {A : ℕ → ℝ → ℝ} (hA : ∀ j, IntervalIntegrable (A j) volume s tend)
    {g p : ℕ → ℕ → ℝ} (hg : ∀ i j, i < a.m.length → j < a.m.length → g i j = gamma G (a.m.getD i 0) (a.m.getD j 0))
    (hp : p = fun i j => ((1 - x.alp) * matMul a.m.length a.P.sv (betBlk a.m.length a.bet 0 0) i j + x.alp * matMul a.m.length a.P.cv (betBlk a.m.length a.bet 1 0) i j) * (-1))
    (hsol : ∀ i, i < a.m.length → ∀ t, s ≤ t → t ≤ tend →
        (∑ j ∈ Finset.range a.m.length, chop g i j * A j t) + x.base.dT * (∑ j ∈ Finset.range a.m.length, chop p i j * ∫ r in s..t, A j r) =
          rhs (wellG G ⟨fun _ => 0, 0⟩) s (a.m.getD i 0) t
      - dotV a.m.length (a.P.oneG x.alp a.m.length a.bet) (fun l => wellQ G (soilW G) s (a.m.getD l 0) t + wellQ G (colW C) s (a.m.getD l 0) t) i)
    (i : ℕ) (hi : i < a.m.length) (t : ℝ) (h1 : s ≤ t) (h2 : t ≤ tend) {Y : ℕ → ℕ → ℝ → ℝ} (hY : Y = vrcCoef x a G C A) :
    C.residual x.alp G s (series G x.base.neig (fun j => a.m.getD j 0) A) (seriesZ G x.base.neig (fun j => a.m.getD j 0) (Y 0))
      (seriesZ G x.base.neig (fun j => a.m.getD j 0) (Y 1)) (fun z => sin (a.m.getD i 0 * z))
      (fun z => a.m.getD i 0 * cos (a.m.getD i 0 * z)) t =
    (∑ j ∈ Finset.range a.m.length, (g i j - chop g i j) * A j t) +
      x.base.dT * (∑ j ∈ Finset.range a.m.length, (p i j - chop p i j) * ∫ r in s..t, A j r) + vrcError x a G C s i t := by
  obtain ⟨hl, hget, hd, hne, hsc⟩ := m_ok h.base hM.m
  have hdT := h.base.dT
  have hw : ∀ j, j < x.base.neig → sin (a.m.getD i 0) * cos (a.m.getD j 0) = 0 := fun j hj => hsc i j (by omega) hj
  -- stored water
  have e := residual_eq (bare_input h.base) x.base.neig (fun j => a.m.getD j 0) A (fun j _ => hA j) i hw t h1 h2
  have f0 : ∀ r, (wellG G ⟨fun _ => 0, 0⟩).flow (series (wellG G ⟨fun _ => 0, 0⟩) x.base.neig (fun j => a.m.getD j 0) A)
      (seriesZ (wellG G ⟨fun _ => 0, 0⟩) x.base.neig (fun j => a.m.getD j 0) A) (fun z => sin (a.m.getD i 0 * z)) (fun z => a.m.getD i 0 * cos (a.m.getD i 0 * z)) r = 0 := by
    intro r; simp [Ground.flow, wellG, soilG]
  have f1 : ∀ j, psiForm (wellG G ⟨fun _ => 0, 0⟩) (a.m.getD i 0) (a.m.getD j 0) = 0 := by intro j; simp [psiForm_well]
  unfold Ground.residual at e
  simp only [f0, f1, zero_mul, Finset.sum_const_zero, add_zero, intervalIntegral.integral_zero] at e
  have e' : ∫ z in (0:ℝ)..1, G.mv z * sin (a.m.getD i 0 * z) * ((series G x.base.neig (fun j => a.m.getD j 0) A z t - G.surcharge z t) - (G.initial z - G.surcharge0 z))
      = (∑ j ∈ Finset.range x.base.neig, gamma G (a.m.getD i 0) (a.m.getD j 0) * A j t) - rhs (wellG G ⟨fun _ => 0, 0⟩) s (a.m.getD i 0) t := e
  -- flow out of the section
  have fl : ∀ r, C.sectionOut x.alp G (seriesZ G x.base.neig (fun j => a.m.getD j 0) (Y 0)) (seriesZ G x.base.neig (fun j => a.m.getD j 0) (Y 1))
      (fun z => sin (a.m.getD i 0 * z)) (fun z => a.m.getD i 0 * cos (a.m.getD i 0 * z)) r =
      ((∑ j ∈ Finset.range a.m.length, (-((1 - x.alp) * x.base.dT) * a.P.sv i j) * Y 0 j r) + (∑ j ∈ Finset.range a.m.length, (-(x.alp * x.base.dT) * a.P.cv i j) * Y 1 j r))
        + ((1 - x.alp) * Qt G (soilW G) (a.m.getD i 0) r + x.alp * Qt G (colW C) (a.m.getD i 0) r) := by
    intro r
    obtain ⟨q1, q2, _, _⟩ := flows h hM A i hi r Y
    unfold Column.sectionOut
    rw [q1, q2]
    unfold dotV
    simp only [mul_assoc, ← Finset.mul_sum]
    ring
  have iY : ∀ k j, j < a.m.length → IntervalIntegrable (Y k j) volume s t := fun k j _ => by rw [hY]; exact (coef_int h hA k j h1 h2).1
  have s0 := sum_int (n := a.m.length) (c := fun j => -((1 - x.alp) * x.base.dT) * a.P.sv i j) (iY 0)
  have s1 := sum_int (n := a.m.length) (c := fun j => -(x.alp * x.base.dT) * a.P.cv i j) (iY 1)
  obtain ⟨iT, iB⟩ := top_int h.base h1 h2
  have iQ : ∀ (W : Well) l, IntervalIntegrable (fun r => Qt G W (a.m.getD l 0) r) volume s t := fun W l => (iT.const_mul _).add (iB.const_mul _)
  have eQ : ∀ (W : Well) l, ∫ r in s..t, Qt G W (a.m.getD l 0) r = wellQ G W s (a.m.getD l 0) t := by
    intro W l
    unfold Qt wellQ
    rw [intervalIntegral.integral_add (iT.const_mul _) (iB.const_mul _), intervalIntegral.integral_const_mul, intervalIntegral.integral_const_mul]
  have q0 := (iQ (soilW G) i).const_mul (1 - x.alp)
  have q1 := (iQ (colW C) i).const_mul x.alp
  unfold Column.residual
  simp only [fl]
  rw [e', intervalIntegral.integral_add (s0.1.add s1.1) (q0.add q1), intervalIntegral.integral_add s0.1 s1.1, intervalIntegral.integral_add q0 q1,
    intervalIntegral.integral_const_mul, intervalIntegral.integral_const_mul, eQ, eQ, s0.2, s1.2, ← hl, eq_add_of_sub_eq (hsol i hi t h1 h2).symm]
  have c0 := fun j => (coef_int (a := a) (C := C) h hA 0 j h1 h2).2
  simp only [← hY] at c0
  have c1 := fun j => (coef_int (a := a) (C := C) h hA 1 j h1 h2).2
  simp only [← hY] at c1
  set IA : ℕ → ℝ := fun j => ∫ r in s..t, A j r with hIA
  set qs : ℕ → ℝ := fun l => wellQ G (soilW G) s (a.m.getD l 0) t with hqs
  set qc : ℕ → ℝ := fun l => wellQ G (colW C) s (a.m.getD l 0) t with hqc
  have dm : ∀ (M : ℕ → ℕ → ℝ) k j, dotV a.m.length (betX a.m.length x.alp a.bet k) qs j - dotV a.m.length (betX a.m.length x.alp a.bet k) qc j =
      dotV a.m.length (betX a.m.length x.alp a.bet k) (fun l => qs l - qc l) j := by
    intro M k j
    unfold dotV
    rw [← Finset.sum_sub_distrib]
    exact Finset.sum_congr rfl fun l _ => by ring
  have d0 : ∀ (N : ℕ → ℕ → ℝ) k (κ : ℝ), ∑ j ∈ Finset.range a.m.length, κ * N i j * (dotV a.m.length (betBlk a.m.length a.bet k 0) IA j
      - 1 / x.base.dT * (dotV a.m.length (betX a.m.length x.alp a.bet k) qs j - dotV a.m.length (betX a.m.length x.alp a.bet k) qc j)) =
      κ * (dotV a.m.length (matMul a.m.length N (betBlk a.m.length a.bet k 0)) IA i
        - 1 / x.base.dT * dotV a.m.length (matMul a.m.length N (betX a.m.length x.alp a.bet k)) (fun l => qs l - qc l) i) := by
    intro N k κ
    simp only [dm N]
    rw [← dot_matMul_left]
    unfold dotV
    rw [Finset.mul_sum]
    exact Finset.sum_congr rfl fun l _ => by ring
  simp only [c0, c1]
  rw [d0 a.P.sv 0, d0 a.P.cv 1]
  have e1 : ∑ j ∈ Finset.range a.m.length, gamma G (a.m.getD i 0) (a.m.getD j 0) * A j t = ∑ j ∈ Finset.range a.m.length, g i j * A j t :=
    Finset.sum_congr rfl (fun j hj => by rw [hg i j hi (Finset.mem_range.1 hj)])
  have e2 : ∑ j ∈ Finset.range a.m.length, p i j * IA j = -((1 - x.alp) * dotV a.m.length (matMul a.m.length a.P.sv (betBlk a.m.length a.bet 0 0)) IA i
      + x.alp * dotV a.m.length (matMul a.m.length a.P.cv (betBlk a.m.length a.bet 1 0)) IA i) := by
    rw [hp]
    unfold dotV
    simp only [Finset.mul_sum]
    rw [← Finset.sum_add_distrib, ← Finset.sum_neg_distrib]
    exact Finset.sum_congr rfl fun l _ => by ring
  have eG : ∀ f : ℕ → ℝ, dotV a.m.length (a.P.G x.alp a.m.length a.bet) f i = x.alp * f i
      - (1 - x.alp) * dotV a.m.length (matMul a.m.length a.P.sv (betX a.m.length x.alp a.bet 0)) f i
      - x.alp * dotV a.m.length (matMul a.m.length a.P.cv (betX a.m.length x.alp a.bet 1)) f i := by
    intro f
    rw [← dot_diag hi]
    unfold dotV Psis.G
    simp only [Finset.mul_sum]
    rw [← Finset.sum_sub_distrib, ← Finset.sum_sub_distrib]
    exact Finset.sum_congr rfl fun l _ => by ring
  have eO : ∀ f : ℕ → ℝ, dotV a.m.length (a.P.oneG x.alp a.m.length a.bet) f i = f i - dotV a.m.length (a.P.G x.alp a.m.length a.bet) f i := by
    intro f
    have := dot_diag hi 1 f
    rw [one_mul] at this
    conv_rhs => rw [← this]
    unfold dotV Psis.oneG
    rw [← Finset.sum_sub_distrib]
    exact Finset.sum_congr rfl fun l _ => by ring
  have dS : ∀ M : ℕ → ℕ → ℝ, dotV a.m.length M (fun l => qs l - qc l) i = dotV a.m.length M qs i - dotV a.m.length M qc i := by
    intro M
    unfold dotV
    rw [← Finset.sum_sub_distrib]
    exact Finset.sum_congr rfl fun l _ => by ring
  have e4 : wellQ G (soilW G) s (a.m.getD i 0) t = qs i := rfl
  have e5 : wellQ G (colW C) s (a.m.getD i 0) t = qc i := rfl
  have e6 : vrcError x a G C s i t = 2 * dotV a.m.length (a.P.G x.alp a.m.length a.bet) qc i - qc i := rfl
  have e7 : dotV a.m.length (a.P.oneG x.alp a.m.length a.bet) (fun l => wellQ G (soilW G) s (a.m.getD l 0) t + wellQ G (colW C) s (a.m.getD l 0) t) i =
      dotV a.m.length (a.P.oneG x.alp a.m.length a.bet) (fun l => qs l + qc l) i := rfl
  have k3 : ∀ c u v : ℝ, -(c * x.base.dT) * (u - 1 / x.base.dT * v) = -(c * x.base.dT * u) + c * v := fun c u v => by field_simp; ring
  have s1 : ∀ (f : ℕ → ℝ) (u v : ℕ → ℕ → ℝ), ∑ j ∈ Finset.range a.m.length, (u i j - v i j) * f j =
      (∑ j ∈ Finset.range a.m.length, u i j * f j) - ∑ j ∈ Finset.range a.m.length, v i j * f j := by
    intro f u v
    rw [← Finset.sum_sub_distrib]
    exact Finset.sum_congr rfl fun l _ => by ring
  rw [k3, k3, e7, e1, e4, e5, e6, dS, dS, eO, dot_add, eG, eG, s1 (fun j => A j t), s1 IA, e2]
  have e8 : ∑ j ∈ Finset.range a.m.length, chop p i j * ∫ (r : ℝ) in s..t, A j r = ∑ j ∈ Finset.range a.m.length, chop p i j * IA j := rfl
  rw [e8]
  ring

/-- Everything known of one run: the coefficients of the average pressure, and the residual of the section. -/
theorem vrc_core (h : VRCInput x S s tend G C) (hM : a.Made x) (h0 : ∀ i, i < a.m.length → a.eigs i ≠ 0) :
    ∃ A : ℕ → ℝ → ℝ, (∀ t, s ≤ t → t ≤ tend → ∃ c, x.column a t = .ok c ∧ ∀ j, c j = A j t) ∧
      ∀ i, i < a.m.length → ∀ t, s ≤ t → t ≤ tend →
        |C.residual x.alp G s (series G x.base.neig (fun j => a.m.getD j 0) A) (seriesZ G x.base.neig (fun j => a.m.getD j 0) (vrcCoef x a G C A 0))
          (seriesZ G x.base.neig (fun j => a.m.getD j 0) (vrcCoef x a G C A 1)) (fun z => sin (a.m.getD i 0 * z))
          (fun z => a.m.getD i 0 * cos (a.m.getD i 0 * z)) t - vrcError x a G C s i t| ≤
        1 / 100000000 * ((∑ j ∈ Finset.range x.base.neig, |A j t|) + |x.base.dT| * ∑ j ∈ Finset.range x.base.neig, |∫ r in s..t, A j r|) := by
  obtain ⟨hl, hget, hd, hne, hsc⟩ := m_ok h.base hM.m
  obtain ⟨g, eg, hge⟩ := gam_ok h.base hd
  obtain ⟨gam, f1, hE⟩ := hM.eig
  rw [f1] at eg
  injection eg with eg
  subst eg
  have hB : ∀ i, i < (x.base.basis a.m a.eigs a.Igamv).m.length → (x.base.basis a.m a.eigs a.Igamv).dT * (x.base.basis a.m a.eigs a.Igamv).eigs i ≠ 0 :=
    fun i hi => mul_ne_zero h.base.dT (h0 i hi)
  obtain ⟨A, hA, hc, hsol⟩ := coeffs_of (E_vrc h a hB hne) hE
  refine ⟨A, fun t h1 h2 => hc t h1 h2, fun i hi t h1 h2 => ?_⟩
  obtain ⟨p, hp⟩ : ∃ p : ℕ → ℕ → ℝ, p = fun i j => ((1 - x.alp) * matMul a.m.length a.P.sv (betBlk a.m.length a.bet 0 0) i j
    + x.alp * matMul a.m.length a.P.cv (betBlk a.m.length a.bet 1 0) i j) * (-1) := ⟨_, rfl⟩
  have e := section_residual h hM hA hge hp (by rw [hp]; exact hsol) i hi t h1 h2 rfl
  rw [e, add_sub_cancel_right]
  rw [hl]
  refine (abs_add_le _ _).trans ?_
  rw [abs_mul, mul_add]
  refine add_le_add ?_ ?_
  · rw [Finset.mul_sum]
    refine (Finset.abs_sum_le_sum_abs _ _).trans (Finset.sum_le_sum (fun j _ => ?_))
    rw [abs_mul]
    exact mul_le_mul_of_nonneg_right (chop_near g i j) (abs_nonneg _)
  · rw [mul_left_comm]
    refine mul_le_mul_of_nonneg_left ?_ (abs_nonneg _)
    rw [Finset.mul_sum]
    refine (Finset.abs_sum_le_sum_abs _ _).trans (Finset.sum_le_sum (fun j _ => ?_))
    rw [abs_mul]
    exact mul_le_mul_of_nonneg_right (chop_near p i j) (abs_nonneg _)

/-- The rows as balances: what leaves the soil, what leaves the column and what leaves the section are the same. -/
theorem vrc_balances (h : VRCInput x S s tend G C) (hM : a.Made x) (A : ℕ → ℝ → ℝ) {i : ℕ} (hi : i < a.m.length) (t : ℝ) {Y : ℕ → ℕ → ℝ → ℝ}
    (hY : Y = vrcCoef x a G C A) {S0 S1 S2 Z0 Z1 : ℝ → ℝ → ℝ} (e0 : S0 = series G x.base.neig (fun j => a.m.getD j 0) (Y 0))
    (e1 : S1 = series G x.base.neig (fun j => a.m.getD j 0) (Y 1)) (e2 : S2 = series G x.base.neig (fun j => a.m.getD j 0) (Y 2))
    (z0 : Z0 = seriesZ G x.base.neig (fun j => a.m.getD j 0) (Y 0)) (z1 : Z1 = seriesZ G x.base.neig (fun j => a.m.getD j 0) (Y 1)) :
    Column.soilOut G S0 Z0 S2 (fun z => sin (a.m.getD i 0 * z)) (fun z => a.m.getD i 0 * cos (a.m.getD i 0 * z)) t =
      C.columnOut S1 Z1 S2 (fun z => sin (a.m.getD i 0 * z)) (fun z => a.m.getD i 0 * cos (a.m.getD i 0 * z)) t ∧
    Column.soilOut G S0 Z0 S2 (fun z => sin (a.m.getD i 0 * z)) (fun z => a.m.getD i 0 * cos (a.m.getD i 0 * z)) t =
      C.sectionOut x.alp G Z0 Z1 (fun z => sin (a.m.getD i 0 * z)) (fun z => a.m.getD i 0 * cos (a.m.getD i 0 * z)) t := by
  subst e0 e1 e2 z0 z1
  obtain ⟨q1, q2, q3, q4⟩ := flows h hM A i hi t Y
  obtain ⟨r0, r1, r2⟩ := rows (G := G) (C := C) hM.inv A i hi t hY
  unfold Column.soilOut Column.columnOut Column.sectionOut
  rw [q1, q2, q3, q4]
  have hd := h.base.dT
  have k : x.base.dT * rVec x a G C i t = -(Qt G (soilW G) (a.m.getD i 0) t - Qt G (colW C) (a.m.getD i 0) t) := by
    unfold rVec; field_simp
  constructor
  · linear_combination x.base.dT * r1 + k
  · linear_combination x.base.dT * r2 + x.alp * k

/-- The pore pressure computed by the program together with a soil pressure, a column pressure and an interface pressure of the same form:
the three have the same boundary values; the first is their average; as much water leaves the soil as leaves the column and as leaves the
section, exactly; and the water stored and the water that left the section balance up to the matrix entries below 1e-8 that the program sets
to zero and up to `vrcError`, which comes from the factor `1 - G` that the program applies to the boundary flow of the column in
place of `G`. -/
theorem C90_error (h : VRCInput x S s tend G C) (hM : a.Made x) (h0 : ∀ i, i < a.m.length → a.eigs i ≠ 0) :
    ∃ (A As Ac Ab : ℕ → ℝ → ℝ) (u us usz uc ucz beta : ℝ → ℝ → ℝ),
      (∀ z t, 0 ≤ z → z ≤ 1 → s ≤ t → t ≤ tend → x.por a z t = .ok (u z t)) ∧
      (∀ z t, HasDerivAt (fun z => us z t) (usz z t) z ∧ HasDerivAt (fun z => uc z t) (ucz z t) z) ∧
      (∀ p ∈ [(u, A), (us, As), (uc, Ac), (beta, Ab)], ∀ z t, p.1 z t =
        (∑ j ∈ Finset.range x.base.neig, p.2 j t * sin (π * ((j:ℝ) + 1 - G.drn / 2) * z)) + (1 - (1 - G.drn) * z) * G.top t + z * G.bot t) ∧
      (∀ t, us 0 t = G.top t ∧ (G.drn = 0 → us 1 t = G.bot t) ∧ (G.drn = 1 → usz 1 t = G.bot t)) ∧
      (∀ t, uc 0 t = G.top t ∧ (G.drn = 0 → uc 1 t = G.bot t) ∧ (G.drn = 1 → ucz 1 t = G.bot t)) ∧
      (∀ z t, u z t = (1 - 1 / x.n ^ 2) * us z t + 1 / x.n ^ 2 * uc z t) ∧
      (∀ i, i < x.base.neig → ∀ t f, f = π * ((i:ℝ) + 1 - G.drn / 2) →
        Column.soilOut G us usz beta (fun z => sin (f * z)) (fun z => f * cos (f * z)) t =
          C.columnOut uc ucz beta (fun z => sin (f * z)) (fun z => f * cos (f * z)) t ∧
        Column.soilOut G us usz beta (fun z => sin (f * z)) (fun z => f * cos (f * z)) t =
          C.sectionOut (1 / x.n ^ 2) G usz ucz (fun z => sin (f * z)) (fun z => f * cos (f * z)) t) ∧
      ∀ i, i < x.base.neig → ∀ t, s ≤ t → t ≤ tend → ∀ f, f = π * ((i:ℝ) + 1 - G.drn / 2) →
        |C.residual (1 / x.n ^ 2) G s u usz ucz (fun z => sin (f * z)) (fun z => f * cos (f * z)) t - vrcError x a G C s i t| ≤
        1 / 100000000 * ((∑ j ∈ Finset.range x.base.neig, |A j t|) + |x.base.dT| * ∑ j ∈ Finset.range x.base.neig, |∫ r in s..t, A j r|) := by
  obtain ⟨hl, hget, hd, hne, hsc⟩ := m_ok h.base hM.m
  obtain ⟨A, hc, hres⟩ := vrc_core h hM h0
  refine ⟨A, vrcCoef x a G C A 0, vrcCoef x a G C A 1, vrcCoef x a G C A 2, series G x.base.neig (fun j => a.m.getD j 0) A,
    series G x.base.neig (fun j => a.m.getD j 0) (vrcCoef x a G C A 0), seriesZ G x.base.neig (fun j => a.m.getD j 0) (vrcCoef x a G C A 0),
    series G x.base.neig (fun j => a.m.getD j 0) (vrcCoef x a G C A 1), seriesZ G x.base.neig (fun j => a.m.getD j 0) (vrcCoef x a G C A 1),
    series G x.base.neig (fun j => a.m.getD j 0) (vrcCoef x a G C A 2), ?_, fun z t => ⟨series_deriv _ _ _ _ _ _, series_deriv _ _ _ _ _ _⟩, ?_,
    series_bc h.base hM.m _, series_bc h.base hM.m _, ?_, ?_, ?_⟩
  · intro z t hz0 hz1 h1 h2
    obtain ⟨c, e', ec⟩ := hc t h1 h2
    obtain ⟨bot, tops, bots, e0, _⟩ := normBot_ok h.base
    unfold VRC.por
    simp only [e', e0, Bind.bind, Except.bind]
    exact dim1sinF_series h.base hM.m e0 h1 h2 (fun j _ => ec j) z hz0 hz1
  · intro p hp z t
    simp only [List.mem_cons, List.not_mem_nil, or_false] at hp
    rcases hp with rfl | rfl | rfl | rfl <;> exact series_sines h.base hM.m _ z t
  · intro z t
    have e : 1 / x.n ^ 2 = x.alp := rfl
    rw [e]
    unfold series
    have : ∑ j ∈ Finset.range x.base.neig, A j t * sin (a.m.getD j 0 * z) = (1 - x.alp) * (∑ j ∈ Finset.range x.base.neig, vrcCoef x a G C A 0 j t * sin (a.m.getD j 0 * z))
        + x.alp * ∑ j ∈ Finset.range x.base.neig, vrcCoef x a G C A 1 j t * sin (a.m.getD j 0 * z) := by
      rw [Finset.mul_sum, Finset.mul_sum, ← Finset.sum_add_distrib]
      refine Finset.sum_congr rfl fun j hj => ?_
      rw [← (rows (G := G) (C := C) hM.inv A j (by rw [hl]; exact Finset.mem_range.1 hj) t rfl).1]
      ring
    rw [this]
    ring
  · rintro i hi t f rfl
    rw [← hget i hi]
    exact vrc_balances h hM A (by omega) t rfl rfl rfl rfl rfl rfl
  · rintro i hi t h1 h2 f rfl
    rw [← hget i hi]
    exact hres i (by omega) t h1 h2

/-- Under one of these conditions the boundary values cause no flow in the column. -/
def VRC.NoBoundaryFlow (x : VRC) (C : Column) : Prop :=
  (x.base.top = none ∧ x.base.bot = none) ∨ ∀ z, 0 < z → z < 1 → C.cond z = C.condEnd

theorem Qt_zero (h : VRCInput x S s tend G C) (hF : x.NoBoundaryFlow C) (w t : ℝ) (hw : w ≠ 0) :
    Qt G (colW C) w t = 0 ∧ wellQ G (colW C) s w t = 0 := by
  rcases hF with ⟨h1, h2⟩ | hF
  · obtain ⟨bot, tops, bots, e0, hb, ht1, ht2, hb1, hb2, hn⟩ := normBot_ok h.base
    have t1 : tops = [] := by
      have := hb.top
      simpa [VR.boundary, h1, Loads] using this
    have t2 : bots = [] := by
      have := hb.bot
      simpa [VR.boundary, hn h2, Loads] using this
    subst t1 t2
    have g1 : ∀ t, G.top t = 0 := fun t => by rw [← ht1]; simp [total]
    have g2 : ∀ t, G.bot t = 0 := fun t => by rw [← hb1]; simp [total]
    simp [Qt, wellQ, g1, g2]
  · have e : ∀ d : ℝ, ∫ z in (0:ℝ)..1, C.cond z * (w * cos (w * z)) * d = C.condEnd * sin (w * 1) * d := by
      intro d
      have e1 : ∫ z in (0:ℝ)..1, C.cond z * (w * cos (w * z)) * d = ∫ z in (0:ℝ)..1, C.condEnd * d * (cos (w * z) * w) := by
        refine intervalIntegral.integral_congr_ae ?_
        have : ∀ᵐ z : ℝ, z ≠ 1 := by simp [ae_iff, measure_singleton]
        filter_upwards [this] with z hz hm
        rw [Set.uIoc_of_le zero_le_one] at hm
        rw [hF z hm.1 (lt_of_le_of_ne hm.2 hz)]
        ring
      rw [e1, intervalIntegral.integral_const_mul]
      have : ∫ z in (0:ℝ)..1, cos (w * z) * w = sin (w * 1) - sin (w * 0) := by
        have hc : Continuous fun z => cos (w * z) * w := by fun_prop
        refine integral_eq_sub_of_hasDerivAt (f := fun z => sin (w * z)) (fun z _ => ?_) (hc.intervalIntegrable _ _)
        have := ((hasDerivAt_id z).const_mul w).sin
        simpa using this
      rw [this]
      simp
      ring
    have c1 : cTop (wellG G (colW C)) w = 0 := by
      have := e (G.drn - 1)
      simp only [cTop, wellG, soilG, colW, zero_mul, intervalIntegral.integral_zero, List.map_nil, List.sum_nil, add_zero]
      rw [this]; ring
    have c2 : cBot (wellG G (colW C)) w = 0 := by
      have := e 1
      simp only [cBot, wellG, soilG, colW, zero_mul, intervalIntegral.integral_zero, List.map_nil, List.sum_nil, add_zero]
      rw [this]; ring
    simp [Qt, wellQ, c1, c2]

/-- Without boundary loads, or if the permeability of the column does not vary with depth, the equations of soil, column and section are satisfied
(the last one up to the matrix entries below 1e-8 that the program sets to zero).  (Not proved, because not true, for boundary loads
and a column whose permeability varies: see `C90_error`.) -/
theorem C90_weak_form_partial (h : VRCInput x S s tend G C) (hM : a.Made x) (h0 : ∀ i, i < a.m.length → a.eigs i ≠ 0)
    (hF : (x.base.top = none ∧ x.base.bot = none) ∨ ∀ z, 0 < z → z < 1 → C.cond z = C.condEnd) :
    ∃ (A As Ac Ab : ℕ → ℝ → ℝ) (u us usz uc ucz beta : ℝ → ℝ → ℝ),
      (∀ z t, 0 ≤ z → z ≤ 1 → s ≤ t → t ≤ tend → x.por a z t = .ok (u z t)) ∧
      (∀ z t, HasDerivAt (fun z => us z t) (usz z t) z ∧ HasDerivAt (fun z => uc z t) (ucz z t) z) ∧
      (∀ p ∈ [(u, A), (us, As), (uc, Ac), (beta, Ab)], ∀ z t, p.1 z t =
        (∑ j ∈ Finset.range x.base.neig, p.2 j t * sin (π * ((j:ℝ) + 1 - G.drn / 2) * z)) + (1 - (1 - G.drn) * z) * G.top t + z * G.bot t) ∧
      (∀ t, us 0 t = G.top t ∧ (G.drn = 0 → us 1 t = G.bot t) ∧ (G.drn = 1 → usz 1 t = G.bot t)) ∧
      (∀ t, uc 0 t = G.top t ∧ (G.drn = 0 → uc 1 t = G.bot t) ∧ (G.drn = 1 → ucz 1 t = G.bot t)) ∧
      (∀ z t, u z t = (1 - 1 / x.n ^ 2) * us z t + 1 / x.n ^ 2 * uc z t) ∧
      (∀ i, i < x.base.neig → ∀ t f, f = π * ((i:ℝ) + 1 - G.drn / 2) →
        Column.soilOut G us usz beta (fun z => sin (f * z)) (fun z => f * cos (f * z)) t =
          C.columnOut uc ucz beta (fun z => sin (f * z)) (fun z => f * cos (f * z)) t ∧
        Column.soilOut G us usz beta (fun z => sin (f * z)) (fun z => f * cos (f * z)) t =
          C.sectionOut (1 / x.n ^ 2) G usz ucz (fun z => sin (f * z)) (fun z => f * cos (f * z)) t) ∧
      ∀ i, i < x.base.neig → ∀ t, s ≤ t → t ≤ tend → ∀ f, f = π * ((i:ℝ) + 1 - G.drn / 2) →
        |C.residual (1 / x.n ^ 2) G s u usz ucz (fun z => sin (f * z)) (fun z => f * cos (f * z)) t| ≤
        1 / 100000000 * ((∑ j ∈ Finset.range x.base.neig, |A j t|) + |x.base.dT| * ∑ j ∈ Finset.range x.base.neig, |∫ r in s..t, A j r|) := by
  obtain ⟨hl, hget, hd, hne, hsc⟩ := m_ok h.base hM.m
  obtain ⟨A, As, Ac, Ab, u, us, usz, uc, ucz, beta, p1, p2, p3, p4, p5, p6, p7, p8⟩ := C90_error h hM h0
  refine ⟨A, As, Ac, Ab, u, us, usz, uc, ucz, beta, p1, p2, p3, p4, p5, p6, p7, fun i hi t h1 h2 f hf => ?_⟩
  have hz : ∀ l, l < a.m.length → wellQ G (colW C) s (a.m.getD l 0) t = 0 := fun l hl' =>
    (Qt_zero h hF _ t (hne _ (by
      rw [List.getD_eq_getElem?_getD, List.getElem?_eq_getElem hl']; exact List.getElem_mem hl'))).2
  have e : vrcError x a G C s i t = 0 := by
    unfold vrcError dotV
    rw [Finset.sum_eq_zero (fun l hl' => by dsimp only; rw [hz l (Finset.mem_range.1 hl'), mul_zero]), hz i (by omega)]
    ring
  have := p8 i hi t h1 h2 f hf
  rw [e, sub_zero] at this
  exact this

/-- Average pore pressure and settlement agree with the pore pressure of the same run. -/
theorem C91_outputs_agree (h : VRCInput x S s tend G C) (hM : a.Made x) (h0 : ∀ i, i < a.m.length → a.eigs i ≠ 0) (z1 z2 t : ℝ) (hz0 : 0 ≤ z1)
    (hz : z1 < z2) (hz1 : z2 ≤ 1) (ht0 : s ≤ t) (ht1 : t ≤ tend)
    (hlen : ∀ l d, x.base.surchargeTime = some l → x.base.surchargeDepth = some d → d.length = l.length ∧ OmLen l x.base.surchargeOm)
    (hnone : x.base.surchargeDepth = none → x.base.surchargeTime = none) :
    ∃ (u : ℝ → ℝ) (b : ℝ), (∀ z, 0 ≤ z → z ≤ 1 → x.por a z t = .ok (u z)) ∧
      x.avp a z1 z2 t = .ok b ∧ b * (z2 - z1) = (∫ z in z1..z2, u z) ∧
      x.settle a z1 z2 t = .ok (x.base.H * x.base.mvref * ∫ z in z1..z2, G.mv z * (G.surcharge z t - u z)) := by
  obtain ⟨A, hc, hres⟩ := vrc_core h hM h0
  obtain ⟨c, e', ec⟩ := hc t ht0 ht1
  obtain ⟨bot, _, _, e0, _⟩ := normBot_ok h.base
  obtain ⟨u, b, w, l, r1, r2, r3, r4, r5, r6⟩ := outputs_of h.base a.m hM.m c e0 z1 z2 t hz0 hz hz1 ht0 ht1 hlen hnone
  refine ⟨u, b, fun z h1 h2 => ?_, ?_, r3, ?_⟩
  · unfold VRC.por
    simp only [e', e0, Bind.bind, Except.bind]
    exact r1 z h1 h2
  · unfold VRC.avp
    simp only [e', e0, Bind.bind, Except.bind]
    exact r2
  · unfold VRC.settle
    simp only [e', e0, r4, r5, Bind.bind, Except.bind, pure, Except.pure]
    rw [r6]

end Geotecha.Speccon
