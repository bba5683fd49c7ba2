import Verif.Speccon.UnsatSystem

/-!
# The series of speccon1d_unsat inserted into the weak form (helpers for C94)
-/

set_option linter.unusedVariables false
open Real intervalIntegral MeasureTheory Filter Topology
namespace Geotecha.Speccon
open Geotecha.Spec Geotecha.Piecewise

variable {x : UnsatIn} {S : Set ℝ} {s tend : ℝ} {U : Unsat} {a : UnsatArrays}

noncomputable def gm (f : ℝ → ℝ) (w w' : ℝ) : ℝ := ∫ z in (0:ℝ)..1, f z * sin (w * z) * sin (w' * z)

/-- The problem of one phase, whose series is used. -/
noncomputable abbrev phG (U : Unsat) (F : Fluid) : Ground := auxG U F (fun _ => 0)

theorem unsat_m (h : UnsatInput x S s tend U) {m : List ℝ} (hm : x.m = .ok m) :
    m.length = x.neig ∧ (∀ j, j < x.neig → m.getD j 0 = π * ((j:ℝ) + 1 - U.drn / 2)) ∧ DistinctAbs m ∧ (∀ v ∈ m, v ≠ 0) ∧
    ∀ i j, i < x.neig → j < x.neig → sin (m.getD i 0) * cos (m.getD j 0) = 0 :=
  m_ok (aux_input h h.water h.m2w h.kw) hm

/-- The matrix `gam`. -/
theorem unsat_gam (h : UnsatInput x S s tend U) {m : List ℝ} (hm : DistinctAbs m) (hl : m.length = x.neig) :
    ∃ g : ℕ → ℕ → ℝ, x.gam m = .ok (chop g) ∧ ∀ i j, i < x.neig → j < x.neig →
      g i j = gm U.m2w (m.getD i 0) (m.getD j 0) ∧
      g i (x.neig + j) = gm U.m1kw (m.getD i 0) (m.getD j 0) - gm U.m2w (m.getD i 0) (m.getD j 0) ∧
      g (x.neig + i) j = gm U.m2a (m.getD i 0) (m.getD j 0) ∧
      g (x.neig + i) (x.neig + j) = gm U.m1ka (m.getD i 0) (m.getD j 0) - gm U.m2a (m.getD i 0) (m.getD j 0)
        - gm U.n (m.getD i 0) (m.getD j 0) / U.airRef + gm (fun z => U.S z * U.n z) (m.getD i 0) (m.getD j 0) / U.airRef := by
  obtain ⟨t1, e1, h1⟩ := pAf_ok x.impl h.m1kw hm
  obtain ⟨t2, e2, h2⟩ := pAf_ok x.impl h.m1ka hm
  obtain ⟨t3, e3, h3⟩ := pAf_ok x.impl h.m2w hm
  obtain ⟨t4, e4, h4⟩ := pAf_ok x.impl h.m2a hm
  obtain ⟨t5, e5, h5⟩ := pAf_ok x.impl h.n hm
  obtain ⟨t6, e6, h6⟩ := pAbf_ok h.sep x.impl h.n h.sat hm
  refine ⟨_, by unfold UnsatIn.gam; simp only [e1, e2, e3, e4, e5, e6, Bind.bind, Except.bind]; rfl, fun i j hi hj => ?_⟩
  have hi' : i < m.length := by omega
  have hj' : j < m.length := by omega
  have q6 : t6 i j = gm (fun z => U.S z * U.n z) (m.getD i 0) (m.getD j 0) := by
    rw [h6 i j hi' hj']
    unfold gm
    congr 1; funext z; ring
  have n1 : ¬ (x.neig + i < x.neig) := by omega
  have n2 : ¬ (x.neig + j < x.neig) := by omega
  refine ⟨?_, ?_, ?_, ?_⟩
  · simp only [block2, if_pos hi, if_pos hj]
    exact h3 i j hi' hj'
  · simp only [block2, if_pos hi, if_neg n2, Nat.add_sub_cancel_left]
    rw [h1 i j hi' hj', h3 i j hi' hj']; rfl
  · simp only [block2, if_pos hj, if_neg n1, Nat.add_sub_cancel_left]
    exact h4 i j hi' hj'
  · simp only [block2, if_neg n2, if_neg n1, Nat.add_sub_cancel_left]
    rw [q6, h2 i j hi' hj', h4 i j hi' hj', h5 i j hi' hj', h.ref]; rfl

theorem unsat_psi (h : UnsatInput x S s tend U) {m : List ℝ} (hm : DistinctAbs m) (hl : m.length = x.neig) :
    ∃ p : ℕ → ℕ → ℝ, x.psi m = .ok p ∧ ∀ i j, i < x.neig → j < x.neig →
      x.dT * p i j = -psiForm (phG U U.water) (m.getD i 0) (m.getD j 0) ∧ p i (x.neig + j) = 0 ∧ p (x.neig + i) j = 0 ∧
      x.dT * p (x.neig + i) (x.neig + j) = -psiForm (phG U U.air) (m.getD i 0) (m.getD j 0) := by
  obtain ⟨t1, e1, h1⟩ := vMat_ok (W := ⟨U.water.cond, U.water.condEnd⟩) (aux_input h h.water h.m2w h.kw) h.kw hm
  obtain ⟨t2, e2, h2⟩ := vMat_ok (W := ⟨U.air.cond, U.air.condEnd⟩) (aux_input h h.air h.m2w h.Da) h.Da hm
  have e1' : pDaDf x.impl m x.kw = .ok t1 := e1
  have e2' : pDaDf x.impl m x.Da = .ok t2 := e2
  refine ⟨_, by unfold UnsatIn.psi; simp only [e1', e2', Bind.bind, Except.bind]; rfl, fun i j hi hj => ?_⟩
  have hi' : i < m.length := by omega
  have hj' : j < m.length := by omega
  have n1 : ¬ (x.neig + i < x.neig) := by omega
  have n2 : ¬ (x.neig + j < x.neig) := by omega
  refine ⟨?_, ?_, ?_, ?_⟩
  · simp only [block2, if_pos hi, if_pos hj]
    exact h1 i j hi' hj'
  · simp only [block2, if_pos hi, if_neg n2]
  · simp only [block2, if_pos hj, if_neg n1]
  · simp only [block2, if_neg n2, if_neg n1, Nat.add_sub_cancel_left]
    exact h2 i j hi' hj'

/-- Storage of the series. -/
theorem stored {f : ℝ → ℝ} (hf : BddOn f 0 1) (F : Fluid) (n : ℕ) (w : ℕ → ℝ) (A : ℕ → ℝ → ℝ) (i : ℕ) (t : ℝ) :
    IntervalIntegrable (fun z => f z * sin (w i * z) * (series (phG U F) n w A z t - F.initial U.drn z)) volume 0 1 ∧
    ∫ z in (0:ℝ)..1, f z * sin (w i * z) * (series (phG U F) n w A z t - F.initial U.drn z) =
      (∑ j ∈ Finset.range n, gm f (w i) (w j) * A j t) + stBC U F f (w i) t := by
  have cc : ∀ {k : ℝ → ℝ}, Continuous k → BddOn k 0 1 := fun hk => BddOn.of_continuous hk 0 1
  have hF : BddOn (fun z => f z * sin (w i * z)) 0 1 := hf.mul (cc (by fun_prop))
  constructor
  · refine (hF.mul (cc ?_)).int zero_le_one
    unfold series bTop Fluid.initial
    fun_prop
  · have e := weight_sum (g := fun _ => 0) hF n (fun j => A j t) (fun j z => sin (w j * z)) (fun j => by fun_prop) (F.top t - F.top0) (F.bot t - F.bot0)
      (q := fun z => 1 - (1 - (U.drn:ℝ)) * z) (r := fun z => z) (by fun_prop) (by fun_prop) (cc continuous_const)
    simp only [mul_zero, sub_zero, intervalIntegral.integral_zero] at e
    unfold stBC gm
    rw [← add_assoc, ← e]
    congr 1
    funext z
    congr 1
    unfold series bTop Fluid.initial
    simp only [auxG]
    ring

theorem vflow_phase (h : UnsatInput x S s tend U) {p : PhaseIn} {F : Fluid} (hp : PhaseInput x p s tend F) {kv : PolyLine ℝ} {c : ℝ}
    (hk : ∃ f k, Profile S kv f ∧ Tendsto f (𝓝[<] 1) (𝓝 k) ∧ (∀ z, F.cond z = c * f z) ∧ F.condEnd = c * k)
    (n : ℕ) (w : ℕ → ℝ) (A : ℕ → ℝ → ℝ) (i : ℕ) (hw : ∀ j, j < n → sin (w i) * cos (w j) = 0) (r : ℝ) :
    vflow F.cond F.condEnd (seriesZ (phG U F) n w A) (fun z => sin (w i * z)) (fun z => w i * cos (w i * z)) r =
      (∑ j ∈ Finset.range n, psiForm (phG U F) (w i) (w j) * A j r) + (cTop (phG U F) (w i) * F.top r + cBot (phG U F) (w i) * F.bot r) :=
  vflow_series (W := ⟨F.cond, F.condEnd⟩) (aux_input h hp h.m2w hk) hk n w A i hw r

theorem vflow_int (h : UnsatInput x S s tend U) {p : PhaseIn} {F : Fluid} (hp : PhaseInput x p s tend F) {kv : PolyLine ℝ} {c : ℝ}
    (hk : ∃ f k, Profile S kv f ∧ Tendsto f (𝓝[<] 1) (𝓝 k) ∧ (∀ z, F.cond z = c * f z) ∧ F.condEnd = c * k)
    (n : ℕ) (w : ℕ → ℝ) (A : ℕ → ℝ → ℝ) (hA : ∀ j, IntervalIntegrable (A j) volume s tend) (i : ℕ)
    (hw : ∀ j, j < n → sin (w i) * cos (w j) = 0) {t : ℝ} (h1 : s ≤ t) (h2 : t ≤ tend) :
    ∫ r in s..t, vflow F.cond F.condEnd (seriesZ (phG U F) n w A) (fun z => sin (w i * z)) (fun z => w i * cos (w i * z)) r =
      (∑ j ∈ Finset.range n, psiForm (phG U F) (w i) (w j) * ∫ r in s..t, A j r) + flBC U F s (w i) t := by
  simp only [vflow_phase h hp hk n w A i hw]
  obtain ⟨iT, iB⟩ := top_int (aux_input h hp h.m2w hk) h1 h2
  have iT' : IntervalIntegrable F.top volume s t := iT
  have iB' : IntervalIntegrable F.bot volume s t := iB
  have s0 := sum_int (n := n) (c := fun j => psiForm (phG U F) (w i) (w j)) (f := A) (p := s) (q := t) (fun j _ => int_sub (hA j) h1 h2)
  rw [intervalIntegral.integral_add s0.1 ((iT'.const_mul _).add (iB'.const_mul _)), intervalIntegral.integral_add (iT'.const_mul _) (iB'.const_mul _),
    intervalIntegral.integral_const_mul, intervalIntegral.integral_const_mul, s0.2]
  rfl

theorem unsat_surcharge_bdd (h : UnsatInput x S s tend U) (t : ℝ) : BddOn (fun z => U.surcharge z t - U.surcharge0 z) 0 1 :=
  surcharge_bdd (aux_input h h.water h.m2w h.kw) t

theorem load_int (h : UnsatInput x S s tend U) {f : ℝ → ℝ} (hf : BddOn f 0 1) (w t : ℝ) :
    IntervalIntegrable (fun z => f z * sin (w * z) * (U.surcharge z t - U.surcharge0 z)) volume 0 1 :=
  ((hf.mul (BddOn.of_continuous (f := fun z => sin (w * z)) (by fun_prop) 0 1)).mul (unsat_surcharge_bdd h t)).int zero_le_one

/-- The residual of the water equation. -/
theorem residualW_eq (h : UnsatInput x S s tend U) (n : ℕ) (w : ℕ → ℝ) (A C : ℕ → ℝ → ℝ) (hA : ∀ j, IntervalIntegrable (A j) volume s tend) (i : ℕ)
    (hw : ∀ j, j < n → sin (w i) * cos (w j) = 0) {t : ℝ} (h1 : s ≤ t) (h2 : t ≤ tend) :
    U.residualW s (series (phG U U.water) n w A) (seriesZ (phG U U.water) n w A) (series (phG U U.air) n w C) (fun z => sin (w i * z))
      (fun z => w i * cos (w i * z)) t =
    (∑ j ∈ Finset.range n, gm U.m2w (w i) (w j) * A j t) + (∑ j ∈ Finset.range n, (gm U.m1kw (w i) (w j) - gm U.m2w (w i) (w j)) * C j t)
      - (∑ j ∈ Finset.range n, psiForm (phG U U.water) (w i) (w j) * ∫ r in s..t, A j r) - rhsW U s (w i) t := by
  unfold Unsat.residualW
  rw [vflow_int h h.water h.kw n w A hA i hw h1 h2]
  obtain ⟨i1, e1⟩ := stored (U := U) (Profile.bdd h.m2w) U.water n w A i t
  obtain ⟨i2, e2⟩ := stored (U := U) (Profile.bdd h.m1kw) U.air n w C i t
  obtain ⟨i3, e3⟩ := stored (U := U) (Profile.bdd h.m2w) U.air n w C i t
  have i4 := load_int h (Profile.bdd h.m1kw) (w i) t
  have ex : (fun z => sin (w i * z) * (U.strainW (U.surcharge0 z) (U.water.initial U.drn z) (U.air.initial U.drn z) z
      - U.strainW (U.surcharge z t) (series (phG U U.water) n w A z t) (series (phG U U.air) n w C z t) z)) = fun z =>
      U.m2w z * sin (w i * z) * (series (phG U U.water) n w A z t - U.water.initial U.drn z)
      + (U.m1kw z * sin (w i * z) * (series (phG U U.air) n w C z t - U.air.initial U.drn z)
        - U.m2w z * sin (w i * z) * (series (phG U U.air) n w C z t - U.air.initial U.drn z))
      - U.m1kw z * sin (w i * z) * (U.surcharge z t - U.surcharge0 z) := by
    funext z; unfold Unsat.strainW; ring
  rw [ex, intervalIntegral.integral_sub (i1.add (i2.sub i3)) i4, intervalIntegral.integral_add i1 (i2.sub i3), intervalIntegral.integral_sub i2 i3, e1, e2, e3]
  unfold rhsW loadT
  simp only [sub_mul, Finset.sum_sub_distrib]
  ring

/-- The residual of the air equation. -/
theorem residualA_eq (h : UnsatInput x S s tend U) (n : ℕ) (w : ℕ → ℝ) (A C : ℕ → ℝ → ℝ) (hC : ∀ j, IntervalIntegrable (C j) volume s tend) (i : ℕ)
    (hw : ∀ j, j < n → sin (w i) * cos (w j) = 0) {t : ℝ} (h1 : s ≤ t) (h2 : t ≤ tend) :
    U.residualA s (series (phG U U.water) n w A) (series (phG U U.air) n w C) (seriesZ (phG U U.air) n w C) (fun z => sin (w i * z))
      (fun z => w i * cos (w i * z)) t =
    (∑ j ∈ Finset.range n, gm U.m2a (w i) (w j) * A j t) + (∑ j ∈ Finset.range n, (gm U.m1ka (w i) (w j) - gm U.m2a (w i) (w j)
        - gm U.n (w i) (w j) / U.airRef + gm (fun z => U.S z * U.n z) (w i) (w j) / U.airRef) * C j t)
      - (∑ j ∈ Finset.range n, psiForm (phG U U.air) (w i) (w j) * ∫ r in s..t, C j r) - rhsA U s (w i) t := by
  unfold Unsat.residualA
  rw [vflow_int h h.air h.Da n w C hC i hw h1 h2]
  obtain ⟨i1, e1⟩ := stored (U := U) (Profile.bdd h.m2a) U.water n w A i t
  obtain ⟨i2, e2⟩ := stored (U := U) (Profile.bdd h.m1ka) U.air n w C i t
  obtain ⟨i3, e3⟩ := stored (U := U) (Profile.bdd h.m2a) U.air n w C i t
  obtain ⟨i5, e5⟩ := stored (U := U) (Profile.bdd h.n) U.air n w C i t
  obtain ⟨i6, e6⟩ := stored (U := U) ((Profile.bdd h.sat).mul (Profile.bdd h.n)) U.air n w C i t
  have i4 := load_int h (Profile.bdd h.m1ka) (w i) t
  have ex : (fun z => sin (w i * z) * (U.strainA (U.surcharge0 z) (U.water.initial U.drn z) (U.air.initial U.drn z) z
      - U.strainA (U.surcharge z t) (series (phG U U.water) n w A z t) (series (phG U U.air) n w C z t) z
      - (1 - U.S z) * U.n z / U.airRef * (series (phG U U.air) n w C z t - U.air.initial U.drn z))) = fun z =>
      U.m2a z * sin (w i * z) * (series (phG U U.water) n w A z t - U.water.initial U.drn z)
      + (U.m1ka z * sin (w i * z) * (series (phG U U.air) n w C z t - U.air.initial U.drn z)
        - U.m2a z * sin (w i * z) * (series (phG U U.air) n w C z t - U.air.initial U.drn z))
      - U.m1ka z * sin (w i * z) * (U.surcharge z t - U.surcharge0 z)
      - ((1 / U.airRef) * (U.n z * sin (w i * z) * (series (phG U U.air) n w C z t - U.air.initial U.drn z))
        - (1 / U.airRef) * (U.S z * U.n z * sin (w i * z) * (series (phG U U.air) n w C z t - U.air.initial U.drn z))) := by
    funext z; unfold Unsat.strainA; ring
  rw [ex, intervalIntegral.integral_sub ((i1.add (i2.sub i3)).sub i4) ((i5.const_mul _).sub (i6.const_mul _)),
    intervalIntegral.integral_sub (i1.add (i2.sub i3)) i4, intervalIntegral.integral_add i1 (i2.sub i3), intervalIntegral.integral_sub i2 i3,
    intervalIntegral.integral_sub (i5.const_mul _) (i6.const_mul _), intervalIntegral.integral_const_mul, intervalIntegral.integral_const_mul, e1, e2, e3, e5, e6]
  unfold rhsA loadT
  simp only [sub_mul, add_mul, Finset.sum_sub_distrib, Finset.sum_add_distrib, div_mul_eq_mul_div, ← Finset.sum_div]
  ring

end Geotecha.Speccon
