import Verif.Speccon.VRWWeak

/-!
# Property C80: speccon1d_vrw solves the consolidation equations of soil and drain in the weak sense

Specification: `Verif/Speccon/SpecVR.lean` (soil) and `Verif/Speccon/SpecVRW.lean` (drain).
-/

set_option linter.unusedVariables false
open Real intervalIntegral MeasureTheory Filter Topology
namespace Geotecha.Speccon
open Geotecha.Spec Geotecha.Piecewise

variable {x : VRW} {S : Set ℝ} {s tend : ℝ} {G : Ground} {W : Well} {a : VRWArrays}

theorem psiS_ok (h : VRWInput x S s tend G W) {m : List ℝ} (hm : DistinctAbs m) :
    ∃ p, x.psiS m = .ok p ∧ ∀ i j, i < m.length → j < m.length → x.base.dT * p i j = radial G (m.getD i 0) (m.getD j 0) := by
  obtain ⟨p, e, hp⟩ := psiH_ok h.base hm
  obtain ⟨r1, r2, r3⟩ := h.radial
  refine ⟨p, ?_, hp⟩
  unfold VRW.psiS
  rw [← e]
  obtain ⟨a1, e1⟩ := Option.isSome_iff_exists.1 r1
  obtain ⟨a2, e2⟩ := Option.isSome_iff_exists.1 r2
  obtain ⟨a3, e3⟩ := Option.isSome_iff_exists.1 r3
  rw [e1, e2, e3]

theorem psiW_ok (h : VRWInput x S s tend G W) {m : List ℝ} (hm : DistinctAbs m) {ps : ℕ → ℕ → ℝ} (hps : x.psiS m = .ok ps) :
    ∃ p, x.psiW m = .ok p ∧ ∀ i j, i < m.length → j < m.length →
      x.base.dT * p i j = psiForm (wellG G W) (m.getD i 0) (m.getD j 0) + x.base.dT * ps i j := by
  obtain ⟨p, e, hp⟩ := psiV_ok (well_input h) hm
  have e' : (do let t ← pDaDf x.base.impl m x.kw; pure (fun i j => -(x.dTw / x.base.dT * t i j)) : Except PyErr (ℕ → ℕ → ℝ)) = .ok p := e
  unfold VRW.psiW
  rcases hk : pDaDf x.base.impl m x.kw with _ | t
  · rw [hk] at e'; cases e'
  rw [hk] at e'
  have e2 : p = fun i j => -(x.dTw / x.base.dT * t i j) := by
    simp only [Bind.bind, Except.bind, pure, Except.pure] at e'
    injection e' with e'
    exact e'.symm
  rw [hps]
  refine ⟨_, rfl, fun i j hi hj => ?_⟩
  have := hp i j hi hj
  rw [e2] at this
  rw [mul_add]
  congr 1
  refine (this).trans ?_
  have f1 : ∫ z in (0:ℝ)..1, (wellG G W).horiz z * sin (m.getD i 0 * z) * sin (m.getD j 0 * z) = 0 := by simp [wellG, soilG]
  unfold psiForm
  rw [f1]
  simp [wellG]

theorem psi_vrw_ok (h : VRWInput x S s tend G W) {m : List ℝ} (hm : DistinctAbs m) {ps : ℕ → ℕ → ℝ} (hps : x.psiS m = .ok ps) (I : ℕ → ℕ → ℝ) :
    ∃ p, x.psi m I = .ok (chop p) ∧ ∀ i j, i < m.length → j < m.length →
      x.base.dT * p i j = psiForm (soilG G) (m.getD i 0) (m.getD j 0) + x.base.dT * ps i j - x.base.dT * matMul m.length (matMul m.length ps I) ps i j := by
  obtain ⟨b, e, hb⟩ := psiV_ok (soil_input h.base) hm
  have hF := psiF_ok (soil_input h.base) m
  have e' : x.base.psiV m = .ok b := e
  refine ⟨_, by unfold VRW.psi; rw [e', hps]; rfl, fun i j hi hj => ?_⟩
  have h1 := hb i j hi hj
  have h2 : x.base.dT * x.base.psiF m i j = ((soilG G).fixed.map (fun f => f.2.1 * sin (m.getD i 0 * f.1) * sin (m.getD j 0 * f.1))).sum := hF i j
  have h1' : x.base.dT * b i j = ∫ z in (0:ℝ)..1, (soilG G).vert z * (m.getD i 0 * cos (m.getD i 0 * z)) * (m.getD j 0 * cos (m.getD j 0 * z)) := h1
  have f1 : ∫ z in (0:ℝ)..1, (soilG G).horiz z * sin (m.getD i 0 * z) * sin (m.getD j 0 * z) = 0 := by simp [soilG]
  unfold psiForm
  rw [f1, ← h2, ← h1']
  ring

/-- The program's series output for a column `c` of coefficients. -/
theorem dim1sinF_series {x : VR} (h : VRInput x S s tend G) {m : List ℝ} (hm : x.m = .ok m) {bot : Option (List (PolyLine ℝ))} (hbot : x.normBot = .ok bot)
    {A : ℕ → ℝ → ℝ} {t : ℝ} (h1 : s ≤ t) (h2 : t ≤ tend) {c : ℕ → ℝ} (hA : ∀ j, j < m.length → c j = A j t) (z : ℝ) (hz0 : 0 ≤ z)
    (hz1 : z ≤ 1) : dim1sinF m z t c (x.boundary bot) = .ok (series G x.neig (fun j => m.getD j 0) A z t) := by
  obtain ⟨bot', tops, bots, e0, hb, ht1, ht2, hb1, hb2, hn⟩ := normBot_ok h
  rw [hbot] at e0
  injection e0 with e0
  subst e0
  rw [C74_value m c hb z t hz0 hz1 h1 h2, ht1, hb1]
  have ebd : ((x.boundary bot).drn : ℝ) = (G.drn : ℝ) := by rw [h.drnG]; rfl
  rw [ebd, ← (m_ok h hm).1]
  unfold series bTop
  congr 3
  exact Finset.sum_congr rfl (fun j hj => by rw [hA j (Finset.mem_range.1 hj)])

/-- Boundary values of a series. -/
theorem series_bc {x : VR} (h : VRInput x S s tend G) {m : List ℝ} (hm : x.m = .ok m) (A : ℕ → ℝ → ℝ) (t : ℝ) :
    series G x.neig (fun j => m.getD j 0) A 0 t = G.top t ∧
    (G.drn = 0 → series G x.neig (fun j => m.getD j 0) A 1 t = G.bot t) ∧
    (G.drn = 1 → seriesZ G x.neig (fun j => m.getD j 0) A 1 t = G.bot t) := by
  obtain ⟨hl, hget, hd, hne, hsc⟩ := m_ok h hm
  refine ⟨by unfold series bTop; simp, fun hd0 => ?_, fun hd1 => ?_⟩
  · unfold series bTop
    have : ∑ j ∈ Finset.range x.neig, A j t * sin (m.getD j 0 * 1) = 0 := by
      refine Finset.sum_eq_zero (fun j hj => ?_)
      rw [hget j (Finset.mem_range.1 hj), hd0]
      have : π * ((j:ℝ) + 1 - (0:ℤ) / 2) * 1 = ((j + 1 : ℕ) : ℝ) * π := by push_cast; ring
      rw [this, sin_nat_mul_pi, mul_zero]
    rw [this, hd0]
    push_cast; ring
  · unfold seriesZ
    have : ∑ j ∈ Finset.range x.neig, A j t * (m.getD j 0 * cos (m.getD j 0 * 1)) = 0 := by
      refine Finset.sum_eq_zero (fun j hj => ?_)
      rw [hget j (Finset.mem_range.1 hj), hd1]
      have : π * ((j:ℝ) + 1 - (1:ℤ) / 2) * 1 = (j : ℝ) * π + π / 2 := by push_cast; ring
      rw [this, cos_add_pi_div_two, sin_nat_mul_pi, neg_zero, mul_zero, mul_zero]
    rw [this, hd1]
    push_cast; ring

theorem series_sines {x : VR} (h : VRInput x S s tend G) {m : List ℝ} (hm : x.m = .ok m) (A : ℕ → ℝ → ℝ) (z t : ℝ) :
    series G x.neig (fun j => m.getD j 0) A z t = (∑ j ∈ Finset.range x.neig, A j t * sin (π * ((j:ℝ) + 1 - G.drn / 2) * z))
        + (1 - (1 - G.drn) * z) * G.top t + z * G.bot t := by
  obtain ⟨hl, hget, hd, hne, hsc⟩ := m_ok h hm
  unfold series bTop
  congr 2
  exact Finset.sum_congr rfl (fun j hj => by dsimp only; rw [hget j (Finset.mem_range.1 hj)])

/-- Coefficients of the drain pressure. -/
noncomputable def wellCoef (x : VRW) (a : VRWArrays) (G : Ground) (W : Well) (A : ℕ → ℝ → ℝ) (j : ℕ) (t : ℝ) : ℝ :=
  ∑ k ∈ Finset.range a.m.length, a.IpsiW j k * ((∑ l ∈ Finset.range a.m.length, a.psiS k l * A l t)
    - 1 / x.base.dT * (cTop (wellG G W) (a.m.getD k 0) * G.top t + cBot (wellG G W) (a.m.getD k 0) * G.bot t))

theorem sum_int {n : ℕ} {c : ℕ → ℝ} {f : ℕ → ℝ → ℝ} {p q : ℝ} (hf : ∀ j, j < n → IntervalIntegrable (f j) volume p q) :
    IntervalIntegrable (fun r => ∑ j ∈ Finset.range n, c j * f j r) volume p q ∧
    ∫ r in p..q, ∑ j ∈ Finset.range n, c j * f j r = ∑ j ∈ Finset.range n, c j * ∫ r in p..q, f j r := by
  have i : ∀ j ∈ Finset.range n, IntervalIntegrable (fun r => c j * f j r) volume p q := fun j hj => (hf j (Finset.mem_range.1 hj)).const_mul _
  refine ⟨?_, ?_⟩
  · have := IntervalIntegrable.sum (Finset.range n) i
    have e : (∑ j ∈ Finset.range n, fun r => c j * f j r) = fun r => ∑ j ∈ Finset.range n, c j * f j r := by
      funext r; simp
    rw [e] at this
    exact this
  · rw [intervalIntegral.integral_finsetSum i]
    simp only [intervalIntegral.integral_const_mul]

theorem wellCoef_int (h : VRWInput x S s tend G W) {A : ℕ → ℝ → ℝ} (hA : ∀ j, IntervalIntegrable (A j) volume s tend) (j : ℕ) {t : ℝ}
    (h1 : s ≤ t) (h2 : t ≤ tend) :
    IntervalIntegrable (wellCoef x a G W A j) volume s t ∧
    ∫ r in s..t, wellCoef x a G W A j r = ∑ k ∈ Finset.range a.m.length, a.IpsiW j k * ((∑ l ∈ Finset.range a.m.length, a.psiS k l * ∫ r in s..t, A l r)
      - 1 / x.base.dT * wellQ G W s (a.m.getD k 0) t) := by
  obtain ⟨iT, iB⟩ := top_int h.base h1 h2
  have i1 := fun k => sum_int (n := a.m.length) (c := a.psiS k) (f := A) (p := s) (q := t) (fun l _ => int_sub (hA l) h1 h2)
  have i2 : ∀ k, IntervalIntegrable (fun r => 1 / x.base.dT * (cTop (wellG G W) (a.m.getD k 0) * G.top r + cBot (wellG G W) (a.m.getD k 0) * G.bot r)) volume s t :=
    fun k => ((iT.const_mul _).add (iB.const_mul _)).const_mul _
  have i3 : ∀ k, k < a.m.length → IntervalIntegrable (fun r => (∑ l ∈ Finset.range a.m.length, a.psiS k l * A l r)
      - 1 / x.base.dT * (cTop (wellG G W) (a.m.getD k 0) * G.top r + cBot (wellG G W) (a.m.getD k 0) * G.bot r)) volume s t :=
    fun k _ => (i1 k).1.sub (i2 k)
  obtain ⟨j1, j2⟩ := sum_int (c := a.IpsiW j) i3
  refine ⟨j1, ?_⟩
  unfold wellCoef
  rw [j2]
  refine Finset.sum_congr rfl (fun k _ => ?_)
  rw [intervalIntegral.integral_sub (i1 k).1 (i2 k), (i1 k).2, intervalIntegral.integral_const_mul,
    intervalIntegral.integral_add (iT.const_mul _) (iB.const_mul _), intervalIntegral.integral_const_mul, intervalIntegral.integral_const_mul]
  rfl

theorem matMul3 (n : ℕ) (P I Q : ℕ → ℕ → ℝ) (v : ℕ → ℝ) (i : ℕ) : ∑ j ∈ Finset.range n, matMul n (matMul n P I) Q i j * v j =
    ∑ j ∈ Finset.range n, P i j * ∑ k ∈ Finset.range n, I j k * ∑ l ∈ Finset.range n, Q k l * v l := by
  exact (dot_matMul n (matMul n P I) Q v i).trans (dot_matMul n P I _ i)

/-- The balance of the drain holds exactly. -/
theorem well_balance (h : VRWInput x S s tend G W) (hM : a.Made x) (A : ℕ → ℝ → ℝ) (i : ℕ) (hi : i < a.m.length) (t : ℝ) :
    W.balance G (series G x.base.neig (fun j => a.m.getD j 0) A) (series G x.base.neig (fun j => a.m.getD j 0) (wellCoef x a G W A))
      (seriesZ G x.base.neig (fun j => a.m.getD j 0) (wellCoef x a G W A)) (fun z => sin (a.m.getD i 0 * z))
      (fun z => a.m.getD i 0 * cos (a.m.getD i 0 * z)) t = 0 := by
  obtain ⟨hl, hget, hd, hne, hsc⟩ := m_ok h.base hM.m
  obtain ⟨ps, es, hs⟩ := psiS_ok h hd
  rw [hM.psiS] at es
  injection es with es
  subst es
  obtain ⟨pw, ew, hw⟩ := psiW_ok h hd hM.psiS
  obtain ⟨pw', ew', hinv⟩ := hM.inv
  rw [ew] at ew'
  injection ew' with ew'
  subst ew'
  have e := balance_eq h x.base.neig (fun j => a.m.getD j 0) A (wellCoef x a G W A) i (fun j hj => hsc i j (by omega) hj) t
  refine e.trans ?_
  rw [← hl]
  set q : ℕ → ℝ := fun k => (∑ l ∈ Finset.range a.m.length, a.psiS k l * A l t)
    - 1 / x.base.dT * (cTop (wellG G W) (a.m.getD k 0) * G.top t + cBot (wellG G W) (a.m.getD k 0) * G.bot t) with hq
  have e1 : ∑ j ∈ Finset.range a.m.length, psiForm (wellG G W) (a.m.getD i 0) (a.m.getD j 0) * wellCoef x a G W A j t =
      x.base.dT * (∑ j ∈ Finset.range a.m.length, pw i j * wellCoef x a G W A j t) -
        x.base.dT * (∑ j ∈ Finset.range a.m.length, a.psiS i j * wellCoef x a G W A j t) := by
    rw [Finset.mul_sum, Finset.mul_sum, ← Finset.sum_sub_distrib]
    refine Finset.sum_congr rfl (fun j hj => ?_)
    have := hw i j hi (Finset.mem_range.1 hj)
    rw [eq_sub_of_add_eq this.symm]
    ring
  have e2 : ∑ j ∈ Finset.range a.m.length, pw i j * wellCoef x a G W A j t = q i := by
    have := dot_matMul a.m.length pw a.IpsiW q i
    unfold dotV at this
    have e3 : ∀ j, wellCoef x a G W A j t = ∑ k ∈ Finset.range a.m.length, a.IpsiW j k * q k := fun j => rfl
    simp only [e3]
    rw [← this, Finset.sum_congr rfl (fun k hk => by rw [hinv i k hi (Finset.mem_range.1 hk)])]
    simp [hi]
  have e3 : ∑ j ∈ Finset.range a.m.length, radial G (a.m.getD i 0) (a.m.getD j 0) * (A j t - wellCoef x a G W A j t) =
      x.base.dT * (∑ j ∈ Finset.range a.m.length, a.psiS i j * A j t) - x.base.dT * (∑ j ∈ Finset.range a.m.length, a.psiS i j * wellCoef x a G W A j t) := by
    rw [Finset.mul_sum, Finset.mul_sum, ← Finset.sum_sub_distrib]
    refine Finset.sum_congr rfl (fun j hj => ?_)
    rw [← hs i j hi (Finset.mem_range.1 hj)]
    ring
  rw [e1, e2, e3, hq]
  have := h.base.dT
  dsimp only
  field_simp
  ring

/-- The residual of the soil, as an expression in the discarded matrix entries. -/
theorem soil_residual (h : VRWInput x S s tend G W) (hM : a.Made x) {A : ℕ → ℝ → ℝ} (hA : ∀ j, IntervalIntegrable (A j) volume s tend)
    {g p : ℕ → ℕ → ℝ} (hg : ∀ i j, i < a.m.length → j < a.m.length → g i j = gamma G (a.m.getD i 0) (a.m.getD j 0))
    (hp : ∀ i j, i < a.m.length → j < a.m.length → x.base.dT * p i j = psiForm (soilG G) (a.m.getD i 0) (a.m.getD j 0) + x.base.dT * a.psiS i j
      - x.base.dT * matMul a.m.length (matMul a.m.length a.psiS a.IpsiW) a.psiS i j)
    (hsol : ∀ i, i < a.m.length → ∀ t, s ≤ t → t ≤ tend →
        (∑ j ∈ Finset.range a.m.length, chop g i j * A j t) + x.base.dT * (∑ j ∈ Finset.range a.m.length, chop p i j * ∫ r in s..t, A j r) =
          rhs (soilG G) s (a.m.getD i 0) t - dotV a.m.length (matMul a.m.length a.psiS a.IpsiW) (fun l => wellQ G W s (a.m.getD l 0) t) i)
    (i : ℕ) (hi : i < a.m.length) (t : ℝ) (h1 : s ≤ t) (h2 : t ≤ tend) :
    ({ G with drain := series G x.base.neig (fun j => a.m.getD j 0) (wellCoef x a G W A) } : Ground).residual s
      (series G x.base.neig (fun j => a.m.getD j 0) A) (seriesZ G x.base.neig (fun j => a.m.getD j 0) A) (fun z => sin (a.m.getD i 0 * z))
      (fun z => a.m.getD i 0 * cos (a.m.getD i 0 * z)) t =
    (∑ j ∈ Finset.range a.m.length, (g i j - chop g i j) * A j t) +
      x.base.dT * ∑ j ∈ Finset.range a.m.length, (p i j - chop p i j) * ∫ r in s..t, A j r := by
  obtain ⟨hl, hget, hd, hne, hsc⟩ := m_ok h.base hM.m
  obtain ⟨ps, es, hs⟩ := psiS_ok h hd
  rw [hM.psiS] at es
  injection es with es
  subst es
  have hC : ∀ j, IntervalIntegrable (wellCoef x a G W A j) volume s tend := fun j => (wellCoef_int h hA j (h1.trans h2) le_rfl).1
  have e := residual_coupled h.base x.base.neig (fun j => a.m.getD j 0) A (wellCoef x a G W A) (fun j _ => hA j) (fun j _ => hC j) i
    (fun j hj => hsc i j (by omega) hj) t h1 h2
  refine e.trans ?_
  rw [← hl, eq_add_of_sub_eq (hsol i hi t h1 h2).symm]
  set IA : ℕ → ℝ := fun j => ∫ r in s..t, A j r with hIA
  have e1 : ∑ j ∈ Finset.range a.m.length, gamma G (a.m.getD i 0) (a.m.getD j 0) * A j t = ∑ j ∈ Finset.range a.m.length, g i j * A j t :=
    Finset.sum_congr rfl (fun j hj => by rw [hg i j hi (Finset.mem_range.1 hj)])
  have e2 : ∑ j ∈ Finset.range a.m.length, psiForm (soilG G) (a.m.getD i 0) (a.m.getD j 0) * IA j =
      x.base.dT * (∑ j ∈ Finset.range a.m.length, p i j * IA j) - x.base.dT * (∑ j ∈ Finset.range a.m.length, a.psiS i j * IA j)
        + x.base.dT * ∑ j ∈ Finset.range a.m.length, matMul a.m.length (matMul a.m.length a.psiS a.IpsiW) a.psiS i j * IA j := by
    simp only [Finset.mul_sum]
    rw [← Finset.sum_sub_distrib, ← Finset.sum_add_distrib]
    refine Finset.sum_congr rfl (fun j hj => ?_)
    have := hp i j hi (Finset.mem_range.1 hj)
    linear_combination (-IA j) * this
  have e3 : ∑ j ∈ Finset.range a.m.length, radial G (a.m.getD i 0) (a.m.getD j 0) * (IA j - ∫ r in s..t, wellCoef x a G W A j r) =
      x.base.dT * (∑ j ∈ Finset.range a.m.length, a.psiS i j * IA j)
        - x.base.dT * ∑ j ∈ Finset.range a.m.length, matMul a.m.length (matMul a.m.length a.psiS a.IpsiW) a.psiS i j * IA j
        + dotV a.m.length (matMul a.m.length a.psiS a.IpsiW) (fun l => wellQ G W s (a.m.getD l 0) t) i := by
    rw [matMul3, dot_matMul]
    unfold dotV
    simp only [(wellCoef_int (a := a) h hA _ h1 h2).2]
    rw [Finset.mul_sum, Finset.mul_sum, ← Finset.sum_sub_distrib, ← Finset.sum_add_distrib]
    refine Finset.sum_congr rfl (fun j hj => ?_)
    rw [← hs i j hi (Finset.mem_range.1 hj)]
    have e4 : ∑ k ∈ Finset.range a.m.length, a.IpsiW j k * ((∑ l ∈ Finset.range a.m.length, a.psiS k l * ∫ r in s..t, A l r)
        - 1 / x.base.dT * wellQ G W s (a.m.getD k 0) t) = (∑ k ∈ Finset.range a.m.length, a.IpsiW j k * ∑ l ∈ Finset.range a.m.length, a.psiS k l * IA l)
        - 1 / x.base.dT * ∑ k ∈ Finset.range a.m.length, a.IpsiW j k * wellQ G W s (a.m.getD k 0) t := by
      rw [Finset.mul_sum, ← Finset.sum_sub_distrib]
      exact Finset.sum_congr rfl (fun k _ => by ring)
    rw [e4]
    have := h.base.dT
    field_simp
    ring
  rw [e1, e2, e3]
  simp only [sub_mul, Finset.sum_sub_distrib, mul_sub]
  ring

/-- The pore pressure computed by the program and a drain pressure of the same form satisfy the boundary conditions (the same for
both), the weak form of the consolidation equation of the soil up to the matrix entries below 1e-8 that the program sets to
zero, and the balance of the drain exactly. -/
theorem C80_weak_form (h : VRWInput x S s tend G W) (hM : a.Made x) (h0 : ∀ i, i < a.m.length → a.eigs i ≠ 0) :
    ∃ (A C : ℕ → ℝ → ℝ) (u uz w wz : ℝ → ℝ → ℝ),
      (∀ z t, 0 ≤ z → z ≤ 1 → s ≤ t → t ≤ tend → x.por a z t = .ok (u z t)) ∧
      (∀ z t, HasDerivAt (fun z => u z t) (uz z t) z ∧ HasDerivAt (fun z => w z t) (wz z t) z) ∧
      (∀ z t, u z t = (∑ j ∈ Finset.range x.base.neig, A j t * sin (π * ((j:ℝ) + 1 - G.drn / 2) * z))
        + (1 - (1 - G.drn) * z) * G.top t + z * G.bot t) ∧
      (∀ z t, w z t = (∑ j ∈ Finset.range x.base.neig, C j t * sin (π * ((j:ℝ) + 1 - G.drn / 2) * z))
        + (1 - (1 - G.drn) * z) * G.top t + z * G.bot t) ∧
      (∀ t, u 0 t = G.top t ∧ (G.drn = 0 → u 1 t = G.bot t) ∧ (G.drn = 1 → uz 1 t = G.bot t)) ∧
      (∀ t, w 0 t = G.top t ∧ (G.drn = 0 → w 1 t = G.bot t) ∧ (G.drn = 1 → wz 1 t = G.bot t)) ∧
      (∀ i, i < x.base.neig → ∀ t, s ≤ t → t ≤ tend →
        W.balance G u w wz (fun z => sin (π * ((i:ℝ) + 1 - G.drn / 2) * z))
          (fun z => π * ((i:ℝ) + 1 - G.drn / 2) * cos (π * ((i:ℝ) + 1 - G.drn / 2) * z)) t = 0) ∧
      ∀ i, i < x.base.neig → ∀ t, s ≤ t → t ≤ tend →
        |({ G with drain := w } : Ground).residual s u uz (fun z => sin (π * ((i:ℝ) + 1 - G.drn / 2) * z))
          (fun z => π * ((i:ℝ) + 1 - G.drn / 2) * cos (π * ((i:ℝ) + 1 - G.drn / 2) * z)) t| ≤
        1 / 100000000 * ((∑ j ∈ Finset.range x.base.neig, |A j t|) + |x.base.dT| * ∑ j ∈ Finset.range x.base.neig, |∫ r in s..t, A j r|) := by
  obtain ⟨hl, hget, hd, hne, hsc⟩ := m_ok h.base hM.m
  obtain ⟨g, eg, hge⟩ := gam_ok h.base hd
  obtain ⟨p, ep, hpe⟩ := psi_vrw_ok h hd hM.psiS a.IpsiW
  obtain ⟨gam, psi, f1, f2, hE⟩ := hM.eig
  rw [f1] at eg
  rw [f2] at ep
  injection eg with eg
  injection ep with ep
  subst eg ep
  have hB : ∀ i, i < (x.base.basis a.m a.eigs a.Igamv).m.length → (x.base.basis a.m a.eigs a.Igamv).dT * (x.base.basis a.m a.eigs a.Igamv).eigs i ≠ 0 :=
    fun i hi => mul_ne_zero h.base.dT (h0 i hi)
  obtain ⟨A, hA, hc, hsol⟩ := coeffs_of (E_eq (B := x.base.basis a.m a.eigs a.Igamv) h hB hne a.psiS a.IpsiW) hE
  refine ⟨A, wellCoef x a G W A, series G x.base.neig (fun j => a.m.getD j 0) A, seriesZ G x.base.neig (fun j => a.m.getD j 0) A,
    series G x.base.neig (fun j => a.m.getD j 0) (wellCoef x a G W A), seriesZ G x.base.neig (fun j => a.m.getD j 0) (wellCoef x a G W A),
    ?_, fun z t => ⟨series_deriv _ _ _ _ _ _, series_deriv _ _ _ _ _ _⟩, series_sines h.base hM.m A, series_sines h.base hM.m _, series_bc h.base hM.m A,
    series_bc h.base hM.m _, ?_, ?_⟩
  · intro z t hz0 hz1 h1 h2
    obtain ⟨c, e, ec⟩ := hc t h1 h2
    obtain ⟨bot, tops, bots, e0, _⟩ := normBot_ok h.base
    have e' : x.column a t = .ok c := e
    unfold VRW.por
    simp only [e', e0, Bind.bind, Except.bind]
    exact dim1sinF_series h.base hM.m e0 h1 h2 (fun j _ => ec j) z hz0 hz1
  · intro i hi t h1 h2
    rw [← hget i hi]
    exact well_balance h hM A i (by omega) t
  · intro i hi t h1 h2
    have e := soil_residual h hM hA hge hpe hsol i (by omega) t h1 h2
    rw [hget i hi] at e
    rw [e, hl]
    refine (abs_add_le _ _).trans ?_
    rw [abs_mul, mul_add]
    refine add_le_add ?_ ?_
    · rw [Finset.mul_sum]
      refine (Finset.abs_sum_le_sum_abs _ _).trans (Finset.sum_le_sum (fun j _ => ?_))
      rw [abs_mul]
      exact mul_le_mul_of_nonneg_right (chop_near g i j) (abs_nonneg _)
    · rw [mul_left_comm]
      refine mul_le_mul_of_nonneg_left ?_ (abs_nonneg _)
      rw [Finset.mul_sum]
      refine (Finset.abs_sum_le_sum_abs _ _).trans (Finset.sum_le_sum (fun j _ => ?_))
      rw [abs_mul]
      exact mul_le_mul_of_nonneg_right (chop_near p i j) (abs_nonneg _)

/-- Average pore pressure and settlement agree with the pore pressure of the same run. -/
theorem C82_outputs_agree (h : VRWInput x S s tend G W) (hM : a.Made x) (h0 : ∀ i, i < a.m.length → a.eigs i ≠ 0) (z1 z2 t : ℝ) (hz0 : 0 ≤ z1)
    (hz : z1 < z2) (hz1 : z2 ≤ 1) (ht0 : s ≤ t) (ht1 : t ≤ tend)
    (hlen : ∀ l d, x.base.surchargeTime = some l → x.base.surchargeDepth = some d → d.length = l.length ∧ OmLen l x.base.surchargeOm)
    (hnone : x.base.surchargeDepth = none → x.base.surchargeTime = none) :
    ∃ (u : ℝ → ℝ) (b : ℝ), (∀ z, 0 ≤ z → z ≤ 1 → x.por a z t = .ok (u z)) ∧
      x.avp a z1 z2 t = .ok b ∧ b * (z2 - z1) = (∫ z in z1..z2, u z) ∧
      x.settle a z1 z2 t = .ok (x.base.H * x.base.mvref * ∫ z in z1..z2, G.mv z * (G.surcharge z t - u z)) := by
  obtain ⟨hl, hget, hd, hne, hsc⟩ := m_ok h.base hM.m
  obtain ⟨gam, psi, f1, f2, hE⟩ := hM.eig
  have hB : ∀ i, i < (x.base.basis a.m a.eigs a.Igamv).m.length → (x.base.basis a.m a.eigs a.Igamv).dT * (x.base.basis a.m a.eigs a.Igamv).eigs i ≠ 0 :=
    fun i hi => mul_ne_zero h.base.dT (h0 i hi)
  obtain ⟨A, hA, hc, hsol⟩ := coeffs_of (E_eq (B := x.base.basis a.m a.eigs a.Igamv) h hB hne a.psiS a.IpsiW) hE
  obtain ⟨c, e, ec⟩ := hc t ht0 ht1
  have e' : x.column a t = .ok c := e
  obtain ⟨bot, _, _, e0, _⟩ := normBot_ok h.base
  obtain ⟨u, b, w, l, r1, r2, r3, r4, r5, r6⟩ := outputs_of h.base a.m hM.m c e0 z1 z2 t hz0 hz hz1 ht0 ht1 hlen hnone
  refine ⟨u, b, fun z h1 h2 => ?_, ?_, r3, ?_⟩
  · unfold VRW.por
    simp only [e', e0, Bind.bind, Except.bind]
    exact r1 z h1 h2
  · unfold VRW.avp
    simp only [e', e0, Bind.bind, Except.bind]
    exact r2
  · unfold VRW.settle
    simp only [e', e0, r4, r5, Bind.bind, Except.bind, pure, Except.pure]
    rw [r6]

end Geotecha.Speccon
