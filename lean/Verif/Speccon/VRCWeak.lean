import Verif.Speccon.VRCSystem

/-!
# The series of speccon1d_vrc inserted into the weak form (helpers for C90)
-/

set_option linter.unusedVariables false
open Real intervalIntegral MeasureTheory Filter Topology
namespace Geotecha.Speccon
open Geotecha.Spec Geotecha.Piecewise

variable {x : VRC} {S : Set ℝ} {s tend : ℝ} {G : Ground} {C : Column} {a : VRCArrays}

/-! ## Matrices -/

theorem psiForm_well (G : Ground) (W : Well) (w w' : ℝ) : psiForm (wellG G W) w w' =
    ∫ z in (0:ℝ)..1, W.cond z * (w * cos (w * z)) * (w' * cos (w' * z)) := by
  simp [psiForm, wellG, soilG]

theorem vMat_ok {x : VR} (h : VRInput x S s tend G) {kv : PolyLine ℝ} {c : ℝ} {W : Well}
    (hW : ∃ f k, Profile S kv f ∧ Tendsto f (𝓝[<] 1) (𝓝 k) ∧ (∀ z, W.cond z = c * f z) ∧ W.condEnd = c * k) {m : List ℝ} (hm : DistinctAbs m) :
    ∃ th, pDaDf x.impl m kv = .ok th ∧ ∀ i j, i < m.length → j < m.length →
      x.dT * (c / x.dT * th i j) = -psiForm (wellG G W) (m.getD i 0) (m.getD j 0) := by
  obtain ⟨f, k, hf, hk, hc, hce⟩ := hW
  obtain ⟨th, e, hth⟩ := pDaDf_ok x.impl hf hm
  refine ⟨th, e, fun i j hi hj => ?_⟩
  rw [psiForm_well, hth i j hi hj]
  have e4 : (fun z => W.cond z * (m.getD i 0 * cos (m.getD i 0 * z)) * (m.getD j 0 * cos (m.getD j 0 * z))) =
      fun z => (c * (m.getD i 0 * m.getD j 0)) * (f z * cos (m.getD i 0 * z) * cos (m.getD j 0 * z)) := by
    funext z; rw [hc]; ring
  rw [e4, intervalIntegral.integral_const_mul]
  have := h.dT
  field_simp

/-- Radial flow seen by `sin(w z)` for the pressure difference `sin(w' z)`, with the coefficient `k`. -/
noncomputable def radialK (k : ℝ → ℝ) (w w' : ℝ) : ℝ := ∫ z in (0:ℝ)..1, k z * sin (w * z) * sin (w' * z)

theorem psis_ok (h : VRCInput x S s tend G C) {m : List ℝ} (hm : DistinctAbs m) : ∃ P, x.psis m = .ok P ∧
    ∀ i j, i < m.length → j < m.length →
      x.base.dT * P.sv i j = -psiForm (wellG G (soilW G)) (m.getD i 0) (m.getD j 0) ∧
      x.base.dT * P.cv i j = -psiForm (wellG G (colW C)) (m.getD i 0) (m.getD j 0) ∧
      x.base.dT * P.sh i j = radialK G.horiz (m.getD i 0) (m.getD j 0) ∧
      x.base.dT * P.ch i j = radialK C.horiz (m.getD i 0) (m.getD j 0) := by
  obtain ⟨kv, c, ekv, edT, hW⟩ := soil_cond h
  obtain ⟨_, _, g3, g4, g5⟩ := h.given
  obtain ⟨kh, e3⟩ := Option.isSome_iff_exists.1 g3
  obtain ⟨et, e4⟩ := Option.isSome_iff_exists.1 g4
  obtain ⟨dTh, e5⟩ := Option.isSome_iff_exists.1 g5
  obtain ⟨t1, f1, k1⟩ := vMat_ok h.base hW hm
  obtain ⟨t2, f2, k2⟩ := vMat_ok h.base (W := colW C) h.col hm
  obtain ⟨p, ep, hp⟩ := psiH_ok h.base hm
  obtain ⟨g, hg, hge⟩ := h.colH
  obtain ⟨t4, f4, k4⟩ := pAf_ok x.base.impl hg hm
  unfold VR.psiH at ep
  rw [e3, e4, e5] at ep
  dsimp only at ep
  unfold VRC.psis
  rw [ekv, edT, e3, e4, e5]
  simp only [f1, f2, f4, Bind.bind, Except.bind] at ep ⊢
  rcases q1 : commonLines [kh, et] with _ | l
  · rw [q1] at ep; cases ep
  rcases q2 : pAbf x.base.impl m kh et with _ | t3
  · rw [q1, q2] at ep; cases ep
  rw [q1, q2] at ep
  simp only [pure, Except.pure, Except.ok.injEq] at ep
  refine ⟨_, rfl, fun i j hi hj => ⟨k1 i j hi hj, k2 i j hi hj, ?_, ?_⟩⟩
  · have := hp i j hi hj
    rw [← ep] at this
    exact this
  · dsimp only
    rw [k4 i j hi hj, ← mul_assoc, mul_div_cancel₀ _ h.base.dT]
    unfold radialK
    rw [← intervalIntegral.integral_const_mul]
    congr 1; funext z; rw [hge]; ring

/-! ## Flow of a series -/

/-- Boundary flow of a conductor seen by `sin(w z)`. -/
noncomputable def Qt (G : Ground) (W : Well) (w t : ℝ) : ℝ := cTop (wellG G W) w * G.top t + cBot (wellG G W) w * G.bot t

theorem vflow_series {x : VR} (h : VRInput x S s tend G) {kv : PolyLine ℝ} {c : ℝ} {W : Well}
    (hW : ∃ f k, Profile S kv f ∧ Tendsto f (𝓝[<] 1) (𝓝 k) ∧ (∀ z, W.cond z = c * f z) ∧ W.condEnd = c * k)
    (n : ℕ) (w : ℕ → ℝ) (A : ℕ → ℝ → ℝ) (i : ℕ) (hw : ∀ j, j < n → sin (w i) * cos (w j) = 0) (r : ℝ) :
    vflow W.cond W.condEnd (seriesZ G n w A) (fun z => sin (w i * z)) (fun z => w i * cos (w i * z)) r =
      (∑ j ∈ Finset.range n, psiForm (wellG G W) (w i) (w j) * A j r) + Qt G W (w i) r := by
  have e := flow_eq (v_input h hW) n w A i hw r
  unfold Ground.flow at e
  have e1 : ∫ z in (0:ℝ)..1, (wellG G W).horiz z * sin (w i * z) * (series (wellG G W) n w A z r - (wellG G W).drain z r) = 0 := by
    simp [wellG, soilG]
  have e2 : ∫ z in (0:ℝ)..1, (wellG G W).horiz z * sin (w i * z) * (wellG G W).drain z r = 0 := by simp [wellG, soilG]
  have e3 : (wellG G W).fixed = [] := rfl
  have e4 : (wellG G W).pumps = [] := rfl
  rw [e1, e2, e3, e4] at e
  simp only [List.map_nil, List.sum_nil, add_zero, sub_zero] at e
  unfold Qt
  rw [← add_assoc]
  exact e

theorem radialK_eq {k : ℝ → ℝ} (hk : BddOn k 0 1) (n : ℕ) (w : ℕ → ℝ) (A B : ℕ → ℝ → ℝ) (i : ℕ) (r : ℝ) :
    ∫ z in (0:ℝ)..1, k z * sin (w i * z) * (series G n w A z r - series G n w B z r) =
      ∑ j ∈ Finset.range n, radialK k (w i) (w j) * (A j r - B j r) := by
  have e := weight_sum (g := fun _ => 0) (hk.mul (BddOn.of_continuous (f := fun z => sin (w i * z)) (by fun_prop) 0 1)) n
    (fun j => A j r - B j r) (fun j z => sin (w j * z)) (fun j => by fun_prop) 0 0 (q := fun _ => (0:ℝ)) (r := fun _ => (0:ℝ))
    continuous_const continuous_const (BddOn.of_continuous continuous_const 0 1)
  simp only [mul_zero, add_zero, sub_zero, intervalIntegral.integral_zero] at e
  unfold radialK
  rw [← e]
  congr 1
  funext z
  congr 1
  unfold series
  simp only [sub_mul, Finset.sum_sub_distrib]
  ring

theorem colH_bdd (h : VRCInput x S s tend G C) : BddOn C.horiz 0 1 := by
  obtain ⟨g, hg, hge⟩ := h.colH
  rw [show C.horiz = fun z => x.dThc * g z from funext hge]
  exact (BddOn.of_continuous continuous_const 0 1).mul (Profile.bdd hg)

/-! ## The inverse of `Ibet` -/

theorem sum3 (n : ℕ) (f : ℕ → ℝ) : ∑ r ∈ Finset.range (3 * n), f r =
    (∑ k ∈ Finset.range n, f k) + (∑ k ∈ Finset.range n, f (n + k)) + ∑ k ∈ Finset.range n, f (2 * n + k) := by
  have : 3 * n = n + n + n := by ring
  rw [this, Finset.sum_range_add, Finset.sum_range_add]
  congr 2
  funext k; congr 1; ring

theorem Ibet_block (P : Psis) (alp : ℝ) {n i j : ℕ} (hi : i < n) (hj : j < n) (p q : ℕ) :
    P.Ibet alp n (p * n + i) (q * n + j) = P.block alp p q i j := by
  have hn : 0 < n := by omega
  have e : ∀ p i, i < n → (p * n + i) / n = p ∧ (p * n + i) % n = i := by
    intro p i hi
    constructor
    · rw [mul_comm, Nat.mul_add_div hn, Nat.div_eq_of_lt hi, add_zero]
    · rw [mul_comm, Nat.mul_add_mod, Nat.mod_eq_of_lt hi]
  unfold Psis.Ibet
  rw [(e p i hi).1, (e p i hi).2, (e q j hj).1, (e q j hj).2]

theorem inv3 (hM : a.Inv x) {p q i j : ℕ} (hp : p < 3) (hq : q < 3) (hi : i < a.m.length) (hj : j < a.m.length) :
    matMul a.m.length (a.P.block x.alp p 0) (betBlk a.m.length a.bet 0 q) i j
      + matMul a.m.length (a.P.block x.alp p 1) (betBlk a.m.length a.bet 1 q) i j
      + matMul a.m.length (a.P.block x.alp p 2) (betBlk a.m.length a.bet 2 q) i j = if p = q ∧ i = j then 1 else 0 := by
  set n := a.m.length with hn
  have b1 : p * n + i < 3 * n := by nlinarith
  have b2 : q * n + j < 3 * n := by nlinarith
  have e := hM (p * n + i) (q * n + j) b1 b2
  rw [← hn, sum3] at e
  have r : ∀ c, ∑ k ∈ Finset.range n, a.P.Ibet x.alp n (p * n + i) (c * n + k) * a.bet (c * n + k) (q * n + j) =
      matMul n (a.P.block x.alp p c) (betBlk n a.bet c q) i j := fun c =>
    Finset.sum_congr rfl fun k hk => by rw [Ibet_block _ _ hi (Finset.mem_range.1 hk)]; rfl
  have r0 := r 0
  have r1 := r 1
  have r2 := r 2
  simp only [zero_mul, zero_add, one_mul] at r0 r1
  rw [r0, r1, r2] at e
  rw [e]
  have : (p * n + i = q * n + j) ↔ (p = q ∧ i = j) := by
    constructor
    · intro h
      have h1 : (p * n + i) / n = (q * n + j) / n := by rw [h]
      have hn0 : 0 < n := by omega
      rw [mul_comm p, mul_comm q, Nat.mul_add_div hn0, Nat.mul_add_div hn0, Nat.div_eq_of_lt hi, Nat.div_eq_of_lt hj] at h1
      have : p = q := by omega
      subst this
      exact ⟨rfl, by omega⟩
    · rintro ⟨rfl, rfl⟩; rfl
  simp only [this]

/-- Right hand side of the second row (over `dT`). -/
noncomputable def rVec (x : VRC) (a : VRCArrays) (G : Ground) (C : Column) (l : ℕ) (t : ℝ) : ℝ :=
  -(1 / x.base.dT) * (Qt G (soilW G) (a.m.getD l 0) t - Qt G (colW C) (a.m.getD l 0) t)

/-- Coefficients of the pressure in the soil (`k = 0`), in the column (`1`) and at the interface (`2`). -/
noncomputable def vrcCoef (x : VRC) (a : VRCArrays) (G : Ground) (C : Column) (A : ℕ → ℝ → ℝ) (k j : ℕ) (t : ℝ) : ℝ :=
  dotV a.m.length (betBlk a.m.length a.bet k 0) (fun l => A l t) j + dotV a.m.length (betX a.m.length x.alp a.bet k) (fun l => rVec x a G C l t) j

theorem dot_add (n : ℕ) (M : ℕ → ℕ → ℝ) (f g : ℕ → ℝ) (j : ℕ) : dotV n M (fun l => f l + g l) j = dotV n M f j + dotV n M g j := by
  unfold dotV
  rw [← Finset.sum_add_distrib]
  exact Finset.sum_congr rfl fun k _ => by ring

theorem dot_addM (n : ℕ) (M N : ℕ → ℕ → ℝ) (c : ℝ) (f : ℕ → ℝ) (j : ℕ) : dotV n (fun i l => M i l + c * N i l) f j = dotV n M f j + c * dotV n N f j := by
  unfold dotV
  rw [Finset.mul_sum, ← Finset.sum_add_distrib]
  exact Finset.sum_congr rfl fun k _ => by ring

theorem row_eq (hM : a.Inv x) (A : ℕ → ℝ → ℝ) {p i : ℕ} (hp : p < 3) (hi : i < a.m.length) (t : ℝ) :
    dotV a.m.length (a.P.block x.alp p 0) (fun j => vrcCoef x a G C A 0 j t) i + dotV a.m.length (a.P.block x.alp p 1) (fun j => vrcCoef x a G C A 1 j t) i
      + dotV a.m.length (a.P.block x.alp p 2) (fun j => vrcCoef x a G C A 2 j t) i =
    (if p = 0 then A i t else 0) + ((if p = 1 then rVec x a G C i t else 0) + x.alp * if p = 2 then rVec x a G C i t else 0) := by
  set n := a.m.length with hn
  have key : ∀ q, q < 3 → ∀ f : ℕ → ℝ, dotV n (matMul n (a.P.block x.alp p 0) (betBlk n a.bet 0 q)) f i
      + dotV n (matMul n (a.P.block x.alp p 1) (betBlk n a.bet 1 q)) f i + dotV n (matMul n (a.P.block x.alp p 2) (betBlk n a.bet 2 q)) f i =
      if p = q then f i else 0 := by
    intro q hq f
    unfold dotV
    rw [← Finset.sum_add_distrib, ← Finset.sum_add_distrib]
    rw [Finset.sum_congr rfl (fun j hj => by
      rw [← add_mul, ← add_mul, inv3 hM hp hq hi (Finset.mem_range.1 hj)])]
    by_cases e : p = q
    · simp [e, hi]
    · simp [e]
  have bx : ∀ k (f : ℕ → ℝ) j, dotV n (betX n x.alp a.bet k) f j = dotV n (betBlk n a.bet k 1) f j + x.alp * dotV n (betBlk n a.bet k 2) f j :=
    fun k f j => dot_addM n _ _ _ f j
  have ex : ∀ k, dotV n (a.P.block x.alp p k) (fun j => vrcCoef x a G C A k j t) i =
      dotV n (matMul n (a.P.block x.alp p k) (betBlk n a.bet k 0)) (fun l => A l t) i +
      (dotV n (matMul n (a.P.block x.alp p k) (betBlk n a.bet k 1)) (fun l => rVec x a G C l t) i +
        x.alp * dotV n (matMul n (a.P.block x.alp p k) (betBlk n a.bet k 2)) (fun l => rVec x a G C l t) i) := by
    intro k
    unfold vrcCoef
    simp only [← hn, bx]
    rw [dot_add, dot_add, dot_matMul, dot_matMul, dot_matMul]
    congr 2
    unfold dotV
    rw [Finset.mul_sum]
    exact Finset.sum_congr rfl fun k _ => by ring
  rw [ex, ex, ex, ← key 0 (by omega) (fun l => A l t), ← key 1 (by omega) (fun l => rVec x a G C l t), ← key 2 (by omega) (fun l => rVec x a G C l t)]
  ring

end Geotecha.Speccon
