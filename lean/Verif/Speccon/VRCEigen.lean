import Verif.Speccon.PropsVRCParts

/-!
# Property C93: the matrix of soil and column can be inverted, and the eigenvalue problem of speccon1d_vrc
-/

set_option linter.unusedVariables false
open Real intervalIntegral MeasureTheory Filter Topology
namespace Geotecha.Speccon
open Geotecha.Spec Geotecha.Piecewise

variable {x : VRC} {S : Set ℝ} {s tend : ℝ} {G : Ground} {C : Column} {a : VRCArrays}

/-- The energy of soil, column and exchange. -/
noncomputable def energy (n : ℕ) (P : Psis) (α : ℝ) (S1 C1 B1 S2 C2 B2 : ℕ → ℝ) : ℝ :=
  (1 - α) * form n (fun i j => -P.sv i j) S1 S2 + α * form n (fun i j => -P.cv i j) C1 C2
    + (1 - α) * form n P.sh (fun i => S1 i - B1 i) (fun i => S2 i - B2 i) + α * form n P.ch (fun i => C1 i - B1 i) (fun i => C2 i - B2 i)

theorem dot_neg (n : ℕ) (M : ℕ → ℕ → ℝ) (f : ℕ → ℝ) (i : ℕ) : dotV n (fun i j => -M i j) f i = -dotV n M f i := by
  unfold dotV; simp

theorem dot_sub (n : ℕ) (M : ℕ → ℕ → ℝ) (f g : ℕ → ℝ) (j : ℕ) : dotV n M (fun l => f l - g l) j = dotV n M f j - dotV n M g j := by
  unfold dotV
  rw [← Finset.sum_sub_distrib]
  exact Finset.sum_congr rfl fun k _ => by ring

theorem energy_eq {n : ℕ} {P : Psis} {α : ℝ} {S1 C1 B1 S2 C2 B2 c1 : ℕ → ℝ} (h1 : ∀ i, i < n → (1 - α) * S1 i + α * C1 i = c1 i)
    (h2 : ∀ i, i < n → dotV n P.sh S2 i - dotV n P.sv S2 i - dotV n P.ch C2 i + dotV n P.cv C2 i + dotV n P.ch B2 i - dotV n P.sh B2 i = 0)
    (h3 : ∀ i, i < n → dotV n P.sh S2 i - α * dotV n P.sv S2 i + α * dotV n P.cv C2 i - dotV n P.sh B2 i = 0) :
    ∑ i ∈ Finset.range n, c1 i * -((1 - α) * dotV n P.sv S2 i + α * dotV n P.cv C2 i) = energy n P α S1 C1 B1 S2 C2 B2 := by
  unfold energy
  rw [form_vec, form_vec, form_vec, form_vec]
  simp only [Finset.mul_sum, ← Finset.sum_add_distrib]
  refine Finset.sum_congr rfl fun i hi => ?_
  have hi := Finset.mem_range.1 hi
  rw [dot_neg, dot_neg, dot_sub, dot_sub, ← h1 i hi]
  linear_combination ((1 - α) * S1 i * 0 + α * C1 i - α * B1 i) * h2 i hi + (B1 i - (1 - α) * S1 i - α * C1 i) * h3 i hi

theorem energy_symm {n : ℕ} {P : Psis} {α : ℝ} (hP : ∀ i j, i < n → j < n → P.sv i j = P.sv j i ∧ P.cv i j = P.cv j i ∧ P.sh i j = P.sh j i ∧ P.ch i j = P.ch j i)
    (S1 C1 B1 S2 C2 B2 : ℕ → ℝ) : energy n P α S1 C1 B1 S2 C2 B2 = energy n P α S2 C2 B2 S1 C1 B1 := by
  unfold energy
  rw [form_symm (fun i j hi hj => by rw [(hP i j hi hj).1]) S1 S2, form_symm (fun i j hi hj => by rw [(hP i j hi hj).2.1]) C1 C2,
    form_symm (fun i j hi hj => (hP i j hi hj).2.2.1) (fun i => S1 i - B1 i), form_symm (fun i j hi hj => (hP i j hi hj).2.2.2) (fun i => C1 i - B1 i)]

/-- A matrix whose kernel is trivial has an inverse. -/
theorem inv_of_inj {N : ℕ} {w : ℕ → ℕ → ℝ} (h : ∀ c : ℕ → ℝ, (∀ i, i < N → dotV N w c i = 0) → ∀ i, i < N → c i = 0) :
    ∃ I : ℕ → ℕ → ℝ, ∀ i j, i < N → j < N → ∑ k ∈ Finset.range N, w i k * I k j = if i = j then 1 else 0 := by
  have hinj : Function.Injective (blk N w).mulVec := by
    intro u v huv
    have h0 : (blk N w).mulVec (u - v) = 0 := by rw [Matrix.mulVec_sub, huv, sub_self]
    have := h (fun i => if hi : i < N then (u - v) ⟨i, hi⟩ else 0) (fun i hi => by
      have e := congrFun h0 ⟨i, hi⟩
      simp only [Matrix.mulVec, dotProduct, blk, Pi.zero_apply] at e
      unfold dotV
      rw [Finset.sum_range, ← e]
      exact Finset.sum_congr rfl fun k _ => by simp only [dif_pos k.2])
    funext i
    have e := this i i.2
    simp only [i.2, dif_pos, Pi.sub_apply] at e
    exact sub_eq_zero.1 e
  have hu : IsUnit (blk N w) := Matrix.mulVec_injective_iff_isUnit.1 hinj
  rw [Matrix.isUnit_iff_isUnit_det] at hu
  have e := Matrix.mul_nonsing_inv _ hu
  refine ⟨fun i j => if hi : i < N then if hj : j < N then (blk N w)⁻¹ ⟨i, hi⟩ ⟨j, hj⟩ else 0 else 0, fun i j hi hj => ?_⟩
  have := congrFun (congrFun e ⟨i, hi⟩) ⟨j, hj⟩
  rw [Matrix.one_apply] at this
  simp only [Matrix.mul_apply, blk, Fin.mk.injEq] at this
  rw [← this, Finset.sum_range]
  refine Finset.sum_congr rfl (fun k _ => ?_)
  simp only [dif_pos k.2, dif_pos hj]

theorem block_rows (P : Psis) (α : ℝ) {n i : ℕ} (hi : i < n) (S C B : ℕ → ℝ) :
    (dotV n (P.block α 0 0) S i + dotV n (P.block α 0 1) C i + dotV n (P.block α 0 2) B i = (1 - α) * S i + α * C i) ∧
    (dotV n (P.block α 1 0) S i + dotV n (P.block α 1 1) C i + dotV n (P.block α 1 2) B i =
      dotV n P.sh S i - dotV n P.sv S i - dotV n P.ch C i + dotV n P.cv C i + dotV n P.ch B i - dotV n P.sh B i) ∧
    (dotV n (P.block α 2 0) S i + dotV n (P.block α 2 1) C i + dotV n (P.block α 2 2) B i =
      dotV n P.sh S i - α * dotV n P.sv S i + α * dotV n P.cv C i - dotV n P.sh B i) := by
  refine ⟨?_, ?_, ?_⟩
  · have e1 : P.block α 0 0 = fun i j => if i = j then 1 - α else 0 := rfl
    have e2 : P.block α 0 1 = fun i j => if i = j then α else 0 := rfl
    have e3 : P.block α 0 2 = fun i j => 0 := rfl
    rw [e1, e2, e3, dot_diag hi, dot_diag hi]
    simp [dotV]
  · have e1 : P.block α 1 0 = fun i j => P.sh i j + -1 * P.sv i j := by funext i j; simp [Psis.block]; ring
    have e2 : P.block α 1 1 = fun i j => P.cv i j + -1 * P.ch i j := by funext i j; simp [Psis.block]; ring
    have e3 : P.block α 1 2 = fun i j => P.ch i j + -1 * P.sh i j := by funext i j; simp [Psis.block]; ring
    rw [e1, e2, e3, dot_addM, dot_addM, dot_addM]
    ring
  · have e1 : P.block α 2 0 = fun i j => P.sh i j + -α * P.sv i j := by funext i j; simp [Psis.block]; ring
    have e2 : dotV n (P.block α 2 1) C i = α * dotV n P.cv C i := dot_scale (fun j _ => rfl) _
    have e3 : dotV n (P.block α 2 2) B i = -1 * dotV n P.sh B i := dot_scale (fun j _ => by simp [Psis.block]) _
    rw [e1, e2, e3, dot_addM]
    ring

/-- Rows of the inverse applied to a vector. -/
theorem bet_rows (hM : a.Inv x) (c : ℕ → ℝ) {i : ℕ} (hi : i < a.m.length) (Y : ℕ → ℕ → ℝ) (hY : Y = fun k => dotV a.m.length (betBlk a.m.length a.bet k 0) c) :
    (1 - x.alp) * Y 0 i + x.alp * Y 1 i = c i ∧
    dotV a.m.length a.P.sh (Y 0) i - dotV a.m.length a.P.sv (Y 0) i - dotV a.m.length a.P.ch (Y 1) i
      + dotV a.m.length a.P.cv (Y 1) i + dotV a.m.length a.P.ch (Y 2) i - dotV a.m.length a.P.sh (Y 2) i = 0 ∧
    dotV a.m.length a.P.sh (Y 0) i - x.alp * dotV a.m.length a.P.sv (Y 0) i + x.alp * dotV a.m.length a.P.cv (Y 1) i - dotV a.m.length a.P.sh (Y 2) i = 0 := by
  have key : ∀ p, p < 3 → dotV a.m.length (a.P.block x.alp p 0) (Y 0) i + dotV a.m.length (a.P.block x.alp p 1) (Y 1) i
      + dotV a.m.length (a.P.block x.alp p 2) (Y 2) i = if p = 0 then c i else 0 := by
    intro p hp
    subst hY
    simp only
    have e : ∀ q, dotV a.m.length (a.P.block x.alp p q) (dotV a.m.length (betBlk a.m.length a.bet q 0) c) i =
      dotV a.m.length (matMul a.m.length (a.P.block x.alp p q) (betBlk a.m.length a.bet q 0)) c i := fun q => (dot_matMul _ _ _ _ _).symm
    rw [e, e, e]
    unfold dotV
    rw [← Finset.sum_add_distrib, ← Finset.sum_add_distrib]
    rw [Finset.sum_congr rfl (fun j hj => by
      rw [← add_mul, ← add_mul, inv3 hM hp (by omega : 0 < 3) hi (Finset.mem_range.1 hj)])]
    by_cases e : p = 0
    · simp [e, hi]
    · simp [e]
  obtain ⟨b0, b1, b2⟩ := block_rows a.P x.alp hi (Y 0) (Y 1) (Y 2)
  refine ⟨?_, ?_, ?_⟩
  · rw [← b0, key 0 (by omega)]; rfl
  · rw [← b1, key 1 (by omega)]; rfl
  · rw [← b2, key 2 (by omega)]; rfl

/-- Lower bounds of the four matrices. -/
structure PsisLower (n : ℕ) (P : Psis) (dT ν η : ℝ) : Prop where
  sv : ∀ c, ν * ∑ i ∈ Finset.range n, c i ^ 2 ≤ dT * form n (fun i j => -P.sv i j) c c
  cv : ∀ c, ν * ∑ i ∈ Finset.range n, c i ^ 2 ≤ dT * form n (fun i j => -P.cv i j) c c
  sh : ∀ c, η * ∑ i ∈ Finset.range n, c i ^ 2 ≤ dT * form n P.sh c c
  ch : ∀ c, 0 ≤ dT * form n P.ch c c
  symm : ∀ i j, i < n → j < n → P.sv i j = P.sv j i ∧ P.cv i j = P.cv j i ∧ P.sh i j = P.sh j i ∧ P.ch i j = P.ch j i

theorem energy_lower {n : ℕ} {P : Psis} {dT ν η α : ℝ} (hdT : 0 < dT) (h : PsisLower n P dT ν η) (h0 : 0 ≤ α) (h1 : α ≤ 1) (S1 C1 B1 : ℕ → ℝ) :
    (1 - α) * (ν * ∑ i ∈ Finset.range n, S1 i ^ 2) + α * (ν * ∑ i ∈ Finset.range n, C1 i ^ 2) + (1 - α) * (η * ∑ i ∈ Finset.range n, (S1 i - B1 i) ^ 2)
      ≤ dT * energy n P α S1 C1 B1 S1 C1 B1 := by
  unfold energy
  have a1 := mul_le_mul_of_nonneg_left (h.sv S1) (by linarith : 0 ≤ 1 - α)
  have a2 := mul_le_mul_of_nonneg_left (h.cv C1) h0
  have a3 := mul_le_mul_of_nonneg_left (h.sh (fun i => S1 i - B1 i)) (by linarith : 0 ≤ 1 - α)
  have a4 := mul_nonneg h0 (h.ch (fun i => C1 i - B1 i))
  linarith

theorem bet_exists {m : List ℝ} {P : Psis} {dT ν η : ℝ} (hdT : 0 < dT) (h : PsisLower m.length P dT ν η) (hν : 0 < ν) (hη : 0 < η) (hα0 : 0 < x.alp) (hα1 : x.alp < 1) :
    ∃ bet : ℕ → ℕ → ℝ, ∀ p q, p < 3 * m.length → q < 3 * m.length →
      ∑ r ∈ Finset.range (3 * m.length), P.Ibet x.alp m.length p r * bet r q = if p = q then 1 else 0 := by
  refine inv_of_inj (fun c hc => ?_)
  set n := m.length with hn
  set Y : ℕ → ℕ → ℝ := fun k j => c (k * n + j) with hY
  have row : ∀ p, p < 3 → ∀ i, i < n → dotV n (P.block x.alp p 0) (Y 0) i + dotV n (P.block x.alp p 1) (Y 1) i + dotV n (P.block x.alp p 2) (Y 2) i = 0 := by
    intro p hp i hi
    have e := hc (p * n + i) (by nlinarith)
    unfold dotV at e
    rw [sum3] at e
    have r : ∀ k, ∑ j ∈ Finset.range n, P.Ibet x.alp n (p * n + i) (k * n + j) * c (k * n + j) = dotV n (P.block x.alp p k) (Y k) i := fun k =>
      Finset.sum_congr rfl fun j hj => by rw [Ibet_block _ _ hi (Finset.mem_range.1 hj)]
    have r0 := r 0
    have r1 := r 1
    have r2 := r 2
    simp only [zero_mul, zero_add, one_mul] at r0 r1
    rw [r0, r1, r2] at e
    exact e
  have rs := fun i hi => block_rows P x.alp (i := i) (n := n) hi (Y 0) (Y 1) (Y 2)
  have h1 : ∀ i, i < n → (1 - x.alp) * Y 0 i + x.alp * Y 1 i = (fun _ => (0:ℝ)) i := fun i hi => by rw [← (rs i hi).1, row 0 (by omega) i hi]
  have h2 := fun i hi => (rs i hi).2.1.symm.trans (row 1 (by omega) i hi)
  have h3 := fun i hi => (rs i hi).2.2.symm.trans (row 2 (by omega) i hi)
  have en := energy_eq (B1 := Y 2) h1 h2 h3
  have en0 : energy n P x.alp (Y 0) (Y 1) (Y 2) (Y 0) (Y 1) (Y 2) = 0 := by rw [← en]; simp
  have lo := energy_lower hdT h hα0.le hα1.le (Y 0) (Y 1) (Y 2)
  rw [en0, mul_zero] at lo
  have p1 : 0 ≤ ∑ i ∈ Finset.range n, Y 0 i ^ 2 := Finset.sum_nonneg fun i _ => sq_nonneg _
  have p2 : 0 ≤ ∑ i ∈ Finset.range n, Y 1 i ^ 2 := Finset.sum_nonneg fun i _ => sq_nonneg _
  have p3 : 0 ≤ ∑ i ∈ Finset.range n, (Y 0 i - Y 2 i) ^ 2 := Finset.sum_nonneg fun i _ => sq_nonneg _
  have hb : 0 < 1 - x.alp := by linarith
  have z1 : ∑ i ∈ Finset.range n, Y 0 i ^ 2 = 0 := by
    by_contra hne
    have := lt_of_le_of_ne p1 (Ne.symm hne)
    have q1 : 0 < (1 - x.alp) * (ν * ∑ i ∈ Finset.range n, Y 0 i ^ 2) := by positivity
    have q2 : 0 ≤ x.alp * (ν * ∑ i ∈ Finset.range n, Y 1 i ^ 2) := by positivity
    have q3 : 0 ≤ (1 - x.alp) * (η * ∑ i ∈ Finset.range n, (Y 0 i - Y 2 i) ^ 2) := by positivity
    linarith
  have z2 : ∑ i ∈ Finset.range n, (Y 0 i - Y 2 i) ^ 2 = 0 := by
    by_contra hne
    have := lt_of_le_of_ne p3 (Ne.symm hne)
    have q1 : 0 ≤ (1 - x.alp) * (ν * ∑ i ∈ Finset.range n, Y 0 i ^ 2) := by positivity
    have q2 : 0 ≤ x.alp * (ν * ∑ i ∈ Finset.range n, Y 1 i ^ 2) := by positivity
    have q3 : 0 < (1 - x.alp) * (η * ∑ i ∈ Finset.range n, (Y 0 i - Y 2 i) ^ 2) := by positivity
    linarith
  have y0 : ∀ i, i < n → Y 0 i = 0 := fun i hi => by
    have := (Finset.sum_eq_zero_iff_of_nonneg (fun i _ => sq_nonneg _)).1 z1 i (Finset.mem_range.2 hi)
    exact pow_eq_zero_iff (by norm_num) |>.1 this
  have y2 : ∀ i, i < n → Y 2 i = 0 := fun i hi => by
    have := (Finset.sum_eq_zero_iff_of_nonneg (fun i _ => sq_nonneg _)).1 z2 i (Finset.mem_range.2 hi)
    have := pow_eq_zero_iff (by norm_num) |>.1 this
    rw [y0 i hi] at this
    linarith
  have y1 : ∀ i, i < n → Y 1 i = 0 := fun i hi => by
    have := h1 i hi
    rw [y0 i hi, mul_zero, zero_add] at this
    exact (mul_eq_zero.1 this).resolve_left hα0.ne'
  intro i hi
  have e := Nat.div_add_mod i n
  have hn0 : 0 < n := by omega
  have hlt := Nat.mod_lt i hn0
  have hq : i / n < 3 := (Nat.div_lt_iff_lt_mul hn0).2 hi
  have ei : c i = Y (i / n) (i % n) := by
    simp only [hY]; congr 1; rw [mul_comm]; exact e.symm
  rw [ei]
  interval_cases i / n
  · exact y0 _ hlt
  · exact y1 _ hlt
  · exact y2 _ hlt

/-- `psi` before the small entries are set to zero. -/
noncomputable def psiRaw (x : VRC) (a : VRCArrays) (i j : ℕ) : ℝ :=
  ((1 - x.alp) * matMul a.m.length a.P.sv (betBlk a.m.length a.bet 0 0) i j + x.alp * matMul a.m.length a.P.cv (betBlk a.m.length a.bet 1 0) i j) * (-1)

theorem psi_energy (hM : a.Inv x) (c d : ℕ → ℝ) :
    form a.m.length (psiRaw x a) c d = energy a.m.length a.P x.alp (dotV a.m.length (betBlk a.m.length a.bet 0 0) c) (dotV a.m.length (betBlk a.m.length a.bet 1 0) c)
      (dotV a.m.length (betBlk a.m.length a.bet 2 0) c) (dotV a.m.length (betBlk a.m.length a.bet 0 0) d) (dotV a.m.length (betBlk a.m.length a.bet 1 0) d)
      (dotV a.m.length (betBlk a.m.length a.bet 2 0) d) := by
  rw [← energy_eq (c1 := c) (fun i hi => (bet_rows hM c hi _ rfl).1) (fun i hi => (bet_rows hM d hi _ rfl).2.1) (fun i hi => (bet_rows hM d hi _ rfl).2.2),
    form_vec]
  refine Finset.sum_congr rfl fun i hi => ?_
  congr 1
  have e : ∀ (M : ℕ → ℕ → ℝ) k, dotV a.m.length M (dotV a.m.length (betBlk a.m.length a.bet k 0) d) i =
      dotV a.m.length (matMul a.m.length M (betBlk a.m.length a.bet k 0)) d i := fun M k => (dot_matMul _ _ _ _ _).symm
  rw [e, e]
  unfold dotV psiRaw
  simp only [Finset.mul_sum]
  rw [← Finset.sum_add_distrib, ← Finset.sum_neg_distrib]
  exact Finset.sum_congr rfl fun j _ => by ring

theorem vrc_psi_spd (hM : a.Inv x) {dT ν η : ℝ} (hdT : 0 < dT) (h : PsisLower a.m.length a.P dT ν η) (hη : 0 ≤ η) (hν : 0 < ν) (hα0 : 0 < x.alp) (hα1 : x.alp < 1)
    (hn : 1 / 100000000 * a.m.length * dT < ν) : SPD a.m.length (a.P.psi x.alp a.m.length a.bet) := by
  have e : a.P.psi x.alp a.m.length a.bet = chop (psiRaw x a) := rfl
  rw [e]
  constructor
  · refine chop_symm (fun i j hi hj => ?_)
    rw [← form_unit a.m.length (psiRaw x a) hi hj, ← form_unit a.m.length (psiRaw x a) hj hi, psi_energy hM, psi_energy hM, energy_symm h.symm]
  · intro c hc
    have h1 := form_chop a.m.length (psiRaw x a) c
    set S1 := dotV a.m.length (betBlk a.m.length a.bet 0 0) c with hS
    set C1 := dotV a.m.length (betBlk a.m.length a.bet 1 0) c with hC
    set B1 := dotV a.m.length (betBlk a.m.length a.bet 2 0) c with hB
    have h2 := energy_lower hdT h hα0.le hα1.le S1 C1 B1
    have h3 := psi_energy hM c c
    rw [← hS, ← hC, ← hB] at h3
    rw [← h3] at h2
    have h4 := sum_sq_pos hc
    have h5 : ∑ i ∈ Finset.range a.m.length, c i ^ 2 ≤ (1 - x.alp) * (∑ i ∈ Finset.range a.m.length, S1 i ^ 2) + x.alp * ∑ i ∈ Finset.range a.m.length, C1 i ^ 2 := by
      rw [Finset.mul_sum, Finset.mul_sum, ← Finset.sum_add_distrib]
      refine Finset.sum_le_sum fun i hi => ?_
      have e := (bet_rows hM c (Finset.mem_range.1 hi) _ rfl).1
      have e' : (1 - x.alp) * S1 i + x.alp * C1 i = c i := e
      rw [← e']
      nlinarith [mul_nonneg (mul_nonneg hα0.le (by linarith : 0 ≤ 1 - x.alp)) (sq_nonneg (S1 i - C1 i))]
    have p3 : 0 ≤ (1 - x.alp) * (η * ∑ i ∈ Finset.range a.m.length, (S1 i - B1 i) ^ 2) :=
      mul_nonneg (by linarith) (mul_nonneg hη (Finset.sum_nonneg fun i _ => sq_nonneg _))
    have h6 := mul_le_mul_of_nonneg_left h5 hν.le
    have h7 : ν * ∑ i ∈ Finset.range a.m.length, c i ^ 2 ≤ dT * form a.m.length (psiRaw x a) c c := by nlinarith
    have h8 := mul_le_mul_of_nonneg_left h1 hdT.le
    have h9 := mul_lt_mul_of_pos_right hn h4
    have : 0 < dT * form a.m.length (chop (psiRaw x a)) c c := by nlinarith
    exact (pos_iff_pos_of_mul_pos this).1 hdT

theorem psis_lower (h : VRCInput x S s tend G C) (hdT : 0 < x.base.dT) {m : List ℝ} (hm : x.base.m = .ok m) {P : Psis} (hP : x.psis m = .ok P) {ν η : ℝ} (hν0 : 0 ≤ ν)
    (hν : ∀ z, 0 < z → z < 1 → ν ≤ G.vert z) (hκ : ∀ z, 0 < z → z < 1 → ν ≤ C.cond z) (hη : ∀ z, 0 < z → z < 1 → η ≤ G.horiz z)
    (hθ : ∀ z, 0 < z → z < 1 → 0 ≤ C.horiz z) : PsisLower m.length P x.base.dT (ν * (π / 2) ^ 2 / 2) (η / 2) := by
  obtain ⟨hl, hget, hd, hne, hsc⟩ := m_ok h.base hm
  have hdr : G.drn = 0 ∨ G.drn = 1 := by rw [h.base.drnG]; exact h.base.drn
  obtain ⟨P', eP, hPv⟩ := psis_ok h hd
  rw [hP] at eP
  injection eP with eP
  subst eP
  obtain ⟨kv, c0, ekv, edT, hW⟩ := soil_cond h
  have rad : ∀ (k : ℝ → ℝ) (hk : BddOn k 0 1) (η : ℝ) (hη : ∀ z, 0 < z → z < 1 → η ≤ k z) (p : ℕ → ℕ → ℝ)
      (hp : ∀ i j, i < m.length → j < m.length → x.base.dT * p i j = radialK k (m.getD i 0) (m.getD j 0)) (c : ℕ → ℝ),
      η / 2 * ∑ i ∈ Finset.range m.length, c i ^ 2 ≤ x.base.dT * form m.length p c c := by
    intro k hk η hη p hp c
    have h3 := form_lower hk hη m.length (fun i z => sin (freq G.drn i * z)) (fun i => by fun_prop)
      (fun i j => (orthogonal hdr i j).1) c
    rw [← form_smul, form_congr (b := fun i j => ∫ z in (0:ℝ)..1, k z * sin (freq G.drn i * z) * sin (freq G.drn j * z)) (fun i j hi hj => by
      rw [hp i j hi hj, hget i (by omega), hget j (by omega)]; rfl)]
    linarith
  constructor
  · intro c
    have := psi_lower (v_input h.base hW) hm (p := fun i j => -P.sv i j) (fun i j hi hj => by
      have := (hPv i j hi hj).1
      show x.base.dT * -P.sv i j = _
      linarith) hν0 hν (η := 0) (fun z _ _ => le_rfl) (by simp [wellG]) c
    rw [add_zero] at this
    exact this
  · intro c
    have := psi_lower (v_input h.base (W := colW C) h.col) hm (p := fun i j => -P.cv i j) (fun i j hi hj => by
      have := (hPv i j hi hj).2.1
      show x.base.dT * -P.cv i j = _
      linarith) hν0 hκ (η := 0) (fun z _ _ => le_rfl) (by simp [wellG]) c
    rw [add_zero] at this
    exact this
  · exact rad G.horiz (horiz_bdd h.base) η hη P.sh (fun i j hi hj => (hPv i j hi hj).2.2.1)
  · intro c
    have := rad C.horiz (colH_bdd h) 0 hθ P.ch (fun i j hi hj => (hPv i j hi hj).2.2.2) c
    simpa using this
  · intro i j hi hj
    obtain ⟨a1, a2, a3, a4⟩ := hPv i j hi hj
    obtain ⟨b1, b2, b3, b4⟩ := hPv j i hj hi
    have rs : ∀ k w w', radialK k w w' = radialK k w' w := fun k w w' => by
      unfold radialK; congr 1; funext z; ring
    refine ⟨mul_left_cancel₀ hdT.ne' ?_, mul_left_cancel₀ hdT.ne' ?_, mul_left_cancel₀ hdT.ne' ?_, mul_left_cancel₀ hdT.ne' ?_⟩
    · rw [a1, b1, psiForm_symm]
    · rw [a2, b2, psiForm_symm]
    · rw [a3, b3, rs]
    · rw [a4, b4, rs]

/-- For a soil and a column with positive compressibility and permeability, and a diameter ratio above 1, the matrix of soil and column has an
inverse, the eigenvalue problem has a real solution, and all eigenvalues are positive in every solution. -/
theorem C93_eigensystem (h : VRCInput x S s tend G C) (hdT : 0 < x.base.dT) (hn : 1 < x.n) (μ ν η : ℝ) (hμ : ∀ z, 0 < z → z < 1 → μ ≤ G.mv z) (hν0 : 0 < ν)
    (hν : ∀ z, 0 < z → z < 1 → ν ≤ G.vert z) (hκ : ∀ z, 0 < z → z < 1 → ν ≤ C.cond z) (hη0 : 0 < η) (hη : ∀ z, 0 < z → z < 1 → η ≤ G.horiz z)
    (hθ : ∀ z, 0 < z → z < 1 → 0 ≤ C.horiz z)
    (hn1 : 1 / 100000000 * x.base.neig < μ / 2) (hn2 : 1 / 100000000 * x.base.neig * x.base.dT < ν * (π / 2) ^ 2 / 2) :
    (∃ a : VRCArrays, a.Made x) ∧ ∀ a : VRCArrays, a.Made x → ∀ i, i < a.m.length → 0 < a.eigs i := by
  have hm0 : x.base.m = .ok (eigs x.base.neig x.base.drn) := (C32_distinct x.base.neig x.base.drn h.base.drn).1
  have hα0 : 0 < x.alp := by unfold VRC.alp; positivity
  have hα1 : x.alp < 1 := by
    unfold VRC.alp
    rw [div_lt_one (by positivity)]
    nlinarith
  have hπ : 0 < ν * (π / 2) ^ 2 / 2 := by have := pi_pos; positivity
  have key : ∀ a : VRCArrays, x.base.m = .ok a.m → x.psis a.m = .ok a.P → a.Inv x → ∃ gam, x.base.gam a.m = .ok gam ∧ SPD a.m.length gam ∧
      SPD a.m.length (a.P.psi x.alp a.m.length a.bet) := by
    intro a hm hP hI
    obtain ⟨hl, hget, hd, hne, hsc⟩ := m_ok h.base hm
    obtain ⟨g, eg, hge⟩ := gam_ok h.base hd
    exact ⟨_, eg, gam_spd h.base hm hge hμ hn1, vrc_psi_spd hI hdT (psis_lower h hdT hm hP hν0.le hν hκ hη hθ) (by linarith) hπ hα0 hα1 (by rw [hl]; exact hn2)⟩
  constructor
  · obtain ⟨hl, hget, hd, hne, hsc⟩ := m_ok h.base hm0
    obtain ⟨P, eP, _⟩ := psis_ok h hd
    obtain ⟨bet, hb⟩ := bet_exists (x := x) hdT (psis_lower h hdT hm0 eP hν0.le hν hκ hη hθ) hπ (by linarith) hα0 hα1
    obtain ⟨gam, e1, s1, s2⟩ := key ⟨_, P, bet, fun _ => 0, fun _ _ => 0, fun _ _ => 0⟩ hm0 eP hb
    obtain ⟨ei, v, w, hE⟩ := eigen_exists s1 s2.symm
    exact ⟨⟨_, P, bet, ei, v, w⟩, hm0, eP, hb, gam, e1, hE⟩
  · intro a hM
    obtain ⟨gam, e1, hE⟩ := hM.eig
    obtain ⟨gam', f1, s1, s2⟩ := key a hM.m hM.P hM.inv
    rw [e1] at f1
    injection f1 with f1
    subst f1
    exact eigs_pos s1 s2 hE

/-! ## The hypotheses are met -/

/-- 3 at all depths -/
noncomputable def Ex.flat : PolyLine ℝ := ⟨some [(0, 3), (1, 3)], false, false, none⟩

theorem Ex.flat_profile : Profile {0, 1/2, 1} Ex.flat (fun _ => 3) := by
  refine ⟨_, rfl, ?_, ?_, ⟨by simp, by norm_num, by norm_num⟩, ?_, ?_, ?_⟩
  · simp only [PolyLine.getSegs, Ex.flat, PolyLine.getX, PolyLine.getY, PolyLine.getXY, convertToSegs, pieces, toSegs4]
    have e : segs [(0:ℝ), 1] = [0] := rfl
    simp only [List.map_cons, List.map_nil, e]
    norm_num [List.filter, nth]
  · norm_num [SortedLe]
  · intro q hq; simp at hq; rcases hq with h | h <;> subst h <;> simp
  · intro q hq
    simp only [List.mem_cons, List.not_mem_nil, or_false] at hq
    rcases hq with h | h <;> subst h <;> simp [RealStep, firstAt, lastAt, List.find?] <;> norm_num
  · intro z h0 h1 hz
    have b0 : ¬ z < 0 := by linarith
    simp only [polyLeft]
    rw [if_neg b0, if_pos ⟨by norm_num, h1.le⟩]; simp [line]

/-- The soil of `Ex.input`, without vacuum, fixed pressures and pumps, around a column of half its diameter, permeability varying with depth. -/
noncomputable def Ex.columnInput : VRC :=
  ⟨{ Ex.input with vacuumDepth := none, vacuumTime := none, fixedPpress := none, pumping := none }, 2, 3, 5, Ex.layers, Ex.layers⟩

noncomputable def Ex.columnGround : Ground := { Ex.ground with drain := fun _ _ => 0, fixed := [], pumps := [] }

noncomputable def Ex.column : Column := ⟨fun z => 3 * Ex.layersF z, 3 * 2, fun z => 5 * Ex.layersF z⟩

theorem Ex.column_ok : VRCInput Ex.columnInput {0, 1/2, 1} 0 5 Ex.columnGround Ex.column where
  base := { Ex.input_ok with drain := fun z t => rfl, fixed := rfl, pumps := rfl }
  noVac := ⟨rfl, rfl, rfl⟩
  n := by norm_num [Ex.columnInput]
  given := ⟨rfl, rfl, rfl, rfl, rfl⟩
  col := Ex.well_ok.well
  colH := ⟨_, Ex.layers_profile, fun z => rfl⟩

/-- C93 on this input. -/
theorem Ex.column_solvable : (∃ a : VRCArrays, a.Made Ex.columnInput) ∧ ∀ a : VRCArrays, a.Made Ex.columnInput → ∀ i, i < a.m.length → 0 < a.eigs i := by
  refine C93_eigensystem Ex.column_ok (by norm_num [Ex.columnInput, Ex.input]) (by norm_num [Ex.columnInput]) 1 1 2 (fun z _ _ => Ex.layersF_ge z) one_pos
    (fun z _ _ => by simpa [Ex.columnGround, Ex.ground] using Ex.layersF_ge z) (fun z _ _ => ?_) (by norm_num) (fun z _ _ => ?_) (fun z _ _ => ?_)
    (by norm_num [Ex.columnInput, Ex.input]) ?_
  · have := Ex.layersF_ge z
    simp only [Ex.column]; linarith
  · have := Ex.layersF_ge z
    simp only [Ex.columnGround, Ex.ground]; nlinarith
  · have := Ex.layersF_ge z
    simp only [Ex.column]; linarith
  · have := two_le_pi
    norm_num [Ex.columnInput, Ex.input]; nlinarith

/-- C90 on this input: boundary values, whatever the permeability of the column. -/
example : ∃ (a : VRCArrays) (u us uc : ℝ → ℝ → ℝ), a.Made Ex.columnInput ∧
    (∀ z t, 0 ≤ z → z ≤ 1 → 0 ≤ t → t ≤ 5 → Ex.columnInput.por a z t = .ok (u z t)) ∧ ∀ t, us 0 t = 100 ∧ uc 0 t = 100 := by
  obtain ⟨⟨a, hM⟩, hpos⟩ := Ex.column_solvable
  obtain ⟨A, As, Ac, Ab, u, us, usz, uc, ucz, beta, p1, p2, p3, p4, p5, p6, p7, p8⟩ := C90_error Ex.column_ok hM (fun i hi => (hpos a hM i hi).ne')
  exact ⟨a, u, us, uc, hM, p1, fun t => ⟨(p4 t).1, (p5 t).1⟩⟩

/-- C91 on this input. -/
example : ∃ (a : VRCArrays) (u : ℝ → ℝ), a.Made Ex.columnInput ∧
    Ex.columnInput.settle a (1/4) 1 2 = .ok (10 * (1/2) * ∫ z in (1/4 : ℝ)..1, Ex.layersF z * (Ex.layersF z * 100 - u z)) := by
  obtain ⟨⟨a, hM⟩, hpos⟩ := Ex.column_solvable
  obtain ⟨u, b, h1, h2, h3, h4⟩ := C91_outputs_agree Ex.column_ok hM (fun i hi => (hpos a hM i hi).ne') (1/4) 1 2
    (by norm_num) (by norm_num) (by norm_num) (by norm_num) (by norm_num) (fun l d h1 h2 => by cases h1; cases h2; exact ⟨rfl, rfl⟩)
    (fun h => by cases h)
  exact ⟨a, u, hM, h4⟩

/-- C92 (the average of the two pressures) on this input: a quarter of the area is column. -/
example : ∃ (a : VRCArrays) (u us uc : ℝ), a.Made Ex.columnInput ∧ Ex.columnInput.por a (1/3) 2 = .ok u ∧ Ex.columnInput.pors a (1/3) 2 = .ok us ∧
    Ex.columnInput.porc a (1/3) 2 = .ok uc ∧ u = 3/4 * us + 1/4 * uc := by
  obtain ⟨⟨a, hM⟩, hpos⟩ := Ex.column_solvable
  obtain ⟨u, us, uc, h1, h2, h3, h4⟩ := C92_average Ex.column_ok hM (fun i hi => (hpos a hM i hi).ne') (1/3) 2 (by norm_num) (by norm_num) (by norm_num) (by norm_num)
  exact ⟨a, u, us, uc, hM, h1, h2, h3, by rw [h4]; norm_num [Ex.columnInput]⟩

/-- The same with a homogeneous column and `dT = 1`. -/
noncomputable def Ex.columnInput2 : VRC := { Ex.columnInput with base := { Ex.columnInput.base with dT := 1 }, kvc := Ex.flat }

noncomputable def Ex.columnGround2 : Ground := Ex.columnGround

noncomputable def Ex.column2 : Column := ⟨fun z => 3 * 3, 3 * 3, fun z => 5 * Ex.layersF z⟩

theorem Ex.column_ok2 : VRCInput Ex.columnInput2 {0, 1/2, 1} 0 5 Ex.columnGround2 Ex.column2 where
  base := { Ex.column_ok.base with dT := one_ne_zero, fixed := rfl, pumps := rfl }
  noVac := ⟨rfl, rfl, rfl⟩
  n := by norm_num [Ex.columnInput2, Ex.columnInput]
  given := ⟨rfl, rfl, rfl, rfl, rfl⟩
  col := ⟨_, 3, Ex.flat_profile, tendsto_const_nhds, fun z => rfl, rfl⟩
  colH := ⟨_, Ex.layers_profile, fun z => rfl⟩

/-- C90, C92 on this input: with loads at both boundaries all the equations hold. -/
example : ∃ (a : VRCArrays) (us uc : ℝ → ℝ → ℝ), a.Made Ex.columnInput2 ∧
    (∀ z t, 0 ≤ z → z ≤ 1 → 0 < t → t ≤ 5 → Ex.columnInput2.pors a z t = .ok (us z t) ∧ Ex.columnInput2.porc a z t = .ok (uc z t)) ∧
    ∀ t, us 0 t = 100 ∧ uc 0 t = 100 := by
  obtain ⟨⟨a, hM⟩, hpos⟩ := C93_eigensystem Ex.column_ok2 one_pos (by norm_num [Ex.columnInput2, Ex.columnInput]) 1 1 2 (fun z _ _ => Ex.layersF_ge z) one_pos
    (fun z _ _ => by simpa [Ex.columnGround2, Ex.columnGround, Ex.ground] using Ex.layersF_ge z) (fun z _ _ => by norm_num [Ex.column2])
    (by norm_num) (fun z _ _ => by
      have := Ex.layersF_ge z
      simp only [Ex.columnGround2, Ex.columnGround, Ex.ground]; nlinarith) (fun z _ _ => by
      have := Ex.layersF_ge z
      simp only [Ex.column2]; linarith)
    (by norm_num [Ex.columnInput2, Ex.columnInput, Ex.input]) (by
      have := two_le_pi
      norm_num [Ex.columnInput2, Ex.columnInput, Ex.input]; nlinarith)
  have hF : ∀ z, 0 < z → z < 1 → Ex.column2.cond z = Ex.column2.condEnd := fun z _ _ => rfl
  obtain ⟨A, As, Ac, Ab, u, us, usz, uc, ucz, beta, p1, p2, p3, p4, p5, p6, p7, p8⟩ :=
    C90_weak_form_partial Ex.column_ok2 hM (fun i hi => (hpos a hM i hi).ne') (Or.inr hF)
  obtain ⟨A, u, us, usz, uc, ucz, beta, q1, q2, q3, q4, q5, q6⟩ :=
    C92_parts_partial Ex.column_ok2 hM (fun i hi => (hpos a hM i hi).ne') (Or.inr ⟨rfl, hF⟩)
  exact ⟨a, us, uc, hM, fun z t hz0 hz1 ht0 ht1 => q2 z t hz0 hz1 ht0.le ht1 (Ex.load_noStep t ht0 ht1) (Ex.load_noStep t ht0 ht1),
    fun t => ⟨(q4 t).1, (q5 t).1⟩⟩

end Geotecha.Speccon
