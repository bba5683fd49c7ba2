import Verif.Speccon.Eigen
import Mathlib.Algebra.Order.Chebyshev

/-!
# The matrices of speccon1d_vr are positive definite (helpers for C78)
-/

set_option linter.unusedVariables false
open Real intervalIntegral MeasureTheory Filter Topology
namespace Geotecha.Speccon
open Geotecha.Spec Geotecha.Piecewise

variable {x : VR} {S : Set ℝ} {s tend : ℝ} {G : Ground}

theorem int_cos_pi (k : ℤ) : ∫ z in (0:ℝ)..1, cos (π * k * z) = if k = 0 then 1 else 0 := by
  split_ifs with h
  · subst h; simp
  · have hk : (π * k : ℝ) ≠ 0 := mul_ne_zero pi_ne_zero (by exact_mod_cast h)
    rw [intervalIntegral.integral_comp_mul_left (fun z => cos z) hk]
    simp only [integral_cos, mul_zero, mul_one, sin_zero, sub_zero]
    rw [mul_comm π, sin_int_mul_pi, smul_zero]

/-- frequency `j` -/
noncomputable def freq (d : ℤ) (j : ℕ) : ℝ := π * ((j:ℝ) + 1 - d / 2)

theorem orthogonal {d : ℤ} (hd : d = 0 ∨ d = 1) (i j : ℕ) :
    (∫ z in (0:ℝ)..1, sin (freq d i * z) * sin (freq d j * z)) = (if i = j then 1 / 2 else 0) ∧
    (∫ z in (0:ℝ)..1, cos (freq d i * z) * cos (freq d j * z)) = (if i = j then 1 / 2 else 0) := by
  have a1 : ∀ z, cos (freq d i * z - freq d j * z) = cos (π * ((i:ℤ) - j : ℤ) * z) := fun z => by
    congr 1; unfold freq; push_cast; ring
  have a2 : ∀ z, cos (freq d i * z + freq d j * z) = cos (π * ((i:ℤ) + j + 2 - d : ℤ) * z) := fun z => by
    congr 1; unfold freq; push_cast; ring
  have b1 := int_cos_pi ((i:ℤ) - j)
  have b2 := int_cos_pi ((i:ℤ) + j + 2 - d)
  rw [if_neg (by omega)] at b2
  have b1' : ∫ z in (0:ℝ)..1, cos (π * ((i:ℤ) - j : ℤ) * z) = if i = j then 1 else 0 := by
    rw [b1]; congr 1; simp only [eq_iff_iff]; omega
  have c1 : IntervalIntegrable (fun z : ℝ => cos (π * ((i:ℤ) - j : ℤ) * z)) volume 0 1 := by
    apply Continuous.intervalIntegrable; fun_prop
  have c2 : IntervalIntegrable (fun z : ℝ => cos (π * ((i:ℤ) + j + 2 - d : ℤ) * z)) volume 0 1 := by
    apply Continuous.intervalIntegrable; fun_prop
  constructor
  · have e : (fun z => sin (freq d i * z) * sin (freq d j * z)) =
        fun z => (1 / 2 : ℝ) * (cos (π * ((i:ℤ) - j : ℤ) * z) - cos (π * ((i:ℤ) + j + 2 - d : ℤ) * z)) := by
      funext z; rw [← a1, ← a2, cos_sub, cos_add]; ring
    rw [e, intervalIntegral.integral_const_mul, intervalIntegral.integral_sub c1 c2, b1', b2]
    split_ifs <;> norm_num
  · have e : (fun z => cos (freq d i * z) * cos (freq d j * z)) =
        fun z => (1 / 2 : ℝ) * (cos (π * ((i:ℤ) - j : ℤ) * z) + cos (π * ((i:ℤ) + j + 2 - d : ℤ) * z)) := by
      funext z; rw [← a1, ← a2, cos_sub, cos_add]; ring
    rw [e, intervalIntegral.integral_const_mul, intervalIntegral.integral_add c1 c2, b1', b2]
    split_ifs <;> norm_num

/-- A weighted quadratic form is the weighted integral of a square. -/
theorem form_int {f : ℝ → ℝ} (hf : BddOn f 0 1) (n : ℕ) (φ : ℕ → ℝ → ℝ) (hφ : ∀ i, Continuous (φ i)) (c : ℕ → ℝ) :
    form n (fun i j => ∫ z in (0:ℝ)..1, f z * φ i z * φ j z) c c = ∫ z in (0:ℝ)..1, f z * (∑ i ∈ Finset.range n, c i * φ i z) ^ 2 := by
  have hi : ∀ i j, IntervalIntegrable (fun z => c i * (f z * φ i z * φ j z) * c j) volume 0 1 := fun i j => by
    have : (fun z => c i * (f z * φ i z * φ j z) * c j) = fun z => f z * ((c i * c j) * (φ i z * φ j z)) := by funext z; ring
    rw [this]
    exact (hf.mul (BddOn.of_continuous (continuous_const.mul ((hφ i).mul (hφ j))) 0 1)).int zero_le_one
  have e : (fun z => f z * (∑ i ∈ Finset.range n, c i * φ i z) ^ 2) =
      fun z => ∑ i ∈ Finset.range n, ∑ j ∈ Finset.range n, c i * (f z * φ i z * φ j z) * c j := by
    funext z
    rw [sq, Finset.sum_mul_sum, Finset.mul_sum]
    refine Finset.sum_congr rfl (fun i _ => ?_)
    rw [Finset.mul_sum]
    exact Finset.sum_congr rfl (fun j _ => by ring)
  have hi2 : ∀ i, IntervalIntegrable (fun z => ∑ j ∈ Finset.range n, c i * (f z * φ i z * φ j z) * c j) volume 0 1 := fun i => by
    have := IntervalIntegrable.sum (Finset.range n) (f := fun j z => c i * (f z * φ i z * φ j z) * c j) (fun j _ => hi i j)
    have e : (∑ j ∈ Finset.range n, fun z => c i * (f z * φ i z * φ j z) * c j) =
        fun z => ∑ j ∈ Finset.range n, c i * (f z * φ i z * φ j z) * c j := by funext z; simp
    rwa [e] at this
  rw [e, intervalIntegral.integral_finsetSum (fun i _ => hi2 i)]
  unfold form
  refine Finset.sum_congr rfl (fun i _ => ?_)
  rw [intervalIntegral.integral_finsetSum (fun j _ => hi i j)]
  refine Finset.sum_congr rfl (fun j _ => ?_)
  rw [intervalIntegral.integral_mul_const, intervalIntegral.integral_const_mul]

theorem form_diag (n : ℕ) (a c : ℕ → ℝ) : form n (fun i j => if i = j then a i else 0) c c = ∑ i ∈ Finset.range n, a i * c i ^ 2 := by
  unfold form
  refine Finset.sum_congr rfl (fun i hi => ?_)
  rw [Finset.sum_eq_single i]
  · simp; ring
  · intro j _ hj; simp [Ne.symm hj]
  · intro h; exact absurd hi h

theorem int_sq (n : ℕ) (φ : ℕ → ℝ → ℝ) (hφ : ∀ i, Continuous (φ i))
    (ho : ∀ i j, (∫ z in (0:ℝ)..1, φ i z * φ j z) = if i = j then 1 / 2 else 0) (c : ℕ → ℝ) :
    ∫ z in (0:ℝ)..1, (∑ i ∈ Finset.range n, c i * φ i z) ^ 2 = 1 / 2 * ∑ i ∈ Finset.range n, c i ^ 2 := by
  have h := form_int (f := fun _ => 1) (BddOn.of_continuous continuous_const 0 1) n φ hφ c
  simp only [one_mul] at h
  rw [← h]
  have : (fun i j => ∫ z in (0:ℝ)..1, φ i z * φ j z) = fun i j => if i = j then (1/2 : ℝ) else 0 := by
    funext i j; exact ho i j
  rw [this, form_diag n (fun _ => 1/2), Finset.mul_sum]

theorem form_lower {f : ℝ → ℝ} (hf : BddOn f 0 1) {μ : ℝ} (hμ : ∀ z, 0 < z → z < 1 → μ ≤ f z) (n : ℕ) (φ : ℕ → ℝ → ℝ) (hφ : ∀ i, Continuous (φ i))
    (ho : ∀ i j, (∫ z in (0:ℝ)..1, φ i z * φ j z) = if i = j then 1 / 2 else 0) (c : ℕ → ℝ) :
    μ * (1 / 2 * ∑ i ∈ Finset.range n, c i ^ 2) ≤ form n (fun i j => ∫ z in (0:ℝ)..1, f z * φ i z * φ j z) c c := by
  rw [form_int hf n φ hφ, ← int_sq n φ hφ ho c, ← intervalIntegral.integral_const_mul]
  have hc : Continuous (fun z => (∑ i ∈ Finset.range n, c i * φ i z) ^ 2) := by fun_prop
  refine intervalIntegral.integral_mono_on_of_le_Ioo zero_le_one ((continuous_const.mul hc).intervalIntegrable _ _)
    ((hf.mul (BddOn.of_continuous hc 0 1)).int zero_le_one) (fun z hz => ?_)
  exact mul_le_mul_of_nonneg_right (hμ z hz.1 hz.2) (sq_nonneg _)

theorem form_congr {n : ℕ} {a b : ℕ → ℕ → ℝ} (h : ∀ i j, i < n → j < n → a i j = b i j) (c d : ℕ → ℝ) : form n a c d = form n b c d :=
  Finset.sum_congr rfl (fun i hi => Finset.sum_congr rfl (fun j hj => by rw [h i j (Finset.mem_range.1 hi) (Finset.mem_range.1 hj)]))

theorem form_chop (n : ℕ) (a : ℕ → ℕ → ℝ) (c : ℕ → ℝ) :
    form n a c c - 1 / 100000000 * (n * ∑ i ∈ Finset.range n, c i ^ 2) ≤ form n (chop a) c c := by
  have h1 : form n a c c - form n (chop a) c c = form n (fun i j => a i j - chop a i j) c c := by
    unfold form
    simp only [← Finset.sum_sub_distrib]
    exact Finset.sum_congr rfl (fun i _ => Finset.sum_congr rfl (fun j _ => by ring))
  have h2 : form n (fun i j => a i j - chop a i j) c c ≤ 1 / 100000000 * (∑ i ∈ Finset.range n, |c i|) ^ 2 := by
    rw [sq, Finset.sum_mul_sum, Finset.mul_sum]
    unfold form
    refine Finset.sum_le_sum (fun i _ => ?_)
    rw [Finset.mul_sum]
    refine Finset.sum_le_sum (fun j _ => ?_)
    refine (le_abs_self _).trans ?_
    rw [abs_mul, abs_mul]
    have := mul_le_mul_of_nonneg_left (chop_near a i j) (mul_nonneg (abs_nonneg (c i)) (abs_nonneg (c j)))
    nlinarith [this]
  have h3 : (∑ i ∈ Finset.range n, |c i|) ^ 2 ≤ n * ∑ i ∈ Finset.range n, c i ^ 2 := by
    have := sq_sum_le_card_mul_sum_sq (s := Finset.range n) (f := fun i => |c i|)
    simpa using this
  linarith [mul_le_mul_of_nonneg_left h3 (show (0:ℝ) ≤ 1 / 100000000 by norm_num)]

theorem sum_sq_pos {n : ℕ} {c : ℕ → ℝ} (h : ∃ i, i < n ∧ c i ≠ 0) : 0 < ∑ i ∈ Finset.range n, c i ^ 2 := by
  obtain ⟨i, hi, hc⟩ := h
  exact Finset.sum_pos' (fun j _ => sq_nonneg _) ⟨i, Finset.mem_range.2 hi, by positivity⟩

theorem chop_symm {n : ℕ} {a : ℕ → ℕ → ℝ} (h : ∀ i j, i < n → j < n → a i j = a j i) (i j : ℕ) (hi : i < n) (hj : j < n) :
    chop a i j = chop a j i := by
  unfold chop; rw [h i j hi hj]

/-- `gam` is positive definite. -/
theorem gam_spd (h : VRInput x S s tend G) {m : List ℝ} (hm : x.m = .ok m) {g : ℕ → ℕ → ℝ}
    (hg : ∀ i j, i < m.length → j < m.length → g i j = gamma G (m.getD i 0) (m.getD j 0)) {μ : ℝ}
    (hμ : ∀ z, 0 < z → z < 1 → μ ≤ G.mv z) (hn : 1 / 100000000 * x.neig < μ / 2) : SPD m.length (chop g) := by
  obtain ⟨hl, hget, hd, hne, hsc⟩ := m_ok h hm
  have hdr : G.drn = 0 ∨ G.drn = 1 := by rw [h.drnG]; exact h.drn
  constructor
  · refine chop_symm (fun i j hi hj => ?_)
    rw [hg i j hi hj, hg j i hj hi]
    unfold gamma
    congr 1; funext z; ring
  · intro c hc
    have h1 := form_chop m.length g c
    have h2 := form_lower (Profile.bdd h.mv) hμ m.length (fun i z => sin (freq G.drn i * z)) (fun i => by fun_prop)
      (fun i j => (orthogonal hdr i j).1) c
    have h3 : form m.length g c c = form m.length (fun i j => ∫ z in (0:ℝ)..1, G.mv z * sin (freq G.drn i * z) * sin (freq G.drn j * z)) c c := by
      refine form_congr (fun i j hi hj => ?_) c c
      rw [hg i j hi hj, hget i (by omega), hget j (by omega)]
      rfl
    have h4 := sum_sq_pos hc
    rw [h3, hl] at h1
    rw [hl] at h2 h4 ⊢
    nlinarith

theorem freq_ge {d : ℤ} (hd : d = 0 ∨ d = 1) (i : ℕ) : π / 2 ≤ freq d i := by
  unfold freq
  have : (d:ℝ) ≤ 1 := by rcases hd with h | h <;> rw [h] <;> norm_num
  nlinarith [pi_pos, (Nat.cast_nonneg i : (0:ℝ) ≤ i)]

theorem psiForm_symm (G : Ground) (w w' : ℝ) : psiForm G w w' = psiForm G w' w := by
  unfold psiForm
  congr 1
  · congr 1
    · congr 1; funext z; ring
    · congr 1; funext z; ring
  · congr 2; funext f; ring

/-- Lower bound of the flow form. -/
theorem psi_lower (h : VRInput x S s tend G) {m : List ℝ} (hm : x.m = .ok m) {p : ℕ → ℕ → ℝ}
    (hp : ∀ i j, i < m.length → j < m.length → x.dT * p i j = psiForm G (m.getD i 0) (m.getD j 0)) {ν η : ℝ}
    (hν0 : 0 ≤ ν) (hν : ∀ z, 0 < z → z < 1 → ν ≤ G.vert z) (hη : ∀ z, 0 < z → z < 1 → η ≤ G.horiz z) (hf : ∀ f ∈ G.fixed, 0 ≤ f.2.1)
    (c : ℕ → ℝ) : (ν * (π / 2) ^ 2 + η) / 2 * ∑ i ∈ Finset.range m.length, c i ^ 2 ≤ x.dT * form m.length p c c := by
  obtain ⟨hl, hget, hd, hne, hsc⟩ := m_ok h hm
  have hdr : G.drn = 0 ∨ G.drn = 1 := by rw [h.drnG]; exact h.drn
  have h2 := form_lower (vert_bdd h) hν m.length (fun i z => cos (freq G.drn i * z)) (fun i => by fun_prop)
    (fun i j => (orthogonal hdr i j).2) (fun i => freq G.drn i * c i)
  have h3 := form_lower (horiz_bdd h) hη m.length (fun i z => sin (freq G.drn i * z)) (fun i => by fun_prop)
    (fun i j => (orthogonal hdr i j).1) c
  have h4 : 0 ≤ form m.length (fun i j => (G.fixed.map (fun f => f.2.1 * sin (freq G.drn i * f.1) * sin (freq G.drn j * f.1))).sum) c c := by
    have : ∀ L : List (ℝ × ℝ × (ℝ → ℝ)), (∀ f ∈ L, 0 ≤ f.2.1) →
        0 ≤ form m.length (fun i j => (L.map (fun f => f.2.1 * sin (freq G.drn i * f.1) * sin (freq G.drn j * f.1))).sum) c c := by
      intro L
      induction L with
      | nil => intro _; simp [form]
      | cons f L ih =>
        intro hL
        have k1 := ih (fun g hg => hL g (by simp [hg]))
        have k2 : form m.length (fun i j => ((f :: L).map (fun f => f.2.1 * sin (freq G.drn i * f.1) * sin (freq G.drn j * f.1))).sum) c c =
            f.2.1 * (∑ i ∈ Finset.range m.length, c i * sin (freq G.drn i * f.1)) ^ 2 +
            form m.length (fun i j => (L.map (fun f => f.2.1 * sin (freq G.drn i * f.1) * sin (freq G.drn j * f.1))).sum) c c := by
          rw [sq, Finset.sum_mul_sum, Finset.mul_sum]
          unfold form
          simp only [List.map_cons, List.sum_cons, ← Finset.sum_add_distrib]
          refine Finset.sum_congr rfl (fun i _ => ?_)
          rw [Finset.mul_sum, ← Finset.sum_add_distrib]
          exact Finset.sum_congr rfl (fun j _ => by ring)
        rw [k2]
        have := mul_nonneg (hL f (by simp)) (sq_nonneg (∑ i ∈ Finset.range m.length, c i * sin (freq G.drn i * f.1)))
        linarith
    exact this _ hf
  have h5 : x.dT * form m.length p c c =
      form m.length (fun i j => ∫ z in (0:ℝ)..1, G.vert z * cos (freq G.drn i * z) * cos (freq G.drn j * z))
        (fun i => freq G.drn i * c i) (fun i => freq G.drn i * c i)
      + form m.length (fun i j => ∫ z in (0:ℝ)..1, G.horiz z * sin (freq G.drn i * z) * sin (freq G.drn j * z)) c c
      + form m.length (fun i j => (G.fixed.map (fun f => f.2.1 * sin (freq G.drn i * f.1) * sin (freq G.drn j * f.1))).sum) c c := by
    unfold form
    rw [Finset.mul_sum]
    simp only [← Finset.sum_add_distrib]
    refine Finset.sum_congr rfl (fun i hi => ?_)
    rw [Finset.mul_sum]
    refine Finset.sum_congr rfl (fun j hj => ?_)
    have e1 : x.dT * (c i * p i j * c j) = c i * (x.dT * p i j) * c j := by ring
    have hi := Finset.mem_range.1 hi
    have hj := Finset.mem_range.1 hj
    rw [e1, hp i j hi hj, hget i (by omega), hget j (by omega)]
    unfold psiForm
    have e2 : (∫ z in (0:ℝ)..1, G.vert z * (π * ((i:ℝ) + 1 - G.drn / 2) * cos (π * ((i:ℝ) + 1 - G.drn / 2) * z)) *
        (π * ((j:ℝ) + 1 - G.drn / 2) * cos (π * ((j:ℝ) + 1 - G.drn / 2) * z))) =
        freq G.drn i * freq G.drn j * ∫ z in (0:ℝ)..1, G.vert z * cos (freq G.drn i * z) * cos (freq G.drn j * z) := by
      rw [← intervalIntegral.integral_const_mul]
      congr 1; funext z; unfold freq; ring
    rw [e2]
    unfold freq
    ring
  have h7 : (π / 2) ^ 2 * ∑ i ∈ Finset.range m.length, c i ^ 2 ≤ ∑ i ∈ Finset.range m.length, (freq G.drn i * c i) ^ 2 := by
    rw [Finset.mul_sum]
    refine Finset.sum_le_sum (fun i _ => ?_)
    rw [mul_pow]
    exact mul_le_mul_of_nonneg_right (pow_le_pow_left₀ (by positivity) (freq_ge hdr i) 2) (sq_nonneg _)
  have h8 := mul_le_mul_of_nonneg_left h7 hν0
  rw [h5]
  linarith

/-- `psi` is symmetric, and positive definite for sufficient permeability. -/
theorem psi_spd (h : VRInput x S s tend G) {m : List ℝ} (hm : x.m = .ok m) {p : ℕ → ℕ → ℝ}
    (hp : ∀ i j, i < m.length → j < m.length → x.dT * p i j = psiForm G (m.getD i 0) (m.getD j 0)) (hdT : 0 < x.dT) {ν η : ℝ}
    (hν0 : 0 ≤ ν) (hν : ∀ z, 0 < z → z < 1 → ν ≤ G.vert z) (hη : ∀ z, 0 < z → z < 1 → η ≤ G.horiz z) (hf : ∀ f ∈ G.fixed, 0 ≤ f.2.1)
    (hn : 1 / 100000000 * x.neig * x.dT < (ν * (π / 2) ^ 2 + η) / 2) : SPD m.length (chop p) := by
  constructor
  · refine chop_symm (fun i j hi hj => mul_left_cancel₀ hdT.ne' ?_)
    rw [hp i j hi hj, hp j i hj hi, psiForm_symm]
  · intro c hc
    have h1 := form_chop m.length p c
    have h2 := psi_lower h hm hp hν0 hν hη hf c
    have h6 := sum_sq_pos hc
    have h9 := mul_le_mul_of_nonneg_left h1 hdT.le
    rw [(m_ok h hm).1] at *
    have : 0 < x.dT * form x.neig (chop p) c c := by nlinarith
    exact (pos_iff_pos_of_mul_pos this).1 hdT

end Geotecha.Speccon
