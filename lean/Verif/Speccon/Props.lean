import Verif.Speccon.Model
import Verif.Speccon.LayerForms
import Verif.Speccon.Spec
import Verif.Piecewise.Integral

set_option linter.unusedVariables false

open Real intervalIntegral MeasureTheory
namespace Geotecha.Speccon
open Geotecha.Spec

/-! ## Layered integrals (helpers) -/

theorem integral_congr_Ioo' {f g : ℝ → ℝ} {p q : ℝ} (hpq : p ≤ q) (h : ∀ z, p < z → z < q → f z = g z) :
    ∫ z in p..q, f z = ∫ z in p..q, g z := by
  rw [integral_of_le hpq, integral_of_le hpq, integral_Ioc_eq_integral_Ioo, integral_Ioc_eq_integral_Ioo]
  exact setIntegral_congr_fun measurableSet_Ioo (fun z hz => h z hz.1 hz.2)

theorem intervalIntegrable_congr_Ioo' {f g : ℝ → ℝ} {p q : ℝ} (hpq : p ≤ q) (hg : Continuous g)
    (h : ∀ z, p < z → z < q → f z = g z) : IntervalIntegrable f volume p q := by
  rw [intervalIntegrable_iff_integrableOn_Ioo_of_le hpq]
  have h1 := (intervalIntegrable_iff_integrableOn_Ioo_of_le hpq).1 (hg.intervalIntegrable (μ := volume) p q)
  exact h1.congr_fun (fun z hz => (h z hz.1 hz.2).symm) measurableSet_Ioo

theorem layered_integral {zt zb : List ℝ} {top bot : ℝ} (h : Layered zt zb top bot) {F : ℝ → ℝ} (f : ℕ → ℝ → ℝ)
    (hc : ∀ k, Continuous (f k))
    (hF : ∀ k, k < zt.length → ∀ z, zt.getD k 0 < z → z < zb.getD k 0 → F z = f k z) :
    ∫ z in top..bot, F z = ∑ k ∈ Finset.range zt.length, ∫ z in (zt.getD k 0)..(zb.getD k 0), f k z := by
  have hlen := h.len
  have gt : ∀ k (hk : k < zt.length), zt.getD k 0 = zt[k] := fun k hk => by simp [hk]
  have gb : ∀ k (hk : k < zt.length), zb.getD k 0 = zb[k] := fun k hk => by
    rw [List.getD_eq_getElem?_getD, List.getElem?_eq_getElem (by omega)]; rfl
  set X : ℕ → ℝ := fun k => if k < zt.length then zt.getD k 0 else bot with hX
  have hX1 : ∀ k, k < zt.length → X k = zt.getD k 0 := fun k hk => by simp only [hX, hk, if_true]
  have hX2 : ∀ k, k < zt.length → X (k+1) = zb.getD k 0 := by
    intro k hk
    by_cases h1 : k + 1 < zt.length
    · rw [hX1 _ h1, gt _ h1, gb _ hk, h.joined k h1]
    · have : k = zt.length - 1 := by omega
      simp only [hX, h1, if_false]
      rw [gb _ hk, ← h.last]
      congr 1
      omega
  have hle : ∀ k, k < zt.length → zt.getD k 0 ≤ zb.getD k 0 := fun k hk => by
    rw [gt k hk, gb k hk]; exact (h.thick k hk).le
  have h0 : X 0 = top := by rw [hX1 0 h.pos, gt 0 h.pos, h.first]
  have hn : X zt.length = bot := by simp [hX]
  have hI : ∀ k, k < zt.length → IntervalIntegrable F volume (X k) (X (k+1)) := by
    intro k hk
    rw [hX1 k hk, hX2 k hk]
    exact intervalIntegrable_congr_Ioo' (hle k hk) (hc k) (hF k hk)
  have := sum_integral_adjacent_intervals hI
  rw [h0, hn] at this
  rw [← this]
  refine Finset.sum_congr rfl (fun k hk => ?_)
  have hk := Finset.mem_range.1 hk
  rw [hX1 k hk, hX2 k hk]
  exact integral_congr_Ioo' (hle k hk) (hF k hk)

theorem linearIn_getD {a : ℝ → ℝ} {t b zt zb : List ℝ} (h : LinearIn a t b zt zb) (k : ℕ) (hk : k < zt.length) (z : ℝ)
    (h1 : zt.getD k 0 < z) (h2 : z < zb.getD k 0) : a z = t.getD k 0 + slope t b zt zb k * (z - zt.getD k 0) := by
  have l1 := h.lent
  have l2 := h.lenb
  have l3 := h.lenz
  have e : ∀ (l : List ℝ) (hl : l.length = zt.length), l.getD k 0 = l[k] := fun l hl => by
    rw [List.getD_eq_getElem?_getD, List.getElem?_eq_getElem (by omega)]; rfl
  rw [e zt rfl] at h1
  rw [e zb l3] at h2
  unfold slope
  rw [e t l1, e b l2, e zb l3, e zt rfl]
  exact h.eq k hk z h1 h2

theorem distinct_ne {m : List ℝ} (h : DistinctAbs m) {i : ℕ} (hi : i < m.length) : m.getD i 0 ≠ 0 := by
  rw [List.getD_eq_getElem?_getD, List.getElem?_eq_getElem hi]
  exact h.1 _ (List.getElem_mem _)

theorem distinct_sq {m : List ℝ} (h : DistinctAbs m) {i j : ℕ} (hi : i < m.length) (hj : j < m.length) (hij : i ≠ j) :
    (m.getD i 0)^2 ≠ (m.getD j 0)^2 := by
  rw [List.getD_eq_getElem?_getD, List.getElem?_eq_getElem hi, List.getD_eq_getElem?_getD, List.getElem?_eq_getElem hj]
  simp only [Option.getD_some]
  intro hc
  have := (sq_eq_sq_iff_abs_eq_abs _ _).1 hc
  rcases lt_or_gt_of_ne hij with hlt | hlt
  · exact List.pairwise_iff_getElem.1 h.2 i j hi hj hlt this
  · exact List.pairwise_iff_getElem.1 h.2 j i hj hi hlt this.symm

/-- From the entries on and above the diagonal to all entries. -/
theorem symFill_eq {diag : ℕ → ℝ} {off I : ℕ → ℕ → ℝ} {n : ℕ} (hs : ∀ i j, I i j = I j i)
    (hd : ∀ i, i < n → diag i = I i i) (ho : ∀ i j, i < n → j < n → i ≠ j → off i j = I i j) {i j : ℕ} (hi : i < n) (hj : j < n) :
    symFill diag off i j = I i j := by
  unfold symFill
  split_ifs with h1 h2
  · subst h1; exact hd i hi
  · exact ho i j hi hj h1
  · rw [ho j i hj hi (Ne.symm h1), hs]

/-! ## C27 dim1sin_af_linear -/

/-- Every entry is the integral over the whole depth of `a(z) sin(m_i z) sin(m_j z)`. -/
theorem C27_af (impl : Impl) (m a_t a_b zt zb : List ℝ) (a : ℝ → ℝ) (hz : Layered zt zb 0 1)
    (ha : LinearIn a a_t a_b zt zb) (hm : DistinctAbs m) (i j : ℕ) (hi : i < m.length) (hj : j < m.length) :
    dim1sinAf impl m a_t a_b zt zb i j = ∫ z in (0:ℝ)..1, a z * sin (m[i] * z) * sin (m[j] * z) := by
  have e : ∀ i (hi : i < m.length), m[i] = m.getD i 0 := fun i hi => by simp [hi]
  rw [e i hi, e j hj]
  unfold dim1sinAf
  refine symFill_eq (I := fun i j => ∫ z in (0:ℝ)..1, a z * sin (m.getD i 0 * z) * sin (m.getD j 0 * z)) ?_ ?_ ?_ hi hj
  · intro i j; exact int_congr' (fun z => by ring)
  · intro i hi
    rw [layered_integral hz (fun k z => (a_t.getD k 0 + slope a_t a_b zt zb k * (z - zt.getD k 0)) * (sin (m.getD i 0 * z) * sin (m.getD i 0 * z)))
      (fun k => by fun_prop) (fun k hk z h1 h2 => by rw [linearIn_getD ha k hk z h1 h2]; ring)]
    refine Finset.sum_congr rfl (fun k _ => ?_)
    have := af_diag (aS := slope a_t a_b zt zb k) (a_t := a_t.getD k 0) (z_t := zt.getD k 0) (z_b := zb.getD k 0) (distinct_ne hm hi)
    cases impl
    · exact this.1.symm
    · exact this.2.trans this.1.symm
  · intro i j hi hj hij
    rw [layered_integral hz (fun k z => (a_t.getD k 0 + slope a_t a_b zt zb k * (z - zt.getD k 0)) * (sin (m.getD i 0 * z) * sin (m.getD j 0 * z)))
      (fun k => by fun_prop) (fun k hk z h1 h2 => by rw [linearIn_getD ha k hk z h1 h2]; ring)]
    refine Finset.sum_congr rfl (fun k _ => ?_)
    have := af_off (aS := slope a_t a_b zt zb k) (a_t := a_t.getD k 0) (z_t := zt.getD k 0) (z_b := zb.getD k 0) (distinct_sq hm hi hj hij)
    cases impl
    · exact this.1.symm
    · exact this.2.trans this.1.symm

theorem C27_symmetric (impl : Impl) (m a_t a_b zt zb : List ℝ) (i j : ℕ) :
    dim1sinAf impl m a_t a_b zt zb i j = dim1sinAf impl m a_t a_b zt zb j i := by
  unfold dim1sinAf symFill
  split_ifs <;> first | rfl | omega | (subst_vars; rfl)

/-! ## C28 dim1sin_D_aDf_linear -/

theorem C28_DaDf (impl : Impl) (m a_t a_b zt zb : List ℝ) (a : ℝ → ℝ) (hz : Layered zt zb 0 1)
    (ha : LinearIn a a_t a_b zt zb) (hm : DistinctAbs m) (i j : ℕ) (hi : i < m.length) (hj : j < m.length) :
    dim1sinDaDf impl m a_t a_b zt zb i j = -(m[i] * m[j]) * ∫ z in (0:ℝ)..1, a z * cos (m[i] * z) * cos (m[j] * z) := by
  have e : ∀ i (hi : i < m.length), m[i] = m.getD i 0 := fun i hi => by simp [hi]
  rw [e i hi, e j hj]
  unfold dim1sinDaDf
  refine symFill_eq (I := fun i j => -(m.getD i 0 * m.getD j 0) * ∫ z in (0:ℝ)..1, a z * cos (m.getD i 0 * z) * cos (m.getD j 0 * z)) ?_ ?_ ?_ hi hj
  · intro i j; rw [mul_comm (m.getD i 0)]; congr 1; exact int_congr' (fun z => by ring)
  · intro i hi
    rw [layered_integral hz (fun k z => (a_t.getD k 0 + slope a_t a_b zt zb k * (z - zt.getD k 0)) * (cos (m.getD i 0 * z) * cos (m.getD i 0 * z)))
      (fun k => by fun_prop) (fun k hk z h1 h2 => by rw [linearIn_getD ha k hk z h1 h2]; ring), Finset.mul_sum]
    refine Finset.sum_congr rfl (fun k _ => ?_)
    have := DaDf_diag (aS := slope a_t a_b zt zb k) (a_t := a_t.getD k 0) (z_t := zt.getD k 0) (z_b := zb.getD k 0) (distinct_ne hm hi)
    cases impl
    · exact this.1.symm
    · exact this.2.trans this.1.symm
  · intro i j hi hj hij
    rw [layered_integral hz (fun k z => (a_t.getD k 0 + slope a_t a_b zt zb k * (z - zt.getD k 0)) * (cos (m.getD i 0 * z) * cos (m.getD j 0 * z)))
      (fun k => by fun_prop) (fun k hk z h1 h2 => by rw [linearIn_getD ha k hk z h1 h2]; ring), Finset.mul_sum]
    refine Finset.sum_congr rfl (fun k _ => ?_)
    have := DaDf_off (aS := slope a_t a_b zt zb k) (a_t := a_t.getD k 0) (z_t := zt.getD k 0) (z_b := zb.getD k 0) (distinct_sq hm hi hj hij)
    cases impl
    · exact this.1.symm
    · exact this.2.trans this.1.symm

theorem C28_symmetric (impl : Impl) (m a_t a_b zt zb : List ℝ) (i j : ℕ) :
    dim1sinDaDf impl m a_t a_b zt zb i j = dim1sinDaDf impl m a_t a_b zt zb j i := by
  unfold dim1sinDaDf symFill
  split_ifs <;> first | rfl | omega | (subst_vars; rfl)

/-! ## C29 dim1sin_ab_linear -/

theorem C29_ab (impl : Impl) (m a_t a_b b_t b_b zt zb : List ℝ) (a b : ℝ → ℝ) (hz : Layered zt zb 0 1)
    (ha : LinearIn a a_t a_b zt zb) (hb : LinearIn b b_t b_b zt zb) (i : ℕ) (hi : i < m.length) (hm : m[i] ≠ 0) :
    dim1sinAb impl m a_t a_b b_t b_b zt zb i = ∫ z in (0:ℝ)..1, a z * b z * sin (m[i] * z) := by
  have e : m[i] = m.getD i 0 := by simp [hi]
  rw [e] at hm ⊢
  rw [layered_integral hz (fun k z => (a_t.getD k 0 + slope a_t a_b zt zb k * (z - zt.getD k 0)) *
      (b_t.getD k 0 + slope b_t b_b zt zb k * (z - zt.getD k 0)) * sin (m.getD i 0 * z))
      (fun k => by fun_prop) (fun k hk z h1 h2 => by rw [linearIn_getD ha k hk z h1 h2, linearIn_getD hb k hk z h1 h2])]
  refine Finset.sum_congr rfl (fun k _ => ?_)
  have := ab_form (aS := slope a_t a_b zt zb k) (a_t := a_t.getD k 0) (bS := slope b_t b_b zt zb k) (b_t := b_t.getD k 0)
    (z_t := zt.getD k 0) (z_b := zb.getD k 0) hm
  cases impl
  · exact this.1.symm
  · exact this.2.trans this.1.symm

/-! ## C42 dim1sin_abf_linear -/

theorem C42_abf (impl : Impl) (m a_t a_b b_t b_b zt zb : List ℝ) (a b : ℝ → ℝ) (hz : Layered zt zb 0 1)
    (ha : LinearIn a a_t a_b zt zb) (hb : LinearIn b b_t b_b zt zb) (hm : DistinctAbs m) (i j : ℕ) (hi : i < m.length) (hj : j < m.length) :
    dim1sinAbf impl m a_t a_b b_t b_b zt zb i j = ∫ z in (0:ℝ)..1, a z * b z * sin (m[i] * z) * sin (m[j] * z) := by
  have e : ∀ i (hi : i < m.length), m[i] = m.getD i 0 := fun i hi => by simp [hi]
  rw [e i hi, e j hj]
  unfold dim1sinAbf
  refine symFill_eq (I := fun i j => ∫ z in (0:ℝ)..1, a z * b z * sin (m.getD i 0 * z) * sin (m.getD j 0 * z)) ?_ ?_ ?_ hi hj
  · intro i j; exact int_congr' (fun z => by ring)
  · intro i hi
    rw [layered_integral hz (fun k z => (a_t.getD k 0 + slope a_t a_b zt zb k * (z - zt.getD k 0)) *
        (b_t.getD k 0 + slope b_t b_b zt zb k * (z - zt.getD k 0)) * (sin (m.getD i 0 * z) * sin (m.getD i 0 * z)))
      (fun k => by fun_prop) (fun k hk z h1 h2 => by rw [linearIn_getD ha k hk z h1 h2, linearIn_getD hb k hk z h1 h2]; ring)]
    refine Finset.sum_congr rfl (fun k _ => ?_)
    have := abf_diag (aS := slope a_t a_b zt zb k) (a_t := a_t.getD k 0) (bS := slope b_t b_b zt zb k) (b_t := b_t.getD k 0)
      (z_t := zt.getD k 0) (z_b := zb.getD k 0) (distinct_ne hm hi)
    cases impl
    · exact this.1.symm
    · exact this.2.trans this.1.symm
  · intro i j hi hj hij
    rw [layered_integral hz (fun k z => (a_t.getD k 0 + slope a_t a_b zt zb k * (z - zt.getD k 0)) *
        (b_t.getD k 0 + slope b_t b_b zt zb k * (z - zt.getD k 0)) * (sin (m.getD i 0 * z) * sin (m.getD j 0 * z)))
      (fun k => by fun_prop) (fun k hk z h1 h2 => by rw [linearIn_getD ha k hk z h1 h2, linearIn_getD hb k hk z h1 h2]; ring)]
    refine Finset.sum_congr rfl (fun k _ => ?_)
    have := abf_off (aS := slope a_t a_b zt zb k) (a_t := a_t.getD k 0) (bS := slope b_t b_b zt zb k) (b_t := b_t.getD k 0)
      (z_t := zt.getD k 0) (z_b := zb.getD k 0) (distinct_sq hm hi hj hij)
    cases impl
    · exact this.1.symm
    · exact this.2.trans this.1.symm

/-! ## C43 dim1sin_DD_abDDf_linear -/

theorem C43_DDabDDf (impl : Impl) (m a_t a_b b_t b_b zt zb : List ℝ) (a b : ℝ → ℝ) (hz : Layered zt zb 0 1)
    (ha : LinearIn a a_t a_b zt zb) (hb : LinearIn b b_t b_b zt zb) (hm : DistinctAbs m) (i j : ℕ) (hi : i < m.length) (hj : j < m.length) :
    dim1sinDDabDDf impl m a_t a_b b_t b_b zt zb i j =
      m[i]^2 * m[j]^2 * ∫ z in (0:ℝ)..1, a z * b z * sin (m[i] * z) * sin (m[j] * z) := by
  have e : ∀ i (hi : i < m.length), m[i] = m.getD i 0 := fun i hi => by simp [hi]
  rw [e i hi, e j hj]
  unfold dim1sinDDabDDf
  refine symFill_eq (I := fun i j => (m.getD i 0)^2 * (m.getD j 0)^2 * ∫ z in (0:ℝ)..1, a z * b z * sin (m.getD i 0 * z) * sin (m.getD j 0 * z)) ?_ ?_ ?_ hi hj
  · intro i j; rw [mul_comm ((m.getD i 0)^2)]; congr 1; exact int_congr' (fun z => by ring)
  · intro i hi
    rw [layered_integral hz (fun k z => (a_t.getD k 0 + slope a_t a_b zt zb k * (z - zt.getD k 0)) *
        (b_t.getD k 0 + slope b_t b_b zt zb k * (z - zt.getD k 0)) * (sin (m.getD i 0 * z) * sin (m.getD i 0 * z)))
      (fun k => by fun_prop) (fun k hk z h1 h2 => by rw [linearIn_getD ha k hk z h1 h2, linearIn_getD hb k hk z h1 h2]; ring), Finset.mul_sum]
    refine Finset.sum_congr rfl (fun k _ => ?_)
    have := DDabDDf_diag (aS := slope a_t a_b zt zb k) (a_t := a_t.getD k 0) (bS := slope b_t b_b zt zb k) (b_t := b_t.getD k 0)
      (z_t := zt.getD k 0) (z_b := zb.getD k 0) (distinct_ne hm hi)
    cases impl
    · exact this.1.symm
    · exact this.2.trans this.1.symm
  · intro i j hi hj hij
    rw [layered_integral hz (fun k z => (a_t.getD k 0 + slope a_t a_b zt zb k * (z - zt.getD k 0)) *
        (b_t.getD k 0 + slope b_t b_b zt zb k * (z - zt.getD k 0)) * (sin (m.getD i 0 * z) * sin (m.getD j 0 * z)))
      (fun k => by fun_prop) (fun k hk z h1 h2 => by rw [linearIn_getD ha k hk z h1 h2, linearIn_getD hb k hk z h1 h2]; ring), Finset.mul_sum]
    refine Finset.sum_congr rfl (fun k _ => ?_)
    have := DDabDDf_off (aS := slope a_t a_b zt zb k) (a_t := a_t.getD k 0) (bS := slope b_t b_b zt zb k) (b_t := b_t.getD k 0)
      (z_t := zt.getD k 0) (z_b := zb.getD k 0) (distinct_sq hm hi hj hij)
    cases impl
    · exact this.1.symm
    · exact this.2.trans this.1.symm

/-! ## C44 dim1sin_abc_linear -/

theorem C44_abc (impl : Impl) (m a_t a_b b_t b_b c_t c_b zt zb : List ℝ) (a b c : ℝ → ℝ) (hz : Layered zt zb 0 1)
    (ha : LinearIn a a_t a_b zt zb) (hb : LinearIn b b_t b_b zt zb) (hc : LinearIn c c_t c_b zt zb)
    (i : ℕ) (hi : i < m.length) (hm : m[i] ≠ 0) :
    dim1sinAbc impl m a_t a_b b_t b_b c_t c_b zt zb i = ∫ z in (0:ℝ)..1, a z * b z * c z * sin (m[i] * z) := by
  have e : m[i] = m.getD i 0 := by simp [hi]
  rw [e] at hm ⊢
  rw [layered_integral hz (fun k z => (a_t.getD k 0 + slope a_t a_b zt zb k * (z - zt.getD k 0)) *
      (b_t.getD k 0 + slope b_t b_b zt zb k * (z - zt.getD k 0)) * (c_t.getD k 0 + slope c_t c_b zt zb k * (z - zt.getD k 0)) * sin (m.getD i 0 * z))
      (fun k => by fun_prop) (fun k hk z h1 h2 => by
        rw [linearIn_getD ha k hk z h1 h2, linearIn_getD hb k hk z h1 h2, linearIn_getD hc k hk z h1 h2])]
  refine Finset.sum_congr rfl (fun k _ => ?_)
  have := abc_form (aS := slope a_t a_b zt zb k) (a_t := a_t.getD k 0) (bS := slope b_t b_b zt zb k) (b_t := b_t.getD k 0)
    (cS := slope c_t c_b zt zb k) (c_t := c_t.getD k 0) (z_t := zt.getD k 0) (z_b := zb.getD k 0) hm
  cases impl
  · exact this.1.symm
  · exact this.2.trans this.1.symm

/-! ## C45 dim1sin_D_aDb_linear -/

/-- `∫ sin(m z) (a b')' dz` in the weak form: end terms (with the end values of `a` and slopes of `b`) minus
`∫ m cos(m z) a b' dz`, `b'` being any function that is the slope of `b` inside each layer. -/
theorem C45_DaDb (impl : Impl) (m a_t a_b b_t b_b zt zb : List ℝ) (a b' : ℝ → ℝ) (hz : Layered zt zb 0 1)
    (ha : LinearIn a a_t a_b zt zb) (lb1 : b_t.length = zt.length) (lb2 : b_b.length = zt.length)
    (hb : ∀ k (h : k < zt.length) z, zt[k] < z → z < zb[k]'(by have := hz.len; omega) →
      b' z = (b_b[k] - b_t[k]) / (zb[k]'(by have := hz.len; omega) - zt[k]))
    (i : ℕ) (hi : i < m.length) (hm : m[i] ≠ 0) (n : ℕ) (hn : n + 1 = zt.length) :
    dim1sinDaDb impl m a_t a_b b_t b_b zt zb i =
      (a_b[n]'(by have := ha.lenb; omega) * ((b_b[n] - b_t[n]) / (zb[n]'(by have := hz.len; omega) - zt[n])) * sin (m[i] * 1)
        - a_t[0]'(by have := ha.lent; omega) * ((b_b[0] - b_t[0]) / (zb[0]'(by have := hz.len; omega) - zt[0])) * sin (m[i] * 0))
      - ∫ z in (0:ℝ)..1, a z * b' z * (m[i] * cos (m[i] * z)) := by
  have l3 := hz.len
  have l4 := ha.lenb
  have l5 := ha.lent
  have e : m[i] = m.getD i 0 := by simp [hi]
  rw [e] at hm ⊢
  have g : ∀ (l : List ℝ) (k : ℕ) (hl : l.length = zt.length) (hk : k < zt.length), l.getD k 0 = l[k] := fun l k hl hk => by
    rw [List.getD_eq_getElem?_getD, List.getElem?_eq_getElem (by omega)]; rfl
  rw [layered_integral hz (fun k z => (m.getD i 0 * slope b_t b_b zt zb k) * ((a_t.getD k 0 + slope a_t a_b zt zb k * (z - zt.getD k 0)) * cos (m.getD i 0 * z)))
      (fun k => by fun_prop) (fun k hk z h1 h2 => by
        rw [linearIn_getD ha k hk z h1 h2]
        rw [g zt k rfl hk] at h1
        rw [g zb k l3 hk] at h2
        rw [hb k hk z h1 h2]
        unfold slope
        rw [g zb k l3 hk, g zt k rfl hk, g b_t k lb1 hk, g b_b k lb2 hk]; ring)]
  unfold dim1sinDaDb
  rw [sub_eq_add_neg, add_comm, ← Finset.sum_neg_distrib]
  congr 1
  · have hn' : zt.length - 1 = n := by omega
    have h1 := hz.first
    have h2 : zb[n]'(by omega) = 1 := by have := hz.last; simpa [hn'] using this
    rw [hn', g a_b n l4 (by omega), g a_t 0 l5 (by omega), g b_b 0 lb2 (by omega), g b_b n lb2 (by omega), g b_t 0 lb1 (by omega),
      g b_t n lb1 (by omega), g zb 0 l3 (by omega), g zb n l3 (by omega), g zt 0 rfl (by omega), g zt n rfl (by omega), h1, h2]
    cases impl
    · simp only [DaDb_end_s, mul_comm _ (m.getD i 0)]; ring
    · simp only [DaDb_end_v]; ring
  · refine Finset.sum_congr rfl (fun k _ => ?_)
    have := DaDb_form (aS := slope a_t a_b zt zb k) (a_t := a_t.getD k 0) (bS := slope b_t b_b zt zb k)
      (z_t := zt.getD k 0) (z_b := zb.getD k 0) hm
    rw [intervalIntegral.integral_const_mul, ← neg_mul]
    cases impl
    · exact this.1.symm
    · exact this.2.trans this.1.symm

/-! ## C46 integrals between two depths -/

theorem between_forms {aS a_t z_t z_b mj z1 z2 : ℝ} (h : mj ≠ 0) :
    between_both aS a_t z_t mj z1 z2 = (∫ z in z1..z2, (a_t + aS*(z - z_t)) * sin (mj*z)) ∧
    between_first aS a_t z_t z_b mj z1 = (∫ z in z1..z_b, (a_t + aS*(z - z_t)) * sin (mj*z)) ∧
    between_mid aS a_t z_t z_b mj = (∫ z in z_t..z_b, (a_t + aS*(z - z_t)) * sin (mj*z)) ∧
    between_last aS a_t z_t mj z2 = (∫ z in z_t..z2, (a_t + aS*(z - z_t)) * sin (mj*z)) := by
  have key : ∀ p q : ℝ, (∫ z in p..q, (a_t + aS*(z - z_t)) * sin (mj*z)) =
      ∫ z in p..q, (a_t + aS*(z-z_t) + 0*(z-z_t)^2 + 0*(z-z_t)^3) * sin (mj*z) := fun p q => int_congr' (fun z => by ring)
  refine ⟨?_, ?_, ?_, ?_⟩ <;> rw [key, int_sin h]
  · unfold between_both; ring
  · unfold between_first; simp only [mul_comm z_t mj, mul_comm z_b mj]; ring
  · unfold between_mid; simp only [mul_comm z_t mj, mul_comm z_b mj]; ring
  · unfold between_last; simp only [mul_comm z_t mj, mul_comm z_b mj]; ring

/-- `dim1sin_a_linear_between`: the integral of `a(z) sin(m_j z)` between the two depths of row `i`. -/
theorem C46_a_linear_between (m a_t a_b zt zb : List ℝ) (z : List (ℝ × ℝ)) (a : ℝ → ℝ) (hz : Layered zt zb 0 1)
    (ha : LinearIn a a_t a_b zt zb) (i j : ℕ) (hi : i < z.length) (hj : j < m.length) (hm : m[j] ≠ 0)
    (h0 : 0 ≤ z[i].1) (h12 : z[i].1 < z[i].2) (h1 : z[i].2 ≤ 1) :
    dim1sinALinearBetween m a_t a_b zt zb z i j = ∫ x in z[i].1..z[i].2, a x * sin (m[j] * x) := by
  have ej : m[j] = m.getD j 0 := by simp [hj]
  have ei : z[i] = z.getD i (0, 0) := by simp [hi]
  rw [ej] at hm ⊢
  rw [ei] at h0 h12 h1 ⊢
  have l3 := hz.len
  have lp := hz.pos
  have g : ∀ (l : List ℝ) (k : ℕ) (hl : l.length = zt.length) (hk : k < zt.length), l.getD k 0 = l[k] := fun l k hl hk => by
    rw [List.getD_eq_getElem?_getD, List.getElem?_eq_getElem (by omega)]; rfl
  set X := zt ++ [zb.getLastD 0] with hX
  have hlen : X.length = zt.length + 1 := by simp [hX]
  have hlast : zb.getLastD 0 = 1 := by
    have := hz.last
    rw [List.getLastD_eq_getLast?, List.getLast?_eq_getElem?, List.getElem?_eq_getElem (by omega)]
    simp only [Option.getD_some]
    rw [← this]; congr 1; omega
  have X1 : ∀ k, k < zt.length → Piecewise.nth X k = zt.getD k 0 := by
    intro k hk
    rw [Piecewise.nth_eq_getElem (by omega), g zt k rfl hk]
    simp only [hX]
    rw [List.getElem_append_left hk]
  have X2 : ∀ k, k < zt.length → Piecewise.nth X (k+1) = zb.getD k 0 := by
    intro k hk
    by_cases hk1 : k + 1 < zt.length
    · rw [X1 _ hk1, g zt _ rfl hk1, g zb k l3 hk, hz.joined k hk1]
    · rw [Piecewise.nth_eq_getElem (by omega), g zb k l3 hk]
      simp only [hX]
      rw [List.getElem_append_right (by omega)]
      simp only [List.getElem_singleton, hlast]
      have := hz.last
      rw [← this]; congr 1; omega
  have hthick : ∀ k, k < zt.length → zt.getD k 0 < zb.getD k 0 := fun k hk => by
    rw [g zt k rfl hk, g zb k l3 hk]; exact hz.thick k hk
  have hsorted : Spec.SortedLe X := by
    have hm : ∀ k d, k + d < X.length → Piecewise.nth X k ≤ Piecewise.nth X (k + d) := by
      intro k d
      induction d with
      | zero => intro _; exact le_rfl
      | succ d ih =>
        intro hd
        refine le_trans (ih (by omega)) ?_
        rw [← Nat.add_assoc, X1 _ (by omega), X2 _ (by omega)]
        exact (hthick _ (by omega)).le
    unfold Spec.SortedLe
    rw [List.pairwise_iff_getElem]
    intro p q hp hq hpq
    have := hm p (q - p) (by omega)
    rw [show p + (q - p) = q by omega, Piecewise.nth_eq_getElem hp, Piecewise.nth_eq_getElem hq] at this
    exact this
  have hX0 : Piecewise.nth X 0 = 0 := by rw [X1 0 lp, g zt 0 rfl lp, hz.first]
  have hXn : Piecewise.nth X (X.length - 1) = 1 := by
    rw [hlen, Nat.add_sub_cancel]
    have e : zt.length = (zt.length - 1) + 1 := by omega
    rw [e, X2 _ (by omega), g zb _ l3 (by omega)]
    exact hz.last
  obtain ⟨i1, i2, e1, e2, hle, hb, p1, p2, p3, p4⟩ := Piecewise.between_spec hsorted (by rw [hX0]; exact h0) h12 (by rw [hXn]; exact h1)
  set z1 := (z.getD i (0, 0)).1
  set z2 := (z.getD i (0, 0)).2
  set mj := m.getD j 0
  have hlt1 : i1 < zt.length := by omega
  have hlt2 : i2 < zt.length := by omega
  rw [X1 _ hlt1] at p1
  rw [X2 _ hlt1] at p2
  rw [X1 _ hlt2] at p3
  rw [X2 _ hlt2] at p4
  -- pieces
  let f : ℕ → ℝ → ℝ := fun k x => (a_t.getD k 0 + slope a_t a_b zt zb k * (x - zt.getD k 0)) * sin (mj * x)
  have hfc : ∀ k, Continuous (f k) := fun k => by simp only [f]; fun_prop
  have hF : ∀ k, k < zt.length → ∀ x, zt.getD k 0 < x → x < zb.getD k 0 → a x * sin (mj * x) = f k x := by
    intro k hk x hx1 hx2
    simp only [f]
    rw [linearIn_getD ha k hk x hx1 hx2]
  have hpi : ∀ k p q, k < zt.length → zt.getD k 0 ≤ p → p ≤ q → q ≤ zb.getD k 0 →
      IntervalIntegrable (fun x => a x * sin (mj * x)) volume p q ∧ ∫ x in p..q, a x * sin (mj * x) = ∫ x in p..q, f k x := by
    intro k p q hk hp hpq hq
    exact ⟨intervalIntegrable_congr_Ioo' hpq (hfc k) (fun x hx1 hx2 => hF k hk x (by linarith) (by linarith)),
      integral_congr_Ioo' hpq (fun x hx1 hx2 => hF k hk x (by linarith) (by linarith))⟩
  unfold dim1sinALinearBetween
  simp only [← hX]
  unfold Piecewise.segmentsBetween
  rw [e1, e2]
  simp only
  rcases Nat.lt_or_ge i1 i2 with hlt | hge
  · rw [if_neg (by omega)]
    simp only [List.map_cons, List.map_nil, List.sum_cons, List.sum_nil, add_zero, zero_add]
    rw [Piecewise.split_integral (X := Piecewise.nth X) hlt
      (by rw [X2 _ hlt1]; exact (hpi i1 _ _ hlt1 p1 p2.le le_rfl).1)
      (fun k hk1 hk2 => by rw [X1 _ (by omega), X2 _ (by omega)]; exact (hpi k _ _ (by omega) le_rfl (hthick k (by omega)).le le_rfl).1)
      (by rw [X1 _ hlt2]; exact (hpi i2 _ _ hlt2 le_rfl p3.le p4).1)]
    rw [X2 _ hlt1, X1 _ hlt2, (hpi i1 _ _ hlt1 p1 p2.le le_rfl).2, (hpi i2 _ _ hlt2 le_rfl p3.le p4).2]
    congr 1
    · congr 1
      · exact (between_forms (z2 := z2) hm).2.1
      · congr 1
        refine List.map_congr_left (fun k hk => ?_)
        have hk' := List.mem_range'_1.1 hk
        have hkl : k < zt.length := by omega
        rw [X1 _ hkl, X2 _ hkl, (hpi k _ _ hkl le_rfl (hthick k hkl).le le_rfl).2]
        exact (between_forms (z1 := z1) (z2 := z2) hm).2.2.1
    · exact (between_forms (z1 := z1) (z_b := zb.getD i2 0) hm).2.2.2
  · have heq : i1 = i2 := by omega
    subst heq
    rw [if_pos rfl]
    simp only [List.map_cons, List.map_nil, List.sum_cons, List.sum_nil, add_zero, zero_add]
    rw [(hpi i1 _ _ hlt1 p1 h12.le p4).2]
    exact (between_forms (z_b := zb.getD i1 0) hm).1

/-- `dim1sin_avg_between`: the mean of `sin(m_j z)` between the two depths of row `i`. -/
theorem C46_avg_between (m : List ℝ) (z : List (ℝ × ℝ)) (i j : ℕ) (hi : i < z.length) (hj : j < m.length) (hm : m[j] ≠ 0) :
    dim1sinAvgBetween m z i j = (∫ x in z[i].1..z[i].2, sin (m[j] * x)) / (z[i].2 - z[i].1) := by
  have ej : m[j] = m.getD j 0 := by simp [hj]
  have ei : z[i] = z.getD i (0, 0) := by simp [hi]
  rw [ej] at hm ⊢
  rw [ei]
  have := int_sin hm 1 0 0 0 0 (z.getD i (0,0)).1 (z.getD i (0,0)).2
  rw [int_congr' (g := fun x => (1 + 0*(x-0) + 0*(x-0)^2 + 0*(x-0)^3) * sin (m.getD j 0 * x)) (fun x => by ring), this]
  simp only [dim1sinAvgBetween, mul_comm _ (m.getD j 0)]
  congr 1
  field_simp
  ring

theorem C46_dim1sin (m z : List ℝ) (i j : ℕ) (hi : i < z.length) (hj : j < m.length) :
    dim1sin m z i j = sin (m[j] * z[i]) := by
  simp [dim1sin, hi, hj, mul_comm]

/-! ## C32 m_from_sin_mx -/

/-- `sin(M z)` is zero at the top, zero (`boundary = 0`) or flat (`boundary = 1`) at the bottom. -/
theorem C32_boundary (i : ℕ) (b : ℤ) (hb : b = 0 ∨ b = 1) : ∃ M, mFromSinMx i b = .ok M ∧
    sin (M * 0) = 0 ∧ (b = 0 → sin (M * 1) = 0) ∧ (b = 1 → deriv (fun z => sin (M * z)) 1 = 0) := by
  refine ⟨_, by unfold mFromSinMx; rw [if_pos hb], by simp, ?_, ?_⟩
  · rintro rfl
    have : π * ((i:ℝ) + 1 - (0:ℤ) / 2) * 1 = ((i + 1 : ℕ) : ℝ) * π := by push_cast; ring
    rw [this]; exact sin_nat_mul_pi _
  · rintro rfl
    rw [(hd_sin _ 1).deriv]
    have : π * ((i:ℝ) + 1 - (1:ℤ) / 2) * 1 = (i : ℝ) * π + π / 2 := by push_cast; ring
    rw [this, cos_add_pi_div_two, sin_nat_mul_pi]; simp

/-- The values are positive and strictly increasing with the index, so a list of them satisfies the
hypothesis of the integral theorems above. -/
theorem C32_increasing (b : ℤ) (i j : ℕ) (M N : ℝ) (hi : mFromSinMx i b = .ok M) (hj : mFromSinMx j b = .ok N) :
    0 < M ∧ (i < j → M < N) := by
  unfold mFromSinMx at hi hj
  split_ifs at hi hj with h
  injection hi with hi
  injection hj with hj
  subst hi hj
  have hp := pi_pos
  have hb : ((b:ℝ)) / 2 ≤ 1/2 := by
    rcases h with rfl | rfl <;> norm_num
  constructor
  · have : (0:ℝ) ≤ i := Nat.cast_nonneg i
    have : 0 < (i:ℝ) + 1 - b/2 := by linarith
    positivity
  · intro hij
    have : (i:ℝ) < j := by exact_mod_cast hij
    have := mul_lt_mul_of_pos_left (show (i:ℝ) + 1 - b/2 < j + 1 - b/2 by linarith) hp
    linarith

theorem C32_rejects (i : ℕ) (b : ℤ) (hb : b ≠ 0 ∧ b ≠ 1) : mFromSinMx i b = .error .valueError := by
  unfold mFromSinMx; rw [if_neg (by tauto)]

/-- The first `n` values, as used by the spectral programs. -/
noncomputable def eigs (n : ℕ) (b : ℤ) : List ℝ := (List.range n).map (fun i : ℕ => π * ((i:ℝ) + 1 - b/2))

theorem C32_distinct (n : ℕ) (b : ℤ) (hb : b = 0 ∨ b = 1) :
    (List.range n).mapM (fun i => mFromSinMx i b) = .ok (eigs n b) ∧ DistinctAbs (eigs n b) := by
  have hok : ∀ i, mFromSinMx i b = .ok (π * ((i:ℝ) + 1 - b/2)) := fun i => by unfold mFromSinMx; rw [if_pos hb]
  constructor
  · unfold eigs
    induction (List.range n) with
    | nil => rfl
    | cons a l ih => rw [List.mapM_cons, hok, ih]; rfl
  · constructor
    · intro v hv
      obtain ⟨i, -, rfl⟩ := List.mem_map.1 hv
      exact ne_of_gt (C32_increasing b i i _ _ (hok i) (hok i)).1
    · unfold eigs
      rw [List.pairwise_map]
      refine List.pairwise_lt_range.imp (fun {i j} hij => ?_)
      have h1 := C32_increasing b i j _ _ (hok i) (hok j)
      have h2 := C32_increasing b j j _ _ (hok j) (hok j)
      rw [abs_of_pos h1.1, abs_of_pos h2.1]
      exact ne_of_lt (h1.2 hij)

/-! ## C47 orthogonality: with `a = 1` the mass matrix is half the identity -/

theorem C47_orthogonal (impl : Impl) (n : ℕ) (b : ℤ) (hb : b = 0 ∨ b = 1) (i j : ℕ) (hi : i < n) (hj : j < n) :
    dim1sinAf impl (eigs n b) [1] [1] [0] [1] i j = if i = j then 1/2 else 0 := by
  have hz : Layered [0] [1] 0 1 := by
    refine ⟨by simp, by simp, by simp, by simp, by simp, by simp⟩
  have ha : LinearIn (fun _ => 1) [1] [1] [0] [1] := by
    refine ⟨by simp, by simp, by simp, ?_⟩
    intro k hk z _ _
    have : k = 0 := by simpa using hk
    subst this; simp
  have hlen : (eigs n b).length = n := by simp [eigs]
  rw [C27_af impl (eigs n b) [1] [1] [0] [1] (fun _ => 1) hz ha (C32_distinct n b hb).2 i j (by omega) (by omega)]
  have hval : ∀ i (h : i < (eigs n b).length), (eigs n b)[i] = π * ((i:ℝ) + 1 - b/2) := fun i h => by simp [eigs]
  have hcos2 : ∀ i : ℕ, sin (π * ((i:ℝ) + 1 - b/2)) * cos (π * ((i:ℝ) + 1 - b/2)) = 0 := by
    intro i
    rcases hb with rfl | rfl
    · have : π * ((i:ℝ) + 1 - (0:ℤ) / 2) = ((i + 1 : ℕ) : ℝ) * π := by push_cast; ring
      rw [this, sin_nat_mul_pi]; simp
    · have : π * ((i:ℝ) + 1 - (1:ℤ) / 2) = (i : ℝ) * π + π / 2 := by push_cast; ring
      rw [this, cos_add_pi_div_two, sin_nat_mul_pi]; simp
  have hm := (C32_distinct n b hb).2
  split_ifs with hij
  · subst hij
    have hne := hm.1 _ (List.getElem_mem (by omega : i < (eigs n b).length))
    rw [int_congr' (g := fun z => (1 + 0*(z-0) + 0*(z-0)^2) * (sin ((eigs n b)[i] * z) * sin ((eigs n b)[i] * z))) (fun z => by ring),
      int_sin_sq hne]
    have := hcos2 i
    rw [← hval i (by omega)] at this
    simp [this]
  · have hsq := distinct_sq hm (by omega : i < (eigs n b).length) (by omega : j < (eigs n b).length) hij
    have e : ∀ i (hi : i < (eigs n b).length), (eigs n b)[i] = (eigs n b).getD i 0 := fun i hi => by simp [hi]
    rw [← e i (by omega), ← e j (by omega)] at hsq
    rw [int_congr' (g := fun z => (1 + 0*(z-0) + 0*(z-0)^2) * (sin ((eigs n b)[i] * z) * sin ((eigs n b)[j] * z))) (fun z => by ring),
      int_sin_sin (d1 := ((eigs n b)[i]^2 - (eigs n b)[j]^2)⁻¹) (d2 := (((eigs n b)[i]^2 - (eigs n b)[j]^2)⁻¹)^2)
        (d3 := (((eigs n b)[i]^2 - (eigs n b)[j]^2)⁻¹)^3) (by field_simp [d_ne hsq]) (by field_simp [d_ne hsq]) (by field_simp [d_ne hsq])]
    have h1 : sin ((eigs n b)[i]) * cos ((eigs n b)[j]) = 0 ∧ cos ((eigs n b)[i]) * sin ((eigs n b)[j]) = 0 := by
      rw [hval i (by omega), hval j (by omega)]
      rcases hb with rfl | rfl
      · have hs : ∀ i : ℕ, sin (π * ((i:ℝ) + 1 - (0:ℤ) / 2)) = 0 := fun i => by
          have : π * ((i:ℝ) + 1 - (0:ℤ) / 2) = ((i + 1 : ℕ) : ℝ) * π := by push_cast; ring
          rw [this, sin_nat_mul_pi]
        rw [hs, hs]; simp
      · have hs : ∀ i : ℕ, cos (π * ((i:ℝ) + 1 - (1:ℤ) / 2)) = 0 := fun i => by
          have : π * ((i:ℝ) + 1 - (1:ℤ) / 2) = (i : ℝ) * π + π / 2 := by push_cast; ring
          rw [this, cos_add_pi_div_two, sin_nat_mul_pi]; simp
        rw [hs, hs]; simp
    simp [h1.1, h1.2]

/-! Non-vacuity: two layers, with a jump in the profile between them. -/
example : Layered [0, 1/2] [1/2, 1] 0 1 := by
  refine ⟨by simp, by simp, by simp, by simp, ?_, ?_⟩
  · intro k h
    have : k = 0 := by simp at h; omega
    subst this; simp
  · intro k h
    have : k = 0 ∨ k = 1 := by simp at h; omega
    rcases this with rfl | rfl <;> norm_num

example : LinearIn (fun z => if z ≤ 1/2 then 1 + 2*z else 5) [1, 5] [2, 5] [0, 1/2] [1/2, 1] := by
  refine ⟨by simp, by simp, by simp, ?_⟩
  intro k h z h1 h2
  have : k = 0 ∨ k = 1 := by simp at h; omega
  rcases this with rfl | rfl
  · simp only [List.getElem_cons_zero] at h1 h2 ⊢
    rw [if_pos h2.le]; norm_num
  · simp only [List.getElem_cons_succ, List.getElem_cons_zero] at h1 h2 ⊢
    rw [if_neg (not_le.2 h1)]; norm_num

end Geotecha.Speccon
