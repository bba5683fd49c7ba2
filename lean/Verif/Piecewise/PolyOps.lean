import Verif.Piecewise.PropsPoly
import Mathlib.Tactic.FieldSimp
import Mathlib.Tactic.Positivity

/-! # C231: scaling, reciprocals and comparison of PolyLines (piecewise_linear_1d.py:2413-2466) -/

set_option linter.unusedVariables false
set_option autoImplicit false
namespace Geotecha.Piecewise
open Geotecha.Spec

variable {K : Type} [Field K] [LinearOrder K] [IsStrictOrderedRing K]

/-- `number / PolyLine`, `__rtruediv__`, piecewise_linear_1d.py:2445-2458 (heights that are zero, numpy `inf`, are not modelled). -/
def PolyLine.rdiv (p : PolyLine K) (c : K) : Out K × PolyLine K := p.mapY (fun v => c / v)

/-- `np.allclose` of two numbers, piecewise_linear_1d.py:2464. -/
def closeTo (rtol atol a b : K) : Bool := decide (|a - b| ≤ atol + rtol * |b|)

/-- `__eq__`, piecewise_linear_1d.py:2460-2464, with `atol = 1e-5` and `rtol = 1e-8` of `self` (2292-2293). -/
def PolyLine.eq (p q : PolyLine K) : Except PyErr Bool :=
  match p.getXY.1, q.getXY.1 with
  | .error e, _ => .error e
  | _, .error e => .error e
  | .ok a, .ok b =>
    if a.length ≠ b.length then .ok false
    else .ok ((a.zip b).all (fun r => closeTo (1/100000000) (1/100000) r.1.1 r.2.1 && closeTo (1/100000000) (1/100000) r.1.2 r.2.2))

/-- `__ne__`, piecewise_linear_1d.py:2465-2466. -/
def PolyLine.ne (p q : PolyLine K) : Except PyErr Bool := (p.eq q).map (fun b => !b)

omit [IsStrictOrderedRing K] in
theorem mapY_points (x y : List K) (p : PolyLine K) (h : PolyLine.ofX_Y x y = .ok p) (f : K → K) :
    ∃ q, (p.mapY f) = (.line q, p) ∧ q.getXY.1 = .ok ((x.zip y).map (fun r => (r.1, f r.2))) := by
  have hx := h
  unfold PolyLine.ofX_Y at h
  split_ifs at h with hc
  injection h with h
  push Not at hc
  have e1 : (x.zip y).map Prod.fst = x := List.map_fst_zip (by omega)
  have e2 : (x.zip y).map Prod.snd = y := List.map_snd_zip (by omega)
  refine ⟨⟨some (x.zip (y.map f)), true, true, none⟩, ?_, ?_⟩
  · rw [← h]
    unfold PolyLine.mapY PolyLine.getX PolyLine.getY PolyLine.getXY
    simp only [e1, e2]
    unfold PolyLine.ofX_Y
    rw [if_neg (by simp only [List.length_map]; omega)]
    rfl
  · simp only [PolyLine.getXY]
    congr 1
    rw [List.zip_map_right]
    rfl

omit [IsStrictOrderedRing K] in
theorem polyLeft_mul (c t : K) : ∀ pts : List (K × K), polyLeft (pts.map (fun q => (q.1, q.2 * c))) t = polyLeft pts t * c
  | [] => by simp [polyLeft]
  | [p] => by simp [polyLeft]
  | p :: q :: r => by
    have ih := polyLeft_mul c t (q :: r)
    simp only [List.map_cons] at ih ⊢
    simp only [polyLeft, ih]
    split_ifs
    · rfl
    · simp only [line]; ring
    · rfl

/-- **C231** `PolyLine * number` and `PolyLine / number`: the new line is the old one with all heights scaled, at every abscissa, and the
old one is left as it was. -/
theorem C231_scale (x y : List K) (p : PolyLine K) (h : PolyLine.ofX_Y x y = .ok p) (c : K) :
    (∃ q pts, p.step (.mul c) = (.line q, p) ∧ q.getXY.1 = .ok pts ∧ ∀ t, polyLeft pts t = polyLeft (x.zip y) t * c ∧
      polyRight pts t = polyRight (x.zip y) t * c) ∧
    ∃ q pts, p.step (.div c) = (.line q, p) ∧ q.getXY.1 = .ok pts ∧ ∀ t, polyLeft pts t = polyLeft (x.zip y) t / c ∧
      polyRight pts t = polyRight (x.zip y) t / c := by
  have mir : ∀ (c : K) (pts : List (K × K)), mirror (pts.map (fun q => (q.1, q.2 * c))) = (mirror pts).map (fun q => (q.1, q.2 * c)) := by
    intro c pts
    unfold mirror
    rw [List.map_reverse, List.map_map, List.map_map]
    rfl
  constructor
  · obtain ⟨q, e1, e2⟩ := mapY_points x y p h (fun v => v * c)
    refine ⟨q, _, e1, e2, fun t => ⟨polyLeft_mul c t _, ?_⟩⟩
    unfold polyRight
    rw [mir, polyLeft_mul]
  · obtain ⟨q, e1, e2⟩ := mapY_points x y p h (fun v => v / c)
    refine ⟨q, _, e1, e2, fun t => ?_⟩
    simp only [div_eq_mul_inv]
    refine ⟨polyLeft_mul _ t _, ?_⟩
    unfold polyRight
    rw [mir, polyLeft_mul]

/-- A chord of the hyperbola is above it. -/
theorem chord_above {c a b l : K} (hc : 0 ≤ c) (ha : 0 < a) (hb : 0 < b) (h0 : 0 ≤ l) (h1 : l ≤ 1) :
    c / (a + (b - a) * l) ≤ c / a + (c / b - c / a) * l := by
  have hm : 0 < a + (b - a) * l := by
    have : a + (b - a) * l = a * (1 - l) + b * l := by ring
    rw [this]
    rcases eq_or_lt_of_le h0 with h | h
    · rw [← h]; simpa using ha
    · have : 0 < b * l := mul_pos hb h
      have : 0 ≤ a * (1 - l) := mul_nonneg ha.le (by linarith)
      linarith
  rw [div_le_iff₀ hm]
  have e : (c / a + (c / b - c / a) * l) * (a + (b - a) * l) - c = c * ((b - a) ^ 2 * (l * (1 - l))) / (a * b) := by
    field_simp
    ring
  have : 0 ≤ c * ((b - a) ^ 2 * (l * (1 - l))) / (a * b) := by
    have h2 : 0 ≤ l * (1 - l) := mul_nonneg h0 (by linarith)
    positivity
  linarith

theorem polyLeft_recip {c : K} (hc : 0 ≤ c) (t : K) : ∀ pts : List (K × K), pts ≠ [] → (∀ q ∈ pts, 0 < q.2) →
    0 < polyLeft pts t ∧ c / polyLeft pts t ≤ polyLeft (pts.map (fun q => (q.1, c / q.2))) t
  | [], h, _ => absurd rfl h
  | [p], _, hp => ⟨by simpa [polyLeft] using hp p (by simp), by simp [polyLeft]⟩
  | p :: q :: r, _, hp => by
    have ih := polyLeft_recip hc t (q :: r) (by simp) (fun a ha => hp a (by simp [ha]))
    simp only [List.map_cons] at ih ⊢
    have pp : 0 < p.2 := hp p (by simp)
    have pq : 0 < q.2 := hp q (by simp)
    simp only [polyLeft]
    split_ifs with h1 h2
    · exact ⟨pp, le_rfl⟩
    · obtain ⟨h2, h3⟩ := h2
      push Not at h1
      have hd : 0 < q.1 - p.1 := by linarith
      set l := (t - p.1) / (q.1 - p.1) with hl
      have l0 : 0 ≤ l := div_nonneg (by linarith) hd.le
      have l1 : l ≤ 1 := (div_le_one hd).2 (by linarith)
      have e1 : line p q t = p.2 + (q.2 - p.2) * l := by simp only [line, hl]; ring
      have e2 : line (p.1, c / p.2) (q.1, c / q.2) t = c / p.2 + (c / q.2 - c / p.2) * l := by simp only [line, hl]; ring
      rw [e1, e2]
      refine ⟨?_, chord_above hc pp pq l0 l1⟩
      have : p.2 + (q.2 - p.2) * l = p.2 * (1 - l) + q.2 * l := by ring
      rw [this]
      rcases eq_or_lt_of_le l0 with h | h
      · rw [← h]; simpa using pp
      · have : 0 < q.2 * l := mul_pos pq h
        have : 0 ≤ p.2 * (1 - l) := mul_nonneg pp.le (by linarith)
        linarith
    · exact ih

/-- **C231** `number / PolyLine`: the corner points get the reciprocal heights; where the line has positive heights, the new line is
nowhere below the reciprocal of the old one (it is the chord of a hyperbola). -/
theorem C231_reciprocal (x y : List K) (p : PolyLine K) (h : PolyLine.ofX_Y x y = .ok p) (c : K) :
    ∃ q, p.rdiv c = (.line q, p) ∧ q.getXY.1 = .ok ((x.zip y).map (fun r => (r.1, c / r.2))) ∧
      (0 ≤ c → (∀ v ∈ y, 0 < v) → ∀ t, c / polyLeft (x.zip y) t ≤ polyLeft ((x.zip y).map (fun r => (r.1, c / r.2))) t) := by
  obtain ⟨q, e1, e2⟩ := mapY_points x y p h (fun v => c / v)
  refine ⟨q, e1, e2, fun hc hy t => (polyLeft_recip hc t _ ?_ (fun r hr => hy _ (List.of_mem_zip hr).2)).2⟩
  unfold PolyLine.ofX_Y at h
  split_ifs at h with hcc
  intro h0
  have := congrArg List.length h0
  simp only [List.length_zip, List.length_nil] at this
  omega

/-- **C231** but between corner points it is not the reciprocal: `1 / PolyLine([0, 2], [1, 3])` has the height 2/3 at 1, where the line has
the height 2. -/
theorem C231_reciprocal_negation : ∃ p : PolyLine ℚ, PolyLine.ofX_Y [0, 2] [1, 3] = .ok p ∧
    (∃ q, p.rdiv 1 = (.line q, p) ∧ q.getXY.1 = .ok [(0, 1), (2, 1/3)]) ∧
    polyLeft [(0, (1:ℚ)), (2, 3)] 1 = 2 ∧ polyLeft [(0, (1:ℚ)), (2, 1/3)] 1 = 2/3 :=
  ⟨⟨some [(0, 1), (2, 3)], true, true, none⟩, rfl, ⟨⟨some [(0, 1), (2, 1/3)], true, true, none⟩, by decide +kernel, rfl⟩, by decide +kernel, by decide +kernel⟩

/-- **C231** comparison: `p == q` exactly when the two have equally many points and each coordinate of `p` is within `1e-5` plus `1e-8` of
the size of that of `q`; a line equals itself; `!=` is the opposite of `==`. -/
theorem C231_eq (p q : PolyLine K) (a b : List (K × K)) (hp : p.getXY.1 = .ok a) (hq : q.getXY.1 = .ok b) :
    ∃ r, p.eq q = .ok r ∧ p.ne q = .ok (!r) ∧ p.eq p = .ok true ∧
      (r = true ↔ a.length = b.length ∧ ∀ i (hi : i < a.length) (hj : i < b.length),
        |a[i].1 - b[i].1| ≤ 1/100000 + 1/100000000 * |b[i].1| ∧ |a[i].2 - b[i].2| ≤ 1/100000 + 1/100000000 * |b[i].2|) := by
  have self : p.eq p = .ok true := by
    unfold PolyLine.eq
    rw [hp]
    dsimp only
    rw [if_neg (by simp)]
    congr 1
    rw [List.all_eq_true]
    intro r hr
    obtain ⟨i, hi, e⟩ := List.mem_iff_getElem.1 hr
    simp only [List.getElem_zip] at e
    rw [← e]
    simp only [closeTo, sub_self, abs_zero, Bool.and_eq_true, decide_eq_true_eq]
    constructor <;> positivity
  by_cases hl : a.length = b.length
  · have e : p.eq q = .ok ((a.zip b).all (fun r => closeTo (1/100000000) (1/100000) r.1.1 r.2.1 && closeTo (1/100000000) (1/100000) r.1.2 r.2.2)) := by
      unfold PolyLine.eq
      rw [hp, hq]
      dsimp only
      rw [if_neg (by simpa using hl)]
    refine ⟨_, e, by unfold PolyLine.ne; rw [e]; rfl, self, ?_⟩
    rw [List.all_eq_true]
    constructor
    · intro h
      refine ⟨hl, fun i hi hj => ?_⟩
      have hz : i < (a.zip b).length := by rw [List.length_zip]; omega
      have := h _ (List.getElem_mem hz)
      simpa only [List.getElem_zip, closeTo, Bool.and_eq_true, decide_eq_true_eq] using this
    · rintro ⟨_, h⟩ r hr
      obtain ⟨i, hi, e⟩ := List.mem_iff_getElem.1 hr
      have hi' := hi
      rw [List.length_zip] at hi'
      simp only [List.getElem_zip] at e
      rw [← e]
      simpa only [closeTo, Bool.and_eq_true, decide_eq_true_eq] using h i (by omega) (by omega)
  · have e : p.eq q = .ok false := by
      unfold PolyLine.eq
      rw [hp, hq]
      dsimp only
      rw [if_pos hl]
    refine ⟨false, e, by unfold PolyLine.ne; rw [e]; rfl, self, ?_⟩
    simp [hl]

/-- **C231** because the tolerance is absolute, two lines with equally many points whose coordinates are all below `5e-6` in size - for
instance permeabilities in m/s against fractions of a second - always compare equal, however much they differ. -/
theorem C231_small_values_equal (p q : PolyLine K) (a b : List (K × K)) (hp : p.getXY.1 = .ok a) (hq : q.getXY.1 = .ok b)
    (hl : a.length = b.length) (ha : ∀ r ∈ a, |r.1| ≤ 1/200000 ∧ |r.2| ≤ 1/200000) (hb : ∀ r ∈ b, |r.1| ≤ 1/200000 ∧ |r.2| ≤ 1/200000) :
    p.eq q = .ok true := by
  obtain ⟨r, e, _, _, hr⟩ := C231_eq p q a b hp hq
  rw [e, hr.2 ⟨hl, fun i hi hj => ?_⟩]
  have h1 := ha _ (List.getElem_mem hi)
  have h2 := hb _ (List.getElem_mem hj)
  have tri : ∀ u v : K, |u| ≤ 1/200000 → |v| ≤ 1/200000 → |u - v| ≤ 1/100000 + 1/100000000 * |v| := by
    intro u v hu hv
    have := abs_sub u v
    have h0 : 0 ≤ |v| := abs_nonneg v
    nlinarith
  exact ⟨tri _ _ h1.1 h2.1, tri _ _ h1.2 h2.2⟩

/-- **C231** comparison is not symmetric, and not an equality of curves: a point added in the middle of a segment makes a line unequal to
itself. -/
theorem C231_eq_negation :
    (∃ p q : PolyLine ℚ, PolyLine.ofX_Y [0, 1] [0, 1000 + 1/100000 + 1/100000 + 1/10000000000000] = .ok p ∧ PolyLine.ofX_Y [0, 1] [0, 1000] = .ok q ∧
      q.eq p = .ok true ∧ p.eq q = .ok false) ∧
    ∃ p q : PolyLine ℚ, PolyLine.ofX_Y [0, 2] [0, 2] = .ok p ∧ PolyLine.ofX_Y [0, 1, 2] [0, 1, 2] = .ok q ∧ p.eq q = .ok false ∧
      ∀ t, polyLeft [((0:ℚ), (0:ℚ)), (2, 2)] t = polyLeft [(0, 0), (1, 1), (2, 2)] t := by
  refine ⟨⟨⟨some [(0, 0), (1, 1000 + 1/100000 + 1/100000 + 1/10000000000000)], true, true, none⟩, ⟨some [(0, 0), (1, 1000)], true, true, none⟩, rfl, rfl, ?_, ?_⟩,
    ⟨some [(0, 0), (2, 2)], true, true, none⟩, ⟨some [(0, 0), (1, 1), (2, 2)], true, true, none⟩, rfl, rfl, by decide +kernel, fun t => ?_⟩
  · decide +kernel
  · decide +kernel
  · simp only [polyLeft, line, show (0:ℚ) < 2 by norm_num, show (0:ℚ) < 1 by norm_num, show (1:ℚ) < 2 by norm_num, true_and]
    rcases lt_trichotomy t 0 with h | h | h
    · rw [if_pos h, if_pos h]
    · subst h; norm_num
    · rw [if_neg h.not_gt, if_neg h.not_gt]
      by_cases h1 : t ≤ 1
      · rw [if_pos (by linarith), if_pos h1]; norm_num
      · have h1' : ¬ t < 1 := fun h => h1 h.le
        by_cases h2 : t ≤ 2
        · rw [if_neg h1, if_neg h1', if_pos h2, if_pos h2]; norm_num
        · rw [if_neg h1, if_neg h1', if_neg h2, if_neg h2]

/-- Concrete lines for the theorems above. -/
example : ∃ p : PolyLine ℚ, PolyLine.ofX_Y [0, 1, 1, 3] [2, 4, 1, 5] = .ok p ∧
    (∃ q, p.rdiv 2 = (.line q, p) ∧ 2 / polyLeft [(0, (2:ℚ)), (1, 4), (1, 1), (3, 5)] 2 ≤ polyLeft [(0, (1:ℚ)), (1, 1/2), (1, 2), (3, 2/5)] 2) ∧
    p.eq p = .ok true := by
  refine ⟨⟨some [(0, 2), (1, 4), (1, 1), (3, 5)], true, true, none⟩, rfl, ?_, ?_⟩
  · obtain ⟨q, h1, h2, h3⟩ := C231_reciprocal [0, 1, 1, 3] [2, 4, 1, 5] ⟨some [(0, (2:ℚ)), (1, 4), (1, 1), (3, 5)], true, true, none⟩ rfl 2
    refine ⟨q, h1, ?_⟩
    have := h3 (by norm_num) (by simp) 2
    simpa [show (2:ℚ)/4 = 1/2 by norm_num] using this
  · obtain ⟨_, _, _, h, _⟩ := C231_eq (⟨some [(0, 2), (1, 4), (1, 1), (3, 5)], true, true, none⟩ : PolyLine ℚ) ⟨some [(0, 2), (1, 4), (1, 1), (3, 5)], true, true, none⟩ _ _ rfl rfl
    exact h

example : ∃ p q : PolyLine ℚ, PolyLine.ofX_Y [0, 1/1000000] [1/1000000000, 1/1000000000] = .ok p ∧
    PolyLine.ofX_Y [0, 1/1000000] [5/1000000, 1/1000000] = .ok q ∧ p.eq q = .ok true :=
  ⟨⟨some [(0, 1/1000000000), (1/1000000, 1/1000000000)], true, true, none⟩, ⟨some [(0, 5/1000000), (1/1000000, 1/1000000)], true, true, none⟩,
    rfl, rfl, C231_small_values_equal _ _ _ _ rfl rfl rfl (by simp; norm_num [abs_of_pos]) (by simp; norm_num [abs_of_pos])⟩

end Geotecha.Piecewise
