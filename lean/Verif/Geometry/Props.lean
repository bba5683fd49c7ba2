import Verif.Geometry.Lemmas
import Mathlib.Tactic.NormNum
import Mathlib.Tactic.Positivity

set_option linter.unusedVariables false
namespace Geotecha.Geom

/-! # C25, C26 polygon_area -/

/-- The case in which the code projects along `y`. -/
def YLargest (n : V3) : Prop := n.x < n.y ∧ n.z ≤ n.y

theorem argmax3_one (n : V3) : argmax3 n = 1 ↔ YLargest n := by
  unfold argmax3 YLargest
  constructor
  · intro h
    split_ifs at h with h1 h2
    · refine ⟨?_, h2⟩
      by_contra h3
      exact h1 ⟨not_lt.1 h3, le_trans h2 (not_lt.1 h3)⟩
    · omega
  · rintro ⟨h1, h2⟩
    rw [if_neg (fun h => absurd h.1 (not_le.2 h1)), if_pos h2]

theorem argmax3_lt (n : V3) : argmax3 n = 0 ∨ argmax3 n = 1 ∨ argmax3 n = 2 := by
  unfold argmax3; split_ifs <;> simp

theorem if1_12 (pts : List V3) : if1 1 2 pts = (vecArea pts).x := by
  unfold if1 vecArea smul3
  rw [esum_sides, sum3_x]
  simp only []
  rw [← sum_map_mul']
  refine sum_congr_tel (fun p q => (p.get 1 / 2 + q.get 1 / 2) * (-p.get 2 + q.get 2)) (fun a b => 1/2 * (cross3 a b).x)
    (fun v => v.y * v.z / 2) pts (fun e _ => ?_)
  simp only [cross3, V3.get]; ring

theorem if1_02 (pts : List V3) : if1 0 2 pts = -(vecArea pts).y := by
  unfold if1 vecArea smul3
  rw [esum_sides, sum3_y]
  simp only []
  rw [← neg_mul, ← sum_map_mul']
  refine sum_congr_tel (fun p q => (p.get 0 / 2 + q.get 0 / 2) * (-p.get 2 + q.get 2)) (fun a b => -(1/2) * (cross3 a b).y)
    (fun v => v.x * v.z / 2) pts (fun e _ => ?_)
  simp only [cross3, V3.get]; ring

theorem if1_01 (pts : List V3) : if1 0 1 pts = (vecArea pts).z := by
  unfold if1 vecArea smul3
  rw [esum_sides, sum3_z]
  simp only []
  rw [← sum_map_mul']
  refine sum_congr_tel (fun p q => (p.get 0 / 2 + q.get 0 / 2) * (-p.get 1 + q.get 1)) (fun a b => 1/2 * (cross3 a b).z)
    (fun v => v.x * v.y / 2) pts (fun e _ => ?_)
  simp only [cross3, V3.get]; ring

/-- Complete description of `polygon_area`. -/
theorem polygonArea_some {pts : List V3} {A : ℝ} (h : polygonArea pts = some A) :
    vecArea pts ≠ ⟨0,0,0⟩ ∧ ((YLargest (unitNormal pts) ∧ A = -length3 (vecArea pts)) ∨
      (¬ YLargest (unitNormal pts) ∧ A = length3 (vecArea pts))) := by
  unfold polygonArea at h
  rw [eqnOfPlane_eq] at h
  by_cases hv : vecArea pts = ⟨0,0,0⟩
  · rw [if_pos hv] at h; cases h
  rw [if_neg hv] at h
  have hl : length3 (vecArea pts) ≠ 0 := fun h' => hv ((length3_zero_iff _).1 h')
  refine ⟨hv, ?_⟩
  simp only at h
  split_ifs at h with h0
  have h := Option.some.inj h
  rcases argmax3_lt (unitNormal pts) with hi | hi | hi
  · right
    refine ⟨fun hy => by rw [(argmax3_one _).2 hy] at hi; omega, ?_⟩
    rw [hi] at h h0
    rw [← h, show ((List.range 3).eraseIdx 0).getD 0 0 = 1 from rfl, show ((List.range 3).eraseIdx 0).getD 1 0 = 2 from rfl, if1_12]
    simp only [V3.get, unitNormal, smul3] at h0 ⊢
    have : (vecArea pts).x ≠ 0 := fun h' => h0 (by rw [h', mul_zero])
    field_simp
  · left
    refine ⟨(argmax3_one _).1 hi, ?_⟩
    rw [hi] at h h0
    rw [← h, show ((List.range 3).eraseIdx 1).getD 0 0 = 0 from rfl, show ((List.range 3).eraseIdx 1).getD 1 0 = 2 from rfl, if1_02]
    simp only [V3.get, unitNormal, smul3] at h0 ⊢
    have : (vecArea pts).y ≠ 0 := fun h' => h0 (by rw [h', mul_zero])
    field_simp
  · right
    refine ⟨fun hy => by rw [(argmax3_one _).2 hy] at hi; omega, ?_⟩
    rw [hi] at h h0
    rw [← h, show ((List.range 3).eraseIdx 2).getD 0 0 = 0 from rfl, show ((List.range 3).eraseIdx 2).getD 1 0 = 1 from rfl, if1_01]
    simp only [V3.get, unitNormal, smul3] at h0 ⊢
    have : (vecArea pts).z ≠ 0 := fun h' => h0 (by rw [h', mul_zero])
    field_simp

theorem triMean_one (o a b : V3) : triMean (fun _ => 1) o a b = 1 := by
  have := triMean_quad (fun _ => 1) 0 0 0 o a b 1 0 0 (by intros; ring)
  rw [this]; ring

/-- The vector area projected on any direction is the fan sum. -/
theorem polyInt_one (n : V3) (pts : List V3) : polyInt n (fun _ => 1) pts = dot3 (vecArea pts) n := by
  unfold polyInt vecArea smul3 dot3
  rw [sum3_x, sum3_y, sum3_z]
  simp only [triMean_one, mul_one]
  set o := pts.headD ⟨0,0,0⟩
  have e : 1/2 * ((sides pts).map (fun a => (cross3 a.1 a.2).x)).sum * n.x + 1/2 * ((sides pts).map (fun a => (cross3 a.1 a.2).y)).sum * n.y
      + 1/2 * ((sides pts).map (fun a => (cross3 a.1 a.2).z)).sum * n.z =
      ((sides pts).map (fun e => 1/2*n.x * (cross3 e.1 e.2).x + 1/2*n.y * (cross3 e.1 e.2).y + 1/2*n.z * (cross3 e.1 e.2).z)).sum := by
    rw [sum_map_add', sum_map_add', sum_map_mul', sum_map_mul', sum_map_mul']; ring
  rw [e]
  refine sum_congr_tel (fun p q => triArea n o p q) (fun a b => 1/2*n.x * (cross3 a b).x + 1/2*n.y * (cross3 a b).y + 1/2*n.z * (cross3 a b).z)
    (fun v => -(dot3 (cross3 o v) n)/2) pts (fun e _ => ?_)
  simp only [triArea, cross3, dot3, smul3, sub3]; ring

theorem dot_unitNormal {pts : List V3} (hv : vecArea pts ≠ ⟨0,0,0⟩) : dot3 (vecArea pts) (unitNormal pts) = length3 (vecArea pts) := by
  have hl : length3 (vecArea pts) ≠ 0 := fun h' => hv ((length3_zero_iff _).1 h')
  have h2 : length3 (vecArea pts) * length3 (vecArea pts) = dot3 (vecArea pts) (vecArea pts) := Real.mul_self_sqrt (dot_self_nonneg _)
  have : dot3 (vecArea pts) (unitNormal pts) = dot3 (vecArea pts) (vecArea pts) / length3 (vecArea pts) := by
    simp only [unitNormal, smul3, dot3]; field_simp
  rw [this, ← h2]; field_simp

theorem unitNormal_unit {pts : List V3} (hv : vecArea pts ≠ ⟨0,0,0⟩) : dot3 (unitNormal pts) (unitNormal pts) = 1 := by
  have hl : length3 (vecArea pts) ≠ 0 := fun h' => hv ((length3_zero_iff _).1 h')
  have h2 : length3 (vecArea pts) * length3 (vecArea pts) = dot3 (vecArea pts) (vecArea pts) := Real.mul_self_sqrt (dot_self_nonneg _)
  have : dot3 (unitNormal pts) (unitNormal pts) = dot3 (vecArea pts) (vecArea pts) / (length3 (vecArea pts) * length3 (vecArea pts)) := by
    simp only [unitNormal, smul3, dot3]; field_simp
  rw [this, ← h2]; field_simp

/-- The magnitude of `polygon_area` is the length of the vector area, and is the integral of 1 over the polygon. -/
theorem C25_value (pts : List V3) (A : ℝ) (h : polygonArea pts = some A) :
    |A| = length3 (vecArea pts) ∧ |A| = polyInt (unitNormal pts) (fun _ => 1) pts := by
  obtain ⟨hv, h'⟩ := polygonArea_some h
  have : |A| = length3 (vecArea pts) := by
    rcases h' with ⟨_, rfl⟩ | ⟨_, rfl⟩
    · rw [abs_neg, abs_of_nonneg (length3_nonneg _)]
    · exact abs_of_nonneg (length3_nonneg _)
  exact ⟨this, by rw [this, polyInt_one, dot_unitNormal hv]⟩

/-- The result is a number unless the largest component of the vector area is zero. -/
theorem C25_defined (pts : List V3) : (polygonArea pts).isSome ↔
    ¬ (max (max (vecArea pts).x (vecArea pts).y) (vecArea pts).z = 0) := by
  unfold polygonArea
  rw [eqnOfPlane_eq]
  by_cases hv : vecArea pts = ⟨0,0,0⟩
  · rw [if_pos hv, hv]; simp
  rw [if_neg hv]
  have hl : length3 (vecArea pts) ≠ 0 := fun h' => hv ((length3_zero_iff _).1 h')
  have hp : 0 < length3 (vecArea pts) := lt_of_le_of_ne (length3_nonneg _) (Ne.symm hl)
  have hget : (unitNormal pts).get (argmax3 (unitNormal pts)) = 1 / length3 (vecArea pts) * max (max (vecArea pts).x (vecArea pts).y) (vecArea pts).z := by
    have hc : 0 < 1 / length3 (vecArea pts) := by positivity
    unfold argmax3
    simp only [unitNormal, smul3, mul_le_mul_iff_right₀ hc]
    split_ifs with h1 h2
    · simp only [V3.get]; rw [max_eq_left h1.1, max_eq_left h1.2]
    · simp only [V3.get]
      have : (vecArea pts).x ≤ (vecArea pts).y := by
        by_contra h3
        have h3 := le_of_lt (not_le.1 h3)
        exact h1 ⟨h3, le_trans h2 h3⟩
      rw [max_eq_right this, max_eq_left h2]
    · simp only [V3.get]
      have h2 := le_of_lt (not_le.1 h2)
      rw [max_eq_right]
      refine max_le ?_ h2
      by_contra h3
      have h3 := le_of_lt (not_le.1 h3)
      exact h1 ⟨le_trans h2 h3, h3⟩
  simp only [hget]
  have : (1 / length3 (vecArea pts) * max (max (vecArea pts).x (vecArea pts).y) (vecArea pts).z = 0) ↔
      (max (max (vecArea pts).x (vecArea pts).y) (vecArea pts).z = 0) := by
    rw [mul_eq_zero]; simp [hl]
  by_cases h0 : max (max (vecArea pts).x (vecArea pts).y) (vecArea pts).z = 0
  · rw [if_pos (this.2 h0)]; simp [h0]
  · rw [if_neg (fun h => h0 (this.1 h))]; simp [h0]

/-- Any two polygons with the same vector area have the same `polygon_area`. -/
theorem polygonArea_congr {p q : List V3} (h : vecArea p = vecArea q) : polygonArea p = polygonArea q := by
  have hn : unitNormal p = unitNormal q := by unfold unitNormal; rw [h]
  unfold polygonArea
  rw [eqnOfPlane_eq, eqnOfPlane_eq, h]
  by_cases hv : vecArea q = ⟨0,0,0⟩
  · simp only [if_pos hv]
  rw [if_neg hv, if_neg hv]
  simp only [hn]
  have e : if1 (((List.range 3).eraseIdx (argmax3 (unitNormal q))).getD 0 0) (((List.range 3).eraseIdx (argmax3 (unitNormal q))).getD 1 0) p
     = if1 (((List.range 3).eraseIdx (argmax3 (unitNormal q))).getD 0 0) (((List.range 3).eraseIdx (argmax3 (unitNormal q))).getD 1 0) q := by
    rcases argmax3_lt (unitNormal q) with hi | hi | hi <;> rw [hi]
    · show if1 1 2 p = if1 1 2 q
      rw [if1_12, if1_12, h]
    · show if1 0 2 p = if1 0 2 q
      rw [if1_02, if1_02, h]
    · show if1 0 1 p = if1 0 1 q
      rw [if1_01, if1_01, h]
  rw [e]

theorem sides_map (f : V3 → V3) (pts : List V3) : sides (pts.map f) = (sides pts).map (Prod.map f f) := by
  unfold sides
  rw [← List.map_rotate, List.zip_map]

/-- Translating all vertices does not change the result. -/
theorem C25_translate (t : V3) (pts : List V3) : polygonArea (pts.map (add3 t)) = polygonArea pts := by
  apply polygonArea_congr
  unfold vecArea
  congr 1
  rw [sides_map, List.map_map]
  ext
  · rw [sum3_x, sum3_x]
    exact sum_congr_tel (fun a b => (cross3 (add3 t a) (add3 t b)).x) (fun a b => (cross3 a b).x) (fun v => t.y*v.z - t.z*v.y) pts
      (fun e _ => by simp only [cross3, add3]; ring)
  · rw [sum3_y, sum3_y]
    exact sum_congr_tel (fun a b => (cross3 (add3 t a) (add3 t b)).y) (fun a b => (cross3 a b).y) (fun v => t.z*v.x - t.x*v.z) pts
      (fun e _ => by simp only [cross3, add3]; ring)
  · rw [sum3_z, sum3_z]
    exact sum_congr_tel (fun a b => (cross3 (add3 t a) (add3 t b)).z) (fun a b => (cross3 a b).z) (fun v => t.x*v.y - t.y*v.x) pts
      (fun e _ => by simp only [cross3, add3]; ring)

theorem sides_rotate (pts : List V3) (k : ℕ) : sides (pts.rotate k) = (sides pts).rotate k := by
  unfold sides
  rw [List.rotate_rotate, List.zip_eq_zipWith, List.zip_eq_zipWith, List.zipWith_rotate_distrib, List.rotate_rotate,
    Nat.add_comm]
  simp

theorem sum3_perm {l m : List V3} (h : l.Perm m) : sum3 l = sum3 m := by
  unfold sum3
  rw [(h.map (·.x)).sum_eq, (h.map (·.y)).sum_eq, (h.map (·.z)).sum_eq]

/-- Starting the vertex list at any other vertex does not change the result. -/
theorem C25_start (pts : List V3) (k : ℕ) : polygonArea (pts.rotate k) = polygonArea pts := by
  apply polygonArea_congr
  unfold vecArea
  rw [sides_rotate, sum3_perm ((List.rotate_perm (sides pts) k).map _)]

/-! # C26 -/

/-- The area is positive when `y` is not the (first) largest component of the normal. -/
theorem C26_partial (pts : List V3) (A : ℝ) (h : polygonArea pts = some A) (hy : ¬ YLargest (vecArea pts)) : 0 < A := by
  obtain ⟨hv, h'⟩ := polygonArea_some h
  have hl : length3 (vecArea pts) ≠ 0 := fun h' => hv ((length3_zero_iff _).1 h')
  have hp : 0 < length3 (vecArea pts) := lt_of_le_of_ne (length3_nonneg _) (Ne.symm hl)
  have hiff : YLargest (unitNormal pts) ↔ YLargest (vecArea pts) := by
    have hc : 0 < 1 / length3 (vecArea pts) := by positivity
    simp only [YLargest, unitNormal, smul3, mul_le_mul_iff_right₀ hc, mul_lt_mul_iff_right₀ hc]
  rcases h' with ⟨h1, _⟩ | ⟨_, rfl⟩
  · exact absurd (hiff.1 h1) hy
  · exact hp

/-- It is negative for every polygon whose normal has its (first) largest component along `y`: the claim is false. -/
theorem C26_negation (pts : List V3) (A : ℝ) (h : polygonArea pts = some A) (hy : YLargest (vecArea pts)) : A < 0 := by
  obtain ⟨hv, h'⟩ := polygonArea_some h
  have hl : length3 (vecArea pts) ≠ 0 := fun h' => hv ((length3_zero_iff _).1 h')
  have hp : 0 < length3 (vecArea pts) := lt_of_le_of_ne (length3_nonneg _) (Ne.symm hl)
  have hiff : YLargest (unitNormal pts) ↔ YLargest (vecArea pts) := by
    have hc : 0 < 1 / length3 (vecArea pts) := by positivity
    simp only [YLargest, unitNormal, smul3, mul_le_mul_iff_right₀ hc, mul_lt_mul_iff_right₀ hc]
  rcases h' with ⟨_, rfl⟩ | ⟨h1, _⟩
  · linarith
  · exact absurd (hiff.2 hy) h1

/-- A polygon in the horizontal plane given clockwise has no area at all (`nan`). -/
theorem C26_clockwise (pts : List (ℝ × ℝ)) (hz : (vecArea (pts.map of2)).z ≤ 0) : polygonArea (pts.map of2) = none := by
  have hx : (vecArea (pts.map of2)).x = 0 := by
    rw [← if1_12]; unfold if1
    rw [esum_sides]
    refine List.sum_eq_zero (fun x hx => ?_)
    obtain ⟨e, he, rfl⟩ := List.mem_map.1 hx
    have hz2 : ∀ v ∈ pts.map of2, v.z = 0 := fun v hv => by obtain ⟨w, _, rfl⟩ := List.mem_map.1 hv; rfl
    simp [V3.get, hz2 _ (sides_mem he).1, hz2 _ (sides_mem he).2]
  have hy : (vecArea (pts.map of2)).y = 0 := by
    have : if1 0 2 (pts.map of2) = 0 := by
      unfold if1
      rw [esum_sides]
      refine List.sum_eq_zero (fun x hx => ?_)
      obtain ⟨e, he, rfl⟩ := List.mem_map.1 hx
      have hz2 : ∀ v ∈ pts.map of2, v.z = 0 := fun v hv => by obtain ⟨w, _, rfl⟩ := List.mem_map.1 hv; rfl
      simp [V3.get, hz2 _ (sides_mem he).1, hz2 _ (sides_mem he).2]
    rw [if1_02] at this; linarith
  have := C25_defined (pts.map of2)
  rw [hx, hy, max_self, max_eq_left hz] at this
  simpa using this

end Geotecha.Geom
