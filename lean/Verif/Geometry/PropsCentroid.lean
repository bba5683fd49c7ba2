import Verif.Geometry.Props

set_option linter.unusedVariables false
namespace Geotecha.Geom

/-! # C52 polygon_centroid, C54 polygon_2nd_moment_of_area -/

@[simp] theorem get_add3 (a b : V3) (i : ℕ) : (add3 a b).get i = a.get i + b.get i := by
  match i with | 0 => rfl | 1 => rfl | n+2 => rfl
@[simp] theorem get_sub3 (a b : V3) (i : ℕ) : (sub3 a b).get i = a.get i - b.get i := by
  match i with | 0 => rfl | 1 => rfl | n+2 => rfl
@[simp] theorem get_smul3 (c : ℝ) (b : V3) (i : ℕ) : (smul3 c b).get i = c * b.get i := by
  match i with | 0 => rfl | 1 => rfl | n+2 => rfl

/-- Two vectors orthogonal to a unit vector have a cross product along it. -/
theorem cross_parallel {n u v : V3} (hn : dot3 n n = 1) (hu : dot3 n u = 0) (hv : dot3 n v = 0) :
    cross3 u v = smul3 (dot3 (cross3 u v) n) n := by
  simp only [dot3] at hn hu hv
  ext
  · simp only [cross3, smul3, dot3]
    linear_combination (-(u.y*v.z - u.z*v.y)) * hn + (-(n.y*u.z - n.z*u.y)) * hv + (n.y*v.z - n.z*v.y) * hu
  · simp only [cross3, smul3, dot3]
    linear_combination (-(u.z*v.x - u.x*v.z)) * hn + (-(n.z*u.x - n.x*u.z)) * hv + (n.z*v.x - n.x*v.z) * hu
  · simp only [cross3, smul3, dot3]
    linear_combination (-(u.x*v.y - u.y*v.x)) * hn + (-(n.x*u.y - n.y*u.x)) * hv + (n.x*v.y - n.y*v.x) * hu

theorem tri_parallel {n o a b : V3} {c : ℝ} (hn : dot3 n n = 1) (ho : dot3 n o = c) (ha : dot3 n a = c) (hb : dot3 n b = c) :
    cross3 (sub3 a o) (sub3 b o) = smul3 (2 * triArea n o a b) n := by
  rw [cross_parallel (n := n) hn (u := sub3 a o) (v := sub3 b o) (by simp only [dot3, sub3] at *; linarith) (by simp only [dot3, sub3] at *; linarith)]
  congr 1
  simp only [triArea, dot3, smul3]; ring_nf

/-- `k` is the component of the normal seen by the coordinates `i`, `j`. -/
def Comp (n : V3) (i j : ℕ) (k : ℝ) (pts : List V3) : Prop := ∀ o ∈ pts, ∀ a ∈ pts, ∀ b ∈ pts,
  ((a.get i - o.get i) * (b.get j - o.get j) - (a.get j - o.get j) * (b.get i - o.get i)) / 2 = k * triArea n o a b

theorem comp_all {n : V3} {pts : List V3} (hn : dot3 n n = 1) (hp : Planar n pts) :
    Comp n 1 2 n.x pts ∧ Comp n 2 0 n.y pts ∧ Comp n 0 1 n.z pts := by
  obtain ⟨c, hc⟩ := hp
  refine ⟨?_, ?_, ?_⟩ <;> intro o ho a ha b hb <;>
    have h := tri_parallel hn (hc o ho) (hc a ha) (hc b hb)
  · have := congrArg V3.x h
    simp only [cross3, sub3, smul3] at this
    simp only [V3.get]; linarith
  · have := congrArg V3.y h
    simp only [cross3, sub3, smul3] at this
    simp only [V3.get]; linarith
  · have := congrArg V3.z h
    simp only [cross3, sub3, smul3] at this
    simp only [V3.get]; linarith

theorem head_mem {pts : List V3} (h : pts ≠ []) : pts.headD ⟨0,0,0⟩ ∈ pts := by
  cases pts with
  | nil => exact absurd rfl h
  | cons a l => simp

theorem edge_to_poly (n : V3) (E : V3 → V3 → ℝ) (k : ℝ) (g : V3 → ℝ) (pts : List V3)
    (h : ∀ o ∈ pts, ∀ a ∈ pts, ∀ b ∈ pts, E a b = k * (triArea n o a b * triMean g o a b) + (E o b - E o a)) :
    esum E pts = k * polyInt n g pts := by
  rw [esum_sides]
  unfold polyInt
  rw [← sum_map_mul']
  by_cases he : pts = []
  · subst he; rfl
  refine sum_congr_tel E (fun a b => k * (triArea n (pts.headD ⟨0,0,0⟩) a b * triMean g (pts.headD ⟨0,0,0⟩) a b))
    (fun v => E (pts.headD ⟨0,0,0⟩) v) pts (fun e hm => ?_)
  exact h _ (head_mem he) _ (sides_mem hm).1 _ (sides_mem hm).2

theorem triMean_coord (i : ℕ) (o a b : V3) : triMean (fun p => p.get i) o a b = (o.get i + a.get i + b.get i) / 3 := by
  rw [triMean_quad (fun p => p.get i) (o.get i) (a.get i - o.get i) (b.get i - o.get i) o a b 0 1 0 (by intro s t; simp; ring)]
  ring

theorem triMean_sq (i : ℕ) (c : ℝ) (o a b : V3) : triMean (fun p => (p.get i - c)^2) o a b =
    ((o.get i - c)^2 + (a.get i - c)^2 + (b.get i - c)^2 + (o.get i - c)*(a.get i - c) + (a.get i - c)*(b.get i - c)
      + (b.get i - c)*(o.get i - c)) / 6 := by
  rw [triMean_quad (fun p => (p.get i - c)^2) (o.get i - c) (a.get i - o.get i) (b.get i - o.get i) o a b 0 0 1 (by intro s t; simp; ring)]
  ring

theorem ifx_eq {n : V3} {i j : ℕ} {k : ℝ} {pts : List V3} (h : Comp n i j k pts) :
    ifx i j pts = k * polyInt n (fun p => p.get i) pts := by
  refine edge_to_poly n _ k _ pts (fun o ho a ha b hb => ?_)
  rw [triMean_coord, ← mul_assoc, ← h o ho a ha b hb]
  ring

theorem ify_eq {n : V3} {i j : ℕ} {k : ℝ} {pts : List V3} (h : Comp n i j k pts) :
    ify i j pts = k * polyInt n (fun p => p.get j) pts := by
  refine edge_to_poly n _ k _ pts (fun o ho a ha b hb => ?_)
  rw [triMean_coord, ← mul_assoc, ← h o ho a ha b hb]
  ring

theorem ifx2_eq {n : V3} {i j : ℕ} {k c : ℝ} {pts : List V3} (h : Comp n i j k pts) :
    ifx2 i j c pts = k * polyInt n (fun p => (p.get i - c)^2) pts + 0 := by
  have e : ∀ l : List V3, ifx2 i j c l = esum (fun p q => (-p.get j + q.get j) * ((p.get i - c)^3/12 + (p.get i-c)^2*(q.get i-c)/12
      + (p.get i-c)*(q.get i-c)^2/12 + (q.get i-c)^3/12)) l := by
    intro l
    unfold ifx2
    rw [esum_sides, esum_sides]
    refine sum_congr_tel (fun p q => (-p.get j + q.get j) * (p.get i^3/12 + p.get i^2*q.get i/12 - p.get i^2*c/3 + p.get i*q.get i^2/12 - p.get i*q.get i*c/3 + p.get i*c^2/2 + q.get i^3/12 - q.get i^2*c/3
      + q.get i*c^2/2)) (fun p q => (-p.get j + q.get j) * ((p.get i - c)^3/12 + (p.get i-c)^2*(q.get i-c)/12
      + (p.get i-c)*(q.get i-c)^2/12 + (q.get i-c)^3/12)) (fun v => c^3/3 * v.get j) l (fun e _ => ?_)
    ring
  rw [e, add_zero]
  refine edge_to_poly n _ k _ pts (fun o ho a ha b hb => ?_)
  rw [triMean_sq, ← mul_assoc, ← h o ho a ha b hb]
  ring

theorem ify2_eq {n : V3} {i j : ℕ} {k c : ℝ} {pts : List V3} (h : Comp n i j k pts) :
    ify2 i j c pts = k * polyInt n (fun p => (p.get j - c)^2) pts := by
  unfold ify2
  refine edge_to_poly n _ k _ pts (fun o ho a ha b hb => ?_)
  rw [triMean_sq, ← mul_assoc, ← h o ho a ha b hb]
  ring

theorem triMean_x (o a b : V3) : triMean (fun p => p.x) o a b = triMean (fun p => p.get 0) o a b := rfl

theorem centroid_inv {pts : List V3} {C : V3} (h : polygonCentroid pts = some C) :
    ∃ A, polygonArea pts = some A ∧ vecArea pts ≠ ⟨0,0,0⟩ ∧
      C.x = (if (unitNormal pts).y ≠ 0 then ify 2 0 pts / ((unitNormal pts).y * A) else if (unitNormal pts).z ≠ 0 then ifx 0 1 pts / ((unitNormal pts).z * A) else 0) ∧
      C.y = (if (unitNormal pts).x ≠ 0 then ifx 1 2 pts / ((unitNormal pts).x * A) else if (unitNormal pts).z ≠ 0 then ify 0 1 pts / ((unitNormal pts).z * A) else 0) ∧
      C.z = (if (unitNormal pts).x ≠ 0 then ify 1 2 pts / ((unitNormal pts).x * A) else if (unitNormal pts).y ≠ 0 then ifx 2 0 pts / ((unitNormal pts).y * A) else 0) := by
  unfold polygonCentroid at h
  cases hA : polygonArea pts with
  | none => rw [hA] at h; cases he : eqnOfPlane pts <;> rw [he] at h <;> cases h
  | some A =>
    have hv := (polygonArea_some hA).1
    rw [hA, eqnOfPlane_eq, if_neg hv] at h
    have h := Option.some.inj h
    subst h
    exact ⟨A, rfl, hv, rfl, rfl, rfl⟩

/-- For a planar polygon each coordinate of `polygon_centroid` is: the first moment divided by the area, times the sign of
the code's area (-1 when `y` is the first largest component of the normal); or 0 if the plane is perpendicular to that
coordinate. -/
theorem centroid_coords {pts : List V3} (hp : Planar (unitNormal pts) pts) {C : V3} (h : polygonCentroid pts = some C) :
    ∃ A, polygonArea pts = some A ∧ vecArea pts ≠ ⟨0,0,0⟩ ∧
      C.x = (if (unitNormal pts).y ≠ 0 ∨ (unitNormal pts).z ≠ 0 then polyInt (unitNormal pts) (·.x) pts / A else 0) ∧
      C.y = (if (unitNormal pts).x ≠ 0 ∨ (unitNormal pts).z ≠ 0 then polyInt (unitNormal pts) (·.y) pts / A else 0) ∧
      C.z = (if (unitNormal pts).x ≠ 0 ∨ (unitNormal pts).y ≠ 0 then polyInt (unitNormal pts) (·.z) pts / A else 0) := by
  obtain ⟨A, hA, hv, hx, hy, hz⟩ := centroid_inv h
  obtain ⟨c1, c2, c3⟩ := comp_all (unitNormal_unit hv) hp
  refine ⟨A, hA, hv, ?_, ?_, ?_⟩
  · rw [hx, ify_eq c2, ifx_eq c3]
    by_cases h1 : (unitNormal pts).y = 0
    · by_cases h2 : (unitNormal pts).z = 0
      · simp [h1, h2]
      · rw [if_neg (not_not.2 h1), if_pos h2, if_pos (Or.inr h2), mul_div_mul_left _ _ h2]; rfl
    · rw [if_pos h1, if_pos (Or.inl h1), mul_div_mul_left _ _ h1]; rfl
  · rw [hy, ify_eq c3, ifx_eq c1]
    by_cases h1 : (unitNormal pts).x = 0
    · by_cases h2 : (unitNormal pts).z = 0
      · simp [h1, h2]
      · rw [if_neg (not_not.2 h1), if_pos h2, if_pos (Or.inr h2), mul_div_mul_left _ _ h2]; rfl
    · rw [if_pos h1, if_pos (Or.inl h1), mul_div_mul_left _ _ h1]; rfl
  · rw [hz, ify_eq c1, ifx_eq c2]
    by_cases h1 : (unitNormal pts).x = 0
    · by_cases h2 : (unitNormal pts).y = 0
      · simp [h1, h2]
      · rw [if_neg (not_not.2 h1), if_pos h2, if_pos (Or.inr h2), mul_div_mul_left _ _ h2]; rfl
    · rw [if_pos h1, if_pos (Or.inl h1), mul_div_mul_left _ _ h1]; rfl

/-- The true centroid. -/
noncomputable def trueCentroid (pts : List V3) : V3 :=
  let n := unitNormal pts
  ⟨polyInt n (·.x) pts / polyInt n (fun _ => 1) pts, polyInt n (·.y) pts / polyInt n (fun _ => 1) pts,
   polyInt n (·.z) pts / polyInt n (fun _ => 1) pts⟩

theorem normal_zero_iff {pts : List V3} (hv : vecArea pts ≠ ⟨0,0,0⟩) :
    ((unitNormal pts).x ≠ 0 ↔ (vecArea pts).x ≠ 0) ∧ ((unitNormal pts).y ≠ 0 ↔ (vecArea pts).y ≠ 0) ∧
    ((unitNormal pts).z ≠ 0 ↔ (vecArea pts).z ≠ 0) := by
  have hl : length3 (vecArea pts) ≠ 0 := fun h' => hv ((length3_zero_iff _).1 h')
  simp [unitNormal, smul3, hl]

theorem ylargest_iff {pts : List V3} (hv : vecArea pts ≠ ⟨0,0,0⟩) : YLargest (unitNormal pts) ↔ YLargest (vecArea pts) := by
  have hl : length3 (vecArea pts) ≠ 0 := fun h' => hv ((length3_zero_iff _).1 h')
  have hp : 0 < length3 (vecArea pts) := lt_of_le_of_ne (length3_nonneg _) (Ne.symm hl)
  have hc : 0 < 1 / length3 (vecArea pts) := by positivity
  simp only [YLargest, unitNormal, smul3, mul_le_mul_iff_right₀ hc, mul_lt_mul_iff_right₀ hc]

/-- A planar polygon whose normal has at least two non-zero components, the first largest not being `y`:
`polygon_centroid` is the centroid. -/
theorem C52_oblique_partial (pts : List V3) (hp : Planar (unitNormal pts) pts) (C : V3) (h : polygonCentroid pts = some C)
    (hy : ¬ YLargest (vecArea pts)) (h1 : (vecArea pts).y ≠ 0 ∨ (vecArea pts).z ≠ 0) (h2 : (vecArea pts).x ≠ 0 ∨ (vecArea pts).z ≠ 0)
    (h3 : (vecArea pts).x ≠ 0 ∨ (vecArea pts).y ≠ 0) : C = trueCentroid pts := by
  obtain ⟨A, hA, hv, ex, ey, ez⟩ := centroid_coords hp h
  obtain ⟨i1, i2, i3⟩ := normal_zero_iff hv
  have hAp := C26_partial pts A hA hy
  have hAe := (C25_value pts A hA).2
  rw [abs_of_pos hAp] at hAe
  rw [if_pos (h1.imp i2.2 i3.2)] at ex
  rw [if_pos (h2.imp i1.2 i3.2)] at ey
  rw [if_pos (h3.imp i1.2 i2.2)] at ez
  unfold trueCentroid
  ext
  · rw [ex, hAe]
  · rw [ey, hAe]
  · rw [ez, hAe]

/-- With the first largest component along `y` the result is the mirror image of the centroid through the origin. -/
theorem C52_mirrored (pts : List V3) (hp : Planar (unitNormal pts) pts) (C : V3) (h : polygonCentroid pts = some C)
    (hy : YLargest (vecArea pts)) (h2 : (vecArea pts).x ≠ 0 ∨ (vecArea pts).z ≠ 0) (hy0 : (vecArea pts).y ≠ 0) :
    C = smul3 (-1) (trueCentroid pts) := by
  obtain ⟨A, hA, hv, ex, ey, ez⟩ := centroid_coords hp h
  obtain ⟨i1, i2, i3⟩ := normal_zero_iff hv
  have hAp := C26_negation pts A hA hy
  have hAe := (C25_value pts A hA).2
  rw [abs_of_neg hAp] at hAe
  rw [if_pos (Or.inl (i2.2 hy0))] at ex
  rw [if_pos (h2.imp i1.2 i3.2)] at ey
  rw [if_pos (Or.inr (i2.2 hy0))] at ez
  have hAe' : A = -polyInt (unitNormal pts) (fun _ => 1) pts := by rw [← hAe]; ring
  unfold trueCentroid smul3
  ext
  · rw [ex, hAe', div_neg]; ring
  · rw [ey, hAe', div_neg]; ring
  · rw [ez, hAe', div_neg]; ring

theorem triMean_const (c : ℝ) (o a b : V3) : triMean (fun _ => c) o a b = c := by
  rw [triMean_quad (fun _ => c) 0 0 0 o a b c 0 0 (by intros; ring)]; ring

/-- The claim is false of a polygon in a horizontal plane `z = c`: `polygon_centroid` returns `z = 0`, although every point
of the polygon has `z = c`. The same code path drops `x` or `y` for planes perpendicular to them. -/
theorem C52_negation (pts : List V3) (c : ℝ) (hz : ∀ p ∈ pts, p.z = c) (hA : 0 < (vecArea pts).z) :
    ∃ C, polygonCentroid pts = some C ∧ C.z = 0 ∧ (trueCentroid pts).z = c ∧
      C.x = (trueCentroid pts).x ∧ C.y = (trueCentroid pts).y := by
  have hx : (vecArea pts).x = 0 := by
    rw [← if1_12]; unfold if1
    rw [esum_sides]
    refine List.sum_eq_zero (fun x hx => ?_)
    obtain ⟨e, he, rfl⟩ := List.mem_map.1 hx
    simp [V3.get, hz _ (sides_mem he).1, hz _ (sides_mem he).2]
  have hy : (vecArea pts).y = 0 := by
    have : if1 0 2 pts = 0 := by
      unfold if1
      rw [esum_sides]
      refine List.sum_eq_zero (fun x hx => ?_)
      obtain ⟨e, he, rfl⟩ := List.mem_map.1 hx
      simp [V3.get, hz _ (sides_mem he).1, hz _ (sides_mem he).2]
    rw [if1_02] at this; linarith
  have hv : vecArea pts ≠ ⟨0,0,0⟩ := fun h => by rw [h] at hA; exact lt_irrefl _ hA
  have hd : (polygonArea pts).isSome := by
    rw [C25_defined, hx, hy, max_self, max_eq_right hA.le]; exact hA.ne'
  obtain ⟨A, hAr⟩ := Option.isSome_iff_exists.1 hd
  obtain ⟨C, hC⟩ : ∃ C, polygonCentroid pts = some C := by
    unfold polygonCentroid
    rw [hAr, eqnOfPlane_eq, if_neg hv]
    exact ⟨_, rfl⟩
  have hnx : (unitNormal pts).x = 0 := by simp [unitNormal, smul3, hx]
  have hny : (unitNormal pts).y = 0 := by simp [unitNormal, smul3, hy]
  have hp : Planar (unitNormal pts) pts := by
    refine ⟨(unitNormal pts).z * c, fun p hp => ?_⟩
    simp [dot3, hnx, hny, hz p hp]
  have hnz := (normal_zero_iff hv).2.2.2 hA.ne'
  obtain ⟨A', hA', _, ex, ey, ez⟩ := centroid_coords hp hC
  rw [hAr] at hA'; cases hA'
  have hpos := C26_partial pts A hAr (by rw [YLargest, hx, hy]; intro h; exact lt_irrefl _ h.1)
  have hAe := (C25_value pts A hAr).2
  rw [abs_of_pos hpos] at hAe
  refine ⟨C, hC, ?_, ?_, ?_, ?_⟩
  · rw [ez, hnx, hny]; simp
  · have : polyInt (unitNormal pts) (·.z) pts = c * polyInt (unitNormal pts) (fun _ => 1) pts := by
      unfold polyInt
      rw [← sum_map_mul']
      congr 1
      refine List.map_congr_left (fun e he => ?_)
      have hne : pts ≠ [] := by rintro rfl; simp [sides] at he
      have hm : ∀ o ∈ pts, ∀ a ∈ pts, ∀ b ∈ pts, triMean (·.z) o a b = c := fun o ho a ha b hb => by
        have := triMean_coord 2 o a b
        rw [show (fun p : V3 => p.get 2) = (fun p => p.z) from rfl] at this
        rw [this]; simp only [V3.get]; rw [hz o ho, hz a ha, hz b hb]; ring
      rw [hm _ (head_mem hne) _ (sides_mem he).1 _ (sides_mem he).2, triMean_one]; ring
    unfold trueCentroid
    simp only [this]
    rw [← hAe]; field_simp
  · rw [ex, if_pos (Or.inr hnz), hAe]; rfl
  · rw [ey, if_pos (Or.inr hnz), hAe]; rfl

/-! ## C54 -/

/-- For a planar polygon with at least two non-zero normal components, the first largest not being `y`,
`polygon_2nd_moment_of_area` returns the second moments about the centroid *divided by the area*. -/
theorem C54_partial (pts : List V3) (hp : Planar (unitNormal pts) pts) (M : V3) (h : polygonSecond pts = some M)
    (hy : ¬ YLargest (vecArea pts)) (h1 : (vecArea pts).y ≠ 0 ∨ (vecArea pts).z ≠ 0) (h2 : (vecArea pts).x ≠ 0 ∨ (vecArea pts).z ≠ 0)
    (h3 : (vecArea pts).x ≠ 0 ∨ (vecArea pts).y ≠ 0) :
    let n := unitNormal pts
    let G := trueCentroid pts
    let A := polyInt n (fun _ => 1) pts
    M.x = polyInt n (fun p => (p.x - G.x)^2) pts / A ∧ M.y = polyInt n (fun p => (p.y - G.y)^2) pts / A ∧
      M.z = polyInt n (fun p => (p.z - G.z)^2) pts / A := by
  intro n G A
  unfold polygonSecond at h
  cases hA : polygonArea pts with
  | none => rw [hA] at h; cases he : eqnOfPlane pts <;> rw [he] at h <;> cases h
  | some A' =>
  cases hC : polygonCentroid pts with
  | none => rw [hA, hC] at h; cases he : eqnOfPlane pts <;> rw [he] at h <;> cases h
  | some C =>
  have hv := (polygonArea_some hA).1
  rw [hA, hC, eqnOfPlane_eq, if_neg hv] at h
  have h := Option.some.inj h
  have hCG := C52_oblique_partial pts hp C hC hy h1 h2 h3
  have hAp := C26_partial pts A' hA hy
  have hAe := (C25_value pts A' hA).2
  rw [abs_of_pos hAp] at hAe
  obtain ⟨i1, i2, i3⟩ := normal_zero_iff hv
  obtain ⟨c1, c2, c3⟩ := comp_all (unitNormal_unit hv) hp
  subst hCG
  rw [← h]
  simp only
  rw [ify2_eq c2, ifx2_eq c3, ifx2_eq c1, ify2_eq c3, ify2_eq c1, ifx2_eq c2, hAe]
  simp only [add_zero]
  refine ⟨?_, ?_, ?_⟩
  · by_cases h0 : (unitNormal pts).y = 0
    · have h2' : (unitNormal pts).z ≠ 0 := i3.2 (h1.resolve_left (fun hh => i2.2 hh h0))
      rw [if_neg (not_not.2 h0), if_pos h2', mul_div_mul_left _ _ h2']; rfl
    · rw [if_pos h0, mul_div_mul_left _ _ h0]; rfl
  · by_cases h0 : (unitNormal pts).x = 0
    · have h2' : (unitNormal pts).z ≠ 0 := i3.2 (h2.resolve_left (fun hh => i1.2 hh h0))
      rw [if_neg (not_not.2 h0), if_pos h2', mul_div_mul_left _ _ h2']; rfl
    · rw [if_pos h0, mul_div_mul_left _ _ h0]; rfl
  · by_cases h0 : (unitNormal pts).x = 0
    · have h2' : (unitNormal pts).y ≠ 0 := i2.2 (h3.resolve_left (fun hh => i1.2 hh h0))
      rw [if_neg (not_not.2 h0), if_pos h2', mul_div_mul_left _ _ h2']; rfl
    · rw [if_pos h0, mul_div_mul_left _ _ h0]; rfl

/-- Why "divided by the area" matters: the second moment itself scales with the fourth power of the size. -/
theorem C54_scaling (n : V3) (i : ℕ) (G : V3) (c : ℝ) (pts : List V3) :
    polyInt n (fun p => (p.get i - (smul3 c G).get i)^2) (pts.map (smul3 c)) = c^4 * polyInt n (fun p => (p.get i - G.get i)^2) pts := by
  cases pts with
  | nil => simp [polyInt, sides]
  | cons o l =>
  unfold polyInt
  rw [sides_map, List.map_map, ← sum_map_mul']
  congr 1
  refine List.map_congr_left (fun e _ => ?_)
  show triArea n (smul3 c o) (smul3 c e.1) (smul3 c e.2) * triMean _ (smul3 c o) (smul3 c e.1) (smul3 c e.2) = c^4 * (triArea n o e.1 e.2 * triMean _ o e.1 e.2)
  rw [triMean_sq, triMean_sq]
  have : triArea n (smul3 c o) (smul3 c e.1) (smul3 c e.2) = c^2 * triArea n o e.1 e.2 := by
    simp only [triArea, dot3, smul3, cross3, sub3]; ring
  rw [this]
  simp only [get_smul3]
  ring

/-! Non-vacuity: the triangle (1,0,0), (0,1,0), (0,0,1). -/
example : vecArea [⟨1,0,0⟩, ⟨0,1,0⟩, ⟨0,0,1⟩] = ⟨1/2, 1/2, 1/2⟩ ∧
    Planar (unitNormal [⟨1,0,0⟩, ⟨0,1,0⟩, ⟨0,0,1⟩]) [⟨1,0,0⟩, ⟨0,1,0⟩, ⟨0,0,1⟩] := by
  have hva : vecArea [⟨1,0,0⟩, ⟨0,1,0⟩, ⟨0,0,1⟩] = ⟨1/2, 1/2, 1/2⟩ := by
    simp [vecArea, sides, sum3, cross3, smul3, List.rotate]
  refine ⟨hva, 1 / length3 (vecArea [⟨1,0,0⟩, ⟨0,1,0⟩, ⟨0,0,1⟩]) * (1/2), ?_⟩
  intro p hp
  simp only [List.mem_cons, List.not_mem_nil, or_false] at hp
  unfold unitNormal
  rw [hva]
  rcases hp with rfl | rfl | rfl <;> simp [smul3, dot3]

end Geotecha.Geom
