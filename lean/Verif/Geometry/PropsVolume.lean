import Verif.Geometry.PropsCentroid
import Mathlib.Tactic.Abel

set_option linter.unusedVariables false
namespace Geotecha.Geom

/-! # C53 polyhedron_volume -/

theorem mean_planar {n : V3} {pts : List V3} (hne : pts ≠ []) {c : ℝ} (hc : ∀ p ∈ pts, dot3 n p = c) : dot3 (meanPt pts) n = c := by
  have hk : (pts.length : ℝ) ≠ 0 := by
    rw [Nat.cast_ne_zero]; exact fun h => hne (List.length_eq_zero_iff.1 h)
  have hs : ∀ l : List V3, (∀ p ∈ l, dot3 n p = c) → n.x * (l.map (·.x)).sum + n.y * (l.map (·.y)).sum + n.z * (l.map (·.z)).sum = l.length * c := by
    intro l hl
    induction l with
    | nil => simp
    | cons a l ih =>
      have h1 := ih (fun p hp => hl p (List.mem_cons_of_mem _ hp))
      have h2 := hl a List.mem_cons_self
      simp only [dot3] at h2
      simp only [List.map_cons, List.sum_cons, List.length_cons]
      push_cast
      linarith
  have := hs pts hc
  unfold meanPt dot3
  field_simp
  linarith

/-- One planar face contributes the flux of `x e_x` through it. -/
theorem faceTerm_eq {pts : List V3} (hv : vecArea pts ≠ ⟨0,0,0⟩) (hp : Planar (unitNormal pts) pts) :
    faceTerm (unitNormal pts) (-(dot3 (meanPt pts) (unitNormal pts))) pts = (unitNormal pts).x * polyInt (unitNormal pts) (·.x) pts := by
  have hne : pts ≠ [] := by rintro rfl; apply hv; simp [vecArea, sides, sum3, smul3]
  obtain ⟨c1, c2, c3⟩ := comp_all (unitNormal_unit hv) hp
  obtain ⟨c, hc⟩ := hp
  set n := unitNormal pts with hn
  rw [mean_planar hne hc]
  unfold faceTerm
  simp only
  split_ifs with h0
  · rw [h0, zero_mul]
  · refine edge_to_poly n _ n.x _ pts (fun o ho a ha b hb => ?_)
    have hm := triMean_coord 0 o a b
    rw [show (fun p : V3 => p.get 0) = (fun p => p.x) from rfl] at hm
    rw [hm, ← mul_assoc, ← c1 o ho a ha b hb]
    simp only [V3.get]
    have xo : o.x = (c - n.y*o.y - n.z*o.z)/n.x := by
      rw [eq_div_iff h0]; have := hc o ho; simp only [dot3] at this; linarith
    have xa : a.x = (c - n.y*a.y - n.z*a.z)/n.x := by
      rw [eq_div_iff h0]; have := hc a ha; simp only [dot3] at this; linarith
    have xb : b.x = (c - n.y*b.y - n.z*b.z)/n.x := by
      rw [eq_div_iff h0]; have := hc b hb; simp only [dot3] at this; linarith
    rw [xo, xa, xb]
    field_simp
    ring

/-- The edge form whose boundary sums account for the difference between the flux and a third of the cone volumes. -/
noncomputable def edgeForm (a b : V3) : ℝ :=
  ((b.z - a.z)*(2*a.x*a.y + a.x*b.y + b.x*a.y + 2*b.x*b.y) - (b.y - a.y)*(2*a.x*a.z + a.x*b.z + b.x*a.z + 2*b.x*b.z)) / 18

theorem edgeForm_swap (a b : V3) : edgeForm b a = -edgeForm a b := by unfold edgeForm; ring

theorem face_flux {pts : List V3} (hv : vecArea pts ≠ ⟨0,0,0⟩) (hp : Planar (unitNormal pts) pts) :
    (unitNormal pts).x * polyInt (unitNormal pts) (·.x) pts =
      ((sides pts).map (fun e => det3 (pts.headD ⟨0,0,0⟩) e.1 e.2 / 6)).sum + ((sides pts).map (fun e => edgeForm e.1 e.2)).sum := by
  have hne : pts ≠ [] := by rintro rfl; apply hv; simp [vecArea, sides, sum3, smul3]
  obtain ⟨c1, c2, c3⟩ := comp_all (unitNormal_unit hv) hp
  unfold polyInt
  rw [← sum_map_mul', ← sum_map_add']
  refine sum_congr_tel (fun a b => (unitNormal pts).x * (triArea (unitNormal pts) (pts.headD ⟨0,0,0⟩) a b * triMean (·.x) (pts.headD ⟨0,0,0⟩) a b))
    (fun a b => det3 (pts.headD ⟨0,0,0⟩) a b / 6 + edgeForm a b) (fun v => - edgeForm (pts.headD ⟨0,0,0⟩) v) pts (fun e he => ?_)
  have hm := triMean_coord 0 (pts.headD ⟨0,0,0⟩) e.1 e.2
  rw [show (fun p : V3 => p.get 0) = (fun p => p.x) from rfl] at hm
  rw [hm, ← mul_assoc, ← c1 _ (head_mem hne) _ (sides_mem he).1 _ (sides_mem he).2]
  simp only [V3.get, det3, dot3, cross3, edgeForm]
  ring

/-- All faces planar and not degenerate. -/
def GoodFaces (faces : List (List V3)) : Prop := ∀ f ∈ faces, vecArea f ≠ ⟨0,0,0⟩ ∧ Planar (unitNormal f) f

theorem volume_eq (faces : List (List V3)) (h : GoodFaces faces) :
    polyhedronVolume faces = some (signedVolume faces + (((faces.map sides).flatten).map (fun e => edgeForm e.1 e.2)).sum) := by
  induction faces with
  | nil => simp [polyhedronVolume, signedVolume]
  | cons f fs ih =>
    have hf := h f List.mem_cons_self
    rw [polyhedronVolume, ih (fun g hg => h g (List.mem_cons_of_mem _ hg)), eqnOfPlane_eq, if_neg hf.1]
    simp only
    rw [faceTerm_eq hf.1 hf.2, face_flux hf.1 hf.2]
    unfold signedVolume
    simp only [List.map_cons, List.sum_cons, List.flatten_cons, List.map_append, List.sum_append]
    congr 1
    ring

/-- `polyhedron_volume` of any closed polyhedron with planar, non-degenerate faces (any number of faces, any number of
vertices per face, convex or not) is the enclosed signed volume. -/
theorem C53_closed (faces : List (List V3)) (h : GoodFaces faces) (hc : ClosedSurface faces) :
    polyhedronVolume faces = some (signedVolume faces) := by
  rw [volume_eq faces h]
  have hp := (hc.map (fun e => edgeForm e.1 e.2)).sum_eq
  rw [List.map_map] at hp
  have : ((fun e : V3 × V3 => edgeForm e.1 e.2) ∘ Prod.swap) = fun e => -edgeForm e.1 e.2 := by
    funext e; exact edgeForm_swap e.1 e.2
  rw [this] at hp
  have hneg : ∀ l : List (V3 × V3), (l.map (fun e => -edgeForm e.1 e.2)).sum = -(l.map (fun e => edgeForm e.1 e.2)).sum := by
    intro l
    have := sum_map_mul' l (-1) (fun e => edgeForm e.1 e.2)
    simpa using this
  rw [hneg] at hp
  congr 1
  linarith

/-- Corner `i` of the parallelepiped with corner `o` and edges `u` (towards node 4), `v` (towards node 5), `w` (towards
node 2), in the numbering of `make_hexahedron`. -/
def boxCorner (o u v w : V3) : ℕ → V3
  | 0 => o
  | 1 => add3 o w
  | 2 => add3 o (add3 u w)
  | 3 => add3 o u
  | 4 => add3 o v
  | 5 => add3 o (add3 v w)
  | 6 => add3 o (add3 u (add3 v w))
  | _ => add3 o (add3 u v)

theorem vecArea_quad (a b c d : V3) : vecArea [a, b, c, d] = smul3 (1/2) (cross3 (sub3 c a) (sub3 d b)) := by
  simp only [vecArea, sides, List.rotate, List.length, sum3]
  norm_num
  simp only [cross3, smul3, sub3]
  ext <;> simp <;> ring

theorem good_para (a p q : V3) (h : cross3 p q ≠ ⟨0,0,0⟩) (b c d : V3) (hb : b = add3 a p) (hc : c = add3 a (add3 p q)) (hd : d = add3 a q) :
    vecArea [a,b,c,d] ≠ ⟨0,0,0⟩ ∧ Planar (unitNormal [a,b,c,d]) [a,b,c,d] := by
  subst hb hc hd
  have hva : vecArea [a, add3 a p, add3 a (add3 p q), add3 a q] = cross3 p q := by
    rw [vecArea_quad]
    simp only [cross3, smul3, sub3, add3]
    ext <;> ring
  refine ⟨by rw [hva]; exact h, dot3 (unitNormal [a, add3 a p, add3 a (add3 p q), add3 a q]) a, ?_⟩
  intro x hx
  unfold unitNormal
  rw [hva]
  simp only [List.mem_cons, List.not_mem_nil, or_false] at hx
  rcases hx with rfl | rfl | rfl | rfl
  · rfl
  all_goals
    simp only [cross3, smul3, dot3, add3]
    ring

/-- The volume of any non-degenerate parallelepiped built by `make_hexahedron`, however placed and oriented, is the
determinant of its edges. -/
theorem C53_parallelepiped (o u v w : V3) (h : det3 u v w ≠ 0) :
    polyhedronVolume (makeHexahedron (boxCorner o u v w)) = some (det3 u v w) := by
  have c1 : cross3 u v ≠ ⟨0,0,0⟩ := fun hc => h (by
    have : det3 u v w = dot3 (cross3 u v) w := by simp only [det3, dot3, cross3]; ring
    rw [this, hc]; simp [dot3])
  have c2 : cross3 v w ≠ ⟨0,0,0⟩ := fun hc => h (by unfold det3; rw [hc]; simp [dot3])
  have c3 : cross3 u w ≠ ⟨0,0,0⟩ := fun hc => h (by
    have : det3 u v w = -dot3 (cross3 u w) v := by simp only [det3, dot3, cross3]; ring
    rw [this, hc]; simp [dot3])
  have swap : ∀ {a b : V3}, cross3 a b ≠ ⟨0,0,0⟩ → cross3 b a ≠ ⟨0,0,0⟩ := by
    intro a b hab hba
    apply hab
    have : cross3 a b = smul3 (-1) (cross3 b a) := by simp only [cross3, smul3]; ext <;> ring
    rw [this, hba]; simp [smul3]
  have neg1 : ∀ {a b : V3}, cross3 a b ≠ ⟨0,0,0⟩ → cross3 (smul3 (-1) a) b ≠ ⟨0,0,0⟩ := by
    intro a b hab hba
    apply hab
    have : cross3 a b = smul3 (-1) (cross3 (smul3 (-1) a) b) := by simp only [cross3, smul3]; ext <;> ring
    rw [this, hba]; simp [smul3]
  have neg2 : ∀ {a b : V3}, cross3 a b ≠ ⟨0,0,0⟩ → cross3 a (smul3 (-1) b) ≠ ⟨0,0,0⟩ := by
    intro a b hab hba
    apply hab
    have : cross3 a b = smul3 (-1) (cross3 a (smul3 (-1) b)) := by simp only [cross3, smul3]; ext <;> ring
    rw [this, hba]; simp [smul3]
  have hgood : GoodFaces (makeHexahedron (boxCorner o u v w)) := by
    intro f hf
    simp only [makeHexahedron, List.map_cons, List.map_nil, List.mem_cons, List.not_mem_nil, or_false] at hf
    rcases hf with rfl | rfl | rfl | rfl | rfl | rfl
    · refine good_para _ u w c3 _ _ _ ?_ ?_ ?_ <;> simp only [boxCorner, add3, smul3] <;> ext <;> simp
    · refine good_para _ (smul3 (-1) w) v (neg1 (swap c2)) _ _ _ ?_ ?_ ?_ <;> simp only [boxCorner, add3, smul3] <;> ext <;> simp <;> ring
    · refine good_para _ (smul3 (-1) u) w (neg1 c3) _ _ _ ?_ ?_ ?_ <;> simp only [boxCorner, add3, smul3] <;> ext <;> simp <;> ring
    · refine good_para _ v (smul3 (-1) w) (neg2 c2) _ _ _ ?_ ?_ ?_ <;> simp only [boxCorner, add3, smul3] <;> ext <;> simp <;> ring
    · refine good_para _ (smul3 (-1) v) u (neg1 (swap c1)) _ _ _ ?_ ?_ ?_ <;> simp only [boxCorner, add3, smul3] <;> ext <;> simp <;> ring
    · refine good_para _ u (smul3 (-1) v) (neg2 c1) _ _ _ ?_ ?_ ?_ <;> simp only [boxCorner, add3, smul3] <;> ext <;> simp <;> ring
  rw [volume_eq _ hgood]
  congr 1
  simp only [makeHexahedron, List.map_cons, List.map_nil, signedVolume, sides, List.rotate, List.length]
  norm_num
  simp only [edgeForm, det3, dot3, cross3, boxCorner, add3]
  ring

/-- The tetrahedron is a closed surface (non-vacuity of `C53_closed`). -/
theorem tetrahedron_closed (p q r s : V3) : ClosedSurface [[p, r, q], [p, q, s], [q, r, s], [r, p, s]] := by
  unfold ClosedSurface
  simp only [List.map_cons, List.map_nil, sides, List.rotate, List.length]
  norm_num
  rw [← Multiset.coe_eq_coe]
  simp only [← Multiset.cons_coe, ← Multiset.singleton_add, Multiset.coe_nil]
  abel

/-- The tetrahedron. -/
theorem C53_tetrahedron (p q r s : V3) (h : det3 (sub3 q p) (sub3 r p) (sub3 s p) ≠ 0) :
    polyhedronVolume [[p, r, q], [p, q, s], [q, r, s], [r, p, s]] = some (det3 (sub3 q p) (sub3 r p) (sub3 s p) / 6) := by
  have tri : ∀ a b c : V3, cross3 (sub3 b a) (sub3 c a) ≠ ⟨0,0,0⟩ → vecArea [a,b,c] ≠ ⟨0,0,0⟩ ∧ Planar (unitNormal [a,b,c]) [a,b,c] := by
    intro a b c hc
    have hva : vecArea [a,b,c] = smul3 (1/2) (cross3 (sub3 b a) (sub3 c a)) := by
      simp only [vecArea, sides, List.rotate, List.length, sum3]
      norm_num
      simp only [cross3, smul3, sub3]
      ext <;> simp <;> ring
    refine ⟨?_, dot3 (unitNormal [a,b,c]) a, ?_⟩
    · rw [hva]
      intro h0
      apply hc
      have : cross3 (sub3 b a) (sub3 c a) = smul3 2 (smul3 (1/2) (cross3 (sub3 b a) (sub3 c a))) := by
        simp only [smul3]; ext <;> ring
      rw [this, h0]; simp [smul3]
    · intro x hx
      unfold unitNormal
      rw [hva]
      simp only [List.mem_cons, List.not_mem_nil, or_false] at hx
      rcases hx with rfl | rfl | rfl
      · rfl
      all_goals
        simp only [cross3, smul3, dot3, sub3]
        ring
  have key : ∀ a b c d : V3, det3 (sub3 q p) (sub3 r p) (sub3 s p) = dot3 (cross3 (sub3 b a) (sub3 c a)) (sub3 d a) →
      cross3 (sub3 b a) (sub3 c a) ≠ ⟨0,0,0⟩ := by
    intro a b c d hd h0
    apply h
    rw [hd, h0]; simp [dot3]
  have key' : ∀ a b c d : V3, det3 (sub3 q p) (sub3 r p) (sub3 s p) = -dot3 (cross3 (sub3 b a) (sub3 c a)) (sub3 d a) →
      cross3 (sub3 b a) (sub3 c a) ≠ ⟨0,0,0⟩ := by
    intro a b c d hd h0
    apply h
    rw [hd, h0]; simp [dot3]
  have hgood : GoodFaces [[p, r, q], [p, q, s], [q, r, s], [r, p, s]] := by
    intro f hf
    simp only [List.mem_cons, List.not_mem_nil, or_false] at hf
    rcases hf with rfl | rfl | rfl | rfl
    · exact tri _ _ _ (key' _ _ _ s (by simp only [det3, dot3, cross3, sub3]; ring))
    · exact tri _ _ _ (key' _ _ _ r (by simp only [det3, dot3, cross3, sub3]; ring))
    · exact tri _ _ _ (key' _ _ _ p (by simp only [det3, dot3, cross3, sub3]; ring))
    · exact tri _ _ _ (key' _ _ _ q (by simp only [det3, dot3, cross3, sub3]; ring))
  rw [volume_eq _ hgood]
  congr 1
  simp only [List.map_cons, List.map_nil, signedVolume, sides, List.rotate, List.length]
  norm_num
  simp only [edgeForm, det3, dot3, cross3, sub3]
  ring

end Geotecha.Geom
