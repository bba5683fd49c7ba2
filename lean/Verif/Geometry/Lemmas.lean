import Verif.Geometry.Spec
import Mathlib.Tactic.FieldSimp
import Mathlib.Tactic.LinearCombination
import Mathlib.Tactic.Ring

namespace Geotecha.Geom

theorem edges_eq_sides (pts : List V3) : edges pts = sides pts := by
  cases pts with
  | nil => rfl
  | cons p ps =>
    unfold edges sides closed
    rw [List.rotate_cons_succ, List.rotate_zero]
    congr 1
    rw [List.dropLast_concat]

theorem esum_sides (f : V3 → V3 → ℝ) (pts : List V3) : esum f pts = ((sides pts).map (fun e => f e.1 e.2)).sum := by
  unfold esum; rw [edges_eq_sides]

theorem sides_fst (pts : List V3) : (sides pts).map Prod.fst = pts := by
  unfold sides; rw [List.map_fst_zip]; simp

theorem sides_snd (pts : List V3) : (sides pts).map Prod.snd = pts.rotate 1 := by
  unfold sides; rw [List.map_snd_zip]; simp

theorem sides_mem {pts : List V3} {e : V3 × V3} (h : e ∈ sides pts) : e.1 ∈ pts ∧ e.2 ∈ pts := by
  unfold sides at h
  have h' := List.of_mem_zip (a := e.1) (b := e.2) h
  exact ⟨h'.1, List.mem_rotate.1 h'.2⟩

theorem sum_map_sub' {α} (l : List α) (f g : α → ℝ) : (l.map (fun x => f x - g x)).sum = (l.map f).sum - (l.map g).sum := by
  induction l with
  | nil => simp
  | cons a l ih => simp [ih]; ring

theorem sum_map_add' {α} (l : List α) (f g : α → ℝ) : (l.map (fun x => f x + g x)).sum = (l.map f).sum + (l.map g).sum := by
  induction l with
  | nil => simp
  | cons a l ih => simp [ih]; ring

theorem sum_map_mul' {α} (l : List α) (c : ℝ) (f : α → ℝ) : (l.map (fun x => c * f x)).sum = c * (l.map f).sum := by
  induction l with
  | nil => simp
  | cons a l ih => simp [ih]; ring

/-- Differences along the closed boundary cancel. -/
theorem telescope (g : V3 → ℝ) (pts : List V3) : ((sides pts).map (fun e => g e.2 - g e.1)).sum = 0 := by
  rw [sum_map_sub']
  have h1 : (sides pts).map (fun e => g e.1) = pts.map g := by
    rw [← sides_fst pts, List.map_map, sides_fst]; rfl
  have h2 : (sides pts).map (fun e => g e.2) = (pts.rotate 1).map g := by
    rw [← sides_snd pts, List.map_map]; rfl
  rw [h1, h2]
  have := ((List.rotate_perm pts 1).map g).sum_eq
  rw [this, sub_self]

theorem sum_congr_tel (f h : V3 → V3 → ℝ) (g : V3 → ℝ) (pts : List V3)
    (hf : ∀ e ∈ sides pts, f e.1 e.2 = h e.1 e.2 + (g e.2 - g e.1)) :
    ((sides pts).map (fun e => f e.1 e.2)).sum = ((sides pts).map (fun e => h e.1 e.2)).sum := by
  rw [List.map_congr_left hf, sum_map_add', telescope, add_zero]

theorem sum3_x {α} (l : List α) (f : α → V3) : (sum3 (l.map f)).x = (l.map (fun a => (f a).x)).sum := by
  simp [sum3, Function.comp_def]
theorem sum3_y {α} (l : List α) (f : α → V3) : (sum3 (l.map f)).y = (l.map (fun a => (f a).y)).sum := by
  simp [sum3, Function.comp_def]
theorem sum3_z {α} (l : List α) (f : α → V3) : (sum3 (l.map f)).z = (l.map (fun a => (f a).z)).sum := by
  simp [sum3, Function.comp_def]

/-- The code's normal is twice the vector area. -/
theorem rawNormal_eq (pts : List V3) : rawNormal pts = smul3 2 (vecArea pts) := by
  unfold rawNormal vecArea smul3
  rw [esum_sides, esum_sides, esum_sides, sum3_x, sum3_y, sum3_z]
  ext
  · simp only []
    rw [← mul_assoc]; norm_num
    refine sum_congr_tel (fun p q => (p.y - q.y) * (p.z + q.z)) (fun a b => (cross3 a b).x) (fun v => -(v.y * v.z)) pts (fun e _ => ?_)
    simp only [cross3]; ring
  · simp only []
    rw [← mul_assoc]; norm_num
    refine sum_congr_tel (fun p q => (p.z - q.z) * (p.x + q.x)) (fun a b => (cross3 a b).y) (fun v => -(v.x * v.z)) pts (fun e _ => ?_)
    simp only [cross3]; ring
  · simp only []
    rw [← mul_assoc]; norm_num
    refine sum_congr_tel (fun p q => (p.x - q.x) * (p.y + q.y)) (fun a b => (cross3 a b).z) (fun v => -(v.x * v.y)) pts (fun e _ => ?_)
    simp only [cross3]; ring

theorem norm3_eq (v : V3) : norm3 v = length3 v := by
  unfold norm3 length3 dot3; congr 1; ring

theorem length3_smul (c : ℝ) (hc : 0 ≤ c) (v : V3) : length3 (smul3 c v) = c * length3 v := by
  unfold length3
  rw [show dot3 (smul3 c v) (smul3 c v) = c^2 * dot3 v v by simp [dot3, smul3]; ring, Real.sqrt_mul (sq_nonneg c),
    Real.sqrt_sq hc]

theorem dot_self_nonneg (v : V3) : 0 ≤ dot3 v v := by
  unfold dot3; nlinarith [sq_nonneg v.x, sq_nonneg v.y, sq_nonneg v.z]

theorem length3_zero_iff (v : V3) : length3 v = 0 ↔ v = ⟨0,0,0⟩ := by
  unfold length3
  rw [Real.sqrt_eq_zero (dot_self_nonneg v)]
  constructor
  · intro h
    unfold dot3 at h
    have hx : v.x = 0 := by nlinarith [sq_nonneg v.x, sq_nonneg v.y, sq_nonneg v.z]
    have hy : v.y = 0 := by nlinarith [sq_nonneg v.x, sq_nonneg v.y, sq_nonneg v.z]
    have hz : v.z = 0 := by nlinarith [sq_nonneg v.x, sq_nonneg v.y, sq_nonneg v.z]
    ext <;> assumption
  · rintro rfl; simp [dot3]

theorem length3_nonneg (v : V3) : 0 ≤ length3 v := Real.sqrt_nonneg _

/-- Mean position of the vertices. -/
noncomputable def meanPt (pts : List V3) : V3 :=
  ⟨(pts.map (·.x)).sum / pts.length, (pts.map (·.y)).sum / pts.length, (pts.map (·.z)).sum / pts.length⟩

open Classical in
theorem eqnOfPlane_eq (pts : List V3) :
    eqnOfPlane pts = if vecArea pts = ⟨0,0,0⟩ then none else some (unitNormal pts, -(dot3 (meanPt pts) (unitNormal pts))) := by
  unfold eqnOfPlane
  have hm : norm3 (rawNormal pts) = 2 * length3 (vecArea pts) := by
    rw [norm3_eq, rawNormal_eq, length3_smul 2 (by norm_num)]
  simp only [hm]
  by_cases h : vecArea pts = ⟨0,0,0⟩
  · rw [if_pos (by rw [(length3_zero_iff _).2 h, mul_zero]), if_pos h]
  · have hl : length3 (vecArea pts) ≠ 0 := fun h' => h ((length3_zero_iff _).1 h')
    rw [if_neg (mul_ne_zero two_ne_zero hl), if_neg h]
    have hn : (⟨(rawNormal pts).x / (2 * length3 (vecArea pts)), (rawNormal pts).y / (2 * length3 (vecArea pts)),
        (rawNormal pts).z / (2 * length3 (vecArea pts))⟩ : V3) = unitNormal pts := by
      rw [rawNormal_eq]
      unfold unitNormal smul3
      ext <;> simp only [] <;> field_simp
    congr 1
    rw [Prod.mk.injEq]
    refine ⟨hn, ?_⟩
    rw [← hn]; rfl

/-! ## Means over triangles -/

theorem int_cubic (a b c0 c1 c2 c3 : ℝ) : (∫ x in a..b, (c0 + c1*x + c2*x^2 + c3*x^3)) =
    c0*(b-a) + c1*(b^2-a^2)/2 + c2*(b^3-a^3)/3 + c3*(b^4-a^4)/4 := by
  have h : ∀ x ∈ Set.uIcc a b, HasDerivAt (fun x : ℝ => c0*x + c1*(x^2/2) + c2*(x^3/3) + c3*(x^4/4)) (c0 + c1*x + c2*x^2 + c3*x^3) x := by
    intro x _
    have h1 := (hasDerivAt_id x).const_mul c0
    have h2 := ((hasDerivAt_pow 2 x).div_const 2).const_mul c1
    have h3 := ((hasDerivAt_pow 3 x).div_const 3).const_mul c2
    have h4 := ((hasDerivAt_pow 4 x).div_const 4).const_mul c3
    have := ((h1.add h2).add h3).add h4
    refine (this.congr_deriv ?_)
    push_cast
    norm_num
  rw [intervalIntegral.integral_eq_sub_of_hasDerivAt h (Continuous.intervalIntegrable (by fun_prop) _ _)]
  ring

theorem triMean_quad (g : V3 → ℝ) (u v w : ℝ) (o a b : V3) (c0 c1 c2 : ℝ)
    (hg : ∀ s t, g (add3 o (add3 (smul3 s (sub3 a o)) (smul3 t (sub3 b o)))) =
      c0 + c1 * (u + s*v + t*w) + c2 * (u + s*v + t*w)^2) :
    triMean g o a b = c0 + c1 * (u + v/3 + w/3) + c2 * (u^2 + 2*u*(v+w)/3 + (v^2 + v*w + w^2)/6) := by
  unfold triMean
  have h1 : ∀ s : ℝ, (∫ t in (0:ℝ)..(1-s), g (add3 o (add3 (smul3 s (sub3 a o)) (smul3 t (sub3 b o))))) =
      (c0 + c1*u + c2*u^2 + c1*w/2 + c2*u*w + c2*w^2/3)
      + (-c0 - c1*u - c2*u^2 + c1*v + 2*c2*u*v - c1*w - 2*c2*u*w + c2*v*w - c2*w^2) * s
      + (-(c1*v) - 2*c2*u*v + c2*v^2 + c1*w/2 + c2*u*w - 2*c2*v*w + c2*w^2)*s^2 + (-(c2*v^2) + c2*v*w - c2*w^2/3)*s^3 := by
    intro s
    have : ∀ t, g (add3 o (add3 (smul3 s (sub3 a o)) (smul3 t (sub3 b o)))) =
      (c0 + c1*(u+s*v) + c2*(u+s*v)^2) + (c1*w + 2*c2*(u+s*v)*w)*t + (c2*w^2)*t^2 + 0*t^3 := by
      intro t; rw [hg]; ring
    simp only [this]
    rw [int_cubic]
    ring
  simp only [h1]
  rw [int_cubic]
  ring

end Geotecha.Geom
