import Verif.Geometry.Model
import Mathlib.Analysis.SpecialFunctions.Integrals.Basic

/-! # What area, centroid, second moment and volume mean

The integral of `g` over a planar polygon is the sum, over the triangles joining the first vertex to each side, of the
signed area of the triangle (w.r.t. the unit normal `n`) times the mean of `g` over the triangle.
-/

namespace Geotecha.Geom

def sub3 (a b : V3) : V3 := ⟨a.x - b.x, a.y - b.y, a.z - b.z⟩
def add3 (a b : V3) : V3 := ⟨a.x + b.x, a.y + b.y, a.z + b.z⟩
def dot3 (a b : V3) : ℝ := a.x*b.x + a.y*b.y + a.z*b.z
def cross3 (a b : V3) : V3 := ⟨a.y*b.z - a.z*b.y, a.z*b.x - a.x*b.z, a.x*b.y - a.y*b.x⟩
def smul3 (c : ℝ) (a : V3) : V3 := ⟨c*a.x, c*a.y, c*a.z⟩

/-- The sides of the polygon, in order, including the closing one. -/
def sides (pts : List V3) : List (V3 × V3) := List.zip pts (pts.rotate 1)

/-- Sum of vectors. -/
def sum3 (l : List V3) : V3 := ⟨(l.map (·.x)).sum, (l.map (·.y)).sum, (l.map (·.z)).sum⟩

/-- The vector area: half the sum of the cross products of consecutive vertices. -/
noncomputable def vecArea (pts : List V3) : V3 := smul3 (1/2) (sum3 ((sides pts).map (fun e => cross3 e.1 e.2)))

noncomputable def length3 (v : V3) : ℝ := Real.sqrt (dot3 v v)

/-- Mean of `g` over the triangle `o a b`. -/
noncomputable def triMean (g : V3 → ℝ) (o a b : V3) : ℝ :=
  2 * ∫ s in (0:ℝ)..1, ∫ t in (0:ℝ)..(1-s), g (add3 o (add3 (smul3 s (sub3 a o)) (smul3 t (sub3 b o))))

/-- Signed area of the triangle `o a b` seen from the direction `n`. -/
noncomputable def triArea (n o a b : V3) : ℝ := dot3 (smul3 (1/2) (cross3 (sub3 a o) (sub3 b o))) n

/-- Integral of `g` over the polygon with unit normal `n`. -/
noncomputable def polyInt (n : V3) (g : V3 → ℝ) (pts : List V3) : ℝ :=
  ((sides pts).map (fun e => triArea n (pts.headD ⟨0,0,0⟩) e.1 e.2 * triMean g (pts.headD ⟨0,0,0⟩) e.1 e.2)).sum

/-- All vertices lie in one plane with normal `n`. -/
def Planar (n : V3) (pts : List V3) : Prop := ∃ c : ℝ, ∀ p ∈ pts, dot3 n p = c

/-- The unit normal (counter-clockwise orientation). -/
noncomputable def unitNormal (pts : List V3) : V3 := smul3 (1 / length3 (vecArea pts)) (vecArea pts)

/-- A closed surface: every directed side of a face is matched by its reverse. -/
def ClosedSurface (faces : List (List V3)) : Prop :=
  ((faces.map sides).flatten).Perm ((faces.map sides).flatten.map Prod.swap)

def det3 (a b c : V3) : ℝ := dot3 a (cross3 b c)

/-- Signed volume enclosed: sum of the signed volumes of the tetrahedra joining the origin to the fan triangles of the
faces. -/
noncomputable def signedVolume (faces : List (List V3)) : ℝ :=
  (faces.map (fun f => ((sides f).map (fun e => det3 (f.headD ⟨0,0,0⟩) e.1 e.2 / 6)).sum)).sum

end Geotecha.Geom
