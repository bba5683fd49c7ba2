import Verif.Piecewise.Model
import Mathlib.Analysis.SpecialFunctions.Pow.Real

/-!
# Model of geotecha/mathematics/geometry.py

Points are triples of reals; 2-d points get `z = 0` (`xyz_from_pts`, geometry.py:28-71).  A result `none` stands for a
non-finite numpy value (`nan`, from a division by zero).
-/

namespace Geotecha.Geom

/-- A point (or vector). -/
@[ext] structure V3 where
  x : ℝ
  y : ℝ
  z : ℝ

/-- `xyz_from_pts(pts, True)` for 2-d input, geometry.py:47-60: `z` stays 0. -/
def of2 (p : ℝ × ℝ) : V3 := ⟨p.1, p.2, 0⟩

/-- `xyz_from_pts(pts, True)`, geometry.py:47-60: the vertex list with the first point repeated at the end. -/
def closed : List V3 → List V3
  | [] => []
  | p :: ps => p :: ps ++ [p]

/-- The pairs of `x[:-1]` and `x[1:]` (same for `y`, `z`) of the closed list. -/
def edges (pts : List V3) : List (V3 × V3) := List.zip (closed pts).dropLast (closed pts).tail

/-- `np.sum(f(x[:-1], x[1:], ...))`. -/
noncomputable def esum (f : V3 → V3 → ℝ) (pts : List V3) : ℝ := ((edges pts).map (fun e => f e.1 e.2)).sum

/-- `a, b, c` of `eqn_of_plane` before normalisation, geometry.py:98-100. -/
noncomputable def rawNormal (pts : List V3) : V3 :=
  ⟨esum (fun p q => (p.y - q.y) * (p.z + q.z)) pts,
   esum (fun p q => (p.z - q.z) * (p.x + q.x)) pts,
   esum (fun p q => (p.x - q.x) * (p.y + q.y)) pts⟩

/-- `np.linalg.norm`. -/
noncomputable def norm3 (v : V3) : ℝ := Real.sqrt (v.x^2 + v.y^2 + v.z^2)

/-- `eqn_of_plane(pts)`, geometry.py:74-107: unit normal and constant; `none` when the normal vanishes. -/
noncomputable def eqnOfPlane (pts : List V3) : Option (V3 × ℝ) :=
  let r := rawNormal pts
  let m := norm3 r
  if m = 0 then none
  else
    let n : V3 := ⟨r.x / m, r.y / m, r.z / m⟩
    let k : ℝ := pts.length
    let px := (pts.map (·.x)).sum / k
    let py := (pts.map (·.y)).sum / k
    let pz := (pts.map (·.z)).sum / k
    some (n, -(px * n.x + py * n.y + pz * n.z))

/-- `np.argmax(n)` (first maximum). -/
noncomputable def argmax3 (n : V3) : ℕ :=
  if n.y ≤ n.x ∧ n.z ≤ n.x then 0 else if n.z ≤ n.y then 1 else 2

/-- `n[i]`, `e[i]`. -/
def V3.get (v : V3) : ℕ → ℝ
  | 0 => v.x
  | 1 => v.y
  | _ => v.z

/-- `if1dxdy`, geometry.py:239-243, on coordinates `i`, `j`. -/
noncomputable def if1 (i j : ℕ) (pts : List V3) : ℝ :=
  esum (fun p q => (p.get i / 2 + q.get i / 2) * (-p.get j + q.get j)) pts

/-- `polygon_area(pts)`, geometry.py:214-245. -/
noncomputable def polygonArea (pts : List V3) : Option ℝ :=
  match eqnOfPlane pts with
  | none => none
  | some (n, _) =>
    let i := argmax3 n
    let j := (List.range 3).eraseIdx i
    if n.get i = 0 then none
    else some (if1 (j.getD 0 0) (j.getD 1 0) pts / n.get i)

/-- `ifxdxdy`, geometry.py:264-267. -/
noncomputable def ifx (i j : ℕ) (pts : List V3) : ℝ :=
  esum (fun p q => (-p.get j + q.get j) * (p.get i^2/6 + p.get i * q.get i / 6 + q.get i^2/6)) pts

/-- `ifydxdy`, geometry.py:268-272. -/
noncomputable def ify (i j : ℕ) (pts : List V3) : ℝ :=
  esum (fun p q => (-p.get j + q.get j) * (p.get i * p.get j / 3 + p.get i * q.get j / 6 +
    q.get i * p.get j / 6 + q.get i * q.get j / 3)) pts

/-- `polygon_centroid(pts)`, geometry.py:248-313.  The flags `calcd` are the `if`s below. -/
noncomputable def polygonCentroid (pts : List V3) : Option V3 :=
  match eqnOfPlane pts, polygonArea pts with
  | some (n, _), some a =>
    let xc := if n.y ≠ 0 then ify 2 0 pts / (n.y * a) else if n.z ≠ 0 then ifx 0 1 pts / (n.z * a) else 0
    let yc := if n.x ≠ 0 then ifx 1 2 pts / (n.x * a) else if n.z ≠ 0 then ify 0 1 pts / (n.z * a) else 0
    let zc := if n.x ≠ 0 then ify 1 2 pts / (n.x * a) else if n.y ≠ 0 then ifx 2 0 pts / (n.y * a) else 0
    some ⟨xc, yc, zc⟩
  | _, _ => none

/-- `ifx2dxdy`, geometry.py:332-337. -/
noncomputable def ifx2 (i j : ℕ) (xc : ℝ) (pts : List V3) : ℝ :=
  esum (fun p q =>
    let x0 := p.get i; let x1 := q.get i; let y0 := p.get j; let y1 := q.get j
    (-y0 + y1) * (x0^3/12 + x0^2*x1/12 - x0^2*xc/3 + x0*x1^2/12 - x0*x1*xc/3 + x0*xc^2/2 + x1^3/12 - x1^2*xc/3
      + x1*xc^2/2)) pts

/-- `ify2dxdy`, geometry.py:339-347. -/
noncomputable def ify2 (i j : ℕ) (yc : ℝ) (pts : List V3) : ℝ :=
  esum (fun p q =>
    let x0 := p.get i; let x1 := q.get i; let y0 := p.get j; let y1 := q.get j
    (-y0 + y1) * (x0*y0^2/4 + x0*y0*y1/6 - 2*x0*y0*yc/3 + x0*y1^2/12 - x0*y1*yc/3 + x0*yc^2/2 + x1*y0^2/12
      + x1*y0*y1/6 - x1*y0*yc/3 + x1*y1^2/4 - 2*x1*y1*yc/3 + x1*yc^2/2)) pts

/-- `polygon_2nd_moment_of_area(pts)`, geometry.py:316-391. -/
noncomputable def polygonSecond (pts : List V3) : Option V3 :=
  match eqnOfPlane pts, polygonArea pts, polygonCentroid pts with
  | some (n, _), some a, some c =>
    let ixx := if n.y ≠ 0 then ify2 2 0 c.x pts / (n.y * a) else if n.z ≠ 0 then ifx2 0 1 c.x pts / (n.z * a) else 0
    let iyy := if n.x ≠ 0 then ifx2 1 2 c.y pts / (n.x * a) else if n.z ≠ 0 then ify2 0 1 c.y pts / (n.z * a) else 0
    let izz := if n.x ≠ 0 then ify2 1 2 c.z pts / (n.x * a) else if n.y ≠ 0 then ifx2 2 0 c.z pts / (n.y * a) else 0
    some ⟨ixx, iyy, izz⟩
  | _, _, _ => none

/-- Contribution of one face to `polyhedron_volume`, geometry.py:418-428. -/
noncomputable def faceTerm (n : V3) (d : ℝ) (pts : List V3) : ℝ :=
  let n1 := n.x; let n2 := n.y; let n3 := n.z
  if n1 = 0 then 0
  else esum (fun p q =>
    let y0 := p.y; let y1 := q.y; let z0 := p.z; let z1 := q.z
    (-z0 + z1)*((-2*d*y0 - n2*y0^2 - 2*n3*y0*z0)/(2*n1) + (d*y0 - d*y1 + n2*y0^2 - n2*y0*y1 + 2*n3*y0*z0 - n3*y0*z1 -
            n3*y1*z0)/(2*n1) + (-n2*y0^2 + 2*n2*y0*y1 - n2*y1^2 - 2*n3*y0*z0 + 2*n3*y0*z1 +
            2*n3*y1*z0 - 2*n3*y1*z1)/(6*n1))) pts

/-- `polyhedron_volume(faces)`, geometry.py:393-432. -/
noncomputable def polyhedronVolume : List (List V3) → Option ℝ
  | [] => some 0
  | f :: fs =>
    match eqnOfPlane f, polyhedronVolume fs with
    | some (n, d), some v => some (faceTerm n d f + v)
    | _, _ => none

/-- `make_hexahedron(coords)`, geometry.py:434-472: node numbers minus one. -/
def makeHexahedron (c : ℕ → V3) : List (List V3) :=
  [[0,3,2,1],[2,3,7,6],[7,4,5,6],[1,5,4,0],[5,1,2,6],[4,7,3,0]].map (fun f => f.map c)

end Geotecha.Geom
