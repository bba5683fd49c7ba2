import Mathlib.Algebra.Order.Field.Basic

/-!
# Specification: the curve through a list of points

Independent of the model of the code.
-/

namespace Geotecha.Spec

variable {K : Type} [Field K] [LinearOrder K]

/-- The straight line through `p` and `q`, evaluated at `t`. -/
def line (p q : K × K) (t : K) : K := p.2 + (q.2 - p.2) / (q.1 - p.1) * (t - p.1)

/-- Height at `t` of the polyline through the points (sorted by abscissa, vertical steps allowed),
approached from the left: before the first point the first height, after the last point the last
height, otherwise the first non-vertical segment whose span contains `t`. -/
def polyLeft : List (K × K) → K → K
  | [], _ => 0
  | [p], _ => p.2
  | p :: q :: r, t =>
    if t < p.1 then p.2
    else if p.1 < q.1 ∧ t ≤ q.1 then line p q t
    else polyLeft (q :: r) t

/-- Mirror image of a polyline about the vertical axis. -/
def mirror (pts : List (K × K)) : List (K × K) := (pts.map (fun p => (-p.1, p.2))).reverse

/-- The polyline approached from the right: the mirror image approached from the left. -/
def polyRight (pts : List (K × K)) (t : K) : K := polyLeft (mirror pts) (-t)

/-- Abscissae non-decreasing. -/
def SortedLe (x : List K) : Prop := x.Pairwise (· ≤ ·)

/-- Abscissae strictly increasing. -/
def SortedLt (x : List K) : Prop := x.Pairwise (· < ·)

end Geotecha.Spec

namespace Geotecha.Spec
variable {K : Type} [Field K] [LinearOrder K]

/-- A straight segment from a start point to an end point. -/
abbrev Seg (K : Type) := (K × K) × (K × K)

/-- The corner points of a chain of segments, in order. -/
def segPoints (L : List (Seg K)) : List (K × K) := L.flatMap (fun s => [s.1, s.2])

/-- Each segment runs to the right and starts where (in abscissa) its predecessor ends; the heights
may jump. -/
def Contiguous (L : List (Seg K)) : Prop :=
  L.IsChain (fun s t => s.2.1 = t.1.1) ∧ ∀ s ∈ L, s.1.1 < s.2.1

end Geotecha.Spec

namespace Geotecha.Spec
variable {K : Type} [Field K] [LinearOrder K]

/-- The non-vertical pieces of a polyline. -/
def pieces (pts : List (K × K)) : List (Seg K) :=
  (pts.zip pts.tail).filter (fun s => decide (s.1.1 ≠ s.2.1))

/-- Corner points of a chain of segments without repeating a shared corner. -/
def corners : List (Seg K) → List (K × K)
  | [] => []
  | [s] => [s.1, s.2]
  | s :: t :: r => if s.2.2 ≠ t.1.2 then s.1 :: s.2 :: corners (t :: r) else s.1 :: corners (t :: r)

end Geotecha.Spec

namespace Geotecha.Spec
variable {K : Type} [Field K] [LinearOrder K]

/-- Value of a polyline at `v` just before a possible step there: the first data point with abscissa
`v`, otherwise the interpolated value. -/
def firstAt (pts : List (K × K)) (v : K) : K :=
  match pts.find? (fun p => decide (p.1 = v)) with
  | some p => p.2
  | none => polyLeft pts v

/-- Value of a polyline at `v` just after a possible step there: the last data point with abscissa
`v`, otherwise the interpolated value. -/
def lastAt (pts : List (K × K)) (v : K) : K :=
  match pts.reverse.find? (fun p => decide (p.1 = v)) with
  | some p => p.2
  | none => polyLeft pts v

end Geotecha.Spec
