import Verif.Piecewise.Model
import Mathlib.Algebra.Order.Floor.Ring
import Mathlib.Data.Rat.Floor

/-!
# Model of the subdivision functions (geotecha/piecewise/piecewise_linear_1d.py)
-/

namespace Geotecha.Piecewise
variable {K : Type} [Field K] [LinearOrder K]

/-- `np.linspace(a, b, n, endpoint=False)`. -/
def linspaceOpen (a b : K) (n : ℕ) : List K := (List.range n).map (fun i : ℕ => a + (i : K) * ((b - a) / n))

/-- `np.linspace(a, b, n + 1, endpoint=True)` (`[a]` if `n = 0`). -/
def linspaceClosed (a b : K) (n : ℕ) : List K := (List.range (n+1)).map (fun i : ℕ => a + (i : K) * ((b - a) / n))

/-- `max(int(abs((x2-x1)//dx)), min_segments)`, lines 2739, 2742, 2747, 2753. -/
def numSegs [FloorRing K] (x1 x2 dx : K) (minSeg : ℕ) : ℕ := max (⌊(x2 - x1) / dx⌋).natAbs minSeg

/-- `np.max(x) - np.min(x)`. -/
def extent (x : List K) : K :=
  x.foldl max (nth x 0) - x.foldl min (nth x 0)

/-- `subdivide_x_y_into_segments` with `logx=False`, `logy=False`, piecewise_linear_1d.py:2651-2772.
`dx = 0` (which makes `int(nan)` fail) is a `ValueError`; empty data an `IndexError`/`ValueError`. -/
def subdivideXY [FloorRing K] (x y : List K) (dx : Option K) (minSeg : ℕ) (justBefore : Option K) :
    Except PyErr (List K × List K) :=
  if x.length ≠ y.length then .error .valueError
  else
    let d := dx.getD (2 * extent x)
    match x.getLast?, y.getLast? with
    | some xl, some yl =>
      if d = 0 ∧ 1 < x.length then .error .valueError
      else
        let sg := List.range (x.length - 1)
        match justBefore with
        | none => .ok
          ((sg.map (fun i => linspaceOpen (nth x i) (nth x (i+1)) (numSegs (nth x i) (nth x (i+1)) d minSeg))).flatten ++ [xl],
           (sg.map (fun i => linspaceOpen (nth y i) (nth y (i+1)) (numSegs (nth x i) (nth x (i+1)) d minSeg))).flatten ++ [yl])
        | some jb => .ok
          ((sg.map (fun i => linspaceClosed (nth x i) (nth x i + (1 - jb) * (nth x (i+1) - nth x i))
              (numSegs (nth x i) (nth x (i+1)) d minSeg))).flatten ++ [xl],
           (sg.map (fun i => linspaceClosed (nth y i) (nth y i + (1 - jb) * (nth y (i+1) - nth y i))
              (numSegs (nth x i) (nth x (i+1)) d minSeg))).flatten ++ [yl])
    | _, _ => .error .valueError

/-- `subdivide_x_into_segments` with `logx=False`, piecewise_linear_1d.py:2775-2875. -/
def subdivideX [FloorRing K] (x : List K) (dx : Option K) (minSeg : ℕ) (justBefore : Option K) :
    Except PyErr (List K) :=
  let d := dx.getD (2 * extent x)
  match x.getLast? with
  | some xl =>
    if d = 0 ∧ 1 < x.length then .error .valueError
    else
      let sg := List.range (x.length - 1)
      match justBefore with
      | none => .ok
        ((sg.map (fun i => linspaceOpen (nth x i) (nth x (i+1)) (numSegs (nth x i) (nth x (i+1)) d minSeg))).flatten ++ [xl])
      | some jb => .ok
        ((sg.map (fun i => linspaceClosed (nth x i) (nth x i + (1 - jb) * (nth x (i+1) - nth x i))
            (numSegs (nth x i) (nth x (i+1)) d minSeg))).flatten ++ [xl])
  | none => .error .valueError

/-- `subdivide_into_elements`, piecewise_linear_1d.py:2932-3020 (`n` a natural number). -/
def subdivideElements (n : ℕ) (h p : K) (symmetry : Bool) : Except PyErr (List K) :=
  if p ≤ 0 then .error .valueError
  else if n ≤ 1 then .error .valueError
  else if p = 1 then
    -- np.diff(np.linspace(0, h, n+1))
    .ok (diff (linspaceClosed 0 h n))
  else if symmetry then
    if n % 2 = 0 then
      let x := h / (2 * (p^(n/2) - 1) / (p - 1))
      .ok ((List.range (n/2) ++ (List.range (n/2)).reverse).map (fun k => x * p^k))
    else
      let x := h / (2 * (p^((n+1)/2) - 1) / (p - 1) - p^((n-1)/2))
      .ok ((List.range ((n+1)/2) ++ (List.range ((n-1)/2)).reverse).map (fun k => x * p^k))
  else
    let x := h / (p^n - 1) * (p - 1)
    .ok ((List.range n).map (fun k => x * p^k))

end Geotecha.Piecewise
