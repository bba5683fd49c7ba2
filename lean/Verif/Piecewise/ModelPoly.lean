import Verif.Piecewise.Model
import Mathlib.Data.List.Sort
import Mathlib.Data.Prod.Lex

/-!
# Model of `remove_superfluous_from_x_y`, the `PolyLine` class, `polyline_make_x_common`
(geotecha/piecewise/piecewise_linear_1d.py)
-/

namespace Geotecha.Piecewise
variable {K : Type} [Field K] [LinearOrder K]

/-! ## remove_superfluous_from_x_y -/

/-- `d**2` of lines 1191-1193, for points number `j` and `i`. -/
def dist2 (x y : List K) (j i : ℕ) : K := (nth x i - nth x j)^2 + (nth y i - nth y j)^2

/-- The numerator of `di` of line 1198, for the point number `k`. -/
def crossAt (x y : List K) (j i k : ℕ) : K :=
  (nth x i - nth x j) * (nth y j - nth y k) - (nth y i - nth y j) * (nth x j - nth x k)

/-- Loop body, piecewise_linear_1d.py:1188-1204.  State `(ikeep, j)` (`x0, y0` are always
`x[j], y[j]`).  The code tests `np.allclose(sqrt(d2), 0)`, i.e. `sqrt(d2) <= 1e-8`, and
`abs(cross/sqrt(d2)) > atol`; both are written squared here, which is equivalent for `atol >= 0`
(`rs_tests_real`). -/
def rsStep (x y : List K) (atol : K) (st : List ℕ × ℕ) (i : ℕ) : List ℕ × ℕ :=
  if dist2 x y st.2 i ≤ (1/100000000)^2 then (st.1.erase (i-1), st.2)
  else if (List.range' (st.2+1) (i-(st.2+1))).any
      (fun k => decide (crossAt x y st.2 i k ^ 2 > atol^2 * dist2 x y st.2 i)) then (st.1, i-1)
  else (st.1.erase (i-1), st.2)

/-- `remove_superfluous_from_x_y`, piecewise_linear_1d.py:1148-1206. -/
def removeSuperfluous (x y : List K) (atol : K) : Except PyErr (List K × List K) :=
  if x.length ≠ y.length then .error .valueError
  else if x.length ≤ 2 then .ok (x, y)
  else
    let st := (List.range' 2 (x.length - 2)).foldl (rsStep x y atol) (List.range x.length, 0)
    .ok (st.1.map (nth x), st.1.map (nth y))

/-! ## The PolyLine object -/

/-- A `PolyLine` object, piecewise_linear_1d.py:2284-2290.  `xy` is the `_xy` array; `_x` and `_y` are
always numpy views of the two columns of `_xy`, so only whether they have been created is recorded;
`seg` holds the four arrays `_x1, _x2, _y1, _y2`, which are set together. -/
structure PolyLine (K : Type) where
  xy : Option (List (K × K))
  xView : Bool
  yView : Bool
  seg : Option (Segs4 K)
  deriving DecidableEq, Repr

/-- `PolyLine(xy)`, lines 2296-2306 (an `n` by 2 array; other shapes raise `TypeError`). -/
def PolyLine.ofXY (pts : List (K × K)) : Except PyErr (PolyLine K) :=
  if pts.length < 2 then .error .typeError else .ok ⟨some pts, false, false, none⟩

/-- `PolyLine(x, y)`, lines 2308-2322. -/
def PolyLine.ofX_Y (x y : List K) : Except PyErr (PolyLine K) :=
  if x.length ≠ y.length ∨ x.length < 2 ∨ y.length < 2 then .error .typeError
  else .ok ⟨some (x.zip y), true, true, none⟩

/-- `PolyLine(x1, x2, y1, y2)`, lines 2324-2337. -/
def PolyLine.ofSegs (s : Segs4 K) : Except PyErr (PolyLine K) :=
  if ¬ (s.x2.length = s.x1.length ∧ s.y1.length = s.x1.length ∧ s.y2.length = s.x1.length) then
    .error .typeError
  else .ok ⟨none, false, false, some s⟩

/-- What an operation hands back to the caller. -/
inductive Out (K : Type)
  | arr (a : List K)
  | pts (p : List (K × K))
  | segs (s : Segs4 K)
  | line (p : PolyLine K)
  | err (e : PyErr)
  deriving DecidableEq, Repr

/-- Property `xy`, lines 2339-2347: builds `_xy` from the segment arrays if necessary. -/
def PolyLine.getXY (p : PolyLine K) : Except PyErr (List (K × K)) × PolyLine K :=
  match p.xy with
  | some pts => (.ok pts, p)
  | none => match p.seg with
    | none => (.error .other, p)   -- neither form present: not constructible
    | some s => match convertToXY s with
      | .error e => (.error e, p)
      | .ok (x, y) => (.ok (x.zip y), { p with xy := some (x.zip y) })

/-- Property `x`, lines 2356-2363. -/
def PolyLine.getX (p : PolyLine K) : Except PyErr (List K) × PolyLine K :=
  match p.getXY with
  | (.ok pts, p') => (.ok (pts.map Prod.fst), { p' with xView := true })
  | (.error e, p') => (.error e, p')

/-- Property `y`, lines 2365-2372. -/
def PolyLine.getY (p : PolyLine K) : Except PyErr (List K) × PolyLine K :=
  match p.getXY with
  | (.ok pts, p') => (.ok (pts.map Prod.snd), { p' with yView := true })
  | (.error e, p') => (.error e, p')

/-- Property `x1_x2_y1_y2` (and so `x1`, `x2`, `y1`, `y2`), lines 2349-2389. -/
def PolyLine.getSegs (p : PolyLine K) : Except PyErr (Segs4 K) × PolyLine K :=
  match p.seg with
  | some s => (.ok s, p)
  | none =>
    match p.getX with
    | (.error e, p1) => (.error e, p1)
    | (.ok x, p1) => match p1.getY with
      | (.error e, p2) => (.error e, p2)
      | (.ok y, p2) => match convertToSegs x y with
        | .error e => (.error e, p2)
        | .ok s => (.ok s, { p2 with seg := some s })

/-- The operations a user can apply to a `PolyLine` (with a number as the other operand). -/
inductive Op (K : Type)
  | readX | readY | readXY | readSegs
  | mul (c : K) | div (c : K)
  | add (c : K) | sub (c : K) | rsub (c : K)
  deriving DecidableEq, Repr

/-- wrap a constructor result -/
def Out.ofLine : Except PyErr (PolyLine K) → Out K
  | .ok p => .line p
  | .error e => .err e

/-- `PolyLine(self.x, f(self.y))` with `f` building a new array (`__mul__` 2413-2426,
`__truediv__` 2431-2443). -/
def PolyLine.mapY (p : PolyLine K) (f : K → K) : Out K × PolyLine K :=
  match p.getX with
  | (.error e, p1) => (.err e, p1)
  | (.ok x, p1) => match p1.getY with
    | (.error e, p2) => (.err e, p2)
    | (.ok y, p2) => (Out.ofLine (PolyLine.ofX_Y x (y.map f)), p2)

/-- `PolyLine(self.x, iop(self.y, other))`, line 2555: `operator.iadd` / `operator.isub` change the
array `self.y`, which is a view of `self._xy`, in place. -/
def PolyLine.imapY (p : PolyLine K) (f : K → K) : Out K × PolyLine K :=
  match p.getX with
  | (.error e, p1) => (.err e, p1)
  | (.ok x, p1) => match p1.getY with
    | (.error e, p2) => (.err e, p2)
    | (.ok y, p2) =>
      (Out.ofLine (PolyLine.ofX_Y x (y.map f)),
        { p2 with xy := p2.xy.map (fun pts => pts.map (fun q => (q.1, f q.2))) })

/-- One operation.  `__add__` and `__radd__` (2403-2406) are `_add_substract` with `operator.add`; `__rsub__` (2410-2411) is `self._add_substract(other, op=sub).__mul__(-1)`.
Division by zero (numpy inf/nan) is not modelled: `div` is for `c ≠ 0`. -/
def PolyLine.step (p : PolyLine K) : Op K → Out K × PolyLine K
  | .readX => match p.getX with
    | (.ok a, p') => (.arr a, p')
    | (.error e, p') => (.err e, p')
  | .readY => match p.getY with
    | (.ok a, p') => (.arr a, p')
    | (.error e, p') => (.err e, p')
  | .readXY => match p.getXY with
    | (.ok a, p') => (.pts a, p')
    | (.error e, p') => (.err e, p')
  | .readSegs => match p.getSegs with
    | (.ok a, p') => (.segs a, p')
    | (.error e, p') => (.err e, p')
  | .mul c => p.mapY (fun v => v * c)
  | .div c => p.mapY (fun v => v / c)
  | .add c => p.imapY (fun v => v + c)
  | .sub c => p.imapY (fun v => v - c)
  | .rsub c => match p.imapY (fun v => v - c) with
    | (.line q, p') => ((q.mapY (fun v => v * (-1))).1, p')
    | (o, p') => (o, p')

/-- Running a sequence of operations, collecting what each returns. -/
def PolyLine.run (p : PolyLine K) : List (Op K) → List (Out K) × PolyLine K
  | [] => ([], p)
  | o :: os =>
    let (r, p') := p.step o
    let (rs, p'') := PolyLine.run p' os
    (r :: rs, p'')

/-! ## Merging abscissae: `_add_substract` and `polyline_make_x_common` -/

/-- A row of `data`, lines 2501-2509 and 2605-2613. -/
structure Row (K : Type) where
  x : K
  y : K
  line : ℕ
  pos : ℕ
  deriving DecidableEq, Repr

/-- `np.lexsort((pos, line, x))`: by `x`, then `line`, then `pos`. -/
def Row.le (a b : Row K) : Bool :=
  decide (a.x < b.x ∨ (a.x = b.x ∧ (a.line < b.line ∨ (a.line = b.line ∧ a.pos ≤ b.pos))))

/-- Rows of one line. -/
def rowsOf (x y : List K) (k : ℕ) : List (Row K) :=
  (List.range x.length).map (fun i => ⟨nth x i, nth y i, k, i⟩)

/-- The table `data` before sorting. -/
def dataOf (lines : List (List K × List K)) : List (Row K) :=
  (List.range lines.length).flatMap (fun k =>
    let l := lines.getD k ([], [])
    rowsOf l.1 l.2 k)

/-- `data[np.lexsort(...)]`, lines 2511 and 2615 (insertion sort; the sort keys are distinct so every
sorting algorithm gives this result). -/
def sortRows (d : List (Row K)) : List (Row K) := d.insertionSort (fun a b => Row.le a b = true)

/-- `self.atol`, `self.rtol`, lines 2291-2292. -/
def polyAtol : K := 1/100000
def polyRtol : K := 1/100000000

/-- `ind`, lines 2523 and 2630, for row `r`. -/
def isClose (x : K) (r : Row K) : Bool := decide (|r.x - x| < polyAtol + polyRtol * |x|)

/-- Index of the last row close to `x` plus one, lines 2549 and 2645. -/
def nextIndex (data : List (Row K)) (x : K) : ℕ :=
  match (List.range data.length).reverse.find? (fun i => (data[i]?).any (isClose x)) with
  | some i => i + 1
  | none => 0   -- an IndexError in the code; does not happen as row `i` itself is close

/-- The abscissae `x = data[i, 0]` visited by the `while` loop, lines 2519-2549 and 2626-2645, with
fuel; `none` if the fuel runs out. -/
def visit (data : List (Row K)) : ℕ → ℕ → Option (List K)
  | 0, i => if i < data.length then none else some []
  | fuel+1, i =>
    match data[i]? with
    | none => some []
    | some r => (visit data fuel (nextIndex data r.x)).map (fun l => r.x :: l)

/-- The values `y1`, `y1_` of line number `k` at the visited abscissa `x`, lines 2525-2532, 2534-2541
and 2633-2640: the first and the last close row of the line, or the interpolated value. -/
def groupVals (data : List (Row K)) (k : ℕ) (l : List K × List K) (x : K) : Except PyErr (K × K) :=
  let j := data.filter (fun r => isClose x r && decide (r.line = k))
  match j.head?, j.getLast? with
  | some a, some b => .ok (a.y, b.y)
  | _, _ => match interpXY l.1 l.2 x false with
    | .ok v => .ok (v, v)
    | .error e => .error e

/-- The points appended for a visited abscissa, lines 2545-2547 and 2641-2643. -/
def emit (x y y_ : K) : List (K × K) :=
  if |y - y_| > polyAtol + polyRtol * |y_| then [(x, y), (x, y_)] else [(x, y)]

/-- `non_increasing(x) or non_decreasing(x)`, lines 2476 and 2591. -/
def monotoneX (x : List K) : Bool := nonIncreasing x || nonDecreasing x

/-- Orientation, lines 2483-2494 and 2595-2600: reverse unless "initially increasing". -/
def orient (x y : List K) : Except PyErr (List K × List K) := do
  let b ← isInitiallyIncreasing x
  pure (if b then (x, y) else (x.reverse, y.reverse))

/-- `_add_substract` with another `PolyLine`, lines 2474-2551, on the `x` and `y` of the operands. -/
def addSub (op : K → K → K) (a b : List K × List K) : Except PyErr (PolyLine K) := do
  if ¬ (monotoneX a.1 ∧ monotoneX b.1) then .error .typeError
  else
    let a1 ← orient a.1 a.2
    let b1 ← orient b.1 b.2
    let a2 ← removeSuperfluous a1.1 a1.2 (1/100000000)
    let b2 ← removeSuperfluous b1.1 b1.2 (1/100000000)
    let data := sortRows (dataOf [a2, b2])
    match visit data data.length 0 with
    | none => .error .other
    | some xs =>
      let pnts ← xs.mapM (fun x => do
        let v1 ← groupVals data 0 a2 x
        let v2 ← groupVals data 1 b2 x
        pure (emit x (op v1.1 v2.1) (op v1.2 v2.2)))
      PolyLine.ofXY pnts.flatten

/-- `polyline_make_x_common`, lines 2568-2646, for at least two lines. -/
def makeXCommon (lines : List (List K × List K)) : Except PyErr (List (PolyLine K)) := do
  let ls ← lines.mapM (fun l => if monotoneX l.1 then orient l.1 l.2 else .error .typeError)
  let data := sortRows (dataOf ls)
  match visit data data.length 0 with
  | none => .error .other
  | some xs =>
    (List.range ls.length).mapM (fun k => do
      let pnts ← xs.mapM (fun x => do
        let v ← groupVals data k (ls.getD k ([], [])) x
        pure (emit x v.1 v.2))
      PolyLine.ofXY pnts.flatten)

end Geotecha.Piecewise
