import Mathlib.Algebra.Order.Field.Basic
import Mathlib.Algebra.Order.Ring.Abs
import Mathlib.Data.Rat.Defs
import Mathlib.Algebra.Order.Ring.Rat

/-!
# Model of `geotecha/piecewise/piecewise_linear_1d.py` (functions on plain lists)

numpy arrays are `List K` over an ordered field `K`; arithmetic is exact.  Query arrays
(`xi`, `xj`) are handled one entry at a time: the Python functions loop over them independently
(`np.atleast_1d` followed by a comprehension or `for i, v in enumerate(...)`).
Python exceptions are `Except PyErr`.
-/

namespace Geotecha

/-- The Python exceptions that the modelled code can raise. -/
inductive PyErr
  | valueError | typeError | indexError | attributeError | zeroDivision | unboundLocal | other
  deriving DecidableEq, Repr

namespace Piecewise

variable {K : Type} [Field K] [LinearOrder K]

/-- Indexing `a[i]` of an in-range index.  All uses below are with `i < a.length`; out-of-range
indexing (a Python `IndexError`) is modelled explicitly where the code can reach it. -/
abbrev nth (a : List K) (i : ℕ) : K := a.getD i 0

/-- `np.diff(x)`. -/
def diff : List K → List K
  | a :: b :: r => (b - a) :: diff (b :: r)
  | _ => []

/-- `has_steps`, piecewise_linear_1d.py:31-50. -/
def hasSteps (x : List K) : Bool := (diff x).any (fun d => decide (d = 0))

/-- `strictly_increasing`, piecewise_linear_1d.py:80-101. -/
def strictlyIncreasing (x : List K) : Bool := (diff x).all (fun d => decide (d > 0))

/-- `strictly_decreasing`, piecewise_linear_1d.py:104-125. -/
def strictlyDecreasing (x : List K) : Bool := (diff x).all (fun d => decide (d < 0))

/-- `non_increasing`, piecewise_linear_1d.py:128-149. -/
def nonIncreasing (x : List K) : Bool := (diff x).all (fun d => decide (d ≤ 0))

/-- `non_decreasing`, piecewise_linear_1d.py:152-173. -/
def nonDecreasing (x : List K) : Bool := (diff x).all (fun d => decide (d ≥ 0))

/-- `np.where(p(a))[0]`: positions of the entries satisfying `p`. -/
def whereIdx {α : Type*} (p : α → Bool) (a : List α) : List ℕ :=
  (List.range a.length).filter (fun i => (a[i]?).any p)

/-- `is_initially_increasing`, piecewise_linear_1d.py:53-76.  `x[1] != x[0]` compares directly;
otherwise the code returns `np.where(np.diff(x) != 0)[0][0] > 0`, i.e. it compares the *position* of
the first non-zero difference with 0.  `x` with fewer than two entries: `IndexError`; no non-zero
difference: `IndexError`. -/
def isInitiallyIncreasing (x : List K) : Except PyErr Bool :=
  match x with
  | x0 :: x1 :: _ =>
    if x1 ≠ x0 then .ok (decide (x1 > x0))
    else match whereIdx (fun d => decide (d ≠ 0)) (diff x) with
      | [] => .error .indexError
      | i :: _ => .ok (decide (i > 0))
  | _ => .error .indexError

/-- `np.sign`. -/
def npSign (d : K) : ℤ := if d > 0 then 1 else if d < 0 then -1 else 0

/-- Body of the loop of `non_increasing_and_non_decreasing_parts`, lines 213-221.  The accumulator is
`A` split as (finished parts, current part), and `current_sign`. -/
def partsStep (incl : Bool) (acc : List (List ℕ) × List ℕ × ℤ) (isgn : ℕ × ℤ) :
    List (List ℕ) × List ℕ × ℤ :=
  let (done, cur, cs) := acc
  let (i, sgn) := isgn
  if i = 0 then acc
  else if sgn ≠ 0 ∧ sgn ≠ cs then
    (done ++ [if incl then cur ++ [i] else cur], [i], sgn)
  else (done, cur ++ [i], cs)

/-- `non_increasing_and_non_decreasing_parts`, piecewise_linear_1d.py:176-224. -/
def monotoneParts (x : List K) (incl : Bool) : Except PyErr (List (List ℕ)) :=
  let signs := (diff x).map npSign
  match signs.find? (fun s => decide (s ≠ 0)) with
  | none => .error .indexError
  | some cs =>
    let r := (List.zip (List.range signs.length) signs).foldl (partsStep incl) ([], [0], cs)
    let last := r.2.1
    .ok (r.1 ++ [if incl then last ++ [last.getLastD 0 + 1] else last])

/-- `force_non_decreasing`, piecewise_linear_1d.py:292-317 (with `y` given). -/
def forceNonDecreasing (x y : List K) : Except PyErr (List K × List K) :=
  if nonDecreasing x then .ok (x, y)
  else if ¬ nonIncreasing x then .error .valueError
  else .ok (x.reverse, y.reverse)

/-- The shift of lines 277-288 of `force_strictly_increasing` applied to the position `i`:
`steps[k] + d` is shifted by `dx[k]`; `dx = -(len, len-1, ..., 1)*eps` with `d = 0` for
`keep_end_points`, `dx = (1, ..., len)*eps` with `d = 1` otherwise. -/
def forceShift (steps : List ℕ) (keep : Bool) (eps : K) (i : ℕ) : K :=
  if keep then
    (if i ∈ steps then -((steps.length - steps.idxOf i : ℕ) : K) * eps else 0)
  else
    (if i ≠ 0 ∧ i - 1 ∈ steps then ((steps.idxOf (i - 1) + 1 : ℕ) : K) * eps else 0)

/-- `force_strictly_increasing`, piecewise_linear_1d.py:227-289 (with `y` given). -/
def forceStrictlyIncreasing (x y : List K) (keep : Bool) (eps : K) :
    Except PyErr (List K × List K) :=
  if strictlyIncreasing x then .ok (x, y)
  else if strictlyDecreasing x then .ok (x.reverse, y.reverse)
  else
    let xy := if nonIncreasing x then (x.reverse, y.reverse) else (x, y)
    if ¬ nonDecreasing xy.1 then .error .valueError
    else
      let steps := whereIdx (fun d => decide (d = 0)) (diff xy.1)
      .ok ((List.range xy.1.length).map (fun i => nth xy.1 i + forceShift steps keep eps i), xy.2)

/-- Positions `0, …, len(x)-2`: all segments. -/
def segs (x : List K) : List ℕ := List.range (x.length - 1)

/-- `start_index_of_ramps`, piecewise_linear_1d.py:320-344. -/
def startIndexOfRamps (x y : List K) : List ℕ :=
  (segs x).filter (fun i => decide (nth x (i+1) - nth x i ≠ 0 ∧ nth y (i+1) - nth y i ≠ 0))

/-- `np.delete(arr, obj)` for integer `obj`: removes the *positions* listed in `obj`;
`IndexError` if some position is out of bounds. -/
def npDelete (arr obj : List ℕ) : Except PyErr (List ℕ) :=
  if obj.any (fun i => decide (arr.length ≤ i)) then .error .indexError
  else .ok ((List.zip (List.range arr.length) arr).filterMap
      (fun p => if p.1 ∈ obj then none else some p.2))

/-- Segments with `dx == 0` and `dy == 0` (the `obj` argument in lines 372 and 400). -/
def degenerateSegs (x y : List K) : List ℕ :=
  (segs x).filter (fun i => decide (nth x (i+1) - nth x i = 0 ∧ nth y (i+1) - nth y i = 0))

/-- `start_index_of_constants`, piecewise_linear_1d.py:347-372. -/
def startIndexOfConstants (x y : List K) : Except PyErr (List ℕ) :=
  npDelete ((segs x).filter (fun i => decide (nth y (i+1) - nth y i = 0))) (degenerateSegs x y)

/-- `start_index_of_steps`, piecewise_linear_1d.py:375-400. -/
def startIndexOfSteps (x y : List K) : Except PyErr (List ℕ) :=
  npDelete ((segs x).filter (fun i => decide (nth x (i+1) - nth x i = 0))) (degenerateSegs x y)

/-- The membership test of `segment_containing_xi`, line 472. -/
def segTest (x : List K) (v : K) (i : ℕ) : Bool :=
  decide (|v - nth x i| ≤ |nth x i - nth x (i+1)| ∧ |v - nth x (i+1)| ≤ |nth x i - nth x (i+1)| ∧
    nth x i ≠ nth x (i+1))

/-- `segment_containing_xi` for one value `v`, piecewise_linear_1d.py:403-485.
An empty list `[]` is `none`, `[j]` is `some j`. -/
def segmentContainingIn (x : List K) (v : K) (subset : List ℕ) (chooseMax : Bool) : Option ℕ :=
  let A := subset.filter (segTest x v)
  if chooseMax then A.getLast? else A.head?

/-- `segment_containing_xi` with `subset=None`, lines 463-464. -/
def segmentContaining (x : List K) (v : K) (chooseMax : Bool) : Option ℕ :=
  segmentContainingIn x v (segs x) chooseMax

/-- `segments_less_than_xi` for one value, piecewise_linear_1d.py:488-532. -/
def segmentsLessThan (x : List K) (v : K) (subset : List ℕ) (orEqual : Bool) : List ℕ :=
  subset.filter (fun i => if orEqual then decide (nth x (i+1) ≤ v) else decide (nth x (i+1) < v))

/-- Result of `segment_containing_also_segments_less_than_xi` for one value. -/
structure SegInfo where
  rampsLess : List ℕ
  constantsLess : List ℕ
  stepsLess : List ℕ
  rampsContaining : List ℕ
  constantsContaining : List ℕ
  deriving DecidableEq, Repr

/-- `segment_containing_also_segments_less_than_xi` for one value,
piecewise_linear_1d.py:565-647 (through `ramps_constants_steps`, 535-562). -/
def segmentContainingAlsoLess (x y : List K) (v : K) (stepsOrEq rampConstOrEq chooseMax : Bool) :
    Except PyErr SegInfo := do
  let ramps := startIndexOfRamps x y
  let constants ← startIndexOfConstants x y
  let steps ← startIndexOfSteps x y
  let c := segmentContaining x v chooseMax
  pure {
    rampsLess := segmentsLessThan x v ramps rampConstOrEq
    constantsLess := segmentsLessThan x v constants rampConstOrEq
    stepsLess := segmentsLessThan x v steps stepsOrEq
    rampsContaining := match c with
      | some i => if i ∈ ramps then [i] else []
      | none => []
    constantsContaining := match c with
      | some i => if i ∈ ramps then [] else [i]
      | none => [] }

/-- Result of `segments_between_xi_and_xj` for one pair. -/
structure Between where
  both : List ℕ
  xiOnly : List ℕ
  xjOnly : List ℕ
  between : List ℕ
  deriving DecidableEq, Repr

/-- `segments_between_xi_and_xj` for one pair, piecewise_linear_1d.py:708-769
(through `segment_containing_xi_also_containing_xj`, 650-705).  `np.r_[a:b]` is empty if `b ≤ a`. -/
def segmentsBetween (x : List K) (xi xj : K) : Between :=
  match segmentContaining x xi true, segmentContaining x xj false with
  | some i1, some i2 =>
    if i1 = i2 then ⟨[i1], [], [], []⟩
    else ⟨[], [i1], [i2], List.range' (i1+1) (i2 - (i1+1))⟩
  | _, _ => ⟨[], [], [], []⟩

/-- `interp_x_y` for one query value, piecewise_linear_1d.py:1087-1145.
`x[0]`/`x[-1]` of an empty array: `IndexError` (lines 1140-1143). -/
def interpXY (x y : List K) (v : K) (chooseMax : Bool) : Except PyErr K :=
  if x.length ≠ y.length then .error .valueError
  else match segmentContaining x v chooseMax with
    | some j => .ok (nth y j + (nth y (j+1) - nth y j) / (nth x (j+1) - nth x j) * (v - nth x j))
    | none =>
      match x, y with
      | [], _ => .error .indexError
      | _, [] => .error .indexError
      | x0 :: xr, y0 :: yr =>
        if |v - x0| < |v - (x0 :: xr).getLast (by simp)| then .ok y0
        else .ok ((y0 :: yr).getLast (by simp))

/-- The four lists `x1, x2, y1, y2`. -/
structure Segs4 (K : Type) where
  x1 : List K
  x2 : List K
  y1 : List K
  y2 : List K
  deriving DecidableEq, Repr

/-- `np.allclose(a, b)` with default tolerances, on equal-length lists:
`|a - b| <= 1e-8 + 1e-5*|b|`. -/
def allclose (a b : List K) : Bool :=
  (List.zip a b).all (fun p => decide (|p.1 - p.2| ≤ 1/100000000 + 1/100000 * |p.2|))

/-- The length and contiguity checks at lines 850-855 and 1024-1029. -/
def Segs4.check (s : Segs4 K) : Except PyErr Unit :=
  if ¬ (s.x2.length = s.x1.length ∧ s.y1.length = s.x1.length ∧ s.y2.length = s.x1.length) then
    .error .valueError
  else if ¬ allclose s.x1.tail s.x2.dropLast then .error .valueError
  else .ok ()

/-- `np.insert(a, idx, vals)` for a list `ins` of pairs `(idx[k], vals[k])`: every value is inserted
before the entry that had position `idx[k]` in `a` before any insertion. -/
def npInsert (a : List K) (ins : List (ℕ × K)) : List K :=
  let vals (p : ℕ) : List K := ins.filterMap (fun q => if q.1 = p then some q.2 else none)
  ((List.range a.length).flatMap (fun p => vals p ++ [nth a p])) ++ vals a.length

/-- `insert_index`, line 867: segments `k` with `y2[k] != y1[k+1]`. -/
def insertIndex (s : Segs4 K) : List ℕ :=
  (List.range (s.x1.length - 1)).filter (fun k => decide (nth s.y2 k ≠ nth s.y1 (k+1)))

/-- `convert_x1_x2_y1_y2_to_x_y`, piecewise_linear_1d.py:772-872.  Empty arrays: `x2[-1]` raises
`IndexError` (line 862). -/
def convertToXY (s : Segs4 K) : Except PyErr (List K × List K) := do
  s.check
  match s.x2.getLast?, s.y2.getLast? with
  | some xl, some yl =>
    pure (npInsert (s.x1 ++ [xl]) ((insertIndex s).map (fun k => (k + 1, nth s.x2 k))),
          npInsert (s.y1 ++ [yl]) ((insertIndex s).map (fun k => (k + 1, nth s.y2 k))))
  | _, _ => .error .indexError

/-- `convert_x_y_to_x1_x2_y1_y2`, piecewise_linear_1d.py:875-966. -/
def convertToSegs (x y : List K) : Except PyErr (Segs4 K) :=
  if x.length ≠ y.length then .error .valueError
  else
    let sg := (segs x).filter (fun i => decide (nth x i ≠ nth x (i+1)))
    .ok { x1 := sg.map (nth x), x2 := sg.map (fun i => nth x (i+1)),
          y1 := sg.map (nth y), y2 := sg.map (fun i => nth y (i+1)) }

/-- `interp_x1_x2_y1_y2` for one query value, piecewise_linear_1d.py:996-1056. -/
def interpSegs (s : Segs4 K) (v : K) (chooseMax : Bool) : Except PyErr K := do
  s.check
  match s.x2.getLast?, s.x1, s.y1, s.y2.getLast? with
  | some xl, x10 :: _, y10 :: _, some yl =>
    match segmentContaining (s.x1 ++ [xl]) v chooseMax with
    | some j => pure (nth s.y1 j +
        (nth s.y2 j - nth s.y1 j) / (nth s.x2 j - nth s.x1 j) * (v - nth s.x1 j))
    | none => if |v - x10| < |v - xl| then pure y10 else pure yl
  | _, _, _, _ => .error .indexError

/-- `integrate_x_y_between_xi_xj` for one pair, piecewise_linear_1d.py:1381-1425. -/
def integrateXY (x y : List K) (xi xj : K) : Except PyErr K := do
  let b := segmentsBetween x xi xj
  let yi ← interpXY x y xi true
  let yj ← interpXY x y xj false
  pure ((b.both.map (fun _ => (yi + yj) * (1/2) * (xj - xi))).sum
    + (b.xiOnly.map (fun l => (yi + nth y (l+1)) * (1/2) * (nth x (l+1) - xi))).sum
    + (b.between.map (fun l => (nth y l + nth y (l+1)) * (1/2) * (nth x (l+1) - nth x l))).sum
    + (b.xjOnly.map (fun l => (nth y l + yj) * (1/2) * (xj - nth x l))).sum)

/-- `avg_x_y_between_xi_xj` for one pair, piecewise_linear_1d.py:1324-1352 (`xi == xj`: numpy gives
nan/inf, modelled as `zeroDivision`). -/
def avgXY (x y : List K) (xi xj : K) : Except PyErr K := do
  let i ← integrateXY x y xi xj
  if xj - xi = 0 then .error .zeroDivision else pure (i / (xj - xi))

/-- `integrate_x1_x2_y1_y2_between_xi_xj` for one pair, piecewise_linear_1d.py:1453-1506. -/
def integrateSegs (s : Segs4 K) (xi xj : K) : Except PyErr K := do
  match s.x2.getLast? with
  | none => .error .indexError
  | some xl =>
    let b := segmentsBetween (s.x1 ++ [xl]) xi xj
    let yi ← interpSegs s xi true
    let yj ← interpSegs s xj false
    pure ((b.both.map (fun _ => (yi + yj) * (1/2) * (xj - xi))).sum
      + (b.xiOnly.map (fun l => (yi + nth s.y2 l) * (1/2) * (nth s.x2 l - xi))).sum
      + (b.between.map
          (fun l => (nth s.y1 l + nth s.y2 l) * (1/2) * (nth s.x2 l - nth s.x1 l))).sum
      + (b.xjOnly.map (fun l => (nth s.y1 l + yj) * (1/2) * (xj - nth s.x1 l))).sum)

/-- `avg_x1_x2_y1_y2_between_xi_xj` for one pair, piecewise_linear_1d.py:1534-1562. -/
def avgSegs (s : Segs4 K) (xi xj : K) : Except PyErr K := do
  let i ← integrateSegs s xi xj
  if xj - xi = 0 then .error .zeroDivision else pure (i / (xj - xi))

end Piecewise
end Geotecha
