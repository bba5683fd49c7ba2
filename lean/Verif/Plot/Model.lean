import Verif.Piecewise.Model
import Mathlib.Algebra.Order.Field.Basic
import Mathlib.Algebra.Order.Ring.Rat
import Mathlib.Algebra.Field.Rat

/-!
# Model of geotecha/plotting/one_d.py (the parts that are not calls of matplotlib) and mathematics/transformations.py

A matplotlib object is what was done to it: functions that draw return the list of their calls.  When a function raises, the calls made
before are not recorded.
-/

namespace Geotecha.Plot
open Geotecha (PyErr)

/-! ## Colours -/

section
variable {K : Type} [Field K] [LinearOrder K]

/-- `rgb_shade`, one_d.py:38-81. -/
def rgbShade (rgb : List K) (factor : K) : Except PyErr (List K) :=
  if factor < 0 ∨ factor > 1 then .error .valueError
  else
    let new := (rgb.take 3).map fun v => v * factor
    .ok (if rgb.length = 4 then new ++ (rgb[3]?).toList else new)

/-- `rgb_tint`, one_d.py:84-133. -/
def rgbTint (rgb : List K) (factor : K) (scaled : Bool) : Except PyErr (List K) :=
  if factor < 0 ∨ factor > 1 then .error .valueError
  else
    let black : K := if scaled then 1 else 255
    let new := (rgb.take 3).map fun v => v + (black - v) * factor
    .ok (if rgb.length = 4 then new ++ (rgb[3]?).toList else new)

/-- `depth_to_reduced_level`, transformations.py:22-47: one depth. -/
def depthToReducedLevel (z H : K) (rlzero : Option K) : K :=
  match rlzero with
  | some r => r - z * H
  | none => z * H
end

/-! ## Dictionaries -/

/-- A Python dict: keys in order of insertion. -/
abbrev Dict (V : Type) := List (String × V)

variable {V : Type}

/-- `d[k] = v`. -/
def Dict.set (d : Dict V) (k : String) (v : V) : Dict V :=
  if d.any (fun p => p.1 = k) then d.map fun p => if p.1 = k then (k, v) else p else d ++ [(k, v)]

/-- `d.update(e)`. -/
def Dict.update (d e : Dict V) : Dict V := e.foldl (fun d p => Dict.set d p.1 p.2) d

/-- `copy_dict`, one_d.py:137-178. -/
def copyDict (src diffs : Dict V) : Dict V := Dict.update src diffs

/-- An argument: a dict or something else. -/
inductive Item (V : Type) where
  | dict (d : Dict V)
  | other (v : V)

/-- `split_sequence_into_dict_and_nondicts`, one_d.py:994-1024: the loop. -/
def splitLoop : List (Item V) → List V × Dict V → List V × Dict V
  | [], acc => acc
  | .dict d :: r, acc => splitLoop r (acc.1, Dict.update acc.2 d)
  | .other v :: r, acc => splitLoop r (acc.1 ++ [v], acc.2)

/-- `split_sequence_into_dict_and_nondicts`, one_d.py:994-1024. -/
def splitSequence (args : List (Item V)) : List V × Dict V := splitLoop args ([], [])

/-! ## Order of subplots -/

/-- All indices of an array of the given shape in row-major order (`flatten`). -/
def indices : List ℕ → List (List ℕ)
  | [] => [[]]
  | n :: r => (List.range n).flatMap fun i => (indices r).map (i :: ·)

/-- `np.arange(np.product(shape)).reshape(shape)` at an index. -/
def arangeAt : List ℕ → List ℕ → ℕ
  | n :: r, i :: j => i * r.prod + arangeAt r j
  | _, _ => 0

/-- Index into `pos[slice(None, None, step), ...]` translated to an index into `pos`; the steps are 1 or -1 (as documented), dimensions
without a step are not touched. -/
def sliceIdx : List ℕ → List ℤ → List ℕ → List ℕ
  | n :: ns, s :: ss, i :: is => (if s = -1 then n - 1 - i else i) :: sliceIdx ns ss is
  | _, _, is => is

/-- `row_major_order_reverse_map`, one_d.py:919-990 (`pos[...] = pos[a]` with numpy's overlap-safe assignment; a list of slices as index
means the tuple of them, as in numpy before 1.23). -/
def rowMajorMap (shape : List ℕ) (steps : Option (List ℤ)) (transpose : Bool) : Except PyErr (List ℕ) :=
  let steps := steps.getD (shape.map fun _ => 1)
  if shape.length < steps.length then .error .indexError
  else
    let pos := fun idx => arangeAt shape (sliceIdx shape steps idx)
    .ok (if transpose then (indices shape.reverse).map fun idx => pos idx.reverse else (indices shape).map pos)

/-! ## Lists -/

/-- `l[i]` for a Python list and an integer. -/
def pyIndex {α : Type} (l : List α) (i : ℤ) : Except PyErr α :=
  let j := if i < 0 then i + l.length else i
  if j < 0 then .error .indexError
  else match l[j.toNat]? with
    | some v => .ok v
    | none => .error .indexError

/-- `l[i] = v` for a Python list and an integer. -/
def pySetIdx {α : Type} (l : List α) (i : ℤ) (v : α) : Except PyErr (List α) :=
  let j := if i < 0 then i + l.length else i
  if j < 0 ∨ l.length ≤ j.toNat then .error .indexError else .ok (l.set j.toNat v)

/-! ## Styles -/

/-- Values in style dictionaries. -/
inductive PVal where
  | str (s : String)
  | nums (l : List ℚ)
  deriving DecidableEq

/-- The attributes of a `MarkersDashesColors` object that `__call__` reads. -/
structure MDC where
  color : PVal
  markers : List (Dict PVal)
  dashes : List PVal
  colors : List PVal

/-- The `i`-th value of `itertools.cycle(l)` (nothing given: `cycle([None])`; empty: `StopIteration`). -/
def cycleGet (l : Option (List (Option ℤ))) (i : ℕ) : Except PyErr (Option ℤ) :=
  match l with
  | none => .ok none
  | some l => match l[i % l.length]? with
    | some v => .ok v
    | none => .error .other

/-- `d[k]`: `KeyError` if missing. -/
def dictGet (d : Dict PVal) (k : String) : Except PyErr PVal :=
  match d.lookup k with
  | some v => .ok v
  | none => .error .other

/-- The marker part of one style, one_d.py:322-339. -/
def markerPart (o : MDC) (m mc : Option ℤ) : Except PyErr (Dict PVal) :=
  match m with
  | none => .ok [("marker", .str "none")]
  | some m => do
    let mk ← pyIndex o.markers m
    let e ← dictGet mk "markeredgecolor"
    let f ← dictGet mk "markerfacecolor"
    match mc with
    | none =>
      let s := if e ≠ .str "none" then Dict.set mk "markeredgecolor" o.color else mk
      .ok (if f ≠ .str "none" then Dict.set s "markerfacecolor" o.color else s)
    | some mc =>
      let s ← if e ≠ .str "none" then do
          let c ← pyIndex o.colors mc
          .ok (Dict.set mk "markeredgecolor" c)
        else .ok mk
      if f ≠ .str "none" then do
          let c ← pyIndex o.colors mc
          .ok (Dict.set s "markerfacecolor" c)
        else .ok s

/-- One style, one_d.py:321-351. -/
def oneStyle (o : MDC) (markers dashes mcs lcs : Option (List (Option ℤ))) (i : ℕ) : Except PyErr (Dict PVal) := do
  let m ← cycleGet markers i
  let mc ← cycleGet mcs i
  let s ← markerPart o m mc
  let d ← cycleGet dashes i
  let s ← match d with
    | none => .ok (Dict.set s "linestyle" (.str "None"))
    | some d => do
      let v ← pyIndex o.dashes d
      .ok (Dict.set s "dashes" v)
  let lc ← cycleGet lcs i
  match lc with
  | none => .ok (Dict.set s "color" o.color)
  | some lc => do
    let c ← pyIndex o.colors lc
    .ok (Dict.set s "color" c)

/-- `max([len(v) for v in [...] if v is not None])`, 0 if nothing is given, one_d.py:289-293. -/
def maxLen (ls : List (Option (List (Option ℤ)))) : ℕ := (ls.filterMap fun l => l.map List.length).foldl max 0

/-- `list(range(n))`. -/
def rangeOpt (n : ℕ) : List (Option ℤ) := (List.range n).map fun i : ℕ => some (i : ℤ)

/-- `MarkersDashesColors.__call__`, one_d.py:259-355. -/
def callStyles (o : MDC) (markers dashes mcs lcs : Option (List (Option ℤ))) : Except PyErr (List (Dict PVal)) :=
  if maxLen [markers, dashes, mcs, lcs] = 0 then
    let ms := some (rangeOpt o.markers.length)
    let ds := some (rangeOpt o.dashes.length)
    let cs := some (rangeOpt o.colors.length)
    (List.range (maxLen [ms, ds, cs, cs])).mapM (oneStyle o ms ds cs cs)
  else (List.range (maxLen [markers, dashes, mcs, lcs])).mapM (oneStyle o markers dashes mcs lcs)

/-- The marker table, one_d.py:423-475. -/
def markerTable : List (Dict PVal) :=
  let m := fun (s : String) => ("marker", PVal.str s)
  let fs := fun (s : String) => ("fillstyle", PVal.str s)
  let hollow := ("markerfacecolor", PVal.str "none")
  [[m "o"], [m "s", fs "bottom"], [m "D", hollow], [m "^"], [m "o", fs "left"], [m "s", hollow], [m "D", fs "top"], [m "^", fs "left"],
   [m "o", hollow], [m "s"], [m "D", fs "left"], [m "v", hollow], [m "$\\boxplus$"], [m "D"], [m "v", fs "bottom"], [m "^", hollow],
   [m "$◩$"], [m "$⬭$"], [m "h"], [m "^", fs "bottom"], [m "$\\otimes$"], [m "v"], [m "h", fs "right"], [m "o", fs "bottom"],
   [m "s", fs "left"], [m "h", hollow], [m "H", fs "top"], [("marker", .nums [6, 2, 0])], [m "$⦿$"], [m "$⧇$"], [m "$⧾$"], [m "$⟡$"]]

/-- The dash table, one_d.py:368-374 (`(None, None)` as the empty tuple). -/
def dashTable : List PVal :=
  [.nums [], .nums [10, 3], .nums [3, 4, 10, 4], .nums [2, 2], .nums [10, 4, 3, 4, 3, 4], .nums [10, 10]]

/-- The colours before shading, one_d.py:395-402. -/
def colorTable : List (List ℚ) :=
  [[0.4, 0.7607843137254902, 0.6470588235294118], [0.9882352941176471, 0.5529411764705883, 0.3843137254901961],
   [0.5529411764705883, 0.6274509803921569, 0.796078431372549], [0.9058823529411765, 0.5411764705882353, 0.7647058823529411],
   [0.6509803921568628, 0.8470588235294118, 0.32941176470588235], [0.8980392156862745, 0.7686274509803922, 0.5803921568627451],
   [0.7019607843137254, 0.7019607843137254, 0.7019607843137254]]

/-- `MarkersDashesColors.__init__`, one_d.py:235-255, with `merge_default_markers` 359-362 and `construct_colors` 388-404. -/
def MDC.mk' (kwargs : Dict PVal) : Except PyErr MDC := do
  let color := (kwargs.lookup "color").getD (.str "#262626")
  let default : Dict PVal := [("markersize", .nums [5]), ("markeredgecolor", color), ("markeredgewidth", .nums [1]),
    ("markerfacecolor", color), ("alpha", .nums [0.9]), ("color", color)]
  let default := Dict.update default kwargs
  let colors ← colorTable.mapM fun c => rgbShade c (0.8 : ℚ)
  .ok { color := color, markers := markerTable.map (copyDict default), dashes := dashTable, colors := colors.map .nums }

/-! ## Calls -/

/-- A call `target.method(args)`; `unpack` tells whether the arguments came from unpacking one value. -/
structure Call (A : Type) where
  target : ℕ
  arg : Option A
  unpack : Bool
  deriving DecidableEq

/-- `iterable_method_call`, one_d.py:836-882: `n` members, arguments `None` or a value. -/
def iterableMethodCall {A : Type} (n : ℕ) (unpack : Bool) (args : List (Option A)) : Except PyErr (List (Call A)) :=
  match args with
  | [] => .ok ((List.range n).map fun i => ⟨i, none, false⟩)
  | [a] => match a with
    | none => .ok []
    | some a => .ok ((List.range n).map fun i => ⟨i, some a, unpack⟩)
  | args => (args.zipIdx.filterMap fun (a, i) => a.map fun a => (i, a)).mapM fun (i, a) =>
      if i < n then .ok ⟨i, some a, unpack⟩ else .error .indexError

/-- `apply_dict_to_object`, one_d.py:1167-1206, both arguments lists: `setters` of an object are the names it has a `set_` method for; the
result is what was set, per object. -/
def applyDicts (objs : List (List String)) (dics : List (Option (Dict V))) : Except PyErr (List (List (String × V))) :=
  if objs.length ≠ dics.length then .error .valueError
  else .ok ((objs.zip dics).map fun (o, d) => match d with
    | none => []
    | some d => d.filter fun p => o.contains p.1)

/-- A subplot: position in the grid, the axes whose x and y axis it shares, and what was plotted (method, positional and keyword arguments). -/
structure Subplot (V : Type) where
  pos : ℕ
  sharex : Option ℕ
  sharey : Option ℕ
  calls : List (Option V × List V × Dict V)

/-- `sharex`, one_d.py:1113-1118 (and 1120-1125 for y): one entry per subplot. -/
def shareList (n : ℕ) (share : Option (List (Option ℤ))) : Except PyErr (List (Option ℤ)) :=
  match share with
  | none => .ok (List.replicate n none)
  | some [none] => .error .typeError
  | some [some i] => pySetIdx (List.replicate n (some i)) i none
  | some l => .ok l

/-- The subplot number looked up, one_d.py:1131-1139: `ax[sharex[i]]` when `done` axes exist. -/
def shareLookup (share : List (Option ℤ)) (i done : ℕ) : Except PyErr (Option ℕ) :=
  match share[i]? with
  | none => .error .indexError
  | some none => .ok none
  | some (some k) => do
    let j ← pyIndex (List.range done) k
    .ok (some j)

/-- The loop of `plot_data_in_grid`, one_d.py:1127-1148: the axes looked up are not passed to `add_subplot`. -/
def gridLoop (gsIndex : List ℕ) (sx sy : List (Option ℤ)) : List (List (List (Item V))) → List (Subplot V) → Except PyErr (List (Subplot V))
  | [], ax => .ok ax
  | data :: rest, ax => do
    let j ← match gsIndex[ax.length]? with
      | some j => .ok j
      | none => .error .indexError
    let _ ← shareLookup sx ax.length ax.length
    let _ ← shareLookup sy ax.length ax.length
    let calls := data.map fun xy =>
      let (args, kw) := splitSequence xy
      (kw.lookup "plot_type", args, kw.filter fun p => p.1 ≠ "plot_type")
    gridLoop gsIndex sx sy rest (ax ++ [⟨j, none, none, calls⟩])

/-- `plot_data_in_grid`, one_d.py:1027-1165 (grid positions numbers). -/
def plotDataInGrid (data : List (List (List (Item V)))) (gsIndex : Option (List ℕ)) (sharex sharey : Option (List (Option ℤ))) :
    Except PyErr (List (Subplot V)) := do
  let gs := gsIndex.getD (List.range data.length)
  let sx ← shareList data.length sharex
  let sy ← shareList data.length sharey
  gridLoop gs sx sy data []

/-- `save_figure`, one_d.py:1969-1995: file, format and dpi of each call of `savefig`. -/
def saveFigure (fname : String) (ext : List String) (dpi : ℕ) : List (String × String × Option ℕ) :=
  ext.map fun ex => (fname ++ "." ++ ex, ex, if ex = "png" then some dpi else none)

end Geotecha.Plot
