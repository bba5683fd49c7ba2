import Verif.Plot.Model
import Mathlib.Algebra.Order.Ring.Rat

/-! # Labels of subplots and the sheets of styles, one_d.py: model -/

set_option autoImplicit false
set_option linter.unusedVariables false

namespace Geotecha.Plot.Demo
open Geotecha (PyErr)

/-- The labels of one `Axes`. -/
structure Axes where
  xlabel : String
  ylabel : String

/-- The loop of `xylabel_subplots`, one_d.py:908-910 and 912-914, from label number `i` on; `put` is `set_ylabel` or `set_xlabel`.  The labels set before an
exception stay. -/
def setLabels (put : Axes → String → Axes) : ℕ → List (Option String) → List Axes → Option PyErr × List Axes
  | _, [], axs => (none, axs)
  | i, none :: r, axs => setLabels put (i + 1) r axs
  | i, some s :: r, axs =>
    match axs[i]? with
    | none => (some .indexError, axs)
    | some a => setLabels put (i + 1) r (axs.set i (put a s))

/-- `if not ... is None` before each loop, one_d.py:907 and 911. -/
def setGiven (put : Axes → String → Axes) (l : Option (List (Option String))) (axs : List Axes) : Option PyErr × List Axes :=
  match l with
  | none => (none, axs)
  | some l => setLabels put 0 l axs

/-- `xylabel_subplots`, one_d.py:887-916. -/
def xylabelSubplots (axs : List Axes) (y x : Option (List (Option String))) : Option PyErr × List Axes :=
  match setGiven (fun a s => { a with ylabel := s }) y axs with
  | (some e, w) => (some e, w)
  | (none, w) => setGiven (fun a s => { a with xlabel := s }) x w

/-- One sample: a line from `(x, y)` to `(x + 1, y + 0.3)` in a style, with its number at its end. -/
structure Sample (σ : Type) where
  x : ℕ
  y : ℕ
  style : σ
  number : ℕ

/-- The sheet: whether the title asks for `construct_styles`, the samples, and the limits of the axes if they are set. -/
structure Sheet (σ : Type) where
  empty : Bool
  samples : List (Sample σ)
  limits : Option ((ℚ × ℚ) × (ℚ × ℚ))

/-- `demo_styles`, one_d.py:674-698. -/
def demoStyles {σ : Type} (styles : List σ) : Sheet σ :=
  if styles.length = 0 then ⟨true, [], none⟩
  else
    let l := styles.mapIdx fun i s => (⟨(i % 5) * 2, i / 5, s, i⟩ : Sample σ)
    ⟨false, l, some ((-1, 11), (-1, (((styles.length - 1) / 5 : ℕ) : ℚ) + 1))⟩

/-- The first subplot of `demo_options`, one_d.py:709-720 (a table is never empty there). -/
def demoMarkers {σ : Type} (markers : List σ) : Sheet σ :=
  ⟨false, markers.mapIdx fun i s => ⟨(i % 5) * 2, i / 5, s, i⟩, some ((-1, 11), (-1, (((markers.length - 1) / 5 : ℕ) : ℚ) + 1))⟩

/-- The second and third subplot of `demo_options`, one_d.py:727-738 and 745-757: dashes and colours, one above the other. -/
def demoColumn {σ : Type} (l : List σ) : Sheet σ :=
  ⟨false, l.mapIdx fun i s => ⟨0, i, s, i⟩, some ((-1/10, 6/5), (-1, ((l.length - 1 : ℕ) : ℚ) + 1))⟩

/-- The arguments of `construct_styles`. -/
structure Args where
  markers : Option (List (Option ℤ))
  dashes : Option (List (Option ℤ))
  mcs : Option (List (Option ℤ))
  lcs : Option (List (Option ℤ))

/-- `construct_styles`, one_d.py:666-672: `styles` keeps its value if `__call__` raises. -/
def constructStyles (o : MDC) (styles : List (Dict PVal)) (a : Args) : Option PyErr × List (Dict PVal) :=
  match callStyles o a.markers a.dashes a.mcs a.lcs with
  | .error e => (some e, styles)
  | .ok l => (none, l)

/-- `self.styles` after calls of `construct_styles` (exceptions caught by the user), from `[]` (one_d.py:255). -/
def stylesAfter (o : MDC) (calls : List Args) : List (Dict PVal) := calls.foldl (fun s a => (constructStyles o s a).2) []

end Geotecha.Plot.Demo
