import Mathlib.Data.List.Basic

/-! # Specification: row-major order

Nothing here refers to the code. -/

namespace Geotecha.Plot.Spec

/-- `idx` is an index of an array of this shape. -/
def IsIndex : List ℕ → List ℕ → Prop
  | [], [] => True
  | n :: r, i :: j => i < n ∧ IsIndex r j
  | _, _ => False

/-- Place of an index in the flattened array: the last index varies fastest. -/
def place : List ℕ → List ℕ → ℕ
  | n :: r, i :: j => i * r.prod + place r j
  | _, _ => 0

/-- The index with the dimensions whose flag is set counted from the end. -/
def flip : List ℕ → List Bool → List ℕ → List ℕ
  | n :: r, b :: bs, i :: j => (if b then n - 1 - i else i) :: flip r bs j
  | _, _, j => j

end Geotecha.Plot.Spec
