import Verif.Plot.Model

/-! # Specification: line styles and subplots

Only the data types of the model (`MDC`, `Dict`, `PVal`, `Item`) are used. -/

namespace Geotecha.Plot.Spec

/-- `v` is element `i` of the list, negative numbers counting from the end. -/
def At {α : Type} (l : List α) (i : ℤ) (v : α) : Prop :=
  (0 ≤ i ∧ l[i.toNat]? = some v) ∨ (i < 0 ∧ 0 ≤ l.length + i ∧ l[(l.length + i).toNat]? = some v)

/-- The entry that an argument of the style generator has for style `i`: the list is repeated; nothing given is `None`. -/
def entry (l : Option (List (Option ℤ))) (i : ℕ) : Option ℤ :=
  match l with
  | none => none
  | some l => (l[i % l.length]?).join

/-- A colour: the default one or that of the table. -/
def IsColor (o : MDC) (c : Option ℤ) (v : Option PVal) : Prop :=
  match c with
  | none => v = some o.color
  | some c => ∃ w, At o.colors c w ∧ v = some w

/-- The documented style for entries `m` (marker), `mc` (marker colour), `d` (dashes), `lc` (line colour). -/
structure IsStyle (o : MDC) (m mc d lc : Option ℤ) (s : Dict PVal) : Prop where
  line : IsColor o lc (s.lookup "color")
  dash : match d with
    | none => s.lookup "linestyle" = some (.str "None")
    | some d => ∃ v, At o.dashes d v ∧ s.lookup "dashes" = some v
  marker : match m with
    | none => s.lookup "marker" = some (.str "none")
    | some m => ∃ mk, At o.markers m mk ∧
        (∀ k, k ∉ ["color", "linestyle", "dashes", "markeredgecolor", "markerfacecolor"] → s.lookup k = mk.lookup k) ∧
        ∀ k ∈ ["markeredgecolor", "markerfacecolor"],
          (mk.lookup k = some (.str "none") → s.lookup k = some (.str "none")) ∧
          (mk.lookup k ≠ some (.str "none") → IsColor o mc (s.lookup k))

end Geotecha.Plot.Spec
