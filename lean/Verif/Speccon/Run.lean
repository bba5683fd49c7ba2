import Verif.Speccon.Superpose
import Verif.Plot.Model

/-!
# `make_all` of speccon1d_vr: from the input to the output tables

`make_all` (speccon1d.py:44-77) calls `check_input_attributes` (modelled in `Verif/IO/Attrs.lean`, C58-C61), then
`make_time_independent_arrays`, `make_time_dependent_arrays` and `make_output`; saving and plotting come afterwards.
-/

set_option linter.unusedVariables false
set_option autoImplicit false
open Real
namespace Geotecha.Speccon
open Geotecha.Spec Geotecha.Piecewise

/-- `ppress_z_tval_indexes` and the like, speccon1d_vr.py:512-514: a slice (the default is `slice(None, None)`) or a list of integers.
Simplified: a single integer or an array of booleans is not modelled. -/
inductive TIdx where
  | slice (start stop step : Option ℤ)
  | picks (l : List ℤ)

/-- How Python and numpy limit one bound of a slice (`slice.indices`): a negative bound counts from the end. -/
def sliceBound (n lower upper : ℤ) (b : ℤ) : ℤ :=
  if b < 0 then (if b + n < lower then lower else b + n) else if upper < b then upper else b

/-- Number of entries of `range(start, stop, step)`. -/
def rangeLen (start stop step : ℤ) : ℕ :=
  if 0 < step then (if start < stop then ((stop - 1 - start) / step + 1).toNat else 0)
  else (if stop < start then ((start - 1 - stop) / (-step) + 1).toNat else 0)

/-- The positions that `a[indexes]` reads from an array of length `n`, as used in speccon1d_vr.py:681, 1127-1128. -/
def TIdx.positions (n : ℕ) : TIdx → Except PyErr (List ℕ)
  | .slice start stop step =>
    let st := step.getD 1
    if st = 0 then .error .valueError
    else
      let lower : ℤ := if st < 0 then -1 else 0
      let upper : ℤ := if st < 0 then n - 1 else n
      let a := start.elim (if st < 0 then upper else lower) (sliceBound n lower upper)
      let e := stop.elim (if st < 0 then lower else upper) (sliceBound n lower upper)
      .ok ((List.range (rangeLen a e st)).map (fun k : ℕ => (a + k * st).toNat))
  | .picks l => l.mapM (fun k : ℤ => if 0 ≤ k ∧ k < n then .ok k.toNat else if -(n:ℤ) ≤ k ∧ k < 0 then .ok (k + n).toNat else .error .indexError)

/-- An entry of `_grid_data_dicts`, speccon1d_vr.py:671-709.  Simplified: `levels` are the numbers that are formatted into the column
labels; the header and the label of the time column are left out. -/
structure Table where
  name : String
  times : List ℝ
  levels : List (List ℝ)
  data : List (List ℝ)

/-- The output attributes, speccon1d_vr.py:494-497, 611-624. -/
structure Wanted where
  tvals : List ℝ
  z : Option (List ℝ)
  zIdx : TIdx
  avgPairs : Option (List (ℝ × ℝ))
  avgIdx : TIdx
  setPairs : Option (List (ℝ × ℝ))
  setIdx : TIdx
  RLzero : Option ℝ

/-- `np.linalg.inv(gam)`, `np.linalg.eig` and `np.linalg.inv(gam v)` as called by `_make_eigs_and_v`, speccon1d_vr.py:811-815:
from the size and the matrices `gam` and `psi` to `eigs`, `v` and `Igamv`.  A parameter of the model. -/
abbrev Linalg := ℕ → (ℕ → ℕ → ℝ) → (ℕ → ℕ → ℝ) → Except PyErr ((ℕ → ℝ) × (ℕ → ℕ → ℝ) × (ℕ → ℕ → ℝ))

/-- `make_time_independent_arrays`, speccon1d_vr.py:623-641. -/
noncomputable def VR.arrays (L : Linalg) (x : VR) : Except PyErr VRArrays := do
  let m ← x.m
  let gam ← x.gam m
  let psi ← x.psi m
  let r ← L m.length gam psi
  pure ⟨m, r.1, r.2.1, r.2.2⟩

/-- `make_time_dependent_arrays`, speccon1d_vr.py:643-654: the columns of `v_E_Igamv_the`, one for each of `tvals`. -/
noncomputable def VR.columns (x : VR) (a : VRArrays) (tvals : List ℝ) : Except PyErr (List (ℕ → ℝ)) :=
  tvals.mapM (fun t => x.vE (x.basis a.m a.eigs a.Igamv) a.v t)

/-- One table of `make_output`, speccon1d_vr.py:671-683: the cells `f depth time column`, transposed so that rows are times. -/
noncomputable def mkTable {D : Type} (name : String) (label : D → List ℝ) (f : D → ℝ → (ℕ → ℝ) → Except PyErr ℝ) (ds : List D) (tvals : List ℝ)
    (cols : List (ℕ → ℝ)) (ix : TIdx) : Except PyErr Table := do
  let pos ← ix.positions tvals.length
  let data ← pos.mapM (fun k => ds.mapM (fun d => f d (tvals.getD k 0) (cols.getD k 0)))
  pure ⟨name, pos.map (fun k => tvals.getD k 0), ds.map label, data⟩

/-- `transformations.depth_to_reduced_level` of a depth, speccon1d_vr.py:673. -/
noncomputable def levelOf (H : ℝ) (rl : Option ℝ) (z : ℝ) : ℝ := Geotecha.Plot.depthToReducedLevel z H rl

/-- `if not self.ppress_z is None`, speccon1d_vr.py:671-683 with `_make_por`, 1109-1132. -/
noncomputable def VR.tablePor (x : VR) (a : VRArrays) (w : Wanted) (cols : List (ℕ → ℝ)) : Except PyErr (List Table) :=
  match w.z with
  | none => pure []
  | some zs => do
    let bot ← x.normBot
    let t ← mkTable "_data_por" (fun z => [levelOf x.H w.RLzero z]) (fun z t c => dim1sinF a.m z t c (x.boundary bot)) zs w.tvals cols w.zIdx
    pure [t]

/-- `if not self.avg_ppress_z_pairs is None`, speccon1d_vr.py:685-697 with `_make_avp`, 1134-1155 (`np.asarray([])[:,0]` is an
`IndexError`). -/
noncomputable def VR.tableAvp (x : VR) (a : VRArrays) (w : Wanted) (cols : List (ℕ → ℝ)) : Except PyErr (List Table) :=
  match w.avgPairs with
  | none => pure []
  | some [] => .error .indexError
  | some (p :: ps) => do
    let bot ← x.normBot
    let t ← mkTable "_data_avp" (fun p : ℝ × ℝ => [levelOf x.H w.RLzero p.1, levelOf x.H w.RLzero p.2])
      (fun p t c => dim1sinAvgF a.m p.1 p.2 t c (x.boundary bot)) (p :: ps) w.tvals cols w.avgIdx
    pure [t]

/-- `if not self.settlement_z_pairs is None`, speccon1d_vr.py:699-709 with `_make_set`, 1157-1203. -/
noncomputable def VR.tableSet (x : VR) (a : VRArrays) (w : Wanted) (cols : List (ℕ → ℝ)) : Except PyErr (List Table) :=
  match w.setPairs with
  | none => pure []
  | some [] => .error .indexError
  | some (p :: ps) => do
    let bot ← x.normBot
    let t ← mkTable "_data_set" (fun p : ℝ × ℝ => [levelOf x.H w.RLzero p.1, levelOf x.H w.RLzero p.2])
      (fun p t c => do
        let q ← dim1sinIntegrateAf a.m p.1 p.2 t c (x.boundary bot) x.mv
        let l ← x.settleLoad p.1 p.2 t
        pure ((-q + l) * (x.H * x.mvref))) (p :: ps) w.tvals cols w.setIdx
    pure [t]

/-- `make_output`, speccon1d_vr.py:660-709. -/
noncomputable def VR.output (x : VR) (a : VRArrays) (w : Wanted) (cols : List (ℕ → ℝ)) : Except PyErr (List Table) := do
  let p ← x.tablePor a w cols
  let q ← x.tableAvp a w cols
  let r ← x.tableSet a w cols
  pure (p ++ q ++ r)

/-- `make_all`, speccon1d.py:44-77, after `check_input_attributes` and before saving and plotting. -/
noncomputable def VR.makeAll (L : Linalg) (x : VR) (w : Wanted) : Except PyErr (List Table) := do
  let a ← x.arrays L
  let cols ← x.columns a w.tvals
  x.output a w cols

end Geotecha.Speccon
