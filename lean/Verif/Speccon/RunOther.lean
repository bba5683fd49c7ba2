import Verif.Speccon.Run
import Verif.Speccon.ModelVRW
import Verif.Speccon.ModelVRC
import Verif.Speccon.ModelUnsat

/-!
# `make_time_dependent_arrays` and `make_output` of speccon1d_vrw, speccon1d_vrc and speccon1d_unsat

The arrays made before (`make_time_independent_arrays`) are an argument.
-/

set_option linter.unusedVariables false
set_option autoImplicit false
open Real
namespace Geotecha.Speccon
open Geotecha.Spec Geotecha.Piecewise

/-- The tables of `if not self.ppress_z is None`, e.g. speccon1d_vrw.py:683-703: one after the other with the same depths, labels and times.
Simplified: `cell` looks up the column of `v_E_Igamv_the` of its time again. -/
noncomputable def groupZ (H : ℝ) (w : Wanted) (cols : List (ℕ → ℝ)) (jobs : List (String × (ℝ → ℝ → Except PyErr ℝ))) : Except PyErr (List Table) :=
  match w.z with
  | none => pure []
  | some zs => jobs.mapM (fun j => mkTable j.1 (fun z => [levelOf H w.RLzero z]) (fun z t _ => j.2 z t) zs w.tvals cols w.zIdx)

/-- The tables for pairs of depths, e.g. speccon1d_vrw.py:705-730; an empty list of pairs is an `IndexError`. -/
noncomputable def groupP (H : ℝ) (w : Wanted) (cols : List (ℕ → ℝ)) (pairs : Option (List (ℝ × ℝ))) (ix : TIdx)
    (jobs : List (String × (ℝ × ℝ → ℝ → Except PyErr ℝ))) : Except PyErr (List Table) :=
  match pairs with
  | none => pure []
  | some [] => .error .indexError
  | some (p :: ps) => jobs.mapM (fun j => mkTable j.1 (fun p => [levelOf H w.RLzero p.1, levelOf H w.RLzero p.2]) (fun p t _ => j.2 p t)
      (p :: ps) w.tvals cols ix)

/-- speccon1d_vrw.py:661-730: `make_time_dependent_arrays`, `make_output`. -/
noncomputable def VRW.output (x : VRW) (a : VRWArrays) (w : Wanted) : Except PyErr (List Table) := do
  let cols ← w.tvals.mapM (x.column a)
  let p ← groupZ x.base.H w cols [("_data_por", x.por a), ("_data_porwell", x.porwell a)]
  let q ← groupP x.base.H w cols w.avgPairs w.avgIdx [("_data_avp", fun p t => x.avp a p.1 p.2 t)]
  let r ← groupP x.base.H w cols w.setPairs w.setIdx [("_data_set", fun p t => x.settle a p.1 p.2 t)]
  pure (p ++ q ++ r)

/-- speccon1d_vrc.py:673-771: `make_time_dependent_arrays`, `make_output`. -/
noncomputable def VRC.output (x : VRC) (a : VRCArrays) (w : Wanted) : Except PyErr (List Table) := do
  let cols ← w.tvals.mapM (x.column a)
  let p ← groupZ x.base.H w cols [("_data_por", x.por a), ("_data_pors", x.pors a), ("_data_porc", x.porc a)]
  let q ← groupP x.base.H w cols w.avgPairs w.avgIdx
    [("_data_avp", fun p t => x.avp a p.1 p.2 t), ("_data_avps", fun p t => x.avpart a 0 p.1 p.2 t), ("_data_avpc", fun p t => x.avpart a 1 p.1 p.2 t)]
  let r ← groupP x.base.H w cols w.setPairs w.setIdx [("_data_set", fun p t => x.settle a p.1 p.2 t)]
  pure (p ++ q ++ r)

/-- speccon1d_unsat.py:666-765: `make_time_dependent_arrays`, `make_output`. -/
noncomputable def UnsatIn.output (x : UnsatIn) (a : UnsatArrays) (w : Wanted) : Except PyErr (List Table) := do
  let cols ← w.tvals.mapM (x.column a)
  let p ← groupZ x.H w cols [("_data_porw", x.porw a), ("_data_pora", x.pora a)]
  let q ← groupP x.H w cols w.avgPairs w.avgIdx [("_data_avpw", fun p t => x.avpw a p.1 p.2 t), ("_data_avpa", fun p t => x.avpa a p.1 p.2 t)]
  let r ← groupP x.H w cols w.setPairs w.setIdx
    [("_data_set", fun p t => x.settle a p.1 p.2 t), ("_data_setw", fun p t => x.setw a p.1 p.2 t), ("_data_seta", fun p t => x.seta a p.1 p.2 t)]
  pure (p ++ q ++ r)

end Geotecha.Speccon
