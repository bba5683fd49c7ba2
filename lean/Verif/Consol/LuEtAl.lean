import Verif.Consol.Terzaghi
import Verif.Smear.Model

/-!
# Model of geotecha/consolidation/luetal2010.py

Reals for floats, one depth and one time.  With `kvc = kv` the code divides by zero and `pors`, `porc` are `nan`: the model only
stands for the code where `kvc ≠ kv`.
-/

open Real
namespace Geotecha.Consol

/-- Arguments of `luetal2010`, luetal2010.py:28-30. -/
structure LuArgs where
  rc : ℝ
  re : ℝ
  H : ℝ
  rs : Option ℝ
  ks : Option ℝ
  kv : ℝ
  kvc : ℝ
  kh : ℝ
  khc : ℝ
  mvs : ℝ
  mvc : ℝ
  gamw : ℝ
  utop : ℝ
  ubot : ℝ

/-- `n = re / rc`, luetal2010.py:104. -/
noncomputable def LuArgs.n (a : LuArgs) : ℝ := a.re / a.rc
/-- `Y = mvs / mvc`, luetal2010.py:105. -/
noncomputable def LuArgs.Y (a : LuArgs) : ℝ := a.mvs / a.mvc

/-- `mu0`, luetal2010.py:110-115. -/
noncomputable def LuArgs.mu0 (a : LuArgs) : Except PyErr ℝ :=
  match a.ks, a.rs with
  | some ks, some rs => Smear.muConstant a.n (rs / a.rc) (a.kh / ks)
  | _, _ => Smear.muIdeal a.n

/-- `betm_numer`, luetal2010.py:118-122: term `m`. -/
noncomputable def LuArgs.betNumer (a : LuArgs) (mu0 : ℝ) (m : ℕ) : ℝ :=
  ((a.n ^ 2 * mu0 / 2 * a.kvc / a.kh + (a.n ^ 2 - 1) / 8 * a.kvc / a.khc) * ((a.rc / a.H) ^ 2 * bigM m ^ 2)
    + (a.n ^ 2 - 1 + a.kvc / a.kv)) * (a.kv / a.mvs * (a.n ^ 2 - 1 + a.Y))

/-- `betm_denom`, luetal2010.py:124-128. -/
noncomputable def LuArgs.betDenom (a : LuArgs) (mu0 : ℝ) (m : ℕ) : ℝ :=
  ((a.n ^ 2 * mu0 / 2 * a.kv / a.kh + (a.n ^ 2 - 1) / 8 * a.kv / a.khc) * ((a.n ^ 2 - 1) * a.kvc / a.kv + 1)
    + a.n ^ 4 / bigM m ^ 2 * (a.H / a.rc) ^ 2) * (a.gamw * a.rc ^ 2)

/-- `betm`, luetal2010.py:130. -/
noncomputable def LuArgs.bet (a : LuArgs) (mu0 : ℝ) (m : ℕ) : ℝ := a.betNumer mu0 m / a.betDenom mu0 m

/-- `C`, luetal2010.py:132-135. -/
noncomputable def LuArgs.C (a : LuArgs) (mu0 : ℝ) : ℝ :=
  (a.re ^ 2 * mu0 / 2 / a.kh + a.rc ^ 2 * (a.n ^ 2 - 1) / 8 / a.khc) * (a.gamw * ((a.n ^ 2 - 1) * a.kvc + a.kv) * a.mvs)
    / ((a.n ^ 2 - 1 + a.Y) * (a.kvc - a.kv))

/-- `D`, luetal2010.py:137-139. -/
noncomputable def LuArgs.D (a : LuArgs) (mu0 : ℝ) : ℝ :=
  (a.re ^ 2 * mu0 / 2 / a.kh + a.rc ^ 2 * (a.n ^ 2 - 1) / 8 / a.khc) * (a.kv * a.kvc / (a.kvc - a.kv))

/-- `minus1`, luetal2010.py:141-142: 1 at even places, -1 at odd ones. -/
noncomputable def minus1 (m : ℕ) : ℝ := if m % 2 = 1 then -1 else 1

/-- One term of `por`, luetal2010.py:144-147. -/
noncomputable def LuArgs.porTerm (a : LuArgs) (mu0 : ℝ) (z t : ℝ) (m : ℕ) : ℝ :=
  2 / bigM m * (a.utop - minus1 m * (a.utop - a.ubot) / bigM m) * sin (bigM m * z / a.H) * exp (-a.bet mu0 m * t)

/-- `por` (overall), luetal2010.py:144-147, 155. -/
noncomputable def LuArgs.por (a : LuArgs) (mu0 : ℝ) (nterms : ℕ) (z t : ℝ) : ℝ :=
  ∑ m ∈ Finset.range nterms, a.porTerm mu0 z t m

/-- `pors` (soil), luetal2010.py:149-150, 156. -/
noncomputable def LuArgs.pors (a : LuArgs) (mu0 : ℝ) (nterms : ℕ) (z t : ℝ) : ℝ :=
  ∑ m ∈ Finset.range nterms, a.porTerm mu0 z t m *
    (1 + (a.C mu0 * a.H ^ 2 * a.bet mu0 m - a.D mu0 * bigM m ^ 2) / (a.H ^ 2 * (a.n ^ 2 - 1)))

/-- `porc` (column), luetal2010.py:152-153, 157. -/
noncomputable def LuArgs.porc (a : LuArgs) (mu0 : ℝ) (nterms : ℕ) (z t : ℝ) : ℝ :=
  ∑ m ∈ Finset.range nterms, a.porTerm mu0 z t m * (1 - a.C mu0 * a.bet mu0 m + a.D mu0 * bigM m ^ 2 / a.H ^ 2)

/-- `avp`, luetal2010.py:159-162. -/
noncomputable def LuArgs.avp (a : LuArgs) (mu0 : ℝ) (nterms : ℕ) (t : ℝ) : ℝ :=
  ∑ m ∈ Finset.range nterms, 2 / bigM m ^ 2 * (a.utop - minus1 m * (a.utop - a.ubot) / bigM m) * exp (-a.bet mu0 m * t)

/-- `settle`, luetal2010.py:164-165. -/
noncomputable def LuArgs.settle (a : LuArgs) (mu0 : ℝ) (nterms : ℕ) (t : ℝ) : ℝ :=
  ((a.utop + a.ubot) / 2 - a.avp mu0 nterms t) * (a.H * a.mvs * a.n ^ 2 / (a.n ^ 2 - 1 + a.Y))

/-- What `luetal2010` returns. -/
structure LuOut where
  por : List (List ℝ)
  pors : List (List ℝ)
  porc : List (List ℝ)
  avp : List ℝ
  settle : List ℝ

/-- `luetal2010`, luetal2010.py:28-167. -/
noncomputable def luetal2010 (z t : List ℝ) (a : LuArgs) (nterms : ℕ) : Except PyErr LuOut := do
  let mu0 ← a.mu0
  pure ⟨z.map fun z => t.map fun t => a.por mu0 nterms z t, z.map fun z => t.map fun t => a.pors mu0 nterms z t,
    z.map fun z => t.map fun t => a.porc mu0 nterms z t, t.map fun t => a.avp mu0 nterms t, t.map fun t => a.settle mu0 nterms t⟩

end Geotecha.Consol
