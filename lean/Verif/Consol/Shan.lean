import Verif.Piecewise.Model
import Mathlib.Analysis.SpecialFunctions.Trigonometric.Basic
import Mathlib.Analysis.SpecialFunctions.Exp
import Mathlib.LinearAlgebra.Matrix.NonsingularInverse
import Mathlib.LinearAlgebra.Matrix.Notation

/-!
# Model of geotecha/consolidation/shanetal2012.py

Reals for floats; `z` and `t` are one dimensional arrays of floats (the code needs arrays: it indexes
`t[None, :, None, None]`).  `np.linalg.inv` is the exact inverse and raises on a singular matrix;
`np.linalg.eig` is a parameter, whose contract is `Spec.Unsat.IsEig` and is a hypothesis of the theorems.
The four dimensional arrays (depth, time, mode, phase) are written pointwise.
-/

set_option autoImplicit false
open Real
namespace Geotecha.Consol
open Geotecha (PyErr)

/-- A pair (water, air). -/
abbrev Vec2 := Fin 2 → ℝ
/-- A two by two matrix. -/
abbrev Mat2 := Matrix (Fin 2) (Fin 2) ℝ

/-- A load dictionary such as `{'type': 'exp', 'q0': 100, 'b': 5e-5}`, shanetal2012.py:174-185: the value of
the key `'type'`, if there is one, and the numbers under the other keys. -/
structure LoadDict where
  type : Option String
  par : String → Option ℝ

/-- A validated load, shanetal2012.py:320-329: what the code later reads out of the dictionary. -/
inductive ShanLoad
  | exp (q0 b : ℝ)
  | sin (q0 omega : ℝ)

/-- The validation of one dictionary, shanetal2012.py:233-247, together with the reads of `q0`, `b`, `omega`
(lines 321-322, 328-329 and so on), which cannot fail once the validation has passed.  A dictionary without
the key `'type'` is a `KeyError`. -/
noncomputable def LoadDict.parse (d : LoadDict) : Except PyErr ShanLoad :=
  match d.type with
  | none => .error .other
  | some ty =>
    if ty = "exp" then
      match d.par "q0", d.par "b" with
      | some q0, some b => .ok (.exp q0 b)
      | _, _ => .error .valueError
    else if ty = "sin" then
      match d.par "q0", d.par "omega" with
      | some q0, some omega => .ok (.sin q0 omega)
      | _, _ => .error .valueError
    else .error .valueError

/-- `if not ff is None` of the validation loop, shanetal2012.py:237-238. -/
noncomputable def parseLoad : Option LoadDict → Except PyErr (Option ShanLoad)
  | none => .ok none
  | some d => d.parse.map some

namespace ShanLoad

/-- `E_exp_load_dt`, shanetal2012.py:212-214. -/
noncomputable def expLoadDt (q0 b t M eig : ℝ) : ℝ :=
  -(b * q0 * (Real.exp (-b * t) - Real.exp (eig * M ^ 2 * t))) / (b + eig * M ^ 2)

/-- `E_sin_load_dt`, shanetal2012.py:215-220. -/
noncomputable def sinLoadDt (q0 omega t M eig : ℝ) : ℝ :=
  (omega * q0 * (-eig * M ^ 2 * Real.cos (omega * t) + eig * M ^ 2 * Real.exp (eig * M ^ 2 * t) +
    omega * Real.sin (omega * t))) / (eig ^ 2 * M ^ 4 + omega ^ 2)

/-- The choice between them, shanetal2012.py:320-334, 350-370, 390-410, 431-451, 472-492. -/
noncomputable def Edt : ShanLoad → ℝ → ℝ → ℝ → ℝ
  | .exp q0 b => expLoadDt q0 b
  | .sin q0 omega => sinLoadDt q0 omega

/-- The factor of the homogenising terms that depends on time: `q0 * (1 - np.exp(-b * t[None, :]))`,
shanetal2012.py:359, 362, 399, 402, 440, 443, 481, 484, and `q0 * np.sin(omega * t[None, :])`, lines 372, 374,
412, 414, 453, 455, 494, 496. -/
noncomputable def value : ShanLoad → ℝ → ℝ
  | .exp q0 b, t => q0 * (1 - Real.exp (-b * t))
  | .sin q0 omega, t => q0 * Real.sin (omega * t)

end ShanLoad

/-- The arguments of `shanetal2012` besides `z` and `t`, shanetal2012.py:119-121. -/
structure ShanArgs where
  H : ℝ
  Cw : ℝ
  Cvw : ℝ
  Ca : ℝ
  Cva : ℝ
  drn : ℤ
  Csw : ℝ
  Csa : ℝ
  uwi : ℝ × ℝ
  uai : ℝ × ℝ
  nterms : ℕ
  f : Option LoadDict
  f1 : Option LoadDict
  f2 : Option LoadDict
  f3 : Option LoadDict
  f4 : Option LoadDict

/-- The five loads after validation. -/
structure ShanLoads where
  f : Option ShanLoad
  f1 : Option ShanLoad
  f2 : Option ShanLoad
  f3 : Option ShanLoad
  f4 : Option ShanLoad

/-- What `np.linalg.eig` returns: eigenvalues and the matrix of eigenvectors. -/
structure EigRes where
  eigs : Vec2
  v : Mat2

namespace ShanArgs

/-- `Cmat`, shanetal2012.py:250. -/
def Cmat (a : ShanArgs) : Mat2 := !![1, a.Cw; a.Ca, 1]

/-- `Kmat`, shanetal2012.py:251. -/
def Kmat (a : ShanArgs) : Mat2 := !![a.Cvw, 0; 0, a.Cva]

/-- `M[k]`, shanetal2012.py:259-262 (for `drn` 0 or 1, the only values for which `M` is assigned). -/
noncomputable def M (a : ShanArgs) (k : ℕ) : ℝ :=
  if a.drn = 1 then (2 * (k:ℝ) + 1) / 2 * π else ((k:ℝ) + 1) * π

/-- `Nmat = np.dot(ICmat, Kmat)`, shanetal2012.py:265. -/
noncomputable def Nmat (a : ShanArgs) : Mat2 := a.Cmat⁻¹ * a.Kmat

/-- `gw`, `ga`, shanetal2012.py:284-287. -/
noncomputable def g (a : ShanArgs) (ui : ℝ × ℝ) (M : ℝ) : ℝ :=
  2 / a.H * (-a.H * ui.2 * cos M / M + a.H * ui.1 / M + a.H * ui.2 * sin M / M ^ 2 - a.H * ui.1 * sin M / M ^ 2)

/-- `X0[0, 0, k, :]`, shanetal2012.py:289-291. -/
noncomputable def X0 (a : ShanArgs) (M : ℝ) : Vec2 := ![a.g a.uwi M, a.g a.uai M]

/-- `np.einsum('lp,ijkp', v, E * np.einsum('lp,ijkp', Iv, X))` for one mode and one time,
shanetal2012.py:295 and 302, 319 and 335, 349 and 375, 389 and 415, 430 and 456, 471 and 497. -/
noncomputable def evolve (r : EigRes) (E X : Vec2) : Vec2 :=
  r.v.mulVec (fun p => E p * (r.v⁻¹).mulVec X p)

/-- `E` of the initial pore pressures, shanetal2012.py:297-300. -/
noncomputable def E0 (a : ShanArgs) (r : EigRes) (M t : ℝ) : Vec2 := fun p => exp (M ^ 2 / a.H ^ 2 * r.eigs p * t)

/-- `E[0, j, k, :]` of a load, shanetal2012.py:323-334 (and the same lines of the other four blocks). -/
noncomputable def E (a : ShanArgs) (r : EigRes) (L : ShanLoad) (M t : ℝ) : Vec2 :=
  fun p => L.Edt t (M / a.H) (r.eigs p)

/-- `igral_S` of `f`, shanetal2012.py:315. -/
noncomputable def igralF (M : ℝ) : ℝ := 2 * (1 - cos M) / M

/-- `igral_S` of `f1` and `f2`, shanetal2012.py:344-347 and 384-387. -/
noncomputable def igralTop (a : ShanArgs) (M : ℝ) : ℝ :=
  if a.drn = 0 then 2 * (M - sin M) / M ^ 2 else 2 * (1 - cos M) / M

/-- `igral_S` of `f3` and `f4`, shanetal2012.py:425-428 and 465-468. -/
noncomputable def igralBot (a : ShanArgs) (M : ℝ) : ℝ :=
  if a.drn = 0 then 2 * (sin M - M * cos M) / M ^ 2 else 2 * a.H * (sin M - M * cos M) / M ^ 2

/-- The factor of the homogenising terms of `f1`, `f2` that depends on depth, shanetal2012.py:358-362,
371-374, 398-402, 411-414. -/
noncomputable def homTop (a : ShanArgs) (z : ℝ) : ℝ := if a.drn = 0 then 1 - z / a.H else 1

/-- The factor of the homogenising terms of `f3`, `f4` that depends on depth, shanetal2012.py:439-443,
452-455, 480-484, 493-496. -/
noncomputable def homBot (a : ShanArgs) (z : ℝ) : ℝ := if a.drn = 0 then z / a.H else z

/-- `Csig` of `f`, shanetal2012.py:312. -/
def csigF (a : ShanArgs) : Vec2 := ![a.Csw, a.Csa]
/-- `Csig` of `f1`, shanetal2012.py:342. -/
def csig1 (a : ShanArgs) : Vec2 := ![-1, -a.Ca]
/-- `Csig` of `f2`, shanetal2012.py:382. -/
def csig2 (a : ShanArgs) : Vec2 := ![-a.Cw, -1]
/-- `Csig` of `f3`, shanetal2012.py:423. -/
def csig3 (a : ShanArgs) : Vec2 := ![-1, -a.Ca]
/-- `Csig` of `f4`, shanetal2012.py:463. -/
def csig4 (a : ShanArgs) : Vec2 := ![-a.Cw, -1]

/-- What one load adds to mode `M`: `Hk = igral_S * np.dot(ICmat, Csig)` (shanetal2012.py:313-318) carried
through `evolve`; an absent load adds nothing. -/
noncomputable def loadMode (a : ShanArgs) (r : EigRes) (csig : Vec2) (igral : ℝ → ℝ) (L : Option ShanLoad) (M t : ℝ) : Vec2 :=
  match L with
  | none => 0
  | some L => evolve r (a.E r L M t) (fun l => igral M * (a.Cmat⁻¹).mulVec csig l)

/-- What one boundary load adds to its own phase, `u[:, :, i] += ...`, shanetal2012.py:358-362, 371-374, ... -/
noncomputable def homTerm (L : Option ShanLoad) (shape : ℝ → ℝ) (z t : ℝ) : ℝ :=
  match L with
  | none => 0
  | some L => L.value t * shape z

/-- `np.sum(S * X, axis=2)`, shanetal2012.py:303-306, 336, 376, 416, 457, 498. -/
noncomputable def modeSum (a : ShanArgs) (X : ℝ → ℝ → Vec2) (z t : ℝ) : Vec2 := fun l =>
  ((List.range a.nterms).map (fun k => sin (a.M k * z / a.H) * X (a.M k) t l)).sum

/-- `u[i, j, :]` at one depth and time, shanetal2012.py:306-498. -/
noncomputable def u (a : ShanArgs) (r : EigRes) (L : ShanLoads) (z t : ℝ) : Vec2 := fun l =>
  a.modeSum (fun M t => evolve r (a.E0 r M t) (a.X0 M)) z t l
  + a.modeSum (a.loadMode r a.csigF igralF L.f) z t l
  + (if l = 0 then homTerm L.f1 a.homTop z t else 0) + a.modeSum (a.loadMode r a.csig1 a.igralTop L.f1) z t l
  + (if l = 1 then homTerm L.f2 a.homTop z t else 0) + a.modeSum (a.loadMode r a.csig2 a.igralTop L.f2) z t l
  + (if l = 0 then homTerm L.f3 a.homBot z t else 0) + a.modeSum (a.loadMode r a.csig3 a.igralBot L.f3) z t l
  + (if l = 1 then homTerm L.f4 a.homBot z t else 0) + a.modeSum (a.loadMode r a.csig4 a.igralBot L.f4) z t l

/-- The validation loop, shanetal2012.py:233-247. -/
noncomputable def loads (a : ShanArgs) : Except PyErr ShanLoads := do
  let f ← parseLoad a.f
  let f1 ← parseLoad a.f1
  let f2 ← parseLoad a.f2
  let f3 ← parseLoad a.f3
  let f4 ← parseLoad a.f4
  return ⟨f, f1, f2, f3, f4⟩

open Classical in
/-- `shanetal2012`, shanetal2012.py:119-503.  The order of the failures is that of the code: the validation
of the loads, `np.linalg.inv(Cmat)` (line 264), `2 / H` (line 284), the unassigned `M` (line 284),
`np.linalg.inv(v)` (line 294). -/
noncomputable def shanetal2012 (eig : Mat2 → EigRes) (z t : List ℝ) (a : ShanArgs) :
    Except PyErr (List (List ℝ) × List (List ℝ)) := do
  let L ← a.loads
  if a.Cmat.det = 0 then .error .other
  else
    let r := eig a.Nmat
    if a.H = 0 then .error .zeroDivision
    else if a.drn ≠ 1 ∧ a.drn ≠ 0 then .error .unboundLocal
    else if r.v.det = 0 then .error .other
    else
      .ok (z.map (fun z => t.map (fun t => a.u r L z t 0)), z.map (fun z => t.map (fun t => a.u r L z t 1)))

end ShanArgs
end Geotecha.Consol
