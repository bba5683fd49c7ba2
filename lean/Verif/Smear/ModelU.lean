import Verif.Smear.Model
import Mathlib.Analysis.Real.Pi.Bounds

/-! # Model of the pore pressure functions `u_*` and of the drain parameters of smear_zones.py, one radius at a time -/

namespace Geotecha.Smear
open Real Geotecha.Piecewise

/-- `term1 * (P + muw) + uw`, e.g. smear_zones.py:1768 and 1775 (`u_ideal` adds `muw` inside `term2`, 1638; the piecewise functions multiply in place, 2324-2327). -/
noncomputable def uForm (mu uavg uw muw P : ℝ) : ℝ := (uavg - uw) / (mu + muw) * (P + muw) + uw

open Classical in
/-- `u_ideal`, 1573-1641. -/
noncomputable def uIdeal (n x uavg uw muw : ℝ) : Except PyErr ℝ :=
  if n ≤ 1 then .error .valueError else if x < 1 ∨ n < x then .error .valueError else
  (muIdeal n).map fun mu => uForm mu uavg uw muw (log x - 1 / (2 * n ^ 2) * (x ^ 2 - 1))

/-- `constant_part` and `undisturbed_part` of `u_constant`, 1723-1737. -/
noncomputable def uConstantIn (n kap x : ℝ) : ℝ := kap * (log x - 1 / (2 * n ^ 2) * (x ^ 2 - 1))
noncomputable def uConstantOut (n s kap x : ℝ) : ℝ :=
  log (x / s) - 1 / (2 * n ^ 2) * (x ^ 2 - s ^ 2) + kap * (log s - 1 / (2 * n ^ 2) * (s ^ 2 - 1))

open Classical in
/-- `u_constant`, 1643-1776. -/
noncomputable def uConstant (n s kap x uavg uw muw : ℝ) : Except PyErr ℝ :=
  if BadArgs false n s kap then .error .valueError else if x < 1 ∨ n < x then .error .valueError
  else if isclose s 1 ∨ isclose kap 1 then uIdeal n x uavg uw muw
  else (muConstant n s kap).map fun mu => uForm mu uavg uw muw (if x < s then uConstantIn n kap x else uConstantOut n s kap x)

open Classical in
/-- `linear_part` of `u_linear`, 1886-1904. -/
noncomputable def uLinearIn (n s kap x : ℝ) : ℝ :=
  if isclose s kap then kap * (-1 / x - 1 / n ^ 2 * (x - 1) + 1)
  else
    let A := (kap - 1) / (s - 1)
    let B := (s - kap) / (s - 1)
    let term2 := log x - log (A * x + B)
    let term3 := A * x + B - 1 - B * log (A * x + B)
    kap * (1 / B * term2 - 1 / (n ^ 2 * A ^ 2) * term3)

open Classical in
/-- `undisturbed_part` of `u_linear`, 1906-1926. -/
noncomputable def uLinearOut (n s kap x : ℝ) : ℝ :=
  let term2 := log (x / s) - 1 / (2 * n ^ 2) * (x ^ 2 - s ^ 2)
  if isclose s kap then term2 + kap * (-1 / s - 1 / n ^ 2 * (s - 1) + 1)
  else
    let A := (kap - 1) / (s - 1)
    let B := (s - kap) / (s - 1)
    term2 + kap * (1 / B * log (s / kap) - 1 / (n ^ 2 * A ^ 2) * (kap - 1 - B * log kap))

open Classical in
/-- `u_linear`, 1780-1963. -/
noncomputable def uLinear (n s kap x uavg uw muw : ℝ) : Except PyErr ℝ :=
  if BadArgs false n s kap then .error .valueError else if x < 1 ∨ n < x then .error .valueError
  else if isclose s 1 ∨ isclose kap 1 then uIdeal n x uavg uw muw
  else (muLinear n s kap).map fun mu => uForm mu uavg uw muw (if x < s then uLinearIn n s kap x else uLinearOut n s kap x)

/-- `parabolic_part` of `u_parabolic`, 2086-2110. -/
noncomputable def uParabolicIn (n s kap x : ℝ) : ℝ :=
  let A := sqrt (kap / (kap - 1))
  let B := s / (s - 1)
  let C := 1 / (s - 1)
  let F := log ((A + B - C * x) / (A + 1))
  let G := log ((A - B + C * x) / (A - 1))
  let term1 := kap / (kap - 1)
  let term2 := 1 / (A ^ 2 - B ^ 2)
  let term3 := log x
  let term4 := -1 / (2 * A)
  let term5 := (A - B) * F + (A + B) * G
  let term6 := term2 * (term3 + term4 * term5)
  let term7 := 1 / (2 * n ^ 2 * A * C ^ 2)
  let term8 := (A + B) * F + (A - B) * G
  let term9 := term7 * term8
  term1 * (term6 + term9)

/-- `undisturbed_part` of `u_parabolic`, 2112-2130. -/
noncomputable def uParabolicOut (n s kap x : ℝ) : ℝ :=
  let A := sqrt (kap / (kap - 1))
  let B := s / (s - 1)
  let C := 1 / (s - 1)
  let E := log ((A + 1) / (A - 1))
  let term2 := log (x / s) - 1 / (2 * n ^ 2) * (x ^ 2 - s ^ 2)
  let term3 := 1 / (A ^ 2 - B ^ 2)
  let term4 := log s - 1 / 2 * (log kap + B / A * E)
  let term5 := 1 / (2 * n ^ 2 * C ^ 2)
  let term6 := log kap - B / A * E
  let term7 := kap / (kap - 1) * (term3 * term4 + term5 * term6)
  1 * (term2 + term7)

open Classical in
/-- `u_parabolic`, 1966-2170. -/
noncomputable def uParabolic (n s kap x uavg uw muw : ℝ) : Except PyErr ℝ :=
  if BadArgs false n s kap then .error .valueError else if x < 1 ∨ n < x then .error .valueError
  else if isclose s 1 ∨ isclose kap 1 then uIdeal n x uavg uw muw
  else (muParabolic n s kap).map fun mu => uForm mu uavg uw muw (if x < s then uParabolicIn n s kap x else uParabolicOut n s kap x)

open Classical in
/-- The loop of `u_piecewise_constant` for one radius, 2306-2324: `searchsorted` (left) finds the first zone with `x ≤ s[i]`; `done` are the zones before. -/
noncomputable def uStep (n x : ℝ) : List CZone → List CZone → Option ℝ
  | _, [] => none
  | done, z :: zs =>
    if x ≤ z.hi then
      let sumj := (done.map (cB n)).sum / z.kap
      some (z.kap * (log (x / z.lo) - 0.5 * (x ^ 2 / n ^ 2 - z.lo ^ 2 / n ^ 2) + sumj))
    else uStep n x (done ++ [z]) zs

open Classical in
/-- `u_piecewise_constant(s, kap, si, uavg, uw, muw, n, kap_m)`, 2173-2328. -/
noncomputable def uPiecewiseConstant (s kap : List ℝ) (x uavg uw muw : ℝ) (n kapm : Option ℝ) : Except PyErr ℝ :=
  if n.isSome ∧ kapm = none ∧ kap = [] then .error .indexError else
  let (s, kap) := extend s kap n kapm
  if s.length ≠ kap.length then .error .valueError
  else if ∃ x ∈ s, x ≤ 1 then .error .valueError
  else if ∃ k ∈ kap, k ≤ 0 then .error .valueError
  else if ¬ Increasing s then .error .valueError
  else match s.getLast? with
    | none => .error .indexError
    | some n =>
      if x < 1 ∨ n < x then .error .valueError else
      match muPiecewiseConstant s kap none none, uStep n x [] (cZones 1 s kap) with
      | .ok mu, some P => .ok (uForm mu uavg uw muw P)
      | .error e, _ => .error e
      | _, none => .error .indexError

open Classical in
/-- `phi` of `u_piecewise_linear`, 2517-2526 (with `x = s[j]` also the summands of `psi`, 2532-2541). -/
noncomputable def phi (n : ℝ) (z : LZone) (x : ℝ) : ℝ :=
  if isclose (z.k0 / z.k1) 1 then log (x / z.lo) - (x ^ 2 - z.lo ^ 2) / (2 * n ^ 2)
  else if isclose (z.k0 / z.k1) (z.hi / z.lo) then (x - z.lo) * (n ^ 2 - z.lo * x) / (x * n ^ 2)
  else
    let A := (z.k0 / z.k1 - 1) / (z.hi - z.lo)
    let B := (z.hi - z.lo * z.k0 / z.k1) / (z.hi - z.lo)
    1 / B * log (x / z.lo) + (B / A ^ 2 / n ^ 2 - 1 / B) * log (A * x + B) - (x - z.lo) / A / n ^ 2

open Classical in
/-- One summand of `psi`, 2530-2541. -/
noncomputable def psiTerm (n : ℝ) (z : LZone) : ℝ := if isclose z.lo z.hi then 0 else z.k0 * phi n z z.hi

open Classical in
/-- The loop of `u_piecewise_linear` for one radius, 2505-2543: segment `i` is the first with `x ≤ s[i]`, but at least 1 (line 2506). -/
noncomputable def uRamp (n x : ℝ) : List LZone → List LZone → Option ℝ
  | _, [] => none
  | done, z :: zs => if x ≤ z.hi then some (z.k0 * phi n z x + (done.map (psiTerm n)).sum) else uRamp n x (done ++ [z]) zs

open Classical in
/-- `u_piecewise_linear`, 2331-2547. If the first two radii coincide and `x ≤ 1`, line 2522 divides by zero (nan unless the two `kap` are close): `.other`. -/
noncomputable def uPiecewiseLinear (s kap : List ℝ) (x uavg uw muw : ℝ) (n kapm : Option ℝ) : Except PyErr ℝ :=
  if n.isSome ∧ kapm = none ∧ kap = [] then .error .indexError else
  let (s, kap) := extend s kap n kapm
  if s.length ≠ kap.length then .error .valueError
  else if ∃ x ∈ s, x < 1 then .error .valueError
  else if ∃ k ∈ kap, k ≤ 0 then .error .valueError
  else if ¬ NonDecreasing s then .error .valueError
  else match s.getLast? with
    | none => .error .indexError
    | some n =>
      if x < 1 ∨ n < x then .error .valueError else
      match muPiecewiseLinear s kap none none, uRamp n x [] (lZones s kap) with
      | .ok mu, some P => match lZones s kap with
        | z :: _ => if x ≤ z.hi ∧ z.lo = z.hi ∧ ¬ isclose (z.k0 / z.k1) 1 then .error .other else .ok (uForm mu uavg uw muw P)
        | [] => .error .indexError
      | .error e, _ => .error e
      | _, none => .error .indexError

/-! ## Drain parameters -/

/-- The drain pattern: by the first letter of the argument, upper-cased (2593-2600). An empty string raises `IndexError`. -/
noncomputable def patternFactor (pattern : String) : Except PyErr ℝ :=
  match pattern.toList with
  | [] => .error .indexError
  | c :: _ => if c.toUpper = 'T' then .ok 0.525037567904332 else if c.toUpper = 'S' then .ok 0.5641895835477563 else .error .valueError

open Classical in
/-- `re_from_drain_spacing(sp, pattern)`, 2550-2601. -/
noncomputable def reFromSpacing (sp : ℝ) (pattern : String) : Except PyErr ℝ :=
  if sp ≤ 0 then .error .valueError else (patternFactor pattern).map (· * sp)

/-- `drain_eta(re, mu_function, ..., muw)`, 2603-2648, given the value of `mu_function`. -/
noncomputable def drainEta (re mu muw : ℝ) : ℝ := 2 / re ^ 2 / (mu + muw)

open Classical in
/-- `mu_well_resistance(kh, qw, n, H, z)`, 1137-1204. -/
noncomputable def muWell (kh qw n H : ℝ) (z : Option ℝ) : Except PyErr ℝ :=
  if n ≤ 1 then .error .valueError else match z with
  | none => .ok (2 * kh * H ^ 2 / 3 / qw * π * (1 - 1 / n ^ 2))
  | some z => .ok (kh / qw * π * z * (2 * H - z) * (1 - 1 / n ^ 2))

end Geotecha.Smear
