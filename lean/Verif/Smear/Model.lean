import Verif.Piecewise.Model
import Mathlib.Analysis.SpecialFunctions.Log.Basic
import Mathlib.Analysis.SpecialFunctions.Pow.Real

/-! # Model of geotecha/consolidation/smear_zones.py (real arithmetic)

Scalar arguments; the numpy versions act element by element on arrays of one shape. `np.isclose(a, b)` is `|a - b| ≤ 1e-8 + 1e-5 |b|`. -/

namespace Geotecha.Smear
open Real Geotecha.Piecewise

/-- `np.isclose` with default tolerances. -/
def isclose (a b : ℝ) : Prop := |a - b| ≤ 1 / 10 ^ 8 + 1 / 10 ^ 5 * |b|

/-- Formula of `mu_ideal`, smear_zones.py:81-83. -/
noncomputable def muIdealF (n : ℝ) : ℝ :=
  let term1 := n ^ 2 / (n ^ 2 - 1) * (log n - 0.75)
  let term2 := 1 / (n ^ 2 - 1) * (1 - 1 / (4 * n ^ 2))
  term1 + term2

open Classical in
/-- `mu_ideal(n)`, 31-84. -/
noncomputable def muIdeal (n : ℝ) : Except PyErr ℝ := if n ≤ 1 then .error .valueError else .ok (muIdealF n)

/-- Formula of `mu_constant`, 166-169. -/
noncomputable def muConstantF (n s kap : ℝ) : ℝ :=
  let term1 := n ^ 2 / (n ^ 2 - 1) * (log (n / s) + kap * log s - 0.75)
  let term2 := s ^ 2 / (n ^ 2 - 1) * (1 - s ^ 2 / (4 * n ^ 2))
  let term3 := kap / (n ^ 2 - 1) * ((s ^ 4 - 1) / (4 * n ^ 2) - s ^ 2 + 1)
  term1 + term2 + term3

/-- The argument checks shared by `mu_constant` and others, e.g. 144-162; `strict`: `s = n` is refused too (`mu_linear`, 516). -/
def BadArgs (strict : Bool) (n s kap : ℝ) : Prop := n ≤ 1 ∨ s < 1 ∨ kap ≤ 0 ∨ (if strict then n ≤ s else n < s)

open Classical in
/-- `mu_constant(n, s, kap)`, 87-170. -/
noncomputable def muConstant (n s kap : ℝ) : Except PyErr ℝ :=
  if BadArgs false n s kap then .error .valueError else .ok (muConstantF n s kap)

/-- `mu_s_neq_kap` in `mu_linear`, 461-487. -/
noncomputable def muLinearNeqF (n s kap : ℝ) : ℝ :=
  let A := (kap - 1) / (s - 1)
  let B := (s - kap) / (s - 1)
  let term1 := n ^ 2 / (n ^ 2 - 1)
  let term2 := log (n / s) + s ^ 2 / n ^ 2 * (1 - s ^ 2 / (4 * n ^ 2)) - 3 / 4
  let term3 := kap * (1 - s ^ 2 / n ^ 2)
  let term4 := 1 / B * log (s / kap) - 1 / (n ^ 2 * A ^ 2) * (kap - 1 - B * log kap)
  let term5 := term2 + term3 * term4
  let term6 := 1 / (n ^ 2 * B)
  let term7 := s ^ 2 * log s - (s ^ 2 - 1) / 2
    + 1 / A ^ 2 * ((kap ^ 2 - 1) / 2 - kap ^ 2 * log kap + 2 * B * (kap * log kap - (kap - 1)))
  let term8 := -1 / (n ^ 4 * A ^ 2)
  let term9 := B / 3 * (s ^ 2 - 1) + 2 / 3 * (s ^ 2 * kap - 1) - (s ^ 2 - 1)
    + B / A ^ 2 * ((kap ^ 2 - 1) / 2 - kap ^ 2 * log kap + 2 * B * (kap * log kap - (kap - 1)))
  let term10 := kap * (term6 * term7 + term8 * term9)
  term1 * (term5 + term10)

/-- `mu_s_eq_kap` in `mu_linear`, 489-502. -/
noncomputable def muLinearEqF (n s : ℝ) : ℝ :=
  let term1 := n ^ 2 / (n ^ 2 - 1)
  let term2 := log (n / s) + s ^ 2 / n ^ 2 * (1 - s ^ 2 / (4 * n ^ 2)) - 3 / 4
  let term3 := -s / n ^ 2 * (1 - s ^ 2 / n ^ 2) * (s - 1) + (1 - s ^ 2 / n ^ 2) * (s - 1)
  let term4 := s / n ^ 4 * (s ^ 2 - 1) - 2 * s / (3 * n ^ 4) * (s ^ 3 - 1) - (s / n ^ 2 - s ^ 2 / n ^ 2) * (s - 1)
  term1 * (term2 + term3 + term4)

open Classical in
/-- `mu_linear(n, s, kap)`, 377-554. -/
noncomputable def muLinear (n s kap : ℝ) : Except PyErr ℝ :=
  if BadArgs true n s kap then .error .valueError
  else if isclose s 1 ∨ isclose kap 1 then muIdeal n
  else if isclose s kap then .ok (muLinearEqF n s)
  else .ok (muLinearNeqF n s kap)

/-- `_sx`, 172-205. -/
def sx (n s : ℝ) : ℝ := 2 * n - s
/-- `_kapx`, 208-244. -/
noncomputable def kapx (n s kap : ℝ) : ℝ := 1 + (kap - 1) / (s - 1) * (sx n s - 1)

open Classical in
/-- `mu_overlapping_linear(n, s, kap)`, 247-374. The masks are evaluated in the order of the assignments: where several apply the later one wins
(`normal` and `all_disturbed` exclude each other for `n > 1`). Calls on empty selections do nothing. -/
noncomputable def muOverlapping (n s kap : ℝ) : Except PyErr ℝ :=
  if n ≤ 1 ∨ s < 1 ∨ kap ≤ 0 then .error .valueError
  else if isclose s 1 ∨ isclose kap 1 then muIdeal n
  else if s ≤ n then muLinear n s kap
  else if 2 * n - s ≤ 1 then (muIdeal n).map (kap * ·)
  else (muLinear n (sx n s) (kapx n s kap)).map (· * kap / kapx n s kap)

/-- `mu_p` in `mu_parabolic`, 664-704 (unused terms 12-15 omitted). -/
noncomputable def muParabolicF (n s kap : ℝ) : ℝ :=
  let A := sqrt (kap / (kap - 1))
  let B := s / (s - 1)
  let C := 1 / (s - 1)
  let term1 := log (n / s) - 3 / 4 + s ^ 2 / n ^ 2 * (1 - s ^ 2 / (4 * n ^ 2))
  let term2 := (1 - s ^ 2 / n ^ 2) * A ^ 2
  let term3 := 1 / (A ^ 2 - B ^ 2)
  let term4 := log (s / sqrt kap) - B / (2 * A) * log ((A + 1) / (A - 1))
  let term5 := 1 / (n ^ 2 * C ^ 2)
  let term6 := log (sqrt kap) - B / (2 * A) * log ((A + 1) / (A - 1))
  let mu2 := term1 + term2 * (term3 * term4 + term5 * term6)
  let term7 := A ^ 2 / n ^ 2 * (1 / (A ^ 2 - B ^ 2)) * (s ^ 2 * log s - 1 / 2 * (s ^ 2 - 1))
  let term8 := -1 / (n ^ 2 * C ^ 2) * A ^ 2 * (1 / (A ^ 2 - B ^ 2))
  let term9 := A ^ 2 / 2 * log kap + B * A / 2 * log ((A + 1) / (A - 1)) + 1 / 2 - B - (A ^ 2 - B ^ 2) * log kap
  let term10 := A ^ 2 / (n ^ 4 * C ^ 4)
  let term11 := -(A ^ 2 / 2 + B ^ 2) * log kap + 3 / 2 * A * B * log ((A + 1) / (A - 1)) + 1 / 2 - 3 * B
  let mu1 := term7 + term8 * term9 + term10 * term11
  n ^ 2 / (n ^ 2 - 1) * (mu1 + mu2)

open Classical in
/-- `mu_parabolic(n, s, kap)`, 556-752. For `kap < 1` numpy takes the square root of a negative number (nan); for
`A² = B²` it divides by zero: both give `.other` here. -/
noncomputable def muParabolic (n s kap : ℝ) : Except PyErr ℝ :=
  if BadArgs false n s kap then .error .valueError
  else if isclose s 1 ∨ isclose kap 1 then muIdeal n
  else if kap < 1 ∨ kap / (kap - 1) = (s / (s - 1)) ^ 2 then .error .other
  else .ok (muParabolicF n s kap)

/-! ## Piecewise profiles -/

/-- A zone of `mu_piecewise_constant`: `s_[i]`, `s[i]`, `kap[i]`. -/
structure CZone where
  lo : ℝ
  hi : ℝ
  kap : ℝ

/-- `zip(s_, s, kap)` with `s_[0] = 1`, `s_[i] = s[i-1]`, 879-880. -/
def cZones : ℝ → List ℝ → List ℝ → List CZone
  | lo, s :: ss, k :: ks => ⟨lo, s, k⟩ :: cZones s ss ks
  | _, _, _ => []

/-- Appending `n` and `kap_m` to the arrays, 844-855. -/
def extend (s kap : List ℝ) (n kapm : Option ℝ) : List ℝ × List ℝ := match n with
  | none => (s, kap)
  | some n => (s ++ [n], kap ++ [kapm.getD (kap.getLastD 0)])

/-- One summand of the inner loop, 886-887. -/
noncomputable def cB (n : ℝ) (z : CZone) : ℝ := z.kap * (log (z.hi / z.lo) - 0.5 * (z.hi ^ 2 / n ^ 2 - z.lo ^ 2 / n ^ 2))

/-- The double loop 882-894; `done` are the zones `j < i`. -/
noncomputable def cSum (n : ℝ) : List CZone → List CZone → ℝ
  | _, [] => 0
  | done, z :: zs =>
    let psi := (done.map (cB n)).sum / z.kap
    z.kap * (z.hi ^ 2 / n ^ 2 * log (z.hi / z.lo) + (psi - 0.5) * (z.hi ^ 2 / n ^ 2 - z.lo ^ 2 / n ^ 2)
      - 0.25 * (z.hi ^ 2 - z.lo ^ 2) ^ 2 / n ^ 4) + cSum n (done ++ [z]) zs

/-- `np.any(np.diff(s) <= 0)` fails, i.e. the array increases strictly. -/
def Increasing : List ℝ → Prop
  | a :: b :: l => a < b ∧ Increasing (b :: l)
  | _ => True

open Classical in
/-- `mu_piecewise_constant(s, kap, n, kap_m)`, 755-896. Empty arrays raise `IndexError`. -/
noncomputable def muPiecewiseConstant (s kap : List ℝ) (n kapm : Option ℝ) : Except PyErr ℝ :=
  if n.isSome ∧ kapm = none ∧ kap = [] then .error .indexError else
  let (s, kap) := extend s kap n kapm
  if s.length ≠ kap.length then .error .valueError
  else if ∃ x ∈ s, x ≤ 1 then .error .valueError
  else if ∃ k ∈ kap, k ≤ 0 then .error .valueError
  else if ¬ Increasing s then .error .valueError
  else match s.getLast? with
    | none => .error .indexError
    | some n => .ok (cSum n [] (cZones 1 s kap) * n ^ 2 / (n ^ 2 - 1))

/-- A zone of `mu_piecewise_linear`: `s[i-1]`, `s[i]`, `kap[i-1]`, `kap[i]`. -/
structure LZone where
  lo : ℝ
  hi : ℝ
  k0 : ℝ
  k1 : ℝ

/-- Consecutive entries, `range(1, len(s))`. -/
def lZones : List ℝ → List ℝ → List LZone
  | s0 :: s1 :: ss, k0 :: k1 :: ks => ⟨s0, s1, k0, k1⟩ :: lZones (s1 :: ss) (k1 :: ks)
  | _, _ => []

/-- `A` and `B`, 1098-1099 and 1117-1118. -/
noncomputable def lA (z : LZone) : ℝ := (z.k0 / z.k1 - 1) / (z.hi - z.lo)
noncomputable def lB (z : LZone) : ℝ := (z.hi - z.k0 / z.k1 * z.lo) / (z.hi - z.lo)

open Classical in
/-- `term1` of the inner loop, 1089-1102. -/
noncomputable def lInner (n : ℝ) (z : LZone) : ℝ :=
  if isclose z.lo z.hi then 0
  else if isclose z.k0 z.k1 then log (z.hi / z.lo) - (z.hi ^ 2 - z.lo ^ 2) / 2 / n ^ 2
  else if isclose (z.k0 / z.k1) (z.hi / z.lo) then (z.hi - z.lo) * (n ^ 2 - z.lo * z.hi) / z.hi / n ^ 2
  else 1 / lB z * log (z.hi / z.lo) + (lB z / lA z ^ 2 / n ^ 2 - 1 / lB z) * log (z.k0 / z.k1) - (z.hi - z.lo) / lA z / n ^ 2

open Classical in
/-- `term1` of the outer loop, 1107-1128. -/
noncomputable def lOuter (n : ℝ) (z : LZone) : ℝ :=
  if isclose z.lo z.hi then 0
  else if isclose z.k0 z.k1 then z.hi ^ 2 / n ^ 2 * log (z.hi / z.lo) - (z.hi ^ 2 - z.lo ^ 2) / 2 / n ^ 2 - (z.hi ^ 2 - z.lo ^ 2) ^ 2 / 4 / n ^ 4
  else if isclose (z.k0 / z.k1) (z.hi / z.lo) then (z.hi - z.lo) ^ 2 / 3 / n ^ 4 * (3 * n ^ 2 - z.lo ^ 2 - 2 * z.lo * z.hi)
  else z.hi ^ 2 / lB z / n ^ 2 * log (z.k1 * z.hi / z.k0 / z.lo)
    - (z.hi - z.lo) / lA z / n ^ 2 * (1 - lB z ^ 2 / lA z ^ 2 / n ^ 2)
    - (z.hi - z.lo) ^ 2 / 3 / lA z / n ^ 4 * (z.lo + 2 * z.hi)
    + lB z / lA z ^ 2 / n ^ 2 * log (z.k0 / z.k1) * (1 - lB z ^ 2 / lA z ^ 2 / n ^ 2)
    + lB z / 2 / lA z ^ 2 / n ^ 4 * (z.hi ^ 2 * (2 * log (z.k0 / z.k1) - 1) + z.lo ^ 2)

/-- The double loop 1084-1130. -/
noncomputable def lSum (n : ℝ) : List LZone → List LZone → ℝ
  | _, [] => 0
  | done, z :: zs =>
    let sumj := (done.map fun y => y.k0 * lInner n y).sum
    z.k0 * lOuter n z + sumj * (z.hi ^ 2 - z.lo ^ 2) / n ^ 2 + lSum n (done ++ [z]) zs

/-- No decrease in the array. -/
def NonDecreasing : List ℝ → Prop
  | a :: b :: l => a ≤ b ∧ NonDecreasing (b :: l)
  | _ => True

open Classical in
/-- `mu_piecewise_linear(s, kap, n, kap_m)`, 899-1134. When every radius is 1 the final division is `0/0` (nan): `.other`. -/
noncomputable def muPiecewiseLinear (s kap : List ℝ) (n kapm : Option ℝ) : Except PyErr ℝ :=
  if n.isSome ∧ kapm = none ∧ kap = [] then .error .indexError else
  let (s, kap) := extend s kap n kapm
  if s.length ≠ kap.length then .error .valueError
  else if ∃ x ∈ s, x < 1 then .error .valueError
  else if ∃ k ∈ kap, k ≤ 0 then .error .valueError
  else if ¬ NonDecreasing s then .error .valueError
  else match s.head?, s.getLast? with
    | some s0, some n => if ¬ isclose s0 1 then .error .valueError else if n ≤ 1 then .error .other else .ok (lSum n [] (lZones s kap) * n ^ 2 / (n ^ 2 - 1))
    | _, _ => .error .indexError

/-! ## Permeability profiles -/

/-- `parabolic_part` of `k_parabolic`, 1298-1306. -/
noncomputable def kParabolicPart (s kap x : ℝ) : ℝ :=
  let A := sqrt (kap / (kap - 1))
  let B := s / (s - 1)
  let C := 1 / (s - 1)
  1 / kap * (kap - 1) * (A - B + C * x) * (A + B - C * x)

open Classical in
/-- `k_parabolic(n, s, kap, si)` for one radius, 1206-1317. -/
noncomputable def kParabolic (n s kap x : ℝ) : Except PyErr ℝ :=
  if BadArgs false n s kap ∨ x < 1 ∨ n < x then .error .valueError
  else if isclose s 1 ∨ isclose kap 1 then .ok 1
  else if x < s then (if kap < 1 then .error .other else .ok (kParabolicPart s kap x)) else .ok 1

open Classical in
/-- `k_linear(n, s, kap, si)` for one radius, 1320-1436. -/
noncomputable def kLinear (n s kap x : ℝ) : Except PyErr ℝ :=
  if BadArgs false n s kap ∨ x < 1 ∨ n < x then .error .valueError
  else if isclose s 1 ∨ isclose kap 1 then .ok 1
  else if x < s then (if isclose s kap then .ok (1 / kap * x) else .ok (1 / kap * ((kap - 1) / (s - 1) * x + (s - kap) / (s - 1)))) else .ok 1

open Classical in
/-- `k_overlapping_linear(n, s, kap, si)` for one radius, 1439-1568. -/
noncomputable def kOverlapping (n s kap x : ℝ) : Except PyErr ℝ :=
  if n ≤ 1 ∨ s < 1 ∨ kap ≤ 0 ∨ x < 1 ∨ n < x then .error .valueError
  else if isclose s 1 ∨ isclose kap 1 then .ok 1
  else if 2 * n - s ≤ 1 then .ok (1 / kap)
  else if s ≤ n then kLinear n s kap x
  else if x < sx n s then .ok (1 / kap * ((kap - 1) / (s - 1) * x + (s - kap) / (s - 1))) else .ok (1 / kap * kapx n s kap)

end Geotecha.Smear
