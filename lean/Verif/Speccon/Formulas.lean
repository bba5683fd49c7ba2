import Mathlib.Analysis.SpecialFunctions.Trigonometric.Basic

/-!
# Closed forms in geotecha/speccon/integrals.py

Generated by tools/gen_integrals.py (syntactic translation of the right hand sides; `x**(-n)` becomes
`(x^n)⁻¹`, array elements of the current layer become variables, `a_slope` is `aS`).
-/

open Real
namespace Geotecha.Speccon


/-- Diagonal entry, one layer, scalar, `dim1sin_af_linear`, geotecha/speccon/integrals.py:1308-1322. -/
noncomputable def af_diag_s (aS a_t z_t z_b mi : ℝ) : ℝ :=
  (((aS*(mi^(2:ℕ))⁻¹*(sin (mi*z_b))^(2:ℕ)/(4:ℝ) - aS*(mi^(2:ℕ))⁻¹*(sin (mi*z_t))^(2:ℕ)/(4:ℝ) + aS*mi⁻¹*cos
    (mi*z_b)*sin (mi*z_b)*z_t/(2:ℝ) - aS*mi⁻¹*z_b*cos (mi*z_b)*sin (mi*z_b)/(2:ℝ) - aS*z_b*(sin
    (mi*z_b))^(2:ℕ)*z_t/(2:ℝ) - aS*z_b*(cos (mi*z_b))^(2:ℕ)*z_t/(2:ℝ) : ℝ) + aS*z_b^(2:ℕ)*(sin (mi*z_b))^(2:ℕ)/(4:ℝ) +
    aS*z_b^(2:ℕ)*(cos (mi*z_b))^(2:ℕ)/(4:ℝ) + aS*z_t^(2:ℕ)*(sin (mi*z_t))^(2:ℕ)/(4:ℝ) + aS*z_t^(2:ℕ)*(cos
    (mi*z_t))^(2:ℕ)/(4:ℝ) - mi⁻¹*cos (mi*z_b)*sin (mi*z_b)*a_t/(2:ℝ) : ℝ) + mi⁻¹*cos (mi*z_t)*sin (mi*z_t)*a_t/(2:ℝ) +
    z_b*(sin (mi*z_b))^(2:ℕ)*a_t/(2:ℝ) + z_b*(cos (mi*z_b))^(2:ℕ)*a_t/(2:ℝ) - z_t*(sin (mi*z_t))^(2:ℕ)*a_t/(2:ℝ) -
    z_t*(cos (mi*z_t))^(2:ℕ)*a_t/(2:ℝ) : ℝ)

/-- Off-diagonal entry, one layer, scalar, `dim1sin_af_linear`, geotecha/speccon/integrals.py:1325-1368. -/
noncomputable def af_off_s (aS a_t z_t z_b mi mj : ℝ) : ℝ :=
  ((((aS*mi^(2:ℕ)*(mi^(4:ℕ) - (2:ℝ)*mj^(2:ℕ)*mi^(2:ℕ) + mj^(4:ℕ))⁻¹*sin (mi*z_b)*sin (mj*z_b) - aS*mi^(2:ℕ)*(mi^(4:ℕ)
    - (2:ℝ)*mj^(2:ℕ)*mi^(2:ℕ) + mj^(4:ℕ))⁻¹*sin (mi*z_t)*sin (mj*z_t) + aS*mi^(3:ℕ)*(mi^(4:ℕ) -
    (2:ℝ)*mj^(2:ℕ)*mi^(2:ℕ) + mj^(4:ℕ))⁻¹*cos (mi*z_b)*sin (mj*z_b)*z_t - aS*mi^(3:ℕ)*(mi^(4:ℕ) -
    (2:ℝ)*mj^(2:ℕ)*mi^(2:ℕ) + mj^(4:ℕ))⁻¹*z_b*cos (mi*z_b)*sin (mj*z_b) + (2:ℝ)*aS*mj*mi*(mi^(4:ℕ) -
    (2:ℝ)*mj^(2:ℕ)*mi^(2:ℕ) + mj^(4:ℕ))⁻¹*cos (mi*z_b)*cos (mj*z_b) - (2:ℝ)*aS*mj*mi*(mi^(4:ℕ) -
    (2:ℝ)*mj^(2:ℕ)*mi^(2:ℕ) + mj^(4:ℕ))⁻¹*cos (mi*z_t)*cos (mj*z_t) : ℝ) - aS*mj*mi^(2:ℕ)*(mi^(4:ℕ) -
    (2:ℝ)*mj^(2:ℕ)*mi^(2:ℕ) + mj^(4:ℕ))⁻¹*cos (mj*z_b)*sin (mi*z_b)*z_t + aS*mj*mi^(2:ℕ)*(mi^(4:ℕ) -
    (2:ℝ)*mj^(2:ℕ)*mi^(2:ℕ) + mj^(4:ℕ))⁻¹*z_b*cos (mj*z_b)*sin (mi*z_b) + aS*mj^(2:ℕ)*(mi^(4:ℕ) -
    (2:ℝ)*mj^(2:ℕ)*mi^(2:ℕ) + mj^(4:ℕ))⁻¹*sin (mi*z_b)*sin (mj*z_b) - aS*mj^(2:ℕ)*(mi^(4:ℕ) - (2:ℝ)*mj^(2:ℕ)*mi^(2:ℕ)
    + mj^(4:ℕ))⁻¹*sin (mi*z_t)*sin (mj*z_t) - aS*mj^(2:ℕ)*mi*(mi^(4:ℕ) - (2:ℝ)*mj^(2:ℕ)*mi^(2:ℕ) + mj^(4:ℕ))⁻¹*cos
    (mi*z_b)*sin (mj*z_b)*z_t : ℝ) + aS*mj^(2:ℕ)*mi*(mi^(4:ℕ) - (2:ℝ)*mj^(2:ℕ)*mi^(2:ℕ) + mj^(4:ℕ))⁻¹*z_b*cos
    (mi*z_b)*sin (mj*z_b) + aS*mj^(3:ℕ)*(mi^(4:ℕ) - (2:ℝ)*mj^(2:ℕ)*mi^(2:ℕ) + mj^(4:ℕ))⁻¹*cos (mj*z_b)*sin
    (mi*z_b)*z_t - aS*mj^(3:ℕ)*(mi^(4:ℕ) - (2:ℝ)*mj^(2:ℕ)*mi^(2:ℕ) + mj^(4:ℕ))⁻¹*z_b*cos (mj*z_b)*sin (mi*z_b) -
    mi^(3:ℕ)*(mi^(4:ℕ) - (2:ℝ)*mj^(2:ℕ)*mi^(2:ℕ) + mj^(4:ℕ))⁻¹*cos (mi*z_b)*sin (mj*z_b)*a_t + mi^(3:ℕ)*(mi^(4:ℕ) -
    (2:ℝ)*mj^(2:ℕ)*mi^(2:ℕ) + mj^(4:ℕ))⁻¹*cos (mi*z_t)*sin (mj*z_t)*a_t : ℝ) + mj*mi^(2:ℕ)*(mi^(4:ℕ) -
    (2:ℝ)*mj^(2:ℕ)*mi^(2:ℕ) + mj^(4:ℕ))⁻¹*cos (mj*z_b)*sin (mi*z_b)*a_t - mj*mi^(2:ℕ)*(mi^(4:ℕ) -
    (2:ℝ)*mj^(2:ℕ)*mi^(2:ℕ) + mj^(4:ℕ))⁻¹*cos (mj*z_t)*sin (mi*z_t)*a_t + mj^(2:ℕ)*mi*(mi^(4:ℕ) -
    (2:ℝ)*mj^(2:ℕ)*mi^(2:ℕ) + mj^(4:ℕ))⁻¹*cos (mi*z_b)*sin (mj*z_b)*a_t - mj^(2:ℕ)*mi*(mi^(4:ℕ) -
    (2:ℝ)*mj^(2:ℕ)*mi^(2:ℕ) + mj^(4:ℕ))⁻¹*cos (mi*z_t)*sin (mj*z_t)*a_t - mj^(3:ℕ)*(mi^(4:ℕ) - (2:ℝ)*mj^(2:ℕ)*mi^(2:ℕ)
    + mj^(4:ℕ))⁻¹*cos (mj*z_b)*sin (mi*z_b)*a_t : ℝ) + mj^(3:ℕ)*(mi^(4:ℕ) - (2:ℝ)*mj^(2:ℕ)*mi^(2:ℕ) + mj^(4:ℕ))⁻¹*cos
    (mj*z_t)*sin (mi*z_t)*a_t

/-- Diagonal entry, one layer, vectorized, `dim1sin_af_linear`, geotecha/speccon/integrals.py:1397-1403. -/
noncomputable def af_diag_v (aS a_t z_t z_b mi : ℝ) : ℝ :=
  (((-aS*z_b*(sin (mi*z_b))^(2:ℕ)*z_t/(2:ℝ) - aS*z_b*(cos (mi*z_b))^(2:ℕ)*z_t/(2:ℝ) + aS*z_b^(2:ℕ)*(sin
    (mi*z_b))^(2:ℕ)/(4:ℝ) + aS*z_b^(2:ℕ)*(cos (mi*z_b))^(2:ℕ)/(4:ℝ) + aS*z_t^(2:ℕ)*(sin (mi*z_t))^(2:ℕ)/(4:ℝ) +
    aS*z_t^(2:ℕ)*(cos (mi*z_t))^(2:ℕ)/(4:ℝ) : ℝ) + aS*cos (mi*z_b)*sin (mi*z_b)*z_t/((2:ℝ)*mi) - aS*z_b*cos
    (mi*z_b)*sin (mi*z_b)/((2:ℝ)*mi) + aS*(sin (mi*z_b))^(2:ℕ)/((4:ℝ)*mi^(2:ℕ)) - aS*(sin
    (mi*z_t))^(2:ℕ)/((4:ℝ)*mi^(2:ℕ)) + z_b*(sin (mi*z_b))^(2:ℕ)*a_t/(2:ℝ) : ℝ) + z_b*(cos (mi*z_b))^(2:ℕ)*a_t/(2:ℝ) -
    z_t*(sin (mi*z_t))^(2:ℕ)*a_t/(2:ℝ) - z_t*(cos (mi*z_t))^(2:ℕ)*a_t/(2:ℝ) - cos (mi*z_b)*sin (mi*z_b)*a_t/((2:ℝ)*mi)
    + cos (mi*z_t)*sin (mi*z_t)*a_t/((2:ℝ)*mi) : ℝ)

/-- Off-diagonal entry, one layer, vectorized, `dim1sin_af_linear`, geotecha/speccon/integrals.py:1407-1428. -/
noncomputable def af_off_v (aS a_t z_t z_b mi mj : ℝ) : ℝ :=
  ((((aS*mi^(3:ℕ)*cos (mi*z_b)*sin (mj*z_b)*z_t/(mi^(4:ℕ) - (2:ℝ)*mi^(2:ℕ)*mj^(2:ℕ) + mj^(4:ℕ)) - aS*mi^(3:ℕ)*z_b*cos
    (mi*z_b)*sin (mj*z_b)/(mi^(4:ℕ) - (2:ℝ)*mi^(2:ℕ)*mj^(2:ℕ) + mj^(4:ℕ)) - aS*mi^(2:ℕ)*mj*cos (mj*z_b)*sin
    (mi*z_b)*z_t/(mi^(4:ℕ) - (2:ℝ)*mi^(2:ℕ)*mj^(2:ℕ) + mj^(4:ℕ)) + aS*mi^(2:ℕ)*mj*z_b*cos (mj*z_b)*sin
    (mi*z_b)/(mi^(4:ℕ) - (2:ℝ)*mi^(2:ℕ)*mj^(2:ℕ) + mj^(4:ℕ)) + aS*mi^(2:ℕ)*sin (mi*z_b)*sin (mj*z_b)/(mi^(4:ℕ) -
    (2:ℝ)*mi^(2:ℕ)*mj^(2:ℕ) + mj^(4:ℕ)) - aS*mi^(2:ℕ)*sin (mi*z_t)*sin (mj*z_t)/(mi^(4:ℕ) - (2:ℝ)*mi^(2:ℕ)*mj^(2:ℕ) +
    mj^(4:ℕ)) : ℝ) - aS*mi*mj^(2:ℕ)*cos (mi*z_b)*sin (mj*z_b)*z_t/(mi^(4:ℕ) - (2:ℝ)*mi^(2:ℕ)*mj^(2:ℕ) + mj^(4:ℕ)) +
    aS*mi*mj^(2:ℕ)*z_b*cos (mi*z_b)*sin (mj*z_b)/(mi^(4:ℕ) - (2:ℝ)*mi^(2:ℕ)*mj^(2:ℕ) + mj^(4:ℕ)) + (2:ℝ)*aS*mi*mj*cos
    (mi*z_b)*cos (mj*z_b)/(mi^(4:ℕ) - (2:ℝ)*mi^(2:ℕ)*mj^(2:ℕ) + mj^(4:ℕ)) - (2:ℝ)*aS*mi*mj*cos (mi*z_t)*cos
    (mj*z_t)/(mi^(4:ℕ) - (2:ℝ)*mi^(2:ℕ)*mj^(2:ℕ) + mj^(4:ℕ)) + aS*mj^(3:ℕ)*cos (mj*z_b)*sin (mi*z_b)*z_t/(mi^(4:ℕ) -
    (2:ℝ)*mi^(2:ℕ)*mj^(2:ℕ) + mj^(4:ℕ)) : ℝ) - aS*mj^(3:ℕ)*z_b*cos (mj*z_b)*sin (mi*z_b)/(mi^(4:ℕ) -
    (2:ℝ)*mi^(2:ℕ)*mj^(2:ℕ) + mj^(4:ℕ)) + aS*mj^(2:ℕ)*sin (mi*z_b)*sin (mj*z_b)/(mi^(4:ℕ) - (2:ℝ)*mi^(2:ℕ)*mj^(2:ℕ) +
    mj^(4:ℕ)) - aS*mj^(2:ℕ)*sin (mi*z_t)*sin (mj*z_t)/(mi^(4:ℕ) - (2:ℝ)*mi^(2:ℕ)*mj^(2:ℕ) + mj^(4:ℕ)) - mi^(3:ℕ)*cos
    (mi*z_b)*sin (mj*z_b)*a_t/(mi^(4:ℕ) - (2:ℝ)*mi^(2:ℕ)*mj^(2:ℕ) + mj^(4:ℕ)) + mi^(3:ℕ)*cos (mi*z_t)*sin
    (mj*z_t)*a_t/(mi^(4:ℕ) - (2:ℝ)*mi^(2:ℕ)*mj^(2:ℕ) + mj^(4:ℕ)) : ℝ) + mi^(2:ℕ)*mj*cos (mj*z_b)*sin
    (mi*z_b)*a_t/(mi^(4:ℕ) - (2:ℝ)*mi^(2:ℕ)*mj^(2:ℕ) + mj^(4:ℕ)) - mi^(2:ℕ)*mj*cos (mj*z_t)*sin (mi*z_t)*a_t/(mi^(4:ℕ)
    - (2:ℝ)*mi^(2:ℕ)*mj^(2:ℕ) + mj^(4:ℕ)) + mi*mj^(2:ℕ)*cos (mi*z_b)*sin (mj*z_b)*a_t/(mi^(4:ℕ) -
    (2:ℝ)*mi^(2:ℕ)*mj^(2:ℕ) + mj^(4:ℕ)) - mi*mj^(2:ℕ)*cos (mi*z_t)*sin (mj*z_t)*a_t/(mi^(4:ℕ) -
    (2:ℝ)*mi^(2:ℕ)*mj^(2:ℕ) + mj^(4:ℕ)) - mj^(3:ℕ)*cos (mj*z_b)*sin (mi*z_b)*a_t/(mi^(4:ℕ) - (2:ℝ)*mi^(2:ℕ)*mj^(2:ℕ) +
    mj^(4:ℕ)) : ℝ) + mj^(3:ℕ)*cos (mj*z_t)*sin (mi*z_t)*a_t/(mi^(4:ℕ) - (2:ℝ)*mi^(2:ℕ)*mj^(2:ℕ) + mj^(4:ℕ))

/-- Diagonal entry, one layer, scalar, `dim1sin_abf_linear`, geotecha/speccon/integrals.py:1523-1570. -/
noncomputable def abf_diag_s (aS bS a_t b_t z_t z_b mi : ℝ) : ℝ :=
  ((((((((aS*bS*(mi^(3:ℕ))⁻¹*cos (mi*z_b)*sin (mi*z_b)/(4:ℝ) - aS*bS*(mi^(3:ℕ))⁻¹*cos (mi*z_t)*sin (mi*z_t)/(4:ℝ) -
    aS*bS*(mi^(2:ℕ))⁻¹*(sin (mi*z_b))^(2:ℕ)*z_t/(2:ℝ) + aS*bS*(mi^(2:ℕ))⁻¹*z_b*(sin (mi*z_b))^(2:ℕ)/(4:ℝ) -
    aS*bS*(mi^(2:ℕ))⁻¹*z_b*(cos (mi*z_b))^(2:ℕ)/(4:ℝ) + aS*bS*(mi^(2:ℕ))⁻¹*z_t*(sin (mi*z_t))^(2:ℕ)/(4:ℝ) : ℝ) +
    aS*bS*(mi^(2:ℕ))⁻¹*z_t*(cos (mi*z_t))^(2:ℕ)/(4:ℝ) - aS*bS*mi⁻¹*cos (mi*z_b)*sin (mi*z_b)*z_t^(2:ℕ)/(2:ℝ) +
    aS*bS*mi⁻¹*z_b*cos (mi*z_b)*sin (mi*z_b)*z_t - aS*bS*mi⁻¹*z_b^(2:ℕ)*cos (mi*z_b)*sin (mi*z_b)/(2:ℝ) +
    aS*bS*z_b*(sin (mi*z_b))^(2:ℕ)*z_t^(2:ℕ)/(2:ℝ) : ℝ) + aS*bS*z_b*(cos (mi*z_b))^(2:ℕ)*z_t^(2:ℕ)/(2:ℝ) -
    aS*bS*z_b^(2:ℕ)*(sin (mi*z_b))^(2:ℕ)*z_t/(2:ℝ) - aS*bS*z_b^(2:ℕ)*(cos (mi*z_b))^(2:ℕ)*z_t/(2:ℝ) +
    aS*bS*z_b^(3:ℕ)*(sin (mi*z_b))^(2:ℕ)/(6:ℝ) + aS*bS*z_b^(3:ℕ)*(cos (mi*z_b))^(2:ℕ)/(6:ℝ) : ℝ) -
    aS*bS*z_t^(3:ℕ)*(sin (mi*z_t))^(2:ℕ)/(6:ℝ) - aS*bS*z_t^(3:ℕ)*(cos (mi*z_t))^(2:ℕ)/(6:ℝ) + aS*(mi^(2:ℕ))⁻¹*(sin
    (mi*z_b))^(2:ℕ)*b_t/(4:ℝ) - aS*(mi^(2:ℕ))⁻¹*(sin (mi*z_t))^(2:ℕ)*b_t/(4:ℝ) + aS*mi⁻¹*cos (mi*z_b)*sin
    (mi*z_b)*z_t*b_t/(2:ℝ) : ℝ) - aS*mi⁻¹*z_b*cos (mi*z_b)*sin (mi*z_b)*b_t/(2:ℝ) - aS*z_b*(sin
    (mi*z_b))^(2:ℕ)*z_t*b_t/(2:ℝ) - aS*z_b*(cos (mi*z_b))^(2:ℕ)*z_t*b_t/(2:ℝ) + aS*z_b^(2:ℕ)*(sin
    (mi*z_b))^(2:ℕ)*b_t/(4:ℝ) + aS*z_b^(2:ℕ)*(cos (mi*z_b))^(2:ℕ)*b_t/(4:ℝ) : ℝ) + aS*z_t^(2:ℕ)*(sin
    (mi*z_t))^(2:ℕ)*b_t/(4:ℝ) + aS*z_t^(2:ℕ)*(cos (mi*z_t))^(2:ℕ)*b_t/(4:ℝ) + bS*(mi^(2:ℕ))⁻¹*(sin
    (mi*z_b))^(2:ℕ)*a_t/(4:ℝ) - bS*(mi^(2:ℕ))⁻¹*(sin (mi*z_t))^(2:ℕ)*a_t/(4:ℝ) + bS*mi⁻¹*cos (mi*z_b)*sin
    (mi*z_b)*z_t*a_t/(2:ℝ) : ℝ) - bS*mi⁻¹*z_b*cos (mi*z_b)*sin (mi*z_b)*a_t/(2:ℝ) - bS*z_b*(sin
    (mi*z_b))^(2:ℕ)*z_t*a_t/(2:ℝ) - bS*z_b*(cos (mi*z_b))^(2:ℕ)*z_t*a_t/(2:ℝ) + bS*z_b^(2:ℕ)*(sin
    (mi*z_b))^(2:ℕ)*a_t/(4:ℝ) + bS*z_b^(2:ℕ)*(cos (mi*z_b))^(2:ℕ)*a_t/(4:ℝ) : ℝ) + bS*z_t^(2:ℕ)*(sin
    (mi*z_t))^(2:ℕ)*a_t/(4:ℝ) + bS*z_t^(2:ℕ)*(cos (mi*z_t))^(2:ℕ)*a_t/(4:ℝ) - mi⁻¹*cos (mi*z_b)*sin
    (mi*z_b)*b_t*a_t/(2:ℝ) + mi⁻¹*cos (mi*z_t)*sin (mi*z_t)*b_t*a_t/(2:ℝ) + z_b*(sin (mi*z_b))^(2:ℕ)*b_t*a_t/(2:ℝ) :
    ℝ) + z_b*(cos (mi*z_b))^(2:ℕ)*b_t*a_t/(2:ℝ) - z_t*(sin (mi*z_t))^(2:ℕ)*b_t*a_t/(2:ℝ) - z_t*(cos
    (mi*z_t))^(2:ℕ)*b_t*a_t/(2:ℝ)

/-- Off-diagonal entry, one layer, scalar, `dim1sin_abf_linear`, geotecha/speccon/integrals.py:1573-1760. -/
noncomputable def abf_off_s (aS bS a_t b_t z_t z_b mi mj : ℝ) : ℝ :=
  ((((((((((((((((((2:ℝ)*aS*bS*mi^(3:ℕ)*(mi^(6:ℕ) - (3:ℝ)*mj^(2:ℕ)*mi^(4:ℕ) + (3:ℝ)*mj^(4:ℕ)*mi^(2:ℕ) -
    mj^(6:ℕ))⁻¹*cos (mi*z_b)*sin (mj*z_b) - (2:ℝ)*aS*bS*mi^(3:ℕ)*(mi^(6:ℕ) - (3:ℝ)*mj^(2:ℕ)*mi^(4:ℕ) +
    (3:ℝ)*mj^(4:ℕ)*mi^(2:ℕ) - mj^(6:ℕ))⁻¹*cos (mi*z_t)*sin (mj*z_t) - (2:ℝ)*aS*bS*mi^(4:ℕ)*(mi^(6:ℕ) -
    (3:ℝ)*mj^(2:ℕ)*mi^(4:ℕ) + (3:ℝ)*mj^(4:ℕ)*mi^(2:ℕ) - mj^(6:ℕ))⁻¹*sin (mi*z_b)*sin (mj*z_b)*z_t +
    (2:ℝ)*aS*bS*mi^(4:ℕ)*(mi^(6:ℕ) - (3:ℝ)*mj^(2:ℕ)*mi^(4:ℕ) + (3:ℝ)*mj^(4:ℕ)*mi^(2:ℕ) - mj^(6:ℕ))⁻¹*z_b*sin
    (mi*z_b)*sin (mj*z_b) - aS*bS*mi^(5:ℕ)*(mi^(6:ℕ) - (3:ℝ)*mj^(2:ℕ)*mi^(4:ℕ) + (3:ℝ)*mj^(4:ℕ)*mi^(2:ℕ) -
    mj^(6:ℕ))⁻¹*cos (mi*z_b)*sin (mj*z_b)*z_t^(2:ℕ) + (2:ℝ)*aS*bS*mi^(5:ℕ)*(mi^(6:ℕ) - (3:ℝ)*mj^(2:ℕ)*mi^(4:ℕ) +
    (3:ℝ)*mj^(4:ℕ)*mi^(2:ℕ) - mj^(6:ℕ))⁻¹*z_b*cos (mi*z_b)*sin (mj*z_b)*z_t : ℝ) - aS*bS*mi^(5:ℕ)*(mi^(6:ℕ) -
    (3:ℝ)*mj^(2:ℕ)*mi^(4:ℕ) + (3:ℝ)*mj^(4:ℕ)*mi^(2:ℕ) - mj^(6:ℕ))⁻¹*z_b^(2:ℕ)*cos (mi*z_b)*sin (mj*z_b) -
    (6:ℝ)*aS*bS*mj*mi^(2:ℕ)*(mi^(6:ℕ) - (3:ℝ)*mj^(2:ℕ)*mi^(4:ℕ) + (3:ℝ)*mj^(4:ℕ)*mi^(2:ℕ) - mj^(6:ℕ))⁻¹*cos
    (mj*z_b)*sin (mi*z_b) + (6:ℝ)*aS*bS*mj*mi^(2:ℕ)*(mi^(6:ℕ) - (3:ℝ)*mj^(2:ℕ)*mi^(4:ℕ) + (3:ℝ)*mj^(4:ℕ)*mi^(2:ℕ) -
    mj^(6:ℕ))⁻¹*cos (mj*z_t)*sin (mi*z_t) - (4:ℝ)*aS*bS*mj*mi^(3:ℕ)*(mi^(6:ℕ) - (3:ℝ)*mj^(2:ℕ)*mi^(4:ℕ) +
    (3:ℝ)*mj^(4:ℕ)*mi^(2:ℕ) - mj^(6:ℕ))⁻¹*cos (mi*z_b)*cos (mj*z_b)*z_t + (4:ℝ)*aS*bS*mj*mi^(3:ℕ)*(mi^(6:ℕ) -
    (3:ℝ)*mj^(2:ℕ)*mi^(4:ℕ) + (3:ℝ)*mj^(4:ℕ)*mi^(2:ℕ) - mj^(6:ℕ))⁻¹*z_b*cos (mi*z_b)*cos (mj*z_b) : ℝ) +
    aS*bS*mj*mi^(4:ℕ)*(mi^(6:ℕ) - (3:ℝ)*mj^(2:ℕ)*mi^(4:ℕ) + (3:ℝ)*mj^(4:ℕ)*mi^(2:ℕ) - mj^(6:ℕ))⁻¹*cos (mj*z_b)*sin
    (mi*z_b)*z_t^(2:ℕ) - (2:ℝ)*aS*bS*mj*mi^(4:ℕ)*(mi^(6:ℕ) - (3:ℝ)*mj^(2:ℕ)*mi^(4:ℕ) + (3:ℝ)*mj^(4:ℕ)*mi^(2:ℕ) -
    mj^(6:ℕ))⁻¹*z_b*cos (mj*z_b)*sin (mi*z_b)*z_t + aS*bS*mj*mi^(4:ℕ)*(mi^(6:ℕ) - (3:ℝ)*mj^(2:ℕ)*mi^(4:ℕ) +
    (3:ℝ)*mj^(4:ℕ)*mi^(2:ℕ) - mj^(6:ℕ))⁻¹*z_b^(2:ℕ)*cos (mj*z_b)*sin (mi*z_b) + (6:ℝ)*aS*bS*mj^(2:ℕ)*mi*(mi^(6:ℕ) -
    (3:ℝ)*mj^(2:ℕ)*mi^(4:ℕ) + (3:ℝ)*mj^(4:ℕ)*mi^(2:ℕ) - mj^(6:ℕ))⁻¹*cos (mi*z_b)*sin (mj*z_b) -
    (6:ℝ)*aS*bS*mj^(2:ℕ)*mi*(mi^(6:ℕ) - (3:ℝ)*mj^(2:ℕ)*mi^(4:ℕ) + (3:ℝ)*mj^(4:ℕ)*mi^(2:ℕ) - mj^(6:ℕ))⁻¹*cos
    (mi*z_t)*sin (mj*z_t) : ℝ) + (2:ℝ)*aS*bS*mj^(2:ℕ)*mi^(3:ℕ)*(mi^(6:ℕ) - (3:ℝ)*mj^(2:ℕ)*mi^(4:ℕ) +
    (3:ℝ)*mj^(4:ℕ)*mi^(2:ℕ) - mj^(6:ℕ))⁻¹*cos (mi*z_b)*sin (mj*z_b)*z_t^(2:ℕ) -
    (4:ℝ)*aS*bS*mj^(2:ℕ)*mi^(3:ℕ)*(mi^(6:ℕ) - (3:ℝ)*mj^(2:ℕ)*mi^(4:ℕ) + (3:ℝ)*mj^(4:ℕ)*mi^(2:ℕ) - mj^(6:ℕ))⁻¹*z_b*cos
    (mi*z_b)*sin (mj*z_b)*z_t + (2:ℝ)*aS*bS*mj^(2:ℕ)*mi^(3:ℕ)*(mi^(6:ℕ) - (3:ℝ)*mj^(2:ℕ)*mi^(4:ℕ) +
    (3:ℝ)*mj^(4:ℕ)*mi^(2:ℕ) - mj^(6:ℕ))⁻¹*z_b^(2:ℕ)*cos (mi*z_b)*sin (mj*z_b) - (2:ℝ)*aS*bS*mj^(3:ℕ)*(mi^(6:ℕ) -
    (3:ℝ)*mj^(2:ℕ)*mi^(4:ℕ) + (3:ℝ)*mj^(4:ℕ)*mi^(2:ℕ) - mj^(6:ℕ))⁻¹*cos (mj*z_b)*sin (mi*z_b) +
    (2:ℝ)*aS*bS*mj^(3:ℕ)*(mi^(6:ℕ) - (3:ℝ)*mj^(2:ℕ)*mi^(4:ℕ) + (3:ℝ)*mj^(4:ℕ)*mi^(2:ℕ) - mj^(6:ℕ))⁻¹*cos (mj*z_t)*sin
    (mi*z_t) : ℝ) + (4:ℝ)*aS*bS*mj^(3:ℕ)*mi*(mi^(6:ℕ) - (3:ℝ)*mj^(2:ℕ)*mi^(4:ℕ) + (3:ℝ)*mj^(4:ℕ)*mi^(2:ℕ) -
    mj^(6:ℕ))⁻¹*cos (mi*z_b)*cos (mj*z_b)*z_t - (4:ℝ)*aS*bS*mj^(3:ℕ)*mi*(mi^(6:ℕ) - (3:ℝ)*mj^(2:ℕ)*mi^(4:ℕ) +
    (3:ℝ)*mj^(4:ℕ)*mi^(2:ℕ) - mj^(6:ℕ))⁻¹*z_b*cos (mi*z_b)*cos (mj*z_b) - (2:ℝ)*aS*bS*mj^(3:ℕ)*mi^(2:ℕ)*(mi^(6:ℕ) -
    (3:ℝ)*mj^(2:ℕ)*mi^(4:ℕ) + (3:ℝ)*mj^(4:ℕ)*mi^(2:ℕ) - mj^(6:ℕ))⁻¹*cos (mj*z_b)*sin (mi*z_b)*z_t^(2:ℕ) +
    (4:ℝ)*aS*bS*mj^(3:ℕ)*mi^(2:ℕ)*(mi^(6:ℕ) - (3:ℝ)*mj^(2:ℕ)*mi^(4:ℕ) + (3:ℝ)*mj^(4:ℕ)*mi^(2:ℕ) - mj^(6:ℕ))⁻¹*z_b*cos
    (mj*z_b)*sin (mi*z_b)*z_t - (2:ℝ)*aS*bS*mj^(3:ℕ)*mi^(2:ℕ)*(mi^(6:ℕ) - (3:ℝ)*mj^(2:ℕ)*mi^(4:ℕ) +
    (3:ℝ)*mj^(4:ℕ)*mi^(2:ℕ) - mj^(6:ℕ))⁻¹*z_b^(2:ℕ)*cos (mj*z_b)*sin (mi*z_b) : ℝ) + (2:ℝ)*aS*bS*mj^(4:ℕ)*(mi^(6:ℕ) -
    (3:ℝ)*mj^(2:ℕ)*mi^(4:ℕ) + (3:ℝ)*mj^(4:ℕ)*mi^(2:ℕ) - mj^(6:ℕ))⁻¹*sin (mi*z_b)*sin (mj*z_b)*z_t -
    (2:ℝ)*aS*bS*mj^(4:ℕ)*(mi^(6:ℕ) - (3:ℝ)*mj^(2:ℕ)*mi^(4:ℕ) + (3:ℝ)*mj^(4:ℕ)*mi^(2:ℕ) - mj^(6:ℕ))⁻¹*z_b*sin
    (mi*z_b)*sin (mj*z_b) - aS*bS*mj^(4:ℕ)*mi*(mi^(6:ℕ) - (3:ℝ)*mj^(2:ℕ)*mi^(4:ℕ) + (3:ℝ)*mj^(4:ℕ)*mi^(2:ℕ) -
    mj^(6:ℕ))⁻¹*cos (mi*z_b)*sin (mj*z_b)*z_t^(2:ℕ) + (2:ℝ)*aS*bS*mj^(4:ℕ)*mi*(mi^(6:ℕ) - (3:ℝ)*mj^(2:ℕ)*mi^(4:ℕ) +
    (3:ℝ)*mj^(4:ℕ)*mi^(2:ℕ) - mj^(6:ℕ))⁻¹*z_b*cos (mi*z_b)*sin (mj*z_b)*z_t - aS*bS*mj^(4:ℕ)*mi*(mi^(6:ℕ) -
    (3:ℝ)*mj^(2:ℕ)*mi^(4:ℕ) + (3:ℝ)*mj^(4:ℕ)*mi^(2:ℕ) - mj^(6:ℕ))⁻¹*z_b^(2:ℕ)*cos (mi*z_b)*sin (mj*z_b) : ℝ) +
    aS*bS*mj^(5:ℕ)*(mi^(6:ℕ) - (3:ℝ)*mj^(2:ℕ)*mi^(4:ℕ) + (3:ℝ)*mj^(4:ℕ)*mi^(2:ℕ) - mj^(6:ℕ))⁻¹*cos (mj*z_b)*sin
    (mi*z_b)*z_t^(2:ℕ) - (2:ℝ)*aS*bS*mj^(5:ℕ)*(mi^(6:ℕ) - (3:ℝ)*mj^(2:ℕ)*mi^(4:ℕ) + (3:ℝ)*mj^(4:ℕ)*mi^(2:ℕ) -
    mj^(6:ℕ))⁻¹*z_b*cos (mj*z_b)*sin (mi*z_b)*z_t + aS*bS*mj^(5:ℕ)*(mi^(6:ℕ) - (3:ℝ)*mj^(2:ℕ)*mi^(4:ℕ) +
    (3:ℝ)*mj^(4:ℕ)*mi^(2:ℕ) - mj^(6:ℕ))⁻¹*z_b^(2:ℕ)*cos (mj*z_b)*sin (mi*z_b) + aS*mi^(4:ℕ)*(mi^(6:ℕ) -
    (3:ℝ)*mj^(2:ℕ)*mi^(4:ℕ) + (3:ℝ)*mj^(4:ℕ)*mi^(2:ℕ) - mj^(6:ℕ))⁻¹*sin (mi*z_b)*sin (mj*z_b)*b_t -
    aS*mi^(4:ℕ)*(mi^(6:ℕ) - (3:ℝ)*mj^(2:ℕ)*mi^(4:ℕ) + (3:ℝ)*mj^(4:ℕ)*mi^(2:ℕ) - mj^(6:ℕ))⁻¹*sin (mi*z_t)*sin
    (mj*z_t)*b_t : ℝ) + aS*mi^(5:ℕ)*(mi^(6:ℕ) - (3:ℝ)*mj^(2:ℕ)*mi^(4:ℕ) + (3:ℝ)*mj^(4:ℕ)*mi^(2:ℕ) - mj^(6:ℕ))⁻¹*cos
    (mi*z_b)*sin (mj*z_b)*z_t*b_t - aS*mi^(5:ℕ)*(mi^(6:ℕ) - (3:ℝ)*mj^(2:ℕ)*mi^(4:ℕ) + (3:ℝ)*mj^(4:ℕ)*mi^(2:ℕ) -
    mj^(6:ℕ))⁻¹*z_b*cos (mi*z_b)*sin (mj*z_b)*b_t + (2:ℝ)*aS*mj*mi^(3:ℕ)*(mi^(6:ℕ) - (3:ℝ)*mj^(2:ℕ)*mi^(4:ℕ) +
    (3:ℝ)*mj^(4:ℕ)*mi^(2:ℕ) - mj^(6:ℕ))⁻¹*cos (mi*z_b)*cos (mj*z_b)*b_t - (2:ℝ)*aS*mj*mi^(3:ℕ)*(mi^(6:ℕ) -
    (3:ℝ)*mj^(2:ℕ)*mi^(4:ℕ) + (3:ℝ)*mj^(4:ℕ)*mi^(2:ℕ) - mj^(6:ℕ))⁻¹*cos (mi*z_t)*cos (mj*z_t)*b_t -
    aS*mj*mi^(4:ℕ)*(mi^(6:ℕ) - (3:ℝ)*mj^(2:ℕ)*mi^(4:ℕ) + (3:ℝ)*mj^(4:ℕ)*mi^(2:ℕ) - mj^(6:ℕ))⁻¹*cos (mj*z_b)*sin
    (mi*z_b)*z_t*b_t : ℝ) + aS*mj*mi^(4:ℕ)*(mi^(6:ℕ) - (3:ℝ)*mj^(2:ℕ)*mi^(4:ℕ) + (3:ℝ)*mj^(4:ℕ)*mi^(2:ℕ) -
    mj^(6:ℕ))⁻¹*z_b*cos (mj*z_b)*sin (mi*z_b)*b_t - (2:ℝ)*aS*mj^(2:ℕ)*mi^(3:ℕ)*(mi^(6:ℕ) - (3:ℝ)*mj^(2:ℕ)*mi^(4:ℕ) +
    (3:ℝ)*mj^(4:ℕ)*mi^(2:ℕ) - mj^(6:ℕ))⁻¹*cos (mi*z_b)*sin (mj*z_b)*z_t*b_t + (2:ℝ)*aS*mj^(2:ℕ)*mi^(3:ℕ)*(mi^(6:ℕ) -
    (3:ℝ)*mj^(2:ℕ)*mi^(4:ℕ) + (3:ℝ)*mj^(4:ℕ)*mi^(2:ℕ) - mj^(6:ℕ))⁻¹*z_b*cos (mi*z_b)*sin (mj*z_b)*b_t -
    (2:ℝ)*aS*mj^(3:ℕ)*mi*(mi^(6:ℕ) - (3:ℝ)*mj^(2:ℕ)*mi^(4:ℕ) + (3:ℝ)*mj^(4:ℕ)*mi^(2:ℕ) - mj^(6:ℕ))⁻¹*cos (mi*z_b)*cos
    (mj*z_b)*b_t + (2:ℝ)*aS*mj^(3:ℕ)*mi*(mi^(6:ℕ) - (3:ℝ)*mj^(2:ℕ)*mi^(4:ℕ) + (3:ℝ)*mj^(4:ℕ)*mi^(2:ℕ) -
    mj^(6:ℕ))⁻¹*cos (mi*z_t)*cos (mj*z_t)*b_t : ℝ) + (2:ℝ)*aS*mj^(3:ℕ)*mi^(2:ℕ)*(mi^(6:ℕ) - (3:ℝ)*mj^(2:ℕ)*mi^(4:ℕ) +
    (3:ℝ)*mj^(4:ℕ)*mi^(2:ℕ) - mj^(6:ℕ))⁻¹*cos (mj*z_b)*sin (mi*z_b)*z_t*b_t - (2:ℝ)*aS*mj^(3:ℕ)*mi^(2:ℕ)*(mi^(6:ℕ) -
    (3:ℝ)*mj^(2:ℕ)*mi^(4:ℕ) + (3:ℝ)*mj^(4:ℕ)*mi^(2:ℕ) - mj^(6:ℕ))⁻¹*z_b*cos (mj*z_b)*sin (mi*z_b)*b_t -
    aS*mj^(4:ℕ)*(mi^(6:ℕ) - (3:ℝ)*mj^(2:ℕ)*mi^(4:ℕ) + (3:ℝ)*mj^(4:ℕ)*mi^(2:ℕ) - mj^(6:ℕ))⁻¹*sin (mi*z_b)*sin
    (mj*z_b)*b_t + aS*mj^(4:ℕ)*(mi^(6:ℕ) - (3:ℝ)*mj^(2:ℕ)*mi^(4:ℕ) + (3:ℝ)*mj^(4:ℕ)*mi^(2:ℕ) - mj^(6:ℕ))⁻¹*sin
    (mi*z_t)*sin (mj*z_t)*b_t + aS*mj^(4:ℕ)*mi*(mi^(6:ℕ) - (3:ℝ)*mj^(2:ℕ)*mi^(4:ℕ) + (3:ℝ)*mj^(4:ℕ)*mi^(2:ℕ) -
    mj^(6:ℕ))⁻¹*cos (mi*z_b)*sin (mj*z_b)*z_t*b_t : ℝ) - aS*mj^(4:ℕ)*mi*(mi^(6:ℕ) - (3:ℝ)*mj^(2:ℕ)*mi^(4:ℕ) +
    (3:ℝ)*mj^(4:ℕ)*mi^(2:ℕ) - mj^(6:ℕ))⁻¹*z_b*cos (mi*z_b)*sin (mj*z_b)*b_t - aS*mj^(5:ℕ)*(mi^(6:ℕ) -
    (3:ℝ)*mj^(2:ℕ)*mi^(4:ℕ) + (3:ℝ)*mj^(4:ℕ)*mi^(2:ℕ) - mj^(6:ℕ))⁻¹*cos (mj*z_b)*sin (mi*z_b)*z_t*b_t +
    aS*mj^(5:ℕ)*(mi^(6:ℕ) - (3:ℝ)*mj^(2:ℕ)*mi^(4:ℕ) + (3:ℝ)*mj^(4:ℕ)*mi^(2:ℕ) - mj^(6:ℕ))⁻¹*z_b*cos (mj*z_b)*sin
    (mi*z_b)*b_t + bS*mi^(4:ℕ)*(mi^(6:ℕ) - (3:ℝ)*mj^(2:ℕ)*mi^(4:ℕ) + (3:ℝ)*mj^(4:ℕ)*mi^(2:ℕ) - mj^(6:ℕ))⁻¹*sin
    (mi*z_b)*sin (mj*z_b)*a_t - bS*mi^(4:ℕ)*(mi^(6:ℕ) - (3:ℝ)*mj^(2:ℕ)*mi^(4:ℕ) + (3:ℝ)*mj^(4:ℕ)*mi^(2:ℕ) -
    mj^(6:ℕ))⁻¹*sin (mi*z_t)*sin (mj*z_t)*a_t : ℝ) + bS*mi^(5:ℕ)*(mi^(6:ℕ) - (3:ℝ)*mj^(2:ℕ)*mi^(4:ℕ) +
    (3:ℝ)*mj^(4:ℕ)*mi^(2:ℕ) - mj^(6:ℕ))⁻¹*cos (mi*z_b)*sin (mj*z_b)*z_t*a_t - bS*mi^(5:ℕ)*(mi^(6:ℕ) -
    (3:ℝ)*mj^(2:ℕ)*mi^(4:ℕ) + (3:ℝ)*mj^(4:ℕ)*mi^(2:ℕ) - mj^(6:ℕ))⁻¹*z_b*cos (mi*z_b)*sin (mj*z_b)*a_t +
    (2:ℝ)*bS*mj*mi^(3:ℕ)*(mi^(6:ℕ) - (3:ℝ)*mj^(2:ℕ)*mi^(4:ℕ) + (3:ℝ)*mj^(4:ℕ)*mi^(2:ℕ) - mj^(6:ℕ))⁻¹*cos (mi*z_b)*cos
    (mj*z_b)*a_t - (2:ℝ)*bS*mj*mi^(3:ℕ)*(mi^(6:ℕ) - (3:ℝ)*mj^(2:ℕ)*mi^(4:ℕ) + (3:ℝ)*mj^(4:ℕ)*mi^(2:ℕ) -
    mj^(6:ℕ))⁻¹*cos (mi*z_t)*cos (mj*z_t)*a_t - bS*mj*mi^(4:ℕ)*(mi^(6:ℕ) - (3:ℝ)*mj^(2:ℕ)*mi^(4:ℕ) +
    (3:ℝ)*mj^(4:ℕ)*mi^(2:ℕ) - mj^(6:ℕ))⁻¹*cos (mj*z_b)*sin (mi*z_b)*z_t*a_t : ℝ) + bS*mj*mi^(4:ℕ)*(mi^(6:ℕ) -
    (3:ℝ)*mj^(2:ℕ)*mi^(4:ℕ) + (3:ℝ)*mj^(4:ℕ)*mi^(2:ℕ) - mj^(6:ℕ))⁻¹*z_b*cos (mj*z_b)*sin (mi*z_b)*a_t -
    (2:ℝ)*bS*mj^(2:ℕ)*mi^(3:ℕ)*(mi^(6:ℕ) - (3:ℝ)*mj^(2:ℕ)*mi^(4:ℕ) + (3:ℝ)*mj^(4:ℕ)*mi^(2:ℕ) - mj^(6:ℕ))⁻¹*cos
    (mi*z_b)*sin (mj*z_b)*z_t*a_t + (2:ℝ)*bS*mj^(2:ℕ)*mi^(3:ℕ)*(mi^(6:ℕ) - (3:ℝ)*mj^(2:ℕ)*mi^(4:ℕ) +
    (3:ℝ)*mj^(4:ℕ)*mi^(2:ℕ) - mj^(6:ℕ))⁻¹*z_b*cos (mi*z_b)*sin (mj*z_b)*a_t - (2:ℝ)*bS*mj^(3:ℕ)*mi*(mi^(6:ℕ) -
    (3:ℝ)*mj^(2:ℕ)*mi^(4:ℕ) + (3:ℝ)*mj^(4:ℕ)*mi^(2:ℕ) - mj^(6:ℕ))⁻¹*cos (mi*z_b)*cos (mj*z_b)*a_t +
    (2:ℝ)*bS*mj^(3:ℕ)*mi*(mi^(6:ℕ) - (3:ℝ)*mj^(2:ℕ)*mi^(4:ℕ) + (3:ℝ)*mj^(4:ℕ)*mi^(2:ℕ) - mj^(6:ℕ))⁻¹*cos (mi*z_t)*cos
    (mj*z_t)*a_t : ℝ) + (2:ℝ)*bS*mj^(3:ℕ)*mi^(2:ℕ)*(mi^(6:ℕ) - (3:ℝ)*mj^(2:ℕ)*mi^(4:ℕ) + (3:ℝ)*mj^(4:ℕ)*mi^(2:ℕ) -
    mj^(6:ℕ))⁻¹*cos (mj*z_b)*sin (mi*z_b)*z_t*a_t - (2:ℝ)*bS*mj^(3:ℕ)*mi^(2:ℕ)*(mi^(6:ℕ) - (3:ℝ)*mj^(2:ℕ)*mi^(4:ℕ) +
    (3:ℝ)*mj^(4:ℕ)*mi^(2:ℕ) - mj^(6:ℕ))⁻¹*z_b*cos (mj*z_b)*sin (mi*z_b)*a_t - bS*mj^(4:ℕ)*(mi^(6:ℕ) -
    (3:ℝ)*mj^(2:ℕ)*mi^(4:ℕ) + (3:ℝ)*mj^(4:ℕ)*mi^(2:ℕ) - mj^(6:ℕ))⁻¹*sin (mi*z_b)*sin (mj*z_b)*a_t +
    bS*mj^(4:ℕ)*(mi^(6:ℕ) - (3:ℝ)*mj^(2:ℕ)*mi^(4:ℕ) + (3:ℝ)*mj^(4:ℕ)*mi^(2:ℕ) - mj^(6:ℕ))⁻¹*sin (mi*z_t)*sin
    (mj*z_t)*a_t + bS*mj^(4:ℕ)*mi*(mi^(6:ℕ) - (3:ℝ)*mj^(2:ℕ)*mi^(4:ℕ) + (3:ℝ)*mj^(4:ℕ)*mi^(2:ℕ) - mj^(6:ℕ))⁻¹*cos
    (mi*z_b)*sin (mj*z_b)*z_t*a_t : ℝ) - bS*mj^(4:ℕ)*mi*(mi^(6:ℕ) - (3:ℝ)*mj^(2:ℕ)*mi^(4:ℕ) + (3:ℝ)*mj^(4:ℕ)*mi^(2:ℕ)
    - mj^(6:ℕ))⁻¹*z_b*cos (mi*z_b)*sin (mj*z_b)*a_t - bS*mj^(5:ℕ)*(mi^(6:ℕ) - (3:ℝ)*mj^(2:ℕ)*mi^(4:ℕ) +
    (3:ℝ)*mj^(4:ℕ)*mi^(2:ℕ) - mj^(6:ℕ))⁻¹*cos (mj*z_b)*sin (mi*z_b)*z_t*a_t + bS*mj^(5:ℕ)*(mi^(6:ℕ) -
    (3:ℝ)*mj^(2:ℕ)*mi^(4:ℕ) + (3:ℝ)*mj^(4:ℕ)*mi^(2:ℕ) - mj^(6:ℕ))⁻¹*z_b*cos (mj*z_b)*sin (mi*z_b)*a_t -
    mi^(5:ℕ)*(mi^(6:ℕ) - (3:ℝ)*mj^(2:ℕ)*mi^(4:ℕ) + (3:ℝ)*mj^(4:ℕ)*mi^(2:ℕ) - mj^(6:ℕ))⁻¹*cos (mi*z_b)*sin
    (mj*z_b)*b_t*a_t + mi^(5:ℕ)*(mi^(6:ℕ) - (3:ℝ)*mj^(2:ℕ)*mi^(4:ℕ) + (3:ℝ)*mj^(4:ℕ)*mi^(2:ℕ) - mj^(6:ℕ))⁻¹*cos
    (mi*z_t)*sin (mj*z_t)*b_t*a_t : ℝ) + mj*mi^(4:ℕ)*(mi^(6:ℕ) - (3:ℝ)*mj^(2:ℕ)*mi^(4:ℕ) + (3:ℝ)*mj^(4:ℕ)*mi^(2:ℕ) -
    mj^(6:ℕ))⁻¹*cos (mj*z_b)*sin (mi*z_b)*b_t*a_t - mj*mi^(4:ℕ)*(mi^(6:ℕ) - (3:ℝ)*mj^(2:ℕ)*mi^(4:ℕ) +
    (3:ℝ)*mj^(4:ℕ)*mi^(2:ℕ) - mj^(6:ℕ))⁻¹*cos (mj*z_t)*sin (mi*z_t)*b_t*a_t + (2:ℝ)*mj^(2:ℕ)*mi^(3:ℕ)*(mi^(6:ℕ) -
    (3:ℝ)*mj^(2:ℕ)*mi^(4:ℕ) + (3:ℝ)*mj^(4:ℕ)*mi^(2:ℕ) - mj^(6:ℕ))⁻¹*cos (mi*z_b)*sin (mj*z_b)*b_t*a_t -
    (2:ℝ)*mj^(2:ℕ)*mi^(3:ℕ)*(mi^(6:ℕ) - (3:ℝ)*mj^(2:ℕ)*mi^(4:ℕ) + (3:ℝ)*mj^(4:ℕ)*mi^(2:ℕ) - mj^(6:ℕ))⁻¹*cos
    (mi*z_t)*sin (mj*z_t)*b_t*a_t - (2:ℝ)*mj^(3:ℕ)*mi^(2:ℕ)*(mi^(6:ℕ) - (3:ℝ)*mj^(2:ℕ)*mi^(4:ℕ) +
    (3:ℝ)*mj^(4:ℕ)*mi^(2:ℕ) - mj^(6:ℕ))⁻¹*cos (mj*z_b)*sin (mi*z_b)*b_t*a_t : ℝ) + (2:ℝ)*mj^(3:ℕ)*mi^(2:ℕ)*(mi^(6:ℕ) -
    (3:ℝ)*mj^(2:ℕ)*mi^(4:ℕ) + (3:ℝ)*mj^(4:ℕ)*mi^(2:ℕ) - mj^(6:ℕ))⁻¹*cos (mj*z_t)*sin (mi*z_t)*b_t*a_t -
    mj^(4:ℕ)*mi*(mi^(6:ℕ) - (3:ℝ)*mj^(2:ℕ)*mi^(4:ℕ) + (3:ℝ)*mj^(4:ℕ)*mi^(2:ℕ) - mj^(6:ℕ))⁻¹*cos (mi*z_b)*sin
    (mj*z_b)*b_t*a_t + mj^(4:ℕ)*mi*(mi^(6:ℕ) - (3:ℝ)*mj^(2:ℕ)*mi^(4:ℕ) + (3:ℝ)*mj^(4:ℕ)*mi^(2:ℕ) - mj^(6:ℕ))⁻¹*cos
    (mi*z_t)*sin (mj*z_t)*b_t*a_t + mj^(5:ℕ)*(mi^(6:ℕ) - (3:ℝ)*mj^(2:ℕ)*mi^(4:ℕ) + (3:ℝ)*mj^(4:ℕ)*mi^(2:ℕ) -
    mj^(6:ℕ))⁻¹*cos (mj*z_b)*sin (mi*z_b)*b_t*a_t - mj^(5:ℕ)*(mi^(6:ℕ) - (3:ℝ)*mj^(2:ℕ)*mi^(4:ℕ) +
    (3:ℝ)*mj^(4:ℕ)*mi^(2:ℕ) - mj^(6:ℕ))⁻¹*cos (mj*z_t)*sin (mi*z_t)*b_t*a_t : ℝ)

/-- Diagonal entry, one layer, vectorized, `dim1sin_abf_linear`, geotecha/speccon/integrals.py:1791-1814. -/
noncomputable def abf_diag_v (aS bS a_t b_t z_t z_b mi : ℝ) : ℝ :=
  ((((((((aS*bS*z_b*(sin (mi*z_b))^(2:ℕ)*z_t^(2:ℕ)/(2:ℝ) + aS*bS*z_b*(cos (mi*z_b))^(2:ℕ)*z_t^(2:ℕ)/(2:ℝ) -
    aS*bS*z_b^(2:ℕ)*(sin (mi*z_b))^(2:ℕ)*z_t/(2:ℝ) - aS*bS*z_b^(2:ℕ)*(cos (mi*z_b))^(2:ℕ)*z_t/(2:ℝ) +
    aS*bS*z_b^(3:ℕ)*(sin (mi*z_b))^(2:ℕ)/(6:ℝ) + aS*bS*z_b^(3:ℕ)*(cos (mi*z_b))^(2:ℕ)/(6:ℝ) : ℝ) -
    aS*bS*z_t^(3:ℕ)*(sin (mi*z_t))^(2:ℕ)/(6:ℝ) - aS*bS*z_t^(3:ℕ)*(cos (mi*z_t))^(2:ℕ)/(6:ℝ) - aS*bS*cos (mi*z_b)*sin
    (mi*z_b)*z_t^(2:ℕ)/((2:ℝ)*mi) + aS*bS*z_b*cos (mi*z_b)*sin (mi*z_b)*z_t/mi - aS*bS*z_b^(2:ℕ)*cos (mi*z_b)*sin
    (mi*z_b)/((2:ℝ)*mi) : ℝ) - aS*bS*(sin (mi*z_b))^(2:ℕ)*z_t/((2:ℝ)*mi^(2:ℕ)) + aS*bS*z_b*(sin
    (mi*z_b))^(2:ℕ)/((4:ℝ)*mi^(2:ℕ)) - aS*bS*z_b*(cos (mi*z_b))^(2:ℕ)/((4:ℝ)*mi^(2:ℕ)) + aS*bS*z_t*(sin
    (mi*z_t))^(2:ℕ)/((4:ℝ)*mi^(2:ℕ)) + aS*bS*z_t*(cos (mi*z_t))^(2:ℕ)/((4:ℝ)*mi^(2:ℕ)) : ℝ) + aS*bS*cos (mi*z_b)*sin
    (mi*z_b)/((4:ℝ)*mi^(3:ℕ)) - aS*bS*cos (mi*z_t)*sin (mi*z_t)/((4:ℝ)*mi^(3:ℕ)) - aS*z_b*(sin
    (mi*z_b))^(2:ℕ)*z_t*b_t/(2:ℝ) - aS*z_b*(cos (mi*z_b))^(2:ℕ)*z_t*b_t/(2:ℝ) + aS*z_b^(2:ℕ)*(sin
    (mi*z_b))^(2:ℕ)*b_t/(4:ℝ) : ℝ) + aS*z_b^(2:ℕ)*(cos (mi*z_b))^(2:ℕ)*b_t/(4:ℝ) + aS*z_t^(2:ℕ)*(sin
    (mi*z_t))^(2:ℕ)*b_t/(4:ℝ) + aS*z_t^(2:ℕ)*(cos (mi*z_t))^(2:ℕ)*b_t/(4:ℝ) + aS*cos (mi*z_b)*sin
    (mi*z_b)*z_t*b_t/((2:ℝ)*mi) - aS*z_b*cos (mi*z_b)*sin (mi*z_b)*b_t/((2:ℝ)*mi) : ℝ) + aS*(sin
    (mi*z_b))^(2:ℕ)*b_t/((4:ℝ)*mi^(2:ℕ)) - aS*(sin (mi*z_t))^(2:ℕ)*b_t/((4:ℝ)*mi^(2:ℕ)) - bS*z_b*(sin
    (mi*z_b))^(2:ℕ)*z_t*a_t/(2:ℝ) - bS*z_b*(cos (mi*z_b))^(2:ℕ)*z_t*a_t/(2:ℝ) + bS*z_b^(2:ℕ)*(sin
    (mi*z_b))^(2:ℕ)*a_t/(4:ℝ) : ℝ) + bS*z_b^(2:ℕ)*(cos (mi*z_b))^(2:ℕ)*a_t/(4:ℝ) + bS*z_t^(2:ℕ)*(sin
    (mi*z_t))^(2:ℕ)*a_t/(4:ℝ) + bS*z_t^(2:ℕ)*(cos (mi*z_t))^(2:ℕ)*a_t/(4:ℝ) + bS*cos (mi*z_b)*sin
    (mi*z_b)*z_t*a_t/((2:ℝ)*mi) - bS*z_b*cos (mi*z_b)*sin (mi*z_b)*a_t/((2:ℝ)*mi) : ℝ) + bS*(sin
    (mi*z_b))^(2:ℕ)*a_t/((4:ℝ)*mi^(2:ℕ)) - bS*(sin (mi*z_t))^(2:ℕ)*a_t/((4:ℝ)*mi^(2:ℕ)) + z_b*(sin
    (mi*z_b))^(2:ℕ)*b_t*a_t/(2:ℝ) + z_b*(cos (mi*z_b))^(2:ℕ)*b_t*a_t/(2:ℝ) - z_t*(sin (mi*z_t))^(2:ℕ)*b_t*a_t/(2:ℝ) :
    ℝ) - z_t*(cos (mi*z_t))^(2:ℕ)*b_t*a_t/(2:ℝ) - cos (mi*z_b)*sin (mi*z_b)*b_t*a_t/((2:ℝ)*mi) + cos (mi*z_t)*sin
    (mi*z_t)*b_t*a_t/((2:ℝ)*mi)

/-- Off-diagonal entry, one layer, vectorized, `dim1sin_abf_linear`, geotecha/speccon/integrals.py:1818-1931. -/
noncomputable def abf_off_v (aS bS a_t b_t z_t z_b mi mj : ℝ) : ℝ :=
  (((((((((((((((((-aS*bS*mi^(5:ℕ)*cos (mi*z_b)*sin (mj*z_b)*z_t^(2:ℕ)/(mi^(6:ℕ) - (3:ℝ)*mi^(4:ℕ)*mj^(2:ℕ) +
    (3:ℝ)*mi^(2:ℕ)*mj^(4:ℕ) - mj^(6:ℕ)) + (2:ℝ)*aS*bS*mi^(5:ℕ)*z_b*cos (mi*z_b)*sin (mj*z_b)*z_t/(mi^(6:ℕ) -
    (3:ℝ)*mi^(4:ℕ)*mj^(2:ℕ) + (3:ℝ)*mi^(2:ℕ)*mj^(4:ℕ) - mj^(6:ℕ)) - aS*bS*mi^(5:ℕ)*z_b^(2:ℕ)*cos (mi*z_b)*sin
    (mj*z_b)/(mi^(6:ℕ) - (3:ℝ)*mi^(4:ℕ)*mj^(2:ℕ) + (3:ℝ)*mi^(2:ℕ)*mj^(4:ℕ) - mj^(6:ℕ)) + aS*bS*mi^(4:ℕ)*mj*cos
    (mj*z_b)*sin (mi*z_b)*z_t^(2:ℕ)/(mi^(6:ℕ) - (3:ℝ)*mi^(4:ℕ)*mj^(2:ℕ) + (3:ℝ)*mi^(2:ℕ)*mj^(4:ℕ) - mj^(6:ℕ)) -
    (2:ℝ)*aS*bS*mi^(4:ℕ)*mj*z_b*cos (mj*z_b)*sin (mi*z_b)*z_t/(mi^(6:ℕ) - (3:ℝ)*mi^(4:ℕ)*mj^(2:ℕ) +
    (3:ℝ)*mi^(2:ℕ)*mj^(4:ℕ) - mj^(6:ℕ)) + aS*bS*mi^(4:ℕ)*mj*z_b^(2:ℕ)*cos (mj*z_b)*sin (mi*z_b)/(mi^(6:ℕ) -
    (3:ℝ)*mi^(4:ℕ)*mj^(2:ℕ) + (3:ℝ)*mi^(2:ℕ)*mj^(4:ℕ) - mj^(6:ℕ)) : ℝ) - (2:ℝ)*aS*bS*mi^(4:ℕ)*sin (mi*z_b)*sin
    (mj*z_b)*z_t/(mi^(6:ℕ) - (3:ℝ)*mi^(4:ℕ)*mj^(2:ℕ) + (3:ℝ)*mi^(2:ℕ)*mj^(4:ℕ) - mj^(6:ℕ)) +
    (2:ℝ)*aS*bS*mi^(4:ℕ)*z_b*sin (mi*z_b)*sin (mj*z_b)/(mi^(6:ℕ) - (3:ℝ)*mi^(4:ℕ)*mj^(2:ℕ) + (3:ℝ)*mi^(2:ℕ)*mj^(4:ℕ) -
    mj^(6:ℕ)) + (2:ℝ)*aS*bS*mi^(3:ℕ)*mj^(2:ℕ)*cos (mi*z_b)*sin (mj*z_b)*z_t^(2:ℕ)/(mi^(6:ℕ) - (3:ℝ)*mi^(4:ℕ)*mj^(2:ℕ)
    + (3:ℝ)*mi^(2:ℕ)*mj^(4:ℕ) - mj^(6:ℕ)) - (4:ℝ)*aS*bS*mi^(3:ℕ)*mj^(2:ℕ)*z_b*cos (mi*z_b)*sin (mj*z_b)*z_t/(mi^(6:ℕ)
    - (3:ℝ)*mi^(4:ℕ)*mj^(2:ℕ) + (3:ℝ)*mi^(2:ℕ)*mj^(4:ℕ) - mj^(6:ℕ)) + (2:ℝ)*aS*bS*mi^(3:ℕ)*mj^(2:ℕ)*z_b^(2:ℕ)*cos
    (mi*z_b)*sin (mj*z_b)/(mi^(6:ℕ) - (3:ℝ)*mi^(4:ℕ)*mj^(2:ℕ) + (3:ℝ)*mi^(2:ℕ)*mj^(4:ℕ) - mj^(6:ℕ)) : ℝ) -
    (4:ℝ)*aS*bS*mi^(3:ℕ)*mj*cos (mi*z_b)*cos (mj*z_b)*z_t/(mi^(6:ℕ) - (3:ℝ)*mi^(4:ℕ)*mj^(2:ℕ) +
    (3:ℝ)*mi^(2:ℕ)*mj^(4:ℕ) - mj^(6:ℕ)) + (4:ℝ)*aS*bS*mi^(3:ℕ)*mj*z_b*cos (mi*z_b)*cos (mj*z_b)/(mi^(6:ℕ) -
    (3:ℝ)*mi^(4:ℕ)*mj^(2:ℕ) + (3:ℝ)*mi^(2:ℕ)*mj^(4:ℕ) - mj^(6:ℕ)) + (2:ℝ)*aS*bS*mi^(3:ℕ)*cos (mi*z_b)*sin
    (mj*z_b)/(mi^(6:ℕ) - (3:ℝ)*mi^(4:ℕ)*mj^(2:ℕ) + (3:ℝ)*mi^(2:ℕ)*mj^(4:ℕ) - mj^(6:ℕ)) - (2:ℝ)*aS*bS*mi^(3:ℕ)*cos
    (mi*z_t)*sin (mj*z_t)/(mi^(6:ℕ) - (3:ℝ)*mi^(4:ℕ)*mj^(2:ℕ) + (3:ℝ)*mi^(2:ℕ)*mj^(4:ℕ) - mj^(6:ℕ)) -
    (2:ℝ)*aS*bS*mi^(2:ℕ)*mj^(3:ℕ)*cos (mj*z_b)*sin (mi*z_b)*z_t^(2:ℕ)/(mi^(6:ℕ) - (3:ℝ)*mi^(4:ℕ)*mj^(2:ℕ) +
    (3:ℝ)*mi^(2:ℕ)*mj^(4:ℕ) - mj^(6:ℕ)) : ℝ) + (4:ℝ)*aS*bS*mi^(2:ℕ)*mj^(3:ℕ)*z_b*cos (mj*z_b)*sin
    (mi*z_b)*z_t/(mi^(6:ℕ) - (3:ℝ)*mi^(4:ℕ)*mj^(2:ℕ) + (3:ℝ)*mi^(2:ℕ)*mj^(4:ℕ) - mj^(6:ℕ)) -
    (2:ℝ)*aS*bS*mi^(2:ℕ)*mj^(3:ℕ)*z_b^(2:ℕ)*cos (mj*z_b)*sin (mi*z_b)/(mi^(6:ℕ) - (3:ℝ)*mi^(4:ℕ)*mj^(2:ℕ) +
    (3:ℝ)*mi^(2:ℕ)*mj^(4:ℕ) - mj^(6:ℕ)) - (6:ℝ)*aS*bS*mi^(2:ℕ)*mj*cos (mj*z_b)*sin (mi*z_b)/(mi^(6:ℕ) -
    (3:ℝ)*mi^(4:ℕ)*mj^(2:ℕ) + (3:ℝ)*mi^(2:ℕ)*mj^(4:ℕ) - mj^(6:ℕ)) + (6:ℝ)*aS*bS*mi^(2:ℕ)*mj*cos (mj*z_t)*sin
    (mi*z_t)/(mi^(6:ℕ) - (3:ℝ)*mi^(4:ℕ)*mj^(2:ℕ) + (3:ℝ)*mi^(2:ℕ)*mj^(4:ℕ) - mj^(6:ℕ)) - aS*bS*mi*mj^(4:ℕ)*cos
    (mi*z_b)*sin (mj*z_b)*z_t^(2:ℕ)/(mi^(6:ℕ) - (3:ℝ)*mi^(4:ℕ)*mj^(2:ℕ) + (3:ℝ)*mi^(2:ℕ)*mj^(4:ℕ) - mj^(6:ℕ)) : ℝ) +
    (2:ℝ)*aS*bS*mi*mj^(4:ℕ)*z_b*cos (mi*z_b)*sin (mj*z_b)*z_t/(mi^(6:ℕ) - (3:ℝ)*mi^(4:ℕ)*mj^(2:ℕ) +
    (3:ℝ)*mi^(2:ℕ)*mj^(4:ℕ) - mj^(6:ℕ)) - aS*bS*mi*mj^(4:ℕ)*z_b^(2:ℕ)*cos (mi*z_b)*sin (mj*z_b)/(mi^(6:ℕ) -
    (3:ℝ)*mi^(4:ℕ)*mj^(2:ℕ) + (3:ℝ)*mi^(2:ℕ)*mj^(4:ℕ) - mj^(6:ℕ)) + (4:ℝ)*aS*bS*mi*mj^(3:ℕ)*cos (mi*z_b)*cos
    (mj*z_b)*z_t/(mi^(6:ℕ) - (3:ℝ)*mi^(4:ℕ)*mj^(2:ℕ) + (3:ℝ)*mi^(2:ℕ)*mj^(4:ℕ) - mj^(6:ℕ)) -
    (4:ℝ)*aS*bS*mi*mj^(3:ℕ)*z_b*cos (mi*z_b)*cos (mj*z_b)/(mi^(6:ℕ) - (3:ℝ)*mi^(4:ℕ)*mj^(2:ℕ) +
    (3:ℝ)*mi^(2:ℕ)*mj^(4:ℕ) - mj^(6:ℕ)) + (6:ℝ)*aS*bS*mi*mj^(2:ℕ)*cos (mi*z_b)*sin (mj*z_b)/(mi^(6:ℕ) -
    (3:ℝ)*mi^(4:ℕ)*mj^(2:ℕ) + (3:ℝ)*mi^(2:ℕ)*mj^(4:ℕ) - mj^(6:ℕ)) : ℝ) - (6:ℝ)*aS*bS*mi*mj^(2:ℕ)*cos (mi*z_t)*sin
    (mj*z_t)/(mi^(6:ℕ) - (3:ℝ)*mi^(4:ℕ)*mj^(2:ℕ) + (3:ℝ)*mi^(2:ℕ)*mj^(4:ℕ) - mj^(6:ℕ)) + aS*bS*mj^(5:ℕ)*cos
    (mj*z_b)*sin (mi*z_b)*z_t^(2:ℕ)/(mi^(6:ℕ) - (3:ℝ)*mi^(4:ℕ)*mj^(2:ℕ) + (3:ℝ)*mi^(2:ℕ)*mj^(4:ℕ) - mj^(6:ℕ)) -
    (2:ℝ)*aS*bS*mj^(5:ℕ)*z_b*cos (mj*z_b)*sin (mi*z_b)*z_t/(mi^(6:ℕ) - (3:ℝ)*mi^(4:ℕ)*mj^(2:ℕ) +
    (3:ℝ)*mi^(2:ℕ)*mj^(4:ℕ) - mj^(6:ℕ)) + aS*bS*mj^(5:ℕ)*z_b^(2:ℕ)*cos (mj*z_b)*sin (mi*z_b)/(mi^(6:ℕ) -
    (3:ℝ)*mi^(4:ℕ)*mj^(2:ℕ) + (3:ℝ)*mi^(2:ℕ)*mj^(4:ℕ) - mj^(6:ℕ)) + (2:ℝ)*aS*bS*mj^(4:ℕ)*sin (mi*z_b)*sin
    (mj*z_b)*z_t/(mi^(6:ℕ) - (3:ℝ)*mi^(4:ℕ)*mj^(2:ℕ) + (3:ℝ)*mi^(2:ℕ)*mj^(4:ℕ) - mj^(6:ℕ)) : ℝ) -
    (2:ℝ)*aS*bS*mj^(4:ℕ)*z_b*sin (mi*z_b)*sin (mj*z_b)/(mi^(6:ℕ) - (3:ℝ)*mi^(4:ℕ)*mj^(2:ℕ) + (3:ℝ)*mi^(2:ℕ)*mj^(4:ℕ) -
    mj^(6:ℕ)) - (2:ℝ)*aS*bS*mj^(3:ℕ)*cos (mj*z_b)*sin (mi*z_b)/(mi^(6:ℕ) - (3:ℝ)*mi^(4:ℕ)*mj^(2:ℕ) +
    (3:ℝ)*mi^(2:ℕ)*mj^(4:ℕ) - mj^(6:ℕ)) + (2:ℝ)*aS*bS*mj^(3:ℕ)*cos (mj*z_t)*sin (mi*z_t)/(mi^(6:ℕ) -
    (3:ℝ)*mi^(4:ℕ)*mj^(2:ℕ) + (3:ℝ)*mi^(2:ℕ)*mj^(4:ℕ) - mj^(6:ℕ)) + aS*mi^(5:ℕ)*cos (mi*z_b)*sin
    (mj*z_b)*z_t*b_t/(mi^(6:ℕ) - (3:ℝ)*mi^(4:ℕ)*mj^(2:ℕ) + (3:ℝ)*mi^(2:ℕ)*mj^(4:ℕ) - mj^(6:ℕ)) - aS*mi^(5:ℕ)*z_b*cos
    (mi*z_b)*sin (mj*z_b)*b_t/(mi^(6:ℕ) - (3:ℝ)*mi^(4:ℕ)*mj^(2:ℕ) + (3:ℝ)*mi^(2:ℕ)*mj^(4:ℕ) - mj^(6:ℕ)) : ℝ) -
    aS*mi^(4:ℕ)*mj*cos (mj*z_b)*sin (mi*z_b)*z_t*b_t/(mi^(6:ℕ) - (3:ℝ)*mi^(4:ℕ)*mj^(2:ℕ) + (3:ℝ)*mi^(2:ℕ)*mj^(4:ℕ) -
    mj^(6:ℕ)) + aS*mi^(4:ℕ)*mj*z_b*cos (mj*z_b)*sin (mi*z_b)*b_t/(mi^(6:ℕ) - (3:ℝ)*mi^(4:ℕ)*mj^(2:ℕ) +
    (3:ℝ)*mi^(2:ℕ)*mj^(4:ℕ) - mj^(6:ℕ)) + aS*mi^(4:ℕ)*sin (mi*z_b)*sin (mj*z_b)*b_t/(mi^(6:ℕ) -
    (3:ℝ)*mi^(4:ℕ)*mj^(2:ℕ) + (3:ℝ)*mi^(2:ℕ)*mj^(4:ℕ) - mj^(6:ℕ)) - aS*mi^(4:ℕ)*sin (mi*z_t)*sin
    (mj*z_t)*b_t/(mi^(6:ℕ) - (3:ℝ)*mi^(4:ℕ)*mj^(2:ℕ) + (3:ℝ)*mi^(2:ℕ)*mj^(4:ℕ) - mj^(6:ℕ)) -
    (2:ℝ)*aS*mi^(3:ℕ)*mj^(2:ℕ)*cos (mi*z_b)*sin (mj*z_b)*z_t*b_t/(mi^(6:ℕ) - (3:ℝ)*mi^(4:ℕ)*mj^(2:ℕ) +
    (3:ℝ)*mi^(2:ℕ)*mj^(4:ℕ) - mj^(6:ℕ)) : ℝ) + (2:ℝ)*aS*mi^(3:ℕ)*mj^(2:ℕ)*z_b*cos (mi*z_b)*sin (mj*z_b)*b_t/(mi^(6:ℕ)
    - (3:ℝ)*mi^(4:ℕ)*mj^(2:ℕ) + (3:ℝ)*mi^(2:ℕ)*mj^(4:ℕ) - mj^(6:ℕ)) + (2:ℝ)*aS*mi^(3:ℕ)*mj*cos (mi*z_b)*cos
    (mj*z_b)*b_t/(mi^(6:ℕ) - (3:ℝ)*mi^(4:ℕ)*mj^(2:ℕ) + (3:ℝ)*mi^(2:ℕ)*mj^(4:ℕ) - mj^(6:ℕ)) - (2:ℝ)*aS*mi^(3:ℕ)*mj*cos
    (mi*z_t)*cos (mj*z_t)*b_t/(mi^(6:ℕ) - (3:ℝ)*mi^(4:ℕ)*mj^(2:ℕ) + (3:ℝ)*mi^(2:ℕ)*mj^(4:ℕ) - mj^(6:ℕ)) +
    (2:ℝ)*aS*mi^(2:ℕ)*mj^(3:ℕ)*cos (mj*z_b)*sin (mi*z_b)*z_t*b_t/(mi^(6:ℕ) - (3:ℝ)*mi^(4:ℕ)*mj^(2:ℕ) +
    (3:ℝ)*mi^(2:ℕ)*mj^(4:ℕ) - mj^(6:ℕ)) - (2:ℝ)*aS*mi^(2:ℕ)*mj^(3:ℕ)*z_b*cos (mj*z_b)*sin (mi*z_b)*b_t/(mi^(6:ℕ) -
    (3:ℝ)*mi^(4:ℕ)*mj^(2:ℕ) + (3:ℝ)*mi^(2:ℕ)*mj^(4:ℕ) - mj^(6:ℕ)) : ℝ) + aS*mi*mj^(4:ℕ)*cos (mi*z_b)*sin
    (mj*z_b)*z_t*b_t/(mi^(6:ℕ) - (3:ℝ)*mi^(4:ℕ)*mj^(2:ℕ) + (3:ℝ)*mi^(2:ℕ)*mj^(4:ℕ) - mj^(6:ℕ)) -
    aS*mi*mj^(4:ℕ)*z_b*cos (mi*z_b)*sin (mj*z_b)*b_t/(mi^(6:ℕ) - (3:ℝ)*mi^(4:ℕ)*mj^(2:ℕ) + (3:ℝ)*mi^(2:ℕ)*mj^(4:ℕ) -
    mj^(6:ℕ)) - (2:ℝ)*aS*mi*mj^(3:ℕ)*cos (mi*z_b)*cos (mj*z_b)*b_t/(mi^(6:ℕ) - (3:ℝ)*mi^(4:ℕ)*mj^(2:ℕ) +
    (3:ℝ)*mi^(2:ℕ)*mj^(4:ℕ) - mj^(6:ℕ)) + (2:ℝ)*aS*mi*mj^(3:ℕ)*cos (mi*z_t)*cos (mj*z_t)*b_t/(mi^(6:ℕ) -
    (3:ℝ)*mi^(4:ℕ)*mj^(2:ℕ) + (3:ℝ)*mi^(2:ℕ)*mj^(4:ℕ) - mj^(6:ℕ)) - aS*mj^(5:ℕ)*cos (mj*z_b)*sin
    (mi*z_b)*z_t*b_t/(mi^(6:ℕ) - (3:ℝ)*mi^(4:ℕ)*mj^(2:ℕ) + (3:ℝ)*mi^(2:ℕ)*mj^(4:ℕ) - mj^(6:ℕ)) : ℝ) +
    aS*mj^(5:ℕ)*z_b*cos (mj*z_b)*sin (mi*z_b)*b_t/(mi^(6:ℕ) - (3:ℝ)*mi^(4:ℕ)*mj^(2:ℕ) + (3:ℝ)*mi^(2:ℕ)*mj^(4:ℕ) -
    mj^(6:ℕ)) - aS*mj^(4:ℕ)*sin (mi*z_b)*sin (mj*z_b)*b_t/(mi^(6:ℕ) - (3:ℝ)*mi^(4:ℕ)*mj^(2:ℕ) +
    (3:ℝ)*mi^(2:ℕ)*mj^(4:ℕ) - mj^(6:ℕ)) + aS*mj^(4:ℕ)*sin (mi*z_t)*sin (mj*z_t)*b_t/(mi^(6:ℕ) -
    (3:ℝ)*mi^(4:ℕ)*mj^(2:ℕ) + (3:ℝ)*mi^(2:ℕ)*mj^(4:ℕ) - mj^(6:ℕ)) + bS*mi^(5:ℕ)*cos (mi*z_b)*sin
    (mj*z_b)*z_t*a_t/(mi^(6:ℕ) - (3:ℝ)*mi^(4:ℕ)*mj^(2:ℕ) + (3:ℝ)*mi^(2:ℕ)*mj^(4:ℕ) - mj^(6:ℕ)) - bS*mi^(5:ℕ)*z_b*cos
    (mi*z_b)*sin (mj*z_b)*a_t/(mi^(6:ℕ) - (3:ℝ)*mi^(4:ℕ)*mj^(2:ℕ) + (3:ℝ)*mi^(2:ℕ)*mj^(4:ℕ) - mj^(6:ℕ)) : ℝ) -
    bS*mi^(4:ℕ)*mj*cos (mj*z_b)*sin (mi*z_b)*z_t*a_t/(mi^(6:ℕ) - (3:ℝ)*mi^(4:ℕ)*mj^(2:ℕ) + (3:ℝ)*mi^(2:ℕ)*mj^(4:ℕ) -
    mj^(6:ℕ)) + bS*mi^(4:ℕ)*mj*z_b*cos (mj*z_b)*sin (mi*z_b)*a_t/(mi^(6:ℕ) - (3:ℝ)*mi^(4:ℕ)*mj^(2:ℕ) +
    (3:ℝ)*mi^(2:ℕ)*mj^(4:ℕ) - mj^(6:ℕ)) + bS*mi^(4:ℕ)*sin (mi*z_b)*sin (mj*z_b)*a_t/(mi^(6:ℕ) -
    (3:ℝ)*mi^(4:ℕ)*mj^(2:ℕ) + (3:ℝ)*mi^(2:ℕ)*mj^(4:ℕ) - mj^(6:ℕ)) - bS*mi^(4:ℕ)*sin (mi*z_t)*sin
    (mj*z_t)*a_t/(mi^(6:ℕ) - (3:ℝ)*mi^(4:ℕ)*mj^(2:ℕ) + (3:ℝ)*mi^(2:ℕ)*mj^(4:ℕ) - mj^(6:ℕ)) -
    (2:ℝ)*bS*mi^(3:ℕ)*mj^(2:ℕ)*cos (mi*z_b)*sin (mj*z_b)*z_t*a_t/(mi^(6:ℕ) - (3:ℝ)*mi^(4:ℕ)*mj^(2:ℕ) +
    (3:ℝ)*mi^(2:ℕ)*mj^(4:ℕ) - mj^(6:ℕ)) : ℝ) + (2:ℝ)*bS*mi^(3:ℕ)*mj^(2:ℕ)*z_b*cos (mi*z_b)*sin (mj*z_b)*a_t/(mi^(6:ℕ)
    - (3:ℝ)*mi^(4:ℕ)*mj^(2:ℕ) + (3:ℝ)*mi^(2:ℕ)*mj^(4:ℕ) - mj^(6:ℕ)) + (2:ℝ)*bS*mi^(3:ℕ)*mj*cos (mi*z_b)*cos
    (mj*z_b)*a_t/(mi^(6:ℕ) - (3:ℝ)*mi^(4:ℕ)*mj^(2:ℕ) + (3:ℝ)*mi^(2:ℕ)*mj^(4:ℕ) - mj^(6:ℕ)) - (2:ℝ)*bS*mi^(3:ℕ)*mj*cos
    (mi*z_t)*cos (mj*z_t)*a_t/(mi^(6:ℕ) - (3:ℝ)*mi^(4:ℕ)*mj^(2:ℕ) + (3:ℝ)*mi^(2:ℕ)*mj^(4:ℕ) - mj^(6:ℕ)) +
    (2:ℝ)*bS*mi^(2:ℕ)*mj^(3:ℕ)*cos (mj*z_b)*sin (mi*z_b)*z_t*a_t/(mi^(6:ℕ) - (3:ℝ)*mi^(4:ℕ)*mj^(2:ℕ) +
    (3:ℝ)*mi^(2:ℕ)*mj^(4:ℕ) - mj^(6:ℕ)) - (2:ℝ)*bS*mi^(2:ℕ)*mj^(3:ℕ)*z_b*cos (mj*z_b)*sin (mi*z_b)*a_t/(mi^(6:ℕ) -
    (3:ℝ)*mi^(4:ℕ)*mj^(2:ℕ) + (3:ℝ)*mi^(2:ℕ)*mj^(4:ℕ) - mj^(6:ℕ)) : ℝ) + bS*mi*mj^(4:ℕ)*cos (mi*z_b)*sin
    (mj*z_b)*z_t*a_t/(mi^(6:ℕ) - (3:ℝ)*mi^(4:ℕ)*mj^(2:ℕ) + (3:ℝ)*mi^(2:ℕ)*mj^(4:ℕ) - mj^(6:ℕ)) -
    bS*mi*mj^(4:ℕ)*z_b*cos (mi*z_b)*sin (mj*z_b)*a_t/(mi^(6:ℕ) - (3:ℝ)*mi^(4:ℕ)*mj^(2:ℕ) + (3:ℝ)*mi^(2:ℕ)*mj^(4:ℕ) -
    mj^(6:ℕ)) - (2:ℝ)*bS*mi*mj^(3:ℕ)*cos (mi*z_b)*cos (mj*z_b)*a_t/(mi^(6:ℕ) - (3:ℝ)*mi^(4:ℕ)*mj^(2:ℕ) +
    (3:ℝ)*mi^(2:ℕ)*mj^(4:ℕ) - mj^(6:ℕ)) + (2:ℝ)*bS*mi*mj^(3:ℕ)*cos (mi*z_t)*cos (mj*z_t)*a_t/(mi^(6:ℕ) -
    (3:ℝ)*mi^(4:ℕ)*mj^(2:ℕ) + (3:ℝ)*mi^(2:ℕ)*mj^(4:ℕ) - mj^(6:ℕ)) - bS*mj^(5:ℕ)*cos (mj*z_b)*sin
    (mi*z_b)*z_t*a_t/(mi^(6:ℕ) - (3:ℝ)*mi^(4:ℕ)*mj^(2:ℕ) + (3:ℝ)*mi^(2:ℕ)*mj^(4:ℕ) - mj^(6:ℕ)) : ℝ) +
    bS*mj^(5:ℕ)*z_b*cos (mj*z_b)*sin (mi*z_b)*a_t/(mi^(6:ℕ) - (3:ℝ)*mi^(4:ℕ)*mj^(2:ℕ) + (3:ℝ)*mi^(2:ℕ)*mj^(4:ℕ) -
    mj^(6:ℕ)) - bS*mj^(4:ℕ)*sin (mi*z_b)*sin (mj*z_b)*a_t/(mi^(6:ℕ) - (3:ℝ)*mi^(4:ℕ)*mj^(2:ℕ) +
    (3:ℝ)*mi^(2:ℕ)*mj^(4:ℕ) - mj^(6:ℕ)) + bS*mj^(4:ℕ)*sin (mi*z_t)*sin (mj*z_t)*a_t/(mi^(6:ℕ) -
    (3:ℝ)*mi^(4:ℕ)*mj^(2:ℕ) + (3:ℝ)*mi^(2:ℕ)*mj^(4:ℕ) - mj^(6:ℕ)) - mi^(5:ℕ)*cos (mi*z_b)*sin
    (mj*z_b)*b_t*a_t/(mi^(6:ℕ) - (3:ℝ)*mi^(4:ℕ)*mj^(2:ℕ) + (3:ℝ)*mi^(2:ℕ)*mj^(4:ℕ) - mj^(6:ℕ)) + mi^(5:ℕ)*cos
    (mi*z_t)*sin (mj*z_t)*b_t*a_t/(mi^(6:ℕ) - (3:ℝ)*mi^(4:ℕ)*mj^(2:ℕ) + (3:ℝ)*mi^(2:ℕ)*mj^(4:ℕ) - mj^(6:ℕ)) : ℝ) +
    mi^(4:ℕ)*mj*cos (mj*z_b)*sin (mi*z_b)*b_t*a_t/(mi^(6:ℕ) - (3:ℝ)*mi^(4:ℕ)*mj^(2:ℕ) + (3:ℝ)*mi^(2:ℕ)*mj^(4:ℕ) -
    mj^(6:ℕ)) - mi^(4:ℕ)*mj*cos (mj*z_t)*sin (mi*z_t)*b_t*a_t/(mi^(6:ℕ) - (3:ℝ)*mi^(4:ℕ)*mj^(2:ℕ) +
    (3:ℝ)*mi^(2:ℕ)*mj^(4:ℕ) - mj^(6:ℕ)) + (2:ℝ)*mi^(3:ℕ)*mj^(2:ℕ)*cos (mi*z_b)*sin (mj*z_b)*b_t*a_t/(mi^(6:ℕ) -
    (3:ℝ)*mi^(4:ℕ)*mj^(2:ℕ) + (3:ℝ)*mi^(2:ℕ)*mj^(4:ℕ) - mj^(6:ℕ)) - (2:ℝ)*mi^(3:ℕ)*mj^(2:ℕ)*cos (mi*z_t)*sin
    (mj*z_t)*b_t*a_t/(mi^(6:ℕ) - (3:ℝ)*mi^(4:ℕ)*mj^(2:ℕ) + (3:ℝ)*mi^(2:ℕ)*mj^(4:ℕ) - mj^(6:ℕ)) -
    (2:ℝ)*mi^(2:ℕ)*mj^(3:ℕ)*cos (mj*z_b)*sin (mi*z_b)*b_t*a_t/(mi^(6:ℕ) - (3:ℝ)*mi^(4:ℕ)*mj^(2:ℕ) +
    (3:ℝ)*mi^(2:ℕ)*mj^(4:ℕ) - mj^(6:ℕ)) : ℝ) + (2:ℝ)*mi^(2:ℕ)*mj^(3:ℕ)*cos (mj*z_t)*sin (mi*z_t)*b_t*a_t/(mi^(6:ℕ) -
    (3:ℝ)*mi^(4:ℕ)*mj^(2:ℕ) + (3:ℝ)*mi^(2:ℕ)*mj^(4:ℕ) - mj^(6:ℕ)) - mi*mj^(4:ℕ)*cos (mi*z_b)*sin
    (mj*z_b)*b_t*a_t/(mi^(6:ℕ) - (3:ℝ)*mi^(4:ℕ)*mj^(2:ℕ) + (3:ℝ)*mi^(2:ℕ)*mj^(4:ℕ) - mj^(6:ℕ)) + mi*mj^(4:ℕ)*cos
    (mi*z_t)*sin (mj*z_t)*b_t*a_t/(mi^(6:ℕ) - (3:ℝ)*mi^(4:ℕ)*mj^(2:ℕ) + (3:ℝ)*mi^(2:ℕ)*mj^(4:ℕ) - mj^(6:ℕ)) +
    mj^(5:ℕ)*cos (mj*z_b)*sin (mi*z_b)*b_t*a_t/(mi^(6:ℕ) - (3:ℝ)*mi^(4:ℕ)*mj^(2:ℕ) + (3:ℝ)*mi^(2:ℕ)*mj^(4:ℕ) -
    mj^(6:ℕ)) - mj^(5:ℕ)*cos (mj*z_t)*sin (mi*z_t)*b_t*a_t/(mi^(6:ℕ) - (3:ℝ)*mi^(4:ℕ)*mj^(2:ℕ) +
    (3:ℝ)*mi^(2:ℕ)*mj^(4:ℕ) - mj^(6:ℕ)) : ℝ)

/-- Diagonal entry, one layer, scalar, `dim1sin_D_aDf_linear`, geotecha/speccon/integrals.py:2031-2046. -/
noncomputable def DaDf_diag_s (aS a_t z_t z_b mi : ℝ) : ℝ :=
  mi^(2:ℕ)*(-aS*(mi^(2:ℕ))⁻¹*(sin (mi*z_t))^(2:ℕ)/(4:ℝ) - aS*z_t^(2:ℕ)*(sin (mi*z_t))^(2:ℕ)/(4:ℝ) - aS*z_t^(2:ℕ)*(cos
    (mi*z_t))^(2:ℕ)/(4:ℝ) + mi⁻¹*cos (mi*z_t)*sin (mi*z_t)*a_t/(2:ℝ) + z_t*(sin (mi*z_t))^(2:ℕ)*a_t/(2:ℝ) + z_t*(cos
    (mi*z_t))^(2:ℕ)*a_t/(2:ℝ) : ℝ) - mi^(2:ℕ)*((-aS*(mi^(2:ℕ))⁻¹*(sin (mi*z_b))^(2:ℕ)/(4:ℝ) - aS*mi⁻¹*cos (mi*z_b)*sin
    (mi*z_b)*z_t/(2:ℝ) + aS*mi⁻¹*z_b*cos (mi*z_b)*sin (mi*z_b)/(2:ℝ) - aS*z_b*(sin (mi*z_b))^(2:ℕ)*z_t/(2:ℝ) -
    aS*z_b*(cos (mi*z_b))^(2:ℕ)*z_t/(2:ℝ) + aS*z_b^(2:ℕ)*(sin (mi*z_b))^(2:ℕ)/(4:ℝ) : ℝ) + aS*z_b^(2:ℕ)*(cos
    (mi*z_b))^(2:ℕ)/(4:ℝ) + mi⁻¹*cos (mi*z_b)*sin (mi*z_b)*a_t/(2:ℝ) + z_b*(sin (mi*z_b))^(2:ℕ)*a_t/(2:ℝ) + z_b*(cos
    (mi*z_b))^(2:ℕ)*a_t/(2:ℝ))

/-- Off-diagonal entry, one layer, scalar, `dim1sin_D_aDf_linear`, geotecha/speccon/integrals.py:2049-2092. -/
noncomputable def DaDf_off_s (aS a_t z_t z_b mi mj : ℝ) : ℝ :=
  mj*mi*((aS*mi^(2:ℕ)*(mi^(4:ℕ) - (2:ℝ)*mj^(2:ℕ)*mi^(2:ℕ) + mj^(4:ℕ))⁻¹*cos (mi*z_t)*cos (mj*z_t) +
    (2:ℝ)*aS*mj*mi*(mi^(4:ℕ) - (2:ℝ)*mj^(2:ℕ)*mi^(2:ℕ) + mj^(4:ℕ))⁻¹*sin (mi*z_t)*sin (mj*z_t) + aS*mj^(2:ℕ)*(mi^(4:ℕ)
    - (2:ℝ)*mj^(2:ℕ)*mi^(2:ℕ) + mj^(4:ℕ))⁻¹*cos (mi*z_t)*cos (mj*z_t) + mi^(3:ℕ)*(mi^(4:ℕ) - (2:ℝ)*mj^(2:ℕ)*mi^(2:ℕ) +
    mj^(4:ℕ))⁻¹*cos (mj*z_t)*sin (mi*z_t)*a_t - mj*mi^(2:ℕ)*(mi^(4:ℕ) - (2:ℝ)*mj^(2:ℕ)*mi^(2:ℕ) + mj^(4:ℕ))⁻¹*cos
    (mi*z_t)*sin (mj*z_t)*a_t - mj^(2:ℕ)*mi*(mi^(4:ℕ) - (2:ℝ)*mj^(2:ℕ)*mi^(2:ℕ) + mj^(4:ℕ))⁻¹*cos (mj*z_t)*sin
    (mi*z_t)*a_t : ℝ) + mj^(3:ℕ)*(mi^(4:ℕ) - (2:ℝ)*mj^(2:ℕ)*mi^(2:ℕ) + mj^(4:ℕ))⁻¹*cos (mi*z_t)*sin (mj*z_t)*a_t) -
    mj*mi*(((aS*mi^(2:ℕ)*(mi^(4:ℕ) - (2:ℝ)*mj^(2:ℕ)*mi^(2:ℕ) + mj^(4:ℕ))⁻¹*cos (mi*z_b)*cos (mj*z_b) -
    aS*mi^(3:ℕ)*(mi^(4:ℕ) - (2:ℝ)*mj^(2:ℕ)*mi^(2:ℕ) + mj^(4:ℕ))⁻¹*cos (mj*z_b)*sin (mi*z_b)*z_t +
    aS*mi^(3:ℕ)*(mi^(4:ℕ) - (2:ℝ)*mj^(2:ℕ)*mi^(2:ℕ) + mj^(4:ℕ))⁻¹*z_b*cos (mj*z_b)*sin (mi*z_b) +
    (2:ℝ)*aS*mj*mi*(mi^(4:ℕ) - (2:ℝ)*mj^(2:ℕ)*mi^(2:ℕ) + mj^(4:ℕ))⁻¹*sin (mi*z_b)*sin (mj*z_b) +
    aS*mj*mi^(2:ℕ)*(mi^(4:ℕ) - (2:ℝ)*mj^(2:ℕ)*mi^(2:ℕ) + mj^(4:ℕ))⁻¹*cos (mi*z_b)*sin (mj*z_b)*z_t -
    aS*mj*mi^(2:ℕ)*(mi^(4:ℕ) - (2:ℝ)*mj^(2:ℕ)*mi^(2:ℕ) + mj^(4:ℕ))⁻¹*z_b*cos (mi*z_b)*sin (mj*z_b) : ℝ) +
    aS*mj^(2:ℕ)*(mi^(4:ℕ) - (2:ℝ)*mj^(2:ℕ)*mi^(2:ℕ) + mj^(4:ℕ))⁻¹*cos (mi*z_b)*cos (mj*z_b) + aS*mj^(2:ℕ)*mi*(mi^(4:ℕ)
    - (2:ℝ)*mj^(2:ℕ)*mi^(2:ℕ) + mj^(4:ℕ))⁻¹*cos (mj*z_b)*sin (mi*z_b)*z_t - aS*mj^(2:ℕ)*mi*(mi^(4:ℕ) -
    (2:ℝ)*mj^(2:ℕ)*mi^(2:ℕ) + mj^(4:ℕ))⁻¹*z_b*cos (mj*z_b)*sin (mi*z_b) - aS*mj^(3:ℕ)*(mi^(4:ℕ) -
    (2:ℝ)*mj^(2:ℕ)*mi^(2:ℕ) + mj^(4:ℕ))⁻¹*cos (mi*z_b)*sin (mj*z_b)*z_t + aS*mj^(3:ℕ)*(mi^(4:ℕ) -
    (2:ℝ)*mj^(2:ℕ)*mi^(2:ℕ) + mj^(4:ℕ))⁻¹*z_b*cos (mi*z_b)*sin (mj*z_b) : ℝ) + mi^(3:ℕ)*(mi^(4:ℕ) -
    (2:ℝ)*mj^(2:ℕ)*mi^(2:ℕ) + mj^(4:ℕ))⁻¹*cos (mj*z_b)*sin (mi*z_b)*a_t - mj*mi^(2:ℕ)*(mi^(4:ℕ) -
    (2:ℝ)*mj^(2:ℕ)*mi^(2:ℕ) + mj^(4:ℕ))⁻¹*cos (mi*z_b)*sin (mj*z_b)*a_t - mj^(2:ℕ)*mi*(mi^(4:ℕ) -
    (2:ℝ)*mj^(2:ℕ)*mi^(2:ℕ) + mj^(4:ℕ))⁻¹*cos (mj*z_b)*sin (mi*z_b)*a_t + mj^(3:ℕ)*(mi^(4:ℕ) - (2:ℝ)*mj^(2:ℕ)*mi^(2:ℕ)
    + mj^(4:ℕ))⁻¹*cos (mi*z_b)*sin (mj*z_b)*a_t)

/-- Diagonal entry, one layer, vectorized, `dim1sin_D_aDf_linear`, geotecha/speccon/integrals.py:2122-2128. -/
noncomputable def DaDf_diag_v (aS a_t z_t z_b mi : ℝ) : ℝ :=
  mi^(2:ℕ)*(-aS*z_t^(2:ℕ)*(sin (mi*z_t))^(2:ℕ)/(4:ℝ) - aS*z_t^(2:ℕ)*(cos (mi*z_t))^(2:ℕ)/(4:ℝ) - aS*(sin
    (mi*z_t))^(2:ℕ)/((4:ℝ)*mi^(2:ℕ)) + z_t*(sin (mi*z_t))^(2:ℕ)*a_t/(2:ℝ) + z_t*(cos (mi*z_t))^(2:ℕ)*a_t/(2:ℝ) + cos
    (mi*z_t)*sin (mi*z_t)*a_t/((2:ℝ)*mi) : ℝ) - mi^(2:ℕ)*((-aS*z_b*(sin (mi*z_b))^(2:ℕ)*z_t/(2:ℝ) - aS*z_b*(cos
    (mi*z_b))^(2:ℕ)*z_t/(2:ℝ) + aS*z_b^(2:ℕ)*(sin (mi*z_b))^(2:ℕ)/(4:ℝ) + aS*z_b^(2:ℕ)*(cos (mi*z_b))^(2:ℕ)/(4:ℝ) -
    aS*cos (mi*z_b)*sin (mi*z_b)*z_t/((2:ℝ)*mi) + aS*z_b*cos (mi*z_b)*sin (mi*z_b)/((2:ℝ)*mi) : ℝ) - aS*(sin
    (mi*z_b))^(2:ℕ)/((4:ℝ)*mi^(2:ℕ)) + z_b*(sin (mi*z_b))^(2:ℕ)*a_t/(2:ℝ) + z_b*(cos (mi*z_b))^(2:ℕ)*a_t/(2:ℝ) + cos
    (mi*z_b)*sin (mi*z_b)*a_t/((2:ℝ)*mi))

/-- Off-diagonal entry, one layer, vectorized, `dim1sin_D_aDf_linear`, geotecha/speccon/integrals.py:2132-2153. -/
noncomputable def DaDf_off_v (aS a_t z_t z_b mi mj : ℝ) : ℝ :=
  mi*mj*((aS*mi^(2:ℕ)*cos (mi*z_t)*cos (mj*z_t)/(mi^(4:ℕ) - (2:ℝ)*mi^(2:ℕ)*mj^(2:ℕ) + mj^(4:ℕ)) + (2:ℝ)*aS*mi*mj*sin
    (mi*z_t)*sin (mj*z_t)/(mi^(4:ℕ) - (2:ℝ)*mi^(2:ℕ)*mj^(2:ℕ) + mj^(4:ℕ)) + aS*mj^(2:ℕ)*cos (mi*z_t)*cos
    (mj*z_t)/(mi^(4:ℕ) - (2:ℝ)*mi^(2:ℕ)*mj^(2:ℕ) + mj^(4:ℕ)) + mi^(3:ℕ)*cos (mj*z_t)*sin (mi*z_t)*a_t/(mi^(4:ℕ) -
    (2:ℝ)*mi^(2:ℕ)*mj^(2:ℕ) + mj^(4:ℕ)) - mi^(2:ℕ)*mj*cos (mi*z_t)*sin (mj*z_t)*a_t/(mi^(4:ℕ) -
    (2:ℝ)*mi^(2:ℕ)*mj^(2:ℕ) + mj^(4:ℕ)) - mi*mj^(2:ℕ)*cos (mj*z_t)*sin (mi*z_t)*a_t/(mi^(4:ℕ) -
    (2:ℝ)*mi^(2:ℕ)*mj^(2:ℕ) + mj^(4:ℕ)) : ℝ) + mj^(3:ℕ)*cos (mi*z_t)*sin (mj*z_t)*a_t/(mi^(4:ℕ) -
    (2:ℝ)*mi^(2:ℕ)*mj^(2:ℕ) + mj^(4:ℕ))) - mi*mj*(((-aS*mi^(3:ℕ)*cos (mj*z_b)*sin (mi*z_b)*z_t/(mi^(4:ℕ) -
    (2:ℝ)*mi^(2:ℕ)*mj^(2:ℕ) + mj^(4:ℕ)) + aS*mi^(3:ℕ)*z_b*cos (mj*z_b)*sin (mi*z_b)/(mi^(4:ℕ) -
    (2:ℝ)*mi^(2:ℕ)*mj^(2:ℕ) + mj^(4:ℕ)) + aS*mi^(2:ℕ)*mj*cos (mi*z_b)*sin (mj*z_b)*z_t/(mi^(4:ℕ) -
    (2:ℝ)*mi^(2:ℕ)*mj^(2:ℕ) + mj^(4:ℕ)) - aS*mi^(2:ℕ)*mj*z_b*cos (mi*z_b)*sin (mj*z_b)/(mi^(4:ℕ) -
    (2:ℝ)*mi^(2:ℕ)*mj^(2:ℕ) + mj^(4:ℕ)) + aS*mi^(2:ℕ)*cos (mi*z_b)*cos (mj*z_b)/(mi^(4:ℕ) - (2:ℝ)*mi^(2:ℕ)*mj^(2:ℕ) +
    mj^(4:ℕ)) + aS*mi*mj^(2:ℕ)*cos (mj*z_b)*sin (mi*z_b)*z_t/(mi^(4:ℕ) - (2:ℝ)*mi^(2:ℕ)*mj^(2:ℕ) + mj^(4:ℕ)) : ℝ) -
    aS*mi*mj^(2:ℕ)*z_b*cos (mj*z_b)*sin (mi*z_b)/(mi^(4:ℕ) - (2:ℝ)*mi^(2:ℕ)*mj^(2:ℕ) + mj^(4:ℕ)) + (2:ℝ)*aS*mi*mj*sin
    (mi*z_b)*sin (mj*z_b)/(mi^(4:ℕ) - (2:ℝ)*mi^(2:ℕ)*mj^(2:ℕ) + mj^(4:ℕ)) - aS*mj^(3:ℕ)*cos (mi*z_b)*sin
    (mj*z_b)*z_t/(mi^(4:ℕ) - (2:ℝ)*mi^(2:ℕ)*mj^(2:ℕ) + mj^(4:ℕ)) + aS*mj^(3:ℕ)*z_b*cos (mi*z_b)*sin (mj*z_b)/(mi^(4:ℕ)
    - (2:ℝ)*mi^(2:ℕ)*mj^(2:ℕ) + mj^(4:ℕ)) + aS*mj^(2:ℕ)*cos (mi*z_b)*cos (mj*z_b)/(mi^(4:ℕ) - (2:ℝ)*mi^(2:ℕ)*mj^(2:ℕ)
    + mj^(4:ℕ)) : ℝ) + mi^(3:ℕ)*cos (mj*z_b)*sin (mi*z_b)*a_t/(mi^(4:ℕ) - (2:ℝ)*mi^(2:ℕ)*mj^(2:ℕ) + mj^(4:ℕ)) -
    mi^(2:ℕ)*mj*cos (mi*z_b)*sin (mj*z_b)*a_t/(mi^(4:ℕ) - (2:ℝ)*mi^(2:ℕ)*mj^(2:ℕ) + mj^(4:ℕ)) - mi*mj^(2:ℕ)*cos
    (mj*z_b)*sin (mi*z_b)*a_t/(mi^(4:ℕ) - (2:ℝ)*mi^(2:ℕ)*mj^(2:ℕ) + mj^(4:ℕ)) + mj^(3:ℕ)*cos (mi*z_b)*sin
    (mj*z_b)*a_t/(mi^(4:ℕ) - (2:ℝ)*mi^(2:ℕ)*mj^(2:ℕ) + mj^(4:ℕ)))

/-- Diagonal entry, one layer, scalar, `dim1sin_DD_abDDf_linear`, geotecha/speccon/integrals.py:6868-6911. -/
noncomputable def DDabDDf_diag_s (aS bS a_t b_t z_t z_b mi : ℝ) : ℝ :=
  -mi^(4:ℕ)*(((aS*bS*(mi^(3:ℕ))⁻¹*cos (z_t*mi)*sin (z_t*mi)/(4:ℝ) + aS*bS*z_t*(mi^(2:ℕ))⁻¹*(sin (z_t*mi))^(2:ℕ)/(4:ℝ)
    + aS*bS*z_t*(mi^(2:ℕ))⁻¹*(cos (z_t*mi))^(2:ℕ)/(4:ℝ) + aS*bS*z_t^(3:ℕ)*(sin (z_t*mi))^(2:ℕ)/(6:ℝ) +
    aS*bS*z_t^(3:ℕ)*(cos (z_t*mi))^(2:ℕ)/(6:ℝ) - aS*b_t*(mi^(2:ℕ))⁻¹*(cos (z_t*mi))^(2:ℕ)/(4:ℝ) : ℝ) -
    aS*z_t^(2:ℕ)*b_t*(sin (z_t*mi))^(2:ℕ)/(4:ℝ) - aS*z_t^(2:ℕ)*b_t*(cos (z_t*mi))^(2:ℕ)/(4:ℝ) -
    bS*a_t*(mi^(2:ℕ))⁻¹*(cos (z_t*mi))^(2:ℕ)/(4:ℝ) - bS*z_t^(2:ℕ)*a_t*(sin (z_t*mi))^(2:ℕ)/(4:ℝ) -
    bS*z_t^(2:ℕ)*a_t*(cos (z_t*mi))^(2:ℕ)/(4:ℝ) : ℝ) - b_t*a_t*mi⁻¹*cos (z_t*mi)*sin (z_t*mi)/(2:ℝ) + z_t*b_t*a_t*(sin
    (z_t*mi))^(2:ℕ)/(2:ℝ) + z_t*b_t*a_t*(cos (z_t*mi))^(2:ℕ)/(2:ℝ)) + mi^(4:ℕ)*((((((aS*bS*(mi^(3:ℕ))⁻¹*cos
    (z_b*mi)*sin (z_b*mi)/(4:ℝ) + aS*bS*z_b*(mi^(2:ℕ))⁻¹*(sin (z_b*mi))^(2:ℕ)/(4:ℝ) - aS*bS*z_b*(mi^(2:ℕ))⁻¹*(cos
    (z_b*mi))^(2:ℕ)/(4:ℝ) + aS*bS*z_b*z_t*mi⁻¹*cos (z_b*mi)*sin (z_b*mi) + aS*bS*z_b*z_t^(2:ℕ)*(sin
    (z_b*mi))^(2:ℕ)/(2:ℝ) + aS*bS*z_b*z_t^(2:ℕ)*(cos (z_b*mi))^(2:ℕ)/(2:ℝ) : ℝ) - aS*bS*z_b^(2:ℕ)*mi⁻¹*cos
    (z_b*mi)*sin (z_b*mi)/(2:ℝ) - aS*bS*z_b^(2:ℕ)*z_t*(sin (z_b*mi))^(2:ℕ)/(2:ℝ) - aS*bS*z_b^(2:ℕ)*z_t*(cos
    (z_b*mi))^(2:ℕ)/(2:ℝ) + aS*bS*z_b^(3:ℕ)*(sin (z_b*mi))^(2:ℕ)/(6:ℝ) + aS*bS*z_b^(3:ℕ)*(cos (z_b*mi))^(2:ℕ)/(6:ℝ) :
    ℝ) + aS*bS*z_t*(mi^(2:ℕ))⁻¹*(cos (z_b*mi))^(2:ℕ)/(2:ℝ) - aS*bS*z_t^(2:ℕ)*mi⁻¹*cos (z_b*mi)*sin (z_b*mi)/(2:ℝ) -
    aS*b_t*(mi^(2:ℕ))⁻¹*(cos (z_b*mi))^(2:ℕ)/(4:ℝ) - aS*z_b*b_t*mi⁻¹*cos (z_b*mi)*sin (z_b*mi)/(2:ℝ) -
    aS*z_b*z_t*b_t*(sin (z_b*mi))^(2:ℕ)/(2:ℝ) : ℝ) - aS*z_b*z_t*b_t*(cos (z_b*mi))^(2:ℕ)/(2:ℝ) + aS*z_b^(2:ℕ)*b_t*(sin
    (z_b*mi))^(2:ℕ)/(4:ℝ) + aS*z_b^(2:ℕ)*b_t*(cos (z_b*mi))^(2:ℕ)/(4:ℝ) + aS*z_t*b_t*mi⁻¹*cos (z_b*mi)*sin
    (z_b*mi)/(2:ℝ) - bS*a_t*(mi^(2:ℕ))⁻¹*(cos (z_b*mi))^(2:ℕ)/(4:ℝ) : ℝ) - bS*z_b*a_t*mi⁻¹*cos (z_b*mi)*sin
    (z_b*mi)/(2:ℝ) - bS*z_b*z_t*a_t*(sin (z_b*mi))^(2:ℕ)/(2:ℝ) - bS*z_b*z_t*a_t*(cos (z_b*mi))^(2:ℕ)/(2:ℝ) +
    bS*z_b^(2:ℕ)*a_t*(sin (z_b*mi))^(2:ℕ)/(4:ℝ) + bS*z_b^(2:ℕ)*a_t*(cos (z_b*mi))^(2:ℕ)/(4:ℝ) : ℝ) +
    bS*z_t*a_t*mi⁻¹*cos (z_b*mi)*sin (z_b*mi)/(2:ℝ) - b_t*a_t*mi⁻¹*cos (z_b*mi)*sin (z_b*mi)/(2:ℝ) + z_b*b_t*a_t*(sin
    (z_b*mi))^(2:ℕ)/(2:ℝ) + z_b*b_t*a_t*(cos (z_b*mi))^(2:ℕ)/(2:ℝ))

/-- Off-diagonal entry, one layer, scalar, `dim1sin_DD_abDDf_linear`, geotecha/speccon/integrals.py:6914-7090. -/
noncomputable def DDabDDf_off_s (aS bS a_t b_t z_t z_b mi mj : ℝ) : ℝ :=
  -mj^(2:ℕ)*mi^(2:ℕ)*(((((2:ℝ)*aS*bS*sin (z_t*mj)*mi^(3:ℕ)*(mi^(6:ℕ) - (3:ℝ)*mj^(2:ℕ)*mi^(4:ℕ) +
    (3:ℝ)*mj^(4:ℕ)*mi^(2:ℕ) - mj^(6:ℕ))⁻¹*cos (z_t*mi) - (6:ℝ)*aS*bS*mj*cos (z_t*mj)*mi^(2:ℕ)*(mi^(6:ℕ) -
    (3:ℝ)*mj^(2:ℕ)*mi^(4:ℕ) + (3:ℝ)*mj^(4:ℕ)*mi^(2:ℕ) - mj^(6:ℕ))⁻¹*sin (z_t*mi) + (6:ℝ)*aS*bS*mj^(2:ℕ)*sin
    (z_t*mj)*mi*(mi^(6:ℕ) - (3:ℝ)*mj^(2:ℕ)*mi^(4:ℕ) + (3:ℝ)*mj^(4:ℕ)*mi^(2:ℕ) - mj^(6:ℕ))⁻¹*cos (z_t*mi) -
    (2:ℝ)*aS*bS*mj^(3:ℕ)*cos (z_t*mj)*(mi^(6:ℕ) - (3:ℝ)*mj^(2:ℕ)*mi^(4:ℕ) + (3:ℝ)*mj^(4:ℕ)*mi^(2:ℕ) - mj^(6:ℕ))⁻¹*sin
    (z_t*mi) + aS*b_t*sin (z_t*mj)*mi^(4:ℕ)*(mi^(6:ℕ) - (3:ℝ)*mj^(2:ℕ)*mi^(4:ℕ) + (3:ℝ)*mj^(4:ℕ)*mi^(2:ℕ) -
    mj^(6:ℕ))⁻¹*sin (z_t*mi) + (2:ℝ)*aS*b_t*mj*cos (z_t*mj)*mi^(3:ℕ)*(mi^(6:ℕ) - (3:ℝ)*mj^(2:ℕ)*mi^(4:ℕ) +
    (3:ℝ)*mj^(4:ℕ)*mi^(2:ℕ) - mj^(6:ℕ))⁻¹*cos (z_t*mi) : ℝ) - (2:ℝ)*aS*b_t*mj^(3:ℕ)*cos (z_t*mj)*mi*(mi^(6:ℕ) -
    (3:ℝ)*mj^(2:ℕ)*mi^(4:ℕ) + (3:ℝ)*mj^(4:ℕ)*mi^(2:ℕ) - mj^(6:ℕ))⁻¹*cos (z_t*mi) - aS*b_t*mj^(4:ℕ)*sin
    (z_t*mj)*(mi^(6:ℕ) - (3:ℝ)*mj^(2:ℕ)*mi^(4:ℕ) + (3:ℝ)*mj^(4:ℕ)*mi^(2:ℕ) - mj^(6:ℕ))⁻¹*sin (z_t*mi) + bS*a_t*sin
    (z_t*mj)*mi^(4:ℕ)*(mi^(6:ℕ) - (3:ℝ)*mj^(2:ℕ)*mi^(4:ℕ) + (3:ℝ)*mj^(4:ℕ)*mi^(2:ℕ) - mj^(6:ℕ))⁻¹*sin (z_t*mi) +
    (2:ℝ)*bS*a_t*mj*cos (z_t*mj)*mi^(3:ℕ)*(mi^(6:ℕ) - (3:ℝ)*mj^(2:ℕ)*mi^(4:ℕ) + (3:ℝ)*mj^(4:ℕ)*mi^(2:ℕ) -
    mj^(6:ℕ))⁻¹*cos (z_t*mi) - (2:ℝ)*bS*a_t*mj^(3:ℕ)*cos (z_t*mj)*mi*(mi^(6:ℕ) - (3:ℝ)*mj^(2:ℕ)*mi^(4:ℕ) +
    (3:ℝ)*mj^(4:ℕ)*mi^(2:ℕ) - mj^(6:ℕ))⁻¹*cos (z_t*mi) : ℝ) - bS*a_t*mj^(4:ℕ)*sin (z_t*mj)*(mi^(6:ℕ) -
    (3:ℝ)*mj^(2:ℕ)*mi^(4:ℕ) + (3:ℝ)*mj^(4:ℕ)*mi^(2:ℕ) - mj^(6:ℕ))⁻¹*sin (z_t*mi) - b_t*a_t*sin
    (z_t*mj)*mi^(5:ℕ)*(mi^(6:ℕ) - (3:ℝ)*mj^(2:ℕ)*mi^(4:ℕ) + (3:ℝ)*mj^(4:ℕ)*mi^(2:ℕ) - mj^(6:ℕ))⁻¹*cos (z_t*mi) +
    b_t*a_t*mj*cos (z_t*mj)*mi^(4:ℕ)*(mi^(6:ℕ) - (3:ℝ)*mj^(2:ℕ)*mi^(4:ℕ) + (3:ℝ)*mj^(4:ℕ)*mi^(2:ℕ) - mj^(6:ℕ))⁻¹*sin
    (z_t*mi) + (2:ℝ)*b_t*a_t*mj^(2:ℕ)*sin (z_t*mj)*mi^(3:ℕ)*(mi^(6:ℕ) - (3:ℝ)*mj^(2:ℕ)*mi^(4:ℕ) +
    (3:ℝ)*mj^(4:ℕ)*mi^(2:ℕ) - mj^(6:ℕ))⁻¹*cos (z_t*mi) - (2:ℝ)*b_t*a_t*mj^(3:ℕ)*cos (z_t*mj)*mi^(2:ℕ)*(mi^(6:ℕ) -
    (3:ℝ)*mj^(2:ℕ)*mi^(4:ℕ) + (3:ℝ)*mj^(4:ℕ)*mi^(2:ℕ) - mj^(6:ℕ))⁻¹*sin (z_t*mi) : ℝ) - b_t*a_t*mj^(4:ℕ)*sin
    (z_t*mj)*mi*(mi^(6:ℕ) - (3:ℝ)*mj^(2:ℕ)*mi^(4:ℕ) + (3:ℝ)*mj^(4:ℕ)*mi^(2:ℕ) - mj^(6:ℕ))⁻¹*cos (z_t*mi) +
    b_t*a_t*mj^(5:ℕ)*cos (z_t*mj)*(mi^(6:ℕ) - (3:ℝ)*mj^(2:ℕ)*mi^(4:ℕ) + (3:ℝ)*mj^(4:ℕ)*mi^(2:ℕ) - mj^(6:ℕ))⁻¹*sin
    (z_t*mi)) + mj^(2:ℕ)*mi^(2:ℕ)*(((((((((((((((2:ℝ)*aS*bS*sin (z_b*mj)*mi^(3:ℕ)*(mi^(6:ℕ) - (3:ℝ)*mj^(2:ℕ)*mi^(4:ℕ)
    + (3:ℝ)*mj^(4:ℕ)*mi^(2:ℕ) - mj^(6:ℕ))⁻¹*cos (z_b*mi) - (6:ℝ)*aS*bS*mj*cos (z_b*mj)*mi^(2:ℕ)*(mi^(6:ℕ) -
    (3:ℝ)*mj^(2:ℕ)*mi^(4:ℕ) + (3:ℝ)*mj^(4:ℕ)*mi^(2:ℕ) - mj^(6:ℕ))⁻¹*sin (z_b*mi) + (6:ℝ)*aS*bS*mj^(2:ℕ)*sin
    (z_b*mj)*mi*(mi^(6:ℕ) - (3:ℝ)*mj^(2:ℕ)*mi^(4:ℕ) + (3:ℝ)*mj^(4:ℕ)*mi^(2:ℕ) - mj^(6:ℕ))⁻¹*cos (z_b*mi) -
    (2:ℝ)*aS*bS*mj^(3:ℕ)*cos (z_b*mj)*(mi^(6:ℕ) - (3:ℝ)*mj^(2:ℕ)*mi^(4:ℕ) + (3:ℝ)*mj^(4:ℕ)*mi^(2:ℕ) - mj^(6:ℕ))⁻¹*sin
    (z_b*mi) + (2:ℝ)*aS*bS*z_b*sin (z_b*mj)*mi^(4:ℕ)*(mi^(6:ℕ) - (3:ℝ)*mj^(2:ℕ)*mi^(4:ℕ) + (3:ℝ)*mj^(4:ℕ)*mi^(2:ℕ) -
    mj^(6:ℕ))⁻¹*sin (z_b*mi) + (4:ℝ)*aS*bS*z_b*mj*cos (z_b*mj)*mi^(3:ℕ)*(mi^(6:ℕ) - (3:ℝ)*mj^(2:ℕ)*mi^(4:ℕ) +
    (3:ℝ)*mj^(4:ℕ)*mi^(2:ℕ) - mj^(6:ℕ))⁻¹*cos (z_b*mi) : ℝ) - (4:ℝ)*aS*bS*z_b*mj^(3:ℕ)*cos (z_b*mj)*mi*(mi^(6:ℕ) -
    (3:ℝ)*mj^(2:ℕ)*mi^(4:ℕ) + (3:ℝ)*mj^(4:ℕ)*mi^(2:ℕ) - mj^(6:ℕ))⁻¹*cos (z_b*mi) - (2:ℝ)*aS*bS*z_b*mj^(4:ℕ)*sin
    (z_b*mj)*(mi^(6:ℕ) - (3:ℝ)*mj^(2:ℕ)*mi^(4:ℕ) + (3:ℝ)*mj^(4:ℕ)*mi^(2:ℕ) - mj^(6:ℕ))⁻¹*sin (z_b*mi) +
    (2:ℝ)*aS*bS*z_b*z_t*sin (z_b*mj)*mi^(5:ℕ)*(mi^(6:ℕ) - (3:ℝ)*mj^(2:ℕ)*mi^(4:ℕ) + (3:ℝ)*mj^(4:ℕ)*mi^(2:ℕ) -
    mj^(6:ℕ))⁻¹*cos (z_b*mi) - (2:ℝ)*aS*bS*z_b*z_t*mj*cos (z_b*mj)*mi^(4:ℕ)*(mi^(6:ℕ) - (3:ℝ)*mj^(2:ℕ)*mi^(4:ℕ) +
    (3:ℝ)*mj^(4:ℕ)*mi^(2:ℕ) - mj^(6:ℕ))⁻¹*sin (z_b*mi) - (4:ℝ)*aS*bS*z_b*z_t*mj^(2:ℕ)*sin (z_b*mj)*mi^(3:ℕ)*(mi^(6:ℕ)
    - (3:ℝ)*mj^(2:ℕ)*mi^(4:ℕ) + (3:ℝ)*mj^(4:ℕ)*mi^(2:ℕ) - mj^(6:ℕ))⁻¹*cos (z_b*mi) : ℝ) +
    (4:ℝ)*aS*bS*z_b*z_t*mj^(3:ℕ)*cos (z_b*mj)*mi^(2:ℕ)*(mi^(6:ℕ) - (3:ℝ)*mj^(2:ℕ)*mi^(4:ℕ) + (3:ℝ)*mj^(4:ℕ)*mi^(2:ℕ) -
    mj^(6:ℕ))⁻¹*sin (z_b*mi) + (2:ℝ)*aS*bS*z_b*z_t*mj^(4:ℕ)*sin (z_b*mj)*mi*(mi^(6:ℕ) - (3:ℝ)*mj^(2:ℕ)*mi^(4:ℕ) +
    (3:ℝ)*mj^(4:ℕ)*mi^(2:ℕ) - mj^(6:ℕ))⁻¹*cos (z_b*mi) - (2:ℝ)*aS*bS*z_b*z_t*mj^(5:ℕ)*cos (z_b*mj)*(mi^(6:ℕ) -
    (3:ℝ)*mj^(2:ℕ)*mi^(4:ℕ) + (3:ℝ)*mj^(4:ℕ)*mi^(2:ℕ) - mj^(6:ℕ))⁻¹*sin (z_b*mi) - aS*bS*z_b^(2:ℕ)*sin
    (z_b*mj)*mi^(5:ℕ)*(mi^(6:ℕ) - (3:ℝ)*mj^(2:ℕ)*mi^(4:ℕ) + (3:ℝ)*mj^(4:ℕ)*mi^(2:ℕ) - mj^(6:ℕ))⁻¹*cos (z_b*mi) +
    aS*bS*z_b^(2:ℕ)*mj*cos (z_b*mj)*mi^(4:ℕ)*(mi^(6:ℕ) - (3:ℝ)*mj^(2:ℕ)*mi^(4:ℕ) + (3:ℝ)*mj^(4:ℕ)*mi^(2:ℕ) -
    mj^(6:ℕ))⁻¹*sin (z_b*mi) : ℝ) + (2:ℝ)*aS*bS*z_b^(2:ℕ)*mj^(2:ℕ)*sin (z_b*mj)*mi^(3:ℕ)*(mi^(6:ℕ) -
    (3:ℝ)*mj^(2:ℕ)*mi^(4:ℕ) + (3:ℝ)*mj^(4:ℕ)*mi^(2:ℕ) - mj^(6:ℕ))⁻¹*cos (z_b*mi) - (2:ℝ)*aS*bS*z_b^(2:ℕ)*mj^(3:ℕ)*cos
    (z_b*mj)*mi^(2:ℕ)*(mi^(6:ℕ) - (3:ℝ)*mj^(2:ℕ)*mi^(4:ℕ) + (3:ℝ)*mj^(4:ℕ)*mi^(2:ℕ) - mj^(6:ℕ))⁻¹*sin (z_b*mi) -
    aS*bS*z_b^(2:ℕ)*mj^(4:ℕ)*sin (z_b*mj)*mi*(mi^(6:ℕ) - (3:ℝ)*mj^(2:ℕ)*mi^(4:ℕ) + (3:ℝ)*mj^(4:ℕ)*mi^(2:ℕ) -
    mj^(6:ℕ))⁻¹*cos (z_b*mi) + aS*bS*z_b^(2:ℕ)*mj^(5:ℕ)*cos (z_b*mj)*(mi^(6:ℕ) - (3:ℝ)*mj^(2:ℕ)*mi^(4:ℕ) +
    (3:ℝ)*mj^(4:ℕ)*mi^(2:ℕ) - mj^(6:ℕ))⁻¹*sin (z_b*mi) - (2:ℝ)*aS*bS*z_t*sin (z_b*mj)*mi^(4:ℕ)*(mi^(6:ℕ) -
    (3:ℝ)*mj^(2:ℕ)*mi^(4:ℕ) + (3:ℝ)*mj^(4:ℕ)*mi^(2:ℕ) - mj^(6:ℕ))⁻¹*sin (z_b*mi) : ℝ) - (4:ℝ)*aS*bS*z_t*mj*cos
    (z_b*mj)*mi^(3:ℕ)*(mi^(6:ℕ) - (3:ℝ)*mj^(2:ℕ)*mi^(4:ℕ) + (3:ℝ)*mj^(4:ℕ)*mi^(2:ℕ) - mj^(6:ℕ))⁻¹*cos (z_b*mi) +
    (4:ℝ)*aS*bS*z_t*mj^(3:ℕ)*cos (z_b*mj)*mi*(mi^(6:ℕ) - (3:ℝ)*mj^(2:ℕ)*mi^(4:ℕ) + (3:ℝ)*mj^(4:ℕ)*mi^(2:ℕ) -
    mj^(6:ℕ))⁻¹*cos (z_b*mi) + (2:ℝ)*aS*bS*z_t*mj^(4:ℕ)*sin (z_b*mj)*(mi^(6:ℕ) - (3:ℝ)*mj^(2:ℕ)*mi^(4:ℕ) +
    (3:ℝ)*mj^(4:ℕ)*mi^(2:ℕ) - mj^(6:ℕ))⁻¹*sin (z_b*mi) - aS*bS*z_t^(2:ℕ)*sin (z_b*mj)*mi^(5:ℕ)*(mi^(6:ℕ) -
    (3:ℝ)*mj^(2:ℕ)*mi^(4:ℕ) + (3:ℝ)*mj^(4:ℕ)*mi^(2:ℕ) - mj^(6:ℕ))⁻¹*cos (z_b*mi) + aS*bS*z_t^(2:ℕ)*mj*cos
    (z_b*mj)*mi^(4:ℕ)*(mi^(6:ℕ) - (3:ℝ)*mj^(2:ℕ)*mi^(4:ℕ) + (3:ℝ)*mj^(4:ℕ)*mi^(2:ℕ) - mj^(6:ℕ))⁻¹*sin (z_b*mi) : ℝ) +
    (2:ℝ)*aS*bS*z_t^(2:ℕ)*mj^(2:ℕ)*sin (z_b*mj)*mi^(3:ℕ)*(mi^(6:ℕ) - (3:ℝ)*mj^(2:ℕ)*mi^(4:ℕ) + (3:ℝ)*mj^(4:ℕ)*mi^(2:ℕ)
    - mj^(6:ℕ))⁻¹*cos (z_b*mi) - (2:ℝ)*aS*bS*z_t^(2:ℕ)*mj^(3:ℕ)*cos (z_b*mj)*mi^(2:ℕ)*(mi^(6:ℕ) -
    (3:ℝ)*mj^(2:ℕ)*mi^(4:ℕ) + (3:ℝ)*mj^(4:ℕ)*mi^(2:ℕ) - mj^(6:ℕ))⁻¹*sin (z_b*mi) - aS*bS*z_t^(2:ℕ)*mj^(4:ℕ)*sin
    (z_b*mj)*mi*(mi^(6:ℕ) - (3:ℝ)*mj^(2:ℕ)*mi^(4:ℕ) + (3:ℝ)*mj^(4:ℕ)*mi^(2:ℕ) - mj^(6:ℕ))⁻¹*cos (z_b*mi) +
    aS*bS*z_t^(2:ℕ)*mj^(5:ℕ)*cos (z_b*mj)*(mi^(6:ℕ) - (3:ℝ)*mj^(2:ℕ)*mi^(4:ℕ) + (3:ℝ)*mj^(4:ℕ)*mi^(2:ℕ) -
    mj^(6:ℕ))⁻¹*sin (z_b*mi) + aS*b_t*sin (z_b*mj)*mi^(4:ℕ)*(mi^(6:ℕ) - (3:ℝ)*mj^(2:ℕ)*mi^(4:ℕ) +
    (3:ℝ)*mj^(4:ℕ)*mi^(2:ℕ) - mj^(6:ℕ))⁻¹*sin (z_b*mi) : ℝ) + (2:ℝ)*aS*b_t*mj*cos (z_b*mj)*mi^(3:ℕ)*(mi^(6:ℕ) -
    (3:ℝ)*mj^(2:ℕ)*mi^(4:ℕ) + (3:ℝ)*mj^(4:ℕ)*mi^(2:ℕ) - mj^(6:ℕ))⁻¹*cos (z_b*mi) - (2:ℝ)*aS*b_t*mj^(3:ℕ)*cos
    (z_b*mj)*mi*(mi^(6:ℕ) - (3:ℝ)*mj^(2:ℕ)*mi^(4:ℕ) + (3:ℝ)*mj^(4:ℕ)*mi^(2:ℕ) - mj^(6:ℕ))⁻¹*cos (z_b*mi) -
    aS*b_t*mj^(4:ℕ)*sin (z_b*mj)*(mi^(6:ℕ) - (3:ℝ)*mj^(2:ℕ)*mi^(4:ℕ) + (3:ℝ)*mj^(4:ℕ)*mi^(2:ℕ) - mj^(6:ℕ))⁻¹*sin
    (z_b*mi) - aS*z_b*b_t*sin (z_b*mj)*mi^(5:ℕ)*(mi^(6:ℕ) - (3:ℝ)*mj^(2:ℕ)*mi^(4:ℕ) + (3:ℝ)*mj^(4:ℕ)*mi^(2:ℕ) -
    mj^(6:ℕ))⁻¹*cos (z_b*mi) + aS*z_b*b_t*mj*cos (z_b*mj)*mi^(4:ℕ)*(mi^(6:ℕ) - (3:ℝ)*mj^(2:ℕ)*mi^(4:ℕ) +
    (3:ℝ)*mj^(4:ℕ)*mi^(2:ℕ) - mj^(6:ℕ))⁻¹*sin (z_b*mi) : ℝ) + (2:ℝ)*aS*z_b*b_t*mj^(2:ℕ)*sin
    (z_b*mj)*mi^(3:ℕ)*(mi^(6:ℕ) - (3:ℝ)*mj^(2:ℕ)*mi^(4:ℕ) + (3:ℝ)*mj^(4:ℕ)*mi^(2:ℕ) - mj^(6:ℕ))⁻¹*cos (z_b*mi) -
    (2:ℝ)*aS*z_b*b_t*mj^(3:ℕ)*cos (z_b*mj)*mi^(2:ℕ)*(mi^(6:ℕ) - (3:ℝ)*mj^(2:ℕ)*mi^(4:ℕ) + (3:ℝ)*mj^(4:ℕ)*mi^(2:ℕ) -
    mj^(6:ℕ))⁻¹*sin (z_b*mi) - aS*z_b*b_t*mj^(4:ℕ)*sin (z_b*mj)*mi*(mi^(6:ℕ) - (3:ℝ)*mj^(2:ℕ)*mi^(4:ℕ) +
    (3:ℝ)*mj^(4:ℕ)*mi^(2:ℕ) - mj^(6:ℕ))⁻¹*cos (z_b*mi) + aS*z_b*b_t*mj^(5:ℕ)*cos (z_b*mj)*(mi^(6:ℕ) -
    (3:ℝ)*mj^(2:ℕ)*mi^(4:ℕ) + (3:ℝ)*mj^(4:ℕ)*mi^(2:ℕ) - mj^(6:ℕ))⁻¹*sin (z_b*mi) + aS*z_t*b_t*sin
    (z_b*mj)*mi^(5:ℕ)*(mi^(6:ℕ) - (3:ℝ)*mj^(2:ℕ)*mi^(4:ℕ) + (3:ℝ)*mj^(4:ℕ)*mi^(2:ℕ) - mj^(6:ℕ))⁻¹*cos (z_b*mi) : ℝ) -
    aS*z_t*b_t*mj*cos (z_b*mj)*mi^(4:ℕ)*(mi^(6:ℕ) - (3:ℝ)*mj^(2:ℕ)*mi^(4:ℕ) + (3:ℝ)*mj^(4:ℕ)*mi^(2:ℕ) -
    mj^(6:ℕ))⁻¹*sin (z_b*mi) - (2:ℝ)*aS*z_t*b_t*mj^(2:ℕ)*sin (z_b*mj)*mi^(3:ℕ)*(mi^(6:ℕ) - (3:ℝ)*mj^(2:ℕ)*mi^(4:ℕ) +
    (3:ℝ)*mj^(4:ℕ)*mi^(2:ℕ) - mj^(6:ℕ))⁻¹*cos (z_b*mi) + (2:ℝ)*aS*z_t*b_t*mj^(3:ℕ)*cos (z_b*mj)*mi^(2:ℕ)*(mi^(6:ℕ) -
    (3:ℝ)*mj^(2:ℕ)*mi^(4:ℕ) + (3:ℝ)*mj^(4:ℕ)*mi^(2:ℕ) - mj^(6:ℕ))⁻¹*sin (z_b*mi) + aS*z_t*b_t*mj^(4:ℕ)*sin
    (z_b*mj)*mi*(mi^(6:ℕ) - (3:ℝ)*mj^(2:ℕ)*mi^(4:ℕ) + (3:ℝ)*mj^(4:ℕ)*mi^(2:ℕ) - mj^(6:ℕ))⁻¹*cos (z_b*mi) -
    aS*z_t*b_t*mj^(5:ℕ)*cos (z_b*mj)*(mi^(6:ℕ) - (3:ℝ)*mj^(2:ℕ)*mi^(4:ℕ) + (3:ℝ)*mj^(4:ℕ)*mi^(2:ℕ) - mj^(6:ℕ))⁻¹*sin
    (z_b*mi) : ℝ) + bS*a_t*sin (z_b*mj)*mi^(4:ℕ)*(mi^(6:ℕ) - (3:ℝ)*mj^(2:ℕ)*mi^(4:ℕ) + (3:ℝ)*mj^(4:ℕ)*mi^(2:ℕ) -
    mj^(6:ℕ))⁻¹*sin (z_b*mi) + (2:ℝ)*bS*a_t*mj*cos (z_b*mj)*mi^(3:ℕ)*(mi^(6:ℕ) - (3:ℝ)*mj^(2:ℕ)*mi^(4:ℕ) +
    (3:ℝ)*mj^(4:ℕ)*mi^(2:ℕ) - mj^(6:ℕ))⁻¹*cos (z_b*mi) - (2:ℝ)*bS*a_t*mj^(3:ℕ)*cos (z_b*mj)*mi*(mi^(6:ℕ) -
    (3:ℝ)*mj^(2:ℕ)*mi^(4:ℕ) + (3:ℝ)*mj^(4:ℕ)*mi^(2:ℕ) - mj^(6:ℕ))⁻¹*cos (z_b*mi) - bS*a_t*mj^(4:ℕ)*sin
    (z_b*mj)*(mi^(6:ℕ) - (3:ℝ)*mj^(2:ℕ)*mi^(4:ℕ) + (3:ℝ)*mj^(4:ℕ)*mi^(2:ℕ) - mj^(6:ℕ))⁻¹*sin (z_b*mi) - bS*z_b*a_t*sin
    (z_b*mj)*mi^(5:ℕ)*(mi^(6:ℕ) - (3:ℝ)*mj^(2:ℕ)*mi^(4:ℕ) + (3:ℝ)*mj^(4:ℕ)*mi^(2:ℕ) - mj^(6:ℕ))⁻¹*cos (z_b*mi) : ℝ) +
    bS*z_b*a_t*mj*cos (z_b*mj)*mi^(4:ℕ)*(mi^(6:ℕ) - (3:ℝ)*mj^(2:ℕ)*mi^(4:ℕ) + (3:ℝ)*mj^(4:ℕ)*mi^(2:ℕ) -
    mj^(6:ℕ))⁻¹*sin (z_b*mi) + (2:ℝ)*bS*z_b*a_t*mj^(2:ℕ)*sin (z_b*mj)*mi^(3:ℕ)*(mi^(6:ℕ) - (3:ℝ)*mj^(2:ℕ)*mi^(4:ℕ) +
    (3:ℝ)*mj^(4:ℕ)*mi^(2:ℕ) - mj^(6:ℕ))⁻¹*cos (z_b*mi) - (2:ℝ)*bS*z_b*a_t*mj^(3:ℕ)*cos (z_b*mj)*mi^(2:ℕ)*(mi^(6:ℕ) -
    (3:ℝ)*mj^(2:ℕ)*mi^(4:ℕ) + (3:ℝ)*mj^(4:ℕ)*mi^(2:ℕ) - mj^(6:ℕ))⁻¹*sin (z_b*mi) - bS*z_b*a_t*mj^(4:ℕ)*sin
    (z_b*mj)*mi*(mi^(6:ℕ) - (3:ℝ)*mj^(2:ℕ)*mi^(4:ℕ) + (3:ℝ)*mj^(4:ℕ)*mi^(2:ℕ) - mj^(6:ℕ))⁻¹*cos (z_b*mi) +
    bS*z_b*a_t*mj^(5:ℕ)*cos (z_b*mj)*(mi^(6:ℕ) - (3:ℝ)*mj^(2:ℕ)*mi^(4:ℕ) + (3:ℝ)*mj^(4:ℕ)*mi^(2:ℕ) - mj^(6:ℕ))⁻¹*sin
    (z_b*mi) : ℝ) + bS*z_t*a_t*sin (z_b*mj)*mi^(5:ℕ)*(mi^(6:ℕ) - (3:ℝ)*mj^(2:ℕ)*mi^(4:ℕ) + (3:ℝ)*mj^(4:ℕ)*mi^(2:ℕ) -
    mj^(6:ℕ))⁻¹*cos (z_b*mi) - bS*z_t*a_t*mj*cos (z_b*mj)*mi^(4:ℕ)*(mi^(6:ℕ) - (3:ℝ)*mj^(2:ℕ)*mi^(4:ℕ) +
    (3:ℝ)*mj^(4:ℕ)*mi^(2:ℕ) - mj^(6:ℕ))⁻¹*sin (z_b*mi) - (2:ℝ)*bS*z_t*a_t*mj^(2:ℕ)*sin (z_b*mj)*mi^(3:ℕ)*(mi^(6:ℕ) -
    (3:ℝ)*mj^(2:ℕ)*mi^(4:ℕ) + (3:ℝ)*mj^(4:ℕ)*mi^(2:ℕ) - mj^(6:ℕ))⁻¹*cos (z_b*mi) + (2:ℝ)*bS*z_t*a_t*mj^(3:ℕ)*cos
    (z_b*mj)*mi^(2:ℕ)*(mi^(6:ℕ) - (3:ℝ)*mj^(2:ℕ)*mi^(4:ℕ) + (3:ℝ)*mj^(4:ℕ)*mi^(2:ℕ) - mj^(6:ℕ))⁻¹*sin (z_b*mi) +
    bS*z_t*a_t*mj^(4:ℕ)*sin (z_b*mj)*mi*(mi^(6:ℕ) - (3:ℝ)*mj^(2:ℕ)*mi^(4:ℕ) + (3:ℝ)*mj^(4:ℕ)*mi^(2:ℕ) -
    mj^(6:ℕ))⁻¹*cos (z_b*mi) : ℝ) - bS*z_t*a_t*mj^(5:ℕ)*cos (z_b*mj)*(mi^(6:ℕ) - (3:ℝ)*mj^(2:ℕ)*mi^(4:ℕ) +
    (3:ℝ)*mj^(4:ℕ)*mi^(2:ℕ) - mj^(6:ℕ))⁻¹*sin (z_b*mi) - b_t*a_t*sin (z_b*mj)*mi^(5:ℕ)*(mi^(6:ℕ) -
    (3:ℝ)*mj^(2:ℕ)*mi^(4:ℕ) + (3:ℝ)*mj^(4:ℕ)*mi^(2:ℕ) - mj^(6:ℕ))⁻¹*cos (z_b*mi) + b_t*a_t*mj*cos
    (z_b*mj)*mi^(4:ℕ)*(mi^(6:ℕ) - (3:ℝ)*mj^(2:ℕ)*mi^(4:ℕ) + (3:ℝ)*mj^(4:ℕ)*mi^(2:ℕ) - mj^(6:ℕ))⁻¹*sin (z_b*mi) +
    (2:ℝ)*b_t*a_t*mj^(2:ℕ)*sin (z_b*mj)*mi^(3:ℕ)*(mi^(6:ℕ) - (3:ℝ)*mj^(2:ℕ)*mi^(4:ℕ) + (3:ℝ)*mj^(4:ℕ)*mi^(2:ℕ) -
    mj^(6:ℕ))⁻¹*cos (z_b*mi) - (2:ℝ)*b_t*a_t*mj^(3:ℕ)*cos (z_b*mj)*mi^(2:ℕ)*(mi^(6:ℕ) - (3:ℝ)*mj^(2:ℕ)*mi^(4:ℕ) +
    (3:ℝ)*mj^(4:ℕ)*mi^(2:ℕ) - mj^(6:ℕ))⁻¹*sin (z_b*mi) : ℝ) - b_t*a_t*mj^(4:ℕ)*sin (z_b*mj)*mi*(mi^(6:ℕ) -
    (3:ℝ)*mj^(2:ℕ)*mi^(4:ℕ) + (3:ℝ)*mj^(4:ℕ)*mi^(2:ℕ) - mj^(6:ℕ))⁻¹*cos (z_b*mi) + b_t*a_t*mj^(5:ℕ)*cos
    (z_b*mj)*(mi^(6:ℕ) - (3:ℝ)*mj^(2:ℕ)*mi^(4:ℕ) + (3:ℝ)*mj^(4:ℕ)*mi^(2:ℕ) - mj^(6:ℕ))⁻¹*sin (z_b*mi))

/-- Diagonal entry, one layer, vectorized, `dim1sin_DD_abDDf_linear`, geotecha/speccon/integrals.py:7121-7144. -/
noncomputable def DDabDDf_diag_v (aS bS a_t b_t z_t z_b mi : ℝ) : ℝ :=
  -mi^(4:ℕ)*(((aS*bS*z_t^(3:ℕ)*(sin (mi*z_t))^(2:ℕ)/(6:ℝ) + aS*bS*z_t^(3:ℕ)*(cos (mi*z_t))^(2:ℕ)/(6:ℝ) +
    aS*bS*z_t*(sin (mi*z_t))^(2:ℕ)/((4:ℝ)*mi^(2:ℕ)) + aS*bS*z_t*(cos (mi*z_t))^(2:ℕ)/((4:ℝ)*mi^(2:ℕ)) + aS*bS*cos
    (mi*z_t)*sin (mi*z_t)/((4:ℝ)*mi^(3:ℕ)) - aS*z_t^(2:ℕ)*(sin (mi*z_t))^(2:ℕ)*b_t/(4:ℝ) : ℝ) - aS*z_t^(2:ℕ)*(cos
    (mi*z_t))^(2:ℕ)*b_t/(4:ℝ) - aS*(cos (mi*z_t))^(2:ℕ)*b_t/((4:ℝ)*mi^(2:ℕ)) - bS*z_t^(2:ℕ)*(sin
    (mi*z_t))^(2:ℕ)*a_t/(4:ℝ) - bS*z_t^(2:ℕ)*(cos (mi*z_t))^(2:ℕ)*a_t/(4:ℝ) - bS*(cos
    (mi*z_t))^(2:ℕ)*a_t/((4:ℝ)*mi^(2:ℕ)) : ℝ) + z_t*(sin (mi*z_t))^(2:ℕ)*b_t*a_t/(2:ℝ) + z_t*(cos
    (mi*z_t))^(2:ℕ)*b_t*a_t/(2:ℝ) - cos (mi*z_t)*sin (mi*z_t)*b_t*a_t/((2:ℝ)*mi)) + mi^(4:ℕ)*((((((aS*bS*z_b*(sin
    (mi*z_b))^(2:ℕ)*z_t^(2:ℕ)/(2:ℝ) + aS*bS*z_b*(cos (mi*z_b))^(2:ℕ)*z_t^(2:ℕ)/(2:ℝ) - aS*bS*z_b^(2:ℕ)*(sin
    (mi*z_b))^(2:ℕ)*z_t/(2:ℝ) - aS*bS*z_b^(2:ℕ)*(cos (mi*z_b))^(2:ℕ)*z_t/(2:ℝ) + aS*bS*z_b^(3:ℕ)*(sin
    (mi*z_b))^(2:ℕ)/(6:ℝ) + aS*bS*z_b^(3:ℕ)*(cos (mi*z_b))^(2:ℕ)/(6:ℝ) : ℝ) - aS*bS*cos (mi*z_b)*sin
    (mi*z_b)*z_t^(2:ℕ)/((2:ℝ)*mi) + aS*bS*z_b*cos (mi*z_b)*sin (mi*z_b)*z_t/mi - aS*bS*z_b^(2:ℕ)*cos (mi*z_b)*sin
    (mi*z_b)/((2:ℝ)*mi) + aS*bS*(cos (mi*z_b))^(2:ℕ)*z_t/((2:ℝ)*mi^(2:ℕ)) + aS*bS*z_b*(sin
    (mi*z_b))^(2:ℕ)/((4:ℝ)*mi^(2:ℕ)) : ℝ) - aS*bS*z_b*(cos (mi*z_b))^(2:ℕ)/((4:ℝ)*mi^(2:ℕ)) + aS*bS*cos (mi*z_b)*sin
    (mi*z_b)/((4:ℝ)*mi^(3:ℕ)) - aS*z_b*(sin (mi*z_b))^(2:ℕ)*z_t*b_t/(2:ℝ) - aS*z_b*(cos (mi*z_b))^(2:ℕ)*z_t*b_t/(2:ℝ)
    + aS*z_b^(2:ℕ)*(sin (mi*z_b))^(2:ℕ)*b_t/(4:ℝ) : ℝ) + aS*z_b^(2:ℕ)*(cos (mi*z_b))^(2:ℕ)*b_t/(4:ℝ) + aS*cos
    (mi*z_b)*sin (mi*z_b)*z_t*b_t/((2:ℝ)*mi) - aS*z_b*cos (mi*z_b)*sin (mi*z_b)*b_t/((2:ℝ)*mi) - aS*(cos
    (mi*z_b))^(2:ℕ)*b_t/((4:ℝ)*mi^(2:ℕ)) - bS*z_b*(sin (mi*z_b))^(2:ℕ)*z_t*a_t/(2:ℝ) : ℝ) - bS*z_b*(cos
    (mi*z_b))^(2:ℕ)*z_t*a_t/(2:ℝ) + bS*z_b^(2:ℕ)*(sin (mi*z_b))^(2:ℕ)*a_t/(4:ℝ) + bS*z_b^(2:ℕ)*(cos
    (mi*z_b))^(2:ℕ)*a_t/(4:ℝ) + bS*cos (mi*z_b)*sin (mi*z_b)*z_t*a_t/((2:ℝ)*mi) - bS*z_b*cos (mi*z_b)*sin
    (mi*z_b)*a_t/((2:ℝ)*mi) : ℝ) - bS*(cos (mi*z_b))^(2:ℕ)*a_t/((4:ℝ)*mi^(2:ℕ)) + z_b*(sin
    (mi*z_b))^(2:ℕ)*b_t*a_t/(2:ℝ) + z_b*(cos (mi*z_b))^(2:ℕ)*b_t*a_t/(2:ℝ) - cos (mi*z_b)*sin
    (mi*z_b)*b_t*a_t/((2:ℝ)*mi))

/-- Off-diagonal entry, one layer, vectorized, `dim1sin_DD_abDDf_linear`, geotecha/speccon/integrals.py:7148-7262. -/
noncomputable def DDabDDf_off_v (aS bS a_t b_t z_t z_b mi mj : ℝ) : ℝ :=
  -mi^(2:ℕ)*mj^(2:ℕ)*(((((2:ℝ)*aS*bS*mi^(3:ℕ)*cos (mi*z_t)*sin (mj*z_t)/(mi^(6:ℕ) - (3:ℝ)*mi^(4:ℕ)*mj^(2:ℕ) +
    (3:ℝ)*mi^(2:ℕ)*mj^(4:ℕ) - mj^(6:ℕ)) - (6:ℝ)*aS*bS*mi^(2:ℕ)*mj*cos (mj*z_t)*sin (mi*z_t)/(mi^(6:ℕ) -
    (3:ℝ)*mi^(4:ℕ)*mj^(2:ℕ) + (3:ℝ)*mi^(2:ℕ)*mj^(4:ℕ) - mj^(6:ℕ)) + (6:ℝ)*aS*bS*mi*mj^(2:ℕ)*cos (mi*z_t)*sin
    (mj*z_t)/(mi^(6:ℕ) - (3:ℝ)*mi^(4:ℕ)*mj^(2:ℕ) + (3:ℝ)*mi^(2:ℕ)*mj^(4:ℕ) - mj^(6:ℕ)) - (2:ℝ)*aS*bS*mj^(3:ℕ)*cos
    (mj*z_t)*sin (mi*z_t)/(mi^(6:ℕ) - (3:ℝ)*mi^(4:ℕ)*mj^(2:ℕ) + (3:ℝ)*mi^(2:ℕ)*mj^(4:ℕ) - mj^(6:ℕ)) + aS*mi^(4:ℕ)*sin
    (mi*z_t)*sin (mj*z_t)*b_t/(mi^(6:ℕ) - (3:ℝ)*mi^(4:ℕ)*mj^(2:ℕ) + (3:ℝ)*mi^(2:ℕ)*mj^(4:ℕ) - mj^(6:ℕ)) +
    (2:ℝ)*aS*mi^(3:ℕ)*mj*cos (mi*z_t)*cos (mj*z_t)*b_t/(mi^(6:ℕ) - (3:ℝ)*mi^(4:ℕ)*mj^(2:ℕ) + (3:ℝ)*mi^(2:ℕ)*mj^(4:ℕ) -
    mj^(6:ℕ)) : ℝ) - (2:ℝ)*aS*mi*mj^(3:ℕ)*cos (mi*z_t)*cos (mj*z_t)*b_t/(mi^(6:ℕ) - (3:ℝ)*mi^(4:ℕ)*mj^(2:ℕ) +
    (3:ℝ)*mi^(2:ℕ)*mj^(4:ℕ) - mj^(6:ℕ)) - aS*mj^(4:ℕ)*sin (mi*z_t)*sin (mj*z_t)*b_t/(mi^(6:ℕ) -
    (3:ℝ)*mi^(4:ℕ)*mj^(2:ℕ) + (3:ℝ)*mi^(2:ℕ)*mj^(4:ℕ) - mj^(6:ℕ)) + bS*mi^(4:ℕ)*sin (mi*z_t)*sin
    (mj*z_t)*a_t/(mi^(6:ℕ) - (3:ℝ)*mi^(4:ℕ)*mj^(2:ℕ) + (3:ℝ)*mi^(2:ℕ)*mj^(4:ℕ) - mj^(6:ℕ)) + (2:ℝ)*bS*mi^(3:ℕ)*mj*cos
    (mi*z_t)*cos (mj*z_t)*a_t/(mi^(6:ℕ) - (3:ℝ)*mi^(4:ℕ)*mj^(2:ℕ) + (3:ℝ)*mi^(2:ℕ)*mj^(4:ℕ) - mj^(6:ℕ)) -
    (2:ℝ)*bS*mi*mj^(3:ℕ)*cos (mi*z_t)*cos (mj*z_t)*a_t/(mi^(6:ℕ) - (3:ℝ)*mi^(4:ℕ)*mj^(2:ℕ) + (3:ℝ)*mi^(2:ℕ)*mj^(4:ℕ) -
    mj^(6:ℕ)) : ℝ) - bS*mj^(4:ℕ)*sin (mi*z_t)*sin (mj*z_t)*a_t/(mi^(6:ℕ) - (3:ℝ)*mi^(4:ℕ)*mj^(2:ℕ) +
    (3:ℝ)*mi^(2:ℕ)*mj^(4:ℕ) - mj^(6:ℕ)) - mi^(5:ℕ)*cos (mi*z_t)*sin (mj*z_t)*b_t*a_t/(mi^(6:ℕ) -
    (3:ℝ)*mi^(4:ℕ)*mj^(2:ℕ) + (3:ℝ)*mi^(2:ℕ)*mj^(4:ℕ) - mj^(6:ℕ)) + mi^(4:ℕ)*mj*cos (mj*z_t)*sin
    (mi*z_t)*b_t*a_t/(mi^(6:ℕ) - (3:ℝ)*mi^(4:ℕ)*mj^(2:ℕ) + (3:ℝ)*mi^(2:ℕ)*mj^(4:ℕ) - mj^(6:ℕ)) +
    (2:ℝ)*mi^(3:ℕ)*mj^(2:ℕ)*cos (mi*z_t)*sin (mj*z_t)*b_t*a_t/(mi^(6:ℕ) - (3:ℝ)*mi^(4:ℕ)*mj^(2:ℕ) +
    (3:ℝ)*mi^(2:ℕ)*mj^(4:ℕ) - mj^(6:ℕ)) - (2:ℝ)*mi^(2:ℕ)*mj^(3:ℕ)*cos (mj*z_t)*sin (mi*z_t)*b_t*a_t/(mi^(6:ℕ) -
    (3:ℝ)*mi^(4:ℕ)*mj^(2:ℕ) + (3:ℝ)*mi^(2:ℕ)*mj^(4:ℕ) - mj^(6:ℕ)) : ℝ) - mi*mj^(4:ℕ)*cos (mi*z_t)*sin
    (mj*z_t)*b_t*a_t/(mi^(6:ℕ) - (3:ℝ)*mi^(4:ℕ)*mj^(2:ℕ) + (3:ℝ)*mi^(2:ℕ)*mj^(4:ℕ) - mj^(6:ℕ)) + mj^(5:ℕ)*cos
    (mj*z_t)*sin (mi*z_t)*b_t*a_t/(mi^(6:ℕ) - (3:ℝ)*mi^(4:ℕ)*mj^(2:ℕ) + (3:ℝ)*mi^(2:ℕ)*mj^(4:ℕ) - mj^(6:ℕ))) +
    mi^(2:ℕ)*mj^(2:ℕ)*((((((((((((((-aS*bS*mi^(5:ℕ)*cos (mi*z_b)*sin (mj*z_b)*z_t^(2:ℕ)/(mi^(6:ℕ) -
    (3:ℝ)*mi^(4:ℕ)*mj^(2:ℕ) + (3:ℝ)*mi^(2:ℕ)*mj^(4:ℕ) - mj^(6:ℕ)) + (2:ℝ)*aS*bS*mi^(5:ℕ)*z_b*cos (mi*z_b)*sin
    (mj*z_b)*z_t/(mi^(6:ℕ) - (3:ℝ)*mi^(4:ℕ)*mj^(2:ℕ) + (3:ℝ)*mi^(2:ℕ)*mj^(4:ℕ) - mj^(6:ℕ)) -
    aS*bS*mi^(5:ℕ)*z_b^(2:ℕ)*cos (mi*z_b)*sin (mj*z_b)/(mi^(6:ℕ) - (3:ℝ)*mi^(4:ℕ)*mj^(2:ℕ) + (3:ℝ)*mi^(2:ℕ)*mj^(4:ℕ) -
    mj^(6:ℕ)) + aS*bS*mi^(4:ℕ)*mj*cos (mj*z_b)*sin (mi*z_b)*z_t^(2:ℕ)/(mi^(6:ℕ) - (3:ℝ)*mi^(4:ℕ)*mj^(2:ℕ) +
    (3:ℝ)*mi^(2:ℕ)*mj^(4:ℕ) - mj^(6:ℕ)) - (2:ℝ)*aS*bS*mi^(4:ℕ)*mj*z_b*cos (mj*z_b)*sin (mi*z_b)*z_t/(mi^(6:ℕ) -
    (3:ℝ)*mi^(4:ℕ)*mj^(2:ℕ) + (3:ℝ)*mi^(2:ℕ)*mj^(4:ℕ) - mj^(6:ℕ)) + aS*bS*mi^(4:ℕ)*mj*z_b^(2:ℕ)*cos (mj*z_b)*sin
    (mi*z_b)/(mi^(6:ℕ) - (3:ℝ)*mi^(4:ℕ)*mj^(2:ℕ) + (3:ℝ)*mi^(2:ℕ)*mj^(4:ℕ) - mj^(6:ℕ)) : ℝ) - (2:ℝ)*aS*bS*mi^(4:ℕ)*sin
    (mi*z_b)*sin (mj*z_b)*z_t/(mi^(6:ℕ) - (3:ℝ)*mi^(4:ℕ)*mj^(2:ℕ) + (3:ℝ)*mi^(2:ℕ)*mj^(4:ℕ) - mj^(6:ℕ)) +
    (2:ℝ)*aS*bS*mi^(4:ℕ)*z_b*sin (mi*z_b)*sin (mj*z_b)/(mi^(6:ℕ) - (3:ℝ)*mi^(4:ℕ)*mj^(2:ℕ) + (3:ℝ)*mi^(2:ℕ)*mj^(4:ℕ) -
    mj^(6:ℕ)) + (2:ℝ)*aS*bS*mi^(3:ℕ)*mj^(2:ℕ)*cos (mi*z_b)*sin (mj*z_b)*z_t^(2:ℕ)/(mi^(6:ℕ) - (3:ℝ)*mi^(4:ℕ)*mj^(2:ℕ)
    + (3:ℝ)*mi^(2:ℕ)*mj^(4:ℕ) - mj^(6:ℕ)) - (4:ℝ)*aS*bS*mi^(3:ℕ)*mj^(2:ℕ)*z_b*cos (mi*z_b)*sin (mj*z_b)*z_t/(mi^(6:ℕ)
    - (3:ℝ)*mi^(4:ℕ)*mj^(2:ℕ) + (3:ℝ)*mi^(2:ℕ)*mj^(4:ℕ) - mj^(6:ℕ)) + (2:ℝ)*aS*bS*mi^(3:ℕ)*mj^(2:ℕ)*z_b^(2:ℕ)*cos
    (mi*z_b)*sin (mj*z_b)/(mi^(6:ℕ) - (3:ℝ)*mi^(4:ℕ)*mj^(2:ℕ) + (3:ℝ)*mi^(2:ℕ)*mj^(4:ℕ) - mj^(6:ℕ)) : ℝ) -
    (4:ℝ)*aS*bS*mi^(3:ℕ)*mj*cos (mi*z_b)*cos (mj*z_b)*z_t/(mi^(6:ℕ) - (3:ℝ)*mi^(4:ℕ)*mj^(2:ℕ) +
    (3:ℝ)*mi^(2:ℕ)*mj^(4:ℕ) - mj^(6:ℕ)) + (4:ℝ)*aS*bS*mi^(3:ℕ)*mj*z_b*cos (mi*z_b)*cos (mj*z_b)/(mi^(6:ℕ) -
    (3:ℝ)*mi^(4:ℕ)*mj^(2:ℕ) + (3:ℝ)*mi^(2:ℕ)*mj^(4:ℕ) - mj^(6:ℕ)) + (2:ℝ)*aS*bS*mi^(3:ℕ)*cos (mi*z_b)*sin
    (mj*z_b)/(mi^(6:ℕ) - (3:ℝ)*mi^(4:ℕ)*mj^(2:ℕ) + (3:ℝ)*mi^(2:ℕ)*mj^(4:ℕ) - mj^(6:ℕ)) -
    (2:ℝ)*aS*bS*mi^(2:ℕ)*mj^(3:ℕ)*cos (mj*z_b)*sin (mi*z_b)*z_t^(2:ℕ)/(mi^(6:ℕ) - (3:ℝ)*mi^(4:ℕ)*mj^(2:ℕ) +
    (3:ℝ)*mi^(2:ℕ)*mj^(4:ℕ) - mj^(6:ℕ)) + (4:ℝ)*aS*bS*mi^(2:ℕ)*mj^(3:ℕ)*z_b*cos (mj*z_b)*sin (mi*z_b)*z_t/(mi^(6:ℕ) -
    (3:ℝ)*mi^(4:ℕ)*mj^(2:ℕ) + (3:ℝ)*mi^(2:ℕ)*mj^(4:ℕ) - mj^(6:ℕ)) : ℝ) - (2:ℝ)*aS*bS*mi^(2:ℕ)*mj^(3:ℕ)*z_b^(2:ℕ)*cos
    (mj*z_b)*sin (mi*z_b)/(mi^(6:ℕ) - (3:ℝ)*mi^(4:ℕ)*mj^(2:ℕ) + (3:ℝ)*mi^(2:ℕ)*mj^(4:ℕ) - mj^(6:ℕ)) -
    (6:ℝ)*aS*bS*mi^(2:ℕ)*mj*cos (mj*z_b)*sin (mi*z_b)/(mi^(6:ℕ) - (3:ℝ)*mi^(4:ℕ)*mj^(2:ℕ) + (3:ℝ)*mi^(2:ℕ)*mj^(4:ℕ) -
    mj^(6:ℕ)) - aS*bS*mi*mj^(4:ℕ)*cos (mi*z_b)*sin (mj*z_b)*z_t^(2:ℕ)/(mi^(6:ℕ) - (3:ℝ)*mi^(4:ℕ)*mj^(2:ℕ) +
    (3:ℝ)*mi^(2:ℕ)*mj^(4:ℕ) - mj^(6:ℕ)) + (2:ℝ)*aS*bS*mi*mj^(4:ℕ)*z_b*cos (mi*z_b)*sin (mj*z_b)*z_t/(mi^(6:ℕ) -
    (3:ℝ)*mi^(4:ℕ)*mj^(2:ℕ) + (3:ℝ)*mi^(2:ℕ)*mj^(4:ℕ) - mj^(6:ℕ)) - aS*bS*mi*mj^(4:ℕ)*z_b^(2:ℕ)*cos (mi*z_b)*sin
    (mj*z_b)/(mi^(6:ℕ) - (3:ℝ)*mi^(4:ℕ)*mj^(2:ℕ) + (3:ℝ)*mi^(2:ℕ)*mj^(4:ℕ) - mj^(6:ℕ)) : ℝ) +
    (4:ℝ)*aS*bS*mi*mj^(3:ℕ)*cos (mi*z_b)*cos (mj*z_b)*z_t/(mi^(6:ℕ) - (3:ℝ)*mi^(4:ℕ)*mj^(2:ℕ) +
    (3:ℝ)*mi^(2:ℕ)*mj^(4:ℕ) - mj^(6:ℕ)) - (4:ℝ)*aS*bS*mi*mj^(3:ℕ)*z_b*cos (mi*z_b)*cos (mj*z_b)/(mi^(6:ℕ) -
    (3:ℝ)*mi^(4:ℕ)*mj^(2:ℕ) + (3:ℝ)*mi^(2:ℕ)*mj^(4:ℕ) - mj^(6:ℕ)) + (6:ℝ)*aS*bS*mi*mj^(2:ℕ)*cos (mi*z_b)*sin
    (mj*z_b)/(mi^(6:ℕ) - (3:ℝ)*mi^(4:ℕ)*mj^(2:ℕ) + (3:ℝ)*mi^(2:ℕ)*mj^(4:ℕ) - mj^(6:ℕ)) + aS*bS*mj^(5:ℕ)*cos
    (mj*z_b)*sin (mi*z_b)*z_t^(2:ℕ)/(mi^(6:ℕ) - (3:ℝ)*mi^(4:ℕ)*mj^(2:ℕ) + (3:ℝ)*mi^(2:ℕ)*mj^(4:ℕ) - mj^(6:ℕ)) -
    (2:ℝ)*aS*bS*mj^(5:ℕ)*z_b*cos (mj*z_b)*sin (mi*z_b)*z_t/(mi^(6:ℕ) - (3:ℝ)*mi^(4:ℕ)*mj^(2:ℕ) +
    (3:ℝ)*mi^(2:ℕ)*mj^(4:ℕ) - mj^(6:ℕ)) : ℝ) + aS*bS*mj^(5:ℕ)*z_b^(2:ℕ)*cos (mj*z_b)*sin (mi*z_b)/(mi^(6:ℕ) -
    (3:ℝ)*mi^(4:ℕ)*mj^(2:ℕ) + (3:ℝ)*mi^(2:ℕ)*mj^(4:ℕ) - mj^(6:ℕ)) + (2:ℝ)*aS*bS*mj^(4:ℕ)*sin (mi*z_b)*sin
    (mj*z_b)*z_t/(mi^(6:ℕ) - (3:ℝ)*mi^(4:ℕ)*mj^(2:ℕ) + (3:ℝ)*mi^(2:ℕ)*mj^(4:ℕ) - mj^(6:ℕ)) -
    (2:ℝ)*aS*bS*mj^(4:ℕ)*z_b*sin (mi*z_b)*sin (mj*z_b)/(mi^(6:ℕ) - (3:ℝ)*mi^(4:ℕ)*mj^(2:ℕ) + (3:ℝ)*mi^(2:ℕ)*mj^(4:ℕ) -
    mj^(6:ℕ)) - (2:ℝ)*aS*bS*mj^(3:ℕ)*cos (mj*z_b)*sin (mi*z_b)/(mi^(6:ℕ) - (3:ℝ)*mi^(4:ℕ)*mj^(2:ℕ) +
    (3:ℝ)*mi^(2:ℕ)*mj^(4:ℕ) - mj^(6:ℕ)) + aS*mi^(5:ℕ)*cos (mi*z_b)*sin (mj*z_b)*z_t*b_t/(mi^(6:ℕ) -
    (3:ℝ)*mi^(4:ℕ)*mj^(2:ℕ) + (3:ℝ)*mi^(2:ℕ)*mj^(4:ℕ) - mj^(6:ℕ)) : ℝ) - aS*mi^(5:ℕ)*z_b*cos (mi*z_b)*sin
    (mj*z_b)*b_t/(mi^(6:ℕ) - (3:ℝ)*mi^(4:ℕ)*mj^(2:ℕ) + (3:ℝ)*mi^(2:ℕ)*mj^(4:ℕ) - mj^(6:ℕ)) - aS*mi^(4:ℕ)*mj*cos
    (mj*z_b)*sin (mi*z_b)*z_t*b_t/(mi^(6:ℕ) - (3:ℝ)*mi^(4:ℕ)*mj^(2:ℕ) + (3:ℝ)*mi^(2:ℕ)*mj^(4:ℕ) - mj^(6:ℕ)) +
    aS*mi^(4:ℕ)*mj*z_b*cos (mj*z_b)*sin (mi*z_b)*b_t/(mi^(6:ℕ) - (3:ℝ)*mi^(4:ℕ)*mj^(2:ℕ) + (3:ℝ)*mi^(2:ℕ)*mj^(4:ℕ) -
    mj^(6:ℕ)) + aS*mi^(4:ℕ)*sin (mi*z_b)*sin (mj*z_b)*b_t/(mi^(6:ℕ) - (3:ℝ)*mi^(4:ℕ)*mj^(2:ℕ) +
    (3:ℝ)*mi^(2:ℕ)*mj^(4:ℕ) - mj^(6:ℕ)) - (2:ℝ)*aS*mi^(3:ℕ)*mj^(2:ℕ)*cos (mi*z_b)*sin (mj*z_b)*z_t*b_t/(mi^(6:ℕ) -
    (3:ℝ)*mi^(4:ℕ)*mj^(2:ℕ) + (3:ℝ)*mi^(2:ℕ)*mj^(4:ℕ) - mj^(6:ℕ)) : ℝ) + (2:ℝ)*aS*mi^(3:ℕ)*mj^(2:ℕ)*z_b*cos
    (mi*z_b)*sin (mj*z_b)*b_t/(mi^(6:ℕ) - (3:ℝ)*mi^(4:ℕ)*mj^(2:ℕ) + (3:ℝ)*mi^(2:ℕ)*mj^(4:ℕ) - mj^(6:ℕ)) +
    (2:ℝ)*aS*mi^(3:ℕ)*mj*cos (mi*z_b)*cos (mj*z_b)*b_t/(mi^(6:ℕ) - (3:ℝ)*mi^(4:ℕ)*mj^(2:ℕ) + (3:ℝ)*mi^(2:ℕ)*mj^(4:ℕ) -
    mj^(6:ℕ)) + (2:ℝ)*aS*mi^(2:ℕ)*mj^(3:ℕ)*cos (mj*z_b)*sin (mi*z_b)*z_t*b_t/(mi^(6:ℕ) - (3:ℝ)*mi^(4:ℕ)*mj^(2:ℕ) +
    (3:ℝ)*mi^(2:ℕ)*mj^(4:ℕ) - mj^(6:ℕ)) - (2:ℝ)*aS*mi^(2:ℕ)*mj^(3:ℕ)*z_b*cos (mj*z_b)*sin (mi*z_b)*b_t/(mi^(6:ℕ) -
    (3:ℝ)*mi^(4:ℕ)*mj^(2:ℕ) + (3:ℝ)*mi^(2:ℕ)*mj^(4:ℕ) - mj^(6:ℕ)) + aS*mi*mj^(4:ℕ)*cos (mi*z_b)*sin
    (mj*z_b)*z_t*b_t/(mi^(6:ℕ) - (3:ℝ)*mi^(4:ℕ)*mj^(2:ℕ) + (3:ℝ)*mi^(2:ℕ)*mj^(4:ℕ) - mj^(6:ℕ)) : ℝ) -
    aS*mi*mj^(4:ℕ)*z_b*cos (mi*z_b)*sin (mj*z_b)*b_t/(mi^(6:ℕ) - (3:ℝ)*mi^(4:ℕ)*mj^(2:ℕ) + (3:ℝ)*mi^(2:ℕ)*mj^(4:ℕ) -
    mj^(6:ℕ)) - (2:ℝ)*aS*mi*mj^(3:ℕ)*cos (mi*z_b)*cos (mj*z_b)*b_t/(mi^(6:ℕ) - (3:ℝ)*mi^(4:ℕ)*mj^(2:ℕ) +
    (3:ℝ)*mi^(2:ℕ)*mj^(4:ℕ) - mj^(6:ℕ)) - aS*mj^(5:ℕ)*cos (mj*z_b)*sin (mi*z_b)*z_t*b_t/(mi^(6:ℕ) -
    (3:ℝ)*mi^(4:ℕ)*mj^(2:ℕ) + (3:ℝ)*mi^(2:ℕ)*mj^(4:ℕ) - mj^(6:ℕ)) + aS*mj^(5:ℕ)*z_b*cos (mj*z_b)*sin
    (mi*z_b)*b_t/(mi^(6:ℕ) - (3:ℝ)*mi^(4:ℕ)*mj^(2:ℕ) + (3:ℝ)*mi^(2:ℕ)*mj^(4:ℕ) - mj^(6:ℕ)) - aS*mj^(4:ℕ)*sin
    (mi*z_b)*sin (mj*z_b)*b_t/(mi^(6:ℕ) - (3:ℝ)*mi^(4:ℕ)*mj^(2:ℕ) + (3:ℝ)*mi^(2:ℕ)*mj^(4:ℕ) - mj^(6:ℕ)) : ℝ) +
    bS*mi^(5:ℕ)*cos (mi*z_b)*sin (mj*z_b)*z_t*a_t/(mi^(6:ℕ) - (3:ℝ)*mi^(4:ℕ)*mj^(2:ℕ) + (3:ℝ)*mi^(2:ℕ)*mj^(4:ℕ) -
    mj^(6:ℕ)) - bS*mi^(5:ℕ)*z_b*cos (mi*z_b)*sin (mj*z_b)*a_t/(mi^(6:ℕ) - (3:ℝ)*mi^(4:ℕ)*mj^(2:ℕ) +
    (3:ℝ)*mi^(2:ℕ)*mj^(4:ℕ) - mj^(6:ℕ)) - bS*mi^(4:ℕ)*mj*cos (mj*z_b)*sin (mi*z_b)*z_t*a_t/(mi^(6:ℕ) -
    (3:ℝ)*mi^(4:ℕ)*mj^(2:ℕ) + (3:ℝ)*mi^(2:ℕ)*mj^(4:ℕ) - mj^(6:ℕ)) + bS*mi^(4:ℕ)*mj*z_b*cos (mj*z_b)*sin
    (mi*z_b)*a_t/(mi^(6:ℕ) - (3:ℝ)*mi^(4:ℕ)*mj^(2:ℕ) + (3:ℝ)*mi^(2:ℕ)*mj^(4:ℕ) - mj^(6:ℕ)) + bS*mi^(4:ℕ)*sin
    (mi*z_b)*sin (mj*z_b)*a_t/(mi^(6:ℕ) - (3:ℝ)*mi^(4:ℕ)*mj^(2:ℕ) + (3:ℝ)*mi^(2:ℕ)*mj^(4:ℕ) - mj^(6:ℕ)) : ℝ) -
    (2:ℝ)*bS*mi^(3:ℕ)*mj^(2:ℕ)*cos (mi*z_b)*sin (mj*z_b)*z_t*a_t/(mi^(6:ℕ) - (3:ℝ)*mi^(4:ℕ)*mj^(2:ℕ) +
    (3:ℝ)*mi^(2:ℕ)*mj^(4:ℕ) - mj^(6:ℕ)) + (2:ℝ)*bS*mi^(3:ℕ)*mj^(2:ℕ)*z_b*cos (mi*z_b)*sin (mj*z_b)*a_t/(mi^(6:ℕ) -
    (3:ℝ)*mi^(4:ℕ)*mj^(2:ℕ) + (3:ℝ)*mi^(2:ℕ)*mj^(4:ℕ) - mj^(6:ℕ)) + (2:ℝ)*bS*mi^(3:ℕ)*mj*cos (mi*z_b)*cos
    (mj*z_b)*a_t/(mi^(6:ℕ) - (3:ℝ)*mi^(4:ℕ)*mj^(2:ℕ) + (3:ℝ)*mi^(2:ℕ)*mj^(4:ℕ) - mj^(6:ℕ)) +
    (2:ℝ)*bS*mi^(2:ℕ)*mj^(3:ℕ)*cos (mj*z_b)*sin (mi*z_b)*z_t*a_t/(mi^(6:ℕ) - (3:ℝ)*mi^(4:ℕ)*mj^(2:ℕ) +
    (3:ℝ)*mi^(2:ℕ)*mj^(4:ℕ) - mj^(6:ℕ)) - (2:ℝ)*bS*mi^(2:ℕ)*mj^(3:ℕ)*z_b*cos (mj*z_b)*sin (mi*z_b)*a_t/(mi^(6:ℕ) -
    (3:ℝ)*mi^(4:ℕ)*mj^(2:ℕ) + (3:ℝ)*mi^(2:ℕ)*mj^(4:ℕ) - mj^(6:ℕ)) : ℝ) + bS*mi*mj^(4:ℕ)*cos (mi*z_b)*sin
    (mj*z_b)*z_t*a_t/(mi^(6:ℕ) - (3:ℝ)*mi^(4:ℕ)*mj^(2:ℕ) + (3:ℝ)*mi^(2:ℕ)*mj^(4:ℕ) - mj^(6:ℕ)) -
    bS*mi*mj^(4:ℕ)*z_b*cos (mi*z_b)*sin (mj*z_b)*a_t/(mi^(6:ℕ) - (3:ℝ)*mi^(4:ℕ)*mj^(2:ℕ) + (3:ℝ)*mi^(2:ℕ)*mj^(4:ℕ) -
    mj^(6:ℕ)) - (2:ℝ)*bS*mi*mj^(3:ℕ)*cos (mi*z_b)*cos (mj*z_b)*a_t/(mi^(6:ℕ) - (3:ℝ)*mi^(4:ℕ)*mj^(2:ℕ) +
    (3:ℝ)*mi^(2:ℕ)*mj^(4:ℕ) - mj^(6:ℕ)) - bS*mj^(5:ℕ)*cos (mj*z_b)*sin (mi*z_b)*z_t*a_t/(mi^(6:ℕ) -
    (3:ℝ)*mi^(4:ℕ)*mj^(2:ℕ) + (3:ℝ)*mi^(2:ℕ)*mj^(4:ℕ) - mj^(6:ℕ)) + bS*mj^(5:ℕ)*z_b*cos (mj*z_b)*sin
    (mi*z_b)*a_t/(mi^(6:ℕ) - (3:ℝ)*mi^(4:ℕ)*mj^(2:ℕ) + (3:ℝ)*mi^(2:ℕ)*mj^(4:ℕ) - mj^(6:ℕ)) : ℝ) - bS*mj^(4:ℕ)*sin
    (mi*z_b)*sin (mj*z_b)*a_t/(mi^(6:ℕ) - (3:ℝ)*mi^(4:ℕ)*mj^(2:ℕ) + (3:ℝ)*mi^(2:ℕ)*mj^(4:ℕ) - mj^(6:ℕ)) - mi^(5:ℕ)*cos
    (mi*z_b)*sin (mj*z_b)*b_t*a_t/(mi^(6:ℕ) - (3:ℝ)*mi^(4:ℕ)*mj^(2:ℕ) + (3:ℝ)*mi^(2:ℕ)*mj^(4:ℕ) - mj^(6:ℕ)) +
    mi^(4:ℕ)*mj*cos (mj*z_b)*sin (mi*z_b)*b_t*a_t/(mi^(6:ℕ) - (3:ℝ)*mi^(4:ℕ)*mj^(2:ℕ) + (3:ℝ)*mi^(2:ℕ)*mj^(4:ℕ) -
    mj^(6:ℕ)) + (2:ℝ)*mi^(3:ℕ)*mj^(2:ℕ)*cos (mi*z_b)*sin (mj*z_b)*b_t*a_t/(mi^(6:ℕ) - (3:ℝ)*mi^(4:ℕ)*mj^(2:ℕ) +
    (3:ℝ)*mi^(2:ℕ)*mj^(4:ℕ) - mj^(6:ℕ)) - (2:ℝ)*mi^(2:ℕ)*mj^(3:ℕ)*cos (mj*z_b)*sin (mi*z_b)*b_t*a_t/(mi^(6:ℕ) -
    (3:ℝ)*mi^(4:ℕ)*mj^(2:ℕ) + (3:ℝ)*mi^(2:ℕ)*mj^(4:ℕ) - mj^(6:ℕ)) : ℝ) - mi*mj^(4:ℕ)*cos (mi*z_b)*sin
    (mj*z_b)*b_t*a_t/(mi^(6:ℕ) - (3:ℝ)*mi^(4:ℕ)*mj^(2:ℕ) + (3:ℝ)*mi^(2:ℕ)*mj^(4:ℕ) - mj^(6:ℕ)) + mj^(5:ℕ)*cos
    (mj*z_b)*sin (mi*z_b)*b_t*a_t/(mi^(6:ℕ) - (3:ℝ)*mi^(4:ℕ)*mj^(2:ℕ) + (3:ℝ)*mi^(2:ℕ)*mj^(4:ℕ) - mj^(6:ℕ)))

/-- One layer, scalar, `dim1sin_ab_linear`, geotecha/speccon/integrals.py:2254-2269. -/
noncomputable def ab_s (aS bS a_t b_t z_t z_b mi : ℝ) : ℝ :=
  ((((2:ℝ)*aS*bS*(mi^(3:ℕ))⁻¹*cos (mi*z_b) - (2:ℝ)*aS*bS*(mi^(3:ℕ))⁻¹*cos (mi*z_t) - (2:ℝ)*aS*bS*(mi^(2:ℕ))⁻¹*sin
    (mi*z_b)*z_t + (2:ℝ)*aS*bS*(mi^(2:ℕ))⁻¹*z_b*sin (mi*z_b) - aS*bS*mi⁻¹*cos (mi*z_b)*z_t^(2:ℕ) +
    (2:ℝ)*aS*bS*mi⁻¹*z_b*cos (mi*z_b)*z_t : ℝ) - aS*bS*mi⁻¹*z_b^(2:ℕ)*cos (mi*z_b) + aS*(mi^(2:ℕ))⁻¹*sin (mi*z_b)*b_t
    - aS*(mi^(2:ℕ))⁻¹*sin (mi*z_t)*b_t + aS*mi⁻¹*cos (mi*z_b)*z_t*b_t - aS*mi⁻¹*z_b*cos (mi*z_b)*b_t : ℝ) +
    bS*(mi^(2:ℕ))⁻¹*sin (mi*z_b)*a_t - bS*(mi^(2:ℕ))⁻¹*sin (mi*z_t)*a_t + bS*mi⁻¹*cos (mi*z_b)*z_t*a_t -
    bS*mi⁻¹*z_b*cos (mi*z_b)*a_t - mi⁻¹*cos (mi*z_b)*b_t*a_t : ℝ) + mi⁻¹*cos (mi*z_t)*b_t*a_t

/-- One layer, vectorized, `dim1sin_ab_linear`, geotecha/speccon/integrals.py:2290-2297. -/
noncomputable def ab_v (aS bS a_t b_t z_t z_b mi : ℝ) : ℝ :=
  (((-aS*bS*cos (mi*z_b)*z_t^(2:ℕ)/mi + (2:ℝ)*aS*bS*z_b*cos (mi*z_b)*z_t/mi - aS*bS*z_b^(2:ℕ)*cos (mi*z_b)/mi -
    (2:ℝ)*aS*bS*sin (mi*z_b)*z_t/mi^(2:ℕ) + (2:ℝ)*aS*bS*z_b*sin (mi*z_b)/mi^(2:ℕ) + (2:ℝ)*aS*bS*cos (mi*z_b)/mi^(3:ℕ)
    : ℝ) - (2:ℝ)*aS*bS*cos (mi*z_t)/mi^(3:ℕ) + aS*cos (mi*z_b)*z_t*b_t/mi - aS*z_b*cos (mi*z_b)*b_t/mi + aS*sin
    (mi*z_b)*b_t/mi^(2:ℕ) - aS*sin (mi*z_t)*b_t/mi^(2:ℕ) : ℝ) + bS*cos (mi*z_b)*z_t*a_t/mi - bS*z_b*cos
    (mi*z_b)*a_t/mi + bS*sin (mi*z_b)*a_t/mi^(2:ℕ) - bS*sin (mi*z_t)*a_t/mi^(2:ℕ) - cos (mi*z_b)*b_t*a_t/mi : ℝ) + cos
    (mi*z_t)*b_t*a_t/mi

/-- One layer, scalar, `dim1sin_abc_linear`, geotecha/speccon/integrals.py:2403-2449. -/
noncomputable def abc_s (aS bS cS a_t b_t c_t z_t z_b mi : ℝ) : ℝ :=
  (((((((((-(6:ℝ)*aS*bS*cS*(mi^(4:ℕ))⁻¹*sin (mi*z_b) + (6:ℝ)*aS*bS*cS*(mi^(4:ℕ))⁻¹*sin (mi*z_t) -
    (6:ℝ)*aS*bS*cS*(mi^(3:ℕ))⁻¹*cos (mi*z_b)*z_t + (6:ℝ)*aS*bS*cS*(mi^(3:ℕ))⁻¹*z_b*cos (mi*z_b) +
    (3:ℝ)*aS*bS*cS*(mi^(2:ℕ))⁻¹*sin (mi*z_b)*z_t^(2:ℕ) - (6:ℝ)*aS*bS*cS*(mi^(2:ℕ))⁻¹*z_b*sin (mi*z_b)*z_t : ℝ) +
    (3:ℝ)*aS*bS*cS*(mi^(2:ℕ))⁻¹*z_b^(2:ℕ)*sin (mi*z_b) + aS*bS*cS*mi⁻¹*cos (mi*z_b)*z_t^(3:ℕ) -
    (3:ℝ)*aS*bS*cS*mi⁻¹*z_b*cos (mi*z_b)*z_t^(2:ℕ) + (3:ℝ)*aS*bS*cS*mi⁻¹*z_b^(2:ℕ)*cos (mi*z_b)*z_t -
    aS*bS*cS*mi⁻¹*z_b^(3:ℕ)*cos (mi*z_b) : ℝ) + (2:ℝ)*aS*bS*(mi^(3:ℕ))⁻¹*cos (mi*z_b)*c_t -
    (2:ℝ)*aS*bS*(mi^(3:ℕ))⁻¹*cos (mi*z_t)*c_t - (2:ℝ)*aS*bS*(mi^(2:ℕ))⁻¹*sin (mi*z_b)*z_t*c_t +
    (2:ℝ)*aS*bS*(mi^(2:ℕ))⁻¹*z_b*sin (mi*z_b)*c_t - aS*bS*mi⁻¹*cos (mi*z_b)*z_t^(2:ℕ)*c_t : ℝ) +
    (2:ℝ)*aS*bS*mi⁻¹*z_b*cos (mi*z_b)*z_t*c_t - aS*bS*mi⁻¹*z_b^(2:ℕ)*cos (mi*z_b)*c_t + (2:ℝ)*aS*cS*(mi^(3:ℕ))⁻¹*cos
    (mi*z_b)*b_t - (2:ℝ)*aS*cS*(mi^(3:ℕ))⁻¹*cos (mi*z_t)*b_t - (2:ℝ)*aS*cS*(mi^(2:ℕ))⁻¹*sin (mi*z_b)*z_t*b_t : ℝ) +
    (2:ℝ)*aS*cS*(mi^(2:ℕ))⁻¹*z_b*sin (mi*z_b)*b_t - aS*cS*mi⁻¹*cos (mi*z_b)*z_t^(2:ℕ)*b_t + (2:ℝ)*aS*cS*mi⁻¹*z_b*cos
    (mi*z_b)*z_t*b_t - aS*cS*mi⁻¹*z_b^(2:ℕ)*cos (mi*z_b)*b_t + aS*(mi^(2:ℕ))⁻¹*sin (mi*z_b)*c_t*b_t : ℝ) -
    aS*(mi^(2:ℕ))⁻¹*sin (mi*z_t)*c_t*b_t + aS*mi⁻¹*cos (mi*z_b)*z_t*c_t*b_t - aS*mi⁻¹*z_b*cos (mi*z_b)*c_t*b_t +
    (2:ℝ)*bS*cS*(mi^(3:ℕ))⁻¹*cos (mi*z_b)*a_t - (2:ℝ)*bS*cS*(mi^(3:ℕ))⁻¹*cos (mi*z_t)*a_t : ℝ) -
    (2:ℝ)*bS*cS*(mi^(2:ℕ))⁻¹*sin (mi*z_b)*z_t*a_t + (2:ℝ)*bS*cS*(mi^(2:ℕ))⁻¹*z_b*sin (mi*z_b)*a_t - bS*cS*mi⁻¹*cos
    (mi*z_b)*z_t^(2:ℕ)*a_t + (2:ℝ)*bS*cS*mi⁻¹*z_b*cos (mi*z_b)*z_t*a_t - bS*cS*mi⁻¹*z_b^(2:ℕ)*cos (mi*z_b)*a_t : ℝ) +
    bS*(mi^(2:ℕ))⁻¹*sin (mi*z_b)*c_t*a_t - bS*(mi^(2:ℕ))⁻¹*sin (mi*z_t)*c_t*a_t + bS*mi⁻¹*cos (mi*z_b)*z_t*c_t*a_t -
    bS*mi⁻¹*z_b*cos (mi*z_b)*c_t*a_t + cS*(mi^(2:ℕ))⁻¹*sin (mi*z_b)*b_t*a_t : ℝ) - cS*(mi^(2:ℕ))⁻¹*sin
    (mi*z_t)*b_t*a_t + cS*mi⁻¹*cos (mi*z_b)*z_t*b_t*a_t - cS*mi⁻¹*z_b*cos (mi*z_b)*b_t*a_t - mi⁻¹*cos
    (mi*z_b)*c_t*b_t*a_t + mi⁻¹*cos (mi*z_t)*c_t*b_t*a_t : ℝ)

/-- One layer, vectorized, `dim1sin_abc_linear`, geotecha/speccon/integrals.py:2473-2498. -/
noncomputable def abc_v (aS bS cS a_t b_t c_t z_t z_b mi : ℝ) : ℝ :=
  (((((((((aS*bS*cS*cos (mi*z_b)*z_t^(3:ℕ)/mi - (3:ℝ)*aS*bS*cS*z_b*cos (mi*z_b)*z_t^(2:ℕ)/mi +
    (3:ℝ)*aS*bS*cS*z_b^(2:ℕ)*cos (mi*z_b)*z_t/mi - aS*bS*cS*z_b^(3:ℕ)*cos (mi*z_b)/mi + (3:ℝ)*aS*bS*cS*sin
    (mi*z_b)*z_t^(2:ℕ)/mi^(2:ℕ) - (6:ℝ)*aS*bS*cS*z_b*sin (mi*z_b)*z_t/mi^(2:ℕ) : ℝ) + (3:ℝ)*aS*bS*cS*z_b^(2:ℕ)*sin
    (mi*z_b)/mi^(2:ℕ) - (6:ℝ)*aS*bS*cS*cos (mi*z_b)*z_t/mi^(3:ℕ) + (6:ℝ)*aS*bS*cS*z_b*cos (mi*z_b)/mi^(3:ℕ) -
    (6:ℝ)*aS*bS*cS*sin (mi*z_b)/mi^(4:ℕ) + (6:ℝ)*aS*bS*cS*sin (mi*z_t)/mi^(4:ℕ) : ℝ) - aS*bS*cos
    (mi*z_b)*z_t^(2:ℕ)*c_t/mi + (2:ℝ)*aS*bS*z_b*cos (mi*z_b)*z_t*c_t/mi - aS*bS*z_b^(2:ℕ)*cos (mi*z_b)*c_t/mi -
    (2:ℝ)*aS*bS*sin (mi*z_b)*z_t*c_t/mi^(2:ℕ) + (2:ℝ)*aS*bS*z_b*sin (mi*z_b)*c_t/mi^(2:ℕ) : ℝ) + (2:ℝ)*aS*bS*cos
    (mi*z_b)*c_t/mi^(3:ℕ) - (2:ℝ)*aS*bS*cos (mi*z_t)*c_t/mi^(3:ℕ) - aS*cS*cos (mi*z_b)*z_t^(2:ℕ)*b_t/mi +
    (2:ℝ)*aS*cS*z_b*cos (mi*z_b)*z_t*b_t/mi - aS*cS*z_b^(2:ℕ)*cos (mi*z_b)*b_t/mi : ℝ) - (2:ℝ)*aS*cS*sin
    (mi*z_b)*z_t*b_t/mi^(2:ℕ) + (2:ℝ)*aS*cS*z_b*sin (mi*z_b)*b_t/mi^(2:ℕ) + (2:ℝ)*aS*cS*cos (mi*z_b)*b_t/mi^(3:ℕ) -
    (2:ℝ)*aS*cS*cos (mi*z_t)*b_t/mi^(3:ℕ) + aS*cos (mi*z_b)*z_t*c_t*b_t/mi : ℝ) - aS*z_b*cos (mi*z_b)*c_t*b_t/mi +
    aS*sin (mi*z_b)*c_t*b_t/mi^(2:ℕ) - aS*sin (mi*z_t)*c_t*b_t/mi^(2:ℕ) - bS*cS*cos (mi*z_b)*z_t^(2:ℕ)*a_t/mi +
    (2:ℝ)*bS*cS*z_b*cos (mi*z_b)*z_t*a_t/mi : ℝ) - bS*cS*z_b^(2:ℕ)*cos (mi*z_b)*a_t/mi - (2:ℝ)*bS*cS*sin
    (mi*z_b)*z_t*a_t/mi^(2:ℕ) + (2:ℝ)*bS*cS*z_b*sin (mi*z_b)*a_t/mi^(2:ℕ) + (2:ℝ)*bS*cS*cos (mi*z_b)*a_t/mi^(3:ℕ) -
    (2:ℝ)*bS*cS*cos (mi*z_t)*a_t/mi^(3:ℕ) : ℝ) + bS*cos (mi*z_b)*z_t*c_t*a_t/mi - bS*z_b*cos (mi*z_b)*c_t*a_t/mi +
    bS*sin (mi*z_b)*c_t*a_t/mi^(2:ℕ) - bS*sin (mi*z_t)*c_t*a_t/mi^(2:ℕ) + cS*cos (mi*z_b)*z_t*b_t*a_t/mi : ℝ) -
    cS*z_b*cos (mi*z_b)*b_t*a_t/mi + cS*sin (mi*z_b)*b_t*a_t/mi^(2:ℕ) - cS*sin (mi*z_t)*b_t*a_t/mi^(2:ℕ) - cos
    (mi*z_b)*c_t*b_t*a_t/mi + cos (mi*z_t)*c_t*b_t*a_t/mi : ℝ)

/-- One layer, scalar, `dim1sin_D_aDb_linear`, geotecha/speccon/integrals.py:2629-2633. -/
noncomputable def DaDb_s (aS bS a_t z_t z_b mi : ℝ) : ℝ :=
  bS*mi*(aS*(mi^(2:ℕ))⁻¹*cos (z_t*mi) + a_t*mi⁻¹*sin (z_t*mi)) - bS*mi*(aS*(mi^(2:ℕ))⁻¹*cos (z_b*mi) + aS*z_b*mi⁻¹*sin
    (z_b*mi) - aS*z_t*mi⁻¹*sin (z_b*mi) + a_t*mi⁻¹*sin (z_b*mi))

/-- End terms, scalar, `dim1sin_D_aDb_linear`, geotecha/speccon/integrals.py:2636-2638. -/
noncomputable def DaDb_end_s (mi a_bn a_t0 b_b0 b_bn b_t0 b_tn z_b0 z_bn z_t0 z_tn : ℝ) : ℝ :=
  -(z_b0 - z_t0)⁻¹*(b_b0 - b_t0)*a_t0*sin (z_t0*mi) + (z_bn - z_tn)⁻¹*(b_bn - b_tn)*a_bn*sin (z_bn*mi)

/-- End terms, vectorized, `dim1sin_D_aDb_linear`, geotecha/speccon/integrals.py:2661-2662. -/
noncomputable def DaDb_end_v (mi a_bn a_t0 b_b0 b_bn b_t0 b_tn z_b0 z_bn z_t0 z_tn : ℝ) : ℝ :=
  -(z_b0 - z_t0)⁻¹*sin (mi*z_t0)*(b_b0 - b_t0)*a_t0 + sin (mi*z_bn)*(z_bn - z_tn)⁻¹*(b_bn - b_tn)*a_bn

/-- One layer, vectorized, `dim1sin_D_aDb_linear`, geotecha/speccon/integrals.py:2658-2659. -/
noncomputable def DaDb_v (aS bS a_t z_t z_b mi : ℝ) : ℝ :=
  bS*mi*(aS*cos (mi*z_t)/mi^(2:ℕ) + sin (mi*z_t)*a_t/mi) - bS*mi*(-aS*sin (mi*z_b)*z_t/mi + aS*z_b*sin (mi*z_b)/mi +
    aS*cos (mi*z_b)/mi^(2:ℕ) + sin (mi*z_b)*a_t/mi)

/-- One layer (z1, z2 the limits), `dim1sin_a_linear_between`, geotecha/speccon/integrals.py:1191-1196. -/
noncomputable def between_both (aS a_t z_t mj z1 z2 : ℝ) : ℝ :=
  (-aS*(mj^(2:ℕ))⁻¹*sin (mj*z1) + aS*(mj^(2:ℕ))⁻¹*sin (mj*z2) + aS*mj⁻¹*z1*cos (mj*z1) - aS*mj⁻¹*z2*cos (mj*z2) -
    aS*z_t*mj⁻¹*cos (mj*z1) + aS*z_t*mj⁻¹*cos (mj*z2) : ℝ) + a_t*mj⁻¹*cos (mj*z1) - a_t*mj⁻¹*cos (mj*z2)

/-- One layer (z1, z2 the limits), `dim1sin_a_linear_between`, geotecha/speccon/integrals.py:1200-1205. -/
noncomputable def between_first (aS a_t z_t z_b mj z1 : ℝ) : ℝ :=
  (-aS*(mj^(2:ℕ))⁻¹*sin (mj*z1) + aS*(mj^(2:ℕ))⁻¹*sin (z_b*mj) + aS*mj⁻¹*z1*cos (mj*z1) - aS*z_b*mj⁻¹*cos (z_b*mj) -
    aS*z_t*mj⁻¹*cos (mj*z1) + aS*z_t*mj⁻¹*cos (z_b*mj) : ℝ) + a_t*mj⁻¹*cos (mj*z1) - a_t*mj⁻¹*cos (z_b*mj)

/-- One layer (z1, z2 the limits), `dim1sin_a_linear_between`, geotecha/speccon/integrals.py:1209-1213. -/
noncomputable def between_mid (aS a_t z_t z_b mj : ℝ) : ℝ :=
  (aS*(mj^(2:ℕ))⁻¹*sin (z_b*mj) - aS*(mj^(2:ℕ))⁻¹*sin (z_t*mj) - aS*z_b*mj⁻¹*cos (z_b*mj) + aS*z_t*mj⁻¹*cos (z_b*mj) -
    a_t*mj⁻¹*cos (z_b*mj) + a_t*mj⁻¹*cos (z_t*mj) : ℝ)

/-- One layer (z1, z2 the limits), `dim1sin_a_linear_between`, geotecha/speccon/integrals.py:1217-1220. -/
noncomputable def between_last (aS a_t z_t mj z2 : ℝ) : ℝ :=
  (aS*(mj^(2:ℕ))⁻¹*sin (mj*z2) - aS*(mj^(2:ℕ))⁻¹*sin (z_t*mj) - aS*mj⁻¹*z2*cos (mj*z2) + aS*z_t*mj⁻¹*cos (mj*z2) -
    a_t*mj⁻¹*cos (mj*z2) + a_t*mj⁻¹*cos (z_t*mj) : ℝ)

end Geotecha.Speccon
