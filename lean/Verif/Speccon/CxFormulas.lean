import Mathlib.Analysis.SpecialFunctions.Trigonometric.Basic

/-!
# Closed forms in geotecha/speccon/integrals.py: load terms for complex eigenvalues

Generated by tools/gen_complex.py from `FormulasLoad`, `FormulasEc`, `FormulasEs` (the same formulas read over the complex
numbers; the code works in complex arithmetic throughout, `dtype=complex`).
-/

open Complex
namespace Geotecha.Speccon.Cx

/-- One load segment, scalar, `Eload_linear`, geotecha/speccon/integrals.py:2787-2787. -/
noncomputable def El_cc_s (T0 P0 eig t dT : ℂ) : ℂ :=
  -exp (-dT*eig*(t - T0))*P0/(dT*eig) + P0/(dT*eig)

/-- One load segment, scalar, `Eload_linear`, geotecha/speccon/integrals.py:2790-2791. -/
noncomputable def El_cl_s (T0 T1 P0 eig t dT : ℂ) : ℂ :=
  exp (-dT*eig*(t - T1))*P0/(dT*eig) - exp (-dT*eig*(t - T0))*P0/(dT*eig)

/-- One load segment, scalar, `Eload_linear`, geotecha/speccon/integrals.py:2794-2813. -/
noncomputable def El_rc_s (T0 T1 P0 P1 eig t dT : ℂ) : ℂ :=
  (-dT*eig*t*(-dT*eig*T1 + dT*eig*T0)⁻¹*P1 + dT*eig*t*(-dT*eig*T1 + dT*eig*T0)⁻¹*P0 - dT*eig*T1*(-dT*eig*T1 +
    dT*eig*T0)⁻¹*P0 + dT*eig*T0*(-dT*eig*T1 + dT*eig*T0)⁻¹*P1 + (-dT*eig*T1 + dT*eig*T0)⁻¹*P1 - (-dT*eig*T1 +
    dT*eig*T0)⁻¹*P0 : ℂ)/(dT*eig) - ((-dT*eig*t*(-dT*eig*T1 + dT*eig*T0)⁻¹*exp (-dT*eig*(t - T0))*P1 +
    dT*eig*t*(-dT*eig*T1 + dT*eig*T0)⁻¹*exp (-dT*eig*(t - T0))*P0 + dT*eig*(-dT*eig*T1 + dT*eig*T0)⁻¹*(t - T0)*exp
    (-dT*eig*(t - T0))*P1 - dT*eig*(-dT*eig*T1 + dT*eig*T0)⁻¹*(t - T0)*exp (-dT*eig*(t - T0))*P0 -
    dT*eig*T1*(-dT*eig*T1 + dT*eig*T0)⁻¹*exp (-dT*eig*(t - T0))*P0 + dT*eig*T0*(-dT*eig*T1 + dT*eig*T0)⁻¹*exp
    (-dT*eig*(t - T0))*P1 : ℂ) + (-dT*eig*T1 + dT*eig*T0)⁻¹*exp (-dT*eig*(t - T0))*P1 - (-dT*eig*T1 + dT*eig*T0)⁻¹*exp
    (-dT*eig*(t - T0))*P0)/(dT*eig)

/-- One load segment, scalar, `Eload_linear`, geotecha/speccon/integrals.py:2816-2842. -/
noncomputable def El_rl_s (T0 T1 P0 P1 eig t dT : ℂ) : ℂ :=
  -((-dT*eig*t*(-dT*eig*T1 + dT*eig*T0)⁻¹*exp (-dT*eig*(t - T0))*P1 + dT*eig*t*(-dT*eig*T1 + dT*eig*T0)⁻¹*exp
    (-dT*eig*(t - T0))*P0 + dT*eig*(-dT*eig*T1 + dT*eig*T0)⁻¹*(t - T0)*exp (-dT*eig*(t - T0))*P1 - dT*eig*(-dT*eig*T1
    + dT*eig*T0)⁻¹*(t - T0)*exp (-dT*eig*(t - T0))*P0 - dT*eig*T1*(-dT*eig*T1 + dT*eig*T0)⁻¹*exp (-dT*eig*(t - T0))*P0
    + dT*eig*T0*(-dT*eig*T1 + dT*eig*T0)⁻¹*exp (-dT*eig*(t - T0))*P1 : ℂ) + (-dT*eig*T1 + dT*eig*T0)⁻¹*exp (-dT*eig*(t
    - T0))*P1 - (-dT*eig*T1 + dT*eig*T0)⁻¹*exp (-dT*eig*(t - T0))*P0)/(dT*eig) + ((-dT*eig*t*exp (-dT*eig*(t -
    T1))*(-dT*eig*T1 + dT*eig*T0)⁻¹*P1 + dT*eig*t*exp (-dT*eig*(t - T1))*(-dT*eig*T1 + dT*eig*T0)⁻¹*P0 + dT*eig*(t -
    T1)*exp (-dT*eig*(t - T1))*(-dT*eig*T1 + dT*eig*T0)⁻¹*P1 - dT*eig*(t - T1)*exp (-dT*eig*(t - T1))*(-dT*eig*T1 +
    dT*eig*T0)⁻¹*P0 + dT*eig*exp (-dT*eig*(t - T1))*T0*(-dT*eig*T1 + dT*eig*T0)⁻¹*P1 - dT*eig*T1*exp (-dT*eig*(t -
    T1))*(-dT*eig*T1 + dT*eig*T0)⁻¹*P0 : ℂ) + exp (-dT*eig*(t - T1))*(-dT*eig*T1 + dT*eig*T0)⁻¹*P1 - exp (-dT*eig*(t -
    T1))*(-dT*eig*T1 + dT*eig*T0)⁻¹*P0)/(dT*eig)

/-- One load segment, vectorized, `Eload_linear`, geotecha/speccon/integrals.py:2867-2867. -/
noncomputable def El_cc_v (T0 P0 eig t dT : ℂ) : ℂ :=
  -exp (-dT*eig*(t - T0))*P0/(dT*eig) + P0/(dT*eig)

/-- One load segment, vectorized, `Eload_linear`, geotecha/speccon/integrals.py:2871-2872. -/
noncomputable def El_cl_v (T0 T1 P0 eig t dT : ℂ) : ℂ :=
  exp (-dT*eig*(t - T1))*P0/(dT*eig) - exp (-dT*eig*(t - T0))*P0/(dT*eig)

/-- One load segment, vectorized, `Eload_linear`, geotecha/speccon/integrals.py:2876-2895. -/
noncomputable def El_rc_v (T0 T1 P0 P1 eig t dT : ℂ) : ℂ :=
  (-dT*eig*t*(-dT*eig*T1 + dT*eig*T0)⁻¹*P1 + dT*eig*t*(-dT*eig*T1 + dT*eig*T0)⁻¹*P0 - dT*eig*T1*(-dT*eig*T1 +
    dT*eig*T0)⁻¹*P0 + dT*eig*T0*(-dT*eig*T1 + dT*eig*T0)⁻¹*P1 + (-dT*eig*T1 + dT*eig*T0)⁻¹*P1 - (-dT*eig*T1 +
    dT*eig*T0)⁻¹*P0 : ℂ)/(dT*eig) - ((-dT*eig*t*(-dT*eig*T1 + dT*eig*T0)⁻¹*exp (-dT*eig*(t - T0))*P1 +
    dT*eig*t*(-dT*eig*T1 + dT*eig*T0)⁻¹*exp (-dT*eig*(t - T0))*P0 + dT*eig*(-dT*eig*T1 + dT*eig*T0)⁻¹*(t - T0)*exp
    (-dT*eig*(t - T0))*P1 - dT*eig*(-dT*eig*T1 + dT*eig*T0)⁻¹*(t - T0)*exp (-dT*eig*(t - T0))*P0 -
    dT*eig*T1*(-dT*eig*T1 + dT*eig*T0)⁻¹*exp (-dT*eig*(t - T0))*P0 + dT*eig*T0*(-dT*eig*T1 + dT*eig*T0)⁻¹*exp
    (-dT*eig*(t - T0))*P1 : ℂ) + (-dT*eig*T1 + dT*eig*T0)⁻¹*exp (-dT*eig*(t - T0))*P1 - (-dT*eig*T1 + dT*eig*T0)⁻¹*exp
    (-dT*eig*(t - T0))*P0)/(dT*eig)

/-- One load segment, vectorized, `Eload_linear`, geotecha/speccon/integrals.py:2899-2925. -/
noncomputable def El_rl_v (T0 T1 P0 P1 eig t dT : ℂ) : ℂ :=
  -((-dT*eig*t*(-dT*eig*T1 + dT*eig*T0)⁻¹*exp (-dT*eig*(t - T0))*P1 + dT*eig*t*(-dT*eig*T1 + dT*eig*T0)⁻¹*exp
    (-dT*eig*(t - T0))*P0 + dT*eig*(-dT*eig*T1 + dT*eig*T0)⁻¹*(t - T0)*exp (-dT*eig*(t - T0))*P1 - dT*eig*(-dT*eig*T1
    + dT*eig*T0)⁻¹*(t - T0)*exp (-dT*eig*(t - T0))*P0 - dT*eig*T1*(-dT*eig*T1 + dT*eig*T0)⁻¹*exp (-dT*eig*(t - T0))*P0
    + dT*eig*T0*(-dT*eig*T1 + dT*eig*T0)⁻¹*exp (-dT*eig*(t - T0))*P1 : ℂ) + (-dT*eig*T1 + dT*eig*T0)⁻¹*exp (-dT*eig*(t
    - T0))*P1 - (-dT*eig*T1 + dT*eig*T0)⁻¹*exp (-dT*eig*(t - T0))*P0)/(dT*eig) + ((-dT*eig*t*exp (-dT*eig*(t -
    T1))*(-dT*eig*T1 + dT*eig*T0)⁻¹*P1 + dT*eig*t*exp (-dT*eig*(t - T1))*(-dT*eig*T1 + dT*eig*T0)⁻¹*P0 + dT*eig*(t -
    T1)*exp (-dT*eig*(t - T1))*(-dT*eig*T1 + dT*eig*T0)⁻¹*P1 - dT*eig*(t - T1)*exp (-dT*eig*(t - T1))*(-dT*eig*T1 +
    dT*eig*T0)⁻¹*P0 + dT*eig*exp (-dT*eig*(t - T1))*T0*(-dT*eig*T1 + dT*eig*T0)⁻¹*P1 - dT*eig*T1*exp (-dT*eig*(t -
    T1))*(-dT*eig*T1 + dT*eig*T0)⁻¹*P0 : ℂ) + exp (-dT*eig*(t - T1))*(-dT*eig*T1 + dT*eig*T0)⁻¹*P1 - exp (-dT*eig*(t -
    T1))*(-dT*eig*T1 + dT*eig*T0)⁻¹*P0)/(dT*eig)

/-- One load segment, scalar, `Eload_coslinear`, geotecha/speccon/integrals.py:3222-3227. -/
noncomputable def Ec_cc_s (T0 P0 omega phase eig t dT : ℂ) : ℂ :=
  (cos (omega*t + phase)/((1:ℂ) + omega^(2:ℕ)/(dT^(2:ℕ)*eig^(2:ℕ))) + omega*sin (omega*t + phase)/(dT*eig*((1:ℂ) +
    omega^(2:ℕ)/(dT^(2:ℕ)*eig^(2:ℕ)))))*P0/(dT*eig) - (cos (omega*t - omega*(t - T0) + phase)*exp (-dT*eig*(t -
    T0))/((1:ℂ) + omega^(2:ℕ)/(dT^(2:ℕ)*eig^(2:ℕ))) + omega*exp (-dT*eig*(t - T0))*sin (omega*t - omega*(t - T0) +
    phase)/(dT*eig*((1:ℂ) + omega^(2:ℕ)/(dT^(2:ℕ)*eig^(2:ℕ)))))*P0/(dT*eig)

/-- One load segment, scalar, `Eload_coslinear`, geotecha/speccon/integrals.py:3230-3237. -/
noncomputable def Ec_cl_s (T0 T1 P0 omega phase eig t dT : ℂ) : ℂ :=
  (cos (omega*t - omega*(t - T1) + phase)*exp (-dT*eig*(t - T1))/((1:ℂ) + omega^(2:ℕ)/(dT^(2:ℕ)*eig^(2:ℕ))) +
    omega*exp (-dT*eig*(t - T1))*sin (omega*t - omega*(t - T1) + phase)/(dT*eig*((1:ℂ) +
    omega^(2:ℕ)/(dT^(2:ℕ)*eig^(2:ℕ)))))*P0/(dT*eig) - (cos (omega*t - omega*(t - T0) + phase)*exp (-dT*eig*(t -
    T0))/((1:ℂ) + omega^(2:ℕ)/(dT^(2:ℕ)*eig^(2:ℕ))) + omega*exp (-dT*eig*(t - T0))*sin (omega*t - omega*(t - T0) +
    phase)/(dT*eig*((1:ℂ) + omega^(2:ℕ)/(dT^(2:ℕ)*eig^(2:ℕ)))))*P0/(dT*eig)

/-- One load segment, scalar, `Eload_coslinear`, geotecha/speccon/integrals.py:3240-3467. -/
noncomputable def Ec_rc_s (T0 T1 P0 P1 omega phase eig t dT : ℂ) : ℂ :=
  let D : ℂ := (-dT*eig*T1 + dT*eig*T0 - (2:ℂ)*omega^(2:ℕ)*T1/(dT*eig) + (2:ℂ)*omega^(2:ℕ)*T0/(dT*eig) -
    omega^(4:ℕ)*T1/(dT^(3:ℕ)*eig^(3:ℕ)) + omega^(4:ℕ)*T0/(dT^(3:ℕ)*eig^(3:ℕ)) : ℂ);
  (((((-dT*eig*t*cos (omega*t + phase)*D⁻¹*P1 + dT*eig*t*cos (omega*t + phase)*D⁻¹*P0 - dT*eig*cos (omega*t +
    phase)*T1*D⁻¹*P0 + dT*eig*cos (omega*t + phase)*T0*D⁻¹*P1 - omega*t*sin (omega*t + phase)*D⁻¹*P1 + omega*t*sin
    (omega*t + phase)*D⁻¹*P0 : ℂ) - omega*sin (omega*t + phase)*T1*D⁻¹*P0 + omega*sin (omega*t + phase)*T0*D⁻¹*P1 +
    cos (omega*t + phase)*D⁻¹*P1 - cos (omega*t + phase)*D⁻¹*P0 - omega^(2:ℕ)*t*cos (omega*t + phase)*D⁻¹*P1/(dT*eig)
    : ℂ) + omega^(2:ℕ)*t*cos (omega*t + phase)*D⁻¹*P0/(dT*eig) - omega^(2:ℕ)*cos (omega*t + phase)*T1*D⁻¹*P0/(dT*eig)
    + omega^(2:ℕ)*cos (omega*t + phase)*T0*D⁻¹*P1/(dT*eig) + (2:ℂ)*omega*sin (omega*t + phase)*D⁻¹*P1/(dT*eig) -
    (2:ℂ)*omega*sin (omega*t + phase)*D⁻¹*P0/(dT*eig) : ℂ) - omega^(3:ℕ)*t*sin (omega*t +
    phase)*D⁻¹*P1/(dT^(2:ℕ)*eig^(2:ℕ)) + omega^(3:ℕ)*t*sin (omega*t + phase)*D⁻¹*P0/(dT^(2:ℕ)*eig^(2:ℕ)) -
    omega^(3:ℕ)*sin (omega*t + phase)*T1*D⁻¹*P0/(dT^(2:ℕ)*eig^(2:ℕ)) + omega^(3:ℕ)*sin (omega*t +
    phase)*T0*D⁻¹*P1/(dT^(2:ℕ)*eig^(2:ℕ)) - omega^(2:ℕ)*cos (omega*t + phase)*D⁻¹*P1/(dT^(2:ℕ)*eig^(2:ℕ)) : ℂ) +
    omega^(2:ℕ)*cos (omega*t + phase)*D⁻¹*P0/(dT^(2:ℕ)*eig^(2:ℕ)))/(dT*eig) - ((((((-dT*eig*t*D⁻¹*cos (omega*t -
    omega*(t - T0) + phase)*exp (-dT*eig*(t - T0))*P1 + dT*eig*t*D⁻¹*cos (omega*t - omega*(t - T0) + phase)*exp
    (-dT*eig*(t - T0))*P0 + dT*eig*D⁻¹*(t - T0)*cos (omega*t - omega*(t - T0) + phase)*exp (-dT*eig*(t - T0))*P1 -
    dT*eig*D⁻¹*(t - T0)*cos (omega*t - omega*(t - T0) + phase)*exp (-dT*eig*(t - T0))*P0 - dT*eig*T1*D⁻¹*cos (omega*t
    - omega*(t - T0) + phase)*exp (-dT*eig*(t - T0))*P0 + dT*eig*T0*D⁻¹*cos (omega*t - omega*(t - T0) + phase)*exp
    (-dT*eig*(t - T0))*P1 : ℂ) - omega*t*D⁻¹*exp (-dT*eig*(t - T0))*sin (omega*t - omega*(t - T0) + phase)*P1 +
    omega*t*D⁻¹*exp (-dT*eig*(t - T0))*sin (omega*t - omega*(t - T0) + phase)*P0 + omega*D⁻¹*(t - T0)*exp (-dT*eig*(t
    - T0))*sin (omega*t - omega*(t - T0) + phase)*P1 - omega*D⁻¹*(t - T0)*exp (-dT*eig*(t - T0))*sin (omega*t -
    omega*(t - T0) + phase)*P0 - omega*T1*D⁻¹*exp (-dT*eig*(t - T0))*sin (omega*t - omega*(t - T0) + phase)*P0 : ℂ) +
    omega*T0*D⁻¹*exp (-dT*eig*(t - T0))*sin (omega*t - omega*(t - T0) + phase)*P1 + D⁻¹*cos (omega*t - omega*(t - T0)
    + phase)*exp (-dT*eig*(t - T0))*P1 - D⁻¹*cos (omega*t - omega*(t - T0) + phase)*exp (-dT*eig*(t - T0))*P0 -
    omega^(2:ℕ)*t*D⁻¹*cos (omega*t - omega*(t - T0) + phase)*exp (-dT*eig*(t - T0))*P1/(dT*eig) +
    omega^(2:ℕ)*t*D⁻¹*cos (omega*t - omega*(t - T0) + phase)*exp (-dT*eig*(t - T0))*P0/(dT*eig) : ℂ) +
    omega^(2:ℕ)*D⁻¹*(t - T0)*cos (omega*t - omega*(t - T0) + phase)*exp (-dT*eig*(t - T0))*P1/(dT*eig) -
    omega^(2:ℕ)*D⁻¹*(t - T0)*cos (omega*t - omega*(t - T0) + phase)*exp (-dT*eig*(t - T0))*P0/(dT*eig) -
    omega^(2:ℕ)*T1*D⁻¹*cos (omega*t - omega*(t - T0) + phase)*exp (-dT*eig*(t - T0))*P0/(dT*eig) +
    omega^(2:ℕ)*T0*D⁻¹*cos (omega*t - omega*(t - T0) + phase)*exp (-dT*eig*(t - T0))*P1/(dT*eig) + (2:ℂ)*omega*D⁻¹*exp
    (-dT*eig*(t - T0))*sin (omega*t - omega*(t - T0) + phase)*P1/(dT*eig) : ℂ) - (2:ℂ)*omega*D⁻¹*exp (-dT*eig*(t -
    T0))*sin (omega*t - omega*(t - T0) + phase)*P0/(dT*eig) - omega^(3:ℕ)*t*D⁻¹*exp (-dT*eig*(t - T0))*sin (omega*t -
    omega*(t - T0) + phase)*P1/(dT^(2:ℕ)*eig^(2:ℕ)) + omega^(3:ℕ)*t*D⁻¹*exp (-dT*eig*(t - T0))*sin (omega*t - omega*(t
    - T0) + phase)*P0/(dT^(2:ℕ)*eig^(2:ℕ)) + omega^(3:ℕ)*D⁻¹*(t - T0)*exp (-dT*eig*(t - T0))*sin (omega*t - omega*(t -
    T0) + phase)*P1/(dT^(2:ℕ)*eig^(2:ℕ)) - omega^(3:ℕ)*D⁻¹*(t - T0)*exp (-dT*eig*(t - T0))*sin (omega*t - omega*(t -
    T0) + phase)*P0/(dT^(2:ℕ)*eig^(2:ℕ)) : ℂ) - omega^(3:ℕ)*T1*D⁻¹*exp (-dT*eig*(t - T0))*sin (omega*t - omega*(t -
    T0) + phase)*P0/(dT^(2:ℕ)*eig^(2:ℕ)) + omega^(3:ℕ)*T0*D⁻¹*exp (-dT*eig*(t - T0))*sin (omega*t - omega*(t - T0) +
    phase)*P1/(dT^(2:ℕ)*eig^(2:ℕ)) - omega^(2:ℕ)*D⁻¹*cos (omega*t - omega*(t - T0) + phase)*exp (-dT*eig*(t -
    T0))*P1/(dT^(2:ℕ)*eig^(2:ℕ)) + omega^(2:ℕ)*D⁻¹*cos (omega*t - omega*(t - T0) + phase)*exp (-dT*eig*(t -
    T0))*P0/(dT^(2:ℕ)*eig^(2:ℕ)))/(dT*eig)

/-- One load segment, scalar, `Eload_coslinear`, geotecha/speccon/integrals.py:3470-3758. -/
noncomputable def Ec_rl_s (T0 T1 P0 P1 omega phase eig t dT : ℂ) : ℂ :=
  let D : ℂ := (-dT*eig*T1 + dT*eig*T0 - (2:ℂ)*omega^(2:ℕ)*T1/(dT*eig) + (2:ℂ)*omega^(2:ℕ)*T0/(dT*eig) -
    omega^(4:ℕ)*T1/(dT^(3:ℕ)*eig^(3:ℕ)) + omega^(4:ℕ)*T0/(dT^(3:ℕ)*eig^(3:ℕ)) : ℂ);
  -((((((-dT*eig*t*D⁻¹*cos (omega*t - omega*(t - T0) + phase)*exp (-dT*eig*(t - T0))*P1 + dT*eig*t*D⁻¹*cos (omega*t -
    omega*(t - T0) + phase)*exp (-dT*eig*(t - T0))*P0 + dT*eig*D⁻¹*(t - T0)*cos (omega*t - omega*(t - T0) + phase)*exp
    (-dT*eig*(t - T0))*P1 - dT*eig*D⁻¹*(t - T0)*cos (omega*t - omega*(t - T0) + phase)*exp (-dT*eig*(t - T0))*P0 -
    dT*eig*T1*D⁻¹*cos (omega*t - omega*(t - T0) + phase)*exp (-dT*eig*(t - T0))*P0 + dT*eig*T0*D⁻¹*cos (omega*t -
    omega*(t - T0) + phase)*exp (-dT*eig*(t - T0))*P1 : ℂ) - omega*t*D⁻¹*exp (-dT*eig*(t - T0))*sin (omega*t -
    omega*(t - T0) + phase)*P1 + omega*t*D⁻¹*exp (-dT*eig*(t - T0))*sin (omega*t - omega*(t - T0) + phase)*P0 +
    omega*D⁻¹*(t - T0)*exp (-dT*eig*(t - T0))*sin (omega*t - omega*(t - T0) + phase)*P1 - omega*D⁻¹*(t - T0)*exp
    (-dT*eig*(t - T0))*sin (omega*t - omega*(t - T0) + phase)*P0 - omega*T1*D⁻¹*exp (-dT*eig*(t - T0))*sin (omega*t -
    omega*(t - T0) + phase)*P0 : ℂ) + omega*T0*D⁻¹*exp (-dT*eig*(t - T0))*sin (omega*t - omega*(t - T0) + phase)*P1 +
    D⁻¹*cos (omega*t - omega*(t - T0) + phase)*exp (-dT*eig*(t - T0))*P1 - D⁻¹*cos (omega*t - omega*(t - T0) +
    phase)*exp (-dT*eig*(t - T0))*P0 - omega^(2:ℕ)*t*D⁻¹*cos (omega*t - omega*(t - T0) + phase)*exp (-dT*eig*(t -
    T0))*P1/(dT*eig) + omega^(2:ℕ)*t*D⁻¹*cos (omega*t - omega*(t - T0) + phase)*exp (-dT*eig*(t - T0))*P0/(dT*eig) :
    ℂ) + omega^(2:ℕ)*D⁻¹*(t - T0)*cos (omega*t - omega*(t - T0) + phase)*exp (-dT*eig*(t - T0))*P1/(dT*eig) -
    omega^(2:ℕ)*D⁻¹*(t - T0)*cos (omega*t - omega*(t - T0) + phase)*exp (-dT*eig*(t - T0))*P0/(dT*eig) -
    omega^(2:ℕ)*T1*D⁻¹*cos (omega*t - omega*(t - T0) + phase)*exp (-dT*eig*(t - T0))*P0/(dT*eig) +
    omega^(2:ℕ)*T0*D⁻¹*cos (omega*t - omega*(t - T0) + phase)*exp (-dT*eig*(t - T0))*P1/(dT*eig) + (2:ℂ)*omega*D⁻¹*exp
    (-dT*eig*(t - T0))*sin (omega*t - omega*(t - T0) + phase)*P1/(dT*eig) : ℂ) - (2:ℂ)*omega*D⁻¹*exp (-dT*eig*(t -
    T0))*sin (omega*t - omega*(t - T0) + phase)*P0/(dT*eig) - omega^(3:ℕ)*t*D⁻¹*exp (-dT*eig*(t - T0))*sin (omega*t -
    omega*(t - T0) + phase)*P1/(dT^(2:ℕ)*eig^(2:ℕ)) + omega^(3:ℕ)*t*D⁻¹*exp (-dT*eig*(t - T0))*sin (omega*t - omega*(t
    - T0) + phase)*P0/(dT^(2:ℕ)*eig^(2:ℕ)) + omega^(3:ℕ)*D⁻¹*(t - T0)*exp (-dT*eig*(t - T0))*sin (omega*t - omega*(t -
    T0) + phase)*P1/(dT^(2:ℕ)*eig^(2:ℕ)) - omega^(3:ℕ)*D⁻¹*(t - T0)*exp (-dT*eig*(t - T0))*sin (omega*t - omega*(t -
    T0) + phase)*P0/(dT^(2:ℕ)*eig^(2:ℕ)) : ℂ) - omega^(3:ℕ)*T1*D⁻¹*exp (-dT*eig*(t - T0))*sin (omega*t - omega*(t -
    T0) + phase)*P0/(dT^(2:ℕ)*eig^(2:ℕ)) + omega^(3:ℕ)*T0*D⁻¹*exp (-dT*eig*(t - T0))*sin (omega*t - omega*(t - T0) +
    phase)*P1/(dT^(2:ℕ)*eig^(2:ℕ)) - omega^(2:ℕ)*D⁻¹*cos (omega*t - omega*(t - T0) + phase)*exp (-dT*eig*(t -
    T0))*P1/(dT^(2:ℕ)*eig^(2:ℕ)) + omega^(2:ℕ)*D⁻¹*cos (omega*t - omega*(t - T0) + phase)*exp (-dT*eig*(t -
    T0))*P0/(dT^(2:ℕ)*eig^(2:ℕ)))/(dT*eig) + ((((((-dT*eig*t*cos (omega*t - omega*(t - T1) + phase)*exp (-dT*eig*(t -
    T1))*D⁻¹*P1 + dT*eig*t*cos (omega*t - omega*(t - T1) + phase)*exp (-dT*eig*(t - T1))*D⁻¹*P0 + dT*eig*(t - T1)*cos
    (omega*t - omega*(t - T1) + phase)*exp (-dT*eig*(t - T1))*D⁻¹*P1 - dT*eig*(t - T1)*cos (omega*t - omega*(t - T1) +
    phase)*exp (-dT*eig*(t - T1))*D⁻¹*P0 + dT*eig*cos (omega*t - omega*(t - T1) + phase)*exp (-dT*eig*(t -
    T1))*T0*D⁻¹*P1 - dT*eig*T1*cos (omega*t - omega*(t - T1) + phase)*exp (-dT*eig*(t - T1))*D⁻¹*P0 : ℂ) - omega*t*exp
    (-dT*eig*(t - T1))*sin (omega*t - omega*(t - T1) + phase)*D⁻¹*P1 + omega*t*exp (-dT*eig*(t - T1))*sin (omega*t -
    omega*(t - T1) + phase)*D⁻¹*P0 + omega*(t - T1)*exp (-dT*eig*(t - T1))*sin (omega*t - omega*(t - T1) +
    phase)*D⁻¹*P1 - omega*(t - T1)*exp (-dT*eig*(t - T1))*sin (omega*t - omega*(t - T1) + phase)*D⁻¹*P0 + omega*exp
    (-dT*eig*(t - T1))*sin (omega*t - omega*(t - T1) + phase)*T0*D⁻¹*P1 : ℂ) - omega*T1*exp (-dT*eig*(t - T1))*sin
    (omega*t - omega*(t - T1) + phase)*D⁻¹*P0 + cos (omega*t - omega*(t - T1) + phase)*exp (-dT*eig*(t - T1))*D⁻¹*P1 -
    cos (omega*t - omega*(t - T1) + phase)*exp (-dT*eig*(t - T1))*D⁻¹*P0 - omega^(2:ℕ)*t*cos (omega*t - omega*(t - T1)
    + phase)*exp (-dT*eig*(t - T1))*D⁻¹*P1/(dT*eig) + omega^(2:ℕ)*t*cos (omega*t - omega*(t - T1) + phase)*exp
    (-dT*eig*(t - T1))*D⁻¹*P0/(dT*eig) : ℂ) + omega^(2:ℕ)*(t - T1)*cos (omega*t - omega*(t - T1) + phase)*exp
    (-dT*eig*(t - T1))*D⁻¹*P1/(dT*eig) - omega^(2:ℕ)*(t - T1)*cos (omega*t - omega*(t - T1) + phase)*exp (-dT*eig*(t -
    T1))*D⁻¹*P0/(dT*eig) + omega^(2:ℕ)*cos (omega*t - omega*(t - T1) + phase)*exp (-dT*eig*(t -
    T1))*T0*D⁻¹*P1/(dT*eig) - omega^(2:ℕ)*T1*cos (omega*t - omega*(t - T1) + phase)*exp (-dT*eig*(t -
    T1))*D⁻¹*P0/(dT*eig) + (2:ℂ)*omega*exp (-dT*eig*(t - T1))*sin (omega*t - omega*(t - T1) + phase)*D⁻¹*P1/(dT*eig) :
    ℂ) - (2:ℂ)*omega*exp (-dT*eig*(t - T1))*sin (omega*t - omega*(t - T1) + phase)*D⁻¹*P0/(dT*eig) - omega^(3:ℕ)*t*exp
    (-dT*eig*(t - T1))*sin (omega*t - omega*(t - T1) + phase)*D⁻¹*P1/(dT^(2:ℕ)*eig^(2:ℕ)) + omega^(3:ℕ)*t*exp
    (-dT*eig*(t - T1))*sin (omega*t - omega*(t - T1) + phase)*D⁻¹*P0/(dT^(2:ℕ)*eig^(2:ℕ)) + omega^(3:ℕ)*(t - T1)*exp
    (-dT*eig*(t - T1))*sin (omega*t - omega*(t - T1) + phase)*D⁻¹*P1/(dT^(2:ℕ)*eig^(2:ℕ)) - omega^(3:ℕ)*(t - T1)*exp
    (-dT*eig*(t - T1))*sin (omega*t - omega*(t - T1) + phase)*D⁻¹*P0/(dT^(2:ℕ)*eig^(2:ℕ)) : ℂ) + omega^(3:ℕ)*exp
    (-dT*eig*(t - T1))*sin (omega*t - omega*(t - T1) + phase)*T0*D⁻¹*P1/(dT^(2:ℕ)*eig^(2:ℕ)) - omega^(3:ℕ)*T1*exp
    (-dT*eig*(t - T1))*sin (omega*t - omega*(t - T1) + phase)*D⁻¹*P0/(dT^(2:ℕ)*eig^(2:ℕ)) - omega^(2:ℕ)*cos (omega*t -
    omega*(t - T1) + phase)*exp (-dT*eig*(t - T1))*D⁻¹*P1/(dT^(2:ℕ)*eig^(2:ℕ)) + omega^(2:ℕ)*cos (omega*t - omega*(t -
    T1) + phase)*exp (-dT*eig*(t - T1))*D⁻¹*P0/(dT^(2:ℕ)*eig^(2:ℕ)))/(dT*eig)

/-- One load segment, vectorized, `Eload_coslinear`, geotecha/speccon/integrals.py:3783-3788. -/
noncomputable def Ec_cc_v (T0 P0 omega phase eig t dT : ℂ) : ℂ :=
  (cos (omega*t + phase)/((1:ℂ) + omega^(2:ℕ)/(dT^(2:ℕ)*eig^(2:ℕ))) + omega*sin (omega*t + phase)/(dT*eig*((1:ℂ) +
    omega^(2:ℕ)/(dT^(2:ℕ)*eig^(2:ℕ)))))*P0/(dT*eig) - (cos (omega*t - omega*(t - T0) + phase)*exp (-dT*eig*(t -
    T0))/((1:ℂ) + omega^(2:ℕ)/(dT^(2:ℕ)*eig^(2:ℕ))) + omega*exp (-dT*eig*(t - T0))*sin (omega*t - omega*(t - T0) +
    phase)/(dT*eig*((1:ℂ) + omega^(2:ℕ)/(dT^(2:ℕ)*eig^(2:ℕ)))))*P0/(dT*eig)

/-- One load segment, vectorized, `Eload_coslinear`, geotecha/speccon/integrals.py:3792-3799. -/
noncomputable def Ec_cl_v (T0 T1 P0 omega phase eig t dT : ℂ) : ℂ :=
  (cos (omega*t - omega*(t - T1) + phase)*exp (-dT*eig*(t - T1))/((1:ℂ) + omega^(2:ℕ)/(dT^(2:ℕ)*eig^(2:ℕ))) +
    omega*exp (-dT*eig*(t - T1))*sin (omega*t - omega*(t - T1) + phase)/(dT*eig*((1:ℂ) +
    omega^(2:ℕ)/(dT^(2:ℕ)*eig^(2:ℕ)))))*P0/(dT*eig) - (cos (omega*t - omega*(t - T0) + phase)*exp (-dT*eig*(t -
    T0))/((1:ℂ) + omega^(2:ℕ)/(dT^(2:ℕ)*eig^(2:ℕ))) + omega*exp (-dT*eig*(t - T0))*sin (omega*t - omega*(t - T0) +
    phase)/(dT*eig*((1:ℂ) + omega^(2:ℕ)/(dT^(2:ℕ)*eig^(2:ℕ)))))*P0/(dT*eig)

/-- One load segment, vectorized, `Eload_coslinear`, geotecha/speccon/integrals.py:3803-4030. -/
noncomputable def Ec_rc_v (T0 T1 P0 P1 omega phase eig t dT : ℂ) : ℂ :=
  let D : ℂ := (-dT*eig*T1 + dT*eig*T0 - (2:ℂ)*omega^(2:ℕ)*T1/(dT*eig) + (2:ℂ)*omega^(2:ℕ)*T0/(dT*eig) -
    omega^(4:ℕ)*T1/(dT^(3:ℕ)*eig^(3:ℕ)) + omega^(4:ℕ)*T0/(dT^(3:ℕ)*eig^(3:ℕ)) : ℂ);
  (((((-dT*eig*t*cos (omega*t + phase)*D⁻¹*P1 + dT*eig*t*cos (omega*t + phase)*D⁻¹*P0 - dT*eig*cos (omega*t +
    phase)*T1*D⁻¹*P0 + dT*eig*cos (omega*t + phase)*T0*D⁻¹*P1 - omega*t*sin (omega*t + phase)*D⁻¹*P1 + omega*t*sin
    (omega*t + phase)*D⁻¹*P0 : ℂ) - omega*sin (omega*t + phase)*T1*D⁻¹*P0 + omega*sin (omega*t + phase)*T0*D⁻¹*P1 +
    cos (omega*t + phase)*D⁻¹*P1 - cos (omega*t + phase)*D⁻¹*P0 - omega^(2:ℕ)*t*cos (omega*t + phase)*D⁻¹*P1/(dT*eig)
    : ℂ) + omega^(2:ℕ)*t*cos (omega*t + phase)*D⁻¹*P0/(dT*eig) - omega^(2:ℕ)*cos (omega*t + phase)*T1*D⁻¹*P0/(dT*eig)
    + omega^(2:ℕ)*cos (omega*t + phase)*T0*D⁻¹*P1/(dT*eig) + (2:ℂ)*omega*sin (omega*t + phase)*D⁻¹*P1/(dT*eig) -
    (2:ℂ)*omega*sin (omega*t + phase)*D⁻¹*P0/(dT*eig) : ℂ) - omega^(3:ℕ)*t*sin (omega*t +
    phase)*D⁻¹*P1/(dT^(2:ℕ)*eig^(2:ℕ)) + omega^(3:ℕ)*t*sin (omega*t + phase)*D⁻¹*P0/(dT^(2:ℕ)*eig^(2:ℕ)) -
    omega^(3:ℕ)*sin (omega*t + phase)*T1*D⁻¹*P0/(dT^(2:ℕ)*eig^(2:ℕ)) + omega^(3:ℕ)*sin (omega*t +
    phase)*T0*D⁻¹*P1/(dT^(2:ℕ)*eig^(2:ℕ)) - omega^(2:ℕ)*cos (omega*t + phase)*D⁻¹*P1/(dT^(2:ℕ)*eig^(2:ℕ)) : ℂ) +
    omega^(2:ℕ)*cos (omega*t + phase)*D⁻¹*P0/(dT^(2:ℕ)*eig^(2:ℕ)))/(dT*eig) - ((((((-dT*eig*t*D⁻¹*cos (omega*t -
    omega*(t - T0) + phase)*exp (-dT*eig*(t - T0))*P1 + dT*eig*t*D⁻¹*cos (omega*t - omega*(t - T0) + phase)*exp
    (-dT*eig*(t - T0))*P0 + dT*eig*D⁻¹*(t - T0)*cos (omega*t - omega*(t - T0) + phase)*exp (-dT*eig*(t - T0))*P1 -
    dT*eig*D⁻¹*(t - T0)*cos (omega*t - omega*(t - T0) + phase)*exp (-dT*eig*(t - T0))*P0 - dT*eig*T1*D⁻¹*cos (omega*t
    - omega*(t - T0) + phase)*exp (-dT*eig*(t - T0))*P0 + dT*eig*T0*D⁻¹*cos (omega*t - omega*(t - T0) + phase)*exp
    (-dT*eig*(t - T0))*P1 : ℂ) - omega*t*D⁻¹*exp (-dT*eig*(t - T0))*sin (omega*t - omega*(t - T0) + phase)*P1 +
    omega*t*D⁻¹*exp (-dT*eig*(t - T0))*sin (omega*t - omega*(t - T0) + phase)*P0 + omega*D⁻¹*(t - T0)*exp (-dT*eig*(t
    - T0))*sin (omega*t - omega*(t - T0) + phase)*P1 - omega*D⁻¹*(t - T0)*exp (-dT*eig*(t - T0))*sin (omega*t -
    omega*(t - T0) + phase)*P0 - omega*T1*D⁻¹*exp (-dT*eig*(t - T0))*sin (omega*t - omega*(t - T0) + phase)*P0 : ℂ) +
    omega*T0*D⁻¹*exp (-dT*eig*(t - T0))*sin (omega*t - omega*(t - T0) + phase)*P1 + D⁻¹*cos (omega*t - omega*(t - T0)
    + phase)*exp (-dT*eig*(t - T0))*P1 - D⁻¹*cos (omega*t - omega*(t - T0) + phase)*exp (-dT*eig*(t - T0))*P0 -
    omega^(2:ℕ)*t*D⁻¹*cos (omega*t - omega*(t - T0) + phase)*exp (-dT*eig*(t - T0))*P1/(dT*eig) +
    omega^(2:ℕ)*t*D⁻¹*cos (omega*t - omega*(t - T0) + phase)*exp (-dT*eig*(t - T0))*P0/(dT*eig) : ℂ) +
    omega^(2:ℕ)*D⁻¹*(t - T0)*cos (omega*t - omega*(t - T0) + phase)*exp (-dT*eig*(t - T0))*P1/(dT*eig) -
    omega^(2:ℕ)*D⁻¹*(t - T0)*cos (omega*t - omega*(t - T0) + phase)*exp (-dT*eig*(t - T0))*P0/(dT*eig) -
    omega^(2:ℕ)*T1*D⁻¹*cos (omega*t - omega*(t - T0) + phase)*exp (-dT*eig*(t - T0))*P0/(dT*eig) +
    omega^(2:ℕ)*T0*D⁻¹*cos (omega*t - omega*(t - T0) + phase)*exp (-dT*eig*(t - T0))*P1/(dT*eig) + (2:ℂ)*omega*D⁻¹*exp
    (-dT*eig*(t - T0))*sin (omega*t - omega*(t - T0) + phase)*P1/(dT*eig) : ℂ) - (2:ℂ)*omega*D⁻¹*exp (-dT*eig*(t -
    T0))*sin (omega*t - omega*(t - T0) + phase)*P0/(dT*eig) - omega^(3:ℕ)*t*D⁻¹*exp (-dT*eig*(t - T0))*sin (omega*t -
    omega*(t - T0) + phase)*P1/(dT^(2:ℕ)*eig^(2:ℕ)) + omega^(3:ℕ)*t*D⁻¹*exp (-dT*eig*(t - T0))*sin (omega*t - omega*(t
    - T0) + phase)*P0/(dT^(2:ℕ)*eig^(2:ℕ)) + omega^(3:ℕ)*D⁻¹*(t - T0)*exp (-dT*eig*(t - T0))*sin (omega*t - omega*(t -
    T0) + phase)*P1/(dT^(2:ℕ)*eig^(2:ℕ)) - omega^(3:ℕ)*D⁻¹*(t - T0)*exp (-dT*eig*(t - T0))*sin (omega*t - omega*(t -
    T0) + phase)*P0/(dT^(2:ℕ)*eig^(2:ℕ)) : ℂ) - omega^(3:ℕ)*T1*D⁻¹*exp (-dT*eig*(t - T0))*sin (omega*t - omega*(t -
    T0) + phase)*P0/(dT^(2:ℕ)*eig^(2:ℕ)) + omega^(3:ℕ)*T0*D⁻¹*exp (-dT*eig*(t - T0))*sin (omega*t - omega*(t - T0) +
    phase)*P1/(dT^(2:ℕ)*eig^(2:ℕ)) - omega^(2:ℕ)*D⁻¹*cos (omega*t - omega*(t - T0) + phase)*exp (-dT*eig*(t -
    T0))*P1/(dT^(2:ℕ)*eig^(2:ℕ)) + omega^(2:ℕ)*D⁻¹*cos (omega*t - omega*(t - T0) + phase)*exp (-dT*eig*(t -
    T0))*P0/(dT^(2:ℕ)*eig^(2:ℕ)))/(dT*eig)

/-- One load segment, vectorized, `Eload_coslinear`, geotecha/speccon/integrals.py:4034-4322. -/
noncomputable def Ec_rl_v (T0 T1 P0 P1 omega phase eig t dT : ℂ) : ℂ :=
  let D : ℂ := (-dT*eig*T1 + dT*eig*T0 - (2:ℂ)*omega^(2:ℕ)*T1/(dT*eig) + (2:ℂ)*omega^(2:ℕ)*T0/(dT*eig) -
    omega^(4:ℕ)*T1/(dT^(3:ℕ)*eig^(3:ℕ)) + omega^(4:ℕ)*T0/(dT^(3:ℕ)*eig^(3:ℕ)) : ℂ);
  -((((((-dT*eig*t*D⁻¹*cos (omega*t - omega*(t - T0) + phase)*exp (-dT*eig*(t - T0))*P1 + dT*eig*t*D⁻¹*cos (omega*t -
    omega*(t - T0) + phase)*exp (-dT*eig*(t - T0))*P0 + dT*eig*D⁻¹*(t - T0)*cos (omega*t - omega*(t - T0) + phase)*exp
    (-dT*eig*(t - T0))*P1 - dT*eig*D⁻¹*(t - T0)*cos (omega*t - omega*(t - T0) + phase)*exp (-dT*eig*(t - T0))*P0 -
    dT*eig*T1*D⁻¹*cos (omega*t - omega*(t - T0) + phase)*exp (-dT*eig*(t - T0))*P0 + dT*eig*T0*D⁻¹*cos (omega*t -
    omega*(t - T0) + phase)*exp (-dT*eig*(t - T0))*P1 : ℂ) - omega*t*D⁻¹*exp (-dT*eig*(t - T0))*sin (omega*t -
    omega*(t - T0) + phase)*P1 + omega*t*D⁻¹*exp (-dT*eig*(t - T0))*sin (omega*t - omega*(t - T0) + phase)*P0 +
    omega*D⁻¹*(t - T0)*exp (-dT*eig*(t - T0))*sin (omega*t - omega*(t - T0) + phase)*P1 - omega*D⁻¹*(t - T0)*exp
    (-dT*eig*(t - T0))*sin (omega*t - omega*(t - T0) + phase)*P0 - omega*T1*D⁻¹*exp (-dT*eig*(t - T0))*sin (omega*t -
    omega*(t - T0) + phase)*P0 : ℂ) + omega*T0*D⁻¹*exp (-dT*eig*(t - T0))*sin (omega*t - omega*(t - T0) + phase)*P1 +
    D⁻¹*cos (omega*t - omega*(t - T0) + phase)*exp (-dT*eig*(t - T0))*P1 - D⁻¹*cos (omega*t - omega*(t - T0) +
    phase)*exp (-dT*eig*(t - T0))*P0 - omega^(2:ℕ)*t*D⁻¹*cos (omega*t - omega*(t - T0) + phase)*exp (-dT*eig*(t -
    T0))*P1/(dT*eig) + omega^(2:ℕ)*t*D⁻¹*cos (omega*t - omega*(t - T0) + phase)*exp (-dT*eig*(t - T0))*P0/(dT*eig) :
    ℂ) + omega^(2:ℕ)*D⁻¹*(t - T0)*cos (omega*t - omega*(t - T0) + phase)*exp (-dT*eig*(t - T0))*P1/(dT*eig) -
    omega^(2:ℕ)*D⁻¹*(t - T0)*cos (omega*t - omega*(t - T0) + phase)*exp (-dT*eig*(t - T0))*P0/(dT*eig) -
    omega^(2:ℕ)*T1*D⁻¹*cos (omega*t - omega*(t - T0) + phase)*exp (-dT*eig*(t - T0))*P0/(dT*eig) +
    omega^(2:ℕ)*T0*D⁻¹*cos (omega*t - omega*(t - T0) + phase)*exp (-dT*eig*(t - T0))*P1/(dT*eig) + (2:ℂ)*omega*D⁻¹*exp
    (-dT*eig*(t - T0))*sin (omega*t - omega*(t - T0) + phase)*P1/(dT*eig) : ℂ) - (2:ℂ)*omega*D⁻¹*exp (-dT*eig*(t -
    T0))*sin (omega*t - omega*(t - T0) + phase)*P0/(dT*eig) - omega^(3:ℕ)*t*D⁻¹*exp (-dT*eig*(t - T0))*sin (omega*t -
    omega*(t - T0) + phase)*P1/(dT^(2:ℕ)*eig^(2:ℕ)) + omega^(3:ℕ)*t*D⁻¹*exp (-dT*eig*(t - T0))*sin (omega*t - omega*(t
    - T0) + phase)*P0/(dT^(2:ℕ)*eig^(2:ℕ)) + omega^(3:ℕ)*D⁻¹*(t - T0)*exp (-dT*eig*(t - T0))*sin (omega*t - omega*(t -
    T0) + phase)*P1/(dT^(2:ℕ)*eig^(2:ℕ)) - omega^(3:ℕ)*D⁻¹*(t - T0)*exp (-dT*eig*(t - T0))*sin (omega*t - omega*(t -
    T0) + phase)*P0/(dT^(2:ℕ)*eig^(2:ℕ)) : ℂ) - omega^(3:ℕ)*T1*D⁻¹*exp (-dT*eig*(t - T0))*sin (omega*t - omega*(t -
    T0) + phase)*P0/(dT^(2:ℕ)*eig^(2:ℕ)) + omega^(3:ℕ)*T0*D⁻¹*exp (-dT*eig*(t - T0))*sin (omega*t - omega*(t - T0) +
    phase)*P1/(dT^(2:ℕ)*eig^(2:ℕ)) - omega^(2:ℕ)*D⁻¹*cos (omega*t - omega*(t - T0) + phase)*exp (-dT*eig*(t -
    T0))*P1/(dT^(2:ℕ)*eig^(2:ℕ)) + omega^(2:ℕ)*D⁻¹*cos (omega*t - omega*(t - T0) + phase)*exp (-dT*eig*(t -
    T0))*P0/(dT^(2:ℕ)*eig^(2:ℕ)))/(dT*eig) + ((((((-dT*eig*t*cos (omega*t - omega*(t - T1) + phase)*exp (-dT*eig*(t -
    T1))*D⁻¹*P1 + dT*eig*t*cos (omega*t - omega*(t - T1) + phase)*exp (-dT*eig*(t - T1))*D⁻¹*P0 + dT*eig*(t - T1)*cos
    (omega*t - omega*(t - T1) + phase)*exp (-dT*eig*(t - T1))*D⁻¹*P1 - dT*eig*(t - T1)*cos (omega*t - omega*(t - T1) +
    phase)*exp (-dT*eig*(t - T1))*D⁻¹*P0 + dT*eig*cos (omega*t - omega*(t - T1) + phase)*exp (-dT*eig*(t -
    T1))*T0*D⁻¹*P1 - dT*eig*T1*cos (omega*t - omega*(t - T1) + phase)*exp (-dT*eig*(t - T1))*D⁻¹*P0 : ℂ) - omega*t*exp
    (-dT*eig*(t - T1))*sin (omega*t - omega*(t - T1) + phase)*D⁻¹*P1 + omega*t*exp (-dT*eig*(t - T1))*sin (omega*t -
    omega*(t - T1) + phase)*D⁻¹*P0 + omega*(t - T1)*exp (-dT*eig*(t - T1))*sin (omega*t - omega*(t - T1) +
    phase)*D⁻¹*P1 - omega*(t - T1)*exp (-dT*eig*(t - T1))*sin (omega*t - omega*(t - T1) + phase)*D⁻¹*P0 + omega*exp
    (-dT*eig*(t - T1))*sin (omega*t - omega*(t - T1) + phase)*T0*D⁻¹*P1 : ℂ) - omega*T1*exp (-dT*eig*(t - T1))*sin
    (omega*t - omega*(t - T1) + phase)*D⁻¹*P0 + cos (omega*t - omega*(t - T1) + phase)*exp (-dT*eig*(t - T1))*D⁻¹*P1 -
    cos (omega*t - omega*(t - T1) + phase)*exp (-dT*eig*(t - T1))*D⁻¹*P0 - omega^(2:ℕ)*t*cos (omega*t - omega*(t - T1)
    + phase)*exp (-dT*eig*(t - T1))*D⁻¹*P1/(dT*eig) + omega^(2:ℕ)*t*cos (omega*t - omega*(t - T1) + phase)*exp
    (-dT*eig*(t - T1))*D⁻¹*P0/(dT*eig) : ℂ) + omega^(2:ℕ)*(t - T1)*cos (omega*t - omega*(t - T1) + phase)*exp
    (-dT*eig*(t - T1))*D⁻¹*P1/(dT*eig) - omega^(2:ℕ)*(t - T1)*cos (omega*t - omega*(t - T1) + phase)*exp (-dT*eig*(t -
    T1))*D⁻¹*P0/(dT*eig) + omega^(2:ℕ)*cos (omega*t - omega*(t - T1) + phase)*exp (-dT*eig*(t -
    T1))*T0*D⁻¹*P1/(dT*eig) - omega^(2:ℕ)*T1*cos (omega*t - omega*(t - T1) + phase)*exp (-dT*eig*(t -
    T1))*D⁻¹*P0/(dT*eig) + (2:ℂ)*omega*exp (-dT*eig*(t - T1))*sin (omega*t - omega*(t - T1) + phase)*D⁻¹*P1/(dT*eig) :
    ℂ) - (2:ℂ)*omega*exp (-dT*eig*(t - T1))*sin (omega*t - omega*(t - T1) + phase)*D⁻¹*P0/(dT*eig) - omega^(3:ℕ)*t*exp
    (-dT*eig*(t - T1))*sin (omega*t - omega*(t - T1) + phase)*D⁻¹*P1/(dT^(2:ℕ)*eig^(2:ℕ)) + omega^(3:ℕ)*t*exp
    (-dT*eig*(t - T1))*sin (omega*t - omega*(t - T1) + phase)*D⁻¹*P0/(dT^(2:ℕ)*eig^(2:ℕ)) + omega^(3:ℕ)*(t - T1)*exp
    (-dT*eig*(t - T1))*sin (omega*t - omega*(t - T1) + phase)*D⁻¹*P1/(dT^(2:ℕ)*eig^(2:ℕ)) - omega^(3:ℕ)*(t - T1)*exp
    (-dT*eig*(t - T1))*sin (omega*t - omega*(t - T1) + phase)*D⁻¹*P0/(dT^(2:ℕ)*eig^(2:ℕ)) : ℂ) + omega^(3:ℕ)*exp
    (-dT*eig*(t - T1))*sin (omega*t - omega*(t - T1) + phase)*T0*D⁻¹*P1/(dT^(2:ℕ)*eig^(2:ℕ)) - omega^(3:ℕ)*T1*exp
    (-dT*eig*(t - T1))*sin (omega*t - omega*(t - T1) + phase)*D⁻¹*P0/(dT^(2:ℕ)*eig^(2:ℕ)) - omega^(2:ℕ)*cos (omega*t -
    omega*(t - T1) + phase)*exp (-dT*eig*(t - T1))*D⁻¹*P1/(dT^(2:ℕ)*eig^(2:ℕ)) + omega^(2:ℕ)*cos (omega*t - omega*(t -
    T1) + phase)*exp (-dT*eig*(t - T1))*D⁻¹*P0/(dT^(2:ℕ)*eig^(2:ℕ)))/(dT*eig)

/-- One load segment, scalar, `Eload_sinlinear`, geotecha/speccon/integrals.py:5590-5595. -/
noncomputable def Es_cc_s (T0 P0 omega phase eig t dT : ℂ) : ℂ :=
  (sin (omega*t + phase)/((1:ℂ) + omega^(2:ℕ)/(dT^(2:ℕ)*eig^(2:ℕ))) - omega*cos (omega*t + phase)/(dT*eig*((1:ℂ) +
    omega^(2:ℕ)/(dT^(2:ℕ)*eig^(2:ℕ)))))*P0/(dT*eig) - (exp (-dT*eig*(t - T0))*sin (omega*t - omega*(t - T0) +
    phase)/((1:ℂ) + omega^(2:ℕ)/(dT^(2:ℕ)*eig^(2:ℕ))) - omega*cos (omega*t - omega*(t - T0) + phase)*exp (-dT*eig*(t -
    T0))/(dT*eig*((1:ℂ) + omega^(2:ℕ)/(dT^(2:ℕ)*eig^(2:ℕ)))))*P0/(dT*eig)

/-- One load segment, scalar, `Eload_sinlinear`, geotecha/speccon/integrals.py:5598-5605. -/
noncomputable def Es_cl_s (T0 T1 P0 omega phase eig t dT : ℂ) : ℂ :=
  (exp (-dT*eig*(t - T1))*sin (omega*t - omega*(t - T1) + phase)/((1:ℂ) + omega^(2:ℕ)/(dT^(2:ℕ)*eig^(2:ℕ))) -
    omega*cos (omega*t - omega*(t - T1) + phase)*exp (-dT*eig*(t - T1))/(dT*eig*((1:ℂ) +
    omega^(2:ℕ)/(dT^(2:ℕ)*eig^(2:ℕ)))))*P0/(dT*eig) - (exp (-dT*eig*(t - T0))*sin (omega*t - omega*(t - T0) +
    phase)/((1:ℂ) + omega^(2:ℕ)/(dT^(2:ℕ)*eig^(2:ℕ))) - omega*cos (omega*t - omega*(t - T0) + phase)*exp (-dT*eig*(t -
    T0))/(dT*eig*((1:ℂ) + omega^(2:ℕ)/(dT^(2:ℕ)*eig^(2:ℕ)))))*P0/(dT*eig)

/-- One load segment, scalar, `Eload_sinlinear`, geotecha/speccon/integrals.py:5608-5837. -/
noncomputable def Es_rc_s (T0 T1 P0 P1 omega phase eig t dT : ℂ) : ℂ :=
  let D : ℂ := (-dT*eig*T1 + dT*eig*T0 - (2:ℂ)*omega^(2:ℕ)*T1/(dT*eig) + (2:ℂ)*omega^(2:ℕ)*T0/(dT*eig) -
    omega^(4:ℕ)*T1/(dT^(3:ℕ)*eig^(3:ℕ)) + omega^(4:ℕ)*T0/(dT^(3:ℕ)*eig^(3:ℕ)) : ℂ);
  (((((-dT*eig*t*sin (omega*t + phase)*D⁻¹*P1 + dT*eig*t*sin (omega*t + phase)*D⁻¹*P0 - dT*eig*sin (omega*t +
    phase)*T1*D⁻¹*P0 + dT*eig*sin (omega*t + phase)*T0*D⁻¹*P1 + omega*t*cos (omega*t + phase)*D⁻¹*P1 - omega*t*cos
    (omega*t + phase)*D⁻¹*P0 : ℂ) + omega*cos (omega*t + phase)*T1*D⁻¹*P0 - omega*cos (omega*t + phase)*T0*D⁻¹*P1 +
    sin (omega*t + phase)*D⁻¹*P1 - sin (omega*t + phase)*D⁻¹*P0 - omega^(2:ℕ)*t*sin (omega*t + phase)*D⁻¹*P1/(dT*eig)
    : ℂ) + omega^(2:ℕ)*t*sin (omega*t + phase)*D⁻¹*P0/(dT*eig) - omega^(2:ℕ)*sin (omega*t + phase)*T1*D⁻¹*P0/(dT*eig)
    + omega^(2:ℕ)*sin (omega*t + phase)*T0*D⁻¹*P1/(dT*eig) - (2:ℂ)*omega*cos (omega*t + phase)*D⁻¹*P1/(dT*eig) +
    (2:ℂ)*omega*cos (omega*t + phase)*D⁻¹*P0/(dT*eig) : ℂ) + omega^(3:ℕ)*t*cos (omega*t +
    phase)*D⁻¹*P1/(dT^(2:ℕ)*eig^(2:ℕ)) - omega^(3:ℕ)*t*cos (omega*t + phase)*D⁻¹*P0/(dT^(2:ℕ)*eig^(2:ℕ)) +
    omega^(3:ℕ)*cos (omega*t + phase)*T1*D⁻¹*P0/(dT^(2:ℕ)*eig^(2:ℕ)) - omega^(3:ℕ)*cos (omega*t +
    phase)*T0*D⁻¹*P1/(dT^(2:ℕ)*eig^(2:ℕ)) - omega^(2:ℕ)*sin (omega*t + phase)*D⁻¹*P1/(dT^(2:ℕ)*eig^(2:ℕ)) : ℂ) +
    omega^(2:ℕ)*sin (omega*t + phase)*D⁻¹*P0/(dT^(2:ℕ)*eig^(2:ℕ)))/(dT*eig) - ((((((-dT*eig*t*D⁻¹*exp (-dT*eig*(t -
    T0))*sin (omega*t - omega*(t - T0) + phase)*P1 + dT*eig*t*D⁻¹*exp (-dT*eig*(t - T0))*sin (omega*t - omega*(t - T0)
    + phase)*P0 + dT*eig*D⁻¹*(t - T0)*exp (-dT*eig*(t - T0))*sin (omega*t - omega*(t - T0) + phase)*P1 - dT*eig*D⁻¹*(t
    - T0)*exp (-dT*eig*(t - T0))*sin (omega*t - omega*(t - T0) + phase)*P0 - dT*eig*T1*D⁻¹*exp (-dT*eig*(t - T0))*sin
    (omega*t - omega*(t - T0) + phase)*P0 + dT*eig*T0*D⁻¹*exp (-dT*eig*(t - T0))*sin (omega*t - omega*(t - T0) +
    phase)*P1 : ℂ) + omega*t*D⁻¹*cos (omega*t - omega*(t - T0) + phase)*exp (-dT*eig*(t - T0))*P1 - omega*t*D⁻¹*cos
    (omega*t - omega*(t - T0) + phase)*exp (-dT*eig*(t - T0))*P0 - omega*D⁻¹*(t - T0)*cos (omega*t - omega*(t - T0) +
    phase)*exp (-dT*eig*(t - T0))*P1 + omega*D⁻¹*(t - T0)*cos (omega*t - omega*(t - T0) + phase)*exp (-dT*eig*(t -
    T0))*P0 + omega*T1*D⁻¹*cos (omega*t - omega*(t - T0) + phase)*exp (-dT*eig*(t - T0))*P0 : ℂ) - omega*T0*D⁻¹*cos
    (omega*t - omega*(t - T0) + phase)*exp (-dT*eig*(t - T0))*P1 + D⁻¹*exp (-dT*eig*(t - T0))*sin (omega*t - omega*(t
    - T0) + phase)*P1 - D⁻¹*exp (-dT*eig*(t - T0))*sin (omega*t - omega*(t - T0) + phase)*P0 - omega^(2:ℕ)*t*D⁻¹*exp
    (-dT*eig*(t - T0))*sin (omega*t - omega*(t - T0) + phase)*P1/(dT*eig) + omega^(2:ℕ)*t*D⁻¹*exp (-dT*eig*(t -
    T0))*sin (omega*t - omega*(t - T0) + phase)*P0/(dT*eig) : ℂ) + omega^(2:ℕ)*D⁻¹*(t - T0)*exp (-dT*eig*(t - T0))*sin
    (omega*t - omega*(t - T0) + phase)*P1/(dT*eig) - omega^(2:ℕ)*D⁻¹*(t - T0)*exp (-dT*eig*(t - T0))*sin (omega*t -
    omega*(t - T0) + phase)*P0/(dT*eig) - omega^(2:ℕ)*T1*D⁻¹*exp (-dT*eig*(t - T0))*sin (omega*t - omega*(t - T0) +
    phase)*P0/(dT*eig) + omega^(2:ℕ)*T0*D⁻¹*exp (-dT*eig*(t - T0))*sin (omega*t - omega*(t - T0) + phase)*P1/(dT*eig)
    - (2:ℂ)*omega*D⁻¹*cos (omega*t - omega*(t - T0) + phase)*exp (-dT*eig*(t - T0))*P1/(dT*eig) : ℂ) +
    (2:ℂ)*omega*D⁻¹*cos (omega*t - omega*(t - T0) + phase)*exp (-dT*eig*(t - T0))*P0/(dT*eig) + omega^(3:ℕ)*t*D⁻¹*cos
    (omega*t - omega*(t - T0) + phase)*exp (-dT*eig*(t - T0))*P1/(dT^(2:ℕ)*eig^(2:ℕ)) - omega^(3:ℕ)*t*D⁻¹*cos (omega*t
    - omega*(t - T0) + phase)*exp (-dT*eig*(t - T0))*P0/(dT^(2:ℕ)*eig^(2:ℕ)) - omega^(3:ℕ)*D⁻¹*(t - T0)*cos (omega*t -
    omega*(t - T0) + phase)*exp (-dT*eig*(t - T0))*P1/(dT^(2:ℕ)*eig^(2:ℕ)) + omega^(3:ℕ)*D⁻¹*(t - T0)*cos (omega*t -
    omega*(t - T0) + phase)*exp (-dT*eig*(t - T0))*P0/(dT^(2:ℕ)*eig^(2:ℕ)) : ℂ) + omega^(3:ℕ)*T1*D⁻¹*cos (omega*t -
    omega*(t - T0) + phase)*exp (-dT*eig*(t - T0))*P0/(dT^(2:ℕ)*eig^(2:ℕ)) - omega^(3:ℕ)*T0*D⁻¹*cos (omega*t -
    omega*(t - T0) + phase)*exp (-dT*eig*(t - T0))*P1/(dT^(2:ℕ)*eig^(2:ℕ)) - omega^(2:ℕ)*D⁻¹*exp (-dT*eig*(t -
    T0))*sin (omega*t - omega*(t - T0) + phase)*P1/(dT^(2:ℕ)*eig^(2:ℕ)) + omega^(2:ℕ)*D⁻¹*exp (-dT*eig*(t - T0))*sin
    (omega*t - omega*(t - T0) + phase)*P0/(dT^(2:ℕ)*eig^(2:ℕ)))/(dT*eig)

/-- One load segment, scalar, `Eload_sinlinear`, geotecha/speccon/integrals.py:5840-6128. -/
noncomputable def Es_rl_s (T0 T1 P0 P1 omega phase eig t dT : ℂ) : ℂ :=
  let D : ℂ := (-dT*eig*T1 + dT*eig*T0 - (2:ℂ)*omega^(2:ℕ)*T1/(dT*eig) + (2:ℂ)*omega^(2:ℕ)*T0/(dT*eig) -
    omega^(4:ℕ)*T1/(dT^(3:ℕ)*eig^(3:ℕ)) + omega^(4:ℕ)*T0/(dT^(3:ℕ)*eig^(3:ℕ)) : ℂ);
  -((((((-dT*eig*t*D⁻¹*exp (-dT*eig*(t - T0))*sin (omega*t - omega*(t - T0) + phase)*P1 + dT*eig*t*D⁻¹*exp (-dT*eig*(t
    - T0))*sin (omega*t - omega*(t - T0) + phase)*P0 + dT*eig*D⁻¹*(t - T0)*exp (-dT*eig*(t - T0))*sin (omega*t -
    omega*(t - T0) + phase)*P1 - dT*eig*D⁻¹*(t - T0)*exp (-dT*eig*(t - T0))*sin (omega*t - omega*(t - T0) + phase)*P0
    - dT*eig*T1*D⁻¹*exp (-dT*eig*(t - T0))*sin (omega*t - omega*(t - T0) + phase)*P0 + dT*eig*T0*D⁻¹*exp (-dT*eig*(t -
    T0))*sin (omega*t - omega*(t - T0) + phase)*P1 : ℂ) + omega*t*D⁻¹*cos (omega*t - omega*(t - T0) + phase)*exp
    (-dT*eig*(t - T0))*P1 - omega*t*D⁻¹*cos (omega*t - omega*(t - T0) + phase)*exp (-dT*eig*(t - T0))*P0 -
    omega*D⁻¹*(t - T0)*cos (omega*t - omega*(t - T0) + phase)*exp (-dT*eig*(t - T0))*P1 + omega*D⁻¹*(t - T0)*cos
    (omega*t - omega*(t - T0) + phase)*exp (-dT*eig*(t - T0))*P0 + omega*T1*D⁻¹*cos (omega*t - omega*(t - T0) +
    phase)*exp (-dT*eig*(t - T0))*P0 : ℂ) - omega*T0*D⁻¹*cos (omega*t - omega*(t - T0) + phase)*exp (-dT*eig*(t -
    T0))*P1 + D⁻¹*exp (-dT*eig*(t - T0))*sin (omega*t - omega*(t - T0) + phase)*P1 - D⁻¹*exp (-dT*eig*(t - T0))*sin
    (omega*t - omega*(t - T0) + phase)*P0 - omega^(2:ℕ)*t*D⁻¹*exp (-dT*eig*(t - T0))*sin (omega*t - omega*(t - T0) +
    phase)*P1/(dT*eig) + omega^(2:ℕ)*t*D⁻¹*exp (-dT*eig*(t - T0))*sin (omega*t - omega*(t - T0) + phase)*P0/(dT*eig) :
    ℂ) + omega^(2:ℕ)*D⁻¹*(t - T0)*exp (-dT*eig*(t - T0))*sin (omega*t - omega*(t - T0) + phase)*P1/(dT*eig) -
    omega^(2:ℕ)*D⁻¹*(t - T0)*exp (-dT*eig*(t - T0))*sin (omega*t - omega*(t - T0) + phase)*P0/(dT*eig) -
    omega^(2:ℕ)*T1*D⁻¹*exp (-dT*eig*(t - T0))*sin (omega*t - omega*(t - T0) + phase)*P0/(dT*eig) +
    omega^(2:ℕ)*T0*D⁻¹*exp (-dT*eig*(t - T0))*sin (omega*t - omega*(t - T0) + phase)*P1/(dT*eig) - (2:ℂ)*omega*D⁻¹*cos
    (omega*t - omega*(t - T0) + phase)*exp (-dT*eig*(t - T0))*P1/(dT*eig) : ℂ) + (2:ℂ)*omega*D⁻¹*cos (omega*t -
    omega*(t - T0) + phase)*exp (-dT*eig*(t - T0))*P0/(dT*eig) + omega^(3:ℕ)*t*D⁻¹*cos (omega*t - omega*(t - T0) +
    phase)*exp (-dT*eig*(t - T0))*P1/(dT^(2:ℕ)*eig^(2:ℕ)) - omega^(3:ℕ)*t*D⁻¹*cos (omega*t - omega*(t - T0) +
    phase)*exp (-dT*eig*(t - T0))*P0/(dT^(2:ℕ)*eig^(2:ℕ)) - omega^(3:ℕ)*D⁻¹*(t - T0)*cos (omega*t - omega*(t - T0) +
    phase)*exp (-dT*eig*(t - T0))*P1/(dT^(2:ℕ)*eig^(2:ℕ)) + omega^(3:ℕ)*D⁻¹*(t - T0)*cos (omega*t - omega*(t - T0) +
    phase)*exp (-dT*eig*(t - T0))*P0/(dT^(2:ℕ)*eig^(2:ℕ)) : ℂ) + omega^(3:ℕ)*T1*D⁻¹*cos (omega*t - omega*(t - T0) +
    phase)*exp (-dT*eig*(t - T0))*P0/(dT^(2:ℕ)*eig^(2:ℕ)) - omega^(3:ℕ)*T0*D⁻¹*cos (omega*t - omega*(t - T0) +
    phase)*exp (-dT*eig*(t - T0))*P1/(dT^(2:ℕ)*eig^(2:ℕ)) - omega^(2:ℕ)*D⁻¹*exp (-dT*eig*(t - T0))*sin (omega*t -
    omega*(t - T0) + phase)*P1/(dT^(2:ℕ)*eig^(2:ℕ)) + omega^(2:ℕ)*D⁻¹*exp (-dT*eig*(t - T0))*sin (omega*t - omega*(t -
    T0) + phase)*P0/(dT^(2:ℕ)*eig^(2:ℕ)))/(dT*eig) + ((((((-dT*eig*t*exp (-dT*eig*(t - T1))*sin (omega*t - omega*(t -
    T1) + phase)*D⁻¹*P1 + dT*eig*t*exp (-dT*eig*(t - T1))*sin (omega*t - omega*(t - T1) + phase)*D⁻¹*P0 + dT*eig*(t -
    T1)*exp (-dT*eig*(t - T1))*sin (omega*t - omega*(t - T1) + phase)*D⁻¹*P1 - dT*eig*(t - T1)*exp (-dT*eig*(t -
    T1))*sin (omega*t - omega*(t - T1) + phase)*D⁻¹*P0 + dT*eig*exp (-dT*eig*(t - T1))*sin (omega*t - omega*(t - T1) +
    phase)*T0*D⁻¹*P1 - dT*eig*T1*exp (-dT*eig*(t - T1))*sin (omega*t - omega*(t - T1) + phase)*D⁻¹*P0 : ℂ) +
    omega*t*cos (omega*t - omega*(t - T1) + phase)*exp (-dT*eig*(t - T1))*D⁻¹*P1 - omega*t*cos (omega*t - omega*(t -
    T1) + phase)*exp (-dT*eig*(t - T1))*D⁻¹*P0 - omega*(t - T1)*cos (omega*t - omega*(t - T1) + phase)*exp (-dT*eig*(t
    - T1))*D⁻¹*P1 + omega*(t - T1)*cos (omega*t - omega*(t - T1) + phase)*exp (-dT*eig*(t - T1))*D⁻¹*P0 - omega*cos
    (omega*t - omega*(t - T1) + phase)*exp (-dT*eig*(t - T1))*T0*D⁻¹*P1 : ℂ) + omega*T1*cos (omega*t - omega*(t - T1)
    + phase)*exp (-dT*eig*(t - T1))*D⁻¹*P0 + exp (-dT*eig*(t - T1))*sin (omega*t - omega*(t - T1) + phase)*D⁻¹*P1 -
    exp (-dT*eig*(t - T1))*sin (omega*t - omega*(t - T1) + phase)*D⁻¹*P0 - omega^(2:ℕ)*t*exp (-dT*eig*(t - T1))*sin
    (omega*t - omega*(t - T1) + phase)*D⁻¹*P1/(dT*eig) + omega^(2:ℕ)*t*exp (-dT*eig*(t - T1))*sin (omega*t - omega*(t
    - T1) + phase)*D⁻¹*P0/(dT*eig) : ℂ) + omega^(2:ℕ)*(t - T1)*exp (-dT*eig*(t - T1))*sin (omega*t - omega*(t - T1) +
    phase)*D⁻¹*P1/(dT*eig) - omega^(2:ℕ)*(t - T1)*exp (-dT*eig*(t - T1))*sin (omega*t - omega*(t - T1) +
    phase)*D⁻¹*P0/(dT*eig) + omega^(2:ℕ)*exp (-dT*eig*(t - T1))*sin (omega*t - omega*(t - T1) +
    phase)*T0*D⁻¹*P1/(dT*eig) - omega^(2:ℕ)*T1*exp (-dT*eig*(t - T1))*sin (omega*t - omega*(t - T1) +
    phase)*D⁻¹*P0/(dT*eig) - (2:ℂ)*omega*cos (omega*t - omega*(t - T1) + phase)*exp (-dT*eig*(t - T1))*D⁻¹*P1/(dT*eig)
    : ℂ) + (2:ℂ)*omega*cos (omega*t - omega*(t - T1) + phase)*exp (-dT*eig*(t - T1))*D⁻¹*P0/(dT*eig) +
    omega^(3:ℕ)*t*cos (omega*t - omega*(t - T1) + phase)*exp (-dT*eig*(t - T1))*D⁻¹*P1/(dT^(2:ℕ)*eig^(2:ℕ)) -
    omega^(3:ℕ)*t*cos (omega*t - omega*(t - T1) + phase)*exp (-dT*eig*(t - T1))*D⁻¹*P0/(dT^(2:ℕ)*eig^(2:ℕ)) -
    omega^(3:ℕ)*(t - T1)*cos (omega*t - omega*(t - T1) + phase)*exp (-dT*eig*(t - T1))*D⁻¹*P1/(dT^(2:ℕ)*eig^(2:ℕ)) +
    omega^(3:ℕ)*(t - T1)*cos (omega*t - omega*(t - T1) + phase)*exp (-dT*eig*(t - T1))*D⁻¹*P0/(dT^(2:ℕ)*eig^(2:ℕ)) :
    ℂ) - omega^(3:ℕ)*cos (omega*t - omega*(t - T1) + phase)*exp (-dT*eig*(t - T1))*T0*D⁻¹*P1/(dT^(2:ℕ)*eig^(2:ℕ)) +
    omega^(3:ℕ)*T1*cos (omega*t - omega*(t - T1) + phase)*exp (-dT*eig*(t - T1))*D⁻¹*P0/(dT^(2:ℕ)*eig^(2:ℕ)) -
    omega^(2:ℕ)*exp (-dT*eig*(t - T1))*sin (omega*t - omega*(t - T1) + phase)*D⁻¹*P1/(dT^(2:ℕ)*eig^(2:ℕ)) +
    omega^(2:ℕ)*exp (-dT*eig*(t - T1))*sin (omega*t - omega*(t - T1) + phase)*D⁻¹*P0/(dT^(2:ℕ)*eig^(2:ℕ)))/(dT*eig)

/-- One load segment, vectorized, `Eload_sinlinear`, geotecha/speccon/integrals.py:6153-6158. -/
noncomputable def Es_cc_v (T0 P0 omega phase eig t dT : ℂ) : ℂ :=
  (sin (omega*t + phase)/((1:ℂ) + omega^(2:ℕ)/(dT^(2:ℕ)*eig^(2:ℕ))) - omega*cos (omega*t + phase)/(dT*eig*((1:ℂ) +
    omega^(2:ℕ)/(dT^(2:ℕ)*eig^(2:ℕ)))))*P0/(dT*eig) - (exp (-dT*eig*(t - T0))*sin (omega*t - omega*(t - T0) +
    phase)/((1:ℂ) + omega^(2:ℕ)/(dT^(2:ℕ)*eig^(2:ℕ))) - omega*cos (omega*t - omega*(t - T0) + phase)*exp (-dT*eig*(t -
    T0))/(dT*eig*((1:ℂ) + omega^(2:ℕ)/(dT^(2:ℕ)*eig^(2:ℕ)))))*P0/(dT*eig)

/-- One load segment, vectorized, `Eload_sinlinear`, geotecha/speccon/integrals.py:6162-6169. -/
noncomputable def Es_cl_v (T0 T1 P0 omega phase eig t dT : ℂ) : ℂ :=
  (exp (-dT*eig*(t - T1))*sin (omega*t - omega*(t - T1) + phase)/((1:ℂ) + omega^(2:ℕ)/(dT^(2:ℕ)*eig^(2:ℕ))) -
    omega*cos (omega*t - omega*(t - T1) + phase)*exp (-dT*eig*(t - T1))/(dT*eig*((1:ℂ) +
    omega^(2:ℕ)/(dT^(2:ℕ)*eig^(2:ℕ)))))*P0/(dT*eig) - (exp (-dT*eig*(t - T0))*sin (omega*t - omega*(t - T0) +
    phase)/((1:ℂ) + omega^(2:ℕ)/(dT^(2:ℕ)*eig^(2:ℕ))) - omega*cos (omega*t - omega*(t - T0) + phase)*exp (-dT*eig*(t -
    T0))/(dT*eig*((1:ℂ) + omega^(2:ℕ)/(dT^(2:ℕ)*eig^(2:ℕ)))))*P0/(dT*eig)

/-- One load segment, vectorized, `Eload_sinlinear`, geotecha/speccon/integrals.py:6173-6402. -/
noncomputable def Es_rc_v (T0 T1 P0 P1 omega phase eig t dT : ℂ) : ℂ :=
  let D : ℂ := (-dT*eig*T1 + dT*eig*T0 - (2:ℂ)*omega^(2:ℕ)*T1/(dT*eig) + (2:ℂ)*omega^(2:ℕ)*T0/(dT*eig) -
    omega^(4:ℕ)*T1/(dT^(3:ℕ)*eig^(3:ℕ)) + omega^(4:ℕ)*T0/(dT^(3:ℕ)*eig^(3:ℕ)) : ℂ);
  (((((-dT*eig*t*sin (omega*t + phase)*D⁻¹*P1 + dT*eig*t*sin (omega*t + phase)*D⁻¹*P0 - dT*eig*sin (omega*t +
    phase)*T1*D⁻¹*P0 + dT*eig*sin (omega*t + phase)*T0*D⁻¹*P1 + omega*t*cos (omega*t + phase)*D⁻¹*P1 - omega*t*cos
    (omega*t + phase)*D⁻¹*P0 : ℂ) + omega*cos (omega*t + phase)*T1*D⁻¹*P0 - omega*cos (omega*t + phase)*T0*D⁻¹*P1 +
    sin (omega*t + phase)*D⁻¹*P1 - sin (omega*t + phase)*D⁻¹*P0 - omega^(2:ℕ)*t*sin (omega*t + phase)*D⁻¹*P1/(dT*eig)
    : ℂ) + omega^(2:ℕ)*t*sin (omega*t + phase)*D⁻¹*P0/(dT*eig) - omega^(2:ℕ)*sin (omega*t + phase)*T1*D⁻¹*P0/(dT*eig)
    + omega^(2:ℕ)*sin (omega*t + phase)*T0*D⁻¹*P1/(dT*eig) - (2:ℂ)*omega*cos (omega*t + phase)*D⁻¹*P1/(dT*eig) +
    (2:ℂ)*omega*cos (omega*t + phase)*D⁻¹*P0/(dT*eig) : ℂ) + omega^(3:ℕ)*t*cos (omega*t +
    phase)*D⁻¹*P1/(dT^(2:ℕ)*eig^(2:ℕ)) - omega^(3:ℕ)*t*cos (omega*t + phase)*D⁻¹*P0/(dT^(2:ℕ)*eig^(2:ℕ)) +
    omega^(3:ℕ)*cos (omega*t + phase)*T1*D⁻¹*P0/(dT^(2:ℕ)*eig^(2:ℕ)) - omega^(3:ℕ)*cos (omega*t +
    phase)*T0*D⁻¹*P1/(dT^(2:ℕ)*eig^(2:ℕ)) - omega^(2:ℕ)*sin (omega*t + phase)*D⁻¹*P1/(dT^(2:ℕ)*eig^(2:ℕ)) : ℂ) +
    omega^(2:ℕ)*sin (omega*t + phase)*D⁻¹*P0/(dT^(2:ℕ)*eig^(2:ℕ)))/(dT*eig) - ((((((-dT*eig*t*D⁻¹*exp (-dT*eig*(t -
    T0))*sin (omega*t - omega*(t - T0) + phase)*P1 + dT*eig*t*D⁻¹*exp (-dT*eig*(t - T0))*sin (omega*t - omega*(t - T0)
    + phase)*P0 + dT*eig*D⁻¹*(t - T0)*exp (-dT*eig*(t - T0))*sin (omega*t - omega*(t - T0) + phase)*P1 - dT*eig*D⁻¹*(t
    - T0)*exp (-dT*eig*(t - T0))*sin (omega*t - omega*(t - T0) + phase)*P0 - dT*eig*T1*D⁻¹*exp (-dT*eig*(t - T0))*sin
    (omega*t - omega*(t - T0) + phase)*P0 + dT*eig*T0*D⁻¹*exp (-dT*eig*(t - T0))*sin (omega*t - omega*(t - T0) +
    phase)*P1 : ℂ) + omega*t*D⁻¹*cos (omega*t - omega*(t - T0) + phase)*exp (-dT*eig*(t - T0))*P1 - omega*t*D⁻¹*cos
    (omega*t - omega*(t - T0) + phase)*exp (-dT*eig*(t - T0))*P0 - omega*D⁻¹*(t - T0)*cos (omega*t - omega*(t - T0) +
    phase)*exp (-dT*eig*(t - T0))*P1 + omega*D⁻¹*(t - T0)*cos (omega*t - omega*(t - T0) + phase)*exp (-dT*eig*(t -
    T0))*P0 + omega*T1*D⁻¹*cos (omega*t - omega*(t - T0) + phase)*exp (-dT*eig*(t - T0))*P0 : ℂ) - omega*T0*D⁻¹*cos
    (omega*t - omega*(t - T0) + phase)*exp (-dT*eig*(t - T0))*P1 + D⁻¹*exp (-dT*eig*(t - T0))*sin (omega*t - omega*(t
    - T0) + phase)*P1 - D⁻¹*exp (-dT*eig*(t - T0))*sin (omega*t - omega*(t - T0) + phase)*P0 - omega^(2:ℕ)*t*D⁻¹*exp
    (-dT*eig*(t - T0))*sin (omega*t - omega*(t - T0) + phase)*P1/(dT*eig) + omega^(2:ℕ)*t*D⁻¹*exp (-dT*eig*(t -
    T0))*sin (omega*t - omega*(t - T0) + phase)*P0/(dT*eig) : ℂ) + omega^(2:ℕ)*D⁻¹*(t - T0)*exp (-dT*eig*(t - T0))*sin
    (omega*t - omega*(t - T0) + phase)*P1/(dT*eig) - omega^(2:ℕ)*D⁻¹*(t - T0)*exp (-dT*eig*(t - T0))*sin (omega*t -
    omega*(t - T0) + phase)*P0/(dT*eig) - omega^(2:ℕ)*T1*D⁻¹*exp (-dT*eig*(t - T0))*sin (omega*t - omega*(t - T0) +
    phase)*P0/(dT*eig) + omega^(2:ℕ)*T0*D⁻¹*exp (-dT*eig*(t - T0))*sin (omega*t - omega*(t - T0) + phase)*P1/(dT*eig)
    - (2:ℂ)*omega*D⁻¹*cos (omega*t - omega*(t - T0) + phase)*exp (-dT*eig*(t - T0))*P1/(dT*eig) : ℂ) +
    (2:ℂ)*omega*D⁻¹*cos (omega*t - omega*(t - T0) + phase)*exp (-dT*eig*(t - T0))*P0/(dT*eig) + omega^(3:ℕ)*t*D⁻¹*cos
    (omega*t - omega*(t - T0) + phase)*exp (-dT*eig*(t - T0))*P1/(dT^(2:ℕ)*eig^(2:ℕ)) - omega^(3:ℕ)*t*D⁻¹*cos (omega*t
    - omega*(t - T0) + phase)*exp (-dT*eig*(t - T0))*P0/(dT^(2:ℕ)*eig^(2:ℕ)) - omega^(3:ℕ)*D⁻¹*(t - T0)*cos (omega*t -
    omega*(t - T0) + phase)*exp (-dT*eig*(t - T0))*P1/(dT^(2:ℕ)*eig^(2:ℕ)) + omega^(3:ℕ)*D⁻¹*(t - T0)*cos (omega*t -
    omega*(t - T0) + phase)*exp (-dT*eig*(t - T0))*P0/(dT^(2:ℕ)*eig^(2:ℕ)) : ℂ) + omega^(3:ℕ)*T1*D⁻¹*cos (omega*t -
    omega*(t - T0) + phase)*exp (-dT*eig*(t - T0))*P0/(dT^(2:ℕ)*eig^(2:ℕ)) - omega^(3:ℕ)*T0*D⁻¹*cos (omega*t -
    omega*(t - T0) + phase)*exp (-dT*eig*(t - T0))*P1/(dT^(2:ℕ)*eig^(2:ℕ)) - omega^(2:ℕ)*D⁻¹*exp (-dT*eig*(t -
    T0))*sin (omega*t - omega*(t - T0) + phase)*P1/(dT^(2:ℕ)*eig^(2:ℕ)) + omega^(2:ℕ)*D⁻¹*exp (-dT*eig*(t - T0))*sin
    (omega*t - omega*(t - T0) + phase)*P0/(dT^(2:ℕ)*eig^(2:ℕ)))/(dT*eig)

/-- One load segment, vectorized, `Eload_sinlinear`, geotecha/speccon/integrals.py:6406-6694. -/
noncomputable def Es_rl_v (T0 T1 P0 P1 omega phase eig t dT : ℂ) : ℂ :=
  let D : ℂ := (-dT*eig*T1 + dT*eig*T0 - (2:ℂ)*omega^(2:ℕ)*T1/(dT*eig) + (2:ℂ)*omega^(2:ℕ)*T0/(dT*eig) -
    omega^(4:ℕ)*T1/(dT^(3:ℕ)*eig^(3:ℕ)) + omega^(4:ℕ)*T0/(dT^(3:ℕ)*eig^(3:ℕ)) : ℂ);
  -((((((-dT*eig*t*D⁻¹*exp (-dT*eig*(t - T0))*sin (omega*t - omega*(t - T0) + phase)*P1 + dT*eig*t*D⁻¹*exp (-dT*eig*(t
    - T0))*sin (omega*t - omega*(t - T0) + phase)*P0 + dT*eig*D⁻¹*(t - T0)*exp (-dT*eig*(t - T0))*sin (omega*t -
    omega*(t - T0) + phase)*P1 - dT*eig*D⁻¹*(t - T0)*exp (-dT*eig*(t - T0))*sin (omega*t - omega*(t - T0) + phase)*P0
    - dT*eig*T1*D⁻¹*exp (-dT*eig*(t - T0))*sin (omega*t - omega*(t - T0) + phase)*P0 + dT*eig*T0*D⁻¹*exp (-dT*eig*(t -
    T0))*sin (omega*t - omega*(t - T0) + phase)*P1 : ℂ) + omega*t*D⁻¹*cos (omega*t - omega*(t - T0) + phase)*exp
    (-dT*eig*(t - T0))*P1 - omega*t*D⁻¹*cos (omega*t - omega*(t - T0) + phase)*exp (-dT*eig*(t - T0))*P0 -
    omega*D⁻¹*(t - T0)*cos (omega*t - omega*(t - T0) + phase)*exp (-dT*eig*(t - T0))*P1 + omega*D⁻¹*(t - T0)*cos
    (omega*t - omega*(t - T0) + phase)*exp (-dT*eig*(t - T0))*P0 + omega*T1*D⁻¹*cos (omega*t - omega*(t - T0) +
    phase)*exp (-dT*eig*(t - T0))*P0 : ℂ) - omega*T0*D⁻¹*cos (omega*t - omega*(t - T0) + phase)*exp (-dT*eig*(t -
    T0))*P1 + D⁻¹*exp (-dT*eig*(t - T0))*sin (omega*t - omega*(t - T0) + phase)*P1 - D⁻¹*exp (-dT*eig*(t - T0))*sin
    (omega*t - omega*(t - T0) + phase)*P0 - omega^(2:ℕ)*t*D⁻¹*exp (-dT*eig*(t - T0))*sin (omega*t - omega*(t - T0) +
    phase)*P1/(dT*eig) + omega^(2:ℕ)*t*D⁻¹*exp (-dT*eig*(t - T0))*sin (omega*t - omega*(t - T0) + phase)*P0/(dT*eig) :
    ℂ) + omega^(2:ℕ)*D⁻¹*(t - T0)*exp (-dT*eig*(t - T0))*sin (omega*t - omega*(t - T0) + phase)*P1/(dT*eig) -
    omega^(2:ℕ)*D⁻¹*(t - T0)*exp (-dT*eig*(t - T0))*sin (omega*t - omega*(t - T0) + phase)*P0/(dT*eig) -
    omega^(2:ℕ)*T1*D⁻¹*exp (-dT*eig*(t - T0))*sin (omega*t - omega*(t - T0) + phase)*P0/(dT*eig) +
    omega^(2:ℕ)*T0*D⁻¹*exp (-dT*eig*(t - T0))*sin (omega*t - omega*(t - T0) + phase)*P1/(dT*eig) - (2:ℂ)*omega*D⁻¹*cos
    (omega*t - omega*(t - T0) + phase)*exp (-dT*eig*(t - T0))*P1/(dT*eig) : ℂ) + (2:ℂ)*omega*D⁻¹*cos (omega*t -
    omega*(t - T0) + phase)*exp (-dT*eig*(t - T0))*P0/(dT*eig) + omega^(3:ℕ)*t*D⁻¹*cos (omega*t - omega*(t - T0) +
    phase)*exp (-dT*eig*(t - T0))*P1/(dT^(2:ℕ)*eig^(2:ℕ)) - omega^(3:ℕ)*t*D⁻¹*cos (omega*t - omega*(t - T0) +
    phase)*exp (-dT*eig*(t - T0))*P0/(dT^(2:ℕ)*eig^(2:ℕ)) - omega^(3:ℕ)*D⁻¹*(t - T0)*cos (omega*t - omega*(t - T0) +
    phase)*exp (-dT*eig*(t - T0))*P1/(dT^(2:ℕ)*eig^(2:ℕ)) + omega^(3:ℕ)*D⁻¹*(t - T0)*cos (omega*t - omega*(t - T0) +
    phase)*exp (-dT*eig*(t - T0))*P0/(dT^(2:ℕ)*eig^(2:ℕ)) : ℂ) + omega^(3:ℕ)*T1*D⁻¹*cos (omega*t - omega*(t - T0) +
    phase)*exp (-dT*eig*(t - T0))*P0/(dT^(2:ℕ)*eig^(2:ℕ)) - omega^(3:ℕ)*T0*D⁻¹*cos (omega*t - omega*(t - T0) +
    phase)*exp (-dT*eig*(t - T0))*P1/(dT^(2:ℕ)*eig^(2:ℕ)) - omega^(2:ℕ)*D⁻¹*exp (-dT*eig*(t - T0))*sin (omega*t -
    omega*(t - T0) + phase)*P1/(dT^(2:ℕ)*eig^(2:ℕ)) + omega^(2:ℕ)*D⁻¹*exp (-dT*eig*(t - T0))*sin (omega*t - omega*(t -
    T0) + phase)*P0/(dT^(2:ℕ)*eig^(2:ℕ)))/(dT*eig) + ((((((-dT*eig*t*exp (-dT*eig*(t - T1))*sin (omega*t - omega*(t -
    T1) + phase)*D⁻¹*P1 + dT*eig*t*exp (-dT*eig*(t - T1))*sin (omega*t - omega*(t - T1) + phase)*D⁻¹*P0 + dT*eig*(t -
    T1)*exp (-dT*eig*(t - T1))*sin (omega*t - omega*(t - T1) + phase)*D⁻¹*P1 - dT*eig*(t - T1)*exp (-dT*eig*(t -
    T1))*sin (omega*t - omega*(t - T1) + phase)*D⁻¹*P0 + dT*eig*exp (-dT*eig*(t - T1))*sin (omega*t - omega*(t - T1) +
    phase)*T0*D⁻¹*P1 - dT*eig*T1*exp (-dT*eig*(t - T1))*sin (omega*t - omega*(t - T1) + phase)*D⁻¹*P0 : ℂ) +
    omega*t*cos (omega*t - omega*(t - T1) + phase)*exp (-dT*eig*(t - T1))*D⁻¹*P1 - omega*t*cos (omega*t - omega*(t -
    T1) + phase)*exp (-dT*eig*(t - T1))*D⁻¹*P0 - omega*(t - T1)*cos (omega*t - omega*(t - T1) + phase)*exp (-dT*eig*(t
    - T1))*D⁻¹*P1 + omega*(t - T1)*cos (omega*t - omega*(t - T1) + phase)*exp (-dT*eig*(t - T1))*D⁻¹*P0 - omega*cos
    (omega*t - omega*(t - T1) + phase)*exp (-dT*eig*(t - T1))*T0*D⁻¹*P1 : ℂ) + omega*T1*cos (omega*t - omega*(t - T1)
    + phase)*exp (-dT*eig*(t - T1))*D⁻¹*P0 + exp (-dT*eig*(t - T1))*sin (omega*t - omega*(t - T1) + phase)*D⁻¹*P1 -
    exp (-dT*eig*(t - T1))*sin (omega*t - omega*(t - T1) + phase)*D⁻¹*P0 - omega^(2:ℕ)*t*exp (-dT*eig*(t - T1))*sin
    (omega*t - omega*(t - T1) + phase)*D⁻¹*P1/(dT*eig) + omega^(2:ℕ)*t*exp (-dT*eig*(t - T1))*sin (omega*t - omega*(t
    - T1) + phase)*D⁻¹*P0/(dT*eig) : ℂ) + omega^(2:ℕ)*(t - T1)*exp (-dT*eig*(t - T1))*sin (omega*t - omega*(t - T1) +
    phase)*D⁻¹*P1/(dT*eig) - omega^(2:ℕ)*(t - T1)*exp (-dT*eig*(t - T1))*sin (omega*t - omega*(t - T1) +
    phase)*D⁻¹*P0/(dT*eig) + omega^(2:ℕ)*exp (-dT*eig*(t - T1))*sin (omega*t - omega*(t - T1) +
    phase)*T0*D⁻¹*P1/(dT*eig) - omega^(2:ℕ)*T1*exp (-dT*eig*(t - T1))*sin (omega*t - omega*(t - T1) +
    phase)*D⁻¹*P0/(dT*eig) - (2:ℂ)*omega*cos (omega*t - omega*(t - T1) + phase)*exp (-dT*eig*(t - T1))*D⁻¹*P1/(dT*eig)
    : ℂ) + (2:ℂ)*omega*cos (omega*t - omega*(t - T1) + phase)*exp (-dT*eig*(t - T1))*D⁻¹*P0/(dT*eig) +
    omega^(3:ℕ)*t*cos (omega*t - omega*(t - T1) + phase)*exp (-dT*eig*(t - T1))*D⁻¹*P1/(dT^(2:ℕ)*eig^(2:ℕ)) -
    omega^(3:ℕ)*t*cos (omega*t - omega*(t - T1) + phase)*exp (-dT*eig*(t - T1))*D⁻¹*P0/(dT^(2:ℕ)*eig^(2:ℕ)) -
    omega^(3:ℕ)*(t - T1)*cos (omega*t - omega*(t - T1) + phase)*exp (-dT*eig*(t - T1))*D⁻¹*P1/(dT^(2:ℕ)*eig^(2:ℕ)) +
    omega^(3:ℕ)*(t - T1)*cos (omega*t - omega*(t - T1) + phase)*exp (-dT*eig*(t - T1))*D⁻¹*P0/(dT^(2:ℕ)*eig^(2:ℕ)) :
    ℂ) - omega^(3:ℕ)*cos (omega*t - omega*(t - T1) + phase)*exp (-dT*eig*(t - T1))*T0*D⁻¹*P1/(dT^(2:ℕ)*eig^(2:ℕ)) +
    omega^(3:ℕ)*T1*cos (omega*t - omega*(t - T1) + phase)*exp (-dT*eig*(t - T1))*D⁻¹*P0/(dT^(2:ℕ)*eig^(2:ℕ)) -
    omega^(2:ℕ)*exp (-dT*eig*(t - T1))*sin (omega*t - omega*(t - T1) + phase)*D⁻¹*P1/(dT^(2:ℕ)*eig^(2:ℕ)) +
    omega^(2:ℕ)*exp (-dT*eig*(t - T1))*sin (omega*t - omega*(t - T1) + phase)*D⁻¹*P0/(dT^(2:ℕ)*eig^(2:ℕ)))/(dT*eig)

end Geotecha.Speccon.Cx
