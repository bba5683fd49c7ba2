import Mathlib.Analysis.SpecialFunctions.Trigonometric.Basic

/-!
# Closed forms in geotecha/speccon/integrals.py: load terms

Generated by tools/gen_integrals.py (syntactic translation of the right hand sides; `x**(-n)` becomes
`(x^n)⁻¹`, `loadtim[k]`, `loadtim[k+1]`, `loadmag[k]`, `loadmag[k+1]` become `T0 T1 P0 P1`).
-/

open Real
namespace Geotecha.Speccon


/-- One load segment, scalar, `EDload_coslinear`, geotecha/speccon/integrals.py:4447-4447. -/
noncomputable def EDc_sl_s (T0 P0 P1 omega phase eig t dT : ℝ) : ℝ :=
  cos (omega*T0 + phase)*exp (-dT*eig*(t - T0))*(P1 - P0)

/-- One load segment, scalar, `EDload_coslinear`, geotecha/speccon/integrals.py:4450-4678. -/
noncomputable def EDc_rc_s (T0 T1 P0 P1 omega phase eig t dT : ℝ) : ℝ :=
  let D : ℝ := (-dT*eig*T1 + dT*eig*T0 - (2:ℝ)*omega^(2:ℕ)*T1/(dT*eig) + (2:ℝ)*omega^(2:ℕ)*T0/(dT*eig) -
    omega^(4:ℕ)*T1/(dT^(3:ℕ)*eig^(3:ℕ)) + omega^(4:ℕ)*T0/(dT^(3:ℕ)*eig^(3:ℕ)) : ℝ);
  ((((((((((omega*t*sin (omega*t + phase)*D⁻¹*P1 - omega*t*sin (omega*t + phase)*D⁻¹*P0 - omega*t*D⁻¹*exp (-dT*eig*(t
    - T0))*sin (omega*t - omega*(t - T0) + phase)*P1 + omega*t*D⁻¹*exp (-dT*eig*(t - T0))*sin (omega*t - omega*(t -
    T0) + phase)*P0 + omega*sin (omega*t + phase)*T1*D⁻¹*P0 - omega*sin (omega*t + phase)*T0*D⁻¹*P1 : ℝ) +
    omega*D⁻¹*(t - T0)*exp (-dT*eig*(t - T0))*sin (omega*t - omega*(t - T0) + phase)*P1 - omega*D⁻¹*(t - T0)*exp
    (-dT*eig*(t - T0))*sin (omega*t - omega*(t - T0) + phase)*P0 - omega*T1*D⁻¹*exp (-dT*eig*(t - T0))*sin (omega*t -
    omega*(t - T0) + phase)*P0 + omega*T0*D⁻¹*exp (-dT*eig*(t - T0))*sin (omega*t - omega*(t - T0) + phase)*P1 - cos
    (omega*t + phase)*D⁻¹*P1 : ℝ) + cos (omega*t + phase)*D⁻¹*P0 + D⁻¹*cos (omega*t - omega*(t - T0) + phase)*exp
    (-dT*eig*(t - T0))*P1 - D⁻¹*cos (omega*t - omega*(t - T0) + phase)*exp (-dT*eig*(t - T0))*P0 - omega^(2:ℕ)*t*cos
    (omega*t + phase)*D⁻¹*P1/(dT*eig) + omega^(2:ℕ)*t*cos (omega*t + phase)*D⁻¹*P0/(dT*eig) : ℝ) +
    omega^(2:ℕ)*t*D⁻¹*cos (omega*t - omega*(t - T0) + phase)*exp (-dT*eig*(t - T0))*P1/(dT*eig) -
    omega^(2:ℕ)*t*D⁻¹*cos (omega*t - omega*(t - T0) + phase)*exp (-dT*eig*(t - T0))*P0/(dT*eig) - omega^(2:ℕ)*cos
    (omega*t + phase)*T1*D⁻¹*P0/(dT*eig) + omega^(2:ℕ)*cos (omega*t + phase)*T0*D⁻¹*P1/(dT*eig) - omega^(2:ℕ)*D⁻¹*(t -
    T0)*cos (omega*t - omega*(t - T0) + phase)*exp (-dT*eig*(t - T0))*P1/(dT*eig) : ℝ) + omega^(2:ℕ)*D⁻¹*(t - T0)*cos
    (omega*t - omega*(t - T0) + phase)*exp (-dT*eig*(t - T0))*P0/(dT*eig) + omega^(2:ℕ)*T1*D⁻¹*cos (omega*t - omega*(t
    - T0) + phase)*exp (-dT*eig*(t - T0))*P0/(dT*eig) - omega^(2:ℕ)*T0*D⁻¹*cos (omega*t - omega*(t - T0) + phase)*exp
    (-dT*eig*(t - T0))*P1/(dT*eig) - (2:ℝ)*omega*sin (omega*t + phase)*D⁻¹*P1/(dT*eig) + (2:ℝ)*omega*sin (omega*t +
    phase)*D⁻¹*P0/(dT*eig) : ℝ) + (2:ℝ)*omega*D⁻¹*exp (-dT*eig*(t - T0))*sin (omega*t - omega*(t - T0) +
    phase)*P1/(dT*eig) - (2:ℝ)*omega*D⁻¹*exp (-dT*eig*(t - T0))*sin (omega*t - omega*(t - T0) + phase)*P0/(dT*eig) +
    omega^(3:ℕ)*t*sin (omega*t + phase)*D⁻¹*P1/(dT^(2:ℕ)*eig^(2:ℕ)) - omega^(3:ℕ)*t*sin (omega*t +
    phase)*D⁻¹*P0/(dT^(2:ℕ)*eig^(2:ℕ)) - omega^(3:ℕ)*t*D⁻¹*exp (-dT*eig*(t - T0))*sin (omega*t - omega*(t - T0) +
    phase)*P1/(dT^(2:ℕ)*eig^(2:ℕ)) : ℝ) + omega^(3:ℕ)*t*D⁻¹*exp (-dT*eig*(t - T0))*sin (omega*t - omega*(t - T0) +
    phase)*P0/(dT^(2:ℕ)*eig^(2:ℕ)) + omega^(3:ℕ)*sin (omega*t + phase)*T1*D⁻¹*P0/(dT^(2:ℕ)*eig^(2:ℕ)) -
    omega^(3:ℕ)*sin (omega*t + phase)*T0*D⁻¹*P1/(dT^(2:ℕ)*eig^(2:ℕ)) + omega^(3:ℕ)*D⁻¹*(t - T0)*exp (-dT*eig*(t -
    T0))*sin (omega*t - omega*(t - T0) + phase)*P1/(dT^(2:ℕ)*eig^(2:ℕ)) - omega^(3:ℕ)*D⁻¹*(t - T0)*exp (-dT*eig*(t -
    T0))*sin (omega*t - omega*(t - T0) + phase)*P0/(dT^(2:ℕ)*eig^(2:ℕ)) : ℝ) - omega^(3:ℕ)*T1*D⁻¹*exp (-dT*eig*(t -
    T0))*sin (omega*t - omega*(t - T0) + phase)*P0/(dT^(2:ℕ)*eig^(2:ℕ)) + omega^(3:ℕ)*T0*D⁻¹*exp (-dT*eig*(t -
    T0))*sin (omega*t - omega*(t - T0) + phase)*P1/(dT^(2:ℕ)*eig^(2:ℕ)) + omega^(2:ℕ)*cos (omega*t +
    phase)*D⁻¹*P1/(dT^(2:ℕ)*eig^(2:ℕ)) - omega^(2:ℕ)*cos (omega*t + phase)*D⁻¹*P0/(dT^(2:ℕ)*eig^(2:ℕ)) -
    omega^(2:ℕ)*D⁻¹*cos (omega*t - omega*(t - T0) + phase)*exp (-dT*eig*(t - T0))*P1/(dT^(2:ℕ)*eig^(2:ℕ)) : ℝ) +
    omega^(2:ℕ)*D⁻¹*cos (omega*t - omega*(t - T0) + phase)*exp (-dT*eig*(t - T0))*P0/(dT^(2:ℕ)*eig^(2:ℕ)) -
    omega^(4:ℕ)*t*cos (omega*t + phase)*D⁻¹*P1/(dT^(3:ℕ)*eig^(3:ℕ)) + omega^(4:ℕ)*t*cos (omega*t +
    phase)*D⁻¹*P0/(dT^(3:ℕ)*eig^(3:ℕ)) + omega^(4:ℕ)*t*D⁻¹*cos (omega*t - omega*(t - T0) + phase)*exp (-dT*eig*(t -
    T0))*P1/(dT^(3:ℕ)*eig^(3:ℕ)) - omega^(4:ℕ)*t*D⁻¹*cos (omega*t - omega*(t - T0) + phase)*exp (-dT*eig*(t -
    T0))*P0/(dT^(3:ℕ)*eig^(3:ℕ)) : ℝ) - omega^(4:ℕ)*cos (omega*t + phase)*T1*D⁻¹*P0/(dT^(3:ℕ)*eig^(3:ℕ)) +
    omega^(4:ℕ)*cos (omega*t + phase)*T0*D⁻¹*P1/(dT^(3:ℕ)*eig^(3:ℕ)) - omega^(4:ℕ)*D⁻¹*(t - T0)*cos (omega*t -
    omega*(t - T0) + phase)*exp (-dT*eig*(t - T0))*P1/(dT^(3:ℕ)*eig^(3:ℕ)) + omega^(4:ℕ)*D⁻¹*(t - T0)*cos (omega*t -
    omega*(t - T0) + phase)*exp (-dT*eig*(t - T0))*P0/(dT^(3:ℕ)*eig^(3:ℕ)) + omega^(4:ℕ)*T1*D⁻¹*cos (omega*t -
    omega*(t - T0) + phase)*exp (-dT*eig*(t - T0))*P0/(dT^(3:ℕ)*eig^(3:ℕ)) : ℝ) - omega^(4:ℕ)*T0*D⁻¹*cos (omega*t -
    omega*(t - T0) + phase)*exp (-dT*eig*(t - T0))*P1/(dT^(3:ℕ)*eig^(3:ℕ))

/-- One load segment, scalar, `EDload_coslinear`, geotecha/speccon/integrals.py:4681-4974. -/
noncomputable def EDc_rl_s (T0 T1 P0 P1 omega phase eig t dT : ℝ) : ℝ :=
  let D : ℝ := (-dT*eig*T1 + dT*eig*T0 - (2:ℝ)*omega^(2:ℕ)*T1/(dT*eig) + (2:ℝ)*omega^(2:ℕ)*T0/(dT*eig) -
    omega^(4:ℕ)*T1/(dT^(3:ℕ)*eig^(3:ℕ)) + omega^(4:ℕ)*T0/(dT^(3:ℕ)*eig^(3:ℕ)) : ℝ);
  (((((((((((-omega*t*D⁻¹*exp (-dT*eig*(t - T0))*sin (omega*t - omega*(t - T0) + phase)*P1 + omega*t*D⁻¹*exp
    (-dT*eig*(t - T0))*sin (omega*t - omega*(t - T0) + phase)*P0 + omega*t*exp (-dT*eig*(t - T1))*sin (omega*t -
    omega*(t - T1) + phase)*D⁻¹*P1 - omega*t*exp (-dT*eig*(t - T1))*sin (omega*t - omega*(t - T1) + phase)*D⁻¹*P0 -
    omega*(t - T1)*exp (-dT*eig*(t - T1))*sin (omega*t - omega*(t - T1) + phase)*D⁻¹*P1 + omega*(t - T1)*exp
    (-dT*eig*(t - T1))*sin (omega*t - omega*(t - T1) + phase)*D⁻¹*P0 : ℝ) + omega*D⁻¹*(t - T0)*exp (-dT*eig*(t -
    T0))*sin (omega*t - omega*(t - T0) + phase)*P1 - omega*D⁻¹*(t - T0)*exp (-dT*eig*(t - T0))*sin (omega*t - omega*(t
    - T0) + phase)*P0 - omega*exp (-dT*eig*(t - T1))*sin (omega*t - omega*(t - T1) + phase)*T0*D⁻¹*P1 -
    omega*T1*D⁻¹*exp (-dT*eig*(t - T0))*sin (omega*t - omega*(t - T0) + phase)*P0 + omega*T1*exp (-dT*eig*(t -
    T1))*sin (omega*t - omega*(t - T1) + phase)*D⁻¹*P0 : ℝ) + omega*T0*D⁻¹*exp (-dT*eig*(t - T0))*sin (omega*t -
    omega*(t - T0) + phase)*P1 + D⁻¹*cos (omega*t - omega*(t - T0) + phase)*exp (-dT*eig*(t - T0))*P1 - D⁻¹*cos
    (omega*t - omega*(t - T0) + phase)*exp (-dT*eig*(t - T0))*P0 - cos (omega*t - omega*(t - T1) + phase)*exp
    (-dT*eig*(t - T1))*D⁻¹*P1 + cos (omega*t - omega*(t - T1) + phase)*exp (-dT*eig*(t - T1))*D⁻¹*P0 : ℝ) +
    omega^(2:ℕ)*t*D⁻¹*cos (omega*t - omega*(t - T0) + phase)*exp (-dT*eig*(t - T0))*P1/(dT*eig) -
    omega^(2:ℕ)*t*D⁻¹*cos (omega*t - omega*(t - T0) + phase)*exp (-dT*eig*(t - T0))*P0/(dT*eig) - omega^(2:ℕ)*t*cos
    (omega*t - omega*(t - T1) + phase)*exp (-dT*eig*(t - T1))*D⁻¹*P1/(dT*eig) + omega^(2:ℕ)*t*cos (omega*t - omega*(t
    - T1) + phase)*exp (-dT*eig*(t - T1))*D⁻¹*P0/(dT*eig) + omega^(2:ℕ)*(t - T1)*cos (omega*t - omega*(t - T1) +
    phase)*exp (-dT*eig*(t - T1))*D⁻¹*P1/(dT*eig) : ℝ) - omega^(2:ℕ)*(t - T1)*cos (omega*t - omega*(t - T1) +
    phase)*exp (-dT*eig*(t - T1))*D⁻¹*P0/(dT*eig) - omega^(2:ℕ)*D⁻¹*(t - T0)*cos (omega*t - omega*(t - T0) +
    phase)*exp (-dT*eig*(t - T0))*P1/(dT*eig) + omega^(2:ℕ)*D⁻¹*(t - T0)*cos (omega*t - omega*(t - T0) + phase)*exp
    (-dT*eig*(t - T0))*P0/(dT*eig) + omega^(2:ℕ)*cos (omega*t - omega*(t - T1) + phase)*exp (-dT*eig*(t -
    T1))*T0*D⁻¹*P1/(dT*eig) + omega^(2:ℕ)*T1*D⁻¹*cos (omega*t - omega*(t - T0) + phase)*exp (-dT*eig*(t -
    T0))*P0/(dT*eig) : ℝ) - omega^(2:ℕ)*T1*cos (omega*t - omega*(t - T1) + phase)*exp (-dT*eig*(t -
    T1))*D⁻¹*P0/(dT*eig) - omega^(2:ℕ)*T0*D⁻¹*cos (omega*t - omega*(t - T0) + phase)*exp (-dT*eig*(t -
    T0))*P1/(dT*eig) + (2:ℝ)*omega*D⁻¹*exp (-dT*eig*(t - T0))*sin (omega*t - omega*(t - T0) + phase)*P1/(dT*eig) -
    (2:ℝ)*omega*D⁻¹*exp (-dT*eig*(t - T0))*sin (omega*t - omega*(t - T0) + phase)*P0/(dT*eig) - (2:ℝ)*omega*exp
    (-dT*eig*(t - T1))*sin (omega*t - omega*(t - T1) + phase)*D⁻¹*P1/(dT*eig) : ℝ) + (2:ℝ)*omega*exp (-dT*eig*(t -
    T1))*sin (omega*t - omega*(t - T1) + phase)*D⁻¹*P0/(dT*eig) - omega^(3:ℕ)*t*D⁻¹*exp (-dT*eig*(t - T0))*sin
    (omega*t - omega*(t - T0) + phase)*P1/(dT^(2:ℕ)*eig^(2:ℕ)) + omega^(3:ℕ)*t*D⁻¹*exp (-dT*eig*(t - T0))*sin (omega*t
    - omega*(t - T0) + phase)*P0/(dT^(2:ℕ)*eig^(2:ℕ)) + omega^(3:ℕ)*t*exp (-dT*eig*(t - T1))*sin (omega*t - omega*(t -
    T1) + phase)*D⁻¹*P1/(dT^(2:ℕ)*eig^(2:ℕ)) - omega^(3:ℕ)*t*exp (-dT*eig*(t - T1))*sin (omega*t - omega*(t - T1) +
    phase)*D⁻¹*P0/(dT^(2:ℕ)*eig^(2:ℕ)) : ℝ) - omega^(3:ℕ)*(t - T1)*exp (-dT*eig*(t - T1))*sin (omega*t - omega*(t -
    T1) + phase)*D⁻¹*P1/(dT^(2:ℕ)*eig^(2:ℕ)) + omega^(3:ℕ)*(t - T1)*exp (-dT*eig*(t - T1))*sin (omega*t - omega*(t -
    T1) + phase)*D⁻¹*P0/(dT^(2:ℕ)*eig^(2:ℕ)) + omega^(3:ℕ)*D⁻¹*(t - T0)*exp (-dT*eig*(t - T0))*sin (omega*t - omega*(t
    - T0) + phase)*P1/(dT^(2:ℕ)*eig^(2:ℕ)) - omega^(3:ℕ)*D⁻¹*(t - T0)*exp (-dT*eig*(t - T0))*sin (omega*t - omega*(t -
    T0) + phase)*P0/(dT^(2:ℕ)*eig^(2:ℕ)) - omega^(3:ℕ)*exp (-dT*eig*(t - T1))*sin (omega*t - omega*(t - T1) +
    phase)*T0*D⁻¹*P1/(dT^(2:ℕ)*eig^(2:ℕ)) : ℝ) - omega^(3:ℕ)*T1*D⁻¹*exp (-dT*eig*(t - T0))*sin (omega*t - omega*(t -
    T0) + phase)*P0/(dT^(2:ℕ)*eig^(2:ℕ)) + omega^(3:ℕ)*T1*exp (-dT*eig*(t - T1))*sin (omega*t - omega*(t - T1) +
    phase)*D⁻¹*P0/(dT^(2:ℕ)*eig^(2:ℕ)) + omega^(3:ℕ)*T0*D⁻¹*exp (-dT*eig*(t - T0))*sin (omega*t - omega*(t - T0) +
    phase)*P1/(dT^(2:ℕ)*eig^(2:ℕ)) - omega^(2:ℕ)*D⁻¹*cos (omega*t - omega*(t - T0) + phase)*exp (-dT*eig*(t -
    T0))*P1/(dT^(2:ℕ)*eig^(2:ℕ)) + omega^(2:ℕ)*D⁻¹*cos (omega*t - omega*(t - T0) + phase)*exp (-dT*eig*(t -
    T0))*P0/(dT^(2:ℕ)*eig^(2:ℕ)) : ℝ) + omega^(2:ℕ)*cos (omega*t - omega*(t - T1) + phase)*exp (-dT*eig*(t -
    T1))*D⁻¹*P1/(dT^(2:ℕ)*eig^(2:ℕ)) - omega^(2:ℕ)*cos (omega*t - omega*(t - T1) + phase)*exp (-dT*eig*(t -
    T1))*D⁻¹*P0/(dT^(2:ℕ)*eig^(2:ℕ)) + omega^(4:ℕ)*t*D⁻¹*cos (omega*t - omega*(t - T0) + phase)*exp (-dT*eig*(t -
    T0))*P1/(dT^(3:ℕ)*eig^(3:ℕ)) - omega^(4:ℕ)*t*D⁻¹*cos (omega*t - omega*(t - T0) + phase)*exp (-dT*eig*(t -
    T0))*P0/(dT^(3:ℕ)*eig^(3:ℕ)) - omega^(4:ℕ)*t*cos (omega*t - omega*(t - T1) + phase)*exp (-dT*eig*(t -
    T1))*D⁻¹*P1/(dT^(3:ℕ)*eig^(3:ℕ)) : ℝ) + omega^(4:ℕ)*t*cos (omega*t - omega*(t - T1) + phase)*exp (-dT*eig*(t -
    T1))*D⁻¹*P0/(dT^(3:ℕ)*eig^(3:ℕ)) + omega^(4:ℕ)*(t - T1)*cos (omega*t - omega*(t - T1) + phase)*exp (-dT*eig*(t -
    T1))*D⁻¹*P1/(dT^(3:ℕ)*eig^(3:ℕ)) - omega^(4:ℕ)*(t - T1)*cos (omega*t - omega*(t - T1) + phase)*exp (-dT*eig*(t -
    T1))*D⁻¹*P0/(dT^(3:ℕ)*eig^(3:ℕ)) - omega^(4:ℕ)*D⁻¹*(t - T0)*cos (omega*t - omega*(t - T0) + phase)*exp (-dT*eig*(t
    - T0))*P1/(dT^(3:ℕ)*eig^(3:ℕ)) + omega^(4:ℕ)*D⁻¹*(t - T0)*cos (omega*t - omega*(t - T0) + phase)*exp (-dT*eig*(t -
    T0))*P0/(dT^(3:ℕ)*eig^(3:ℕ)) : ℝ) + omega^(4:ℕ)*cos (omega*t - omega*(t - T1) + phase)*exp (-dT*eig*(t -
    T1))*T0*D⁻¹*P1/(dT^(3:ℕ)*eig^(3:ℕ)) + omega^(4:ℕ)*T1*D⁻¹*cos (omega*t - omega*(t - T0) + phase)*exp (-dT*eig*(t -
    T0))*P0/(dT^(3:ℕ)*eig^(3:ℕ)) - omega^(4:ℕ)*T1*cos (omega*t - omega*(t - T1) + phase)*exp (-dT*eig*(t -
    T1))*D⁻¹*P0/(dT^(3:ℕ)*eig^(3:ℕ)) - omega^(4:ℕ)*T0*D⁻¹*cos (omega*t - omega*(t - T0) + phase)*exp (-dT*eig*(t -
    T0))*P1/(dT^(3:ℕ)*eig^(3:ℕ))

/-- One load segment, scalar, `EDload_coslinear`, geotecha/speccon/integrals.py:4977-4982. -/
noncomputable def EDc_cc_s (T0 P0 omega phase eig t dT : ℝ) : ℝ :=
  -omega*(sin (omega*t + phase)/((1:ℝ) + omega^(2:ℕ)/(dT^(2:ℕ)*eig^(2:ℕ))) - omega*cos (omega*t +
    phase)/(dT*eig*((1:ℝ) + omega^(2:ℕ)/(dT^(2:ℕ)*eig^(2:ℕ)))))*P0/(dT*eig) + omega*(exp (-dT*eig*(t - T0))*sin
    (omega*t - omega*(t - T0) + phase)/((1:ℝ) + omega^(2:ℕ)/(dT^(2:ℕ)*eig^(2:ℕ))) - omega*cos (omega*t - omega*(t -
    T0) + phase)*exp (-dT*eig*(t - T0))/(dT*eig*((1:ℝ) + omega^(2:ℕ)/(dT^(2:ℕ)*eig^(2:ℕ)))))*P0/(dT*eig)

/-- One load segment, scalar, `EDload_coslinear`, geotecha/speccon/integrals.py:4985-4992. -/
noncomputable def EDc_cl_s (T0 T1 P0 omega phase eig t dT : ℝ) : ℝ :=
  -omega*(exp (-dT*eig*(t - T1))*sin (omega*t - omega*(t - T1) + phase)/((1:ℝ) + omega^(2:ℕ)/(dT^(2:ℕ)*eig^(2:ℕ))) -
    omega*cos (omega*t - omega*(t - T1) + phase)*exp (-dT*eig*(t - T1))/(dT*eig*((1:ℝ) +
    omega^(2:ℕ)/(dT^(2:ℕ)*eig^(2:ℕ)))))*P0/(dT*eig) + omega*(exp (-dT*eig*(t - T0))*sin (omega*t - omega*(t - T0) +
    phase)/((1:ℝ) + omega^(2:ℕ)/(dT^(2:ℕ)*eig^(2:ℕ))) - omega*cos (omega*t - omega*(t - T0) + phase)*exp (-dT*eig*(t -
    T0))/(dT*eig*((1:ℝ) + omega^(2:ℕ)/(dT^(2:ℕ)*eig^(2:ℕ)))))*P0/(dT*eig)

/-- One load segment, vectorized, `EDload_coslinear`, geotecha/speccon/integrals.py:5020-5020. -/
noncomputable def EDc_sl_v (T0 P0 P1 omega phase eig t dT : ℝ) : ℝ :=
  cos (omega*T0 + phase)*exp (-dT*eig*(t - T0))*(P1 - P0)

/-- One load segment, vectorized, `EDload_coslinear`, geotecha/speccon/integrals.py:5023-5251. -/
noncomputable def EDc_rc_v (T0 T1 P0 P1 omega phase eig t dT : ℝ) : ℝ :=
  let D : ℝ := (-dT*eig*T1 + dT*eig*T0 - (2:ℝ)*omega^(2:ℕ)*T1/(dT*eig) + (2:ℝ)*omega^(2:ℕ)*T0/(dT*eig) -
    omega^(4:ℕ)*T1/(dT^(3:ℕ)*eig^(3:ℕ)) + omega^(4:ℕ)*T0/(dT^(3:ℕ)*eig^(3:ℕ)) : ℝ);
  ((((((((((omega*t*sin (omega*t + phase)*D⁻¹*P1 - omega*t*sin (omega*t + phase)*D⁻¹*P0 - omega*t*D⁻¹*exp (-dT*eig*(t
    - T0))*sin (omega*t - omega*(t - T0) + phase)*P1 + omega*t*D⁻¹*exp (-dT*eig*(t - T0))*sin (omega*t - omega*(t -
    T0) + phase)*P0 + omega*sin (omega*t + phase)*T1*D⁻¹*P0 - omega*sin (omega*t + phase)*T0*D⁻¹*P1 : ℝ) +
    omega*D⁻¹*(t - T0)*exp (-dT*eig*(t - T0))*sin (omega*t - omega*(t - T0) + phase)*P1 - omega*D⁻¹*(t - T0)*exp
    (-dT*eig*(t - T0))*sin (omega*t - omega*(t - T0) + phase)*P0 - omega*T1*D⁻¹*exp (-dT*eig*(t - T0))*sin (omega*t -
    omega*(t - T0) + phase)*P0 + omega*T0*D⁻¹*exp (-dT*eig*(t - T0))*sin (omega*t - omega*(t - T0) + phase)*P1 - cos
    (omega*t + phase)*D⁻¹*P1 : ℝ) + cos (omega*t + phase)*D⁻¹*P0 + D⁻¹*cos (omega*t - omega*(t - T0) + phase)*exp
    (-dT*eig*(t - T0))*P1 - D⁻¹*cos (omega*t - omega*(t - T0) + phase)*exp (-dT*eig*(t - T0))*P0 - omega^(2:ℕ)*t*cos
    (omega*t + phase)*D⁻¹*P1/(dT*eig) + omega^(2:ℕ)*t*cos (omega*t + phase)*D⁻¹*P0/(dT*eig) : ℝ) +
    omega^(2:ℕ)*t*D⁻¹*cos (omega*t - omega*(t - T0) + phase)*exp (-dT*eig*(t - T0))*P1/(dT*eig) -
    omega^(2:ℕ)*t*D⁻¹*cos (omega*t - omega*(t - T0) + phase)*exp (-dT*eig*(t - T0))*P0/(dT*eig) - omega^(2:ℕ)*cos
    (omega*t + phase)*T1*D⁻¹*P0/(dT*eig) + omega^(2:ℕ)*cos (omega*t + phase)*T0*D⁻¹*P1/(dT*eig) - omega^(2:ℕ)*D⁻¹*(t -
    T0)*cos (omega*t - omega*(t - T0) + phase)*exp (-dT*eig*(t - T0))*P1/(dT*eig) : ℝ) + omega^(2:ℕ)*D⁻¹*(t - T0)*cos
    (omega*t - omega*(t - T0) + phase)*exp (-dT*eig*(t - T0))*P0/(dT*eig) + omega^(2:ℕ)*T1*D⁻¹*cos (omega*t - omega*(t
    - T0) + phase)*exp (-dT*eig*(t - T0))*P0/(dT*eig) - omega^(2:ℕ)*T0*D⁻¹*cos (omega*t - omega*(t - T0) + phase)*exp
    (-dT*eig*(t - T0))*P1/(dT*eig) - (2:ℝ)*omega*sin (omega*t + phase)*D⁻¹*P1/(dT*eig) + (2:ℝ)*omega*sin (omega*t +
    phase)*D⁻¹*P0/(dT*eig) : ℝ) + (2:ℝ)*omega*D⁻¹*exp (-dT*eig*(t - T0))*sin (omega*t - omega*(t - T0) +
    phase)*P1/(dT*eig) - (2:ℝ)*omega*D⁻¹*exp (-dT*eig*(t - T0))*sin (omega*t - omega*(t - T0) + phase)*P0/(dT*eig) +
    omega^(3:ℕ)*t*sin (omega*t + phase)*D⁻¹*P1/(dT^(2:ℕ)*eig^(2:ℕ)) - omega^(3:ℕ)*t*sin (omega*t +
    phase)*D⁻¹*P0/(dT^(2:ℕ)*eig^(2:ℕ)) - omega^(3:ℕ)*t*D⁻¹*exp (-dT*eig*(t - T0))*sin (omega*t - omega*(t - T0) +
    phase)*P1/(dT^(2:ℕ)*eig^(2:ℕ)) : ℝ) + omega^(3:ℕ)*t*D⁻¹*exp (-dT*eig*(t - T0))*sin (omega*t - omega*(t - T0) +
    phase)*P0/(dT^(2:ℕ)*eig^(2:ℕ)) + omega^(3:ℕ)*sin (omega*t + phase)*T1*D⁻¹*P0/(dT^(2:ℕ)*eig^(2:ℕ)) -
    omega^(3:ℕ)*sin (omega*t + phase)*T0*D⁻¹*P1/(dT^(2:ℕ)*eig^(2:ℕ)) + omega^(3:ℕ)*D⁻¹*(t - T0)*exp (-dT*eig*(t -
    T0))*sin (omega*t - omega*(t - T0) + phase)*P1/(dT^(2:ℕ)*eig^(2:ℕ)) - omega^(3:ℕ)*D⁻¹*(t - T0)*exp (-dT*eig*(t -
    T0))*sin (omega*t - omega*(t - T0) + phase)*P0/(dT^(2:ℕ)*eig^(2:ℕ)) : ℝ) - omega^(3:ℕ)*T1*D⁻¹*exp (-dT*eig*(t -
    T0))*sin (omega*t - omega*(t - T0) + phase)*P0/(dT^(2:ℕ)*eig^(2:ℕ)) + omega^(3:ℕ)*T0*D⁻¹*exp (-dT*eig*(t -
    T0))*sin (omega*t - omega*(t - T0) + phase)*P1/(dT^(2:ℕ)*eig^(2:ℕ)) + omega^(2:ℕ)*cos (omega*t +
    phase)*D⁻¹*P1/(dT^(2:ℕ)*eig^(2:ℕ)) - omega^(2:ℕ)*cos (omega*t + phase)*D⁻¹*P0/(dT^(2:ℕ)*eig^(2:ℕ)) -
    omega^(2:ℕ)*D⁻¹*cos (omega*t - omega*(t - T0) + phase)*exp (-dT*eig*(t - T0))*P1/(dT^(2:ℕ)*eig^(2:ℕ)) : ℝ) +
    omega^(2:ℕ)*D⁻¹*cos (omega*t - omega*(t - T0) + phase)*exp (-dT*eig*(t - T0))*P0/(dT^(2:ℕ)*eig^(2:ℕ)) -
    omega^(4:ℕ)*t*cos (omega*t + phase)*D⁻¹*P1/(dT^(3:ℕ)*eig^(3:ℕ)) + omega^(4:ℕ)*t*cos (omega*t +
    phase)*D⁻¹*P0/(dT^(3:ℕ)*eig^(3:ℕ)) + omega^(4:ℕ)*t*D⁻¹*cos (omega*t - omega*(t - T0) + phase)*exp (-dT*eig*(t -
    T0))*P1/(dT^(3:ℕ)*eig^(3:ℕ)) - omega^(4:ℕ)*t*D⁻¹*cos (omega*t - omega*(t - T0) + phase)*exp (-dT*eig*(t -
    T0))*P0/(dT^(3:ℕ)*eig^(3:ℕ)) : ℝ) - omega^(4:ℕ)*cos (omega*t + phase)*T1*D⁻¹*P0/(dT^(3:ℕ)*eig^(3:ℕ)) +
    omega^(4:ℕ)*cos (omega*t + phase)*T0*D⁻¹*P1/(dT^(3:ℕ)*eig^(3:ℕ)) - omega^(4:ℕ)*D⁻¹*(t - T0)*cos (omega*t -
    omega*(t - T0) + phase)*exp (-dT*eig*(t - T0))*P1/(dT^(3:ℕ)*eig^(3:ℕ)) + omega^(4:ℕ)*D⁻¹*(t - T0)*cos (omega*t -
    omega*(t - T0) + phase)*exp (-dT*eig*(t - T0))*P0/(dT^(3:ℕ)*eig^(3:ℕ)) + omega^(4:ℕ)*T1*D⁻¹*cos (omega*t -
    omega*(t - T0) + phase)*exp (-dT*eig*(t - T0))*P0/(dT^(3:ℕ)*eig^(3:ℕ)) : ℝ) - omega^(4:ℕ)*T0*D⁻¹*cos (omega*t -
    omega*(t - T0) + phase)*exp (-dT*eig*(t - T0))*P1/(dT^(3:ℕ)*eig^(3:ℕ))

/-- One load segment, vectorized, `EDload_coslinear`, geotecha/speccon/integrals.py:5254-5547. -/
noncomputable def EDc_rl_v (T0 T1 P0 P1 omega phase eig t dT : ℝ) : ℝ :=
  let D : ℝ := (-dT*eig*T1 + dT*eig*T0 - (2:ℝ)*omega^(2:ℕ)*T1/(dT*eig) + (2:ℝ)*omega^(2:ℕ)*T0/(dT*eig) -
    omega^(4:ℕ)*T1/(dT^(3:ℕ)*eig^(3:ℕ)) + omega^(4:ℕ)*T0/(dT^(3:ℕ)*eig^(3:ℕ)) : ℝ);
  (((((((((((-omega*t*D⁻¹*exp (-dT*eig*(t - T0))*sin (omega*t - omega*(t - T0) + phase)*P1 + omega*t*D⁻¹*exp
    (-dT*eig*(t - T0))*sin (omega*t - omega*(t - T0) + phase)*P0 + omega*t*exp (-dT*eig*(t - T1))*sin (omega*t -
    omega*(t - T1) + phase)*D⁻¹*P1 - omega*t*exp (-dT*eig*(t - T1))*sin (omega*t - omega*(t - T1) + phase)*D⁻¹*P0 -
    omega*(t - T1)*exp (-dT*eig*(t - T1))*sin (omega*t - omega*(t - T1) + phase)*D⁻¹*P1 + omega*(t - T1)*exp
    (-dT*eig*(t - T1))*sin (omega*t - omega*(t - T1) + phase)*D⁻¹*P0 : ℝ) + omega*D⁻¹*(t - T0)*exp (-dT*eig*(t -
    T0))*sin (omega*t - omega*(t - T0) + phase)*P1 - omega*D⁻¹*(t - T0)*exp (-dT*eig*(t - T0))*sin (omega*t - omega*(t
    - T0) + phase)*P0 - omega*exp (-dT*eig*(t - T1))*sin (omega*t - omega*(t - T1) + phase)*T0*D⁻¹*P1 -
    omega*T1*D⁻¹*exp (-dT*eig*(t - T0))*sin (omega*t - omega*(t - T0) + phase)*P0 + omega*T1*exp (-dT*eig*(t -
    T1))*sin (omega*t - omega*(t - T1) + phase)*D⁻¹*P0 : ℝ) + omega*T0*D⁻¹*exp (-dT*eig*(t - T0))*sin (omega*t -
    omega*(t - T0) + phase)*P1 + D⁻¹*cos (omega*t - omega*(t - T0) + phase)*exp (-dT*eig*(t - T0))*P1 - D⁻¹*cos
    (omega*t - omega*(t - T0) + phase)*exp (-dT*eig*(t - T0))*P0 - cos (omega*t - omega*(t - T1) + phase)*exp
    (-dT*eig*(t - T1))*D⁻¹*P1 + cos (omega*t - omega*(t - T1) + phase)*exp (-dT*eig*(t - T1))*D⁻¹*P0 : ℝ) +
    omega^(2:ℕ)*t*D⁻¹*cos (omega*t - omega*(t - T0) + phase)*exp (-dT*eig*(t - T0))*P1/(dT*eig) -
    omega^(2:ℕ)*t*D⁻¹*cos (omega*t - omega*(t - T0) + phase)*exp (-dT*eig*(t - T0))*P0/(dT*eig) - omega^(2:ℕ)*t*cos
    (omega*t - omega*(t - T1) + phase)*exp (-dT*eig*(t - T1))*D⁻¹*P1/(dT*eig) + omega^(2:ℕ)*t*cos (omega*t - omega*(t
    - T1) + phase)*exp (-dT*eig*(t - T1))*D⁻¹*P0/(dT*eig) + omega^(2:ℕ)*(t - T1)*cos (omega*t - omega*(t - T1) +
    phase)*exp (-dT*eig*(t - T1))*D⁻¹*P1/(dT*eig) : ℝ) - omega^(2:ℕ)*(t - T1)*cos (omega*t - omega*(t - T1) +
    phase)*exp (-dT*eig*(t - T1))*D⁻¹*P0/(dT*eig) - omega^(2:ℕ)*D⁻¹*(t - T0)*cos (omega*t - omega*(t - T0) +
    phase)*exp (-dT*eig*(t - T0))*P1/(dT*eig) + omega^(2:ℕ)*D⁻¹*(t - T0)*cos (omega*t - omega*(t - T0) + phase)*exp
    (-dT*eig*(t - T0))*P0/(dT*eig) + omega^(2:ℕ)*cos (omega*t - omega*(t - T1) + phase)*exp (-dT*eig*(t -
    T1))*T0*D⁻¹*P1/(dT*eig) + omega^(2:ℕ)*T1*D⁻¹*cos (omega*t - omega*(t - T0) + phase)*exp (-dT*eig*(t -
    T0))*P0/(dT*eig) : ℝ) - omega^(2:ℕ)*T1*cos (omega*t - omega*(t - T1) + phase)*exp (-dT*eig*(t -
    T1))*D⁻¹*P0/(dT*eig) - omega^(2:ℕ)*T0*D⁻¹*cos (omega*t - omega*(t - T0) + phase)*exp (-dT*eig*(t -
    T0))*P1/(dT*eig) + (2:ℝ)*omega*D⁻¹*exp (-dT*eig*(t - T0))*sin (omega*t - omega*(t - T0) + phase)*P1/(dT*eig) -
    (2:ℝ)*omega*D⁻¹*exp (-dT*eig*(t - T0))*sin (omega*t - omega*(t - T0) + phase)*P0/(dT*eig) - (2:ℝ)*omega*exp
    (-dT*eig*(t - T1))*sin (omega*t - omega*(t - T1) + phase)*D⁻¹*P1/(dT*eig) : ℝ) + (2:ℝ)*omega*exp (-dT*eig*(t -
    T1))*sin (omega*t - omega*(t - T1) + phase)*D⁻¹*P0/(dT*eig) - omega^(3:ℕ)*t*D⁻¹*exp (-dT*eig*(t - T0))*sin
    (omega*t - omega*(t - T0) + phase)*P1/(dT^(2:ℕ)*eig^(2:ℕ)) + omega^(3:ℕ)*t*D⁻¹*exp (-dT*eig*(t - T0))*sin (omega*t
    - omega*(t - T0) + phase)*P0/(dT^(2:ℕ)*eig^(2:ℕ)) + omega^(3:ℕ)*t*exp (-dT*eig*(t - T1))*sin (omega*t - omega*(t -
    T1) + phase)*D⁻¹*P1/(dT^(2:ℕ)*eig^(2:ℕ)) - omega^(3:ℕ)*t*exp (-dT*eig*(t - T1))*sin (omega*t - omega*(t - T1) +
    phase)*D⁻¹*P0/(dT^(2:ℕ)*eig^(2:ℕ)) : ℝ) - omega^(3:ℕ)*(t - T1)*exp (-dT*eig*(t - T1))*sin (omega*t - omega*(t -
    T1) + phase)*D⁻¹*P1/(dT^(2:ℕ)*eig^(2:ℕ)) + omega^(3:ℕ)*(t - T1)*exp (-dT*eig*(t - T1))*sin (omega*t - omega*(t -
    T1) + phase)*D⁻¹*P0/(dT^(2:ℕ)*eig^(2:ℕ)) + omega^(3:ℕ)*D⁻¹*(t - T0)*exp (-dT*eig*(t - T0))*sin (omega*t - omega*(t
    - T0) + phase)*P1/(dT^(2:ℕ)*eig^(2:ℕ)) - omega^(3:ℕ)*D⁻¹*(t - T0)*exp (-dT*eig*(t - T0))*sin (omega*t - omega*(t -
    T0) + phase)*P0/(dT^(2:ℕ)*eig^(2:ℕ)) - omega^(3:ℕ)*exp (-dT*eig*(t - T1))*sin (omega*t - omega*(t - T1) +
    phase)*T0*D⁻¹*P1/(dT^(2:ℕ)*eig^(2:ℕ)) : ℝ) - omega^(3:ℕ)*T1*D⁻¹*exp (-dT*eig*(t - T0))*sin (omega*t - omega*(t -
    T0) + phase)*P0/(dT^(2:ℕ)*eig^(2:ℕ)) + omega^(3:ℕ)*T1*exp (-dT*eig*(t - T1))*sin (omega*t - omega*(t - T1) +
    phase)*D⁻¹*P0/(dT^(2:ℕ)*eig^(2:ℕ)) + omega^(3:ℕ)*T0*D⁻¹*exp (-dT*eig*(t - T0))*sin (omega*t - omega*(t - T0) +
    phase)*P1/(dT^(2:ℕ)*eig^(2:ℕ)) - omega^(2:ℕ)*D⁻¹*cos (omega*t - omega*(t - T0) + phase)*exp (-dT*eig*(t -
    T0))*P1/(dT^(2:ℕ)*eig^(2:ℕ)) + omega^(2:ℕ)*D⁻¹*cos (omega*t - omega*(t - T0) + phase)*exp (-dT*eig*(t -
    T0))*P0/(dT^(2:ℕ)*eig^(2:ℕ)) : ℝ) + omega^(2:ℕ)*cos (omega*t - omega*(t - T1) + phase)*exp (-dT*eig*(t -
    T1))*D⁻¹*P1/(dT^(2:ℕ)*eig^(2:ℕ)) - omega^(2:ℕ)*cos (omega*t - omega*(t - T1) + phase)*exp (-dT*eig*(t -
    T1))*D⁻¹*P0/(dT^(2:ℕ)*eig^(2:ℕ)) + omega^(4:ℕ)*t*D⁻¹*cos (omega*t - omega*(t - T0) + phase)*exp (-dT*eig*(t -
    T0))*P1/(dT^(3:ℕ)*eig^(3:ℕ)) - omega^(4:ℕ)*t*D⁻¹*cos (omega*t - omega*(t - T0) + phase)*exp (-dT*eig*(t -
    T0))*P0/(dT^(3:ℕ)*eig^(3:ℕ)) - omega^(4:ℕ)*t*cos (omega*t - omega*(t - T1) + phase)*exp (-dT*eig*(t -
    T1))*D⁻¹*P1/(dT^(3:ℕ)*eig^(3:ℕ)) : ℝ) + omega^(4:ℕ)*t*cos (omega*t - omega*(t - T1) + phase)*exp (-dT*eig*(t -
    T1))*D⁻¹*P0/(dT^(3:ℕ)*eig^(3:ℕ)) + omega^(4:ℕ)*(t - T1)*cos (omega*t - omega*(t - T1) + phase)*exp (-dT*eig*(t -
    T1))*D⁻¹*P1/(dT^(3:ℕ)*eig^(3:ℕ)) - omega^(4:ℕ)*(t - T1)*cos (omega*t - omega*(t - T1) + phase)*exp (-dT*eig*(t -
    T1))*D⁻¹*P0/(dT^(3:ℕ)*eig^(3:ℕ)) - omega^(4:ℕ)*D⁻¹*(t - T0)*cos (omega*t - omega*(t - T0) + phase)*exp (-dT*eig*(t
    - T0))*P1/(dT^(3:ℕ)*eig^(3:ℕ)) + omega^(4:ℕ)*D⁻¹*(t - T0)*cos (omega*t - omega*(t - T0) + phase)*exp (-dT*eig*(t -
    T0))*P0/(dT^(3:ℕ)*eig^(3:ℕ)) : ℝ) + omega^(4:ℕ)*cos (omega*t - omega*(t - T1) + phase)*exp (-dT*eig*(t -
    T1))*T0*D⁻¹*P1/(dT^(3:ℕ)*eig^(3:ℕ)) + omega^(4:ℕ)*T1*D⁻¹*cos (omega*t - omega*(t - T0) + phase)*exp (-dT*eig*(t -
    T0))*P0/(dT^(3:ℕ)*eig^(3:ℕ)) - omega^(4:ℕ)*T1*cos (omega*t - omega*(t - T1) + phase)*exp (-dT*eig*(t -
    T1))*D⁻¹*P0/(dT^(3:ℕ)*eig^(3:ℕ)) - omega^(4:ℕ)*T0*D⁻¹*cos (omega*t - omega*(t - T0) + phase)*exp (-dT*eig*(t -
    T0))*P1/(dT^(3:ℕ)*eig^(3:ℕ))

/-- One load segment, vectorized, `EDload_coslinear`, geotecha/speccon/integrals.py:5550-5555. -/
noncomputable def EDc_cc_v (T0 P0 omega phase eig t dT : ℝ) : ℝ :=
  -omega*(sin (omega*t + phase)/((1:ℝ) + omega^(2:ℕ)/(dT^(2:ℕ)*eig^(2:ℕ))) - omega*cos (omega*t +
    phase)/(dT*eig*((1:ℝ) + omega^(2:ℕ)/(dT^(2:ℕ)*eig^(2:ℕ)))))*P0/(dT*eig) + omega*(exp (-dT*eig*(t - T0))*sin
    (omega*t - omega*(t - T0) + phase)/((1:ℝ) + omega^(2:ℕ)/(dT^(2:ℕ)*eig^(2:ℕ))) - omega*cos (omega*t - omega*(t -
    T0) + phase)*exp (-dT*eig*(t - T0))/(dT*eig*((1:ℝ) + omega^(2:ℕ)/(dT^(2:ℕ)*eig^(2:ℕ)))))*P0/(dT*eig)

/-- One load segment, vectorized, `EDload_coslinear`, geotecha/speccon/integrals.py:5558-5565. -/
noncomputable def EDc_cl_v (T0 T1 P0 omega phase eig t dT : ℝ) : ℝ :=
  -omega*(exp (-dT*eig*(t - T1))*sin (omega*t - omega*(t - T1) + phase)/((1:ℝ) + omega^(2:ℕ)/(dT^(2:ℕ)*eig^(2:ℕ))) -
    omega*cos (omega*t - omega*(t - T1) + phase)*exp (-dT*eig*(t - T1))/(dT*eig*((1:ℝ) +
    omega^(2:ℕ)/(dT^(2:ℕ)*eig^(2:ℕ)))))*P0/(dT*eig) + omega*(exp (-dT*eig*(t - T0))*sin (omega*t - omega*(t - T0) +
    phase)/((1:ℝ) + omega^(2:ℕ)/(dT^(2:ℕ)*eig^(2:ℕ))) - omega*cos (omega*t - omega*(t - T0) + phase)*exp (-dT*eig*(t -
    T0))/(dT*eig*((1:ℝ) + omega^(2:ℕ)/(dT^(2:ℕ)*eig^(2:ℕ)))))*P0/(dT*eig)

end Geotecha.Speccon
