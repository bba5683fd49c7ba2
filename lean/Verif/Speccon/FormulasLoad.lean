import Mathlib.Analysis.SpecialFunctions.Trigonometric.Basic

/-!
# Closed forms in geotecha/speccon/integrals.py: load terms

Generated by tools/gen_integrals.py (syntactic translation of the right hand sides; `x**(-n)` becomes
`(x^n)⁻¹`, `loadtim[k]`, `loadtim[k+1]`, `loadmag[k]`, `loadmag[k+1]` become `T0 T1 P0 P1`).
-/

open Real
namespace Geotecha.Speccon


/-- One load segment, scalar, `Eload_linear`, geotecha/speccon/integrals.py:2787-2787. -/
noncomputable def El_cc_s (T0 P0 eig t dT : ℝ) : ℝ :=
  -exp (-dT*eig*(t - T0))*P0/(dT*eig) + P0/(dT*eig)

/-- One load segment, scalar, `Eload_linear`, geotecha/speccon/integrals.py:2790-2791. -/
noncomputable def El_cl_s (T0 T1 P0 eig t dT : ℝ) : ℝ :=
  exp (-dT*eig*(t - T1))*P0/(dT*eig) - exp (-dT*eig*(t - T0))*P0/(dT*eig)

/-- One load segment, scalar, `Eload_linear`, geotecha/speccon/integrals.py:2794-2813. -/
noncomputable def El_rc_s (T0 T1 P0 P1 eig t dT : ℝ) : ℝ :=
  (-dT*eig*t*(-dT*eig*T1 + dT*eig*T0)⁻¹*P1 + dT*eig*t*(-dT*eig*T1 + dT*eig*T0)⁻¹*P0 - dT*eig*T1*(-dT*eig*T1 +
    dT*eig*T0)⁻¹*P0 + dT*eig*T0*(-dT*eig*T1 + dT*eig*T0)⁻¹*P1 + (-dT*eig*T1 + dT*eig*T0)⁻¹*P1 - (-dT*eig*T1 +
    dT*eig*T0)⁻¹*P0 : ℝ)/(dT*eig) - ((-dT*eig*t*(-dT*eig*T1 + dT*eig*T0)⁻¹*exp (-dT*eig*(t - T0))*P1 +
    dT*eig*t*(-dT*eig*T1 + dT*eig*T0)⁻¹*exp (-dT*eig*(t - T0))*P0 + dT*eig*(-dT*eig*T1 + dT*eig*T0)⁻¹*(t - T0)*exp
    (-dT*eig*(t - T0))*P1 - dT*eig*(-dT*eig*T1 + dT*eig*T0)⁻¹*(t - T0)*exp (-dT*eig*(t - T0))*P0 -
    dT*eig*T1*(-dT*eig*T1 + dT*eig*T0)⁻¹*exp (-dT*eig*(t - T0))*P0 + dT*eig*T0*(-dT*eig*T1 + dT*eig*T0)⁻¹*exp
    (-dT*eig*(t - T0))*P1 : ℝ) + (-dT*eig*T1 + dT*eig*T0)⁻¹*exp (-dT*eig*(t - T0))*P1 - (-dT*eig*T1 + dT*eig*T0)⁻¹*exp
    (-dT*eig*(t - T0))*P0)/(dT*eig)

/-- One load segment, scalar, `Eload_linear`, geotecha/speccon/integrals.py:2816-2842. -/
noncomputable def El_rl_s (T0 T1 P0 P1 eig t dT : ℝ) : ℝ :=
  -((-dT*eig*t*(-dT*eig*T1 + dT*eig*T0)⁻¹*exp (-dT*eig*(t - T0))*P1 + dT*eig*t*(-dT*eig*T1 + dT*eig*T0)⁻¹*exp
    (-dT*eig*(t - T0))*P0 + dT*eig*(-dT*eig*T1 + dT*eig*T0)⁻¹*(t - T0)*exp (-dT*eig*(t - T0))*P1 - dT*eig*(-dT*eig*T1
    + dT*eig*T0)⁻¹*(t - T0)*exp (-dT*eig*(t - T0))*P0 - dT*eig*T1*(-dT*eig*T1 + dT*eig*T0)⁻¹*exp (-dT*eig*(t - T0))*P0
    + dT*eig*T0*(-dT*eig*T1 + dT*eig*T0)⁻¹*exp (-dT*eig*(t - T0))*P1 : ℝ) + (-dT*eig*T1 + dT*eig*T0)⁻¹*exp (-dT*eig*(t
    - T0))*P1 - (-dT*eig*T1 + dT*eig*T0)⁻¹*exp (-dT*eig*(t - T0))*P0)/(dT*eig) + ((-dT*eig*t*exp (-dT*eig*(t -
    T1))*(-dT*eig*T1 + dT*eig*T0)⁻¹*P1 + dT*eig*t*exp (-dT*eig*(t - T1))*(-dT*eig*T1 + dT*eig*T0)⁻¹*P0 + dT*eig*(t -
    T1)*exp (-dT*eig*(t - T1))*(-dT*eig*T1 + dT*eig*T0)⁻¹*P1 - dT*eig*(t - T1)*exp (-dT*eig*(t - T1))*(-dT*eig*T1 +
    dT*eig*T0)⁻¹*P0 + dT*eig*exp (-dT*eig*(t - T1))*T0*(-dT*eig*T1 + dT*eig*T0)⁻¹*P1 - dT*eig*T1*exp (-dT*eig*(t -
    T1))*(-dT*eig*T1 + dT*eig*T0)⁻¹*P0 : ℝ) + exp (-dT*eig*(t - T1))*(-dT*eig*T1 + dT*eig*T0)⁻¹*P1 - exp (-dT*eig*(t -
    T1))*(-dT*eig*T1 + dT*eig*T0)⁻¹*P0)/(dT*eig)

/-- One load segment, vectorized, `Eload_linear`, geotecha/speccon/integrals.py:2867-2867. -/
noncomputable def El_cc_v (T0 P0 eig t dT : ℝ) : ℝ :=
  -exp (-dT*eig*(t - T0))*P0/(dT*eig) + P0/(dT*eig)

/-- One load segment, vectorized, `Eload_linear`, geotecha/speccon/integrals.py:2871-2872. -/
noncomputable def El_cl_v (T0 T1 P0 eig t dT : ℝ) : ℝ :=
  exp (-dT*eig*(t - T1))*P0/(dT*eig) - exp (-dT*eig*(t - T0))*P0/(dT*eig)

/-- One load segment, vectorized, `Eload_linear`, geotecha/speccon/integrals.py:2876-2895. -/
noncomputable def El_rc_v (T0 T1 P0 P1 eig t dT : ℝ) : ℝ :=
  (-dT*eig*t*(-dT*eig*T1 + dT*eig*T0)⁻¹*P1 + dT*eig*t*(-dT*eig*T1 + dT*eig*T0)⁻¹*P0 - dT*eig*T1*(-dT*eig*T1 +
    dT*eig*T0)⁻¹*P0 + dT*eig*T0*(-dT*eig*T1 + dT*eig*T0)⁻¹*P1 + (-dT*eig*T1 + dT*eig*T0)⁻¹*P1 - (-dT*eig*T1 +
    dT*eig*T0)⁻¹*P0 : ℝ)/(dT*eig) - ((-dT*eig*t*(-dT*eig*T1 + dT*eig*T0)⁻¹*exp (-dT*eig*(t - T0))*P1 +
    dT*eig*t*(-dT*eig*T1 + dT*eig*T0)⁻¹*exp (-dT*eig*(t - T0))*P0 + dT*eig*(-dT*eig*T1 + dT*eig*T0)⁻¹*(t - T0)*exp
    (-dT*eig*(t - T0))*P1 - dT*eig*(-dT*eig*T1 + dT*eig*T0)⁻¹*(t - T0)*exp (-dT*eig*(t - T0))*P0 -
    dT*eig*T1*(-dT*eig*T1 + dT*eig*T0)⁻¹*exp (-dT*eig*(t - T0))*P0 + dT*eig*T0*(-dT*eig*T1 + dT*eig*T0)⁻¹*exp
    (-dT*eig*(t - T0))*P1 : ℝ) + (-dT*eig*T1 + dT*eig*T0)⁻¹*exp (-dT*eig*(t - T0))*P1 - (-dT*eig*T1 + dT*eig*T0)⁻¹*exp
    (-dT*eig*(t - T0))*P0)/(dT*eig)

/-- One load segment, vectorized, `Eload_linear`, geotecha/speccon/integrals.py:2899-2925. -/
noncomputable def El_rl_v (T0 T1 P0 P1 eig t dT : ℝ) : ℝ :=
  -((-dT*eig*t*(-dT*eig*T1 + dT*eig*T0)⁻¹*exp (-dT*eig*(t - T0))*P1 + dT*eig*t*(-dT*eig*T1 + dT*eig*T0)⁻¹*exp
    (-dT*eig*(t - T0))*P0 + dT*eig*(-dT*eig*T1 + dT*eig*T0)⁻¹*(t - T0)*exp (-dT*eig*(t - T0))*P1 - dT*eig*(-dT*eig*T1
    + dT*eig*T0)⁻¹*(t - T0)*exp (-dT*eig*(t - T0))*P0 - dT*eig*T1*(-dT*eig*T1 + dT*eig*T0)⁻¹*exp (-dT*eig*(t - T0))*P0
    + dT*eig*T0*(-dT*eig*T1 + dT*eig*T0)⁻¹*exp (-dT*eig*(t - T0))*P1 : ℝ) + (-dT*eig*T1 + dT*eig*T0)⁻¹*exp (-dT*eig*(t
    - T0))*P1 - (-dT*eig*T1 + dT*eig*T0)⁻¹*exp (-dT*eig*(t - T0))*P0)/(dT*eig) + ((-dT*eig*t*exp (-dT*eig*(t -
    T1))*(-dT*eig*T1 + dT*eig*T0)⁻¹*P1 + dT*eig*t*exp (-dT*eig*(t - T1))*(-dT*eig*T1 + dT*eig*T0)⁻¹*P0 + dT*eig*(t -
    T1)*exp (-dT*eig*(t - T1))*(-dT*eig*T1 + dT*eig*T0)⁻¹*P1 - dT*eig*(t - T1)*exp (-dT*eig*(t - T1))*(-dT*eig*T1 +
    dT*eig*T0)⁻¹*P0 + dT*eig*exp (-dT*eig*(t - T1))*T0*(-dT*eig*T1 + dT*eig*T0)⁻¹*P1 - dT*eig*T1*exp (-dT*eig*(t -
    T1))*(-dT*eig*T1 + dT*eig*T0)⁻¹*P0 : ℝ) + exp (-dT*eig*(t - T1))*(-dT*eig*T1 + dT*eig*T0)⁻¹*P1 - exp (-dT*eig*(t -
    T1))*(-dT*eig*T1 + dT*eig*T0)⁻¹*P0)/(dT*eig)

/-- One load segment, scalar, `EDload_linear`, geotecha/speccon/integrals.py:3048-3048. -/
noncomputable def EDl_sl_s (T0 P0 P1 eig t dT : ℝ) : ℝ :=
  exp (-dT*eig*(t - T0))*(P1 - P0)

/-- One load segment, scalar, `EDload_linear`, geotecha/speccon/integrals.py:3051-3053. -/
noncomputable def EDl_rc_s (T0 T1 P0 P1 eig t dT : ℝ) : ℝ :=
  (T1 - T0)⁻¹*(P1 - P0)/(dT*eig) - (T1 - T0)⁻¹*exp (-dT*eig*(t - T0))*(P1 - P0)/(dT*eig)

/-- One load segment, scalar, `EDload_linear`, geotecha/speccon/integrals.py:3056-3058. -/
noncomputable def EDl_rl_s (T0 T1 P0 P1 eig t dT : ℝ) : ℝ :=
  -(T1 - T0)⁻¹*exp (-dT*eig*(t - T0))*(P1 - P0)/(dT*eig) + exp (-dT*eig*(t - T1))*(T1 - T0)⁻¹*(P1 - P0)/(dT*eig)

/-- One load segment, vectorized, `EDload_linear`, geotecha/speccon/integrals.py:3086-3086. -/
noncomputable def EDl_sl_v (T0 P0 P1 eig t dT : ℝ) : ℝ :=
  exp (-dT*eig*(t - T0))*(P1 - P0)

/-- One load segment, vectorized, `EDload_linear`, geotecha/speccon/integrals.py:3089-3091. -/
noncomputable def EDl_rc_v (T0 T1 P0 P1 eig t dT : ℝ) : ℝ :=
  (T1 - T0)⁻¹*(P1 - P0)/(dT*eig) - (T1 - T0)⁻¹*exp (-dT*eig*(t - T0))*(P1 - P0)/(dT*eig)

/-- One load segment, vectorized, `EDload_linear`, geotecha/speccon/integrals.py:3094-3096. -/
noncomputable def EDl_rl_v (T0 T1 P0 P1 eig t dT : ℝ) : ℝ :=
  -(T1 - T0)⁻¹*exp (-dT*eig*(t - T0))*(P1 - P0)/(dT*eig) + exp (-dT*eig*(t - T1))*(T1 - T0)⁻¹*(P1 - P0)/(dT*eig)

end Geotecha.Speccon
