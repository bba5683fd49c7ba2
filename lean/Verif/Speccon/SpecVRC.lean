import Verif.Speccon.SpecVR

/-!
# Specification: soil and a permeable column (weak form)

The equations of the class notes, speccon1d_vrc.py:349-380, over normalised depth `0 ≤ z ≤ 1`.  `us`, `uc` are the pore pressures averaged
over the soil and over the column, `beta` the pressure at their interface, `u` the average over both; a fraction `alpha` of the area is
column.  With `eps` the strain (over `mvref`), `eps = mv (sigma - u)`:

    u     = (1 - alpha) us + alpha uc
    eps_t = dTh kh et (us - beta) - (dTv kv us_z)_z                              (soil)
    eps_t = dThc khc (uc - beta) - (dTvc kvc uc_z)_z                             (column)
    eps_t = - (1 - alpha) (dTv kv us_z)_z - alpha (dTvc kvc uc_z)_z              (both)

(the last equation is misprinted in the notes, where its first term has a plus sign and `u` for `us`), tested with a function `phi` that
vanishes at the prescribed-pressure boundaries, the last one integrated over time.  This file does not mention the code.
-/

open intervalIntegral
namespace Geotecha.Spec

/-- The column: `dTvc kvc` with depth and at the bottom, and `dThc khc`. -/
structure Column where
  cond : ℝ → ℝ
  condEnd : ℝ
  horiz : ℝ → ℝ

/-- `-(k uz)_z` tested with `phi`, `kEnd` being the value of `k` at the bottom. -/
noncomputable def vflow (k : ℝ → ℝ) (kEnd : ℝ) (uz : ℝ → ℝ → ℝ) (phi dphi : ℝ → ℝ) (t : ℝ) : ℝ :=
  (∫ z in (0:ℝ)..1, k z * dphi z * uz z t) - kEnd * phi 1 * uz 1 t

/-- Water leaving the soil. -/
noncomputable def Column.soilOut (G : Ground) (us usz beta : ℝ → ℝ → ℝ) (phi dphi : ℝ → ℝ) (t : ℝ) : ℝ :=
  vflow G.vert G.vertEnd usz phi dphi t + ∫ z in (0:ℝ)..1, G.horiz z * phi z * (us z t - beta z t)

/-- Water leaving the column. -/
noncomputable def Column.columnOut (C : Column) (uc ucz beta : ℝ → ℝ → ℝ) (phi dphi : ℝ → ℝ) (t : ℝ) : ℝ :=
  vflow C.cond C.condEnd ucz phi dphi t + ∫ z in (0:ℝ)..1, C.horiz z * phi z * (uc z t - beta z t)

/-- Water leaving the section vertically. -/
noncomputable def Column.sectionOut (C : Column) (alpha : ℝ) (G : Ground) (usz ucz : ℝ → ℝ → ℝ) (phi dphi : ℝ → ℝ) (t : ℝ) : ℝ :=
  (1 - alpha) * vflow G.vert G.vertEnd usz phi dphi t + alpha * vflow C.cond C.condEnd ucz phi dphi t

/-- Water stored since the start (as change of effective stress) plus water that has left the section: zero for a solution. -/
noncomputable def Column.residual (C : Column) (alpha : ℝ) (G : Ground) (s : ℝ) (u usz ucz : ℝ → ℝ → ℝ) (phi dphi : ℝ → ℝ) (t : ℝ) : ℝ :=
  (∫ z in (0:ℝ)..1, G.mv z * phi z * ((u z t - G.surcharge z t) - (G.initial z - G.surcharge0 z)))
    + ∫ r in s..t, C.sectionOut alpha G usz ucz phi dphi r

end Geotecha.Spec
