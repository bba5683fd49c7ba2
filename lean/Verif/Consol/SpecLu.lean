import Verif.Consol.Spec
import Verif.Smear.Spec

/-!
# Specification: a column of radius `rc` in a soil cylinder of radius `re`, with vertical and radial flow in both

Equal strain: at each depth column and soil compress alike.  `us`, `uc` are the pore pressures averaged over the soil ring and over the
column, `u` the average over both.  Nothing here refers to the code.
-/

namespace Geotecha.Consol.Spec

/-- Geometry and properties; `kap x` is undisturbed over local horizontal permeability at radius `x` (in units of `rc`). -/
structure Composite where
  rc : ℝ
  re : ℝ
  H : ℝ
  kv : ℝ
  kvc : ℝ
  kh : ℝ
  khc : ℝ
  mvs : ℝ
  mvc : ℝ
  gamw : ℝ
  kap : ℝ → ℝ

/-- Strain `eps` under the average stress `sig`: soil and column stresses `ss`, `sc` carry it in proportion to their areas and both
compress by `eps`. -/
def Composite.EqualStrain (F : Composite) (sig us uc eps : ℝ) : Prop :=
  ∃ ss sc, eps = F.mvs * (ss - us) ∧ eps = F.mvc * (sc - uc) ∧ F.re ^ 2 * sig = (F.re ^ 2 - F.rc ^ 2) * ss + F.rc ^ 2 * sc

/-- The pressure difference between soil average and column average when one unit of water per unit soil volume flows to the column:
through the soil (`mu` is the smear zone parameter of the profile) and within the column. -/
noncomputable def Composite.resist (F : Composite) : ℝ :=
  F.gamw * (F.re ^ 2 * Smear.muSpec (F.re / F.rc) F.kap / (2 * F.kh) + (F.re ^ 2 - F.rc ^ 2) / (8 * F.khc))

/-- A solution for the total stress `sig z`. -/
structure Composite.Solves (F : Composite) (sig : ℝ → ℝ) (u us uc eps : ℝ → ℝ → ℝ) : Prop where
  average : ∀ z t, F.re ^ 2 * u z t = (F.re ^ 2 - F.rc ^ 2) * us z t + F.rc ^ 2 * uc z t
  strain : ∀ z t, F.EqualStrain (sig z) (us z t) (uc z t) (eps z t)
  top : ∀ t, us 0 t = 0 ∧ uc 0 t = 0
  flow : ∃ usz ucz : ℝ → ℝ → ℝ, (∀ z t, HasDerivAt (fun z => us z t) (usz z t) z ∧ HasDerivAt (fun z => uc z t) (ucz z t) z) ∧
    (∀ t, usz F.H t = 0 ∧ ucz F.H t = 0) ∧
    ∀ z t, ∃ et uszz uczz, HasDerivAt (fun t => eps z t) et t ∧ HasDerivAt (fun z => usz z t) uszz z ∧ HasDerivAt (fun z => ucz z t) uczz z ∧
      -- water leaving the whole section
      F.re ^ 2 * et = -((F.re ^ 2 - F.rc ^ 2) * (F.kv / F.gamw * uszz) + F.rc ^ 2 * (F.kvc / F.gamw * uczz)) ∧
      -- water leaving the soil ring sideways drives the difference of the averages
      us z t - uc z t = F.resist * (et + F.kv / F.gamw * uszz)

end Geotecha.Consol.Spec
