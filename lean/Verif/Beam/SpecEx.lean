import Verif.Beam.SpecEnergy
import Verif.Beam.SpecUnique

/-!
# The claims C176 to C183 are not vacuous
-/
set_option autoImplicit false
set_option linter.unusedVariables false

namespace Geotecha.Beam

open Real Geotecha.Speccon Geotecha.Piecewise Geotecha.Spec

/-- C176: a linear beam for the analytical solution is accepted when neither stiffness is given. -/
example : (⟨"SS", some 1, some 1, some 1, some 1, some 1, some 2, none, some 3, none, none, none, none, some 30, true⟩ : SArgs).gate = .ok () :=
  (C176_analytical_gate_partial _ rfl).2 fun _ => Or.inl ⟨rfl, rfl⟩

/-- A lorry of two axles, going left, and a force going right. -/
noncomputable def lorry : MArgs :=
  ⟨some [[0, 4], [0]], some [[3, 5], [2]], some [-2, 7], none, some [1, 0], none, some [20, 10], none, none, none, none, none, none, none⟩

/-- C177: they are described; the second axle of the first stands at `20 + 4 - 2 (t - 1)`. -/
example : Spec.Describes 10 lorry [⟨[(0, 3), (4, 5)], 0, -2, 20, 1, 0⟩, ⟨[(0, 2)], 0, 7, 10, 0, 0⟩] :=
  ⟨rfl, rfl, rfl, Or.inr ⟨rfl, by simp⟩, Or.inl rfl, Or.inr ⟨rfl, by simp⟩, Or.inl rfl, rfl, rfl, rfl, rfl, rfl, rfl, rfl⟩

/-- C178: a load that grows from 0 to 5 in three seconds and oscillates. -/
example : Spec.Proper ⟨4, [(0, 0), (3, 5)], some (2, 0)⟩ ∧
    Spec.DescribesS ⟨some [4], some [⟨some [(0, 0), (3, 5)], true, true, none⟩], some [some (2, 0)], none, none, none⟩ [⟨4, [(0, 0), (3, 5)], some (2, 0)⟩] :=
  ⟨⟨by simp [SortedLe], (0, 0), by simp, (3, 5), by simp, by norm_num⟩,
    ⟨rfl, ⟨_, rfl, .cons rfl .nil⟩, Or.inl rfl, rfl, rfl, rfl⟩⟩

/-- C179, C180, C182, C183: a run of the unit beam under one moving force, while the force is on it. -/
theorem unit_srun (impl : Impl) : ∃ s M, SBeam.init 1 (unit.spec.args (some 3)) unit.load noStill unitBars impl = .ok s ∧ s.matrices = .ok M ∧
    SRun s M 0 1 unitY := by
  obtain ⟨s, M, c, R, hi, hM, hc, hR, H⟩ := C182_agrees_with_ding unit one_pos 1 3 (by norm_num) impl fun _ => 0
  obtain ⟨w, hw, _⟩ := C167_ding_quadrature_exact 3 (by norm_num)
  rw [hw] at hR
  obtain rfl := Except.ok.inj hR
  rw [unit_norm] at hc
  obtain rfl := Except.ok.inj hc
  have hrun := unit_run 1 w
  have hn : s.n = 1 := (init_phys (load_describes unit) still_none (by simp) hi).1
  refine ⟨s, M, hi, hM, ?_⟩
  have hT : ∀ t, tNorm unit.E unit.rho unit.L t = t := fun t => by simp [tNorm, unit]
  refine ⟨fun i h => hrun.start i (by omega), fun i h => hrun.cont i (by omega), fun t ht => ?_⟩
  obtain ⟨d, h1, h2⟩ := H (unitY t) t (by simp [unit]; exact ht.1.le) (by simp [unit]; exact ht.2.le)
  rw [hT] at h1 h2
  refine ⟨d, h1, fun i hi => ?_⟩
  obtain ⟨d', h3, h4⟩ := hrun.field t ht i (by omega)
  rw [h2 i (by omega)] at h3
  rw [Option.some.inj (Except.ok.inj h3)]
  exact h4

/-- All hypotheses of `C179_equation_of_motion_partial`, `C180_power_balance` and `C183_run_unique` hold for it. -/
example (impl : Impl) : ∃ s M, SBeam.init 1 (unit.spec.args (some 3)) unit.load noStill unitBars impl = .ok s ∧ s.matrices = .ok M ∧
    SRun s M 0 1 unitY ∧ Spec.Moving unit.spec.L unit.load [⟨[(0, unit.F)], 0, unit.v, unit.L, 0, 0⟩] ∧ Spec.Still noStill [] ∧
    Spec.Curves unitBars {0, 1} (fun _ => 1) (fun _ => 1) (fun _ => 1) (fun _ => 1) (fun _ => 1) (fun _ => 1) ∧
    unitBars.k1.getXY.1 = .ok [(0, 1), (1, 1)] ∧ unitBars.k3.getXY.1 = .ok [(0, 1), (1, 1)] := by
  obtain ⟨s, M, h1, h2, h3⟩ := unit_srun impl
  exact ⟨s, M, h1, h2, h3, load_describes unit, still_none, unit_curves, unit_xy, unit_xy⟩

/-- `C183_field_total` for the unit beam with five terms. -/
example (impl : Impl) : ∃ s M, SBeam.init 5 (unit.spec.args (some 30)) unit.load noStill unitBars impl = .ok s ∧ s.matrices = .ok M ∧
    ∀ y t, ∃ d, s.field M y t = .ok d :=
  C183_field_total (by norm_num) (load_describes unit) still_none (by simp) unit_curves one_pos (fun z _ _ => by norm_num)

/-- `C183_nquad_required`: the constructor accepts `nquad=None`. -/
example (impl : Impl) : ∃ s, SBeam.init 5 (unit.spec.args none) unit.load noStill unitBars impl = .ok s ∧ s.matrices = .error .attributeError := by
  have : ∃ s, SBeam.init 5 (unit.spec.args none) unit.load noStill unitBars impl = .ok s := by
    obtain ⟨c1, c2, c3, c4⟩ := coef_ok unit.spec none
    have hv : vehicles (unit.spec.args none) unit.load = .ok ([⟨[(0, unit.F)], 0, unit.v, unit.L, 0, 0⟩].map unit.spec.scale) := by
      rcases load_describes unit with h | h
      · exact vehicles_raw _ _ h
      · exact absurd h.1 (by simp)
    have hg : (unit.spec.args none).gate = .ok () := by
      unfold SArgs.gate; rw [if_neg]; simp [SPhys.args]
    have hst : stationary (unit.spec.args none) noStill = .ok ⟨[], [], []⟩ := rfl
    unfold SBeam.init
    simp only [hg, c1, c2, c3, c4, hv, hst, Bind.bind, Except.bind]
    rw [if_pos (by rfl), show (unit.spec.args none).nquad = none from rfl, show mkRule .ss none = .ok Rule.absent from rfl]
    exact ⟨_, rfl⟩
  obtain ⟨s, hs⟩ := this
  exact ⟨s, hs, C183_nquad_required (load_describes unit) still_none (by simp) unit_curves hs⟩

end Geotecha.Beam
