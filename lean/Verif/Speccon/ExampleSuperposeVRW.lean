import Verif.Speccon.SuperposeVRW
import Verif.Speccon.VRWEigen
import Verif.Speccon.ExampleSuperpose

/-!
# The hypotheses of C227 are met
-/

set_option linter.unusedVariables false
set_option autoImplicit false
open Real intervalIntegral MeasureTheory Filter Topology
namespace Geotecha.Speccon
open Geotecha.Spec Geotecha.Piecewise

/-- `Ex.wellInput` under the surcharge alone. -/
noncomputable def Ex.wellPart1 : VRW := ⟨Ex.part1, 3, Ex.layers⟩
/-- `Ex.wellInput` without the surcharge. -/
noncomputable def Ex.wellPart2 : VRW := ⟨{ Ex.part2 with vacuumDepth := none, vacuumTime := none }, 3, Ex.layers⟩
noncomputable def Ex.wellPartG2 : Ground := { Ex.partG2 with drain := fun _ _ => 0 }

theorem Ex.wellPart1_ok : VRWInput Ex.wellPart1 {0, 1/2, 1} 0 5 Ex.partG1 Ex.well := ⟨Ex.part1_ok, rfl, ⟨rfl, rfl, rfl⟩, Ex.well_ok.well⟩
theorem Ex.wellPart2_ok : VRWInput Ex.wellPart2 {0, 1/2, 1} 0 5 Ex.wellPartG2 Ex.well :=
  ⟨{ Ex.part2_ok with drain := fun z t => rfl }, rfl, ⟨rfl, rfl, rfl⟩, Ex.well_ok.well⟩

theorem Ex.wellParts_solvable : ((∃ a : VRWArrays, a.Made Ex.wellPart1) ∧ ∀ a : VRWArrays, a.Made Ex.wellPart1 → ∀ i, i < a.m.length → 0 < a.eigs i) ∧
    ((∃ a : VRWArrays, a.Made Ex.wellPart2) ∧ ∀ a : VRWArrays, a.Made Ex.wellPart2 → ∀ i, i < a.m.length → 0 < a.eigs i) := by
  have hp := two_le_pi
  constructor
  · refine C83_eigensystem Ex.wellPart1_ok (by norm_num [Ex.wellPart1, Ex.part1, Ex.input]) 1 1 2 3 (fun z _ _ => Ex.layersF_ge z) zero_le_one
      (fun z _ _ => by simpa [Ex.partG1, Ex.ground] using Ex.layersF_ge z) (by norm_num) (fun z _ _ => ?_) (by norm_num)
      (fun z _ _ => ?_) (by norm_num) (fun f hf => ?_) (by norm_num [Ex.wellPart1, Ex.part1, Ex.input]) ?_
    · have := Ex.layersF_ge z
      simp only [Ex.partG1, Ex.ground]; nlinarith
    · have := Ex.layersF_ge z
      simp only [Ex.well]; linarith
    · simp only [Ex.partG1, List.mem_singleton] at hf
      rw [hf]; norm_num
    · norm_num [Ex.wellPart1, Ex.part1, Ex.input]; nlinarith
  · refine C83_eigensystem Ex.wellPart2_ok (by norm_num [Ex.wellPart2, Ex.part2, Ex.input]) 1 1 2 3 (fun z _ _ => Ex.layersF_ge z) zero_le_one
      (fun z _ _ => by simpa [Ex.wellPartG2, Ex.partG2, Ex.ground] using Ex.layersF_ge z) (by norm_num) (fun z _ _ => ?_) (by norm_num)
      (fun z _ _ => ?_) (by norm_num) (fun f hf => ?_) (by norm_num [Ex.wellPart2, Ex.part2, Ex.input]) ?_
    · have := Ex.layersF_ge z
      simp only [Ex.wellPartG2, Ex.partG2, Ex.ground]; nlinarith
    · have := Ex.layersF_ge z
      simp only [Ex.well]; linarith
    · simp only [Ex.wellPartG2, Ex.partG2, Ex.ground, List.mem_singleton] at hf
      rw [hf]; norm_num
    · norm_num [Ex.wellPart2, Ex.part2, Ex.input]; nlinarith

/-- C227: all the loads are the surcharge and the rest. -/
theorem Ex.runs3 : ∃ a a1 a2 : VRWArrays, Runs3 Ex.wellInput Ex.wellPart1 Ex.wellPart2 a a1 a2 {0, 1/2, 1} {0, 1/2, 1} {0, 1/2, 1} 0 5 2 1 1
    Ex.wellGround Ex.partG1 Ex.wellPartG2 Ex.well Ex.well Ex.well := by
  obtain ⟨⟨a, ha⟩, n⟩ := Ex.well_solvable
  obtain ⟨⟨⟨a1, ha1⟩, n1⟩, ⟨⟨a2, ha2⟩, n2⟩⟩ := Ex.wellParts_solvable
  exact ⟨a, a1, a2, Ex.well_ok, Ex.wellPart1_ok, Ex.wellPart2_ok, ha, ha1, ha2, fun i hi => (n a ha i hi).ne', fun i hi => (n1 a1 ha1 i hi).ne',
    fun i hi => (n2 a2 ha2 i hi).ne', rfl, rfl, rfl, rfl,
    ⟨rfl, fun _ _ _ => rfl, fun _ _ _ => rfl, rfl, fun _ _ _ => rfl, Ex.soil1.fixed⟩,
    ⟨rfl, fun _ _ _ => rfl, fun _ _ _ => rfl, rfl, fun _ _ _ => rfl, Ex.soil2.fixed⟩, Well.Same.rfl _, Well.Same.rfl _, by norm_num, by norm_num,
    { Ex.parts_combine 2 with drain := fun z r _ _ _ _ => by simp [Ex.partG1, Ex.wellPartG2, Ex.wellGround] }⟩

example : ∃ a a1 a2 : VRWArrays, ∃ u u1 u2 v v1 v2 : ℝ, Ex.wellInput.por a (1/4) 2 = .ok u ∧ Ex.wellPart1.por a1 (1/4) 2 = .ok u1 ∧
    Ex.wellPart2.por a2 (1/4) 2 = .ok u2 ∧ u = 1 * u1 + 1 * u2 ∧
    Ex.wellInput.porwell a (1/4) 2 = .ok v ∧ Ex.wellPart1.porwell a1 (1/4) 2 = .ok v1 ∧ Ex.wellPart2.porwell a2 (1/4) 2 = .ok v2 ∧ v = 1 * v1 + 1 * v2 := by
  obtain ⟨a, a1, a2, R⟩ := Ex.runs3
  obtain ⟨u, u1, u2, p⟩ := C227_pore_pressure R (1/4) (by norm_num) (by norm_num)
  have ns := Ex.load_noStep 2 (by norm_num) (by norm_num)
  have nn : ∀ t, NoStep none t := fun t l e => by cases e
  obtain ⟨v, v1, v2, q⟩ := C227_drain_pressure R rfl rfl ⟨ns, ns⟩ ⟨nn 2, nn 2⟩ ⟨ns, ns⟩ (1/4) (by norm_num) (by norm_num)
  exact ⟨a, a1, a2, u, u1, u2, v, v1, v2, p.1, p.2.1, p.2.2.1, p.2.2.2, q⟩

end Geotecha.Speccon
