import Verif.Speccon.LoadMatrices

/-!
# A concrete load and soil profile for the examples beside C74-C79
-/

set_option linter.unusedVariables false
open Real intervalIntegral MeasureTheory Filter Topology
namespace Geotecha.Speccon.Ex
open Geotecha.Spec Geotecha.Piecewise Geotecha.Speccon

/-- 100 applied in a step at time 0 and kept to time 8 -/
noncomputable def load : PolyLine ℝ := ⟨some [(0, 0), (0, 100), (8, 100)], false, false, none⟩

theorem load_history (om : Option (ℝ × ℝ)) : LoadHistory load om 0 5 (fun t => 100 * mult om t) 0 := by
  refine ⟨[0, 0, 8], [0, 100, 100], rfl, rfl, rfl, by norm_num [SortedLe], ?_, 1, rfl, by norm_num, by norm_num, Or.inl (by norm_num),
    Or.inl (by norm_num), by simp, ?_⟩
  · intro k hk hk'
    simp only [List.length_cons, List.length_nil] at hk
    have : k = 0 ∨ k = 1 := by omega
    rcases this with e | e <;> subst e <;> norm_num
  · intro t h1 h2
    congr 1
    have a1 : ¬ (-t < -8) := by linarith
    simp only [polyRight, mirror, List.zip_cons_cons, List.zip_nil_right, List.map_cons, List.map_nil, List.reverse_cons, List.reverse_nil,
      List.nil_append, List.cons_append, polyLeft]
    rw [if_neg a1, if_pos (by constructor <;> linarith)]
    simp [line]

/-- two layers, values 1 above and 2 below mid depth -/
noncomputable def layers : PolyLine ℝ := ⟨some [(0, 1), (1/2, 1), (1/2, 2), (1, 2)], false, false, none⟩

open Classical in
noncomputable def layersF (z : ℝ) : ℝ := if z ≤ 1/2 then 1 else 2

theorem layers_profile : Profile {0, 1/2, 1} layers layersF := by
  refine ⟨_, rfl, ?_, ?_, ⟨by simp, by norm_num, by norm_num⟩, ?_, ?_, ?_⟩
  · simp only [PolyLine.getSegs, layers, PolyLine.getX, PolyLine.getY, PolyLine.getXY, convertToSegs, pieces, toSegs4]
    have e : segs [(0:ℝ), 1/2, 1/2, 1] = [0, 1, 2] := rfl
    simp only [List.map_cons, List.map_nil, e]
    norm_num [List.filter, nth]
  · norm_num [SortedLe]
  · intro q hq; simp at hq; rcases hq with h | h | h | h <;> subst h <;> simp
  · intro q hq
    simp only [List.mem_cons, List.not_mem_nil, or_false] at hq
    rcases hq with h | h | h | h <;> subst h <;> simp [RealStep, firstAt, lastAt, List.find?] <;> norm_num
  · intro z h0 h1 hz
    simp only [List.mem_cons, List.not_mem_nil, or_false, forall_eq_or_imp, forall_eq] at hz
    have b0 : ¬ z < 0 := by linarith
    by_cases h : z ≤ 1/2
    · have e1 : layersF z = 1 := if_pos h
      rw [e1]
      simp only [polyLeft]
      rw [if_neg b0, if_pos ⟨by norm_num, h⟩]; simp [line]
    · have e1 : layersF z = 2 := if_neg h
      have b1 : ¬ z < 1/2 := by linarith
      rw [e1]
      simp only [polyLeft]
      rw [if_neg b0, if_neg (fun hh => h hh.2), if_neg b1, if_neg (fun hh => h hh.2), if_neg b1, if_pos ⟨by norm_num, h1.le⟩]
      simp [line]

theorem depths_sep : TolSep {0, 1/2, 1} := by
  intro a ha b hb hab
  simp only [Set.mem_insert_iff, Set.mem_singleton_iff] at ha hb
  rcases ha with ha | ha | ha <;> rcases hb with hb | hb | hb <;> subst ha <;> subst hb <;> first | exact absurd rfl hab | norm_num [abs_of_nonneg, abs_of_neg]

end Geotecha.Speccon.Ex
