import Verif.Speccon.Mirror
import Verif.Speccon.PropsEigen
import Mathlib.Analysis.Real.Pi.Bounds

/-!
# The hypotheses of C222, C223 and C225 are met
-/

set_option linter.unusedVariables false
set_option autoImplicit false
open Real intervalIntegral MeasureTheory Filter Topology
namespace Geotecha.Speccon
open Geotecha.Spec Geotecha.Piecewise

theorem made_exists {x : VR} {S : Set ℝ} {s tend : ℝ} {G : Ground} (h : VRInput x S s tend G) (hdT : 0 < x.dT) (μ ν η : ℝ) (hμ : ∀ z, 0 < z → z < 1 → μ ≤ G.mv z) (hν0 : 0 ≤ ν)
    (hν : ∀ z, 0 < z → z < 1 → ν ≤ G.vert z) (hη : ∀ z, 0 < z → z < 1 → η ≤ G.horiz z) (hf : ∀ f ∈ G.fixed, 0 ≤ f.2.1)
    (hn1 : 1 / 100000000 * x.neig < μ / 2) (hn2 : 1 / 100000000 * x.neig * x.dT < (ν * (π / 2) ^ 2 + η) / 2) :
    ∃ a : VRArrays, a.Made x := by
  obtain ⟨m, gam, psi, hm, hg, hp, ⟨e, v, w, hE⟩, hpos⟩ := C78_eigensystem h hdT μ ν η hμ hν0 hν hη hf hn1 hn2
  exact ⟨⟨m, e, v, w⟩, hm, ⟨gam, psi, hg, hp, hE⟩, fun i hi => (hpos e v w hE i hi).ne'⟩

/-- `Ex.input` under the surcharge alone; the point with imposed pressure keeps its pseudo permeability. -/
noncomputable def Ex.part1 : VR := { Ex.input with vacuumDepth := none, vacuumTime := none, top := none, bot := none, fixedPpress := some [(1/3, 1000, none)], pumping := none, impl := .scalar }

noncomputable def Ex.partG1 : Ground := { Ex.ground with drain := fun _ _ => 0, top := fun _ => 0, bot := fun _ => 0, fixed := [(1/3, 1000, fun _ => 0)], pumps := [] }

theorem Ex.part1_ok : VRInput Ex.part1 {0, 1/2, 1} 0 5 Ex.partG1 where
  sep := Ex.depths_sep
  drn := Or.inr rfl
  drnG := rfl
  H := Ex.input_ok.H
  mvref := Ex.input_ok.mvref
  dT := Ex.input_ok.dT
  mv := Ex.layers_profile
  vert := Ex.input_ok.vert
  horiz := Ex.input_ok.horiz
  surcharge := Ex.input_ok.surcharge
  drain := fun z t => rfl
  top := ⟨[], rfl, fun t => rfl, rfl⟩
  bot := ⟨fun l e => (by cases e), [], rfl, fun t => by simp [total, Ex.partG1], by simp [Ex.partG1, Ex.ground, total0]⟩
  fixed := ⟨rfl, .cons ⟨rfl, rfl, fun _ => rfl⟩ .nil⟩
  pumps := rfl

/-- `Ex.input` without the surcharge. -/
noncomputable def Ex.part2 : VR := { Ex.input with surchargeDepth := none, surchargeTime := none }

noncomputable def Ex.partG2 : Ground := { Ex.ground with surcharge := fun _ _ => 0 }

theorem Ex.part2_ok : VRInput Ex.part2 {0, 1/2, 1} 0 5 Ex.partG2 where
  sep := Ex.depths_sep
  drn := Or.inr rfl
  drnG := rfl
  H := Ex.input_ok.H
  mvref := Ex.input_ok.mvref
  dT := Ex.input_ok.dT
  mv := Ex.layers_profile
  vert := Ex.input_ok.vert
  horiz := Ex.input_ok.horiz
  surcharge := ⟨fun _ _ => rfl, fun _ => rfl⟩
  drain := Ex.input_ok.drain
  top := Ex.input_ok.top
  bot := Ex.input_ok.bot
  fixed := Ex.input_ok.fixed
  pumps := Ex.input_ok.pumps

theorem Ex.made : (∃ a : VRArrays, a.Made Ex.input) ∧ (∃ a : VRArrays, a.Made Ex.part1) ∧ ∃ a : VRArrays, a.Made Ex.part2 := by
  have hp := sq_nonneg (π / 2)
  refine ⟨made_exists Ex.input_ok (by norm_num [Ex.input]) 1 1 2 (fun z _ _ => Ex.layersF_ge z) zero_le_one
      (fun z _ _ => by simpa [Ex.ground] using Ex.layersF_ge z) (fun z _ _ => ?_) (fun f hf => ?_) (by norm_num [Ex.input]) ?_,
    made_exists Ex.part1_ok (by norm_num [Ex.part1, Ex.input]) 1 1 2 (fun z _ _ => Ex.layersF_ge z) zero_le_one
      (fun z _ _ => by simpa [Ex.partG1, Ex.ground] using Ex.layersF_ge z) (fun z _ _ => ?_) (fun f hf => ?_) (by norm_num [Ex.part1, Ex.input]) ?_,
    made_exists Ex.part2_ok (by norm_num [Ex.part2, Ex.input]) 1 1 2 (fun z _ _ => Ex.layersF_ge z) zero_le_one
      (fun z _ _ => by simpa [Ex.partG2, Ex.ground] using Ex.layersF_ge z) (fun z _ _ => ?_) (fun f hf => ?_) (by norm_num [Ex.part2, Ex.input]) ?_⟩
  · have := Ex.layersF_ge z; simp only [Ex.ground]; nlinarith
  · simp only [Ex.ground, List.mem_singleton] at hf; rw [hf]; norm_num
  · norm_num [Ex.input]; nlinarith
  · have := Ex.layersF_ge z; simp only [Ex.partG1, Ex.ground]; nlinarith
  · simp only [Ex.partG1, List.mem_singleton] at hf; rw [hf]; norm_num
  · norm_num [Ex.part1, Ex.input]; nlinarith
  · have := Ex.layersF_ge z; simp only [Ex.partG2, Ex.ground]; nlinarith
  · simp only [Ex.partG2, Ex.ground, List.mem_singleton] at hf; rw [hf]; norm_num
  · norm_num [Ex.part2, Ex.input]; nlinarith

theorem Ex.soil1 : Ex.partG1.SameSoil Ex.ground := ⟨rfl, fun _ _ _ => rfl, fun _ _ _ => rfl, rfl, fun _ _ _ => rfl, fun _ => by simp [Ex.partG1, Ex.ground]⟩
theorem Ex.soil2 : Ex.partG2.SameSoil Ex.ground := ⟨rfl, fun _ _ _ => rfl, fun _ _ _ => rfl, rfl, fun _ _ _ => rfl, fun _ => by simp [Ex.partG2, Ex.ground]⟩

theorem Ex.parts_combine (t : ℝ) : Ex.ground.LoadsCombine Ex.partG1 Ex.partG2 1 1 0 t where
  surcharge z r _ _ _ _ := by simp [Ex.partG1, Ex.partG2, Ex.ground]
  surcharge0 z _ _ := by simp [Ex.partG1, Ex.partG2, Ex.ground]
  drain z r _ _ _ _ := by simp [Ex.partG1, Ex.partG2, Ex.ground]
  top r _ _ := by simp [Ex.partG1, Ex.partG2, Ex.ground]
  top0 := by simp [Ex.partG1, Ex.partG2, Ex.ground]
  bot r _ _ := by simp [Ex.partG1, Ex.partG2, Ex.ground]
  bot0 := by simp [Ex.partG1, Ex.partG2, Ex.ground]
  fixed p r _ _ := by simp [Ex.partG1, Ex.partG2, Ex.ground]
  pumps p r _ _ := by simp [Ex.partG1, Ex.partG2, Ex.ground]

/-- C222: the pressure under all the loads is that under the surcharge plus that under the rest. -/
example : ∃ a a1 a2 : VRArrays, a.Made Ex.input ∧ a1.Made Ex.part1 ∧ a2.Made Ex.part2 ∧ ∃ u u1 u2 : ℝ,
    Ex.input.por a.m a.eigs a.v a.Igamv (1/4) 2 = .ok u ∧ Ex.part1.por a1.m a1.eigs a1.v a1.Igamv (1/4) 2 = .ok u1 ∧
    Ex.part2.por a2.m a2.eigs a2.v a2.Igamv (1/4) 2 = .ok u2 ∧ u = 1 * u1 + 1 * u2 := by
  obtain ⟨⟨a, ha⟩, ⟨a1, ha1⟩, ⟨a2, ha2⟩⟩ := Ex.made
  exact ⟨a, a1, a2, ha, ha1, ha2, C222_pore_pressure Ex.input_ok Ex.part1_ok Ex.part2_ok ha ha1 ha2 rfl rfl rfl rfl Ex.soil1 Ex.soil2 1 1 2
    (by norm_num) (by norm_num) (Ex.parts_combine 2) (1/4) (by norm_num) (by norm_num)⟩

theorem Ex.lengths : SurchargeLengths Ex.input ∧ SurchargeLengths Ex.part1 ∧ SurchargeLengths Ex.part2 :=
  ⟨⟨fun l d h1 h2 => by cases h1; cases h2; exact ⟨rfl, rfl⟩, fun h => by cases h⟩,
   ⟨fun l d h1 h2 => by cases h1; cases h2; exact ⟨rfl, rfl⟩, fun h => by cases h⟩, ⟨fun l d h1 h2 => (by cases h1), fun _ => rfl⟩⟩

example : ∃ a a1 a2 : VRArrays, a.Made Ex.input ∧ a1.Made Ex.part1 ∧ a2.Made Ex.part2 ∧ ∃ v v1 v2 : ℝ,
    Ex.input.settle a.m a.eigs a.v a.Igamv (1/4) 1 2 = .ok v ∧ Ex.part1.settle a1.m a1.eigs a1.v a1.Igamv (1/4) 1 2 = .ok v1 ∧
    Ex.part2.settle a2.m a2.eigs a2.v a2.Igamv (1/4) 1 2 = .ok v2 ∧ v = 1 * v1 + 1 * v2 := by
  obtain ⟨⟨a, ha⟩, ⟨a1, ha1⟩, ⟨a2, ha2⟩⟩ := Ex.made
  exact ⟨a, a1, a2, ha, ha1, ha2, (C222_average_and_settlement Ex.input_ok Ex.part1_ok Ex.part2_ok ha ha1 ha2 rfl rfl rfl rfl Ex.soil1 Ex.soil2 1 1 2
    (by norm_num) (by norm_num) (Ex.parts_combine 2) Ex.lengths.1 Ex.lengths.2.1 Ex.lengths.2.2 (1/4) 1 (by norm_num) (by norm_num) (by norm_num)).2 rfl rfl⟩

/-- C223: any two eigensystems, and either implementation. -/
example : ∃ a a1 : VRArrays, a.Made Ex.input ∧ a1.Made { Ex.input with impl := .scalar } ∧ ∃ u : ℝ,
    Ex.input.por a.m a.eigs a.v a.Igamv (1/4) 2 = .ok u ∧ { Ex.input with impl := .scalar }.por a1.m a1.eigs a1.v a1.Igamv (1/4) 2 = .ok u := by
  have hok : VRInput { Ex.input with impl := .scalar } {0, 1/2, 1} 0 5 Ex.ground :=
    ⟨Ex.input_ok.sep, Ex.input_ok.drn, Ex.input_ok.drnG, Ex.input_ok.H, Ex.input_ok.mvref, Ex.input_ok.dT, Ex.input_ok.mv, Ex.input_ok.vert,
      Ex.input_ok.horiz, Ex.input_ok.surcharge, Ex.input_ok.drain, Ex.input_ok.top, Ex.input_ok.bot, Ex.input_ok.fixed, Ex.input_ok.pumps⟩
  obtain ⟨⟨a, ha⟩, _⟩ := Ex.made
  have hp := sq_nonneg (π / 2)
  obtain ⟨a1, ha1⟩ := made_exists hok (by norm_num [Ex.input]) 1 1 2 (fun z _ _ => Ex.layersF_ge z) zero_le_one
      (fun z _ _ => by simpa [Ex.ground] using Ex.layersF_ge z) (fun z _ _ => by have := Ex.layersF_ge z; simp only [Ex.ground]; nlinarith)
      (fun f hf => by simp only [Ex.ground, List.mem_singleton] at hf; rw [hf]; norm_num) (by norm_num [Ex.input]) (by norm_num [Ex.input]; nlinarith)
  exact ⟨a, a1, ha, ha1, C223_causal Ex.input_ok hok ha ha1 rfl rfl (SameSoil.rfl _) 2 (by norm_num) (by norm_num)
    ⟨fun _ _ _ _ _ _ => rfl, fun _ _ _ => rfl, fun _ _ _ _ _ _ => rfl, fun _ _ _ => rfl, rfl, fun _ _ _ => rfl, rfl, fun _ _ _ _ => rfl, fun _ _ _ _ => rfl⟩
    (1/4) (by norm_num) (by norm_num)⟩

/-- C223: an input whose loads are all off gives zero. -/
example : ∃ a : VRArrays, { Ex.part2 with vacuumDepth := none, vacuumTime := none, top := none, bot := none, fixedPpress := some [(1/3, 1000, none)], pumping := none }.por a.m a.eigs a.v a.Igamv (1/4) 2 = .ok 0 := by
  have hok : VRInput { Ex.part2 with vacuumDepth := none, vacuumTime := none, top := none, bot := none, fixedPpress := some [(1/3, 1000, none)], pumping := none } {0, 1/2, 1} 0 5 { Ex.partG1 with surcharge := fun _ _ => 0 } :=
    ⟨Ex.part1_ok.sep, Ex.part1_ok.drn, Ex.part1_ok.drnG, Ex.part1_ok.H, Ex.part1_ok.mvref, Ex.part1_ok.dT, Ex.part1_ok.mv, Ex.part1_ok.vert,
      Ex.part1_ok.horiz, ⟨fun _ _ => rfl, fun _ => rfl⟩, Ex.part1_ok.drain, Ex.part1_ok.top, Ex.part1_ok.bot, Ex.part1_ok.fixed, Ex.part1_ok.pumps⟩
  have hp := sq_nonneg (π / 2)
  obtain ⟨a1, ha1⟩ := made_exists hok (by norm_num [Ex.input, Ex.part2]) 1 1 2 (fun z _ _ => Ex.layersF_ge z) zero_le_one
      (fun z _ _ => by simpa [Ex.ground, Ex.partG1] using Ex.layersF_ge z) (fun z _ _ => by have := Ex.layersF_ge z; simp only [Ex.ground, Ex.partG1]; nlinarith)
      (fun f hf => by simp only [Ex.partG1, List.mem_singleton] at hf; rw [hf]; norm_num) (by norm_num [Ex.input, Ex.part2]) (by norm_num [Ex.input, Ex.part2]; nlinarith)
  exact ⟨a1, C223_quiescent hok ha1 2 (by norm_num) (by norm_num)
    ⟨fun _ _ _ _ _ _ => rfl, fun _ _ _ => rfl, fun _ _ _ _ _ _ => rfl, fun _ _ _ => rfl, rfl, fun _ _ _ => rfl, rfl,
      fun f hf r _ _ => by simp only [Ex.partG1, List.mem_singleton] at hf; rw [hf], fun f hf => absurd hf (by simp [Ex.partG1])⟩
    (1/4) (by norm_num) (by norm_num)⟩

/-! ## A profile and its mirror image -/

/-- `Ex.layers` upside down: 2 above and 1 below mid depth. -/
noncomputable def Ex.layersUp : PolyLine ℝ := ⟨some [(0, 2), (1/2, 2), (1/2, 1), (1, 1)], false, false, none⟩

theorem Ex.layersUp_profile : Profile {0, 1/2, 1} Ex.layersUp (fun z => Ex.layersF (1 - z)) := by
  refine ⟨_, rfl, ?_, ?_, ⟨by simp, by norm_num, by norm_num⟩, ?_, ?_, ?_⟩
  · simp only [PolyLine.getSegs, Ex.layersUp, PolyLine.getX, PolyLine.getY, PolyLine.getXY, convertToSegs, pieces, toSegs4]
    have e : segs [(0:ℝ), 1/2, 1/2, 1] = [0, 1, 2] := rfl
    simp only [List.map_cons, List.map_nil, e]
    norm_num [List.filter, nth]
  · norm_num [SortedLe]
  · intro q hq; simp at hq; rcases hq with h | h | h | h <;> subst h <;> simp
  · intro q hq
    simp only [List.mem_cons, List.not_mem_nil, or_false] at hq
    rcases hq with h | h | h | h <;> subst h <;> simp [RealStep, firstAt, lastAt, List.find?] <;> norm_num
  · intro z h0 h1 hz
    simp only [List.mem_cons, List.not_mem_nil, or_false, forall_eq_or_imp, forall_eq] at hz
    have b0 : ¬ z < 0 := by linarith
    by_cases h : z < 1/2
    · have e1 : Ex.layersF (1 - z) = 2 := if_neg (by linarith)
      rw [e1]
      simp only [polyLeft]
      rw [if_neg b0, if_pos ⟨by norm_num, h.le⟩]; simp [line]
    · have hne : z ≠ 1/2 := fun e => by simp [e] at hz
      have h' : 1/2 < z := lt_of_le_of_ne (not_lt.1 h) (Ne.symm hne)
      have e1 : Ex.layersF (1 - z) = 1 := if_pos (by linarith)
      rw [e1]
      simp only [polyLeft]
      rw [if_neg b0, if_neg (fun hh => absurd hh.2 (not_le.2 h')), if_neg h, if_neg (fun hh => absurd hh.2 (not_le.2 h')), if_neg h, if_pos ⟨by norm_num, h1.le⟩]
      simp [line]

/-- Two layers, pervious bottom, vertical drainage, a surcharge and a top pressure. -/
noncomputable def Ex.down : VR := { Ex.input with drn := 0, kh := none, et := none, dTh := none, vacuumDepth := none, vacuumTime := none, bot := none, fixedPpress := none, pumping := none }

/-- The same turned upside down. -/
noncomputable def Ex.up : VR := { Ex.down with mv := Ex.layersUp, kv := some Ex.layersUp, surchargeDepth := some [Ex.layersUp], top := none, bot := some [Ex.load] }

noncomputable def Ex.downG : Ground where
  mv := Ex.layersF
  vert := fun z => 1 * Ex.layersF z
  vertEnd := 1 * 2
  horiz := fun _ => 0
  drn := 0
  surcharge := fun z _ => Ex.layersF z * 100
  surcharge0 := fun _ => 0
  drain := fun _ _ => 0
  top := fun _ => 100
  top0 := 0
  bot := fun _ => 0
  bot0 := 0
  fixed := []
  pumps := []

noncomputable def Ex.upG : Ground where
  mv := fun z => Ex.layersF (1 - z)
  vert := fun z => 1 * Ex.layersF (1 - z)
  vertEnd := 1 * 1
  horiz := fun _ => 0
  drn := 0
  surcharge := fun z _ => Ex.layersF (1 - z) * 100
  surcharge0 := fun _ => 0
  drain := fun _ _ => 0
  top := fun _ => 0
  top0 := 0
  bot := fun _ => 100
  bot0 := 0
  fixed := []
  pumps := []

theorem Ex.down_ok : VRInput Ex.down {0, 1/2, 1} 0 5 Ex.downG where
  sep := Ex.depths_sep
  drn := Or.inl rfl
  drnG := rfl
  H := Ex.input_ok.H
  mvref := Ex.input_ok.mvref
  dT := Ex.input_ok.dT
  mv := Ex.layers_profile
  vert := Ex.input_ok.vert
  horiz := fun _ => rfl
  surcharge := ⟨[(Ex.layersF, fun t => 100 * mult none t, 0)], .cons ⟨Ex.layers_profile, Ex.load_history _⟩ .nil,
    fun z t => by simp [Ex.downG, mult], fun z => by simp [Ex.downG]⟩
  drain := fun _ _ => rfl
  top := ⟨[(fun t => 100 * mult none t, 0)], .cons (Ex.load_history _) .nil, fun t => by simp [Ex.downG, total, mult], by simp [Ex.downG, total0]⟩
  bot := ⟨fun l e => (by cases e), [], rfl, fun t => by simp [total, Ex.downG], by simp [Ex.downG, total0]⟩
  fixed := rfl
  pumps := rfl

theorem Ex.up_ok : VRInput Ex.up {0, 1/2, 1} 0 5 Ex.upG where
  sep := Ex.depths_sep
  drn := Or.inl rfl
  drnG := rfl
  H := Ex.input_ok.H
  mvref := Ex.input_ok.mvref
  dT := Ex.input_ok.dT
  mv := Ex.layersUp_profile
  vert := by
    refine ⟨_, 1, Ex.layersUp_profile, ?_, fun z => rfl, rfl⟩
    refine tendsto_const_nhds.congr' ?_
    have : Set.Ioo (1/2:ℝ) 1 ∈ 𝓝[<] (1:ℝ) := Ioo_mem_nhdsLT (by norm_num)
    filter_upwards [this] with z hz
    exact (if_pos (by linarith [hz.1])).symm
  horiz := fun _ => rfl
  surcharge := ⟨[(fun z => Ex.layersF (1 - z), fun t => 100 * mult none t, 0)], .cons ⟨Ex.layersUp_profile, Ex.load_history _⟩ .nil,
    fun z t => by simp [Ex.upG, mult], fun z => by simp [Ex.upG]⟩
  drain := fun _ _ => rfl
  top := ⟨[], rfl, fun t => rfl, rfl⟩
  bot := ⟨fun l e => by cases e; rfl, [(fun t => 100 * mult none t, 0)], .cons (Ex.load_history _) .nil,
    fun t => by simp [Ex.upG, Ex.up, Ex.down, total, mult], by simp [Ex.upG, total0]⟩
  fixed := rfl
  pumps := rfl

theorem Ex.mirrored (t : ℝ) : Ex.downG.Mirrored Ex.upG 0 t where
  drn := rfl
  drn' := rfl
  mv _ _ _ := rfl
  vert _ _ _ := rfl
  horiz _ _ _ := rfl
  surcharge _ _ _ _ _ _ := rfl
  surcharge0 _ _ _ := rfl
  drain _ _ _ _ _ _ := rfl
  top _ _ _ := rfl
  top0 := rfl
  bot _ _ _ := rfl
  bot0 := rfl
  fixed _ := rfl
  fixedLoad _ _ _ _ := rfl
  pumps _ _ _ _ := rfl

/-- C225: the pressure at a quarter depth of one is that at three quarters of the other. -/
example : ∃ a a1 : VRArrays, a.Made Ex.down ∧ a1.Made Ex.up ∧ ∃ u : ℝ, Ex.up.por a1.m a1.eigs a1.v a1.Igamv (1/4) 2 = .ok u ∧
    Ex.down.por a.m a.eigs a.v a.Igamv (1 - 1/4) 2 = .ok u := by
  have hp : (1:ℝ) ≤ (π / 2) ^ 2 := by have := Real.pi_gt_three; nlinarith
  obtain ⟨a, ha⟩ := made_exists Ex.down_ok (by norm_num [Ex.input, Ex.down]) 1 1 0 (fun z _ _ => Ex.layersF_ge z) zero_le_one
      (fun z _ _ => by simpa [Ex.downG] using Ex.layersF_ge z) (fun z _ _ => le_refl _)
      (fun f hf => absurd hf (by simp [Ex.downG])) (by norm_num [Ex.input, Ex.down]) (by norm_num [Ex.input, Ex.down]; nlinarith)
  obtain ⟨a1, ha1⟩ := made_exists Ex.up_ok (by norm_num [Ex.input, Ex.down, Ex.up]) 1 1 0 (fun z _ _ => Ex.layersF_ge (1 - z)) zero_le_one
      (fun z _ _ => by simpa [Ex.upG] using Ex.layersF_ge (1 - z)) (fun z _ _ => le_refl _)
      (fun f hf => absurd hf (by simp [Ex.upG])) (by norm_num [Ex.input, Ex.down, Ex.up]) (by norm_num [Ex.input, Ex.down, Ex.up]; nlinarith)
  exact ⟨a, a1, ha, ha1, C225_mirror Ex.down_ok Ex.up_ok ha ha1 rfl rfl 2 (by norm_num) (by norm_num) (Ex.mirrored 2) (1/4) (by norm_num) (by norm_num)⟩

/-! ## One term, any `dT` up to one -/

noncomputable def Ex.one (d : ℝ) : VR := { Ex.quietInput with neig := 1, dT := d }

theorem Ex.one_ok (d : ℝ) (hd : 0 < d) : VRInput (Ex.one d) {0, 1/2, 1} 0 5 Ex.quietGround :=
  ⟨Ex.quiet_ok.sep, Ex.quiet_ok.drn, Ex.quiet_ok.drnG, Ex.quiet_ok.H, Ex.quiet_ok.mvref, hd.ne', Ex.quiet_ok.mv, Ex.quiet_ok.vert,
      Ex.quiet_ok.horiz, Ex.quiet_ok.surcharge, Ex.quiet_ok.drain, Ex.quiet_ok.top, Ex.quiet_ok.bot, Ex.quiet_ok.fixed, Ex.quiet_ok.pumps⟩

theorem Ex.one_horiz (z : ℝ) : 2 ≤ Ex.quietGround.horiz z := by
  have := Ex.layersF_ge z; simp only [Ex.quietGround, Ex.ground]; nlinarith

theorem Ex.one_vert (z : ℝ) : 0 ≤ Ex.quietGround.vert z := by
  have := Ex.layersF_ge z; simp only [Ex.quietGround, Ex.ground]; linarith

theorem Ex.one_made (d : ℝ) (hd : 0 < d) (hd1 : d ≤ 1) : ∃ a : VRArrays, a.Made (Ex.one d) :=
  made_exists (Ex.one_ok d hd) hd 1 0 2 (fun z _ _ => Ex.layersF_ge z) le_rfl (fun z _ _ => Ex.one_vert z) (fun z _ _ => Ex.one_horiz z)
    (fun f hf => absurd hf (by simp [Ex.quietGround])) (by norm_num [Ex.one]) (by norm_num [Ex.one]; linarith)

theorem Ex.one_exact (d : ℝ) (hd : 0 < d) (hd1 : d ≤ 1) : NothingDropped (Ex.one d) Ex.quietGround := by
  intro i j hi hj wi wj ewi ewj
  have hi0 : i = 0 := by simpa [Ex.one] using hi
  have hj0 : j = 0 := by simpa [Ex.one] using hj
  subst hi0 hj0
  have f1 : wi = freq 1 0 := ewi
  have f2 : wj = freq 1 0 := ewj
  subst f1 f2
  have k1 := form_lower (Profile.bdd Ex.quiet_ok.mv) (μ := 1) (fun z _ _ => Ex.layersF_ge z) 1 (fun i z => sin (freq 1 i * z))
    (fun i => by fun_prop) (fun i j => (orthogonal (Or.inr rfl) i j).1) (fun _ => 1)
  have k2 := form_lower (vert_bdd Ex.quiet_ok) (μ := 0) (fun z _ _ => Ex.one_vert z) 1 (fun i z => cos (freq 1 i * z))
    (fun i => by fun_prop) (fun i j => (orthogonal (Or.inr rfl) i j).2) (fun _ => 1)
  have k3 := form_lower (horiz_bdd Ex.quiet_ok) (μ := 2) (fun z _ _ => Ex.one_horiz z) 1 (fun i z => sin (freq 1 i * z))
    (fun i => by fun_prop) (fun i j => (orthogonal (Or.inr rfl) i j).1) (fun _ => 1)
  simp only [form, Finset.range_one, Finset.sum_singleton, one_pow, one_mul, mul_one, zero_mul] at k1 k2 k3
  refine ⟨fun a ha => Or.inr ?_, fun a ha => Or.inr ?_⟩
  · rw [ha]
    refine le_trans ?_ (le_abs_self _)
    linarith
  · have e1 : (∫ z in (0:ℝ)..1, Ex.quietGround.vert z * (freq 1 0 * cos (freq 1 0 * z)) * (freq 1 0 * cos (freq 1 0 * z))) =
        freq 1 0 ^ 2 * ∫ z in (0:ℝ)..1, Ex.quietGround.vert z * cos (freq 1 0 * z) * cos (freq 1 0 * z) := by
      rw [← intervalIntegral.integral_const_mul]
      congr 1; funext z; ring
    rw [e1] at ha
    have e2 : (Ex.quietGround.fixed.map (fun f => f.2.1 * sin (freq 1 0 * f.1) * sin (freq 1 0 * f.1))).sum = 0 := by simp [Ex.quietGround]
    rw [e2] at ha
    have e3 := mul_nonneg (sq_nonneg (freq 1 0)) k2
    refine le_trans ?_ (le_abs_self _)
    have e4 : (Ex.one d).dT = d := rfl
    rw [e4] at ha
    by_contra hlt
    push Not at hlt
    nlinarith

/-- C224: `dT = 1/5` and `dT = 1` give the same pressure. -/
example : ∃ a a1 : VRArrays, a.Made (Ex.one (1/5)) ∧ a1.Made (Ex.one 1) ∧ ∃ u : ℝ,
    (Ex.one (1/5)).por a.m a.eigs a.v a.Igamv (1/4) 2 = .ok u ∧ (Ex.one 1).por a1.m a1.eigs a1.v a1.Igamv (1/4) 2 = .ok u := by
  obtain ⟨a, ha⟩ := Ex.one_made (1/5) (by norm_num) (by norm_num)
  obtain ⟨a1, ha1⟩ := Ex.one_made 1 (by norm_num) (by norm_num)
  exact ⟨a, a1, ha, ha1, (C224_reference_time (Ex.one_ok (1/5) (by norm_num)) (Ex.one_ok 1 (by norm_num)) ha ha1 rfl (SameSoil.rfl _)
    (Ex.one_exact (1/5) (by norm_num) (by norm_num)) (Ex.one_exact 1 (by norm_num) (by norm_num)) 2 (by norm_num) (by norm_num)
    ⟨fun _ _ _ _ _ _ => rfl, fun _ _ _ => rfl, fun _ _ _ _ _ _ => rfl, fun _ _ _ => rfl, rfl, fun _ _ _ => rfl, rfl, fun _ _ _ _ => rfl, fun _ _ _ _ => rfl⟩).1
    (1/4) (by norm_num) (by norm_num)⟩

end Geotecha.Speccon
