import Verif.Speccon.PropsVRWell
import Verif.Speccon.ModelVRC
import Verif.Speccon.SpecVRC

/-!
# The input of speccon1d_vrc as a coupled problem, and its modal equations (helpers for C90)
-/

set_option linter.unusedVariables false
open Real intervalIntegral MeasureTheory Filter Topology
namespace Geotecha.Speccon
open Geotecha.Spec Geotecha.Piecewise

/-- The input `x` describes the soil `G` (whose `drain` is not used) with the column `C`. -/
structure VRCInput (x : VRC) (S : Set ℝ) (s tend : ℝ) (G : Ground) (C : Column) : Prop where
  base : VRInput x.base S s tend G
  /-- the class has no such attributes -/
  noVac : x.base.vacuumDepth = none ∧ x.base.fixedPpress = none ∧ x.base.pumping = none
  n : x.n ≠ 0
  /-- required by `check_input_attributes`, speccon1d_vrc.py:568-595 -/
  given : x.base.kv.isSome ∧ x.base.dTv.isSome ∧ x.base.kh.isSome ∧ x.base.et.isSome ∧ x.base.dTh.isSome
  col : ∃ f k, Profile S x.kvc f ∧ Tendsto f (𝓝[<] 1) (𝓝 k) ∧ (∀ z, C.cond z = x.dTvc * f z) ∧ C.condEnd = x.dTvc * k
  colH : ∃ g, Profile S x.khc g ∧ ∀ z, C.horiz z = x.dThc * g z

/-- `bet` is an inverse of `Ibet`. -/
def VRCArrays.Inv (x : VRC) (a : VRCArrays) : Prop := ∀ p q, p < 3 * a.m.length → q < 3 * a.m.length →
    ∑ r ∈ Finset.range (3 * a.m.length), a.P.Ibet x.alp a.m.length p r * a.bet r q = if p = q then 1 else 0

/-- What `_make_m`, `_make_psi`, `_make_eigs_and_v` leave behind, `np.linalg.inv` and `np.linalg.eig` returning an inverse and an
eigensystem. -/
structure VRCArrays.Made (x : VRC) (a : VRCArrays) : Prop where
  m : x.base.m = .ok a.m
  P : x.psis a.m = .ok a.P
  inv : a.Inv x
  eig : ∃ gam, x.base.gam a.m = .ok gam ∧ EigenSystem a.m.length gam (a.P.psi x.alp a.m.length a.bet) a.eigs a.v a.Igamv

variable {x : VRC} {S : Set ℝ} {s tend : ℝ} {G : Ground} {C : Column} {a : VRCArrays}

/-! ## Auxiliary problems with vertical flow only -/

def vIn (x : VR) (kv : PolyLine ℝ) (c : ℝ) : VR := { soilIn x with kv := some kv, dTv := some c, fixedPpress := none, pumping := none }

theorem v_input {x : VR} (h : VRInput x S s tend G) {kv : PolyLine ℝ} {c : ℝ} {W : Well}
    (hW : ∃ f k, Profile S kv f ∧ Tendsto f (𝓝[<] 1) (𝓝 k) ∧ (∀ z, W.cond z = c * f z) ∧ W.condEnd = c * k) :
    VRInput (vIn x kv c) S s tend (wellG G W) where
  sep := h.sep
  drn := h.drn
  drnG := h.drnG
  H := h.H
  mvref := h.mvref
  dT := h.dT
  mv := h.mv
  vert := hW
  horiz := fun z => rfl
  surcharge := h.surcharge
  drain := fun z t => rfl
  top := h.top
  bot := h.bot
  fixed := rfl
  pumps := rfl

def bareIn (x : VR) : VR := { soilIn x with kv := none, fixedPpress := none, pumping := none }

theorem bare_input {x : VR} (h : VRInput x S s tend G) : VRInput (bareIn x) S s tend (wellG G ⟨fun _ => 0, 0⟩) where
  sep := h.sep
  drn := h.drn
  drnG := h.drnG
  H := h.H
  mvref := h.mvref
  dT := h.dT
  mv := h.mv
  vert := by
    show (∀ z, (0:ℝ) = 0) ∧ (0:ℝ) = 0
    simp
  horiz := fun z => rfl
  surcharge := h.surcharge
  drain := fun z t => rfl
  top := h.top
  bot := h.bot
  fixed := rfl
  pumps := rfl

theorem eBCG_solves {x : VR} (h : VRInput x S s tend G) {kv : PolyLine ℝ} {c : ℝ} {W : Well}
    (hW : ∃ f k, Profile S kv f ∧ Tendsto f (𝓝[<] 1) (𝓝 k) ∧ (∀ z, W.cond z = c * f z) ∧ W.condEnd = c * k)
    {B : Basis} (hB : ∀ i, i < B.m.length → B.dT * B.eigs i ≠ 0) (hm : ∀ v ∈ B.m, v ≠ 0)
    (M : ℕ → ℕ → ℝ) {bot : Option (List (PolyLine ℝ))} (hbot : x.normBot = .ok bot) :
    Solves B s tend (eBCG B M c kv (x.boundary bot)) (fun j t =>
      -dotV B.m.length M (fun l => wellQ G W s (B.m.getD l 0) t) j) := by
  have r := eBCV_solves (B := { B with Igamv := matMul B.m.length B.Igamv M }) (v_input h hW) hB hm (bot := bot) hbot
  intro i hi
  obtain ⟨X, h1, h2⟩ := r i hi
  refine ⟨X, h1, fun t ht1 ht2 => ⟨?_, ?_⟩⟩
  · rw [← (h2 t ht1 ht2).1]
    rfl
  · refine ((h2 t ht1 ht2).2).trans ?_
    dsimp only
    rw [dot_matMul]
    refine dotV_congr (fun j hj => ?_) i
    have e : ∀ f : ℕ → ℝ, -dotV B.m.length M f j = dotV B.m.length M (fun l => -f l) j := by
      intro f; simp [dotV]
    rw [e]
    refine dotV_congr (fun l hl => ?_) j
    simp [wellQ, cTop, cBot, wellG, soilG]

/-- The soil and the column as conductors. -/
def soilW (G : Ground) : Well := ⟨G.vert, G.vertEnd⟩
def colW (C : Column) : Well := ⟨C.cond, C.condEnd⟩

theorem soil_cond (h : VRCInput x S s tend G C) : ∃ kv c, x.base.kv = some kv ∧ x.base.dTv = some c ∧
    ∃ f k, Profile S kv f ∧ Tendsto f (𝓝[<] 1) (𝓝 k) ∧ (∀ z, (soilW G).cond z = c * f z) ∧ (soilW G).condEnd = c * k := by
  obtain ⟨kv, e1⟩ := Option.isSome_iff_exists.1 h.given.1
  obtain ⟨c, e2⟩ := Option.isSome_iff_exists.1 h.given.2.1
  have := h.base.vert
  rw [e1, e2] at this
  exact ⟨kv, c, e1, e2, this⟩

theorem rhs_zero_well (s w t : ℝ) (G : Ground) : wellQ G ⟨fun _ => 0, 0⟩ s w t = 0 := by
  simp [wellQ, cTop, cBot, wellG, soilG]

theorem E_vrc (h : VRCInput x S s tend G C) (a : VRCArrays) (hB : ∀ i, i < a.m.length → x.base.dT * a.eigs i ≠ 0) (hm : ∀ v ∈ a.m, v ≠ 0) :
    Solves (x.base.basis a.m a.eigs a.Igamv) s tend (x.E a) (fun j t => rhs (wellG G ⟨fun _ => 0, 0⟩) s (a.m.getD j 0) t
      - dotV a.m.length (a.P.oneG x.alp a.m.length a.bet) (fun l => wellQ G (soilW G) s (a.m.getD l 0) t + wellQ G (colW C) s (a.m.getD l 0) t) j) := by
  set B := x.base.basis a.m a.eigs a.Igamv with hBd
  set M := a.P.oneG x.alp a.m.length a.bet with hM
  have hb' := bare_input h.base
  have sS := eSurcharge_solves (B := B) hb' hB hm
  have sB := eBC_solves (B := B) hb' hB hm
  obtain ⟨bot, tops, bots, e0, hb, ht1, ht2, hb1, hb2, hn⟩ := normBot_ok h.base
  obtain ⟨kv, c, ekv, edT, hW⟩ := soil_cond h
  have w1 := eBCG_solves (B := B) h.base hW hB hm M e0
  have w2 := eBCG_solves (B := B) (W := colW C) h.base h.col hB hm M e0
  have dsum : ∀ (f g : ℕ → ℝ) j, dotV a.m.length M (fun l => f l + g l) j = dotV a.m.length M f j + dotV a.m.length M g j := by
    intro f g j
    unfold dotV
    rw [← Finset.sum_add_distrib]
    exact Finset.sum_congr rfl fun k _ => by ring
  have key : Solves B s tend (x.eBC a) (fun j t => (-((∫ z in (0:ℝ)..1, G.mv z * sin (a.m.getD j 0 * z) * bTop G z) * (G.top t - G.top0)
        + (∫ z in (0:ℝ)..1, G.mv z * sin (a.m.getD j 0 * z) * z) * (G.bot t - G.bot0)))
      - dotV a.m.length M (fun l => wellQ G (soilW G) s (a.m.getD l 0) t + wellQ G (colW C) s (a.m.getD l 0) t) j) := by
    by_cases hnone : x.base.top.isNone ∧ x.base.bot.isNone
    · have h1 : x.base.top = none := by simpa using hnone.1
      have h2 : x.base.bot = none := by simpa using hnone.2
      have t1 : tops = [] := by
        have := hb.top
        simpa [VR.boundary, h1, Loads] using this
      have t2 : bots = [] := by
        have := hb.bot
        simpa [VR.boundary, hn h2, Loads] using this
      subst t1 t2
      have g1 : ∀ t, G.top t = 0 := fun t => by rw [← ht1]; simp [total]
      have g2 : ∀ t, G.bot t = 0 := fun t => by rw [← hb1]; simp [total]
      have g3 : G.top0 = 0 := by rw [← ht2]; simp [total0]
      have g4 : G.bot0 = 0 := by rw [← hb2]; simp [total0]
      refine (Solves.zero.congr_fun (g1 := x.eBC a) (fun i hi t _ _ => ?_)).congr (fun j hj t _ _ => ?_)
      · unfold VRC.eBC
        rw [if_pos hnone]; rfl
      · have : (fun l => wellQ G (soilW G) s (a.m.getD l 0) t + wellQ G (colW C) s (a.m.getD l 0) t) = fun _ => 0 := by
          funext l; simp [wellQ, g1, g2]
        rw [this, g1, g2, g3, g4]
        simp [dotV]
    · refine ((sB.add w1).add w2).congr_fun (fun i hi t ht1' ht2' => ?_) |>.congr (fun j hj t _ _ => ?_)
      · obtain ⟨X, _, hX⟩ := sB i hi
        obtain ⟨Y, _, hY⟩ := w1 i hi
        obtain ⟨Z, _, hZ⟩ := w2 i hi
        have eX := (hX t ht1' ht2').1
        have eY := (hY t ht1' ht2').1
        have eZ := (hZ t ht1' ht2').1
        unfold VRC.eBC
        rw [if_neg hnone]
        unfold VR.eBC at eX ⊢
        rw [if_neg (show ¬ ((bareIn x.base).top.isNone ∧ (bareIn x.base).bot.isNone) from hnone)] at eX ⊢
        have e1 : (bareIn x.base).normBot = .ok bot := e0
        have e2 : (bareIn x.base).eBCH B ((bareIn x.base).boundary bot) i t = .ok 0 := by
          unfold VR.eBCH bareIn soilIn
          cases x.base.et <;> rfl
        have e4 : (bareIn x.base).eBCV B ((bareIn x.base).boundary bot) i t = .ok 0 := rfl
        have e5 : (bareIn x.base).eBCF B ((bareIn x.base).boundary bot) i t = .ok 0 := rfl
        have e6 : (bareIn x.base).boundary bot = x.base.boundary bot := rfl
        have e7 : (bareIn x.base).mv = x.base.mv := rfl
        rw [e6] at e2 e4 e5
        simp only [e1, e2, e4, e5, e6, e7, Bind.bind, Except.bind, pure, Except.pure] at eX ⊢
        simp only [e0, ekv, edT]
        rw [← hBd, ← hM, eY, eZ]
        rcases bcADfDt B (x.base.boundary bot) (some x.base.mv) i t with _ | p
        · rfl
        simp
      · rw [dsum]
        have c1 : cTop (wellG G ⟨fun _ => 0, 0⟩) (B.m.getD j 0) = 0 := by simp [cTop, wellG, soilG]
        have c2 : cBot (wellG G ⟨fun _ => 0, 0⟩) (B.m.getD j 0) = 0 := by simp [cBot, wellG, soilG]
        rw [c1, c2]
        have r1 : bTop (wellG G ⟨fun _ => 0, 0⟩) = bTop G := rfl
        rw [r1]
        show _ = _
        simp only [zero_mul, add_zero]
        have r2 : B.m = a.m := rfl
        have r3 : (wellG G ⟨fun _ => 0, 0⟩).mv = G.mv := rfl
        have r4 : (wellG G ⟨fun _ => 0, 0⟩).top = G.top := rfl
        have r5 : (wellG G ⟨fun _ => 0, 0⟩).bot = G.bot := rfl
        have r6 : (wellG G ⟨fun _ => 0, 0⟩).top0 = G.top0 := rfl
        have r7 : (wellG G ⟨fun _ => 0, 0⟩).bot0 = G.bot0 := rfl
        have r8 : (wellG G ⟨fun _ => 0, 0⟩).fixed = [] := rfl
        simp only [r2, r3, r4, r5, r6, r7, r8, List.map_nil, List.sum_nil, add_zero]
        ring
  refine (sS.add key).congr_fun (fun i hi t h1 h2 => ?_) |>.congr (fun j hj t h1 h2 => ?_)
  · obtain ⟨X, _, hX⟩ := sS i hi
    obtain ⟨Y, _, hY⟩ := key i hi
    have e1 : x.base.eSurcharge B i t = .ok (X t) := (hX t h1 h2).1
    unfold VRC.E
    rw [← hBd]
    simp only [Bind.bind, Except.bind, (hX t h1 h2).1, (hY t h1 h2).1, e1, pure, Except.pure]
  · unfold rhs
    have c1 : cTop (wellG G ⟨fun _ => 0, 0⟩) (a.m.getD j 0) = 0 := by simp [cTop, wellG, soilG]
    have c2 : cBot (wellG G ⟨fun _ => 0, 0⟩) (a.m.getD j 0) = 0 := by simp [cBot, wellG, soilG]
    rw [c1, c2]
    have c3 : (wellG G ⟨fun _ => 0, 0⟩).fixed = [] := rfl
    have c4 : (wellG G ⟨fun _ => 0, 0⟩).pumps = [] := rfl
    have c5 : ∫ r in s..t, ∫ z in (0:ℝ)..1, (wellG G ⟨fun _ => 0, 0⟩).horiz z * sin (a.m.getD j 0 * z) * (wellG G ⟨fun _ => 0, 0⟩).drain z r = 0 := by
      simp [wellG, soilG]
    rw [c3, c4, c5]
    have r1 : bTop (wellG G ⟨fun _ => 0, 0⟩) = bTop G := rfl
    rw [r1]
    simp only [List.map_nil, List.sum_nil, zero_mul, add_zero]
    show _ + (_ - _) = _ + _ - _
    rw [add_sub_assoc]
    rfl

end Geotecha.Speccon
