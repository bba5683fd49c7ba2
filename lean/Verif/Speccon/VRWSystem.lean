import Verif.Speccon.PropsVR
import Verif.Speccon.ModelVRW
import Verif.Speccon.SpecVRW

/-!
# The input of speccon1d_vrw as a coupled problem, and its modal equations (helpers for C80)
-/

set_option linter.unusedVariables false
open Real intervalIntegral MeasureTheory Filter Topology
namespace Geotecha.Speccon
open Geotecha.Spec Geotecha.Piecewise

/-- The input `x` describes the soil `G` (whose `drain` is not used) with the drain `W`. -/
structure VRWInput (x : VRW) (S : Set ℝ) (s tend : ℝ) (G : Ground) (W : Well) : Prop where
  base : VRInput x.base S s tend G
  /-- the class has no vacuum attributes -/
  noVac : x.base.vacuumDepth = none
  /-- required by `check_input_attributes`, speccon1d_vrw.py:565-588 -/
  radial : x.base.kh.isSome ∧ x.base.et.isSome ∧ x.base.dTh.isSome
  well : ∃ f k, Profile S x.kw f ∧ Tendsto f (𝓝[<] 1) (𝓝 k) ∧ (∀ z, W.cond z = x.dTw * f z) ∧ W.condEnd = x.dTw * k

/-- What `_make_m`, `_make_psi`, `_make_psi_w`, `_make_eigs_and_v` leave behind, `np.linalg.inv` and `np.linalg.eig` returning
an inverse and an eigensystem. -/
structure VRWArrays.Made (x : VRW) (a : VRWArrays) : Prop where
  m : x.base.m = .ok a.m
  psiS : x.psiS a.m = .ok a.psiS
  inv : ∃ pw, x.psiW a.m = .ok pw ∧ ∀ i j, i < a.m.length → j < a.m.length → matMul a.m.length pw a.IpsiW i j = if i = j then 1 else 0
  eig : ∃ gam psi, x.base.gam a.m = .ok gam ∧ x.psi a.m a.IpsiW = .ok psi ∧ EigenSystem a.m.length gam psi a.eigs a.v a.Igamv

variable {x : VRW} {S : Set ℝ} {s tend : ℝ} {G : Ground} {W : Well} {a : VRWArrays}

/-! ## Two auxiliary problems: the soil without radial flow, and the drain by itself -/

def soilIn (x : VR) : VR := { x with kh := none, vacuumDepth := none, vacuumTime := none }
def soilG (G : Ground) : Ground := { G with horiz := fun _ => 0, drain := fun _ _ => 0 }

theorem soil_input {x : VR} (h : VRInput x S s tend G) : VRInput (soilIn x) S s tend (soilG G) where
  sep := h.sep
  drn := h.drn
  drnG := h.drnG
  H := h.H
  mvref := h.mvref
  dT := h.dT
  mv := h.mv
  vert := h.vert
  horiz := fun z => rfl
  surcharge := h.surcharge
  drain := fun z t => rfl
  top := h.top
  bot := h.bot
  fixed := h.fixed
  pumps := h.pumps

def wellIn (x : VRW) : VR := { soilIn x.base with kv := some x.kw, dTv := some x.dTw, fixedPpress := none, pumping := none }
def wellG (G : Ground) (W : Well) : Ground := { soilG G with vert := W.cond, vertEnd := W.condEnd, fixed := [], pumps := [] }

theorem well_input (h : VRWInput x S s tend G W) : VRInput (wellIn x) S s tend (wellG G W) where
  sep := h.base.sep
  drn := h.base.drn
  drnG := h.base.drnG
  H := h.base.H
  mvref := h.base.mvref
  dT := h.base.dT
  mv := h.base.mv
  vert := h.well
  horiz := fun z => rfl
  surcharge := h.base.surcharge
  drain := fun z t => rfl
  top := h.base.top
  bot := h.base.bot
  fixed := rfl
  pumps := rfl

theorem dot_matMul (n : ℕ) (P M : ℕ → ℕ → ℝ) (q : ℕ → ℝ) (i : ℕ) : dotV n (matMul n P M) q i = dotV n P (fun j => dotV n M q j) i := by
  unfold dotV matMul
  simp only [Finset.sum_mul, Finset.mul_sum]
  rw [Finset.sum_comm]
  exact Finset.sum_congr rfl (fun j _ => Finset.sum_congr rfl (fun k _ => by ring))

/-- Boundary flow in the drain seen by `sin(w z)`, integrated over time. -/
noncomputable def wellQ (G : Ground) (W : Well) (s w t : ℝ) : ℝ :=
  cTop (wellG G W) w * (∫ r in s..t, G.top r) + cBot (wellG G W) w * ∫ r in s..t, G.bot r

theorem eBCW_solves (h : VRWInput x S s tend G W) {B : Basis} (hB : ∀ i, i < B.m.length → B.dT * B.eigs i ≠ 0) (hm : ∀ v ∈ B.m, v ≠ 0)
    (psS IpsiW : ℕ → ℕ → ℝ) {bot : Option (List (PolyLine ℝ))} (hbot : x.base.normBot = .ok bot) :
    Solves B s tend (x.eBCW B psS IpsiW (x.base.boundary bot)) (fun j t =>
      -dotV B.m.length (matMul B.m.length psS IpsiW) (fun l => wellQ G W s (B.m.getD l 0) t) j) := by
  have r := eBCV_solves (B := { B with Igamv := matMul B.m.length B.Igamv (matMul B.m.length psS IpsiW) }) (well_input h) hB hm (bot := bot) hbot
  intro i hi
  obtain ⟨X, h1, h2⟩ := r i hi
  refine ⟨X, h1, fun t ht1 ht2 => ⟨?_, ?_⟩⟩
  · rw [← (h2 t ht1 ht2).1]
    rfl
  · refine ((h2 t ht1 ht2).2).trans ?_
    dsimp only
    rw [dot_matMul]
    refine dotV_congr (fun j hj => ?_) i
    have e : ∀ f : ℕ → ℝ, -dotV B.m.length (matMul B.m.length psS IpsiW) f j = dotV B.m.length (matMul B.m.length psS IpsiW) (fun l => -f l) j := by
      intro f; simp [dotV]
    rw [e]
    refine dotV_congr (fun l hl => ?_) j
    simp [wellQ, cTop, cBot, wellG, soilG]

theorem eBC_eq (h : VRWInput x S s tend G W) {B : Basis} (hB : ∀ i, i < B.m.length → B.dT * B.eigs i ≠ 0) (hm : ∀ v ∈ B.m, v ≠ 0)
    (psS IpsiW : ℕ → ℕ → ℝ) {Qc : ℕ → ℝ → ℝ} (c : Solves B s tend ((soilIn x.base).eBC B) Qc) :
    Solves B s tend (x.eBC B psS IpsiW) (fun j t => Qc j t
      + -dotV B.m.length (matMul B.m.length psS IpsiW) (fun l => wellQ G W s (B.m.getD l 0) t) j) := by
  obtain ⟨bot, tops, bots, e0, hb, ht1, ht2, hb1, hb2, hn⟩ := normBot_ok h.base
  have w := eBCW_solves h hB hm psS IpsiW e0
  by_cases hnone : x.base.top.isNone ∧ x.base.bot.isNone
  · have h1 : x.base.top = none := by simpa using hnone.1
    have h2 : x.base.bot = none := by simpa using hnone.2
    have t1 : tops = [] := by
      have := hb.top
      simpa [VR.boundary, h1, Loads] using this
    have t2 : bots = [] := by
      have := hb.bot
      simpa [VR.boundary, hn h2, Loads] using this
    subst t1 t2
    have g1 : ∀ t, G.top t = 0 := fun t => by rw [← ht1]; simp [total]
    have g2 : ∀ t, G.bot t = 0 := fun t => by rw [← hb1]; simp [total]
    refine (c.congr_fun (g1 := x.eBC B psS IpsiW) (fun i hi t _ _ => ?_)).congr (fun j hj t _ _ => ?_)
    · unfold VRW.eBC VR.eBC
      rw [if_pos hnone, if_pos (show (soilIn x.base).top.isNone ∧ (soilIn x.base).bot.isNone from hnone)]
    · have : (fun l => wellQ G W s (B.m.getD l 0) t) = fun _ => 0 := by
        funext l; simp [wellQ, g1, g2]
      rw [this]
      simp [dotV]
  · refine (c.add w).congr_fun (fun i hi t _ _ => ?_)
    unfold VRW.eBC VR.eBC
    rw [if_neg hnone, if_neg (show ¬ ((soilIn x.base).top.isNone ∧ (soilIn x.base).bot.isNone) from hnone)]
    have e1 : (soilIn x.base).normBot = .ok bot := e0
    have e2 : (soilIn x.base).eBCH B ((soilIn x.base).boundary bot) i t = .ok 0 := by
      unfold VR.eBCH soilIn
      cases x.base.et <;> rfl
    have e3 : (soilIn x.base).boundary bot = x.base.boundary bot := rfl
    have e4 : (soilIn x.base).eBCV B = x.base.eBCV B := rfl
    have e5 : (soilIn x.base).eBCF B = x.base.eBCF B := rfl
    have e6 : (soilIn x.base).mv = x.base.mv := rfl
    simp only [e0, e1, e2, e3, e4, e5, e6, Bind.bind, Except.bind, pure, Except.pure] 
    rw [e3] at e2
    rw [e2]
    rcases bcADfDt B (x.base.boundary bot) (some x.base.mv) i t with _ | p
    · rfl
    rcases x.base.eBCV B (x.base.boundary bot) i t with _ | r
    · rfl
    rcases x.base.eBCF B (x.base.boundary bot) i t with _ | u
    · rfl
    rcases x.eBCW B psS IpsiW (x.base.boundary bot) i t with _ | v
    · rfl
    dsimp only
    rw [sub_zero]

theorem E_eq (h : VRWInput x S s tend G W) {B : Basis} (hB : ∀ i, i < B.m.length → B.dT * B.eigs i ≠ 0) (hm : ∀ v ∈ B.m, v ≠ 0)
    (psS IpsiW : ℕ → ℕ → ℝ) :
    Solves B s tend (x.E B psS IpsiW) (fun j t => rhs (soilG G) s (B.m.getD j 0) t
      - dotV B.m.length (matMul B.m.length psS IpsiW) (fun l => wellQ G W s (B.m.getD l 0) t) j) := by
  have h' := soil_input h.base
  have a := eSurcharge_solves h' hB hm
  have c := eBC_solves h' hB hm
  have d := eFixed_solves h' hB
  have e := ePumping_solves h' hB
  have cw := eBC_eq h hB hm psS IpsiW c
  refine (((a.add cw).add d).add e).congr_fun (fun i hi t h1 h2 => ?_) |>.congr (fun j hj t h1 h2 => ?_)
  · obtain ⟨X, _, hX⟩ := a i hi
    obtain ⟨Z, _, hZ⟩ := cw i hi
    obtain ⟨V, _, hV⟩ := d i hi
    obtain ⟨U, _, hU⟩ := e i hi
    have e1 : x.base.eSurcharge B i t = .ok (X t) := (hX t h1 h2).1
    have e2 : x.base.eFixed B i t = .ok (V t) := (hV t h1 h2).1
    have e3 : x.base.ePumping B i t = .ok (U t) := (hU t h1 h2).1
    unfold VRW.E
    simp only [Bind.bind, Except.bind, (hX t h1 h2).1, (hZ t h1 h2).1, (hV t h1 h2).1, (hU t h1 h2).1, e1, e2, e3, pure, Except.pure]
  · unfold rhs
    have : ∫ r in s..t, ∫ z in (0:ℝ)..1, (soilG G).horiz z * sin (B.m.getD j 0 * z) * (soilG G).drain z r = 0 := by
      simp [soilG]
    rw [this]
    ring

end Geotecha.Speccon
