import Verif.Speccon.PropsVRC
import Verif.Speccon.ModelUnsat
import Verif.Speccon.SpecUnsat

/-!
# The input of speccon1d_unsat as a coupled problem, and its modal equations (helpers for C94)
-/

set_option linter.unusedVariables false
open Real intervalIntegral MeasureTheory Filter Topology
namespace Geotecha.Speccon
open Geotecha.Spec Geotecha.Piecewise

/-- The boundary loads of a phase are those of the fluid `F`. -/
structure PhaseInput (x : UnsatIn) (p : PhaseIn) (s tend : ℝ) (F : Fluid) : Prop where
  top : ∃ tops, Loads p.top p.topOm s tend tops ∧ (∀ t, F.top t = total tops t) ∧ F.top0 = total0 tops
  bot : (∀ l, p.bot = some l → OmLen l p.botOm) ∧ ∃ bots, Loads p.bot p.botOm s tend bots ∧
    (∀ t, F.bot t = (if x.drn = 1 then x.H else 1) * total bots t) ∧ F.bot0 = (if x.drn = 1 then x.H else 1) * total0 bots

/-- The input `x` describes the problem `U` from time `s` to time `tend`.  All depths are in `S`. -/
structure UnsatInput (x : UnsatIn) (S : Set ℝ) (s tend : ℝ) (U : Unsat) : Prop where
  sep : TolSep S
  drn : x.drn = 0 ∨ x.drn = 1
  drnU : U.drn = x.drn
  H : x.H ≠ 0
  dT : x.dT ≠ 0
  mvref : x.mvref ≠ 0
  ua : x.ua_ ≠ 0
  ref : U.airRef = x.ua_ * x.mvref
  m1kw : Profile S x.m1kw U.m1kw
  m2w : Profile S x.m2w U.m2w
  m1ka : Profile S x.m1ka U.m1ka
  m2a : Profile S x.m2a U.m2a
  n : Profile S x.n U.n
  sat : Profile S x.S U.S
  kw : ∃ f k, Profile S x.kw f ∧ Tendsto f (𝓝[<] 1) (𝓝 k) ∧ (∀ z, U.water.cond z = x.dTw * f z) ∧ U.water.condEnd = x.dTw * k
  Da : ∃ f k, Profile S x.Da f ∧ Tendsto f (𝓝[<] 1) (𝓝 k) ∧ (∀ z, U.air.cond z = x.dTa * f z) ∧ U.air.condEnd = x.dTa * k
  surcharge : match x.surchargeDepth, x.surchargeTime with
    | some d, some l => ∃ hs : List ((ℝ → ℝ) × (ℝ → ℝ) × ℝ),
        List.Forall₂ (DepthLoad S s tend) (l.zip (d.zip (omList l x.surchargeOm))) hs ∧
        (∀ z t, U.surcharge z t = (hs.map (fun h => h.1 z * h.2.1 t)).sum) ∧ ∀ z, U.surcharge0 z = (hs.map (fun h => h.1 z * h.2.2)).sum
    | _, _ => (∀ z t, U.surcharge z t = 0) ∧ ∀ z, U.surcharge0 z = 0
  water : PhaseInput x x.water s tend U.water
  air : PhaseInput x x.air s tend U.air

variable {x : UnsatIn} {S : Set ℝ} {s tend : ℝ} {U : Unsat} {a : UnsatArrays}

/-! ## One phase alone -/

/-- A problem of `speccon1d_vr` with the boundary loads and the conductivity of one phase, and the coefficient `mv`. -/
def auxIn (x : UnsatIn) (p : PhaseIn) (mv kv : PolyLine ℝ) (c : ℝ) : VR where
  H := x.H
  mvref := x.mvref
  drn := x.drn
  dT := x.dT
  neig := x.neig
  dTv := some c
  dTh := none
  mv := mv
  kv := some kv
  kh := none
  et := none
  surchargeDepth := x.surchargeDepth
  surchargeTime := x.surchargeTime
  surchargeOm := x.surchargeOm
  vacuumDepth := none
  vacuumTime := none
  vacuumOm := none
  top := p.top
  topOm := p.topOm
  bot := p.bot
  botOm := p.botOm
  fixedPpress := none
  fixedOm := none
  pumping := none
  pumpingOm := none
  impl := x.impl

def auxG (U : Unsat) (F : Fluid) (f : ℝ → ℝ) : Ground where
  mv := f
  vert := F.cond
  vertEnd := F.condEnd
  horiz := fun _ => 0
  drn := U.drn
  surcharge := U.surcharge
  surcharge0 := U.surcharge0
  drain := fun _ _ => 0
  top := F.top
  top0 := F.top0
  bot := F.bot
  bot0 := F.bot0
  fixed := []
  pumps := []

theorem aux_input (h : UnsatInput x S s tend U) {p : PhaseIn} {F : Fluid} (hp : PhaseInput x p s tend F) {mv kv : PolyLine ℝ} {c : ℝ} {f : ℝ → ℝ}
    (hmv : Profile S mv f)
    (hk : ∃ f k, Profile S kv f ∧ Tendsto f (𝓝[<] 1) (𝓝 k) ∧ (∀ z, F.cond z = c * f z) ∧ F.condEnd = c * k) :
    VRInput (auxIn x p mv kv c) S s tend (auxG U F f) where
  sep := h.sep
  drn := h.drn
  drnG := h.drnU
  H := h.H
  mvref := h.mvref
  dT := h.dT
  mv := hmv
  vert := hk
  horiz := fun z => rfl
  surcharge := h.surcharge
  drain := fun z t => rfl
  top := hp.top
  bot := hp.bot
  fixed := rfl
  pumps := rfl

theorem aux_normBot (x : UnsatIn) (p : PhaseIn) (mv kv : PolyLine ℝ) (c : ℝ) : (auxIn x p mv kv c).normBot = x.normBot p := rfl

/-- Change of storage for unit boundary values. -/
noncomputable def stBC (U : Unsat) (F : Fluid) (f : ℝ → ℝ) (w t : ℝ) : ℝ :=
  (∫ z in (0:ℝ)..1, f z * sin (w * z) * (1 - (1 - (U.drn:ℝ)) * z)) * (F.top t - F.top0) + (∫ z in (0:ℝ)..1, f z * sin (w * z) * z) * (F.bot t - F.bot0)

/-- Flow of the boundary part. -/
noncomputable def flBC (U : Unsat) (F : Fluid) (s w t : ℝ) : ℝ :=
  cTop (auxG U F (fun _ => 0)) w * (∫ r in s..t, F.top r) + cBot (auxG U F (fun _ => 0)) w * ∫ r in s..t, F.bot r

theorem bcAbDfDt_solves {B : Basis} (hS : TolSep S) {b : Boundary} {tops bots : List ((ℝ → ℝ) × ℝ)} (hb : BoundaryLoads b s tend tops bots)
    (hB : ∀ i, i < B.m.length → B.dT * B.eigs i ≠ 0) (hm : ∀ v ∈ B.m, v ≠ 0) {a c : PolyLine ℝ} {f g : ℝ → ℝ} (ha : Profile S a f)
    (hc : Profile S c g) :
    Solves B s tend (bcAbDfDt B b (some a) (some c)) (fun j t =>
      (∫ z in (0:ℝ)..1, f z * g z * (1 + (b.drn - 1 : ℝ) * z) * sin (B.m.getD j 0 * z)) * (total tops t - total0 tops)
      + (∫ z in (0:ℝ)..1, f z * g z * z * sin (B.m.getD j 0 * z)) * (total bots t - total0 bots)) := by
  obtain ⟨a', c', zt, zb, y1, y2, w1, w2, e, ha', hc', _⟩ := common2 hS ha hc
  obtain ⟨q, hq, hqp⟩ := zdistTop_ok ha' b.drn hb.drn
  obtain ⟨r, hr, hrp⟩ := zdistBot_ok ha'
  obtain ⟨t1, e1, h1⟩ := pAbc_ok hS ha' hc' hqp hm
  obtain ⟨t2, e2, h2⟩ := pAbc_ok hS ha' hc' hrp hm
  have := (bcLoop_rate hb.top hB e1).add (bcLoop_rate (theta := do pAbc B.m a' c' (← zdistBot a')) hb.bot hB (by rw [hr]; exact e2))
  refine (this.congr (fun j hj t _ _ => by rw [h1 j hj, h2 j hj])).congr_fun (fun i _ t _ _ => ?_)
  unfold bcAbDfDt
  simp only [e, Bind.bind, Except.bind, hq]

/-- What is made with some entries of theta set to zero. -/
theorem Solves.of_zero {B : Basis} {p : ℕ → Bool} {g : ℕ → ℝ → Except PyErr ℝ} {Q : ℕ → ℝ → ℝ} (h : Solves (B.zero p) s tend g Q) :
    Solves B s tend g (fun j t => if p j then 0 else Q j t) := by
  intro i hi
  obtain ⟨X, h1, h2⟩ := h i hi
  refine ⟨X, h1, fun t ht1 ht2 => ⟨(h2 t ht1 ht2).1, ((h2 t ht1 ht2).2).trans ?_⟩⟩
  refine Finset.sum_congr rfl fun j _ => ?_
  simp only [Basis.zero]
  split_ifs <;> simp

/-- The boundary terms of one phase. -/
theorem phase_solves (h : UnsatInput x S s tend U) {p : PhaseIn} {F : Fluid} (hp : PhaseInput x p s tend F) {kv : PolyLine ℝ} {c : ℝ}
    (hk : ∃ f k, Profile S kv f ∧ Tendsto f (𝓝[<] 1) (𝓝 k) ∧ (∀ z, F.cond z = c * f z) ∧ F.condEnd = c * k) :
    ∃ bot, x.normBot p = .ok bot ∧ (p.bot = none → bot = none) ∧
      ∀ B : Basis, (∀ i, i < B.m.length → B.dT * B.eigs i ≠ 0) → (∀ v ∈ B.m, v ≠ 0) →
      (∀ a f, Profile S a f → Solves B s tend (bcADfDt B (x.boundary p bot) (some a)) (fun j t => stBC U F f (B.m.getD j 0) t)) ∧
      (∀ a f c g, Profile S a f → Profile S c g → Solves B s tend (bcAbDfDt B (x.boundary p bot) (some a) (some c)) (fun j t => stBC U F (fun z => f z * g z) (B.m.getD j 0) t)) ∧
      (Solves B s tend (fun i t => do
          let e ← bcDaDf B (x.boundary p bot) (some kv) i t
          pure (c * e)) (fun j t => -flBC U F s (B.m.getD j 0) t)) := by
  have hx := aux_input h hp h.m2w hk
  obtain ⟨bot, tops, bots, e0, hb, ht1, ht2, hb1, hb2, hn⟩ := normBot_ok hx
  have ett : (fun r => total tops r) = F.top := funext ht1
  have etb : (fun r => total bots r) = F.bot := funext hb1
  have ht1' : ∀ t, total tops t = F.top t := ht1
  have hb1' : ∀ t, total bots t = F.bot t := hb1
  have ht2' : total0 tops = F.top0 := ht2
  have hb2' : total0 bots = F.bot0 := hb2
  have hb' : BoundaryLoads (x.boundary p bot) s tend tops bots := hb
  have ebd : ((x.boundary p bot).drn : ℝ) = (U.drn : ℝ) := by rw [h.drnU]; rfl
  refine ⟨bot, e0, hn, fun B hB hm => ⟨fun a f ha => ?_, fun a f c g ha hc => ?_, ?_⟩⟩
  · refine (bcADfDt_solves h.sep hb' hB hm ha).congr (fun j hj t _ _ => ?_)
    rw [ebd, ht1', ht2', hb1', hb2']
    unfold stBC
    congr 2 <;> · congr 1; funext z; ring
  · refine (bcAbDfDt_solves h.sep hb' hB hm ha hc).congr (fun j hj t _ _ => ?_)
    rw [ebd, ht1', ht2', hb1', hb2']
    unfold stBC
    congr 2 <;> · congr 1; funext z; ring
  · obtain ⟨f, k, hf, hkk, hfg, hke⟩ := hk
    refine ((bcDaDf_solves h.sep hb' hB hm hf hkk).smul c).congr (fun j hj t h1 h2 => ?_)
    rw [ett, etb, ebd]
    have i1 : ∀ d : ℝ, c * ∫ z in (0:ℝ)..1, f z * d * (B.m.getD j 0 * cos (B.m.getD j 0 * z)) =
        ∫ z in (0:ℝ)..1, F.cond z * (B.m.getD j 0 * cos (B.m.getD j 0 * z)) * d := by
      intro d
      rw [← intervalIntegral.integral_const_mul]
      congr 1
      funext z
      rw [hfg]; ring
    have j1 := i1 (U.drn - 1)
    have j2 := i1 1
    unfold flBC cTop cBot
    simp only [auxG, zero_mul, intervalIntegral.integral_zero, List.map_nil, List.sum_nil, add_zero]
    rw [← j1, ← j2, hke, show sin (B.m.getD j 0 * 1) = sin (B.m.getD j 0) by rw [mul_one]]
    ring

/-! ## Right hand sides -/

noncomputable def loadT (U : Unsat) (f : ℝ → ℝ) (w t : ℝ) : ℝ := ∫ z in (0:ℝ)..1, f z * sin (w * z) * (U.surcharge z t - U.surcharge0 z)

noncomputable def rhsW (U : Unsat) (s w t : ℝ) : ℝ :=
  loadT U U.m1kw w t - stBC U U.water U.m2w w t - stBC U U.air U.m1kw w t + stBC U U.air U.m2w w t + flBC U U.water s w t

noncomputable def rhsA (U : Unsat) (s w t : ℝ) : ℝ :=
  loadT U U.m1ka w t - stBC U U.water U.m2a w t - stBC U U.air U.m1ka w t + stBC U U.air U.m2a w t
    + stBC U U.air U.n w t / U.airRef - stBC U U.air (fun z => U.S z * U.n z) w t / U.airRef + flBC U U.air s w t

/-- At least one of the four boundary lists is missing (else the program leaves the boundary terms out). -/
def UnsatIn.OneMissing (x : UnsatIn) : Prop := x.air.top = none ∨ x.air.bot = none ∨ x.water.top = none ∨ x.water.bot = none

theorem fl_zero_w (h : UnsatInput x S s tend U) (h0 : x.dTw = 0) (w t : ℝ) : flBC U U.water s w t = 0 := by
  obtain ⟨f, k, _, _, h1, h2⟩ := h.kw
  unfold flBC cTop cBot
  simp [auxG, h1, h2, h0]

theorem getD_block {m : List ℝ} {n j : ℕ} (hl : m.length = n) (hj : j < 2 * n) : (m ++ m).getD j 0 = m.getD (if j < n then j else j - n) 0 := by
  split_ifs with h
  · simp [List.getD_eq_getElem?_getD, List.getElem?_append_left (by omega : j < m.length)]
  · rw [List.getD_eq_getElem?_getD, List.getElem?_append_right (by omega), hl, ← List.getD_eq_getElem?_getD]

/-- The right hand side of row `j`. -/
noncomputable def rhsU (U : Unsat) (n : ℕ) (m : List ℝ) (s : ℝ) (j : ℕ) (t : ℝ) : ℝ :=
  if j < n then rhsW U s (m.getD j 0) t else rhsA U s (m.getD (j - n) 0) t

theorem surcharge_solves (h : UnsatInput x S s tend U) {B : Basis} (hB : ∀ i, i < B.m.length → B.dT * B.eigs i ≠ 0) (hm : ∀ v ∈ B.m, v ≠ 0)
    {c : PolyLine ℝ} {f : ℝ → ℝ} (hc : Profile S c f) :
    Solves B s tend (aDmagDt B c x.surchargeDepth x.surchargeTime x.surchargeOm) (fun j t => loadT U f (B.m.getD j 0) t) :=
  eSurcharge_solves (x := auxIn x x.water c x.kw x.dTw) (aux_input h h.water hc h.kw) hB hm

theorem eSurchargeU (h : UnsatInput x S s tend U) {B : Basis} (hB : ∀ i, i < B.m.length → B.dT * B.eigs i ≠ 0) (hm : ∀ v ∈ B.m, v ≠ 0) :
    Solves B s tend (x.eSurcharge B) (fun j t => if j < x.neig then loadT U U.m1kw (B.m.getD j 0) t else loadT U U.m1ka (B.m.getD j 0) t) := by
  have p := (surcharge_solves (B := B.zero (botzero x.neig)) h hB hm h.m1kw).of_zero
  have q := (surcharge_solves (B := B.zero (topzero x.neig)) h hB hm h.m1ka).of_zero
  refine (p.add q).congr_fun (fun i hi t h1 h2 => ?_) |>.congr (fun j hj t h1 h2 => ?_)
  · obtain ⟨X, _, hX⟩ := p i hi
    obtain ⟨Y, _, hY⟩ := q i hi
    unfold UnsatIn.eSurcharge
    simp only [Bind.bind, Except.bind, (hX t h1 h2).1, (hY t h1 h2).1, pure, Except.pure]
  · by_cases hjn : j < x.neig
    · simp [botzero, topzero, hjn, Basis.zero]
    · simp [botzero, topzero, hjn, Basis.zero]

open Classical in
/-- The right hand side used by the program: without the boundary terms if no boundary list is missing, without the flow of the boundary air
pressure if `dTw = 0`. -/
noncomputable def rhsP (x : UnsatIn) (U : Unsat) (s : ℝ) (w : ℝ) (j : ℕ) (t : ℝ) : ℝ :=
  if j < x.neig then (if x.OneMissing then rhsW U s w t else loadT U U.m1kw w t)
  else (if x.OneMissing then rhsA U s w t - (if x.dTw = 0 then flBC U U.air s w t else 0) else loadT U U.m1ka w t)

theorem E_unsat (h : UnsatInput x S s tend U) {B : Basis} (hB : ∀ i, i < B.m.length → B.dT * B.eigs i ≠ 0) (hm : ∀ v ∈ B.m, v ≠ 0) :
    Solves B s tend (x.E B) (fun j t => rhsP x U s (B.m.getD j 0) j t) := by
  have sS := eSurchargeU h hB hm
  have hmiss : (x.air.top.isNone ∨ x.air.bot.isNone ∨ x.water.top.isNone ∨ x.water.bot.isNone) ↔ x.OneMissing := by
    simp [UnsatIn.OneMissing]
  by_cases hM : x.OneMissing
  · obtain ⟨wb, ew, _, hw⟩ := phase_solves h h.water h.kw
    obtain ⟨ab, ea, _, ha⟩ := phase_solves h h.air h.Da
    obtain ⟨w1, w2, w3⟩ := hw (B.zero (botzero x.neig)) hB hm
    obtain ⟨a1, a2, a3⟩ := ha (B.zero (botzero x.neig)) hB hm
    obtain ⟨w1', w2', w3'⟩ := hw (B.zero (topzero x.neig)) hB hm
    obtain ⟨a1', a2', a3'⟩ := ha (B.zero (topzero x.neig)) hB hm
    have p1 := (w1 _ _ h.m2w).of_zero
    have p2 := (a1 _ _ h.m1kw).of_zero
    have p3 := (a1 _ _ h.m2w).of_zero
    have p4 : Solves B s tend (fun i t => if x.dTw ≠ 0 then (do
        let e ← bcDaDf (B.zero (botzero x.neig)) (x.boundary x.water wb) (some x.kw) i t
        pure (x.dTw * e)) else pure 0) (fun j t => if botzero x.neig j then 0 else -flBC U U.water s (B.m.getD j 0) t) := by
      by_cases h0 : x.dTw = 0
      · simp only [h0, ne_eq, not_true_eq_false, if_false]
        refine Solves.zero.congr (fun j hj t _ _ => ?_)
        rw [fl_zero_w h h0]; simp
      · simp only [ne_eq, h0, not_false_eq_true, if_true]
        exact w3.of_zero
    have q1 := (w1' _ _ h.m2a).of_zero
    have q2 := (a1' _ _ h.m1ka).of_zero
    have q3 := (a1' _ _ h.m2a).of_zero
    have q4 := (a1' _ _ h.n).of_zero
    have q5 := (a2' _ _ _ _ h.sat h.n).of_zero
    have q6 : Solves B s tend (fun i t => if x.dTw ≠ 0 then (do
        let e ← bcDaDf (B.zero (topzero x.neig)) (x.boundary x.air ab) (some x.Da) i t
        pure (x.dTa * e)) else pure 0) (fun j t => if topzero x.neig j then 0 else -(flBC U U.air s (B.m.getD j 0) t - (if x.dTw = 0 then flBC U U.air s (B.m.getD j 0) t else 0))) := by
      by_cases h0 : x.dTw = 0
      · simp only [h0, ne_eq, not_true_eq_false, if_false]
        refine Solves.zero.congr (fun j hj t _ _ => ?_)
        simp
      · simp only [ne_eq, h0, not_false_eq_true, if_true, if_false, sub_zero]
        exact a3'.of_zero
    have big := ((((((((((p1.smul (-1)).add (p2.smul (-1))).add p3).add (p4.smul (-1))).add (q1.smul (-1))).add (q2.smul (-1))).add q3).add
      (q4.smul (1 / (x.mvref * x.ua_)))).add (q5.smul (-(1 / (x.mvref * x.ua_))))).add (q6.smul (-1)))
    refine (sS.add big).congr_fun (fun i hi t h1 h2 => ?_) |>.congr (fun j hj t h1 h2 => ?_)
    · obtain ⟨X0, _, e0⟩ := sS i hi
      obtain ⟨X1, _, e1⟩ := p1 i hi
      obtain ⟨X2, _, e2⟩ := p2 i hi
      obtain ⟨X3, _, e3⟩ := p3 i hi
      obtain ⟨X4, _, e4⟩ := p4 i hi
      obtain ⟨Y1, _, f1⟩ := q1 i hi
      obtain ⟨Y2, _, f2⟩ := q2 i hi
      obtain ⟨Y3, _, f3⟩ := q3 i hi
      obtain ⟨Y4, _, f4⟩ := q4 i hi
      obtain ⟨Y5, _, f5⟩ := q5 i hi
      obtain ⟨Y6, _, f6⟩ := q6 i hi
      have e4' := (e4 t h1 h2).1
      have f6' := (f6 t h1 h2).1
      simp only [Bind.bind, Except.bind, pure, Except.pure] at e4' f6'
      unfold UnsatIn.E UnsatIn.eBC
      rw [if_pos (hmiss.2 hM)]
      simp only [ew, ea, Bind.bind, Except.bind, (e0 t h1 h2).1, (e1 t h1 h2).1, (e2 t h1 h2).1, (e3 t h1 h2).1, e4',
        (f1 t h1 h2).1, (f2 t h1 h2).1, (f3 t h1 h2).1, (f4 t h1 h2).1, (f5 t h1 h2).1, f6', pure, Except.pure]
      congr 1
      ring
    · unfold rhsP
      rw [if_pos hM, if_pos hM]
      have hr : U.airRef = x.mvref * x.ua_ := by rw [h.ref, mul_comm]
      by_cases hj : j < x.neig
      · have b1 : botzero x.neig j = false := by simp [botzero, hj]
        have b2 : topzero x.neig j = true := by simp [topzero, hj]
        simp only [b1, b2, hj, if_true, Bool.false_eq_true, if_false, Basis.zero, rhsW]
        ring
      · have b1 : botzero x.neig j = true := by simp [botzero]; omega
        have b2 : topzero x.neig j = false := by simp [topzero]; omega
        simp only [b1, b2, hj, if_true, Bool.false_eq_true, if_false, Basis.zero, rhsA, hr]
        ring
  · refine sS.congr_fun (fun i hi t h1 h2 => ?_) |>.congr (fun j hj t h1 h2 => ?_)
    · obtain ⟨X0, _, e0⟩ := sS i hi
      unfold UnsatIn.E
      rw [if_neg (fun hc => hM (hmiss.1 hc))]
      simp only [Bind.bind, Except.bind, (e0 t h1 h2).1, pure, Except.pure, add_zero]
    · unfold rhsP
      rw [if_neg hM, if_neg hM]

end Geotecha.Speccon
