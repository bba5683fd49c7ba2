import Verif.Speccon.VRLemmas

/-!
# The input of speccon1d_vr as a consolidation problem, and the right hand side of its modal equations (helpers for C77)
-/

set_option linter.unusedVariables false
open Real intervalIntegral MeasureTheory Filter Topology
namespace Geotecha.Speccon
open Geotecha.Spec Geotecha.Piecewise

/-- As many `omega_phase` entries as loads (checked by `check_input_attributes`, speccon1d_vr.py:536-560). -/
def OmLen {α : Type} (l : List α) (om : Option (List Om)) : Prop := (omList l om).length = l.length

/-- The input `x` describes the consolidation problem `G` from time `s` to time `tend`.  All depths are in `S`. -/
structure VRInput (x : VR) (S : Set ℝ) (s tend : ℝ) (G : Ground) : Prop where
  sep : TolSep S
  drn : x.drn = 0 ∨ x.drn = 1
  drnG : G.drn = x.drn
  H : x.H ≠ 0
  mvref : x.mvref ≠ 0
  dT : x.dT ≠ 0
  mv : Profile S x.mv G.mv
  vert : match x.kv, x.dTv with
    | some kv, some c => ∃ f k, Profile S kv f ∧ Tendsto f (𝓝[<] 1) (𝓝 k) ∧ (∀ z, G.vert z = c * f z) ∧ G.vertEnd = c * k
    | _, _ => (∀ z, G.vert z = 0) ∧ G.vertEnd = 0
  horiz : match x.kh, x.et, x.dTh with
    | some kh, some et, some c => ∃ f g, Profile S kh f ∧ Profile S et g ∧ ∀ z, G.horiz z = c * (f z * g z)
    | _, _, _ => ∀ z, G.horiz z = 0
  surcharge : match x.surchargeDepth, x.surchargeTime with
    | some d, some l => ∃ hs : List ((ℝ → ℝ) × (ℝ → ℝ) × ℝ),
        List.Forall₂ (DepthLoad S s tend) (l.zip (d.zip (omList l x.surchargeOm))) hs ∧
        (∀ z t, G.surcharge z t = (hs.map (fun h => h.1 z * h.2.1 t)).sum) ∧ ∀ z, G.surcharge0 z = (hs.map (fun h => h.1 z * h.2.2)).sum
    | _, _ => (∀ z t, G.surcharge z t = 0) ∧ ∀ z, G.surcharge0 z = 0
  drain : match x.vacuumDepth, x.vacuumTime with
    | some d, some l => ∃ hs : List ((ℝ → ℝ) × (ℝ → ℝ) × ℝ),
        List.Forall₂ (DepthLoad S s tend) (l.zip (d.zip (omList l x.vacuumOm))) hs ∧
        ∀ z t, G.drain z t = (hs.map (fun h => h.1 z * h.2.1 t)).sum
    | _, _ => ∀ z t, G.drain z t = 0
  top : ∃ tops, Loads x.top x.topOm s tend tops ∧ (∀ t, G.top t = total tops t) ∧ G.top0 = total0 tops
  bot : (∀ l, x.bot = some l → OmLen l x.botOm) ∧ ∃ bots, Loads x.bot x.botOm s tend bots ∧
    (∀ t, G.bot t = (if x.drn = 1 then x.H else 1) * total bots t) ∧ G.bot0 = (if x.drn = 1 then x.H else 1) * total0 bots
  fixed : match x.fixedPpress with
    | none => G.fixed = []
    | some l => OmLen l x.fixedOm ∧ List.Forall₂ (PointLoad s tend) (l.zip (omList l x.fixedOm)) G.fixed
  pumps : match x.pumping with
    | none => G.pumps = []
    | some l => OmLen l x.pumpingOm ∧ List.Forall₂ (PumpLoad s tend (x.mvref * x.H)) (l.zip (omList l x.pumpingOm)) G.pumps

variable {x : VR} {S : Set ℝ} {s tend : ℝ} {G : Ground}

theorem normBot_ok (h : VRInput x S s tend G) : ∃ bot tops bots, x.normBot = .ok bot ∧
    BoundaryLoads (x.boundary bot) s tend tops bots ∧ (∀ t, total tops t = G.top t) ∧ total0 tops = G.top0 ∧
    (∀ t, total bots t = G.bot t) ∧ total0 bots = G.bot0 ∧ (x.bot = none → bot = none) := by
  obtain ⟨tops, ht, ht1, ht2⟩ := h.top
  obtain ⟨hl, bots, hb, hb1, hb2⟩ := h.bot
  unfold VR.normBot
  cases hx : x.bot with
  | none =>
    rw [hx] at hb
    have hb' : bots = [] := hb
    subst hb'
    refine ⟨none, tops, [], rfl, ⟨h.drn, ht, rfl⟩, fun t => (ht1 t).symm, ht2.symm, fun t => ?_, ?_, fun _ => rfl⟩
    · rw [hb1]; simp [total]
    · rw [hb2]; simp [total0]
  | some l =>
    rw [hx] at hb
    by_cases hd : x.drn = 1
    · obtain ⟨l', e1, e2, h3⟩ := mapM_scaled h.H (fun v => v * x.H) (fun v => rfl) l _ bots (hl l hx) hb
      refine ⟨some l', tops, bots.map (fun y => (fun t => y.1 t * x.H, y.2 * x.H)), ?_, ⟨h.drn, ht, ?_⟩, fun t => (ht1 t).symm,
        ht2.symm, fun t => ?_, ?_, fun e => by cases e⟩
      · simp only [if_pos hd, e1]; rfl
      · show Loads (some l') x.botOm s tend _
        unfold Loads
        dsimp only
        have : omList l' x.botOm = omList l x.botOm := by
          cases x.botOm with
          | none => simp [omList, e2]
          | some o => rfl
        rw [this]
        exact h3
      · rw [(total_scale bots x.H t).1, hb1, if_pos hd]
      · rw [(total_scale bots x.H 0).2, hb2, if_pos hd]
    · refine ⟨some l, tops, bots, by simp only [if_neg hd]; rfl, ⟨h.drn, ht, hb⟩, fun t => (ht1 t).symm, ht2.symm, fun t => ?_, ?_,
        fun e => by cases e⟩
      · rw [hb1, if_neg hd, one_mul]
      · rw [hb2, if_neg hd, one_mul]

variable {B : Basis}

theorem eSurcharge_solves (h : VRInput x S s tend G) (hB : ∀ i, i < B.m.length → B.dT * B.eigs i ≠ 0) (hm : ∀ v ∈ B.m, v ≠ 0) :
    Solves B s tend (x.eSurcharge B) (fun j t =>
      ∫ z in (0:ℝ)..1, G.mv z * sin (B.m.getD j 0 * z) * (G.surcharge z t - G.surcharge0 z)) := by
  unfold VR.eSurcharge aDmagDt
  have hs := h.surcharge
  cases hd : x.surchargeDepth with
  | none =>
    rw [hd] at hs
    refine Solves.congr (Q := fun _ _ => 0) (by cases x.surchargeTime <;> exact Solves.zero) (fun j _ t _ _ => ?_)
    simp [hs.1, hs.2]
  | some d =>
    cases hl : x.surchargeTime with
    | none =>
      rw [hd, hl] at hs
      refine Solves.congr (Q := fun _ _ => 0) Solves.zero (fun j _ t _ _ => ?_)
      simp [hs.1, hs.2]
    | some l =>
      rw [hd, hl] at hs
      obtain ⟨hs, h1, h2, h3⟩ := hs
      refine Solves.congr (aDmagDt_solves h.sep hB hm h1 h.mv) (fun j _ t _ _ => ?_)
      have hb : ∀ y ∈ hs, BddOn y.1 0 1 := forall₂_right h1 (fun a b hab => Profile.bdd hab.1)
      simp only [h2, h3]
      clear h1 h2 h3
      induction hs with
      | nil => simp
      | cons y hs ih =>
        rw [List.map_cons, List.sum_cons, ih (fun z hz => hb z (by simp [hz]))]
        have b0 := (Profile.bdd h.mv).mul (BddOn.of_continuous (f := fun z => sin (B.m.getD j 0 * z)) (by fun_prop) 0 1)
        have b1 := (b0.mul (hb y (by simp))).mul (BddOn.of_continuous (f := fun _ => y.2.1 t - y.2.2) continuous_const 0 1)
        have b2 : BddOn (fun z => G.mv z * sin (B.m.getD j 0 * z) * ((hs.map (fun h => h.1 z * h.2.1 t)).sum -
            (hs.map (fun h => h.1 z * h.2.2)).sum)) 0 1 := by
          have c1 : BddOn (fun z => (hs.map (fun h => h.1 z * h.2.1 t)).sum) 0 1 := BddOn.listSum (fun w hw =>
            (hb w (by simp [hw])).mul (BddOn.of_continuous (f := fun _ => w.2.1 t) continuous_const 0 1))
          have c2 : BddOn (fun z => (hs.map (fun h => h.1 z * h.2.2)).sum) 0 1 := BddOn.listSum (fun w hw =>
            (hb w (by simp [hw])).mul (BddOn.of_continuous (f := fun _ => w.2.2) continuous_const 0 1))
          have c3 := c1.add (c2.mul (BddOn.of_continuous (f := fun _ => (-1:ℝ)) continuous_const 0 1))
          have := b0.mul c3
          refine this.congr_Ioo (fun z _ _ => by ring)
        rw [← intervalIntegral.integral_mul_const]
        have e1 : (fun z => G.mv z * y.1 z * sin (B.m.getD j 0 * z) * (y.2.1 t - y.2.2)) =
          fun z => G.mv z * sin (B.m.getD j 0 * z) * y.1 z * (y.2.1 t - y.2.2) := by funext z; ring
        rw [e1, ← intervalIntegral.integral_add (b1.int zero_le_one) (b2.int zero_le_one)]
        congr 1
        funext z
        simp only [List.map_cons, List.sum_cons]
        ring

/-- The flow towards the drain caused by the drain pressure. -/
theorem eVacuum_solves (h : VRInput x S s tend G) (hB : ∀ i, i < B.m.length → B.dT * B.eigs i ≠ 0) (hm : ∀ v ∈ B.m, v ≠ 0) :
    (Solves B s tend (x.eVacuum B) (fun j t => ∫ r in s..t, ∫ z in (0:ℝ)..1, G.horiz z * sin (B.m.getD j 0 * z) * G.drain z r)) ∧
    BddOn G.horiz 0 1 ∧ (∀ r, BddOn (fun z => G.drain z r) 0 1) ∧
    ∀ w : ℝ, ∀ t, s ≤ t → t ≤ tend → IntervalIntegrable (fun r => ∫ z in (0:ℝ)..1, G.horiz z * sin (w * z) * G.drain z r) volume s t := by
  have hh := h.horiz
  have hd := h.drain
  have hz : ∀ (c : ℝ), BddOn (fun _ => c) 0 1 := fun c => BddOn.of_continuous continuous_const 0 1
  have hB0 : BddOn G.horiz 0 1 := by
    rcases e1 : x.kh with _ | kh <;> rcases e2 : x.et with _ | et <;> rcases e3 : x.dTh with _ | c <;> rw [e1, e2, e3] at hh <;>
      first
        | (obtain ⟨f, g, hf, hg, hfg⟩ := hh
           rw [show G.horiz = fun z => c * (f z * g z) from funext hfg]
           exact (hz c).mul ((Profile.bdd hf).mul (Profile.bdd hg)))
        | (rw [show G.horiz = fun z => 0 from funext hh]; exact hz 0)
  -- the drain pressure as a list of loads
  have hd' : ∃ hs : List ((ℝ → ℝ) × (ℝ → ℝ) × ℝ), (∀ z t, G.drain z t = (hs.map (fun h => h.1 z * h.2.1 t)).sum) ∧
      (∀ y ∈ hs, BddOn y.1 0 1 ∧ ∀ t, s ≤ t → t ≤ tend → IntervalIntegrable y.2.1 volume s t) ∧
      ∀ kh et f g, Profile S kh f → Profile S et g → Solves B s tend (abmag B kh et x.vacuumDepth x.vacuumTime x.vacuumOm)
        (fun j t => (hs.map (fun y => (∫ z in (0:ℝ)..1, f z * g z * y.1 z * sin (B.m.getD j 0 * z)) * (∫ r in s..t, y.2.1 r))).sum) := by
    rcases e1 : x.vacuumDepth with _ | d
    · rw [e1] at hd
      exact ⟨[], fun z t => by simp [hd], by simp, fun kh et f g _ _ =>
        ((Solves.zero (B := B) (s := s) (tend := tend)).congr_fun (fun i _ t _ _ => by simp [abmag])).congr (fun j _ t _ _ => by simp)⟩
    · rcases e2 : x.vacuumTime with _ | l
      · rw [e1, e2] at hd
        exact ⟨[], fun z t => by simp [hd], by simp, fun kh et f g _ _ =>
        ((Solves.zero (B := B) (s := s) (tend := tend)).congr_fun (fun i _ t _ _ => by simp [abmag])).congr (fun j _ t _ _ => by simp)⟩
      · rw [e1, e2] at hd
        obtain ⟨hs, h1, h2⟩ := hd
        refine ⟨hs, h2, forall₂_right h1 (fun a b hab => ⟨Profile.bdd hab.1, hab.2.solve.2.1⟩), ?_⟩
        intro kh et f g hf hg
        exact abmag_solves h.sep hB hm h1 hf hg
  obtain ⟨hs, a1, a2, a3⟩ := hd'
  have hsum : ∀ w r, ∫ z in (0:ℝ)..1, G.horiz z * sin (w * z) * G.drain z r =
      (hs.map (fun y => (∫ z in (0:ℝ)..1, G.horiz z * sin (w * z) * y.1 z) * y.2.1 r)).sum := by
    intro w r
    simp only [a1]
    clear a1 a3
    induction hs with
    | nil => simp
    | cons y hs ih =>
      have b0 := hB0.mul (BddOn.of_continuous (f := fun z => sin (w * z)) (by fun_prop) 0 1)
      have b1 := (b0.mul (a2 y (by simp)).1).mul (hz (y.2.1 r))
      have b2 : BddOn (fun z => (hs.map (fun h => h.1 z * h.2.1 r)).sum) 0 1 := BddOn.listSum (fun q hq =>
            (a2 q (by simp [hq])).1.mul (hz (q.2.1 r)))
      rw [List.map_cons, List.sum_cons, ← ih (fun q hq => a2 q (by simp [hq])), ← intervalIntegral.integral_mul_const,
        ← intervalIntegral.integral_add (b1.int zero_le_one) ((b0.mul b2).int zero_le_one)]
      congr 1
      funext z
      simp only [List.map_cons, List.sum_cons]
      ring
  have hint : ∀ w t, s ≤ t → t ≤ tend →
      IntervalIntegrable (fun r => ∫ z in (0:ℝ)..1, G.horiz z * sin (w * z) * G.drain z r) volume s t ∧
      ∫ r in s..t, ∫ z in (0:ℝ)..1, G.horiz z * sin (w * z) * G.drain z r =
      (hs.map (fun y => (∫ z in (0:ℝ)..1, G.horiz z * sin (w * z) * y.1 z) * ∫ r in s..t, y.2.1 r)).sum := by
    intro w t h1 h2
    simp only [hsum]
    clear a1 a3 hsum
    induction hs with
    | nil => simp
    | cons y hs ih =>
      obtain ⟨i1, i2⟩ := ih (fun q hq => a2 q (by simp [hq]))
      have i3 := ((a2 y (by simp)).2 t h1 h2).const_mul (∫ z in (0:ℝ)..1, G.horiz z * sin (w * z) * y.1 z)
      simp only [List.map_cons, List.sum_cons]
      refine ⟨i3.add i1, ?_⟩
      rw [intervalIntegral.integral_add i3 i1, i2, intervalIntegral.integral_const_mul]
  refine ⟨?_, hB0, ?_, fun w t h1 h2 => (hint w t h1 h2).1⟩
  · have key : (∀ z, G.horiz z = 0) → Solves B s tend (fun _ _ => .ok 0) (fun j t => ∫ r in s..t, ∫ z in (0:ℝ)..1,
        G.horiz z * sin (B.m.getD j 0 * z) * G.drain z r) := by
      intro h0
      refine Solves.congr (Q := fun _ _ => 0) Solves.zero (fun j _ t _ _ => ?_)
      simp [h0]
    unfold VR.eVacuum
    rcases e1 : x.kh with _ | kh <;> rcases e2 : x.et with _ | et <;> rcases e3 : x.dTh with _ | c <;> rw [e1, e2, e3] at hh <;>
      try exact key hh
    obtain ⟨f, g, hf, hg, hfg⟩ := hh
    by_cases hc : c = 0
    · simp only [hc, ne_eq, not_true_eq_false, if_false]
      exact key (fun z => by rw [hfg, hc, zero_mul])
    · simp only [ne_eq, hc, not_false_eq_true, if_true]
      refine ((a3 kh et f g hf hg).smul c).congr (fun j hj t h1 h2 => ?_)
      rw [(hint _ t h1 h2).2, ← sum_mul_left]
      congr 2
      funext y
      have e : c * ∫ z in (0:ℝ)..1, f z * g z * y.1 z * sin (B.m.getD j 0 * z) = ∫ z in (0:ℝ)..1, G.horiz z * sin (B.m.getD j 0 * z) * y.1 z := by
        rw [← intervalIntegral.integral_const_mul]
        congr 1
        funext z
        rw [hfg]; ring
      rw [← mul_assoc, e]
  · intro r
    rw [show (fun z => G.drain z r) = fun z => (hs.map (fun h => h.1 z * h.2.1 r)).sum from funext (fun z => a1 z r)]
    exact BddOn.listSum (fun q hq => (a2 q hq).1.mul (hz (q.2.1 r)))

/-! ## Boundary loads, fixed pore pressures, pumping -/

/-- Distribution with depth of the top boundary value. -/
def bTop (G : Ground) (z : ℝ) : ℝ := 1 - (1 - G.drn) * z

/-- Outflow seen by `sin(w z)` for a unit top boundary value. -/
noncomputable def cTop (G : Ground) (w : ℝ) : ℝ :=
  ((∫ z in (0:ℝ)..1, G.vert z * (w * cos (w * z)) * (G.drn - 1)) - G.vertEnd * sin (w * 1) * (G.drn - 1))
    + (∫ z in (0:ℝ)..1, G.horiz z * sin (w * z) * bTop G z) + (G.fixed.map (fun f => f.2.1 * sin (w * f.1) * bTop G f.1)).sum

/-- Outflow seen by `sin(w z)` for a unit bottom boundary value. -/
noncomputable def cBot (G : Ground) (w : ℝ) : ℝ :=
  ((∫ z in (0:ℝ)..1, G.vert z * (w * cos (w * z)) * 1) - G.vertEnd * sin (w * 1) * 1)
    + (∫ z in (0:ℝ)..1, G.horiz z * sin (w * z) * z) + (G.fixed.map (fun f => f.2.1 * sin (w * f.1) * f.1)).sum

theorem fixed_list {l : List (ℝ × ℝ × Option (PolyLine ℝ))} {o : List Om} {F : List (ℝ × ℝ × (ℝ → ℝ))} (hl : o.length = l.length)
    (h : List.Forall₂ (PointLoad s tend) (l.zip o) F) : l.map (fun q => (q.1, q.2.1)) = F.map (fun f => (f.1, f.2.1)) := by
  induction l generalizing o F with
  | nil =>
    simp only [List.zip_nil_left, List.forall₂_nil_left_iff] at h
    simp [h]
  | cons q l ih =>
    cases o with
    | nil => simp at hl
    | cons w o =>
      simp only [List.zip_cons_cons] at h
      cases h with
      | cons h1 h2 =>
        rw [List.map_cons, List.map_cons, ih (by simpa using hl) h2]
        obtain ⟨a, b, _⟩ := h1
        dsimp only at a b
        rw [a, b]

/-- Vertical part of the boundary terms. -/
theorem eBCV_solves (h : VRInput x S s tend G) (hB : ∀ i, i < B.m.length → B.dT * B.eigs i ≠ 0) (hm : ∀ v ∈ B.m, v ≠ 0)
    {bot : Option (List (PolyLine ℝ))} (hbot : x.normBot = .ok bot) :
    Solves B s tend (x.eBCV B (x.boundary bot)) (fun j t =>
      -(((∫ z in (0:ℝ)..1, G.vert z * (B.m.getD j 0 * cos (B.m.getD j 0 * z)) * (G.drn - 1)) - G.vertEnd * sin (B.m.getD j 0 * 1) * (G.drn - 1))
        * (∫ r in s..t, G.top r)
      + ((∫ z in (0:ℝ)..1, G.vert z * (B.m.getD j 0 * cos (B.m.getD j 0 * z)) * 1) - G.vertEnd * sin (B.m.getD j 0 * 1) * 1)
        * (∫ r in s..t, G.bot r))) := by
  obtain ⟨bot', tops, bots, e0, hb, ht1, ht2, hb1, hb2, hn⟩ := normBot_ok h
  rw [hbot] at e0
  injection e0 with e0
  subst e0
  have ett : (fun r => total tops r) = G.top := funext ht1
  have etb : (fun r => total bots r) = G.bot := funext hb1
  have ebd : ((x.boundary bot).drn : ℝ) = (G.drn : ℝ) := by rw [h.drnG]; rfl
  have hh := h.vert
  have key : (∀ z, G.vert z = 0) → G.vertEnd = 0 → Solves B s tend (fun _ _ => .ok 0) (fun j t =>
    -(((∫ z in (0:ℝ)..1, G.vert z * (B.m.getD j 0 * cos (B.m.getD j 0 * z)) * (G.drn - 1)) - G.vertEnd * sin (B.m.getD j 0 * 1) * (G.drn - 1))
      * (∫ r in s..t, G.top r)
    + ((∫ z in (0:ℝ)..1, G.vert z * (B.m.getD j 0 * cos (B.m.getD j 0 * z)) * 1) - G.vertEnd * sin (B.m.getD j 0 * 1) * 1)
      * (∫ r in s..t, G.bot r))) := by
    intro h0 h1
    refine Solves.congr (Q := fun _ _ => 0) Solves.zero (fun j _ t _ _ => ?_)
    simp [h0, h1]
  unfold VR.eBCV
  rcases e1 : x.kv with _ | kv <;> rcases e3 : x.dTv with _ | c <;> rw [e1, e3] at hh <;>
    try exact key hh.1 hh.2
  obtain ⟨f, k, hf, hk, hfg, hke⟩ := hh
  by_cases hc : c = 0
  · simp only [hc, ne_eq, not_true_eq_false, if_false]
    exact key (fun z => by rw [hfg, hc, zero_mul]) (by rw [hke, hc, zero_mul])
  · simp only [ne_eq, hc, not_false_eq_true, if_true]
    refine ((bcDaDf_solves h.sep hb hB hm hf hk).smul c).congr (fun j hj t h1 h2 => ?_)
    rw [ett, etb, ebd]
    have i1 : ∀ d : ℝ, c * ∫ z in (0:ℝ)..1, f z * d * (B.m.getD j 0 * cos (B.m.getD j 0 * z)) =
        ∫ z in (0:ℝ)..1, G.vert z * (B.m.getD j 0 * cos (B.m.getD j 0 * z)) * d := by
      intro d
      rw [← intervalIntegral.integral_const_mul]
      congr 1
      funext z
      rw [hfg]; ring
    rw [← i1 (G.drn - 1), ← i1 1, hke, show sin (B.m.getD j 0 * 1) = sin (B.m.getD j 0) by rw [mul_one]]
    ring

theorem eBC_solves (h : VRInput x S s tend G) (hB : ∀ i, i < B.m.length → B.dT * B.eigs i ≠ 0) (hm : ∀ v ∈ B.m, v ≠ 0) :
    Solves B s tend (x.eBC B) (fun j t =>
      -((∫ z in (0:ℝ)..1, G.mv z * sin (B.m.getD j 0 * z) * bTop G z) * (G.top t - G.top0)
        + (∫ z in (0:ℝ)..1, G.mv z * sin (B.m.getD j 0 * z) * z) * (G.bot t - G.bot0)
        + cTop G (B.m.getD j 0) * (∫ r in s..t, G.top r) + cBot G (B.m.getD j 0) * ∫ r in s..t, G.bot r)) := by
  obtain ⟨bot, tops, bots, e0, hb, ht1, ht2, hb1, hb2, hn⟩ := normBot_ok h
  have ett : (fun r => total tops r) = G.top := funext ht1
  have etb : (fun r => total bots r) = G.bot := funext hb1
  have ebd : ((x.boundary bot).drn : ℝ) = (G.drn : ℝ) := by rw [h.drnG]; rfl
  have p := bcADfDt_solves (B := B) h.sep hb hB hm h.mv
  have q : Solves B s tend (x.eBCH B (x.boundary bot)) (fun j t =>
      (∫ z in (0:ℝ)..1, G.horiz z * sin (B.m.getD j 0 * z) * bTop G z) * (∫ r in s..t, G.top r) +
      (∫ z in (0:ℝ)..1, G.horiz z * sin (B.m.getD j 0 * z) * z) * (∫ r in s..t, G.bot r)) := by
    have hh := h.horiz
    have key : (∀ z, G.horiz z = 0) → Solves B s tend (fun _ _ => .ok 0) (fun j t =>
      (∫ z in (0:ℝ)..1, G.horiz z * sin (B.m.getD j 0 * z) * bTop G z) * (∫ r in s..t, G.top r) +
      (∫ z in (0:ℝ)..1, G.horiz z * sin (B.m.getD j 0 * z) * z) * (∫ r in s..t, G.bot r)) := by
      intro h0
      refine Solves.congr (Q := fun _ _ => 0) Solves.zero (fun j _ t _ _ => ?_)
      simp [h0]
    unfold VR.eBCH
    rcases e1 : x.kh with _ | kh <;> rcases e2 : x.et with _ | et <;> rcases e3 : x.dTh with _ | c <;> rw [e1, e2, e3] at hh <;>
      try exact key hh
    obtain ⟨f, g, hf, hg, hfg⟩ := hh
    by_cases hc : c = 0
    · simp only [hc, ne_eq, not_true_eq_false, if_false]
      exact key (fun z => by rw [hfg, hc, zero_mul])
    · simp only [ne_eq, hc, not_false_eq_true, if_true]
      refine ((bcAbf_solves h.sep hb hB hm hf hg).smul c).congr (fun j hj t h1 h2 => ?_)
      have k1 : c * ∫ z in (0:ℝ)..1, f z * g z * (1 + (G.drn - 1 : ℝ) * z) * sin (B.m.getD j 0 * z) =
          ∫ z in (0:ℝ)..1, G.horiz z * sin (B.m.getD j 0 * z) * bTop G z := by
        rw [← intervalIntegral.integral_const_mul]
        congr 1
        funext z
        simp only [hfg, bTop]; ring
      have k2 : c * ∫ z in (0:ℝ)..1, f z * g z * z * sin (B.m.getD j 0 * z) =
          ∫ z in (0:ℝ)..1, G.horiz z * sin (B.m.getD j 0 * z) * z := by
        rw [← intervalIntegral.integral_const_mul]
        congr 1
        funext z
        rw [hfg]; ring
      rw [ett, etb, ebd, mul_add, ← mul_assoc, ← mul_assoc, k1, k2]
  have r := eBCV_solves h hB hm e0
  have u : Solves B s tend (x.eBCF B (x.boundary bot)) (fun j t =>
      (G.fixed.map (fun f => f.2.1 * sin (B.m.getD j 0 * f.1) * bTop G f.1)).sum * (∫ r in s..t, G.top r) +
      (G.fixed.map (fun f => f.2.1 * sin (B.m.getD j 0 * f.1) * f.1)).sum * (∫ r in s..t, G.bot r)) := by
    have hh := h.fixed
    unfold VR.eBCF
    rcases e1 : x.fixedPpress with _ | l <;> rw [e1] at hh
    · refine Solves.congr (Q := fun _ _ => 0) Solves.zero (fun j _ t _ _ => ?_)
      simp [show G.fixed = [] from hh]
    · refine (bcDeltaf_solves hb hB (l.map (fun q => (q.1, q.2.1)))).congr (fun j hj t h1 h2 => ?_)
      rw [ett, etb, ebd, fixed_list hh.1 hh.2, List.map_map, List.map_map]
      have k1 : ((fun zk : ℝ × ℝ => zk.2 * sin (zk.1 * B.m.getD j 0) * (1 - zk.1 * (1 - (G.drn : ℝ)))) ∘ fun f : ℝ × ℝ × (ℝ → ℝ) => (f.1, f.2.1)) =
          fun f => f.2.1 * sin (B.m.getD j 0 * f.1) * bTop G f.1 := by
        funext f
        simp only [Function.comp_apply, bTop, mul_comm]
      have k2 : ((fun zk : ℝ × ℝ => zk.2 * sin (zk.1 * B.m.getD j 0) * zk.1) ∘ fun f : ℝ × ℝ × (ℝ → ℝ) => (f.1, f.2.1)) =
          fun f => f.2.1 * sin (B.m.getD j 0 * f.1) * f.1 := by
        funext f
        simp only [Function.comp_apply, mul_comm]
      rw [k1, k2]
  unfold VR.eBC
  by_cases hnone : x.top.isNone ∧ x.bot.isNone
  · have h1 : x.top = none := by simpa using hnone.1
    have h2 : x.bot = none := by simpa using hnone.2
    have t1 : tops = [] := by
      have := hb.top
      simpa [VR.boundary, h1, Loads] using this
    have t2 : bots = [] := by
      have := hb.bot
      simpa [VR.boundary, hn h2, Loads] using this
    subst t1 t2
    have g1 : ∀ t, G.top t = 0 := fun t => by rw [← ht1]; simp [total]
    have g2 : ∀ t, G.bot t = 0 := fun t => by rw [← hb1]; simp [total]
    have g3 : G.top0 = 0 := by rw [← ht2]; simp [total0]
    have g4 : G.bot0 = 0 := by rw [← hb2]; simp [total0]
    refine Solves.congr (Q := fun _ _ => 0) (Solves.zero.congr_fun (fun i _ t _ _ => by rw [if_pos hnone]; rfl)) (fun j _ t _ _ => ?_)
    simp [g1, g2, g3, g4]
  · have big := (((p.smul (-1)).add (q.smul (-1))).add r).add (u.smul (-1))
    refine (big.congr (fun j hj t h1 h2 => ?_)).congr_fun (fun i hi t h1 h2 => ?_)
    · rw [ebd, ht1, ht2, hb1, hb2]
      have j1 : ∫ z in (0:ℝ)..1, G.mv z * (1 + (G.drn - 1 : ℝ) * z) * sin (B.m.getD j 0 * z) =
          ∫ z in (0:ℝ)..1, G.mv z * sin (B.m.getD j 0 * z) * bTop G z := by
        congr 1; funext z; simp only [bTop]; ring
      have j2 : ∫ z in (0:ℝ)..1, G.mv z * z * sin (B.m.getD j 0 * z) = ∫ z in (0:ℝ)..1, G.mv z * sin (B.m.getD j 0 * z) * z := by
        congr 1; funext z; ring
      rw [j1, j2, cTop, cBot]
      ring
    · rw [if_neg hnone]
      obtain ⟨X, _, hX⟩ := p i hi
      obtain ⟨Y, _, hY⟩ := q i hi
      obtain ⟨Z, _, hZ⟩ := r i hi
      obtain ⟨W, _, hW⟩ := u i hi
      simp only [e0, Bind.bind, Except.bind, (hX t h1 h2).1, (hY t h1 h2).1, (hZ t h1 h2).1, (hW t h1 h2).1, pure, Except.pure]
      congr 1
      ring

theorem eFixed_solves (h : VRInput x S s tend G) (hB : ∀ i, i < B.m.length → B.dT * B.eigs i ≠ 0) :
    Solves B s tend (x.eFixed B) (fun j t => (G.fixed.map (fun f => f.2.1 * sin (B.m.getD j 0 * f.1) * ∫ r in s..t, f.2.2 r)).sum) := by
  have hh := h.fixed
  unfold VR.eFixed
  rcases e1 : x.fixedPpress with _ | l <;> rw [e1] at hh
  · refine Solves.congr (Q := fun _ _ => 0) Solves.zero (fun j _ t _ _ => ?_)
    simp [show G.fixed = [] from hh]
  · refine (deltamag_solves hB hh.2).congr (fun j hj t h1 h2 => ?_)
    congr 2
    funext f
    rw [mul_comm f.1]

theorem ePumping_solves (h : VRInput x S s tend G) (hB : ∀ i, i < B.m.length → B.dT * B.eigs i ≠ 0) :
    Solves B s tend (x.ePumping B) (fun j t => (G.pumps.map (fun p => sin (B.m.getD j 0 * p.1) * ∫ r in s..t, p.2 r)).sum) := by
  have hh := h.pumps
  unfold VR.ePumping
  rcases e1 : x.pumping with _ | l <;> rw [e1] at hh
  · refine Solves.congr (Q := fun _ _ => 0) Solves.zero (fun j _ t _ _ => ?_)
    simp [show G.pumps = [] from hh]
  · obtain ⟨mags, e2, e3, h4⟩ := pump_scaled (mul_ne_zero h.mvref h.H) l _ _ hh.1 hh.2
    have hom : omList ((l.zip mags).map (fun q => ((q.1.1, 1, some q.2) : ℝ × ℝ × Option (PolyLine ℝ)))) x.pumpingOm =
        omList l x.pumpingOm := by
      cases x.pumpingOm with
      | none => simp [omList, e3]
      | some o => rfl
    rw [← hom] at h4
    refine ((deltamag_solves hB h4).congr (fun j hj t h1 h2 => ?_)).congr_fun (fun i hi t h1 h2 => ?_)
    · rw [List.map_map]
      congr 2
      funext f
      simp only [Function.comp_apply]
      rw [mul_comm f.1, one_mul]
    · simp only [e2, Bind.bind, Except.bind]

/-- Right hand side of the modal equations. -/
noncomputable def rhs (G : Ground) (s : ℝ) (w t : ℝ) : ℝ :=
  (∫ z in (0:ℝ)..1, G.mv z * sin (w * z) * (G.surcharge z t - G.surcharge0 z))
  + (∫ r in s..t, ∫ z in (0:ℝ)..1, G.horiz z * sin (w * z) * G.drain z r)
  + -((∫ z in (0:ℝ)..1, G.mv z * sin (w * z) * bTop G z) * (G.top t - G.top0)
        + (∫ z in (0:ℝ)..1, G.mv z * sin (w * z) * z) * (G.bot t - G.bot0)
        + cTop G w * (∫ r in s..t, G.top r) + cBot G w * ∫ r in s..t, G.bot r)
  + (G.fixed.map (fun f => f.2.1 * sin (w * f.1) * ∫ r in s..t, f.2.2 r)).sum
  + (G.pumps.map (fun p => sin (w * p.1) * ∫ r in s..t, p.2 r)).sum

theorem E_solves (h : VRInput x S s tend G) (hB : ∀ i, i < B.m.length → B.dT * B.eigs i ≠ 0) (hm : ∀ v ∈ B.m, v ≠ 0) :
    Solves B s tend (x.E B) (fun j t => rhs G s (B.m.getD j 0) t) := by
  have a := eSurcharge_solves h hB hm
  have b := (eVacuum_solves h hB hm).1
  have c := eBC_solves h hB hm
  have d := eFixed_solves h hB
  have e := ePumping_solves h hB
  refine ((((a.add b).add c).add d).add e).congr_fun (fun i hi t h1 h2 => ?_)
  obtain ⟨X, _, hX⟩ := a i hi
  obtain ⟨Y, _, hY⟩ := b i hi
  obtain ⟨Z, _, hZ⟩ := c i hi
  obtain ⟨W, _, hW⟩ := d i hi
  obtain ⟨V, _, hV⟩ := e i hi
  unfold VR.E
  simp only [Bind.bind, Except.bind, (hX t h1 h2).1, (hY t h1 h2).1, (hZ t h1 h2).1, (hW t h1 h2).1, (hV t h1 h2).1, pure, Except.pure]

end Geotecha.Speccon
