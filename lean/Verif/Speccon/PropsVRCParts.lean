import Verif.Speccon.PropsVRC

/-!
# Property C92: the pressures in the soil and in the column reported by speccon1d_vrc
-/

set_option linter.unusedVariables false
open Real intervalIntegral MeasureTheory Filter Topology
namespace Geotecha.Speccon
open Geotecha.Spec Geotecha.Piecewise

variable {x : VRC} {S : Set ℝ} {s tend : ℝ} {G : Ground} {C : Column} {a : VRCArrays}

theorem pinterpLeft_ok {p : PolyLine ℝ} {om : Om} {h : ℝ → ℝ} {h0 : ℝ} (H : LoadHistory p om s tend h h0) (t : ℝ) : ∃ v, pinterpLeft p t = .ok v := by
  obtain ⟨T, P, hx, hy, hl, hs, hr, n, hn', hspan, _⟩ := H.ex
  unfold pinterpLeft
  have hne : nth T 0 < nth T (T.length - 1) := by
    have e1 : T.length - 1 = n + 1 := by omega
    rw [e1, nth_eq_getElem (by omega), nth_eq_getElem (by omega)]
    exact hspan
  simp only [hx, hy, Bind.bind, Except.bind]
  exact ⟨_, interpXY_left hs hl.symm hne t⟩

/-- The sum of the boundary terms has one factor in which the loads enter, the same for all matrices. -/
theorem foftLoop_left {n : ℕ} {vs : Option (List (PolyLine ℝ))} {om : Option (List Om)}
    {hs : List ((ℝ → ℝ) × ℝ)} (hl : Loads vs om s tend hs) {t : ℝ} (h1 : s ≤ t) (h2 : t ≤ tend) :
    ∃ τ : ℝ, (NoStep vs t → τ = total hs t) ∧ ∀ (I : ℕ → ℕ → ℝ) (theta : Except PyErr (ℕ → ℝ)) (th : ℕ → ℝ), theta = .ok th → ∀ i,
      foftLoop n I theta vs om i t = .ok (dotV n I th i * τ) := by
  cases vs with
  | none =>
    have : hs = [] := hl
    subst this
    exact ⟨0, fun _ => by simp [total], fun I theta th hth i => by simp [foftLoop]⟩
  | some l =>
    have key : ∃ τ : ℝ, ((∀ q ∈ l, ∀ T P, q.getX.1 = .ok T → q.getY.1 = .ok P → polyLeft (T.zip P) t = polyRight (T.zip P) t) → τ = total hs t) ∧
        ∀ k : ℝ, sumM (fun q : PolyLine ℝ × Om => do
          let e ← pinterpLeft q.1 t
          pure (e * mult q.2 t * k)) (l.zip (omList l om)) = .ok (k * τ) := by
      simp only [Loads] at hl
      have hmem : ∀ q ∈ l.zip (omList l om), q.1 ∈ l := fun q hq => (List.of_mem_zip hq).1
      generalize l.zip (omList l om) = L at hl hmem ⊢
      induction hl with
      | nil => exact ⟨0, fun _ => by simp [total], fun k => by simp [sumM]⟩
      | @cons q y l' hs' hq hr ih =>
        obtain ⟨τ, e1, e2⟩ := ih (fun q hq => hmem q (by simp [hq]))
        obtain ⟨v, ev⟩ := pinterpLeft_ok hq t
        refine ⟨v * mult q.2 t + τ, fun hn => ?_, fun k => ?_⟩
        · obtain ⟨w, f1, f2⟩ := hq.solve.1 t h1 h2
          rw [pinterpLeft_eq hq (hn q.1 (hmem q (by simp))), f1] at ev
          injection ev with ev
          rw [e1 hn, ← ev]
          simp only [total, List.map_cons, List.sum_cons, ← f2]
        · rw [sumM, ev, e2 k]
          simp only [Bind.bind, Except.bind, pure, Except.pure]
          congr 1; ring
    obtain ⟨τ, k1, k2⟩ := key
    refine ⟨τ, fun hn => k1 (hn l rfl), fun I theta th hth i => ?_⟩
    unfold foftLoop
    rw [hth]
    dsimp only [Bind.bind, Except.bind]
    exact k2 _

/-- Boundary flow of a conductor for the boundary values `τ1`, `τ2`. -/
noncomputable def Lt (G : Ground) (W : Well) (w τ1 τ2 : ℝ) : ℝ := cTop (wellG G W) w * τ1 + cBot (wellG G W) w * τ2

theorem foft_gen {x : VR} (h : VRInput x S s tend G) {m : List ℝ} (hm : x.m = .ok m) {bot : Option (List (PolyLine ℝ))} (hbot : x.normBot = .ok bot)
    {t : ℝ} (h1 : s ≤ t) (h2 : t ≤ tend) : ∃ τ1 τ2 : ℝ, (NoStep x.top t → τ1 = G.top t) ∧ (NoStep x.bot t → τ2 = G.bot t) ∧
      ∀ (kv : PolyLine ℝ) (c : ℝ) (W : Well), (∃ f k, Profile S kv f ∧ Tendsto f (𝓝[<] 1) (𝓝 k) ∧ (∀ z, W.cond z = c * f z) ∧ W.condEnd = c * k) →
        ∀ (I : ℕ → ℕ → ℝ) (i : ℕ), ∃ v, foftIpsiw m I kv (x.boundary bot) i t = .ok v ∧
          c * v = -dotV m.length I (fun k => Lt G W (m.getD k 0) τ1 τ2) i := by
  obtain ⟨hl, hget, hd, hne, hsc⟩ := m_ok h hm
  obtain ⟨bot', tops, bots, e0, hb, ht1, ht2, hb1, hb2, hn⟩ := normBot_ok h
  rw [hbot] at e0
  injection e0 with e0
  subst e0
  obtain ⟨τ1, p1, p2⟩ := foftLoop_left (n := m.length) hb.top h1 h2
  obtain ⟨τ2, q1, q2⟩ := foftLoop_left (n := m.length) hb.bot h1 h2
  refine ⟨τ1, τ2, fun hs => by rw [p1 hs, ht1], fun hs => by rw [q1 (normBot_noStep hbot hs), hb1], ?_⟩
  rintro kv c W ⟨f, kend, hf, hk, hc, hce⟩ I i
  obtain ⟨q, hq, hqp⟩ := zdistTop_ok hf x.drn h.drn
  obtain ⟨r, hr, hrp⟩ := zdistBot_ok hf
  obtain ⟨t1, e1, k1⟩ := pDaDb_ok h.sep hf hqp hne hk
  obtain ⟨t2, e2, k2⟩ := pDaDb_ok (e := 0) (d := 1) h.sep hf (hrp.congr (fun z _ _ => by ring)) hne hk
  have f1 := p2 I _ t1 e1 i
  have f2 := q2 I (do pDaDb m kv (← zdistBot kv)) t2 (by rw [hr]; exact e2) i
  refine ⟨_, by
    unfold foftIpsiw
    have hq' : zdistTop (x.boundary bot).drn kv = .ok q := hq
    simp only [hq', Bind.bind, Except.bind]
    simp only [Bind.bind, Except.bind] at f2
    rw [f1, f2]
    rfl, ?_⟩
  have hdr : (G.drn : ℝ) = x.drn := by rw [h.drnG]
  unfold dotV
  rw [Finset.sum_mul, Finset.sum_mul, ← Finset.sum_add_distrib, Finset.mul_sum, ← Finset.sum_neg_distrib]
  refine Finset.sum_congr rfl (fun k hkk => ?_)
  rw [k1 k (Finset.mem_range.1 hkk), k2 k (Finset.mem_range.1 hkk)]
  have i1 : ∀ d : ℝ, c * ∫ z in (0:ℝ)..1, f z * d * (m.getD k 0 * cos (m.getD k 0 * z)) =
      ∫ z in (0:ℝ)..1, W.cond z * (m.getD k 0 * cos (m.getD k 0 * z)) * d := by
    intro d
    rw [← intervalIntegral.integral_const_mul]
    congr 1
    funext z
    rw [hc]; ring
  have c1 : cTop (wellG G W) (m.getD k 0) = (∫ z in (0:ℝ)..1, W.cond z * (m.getD k 0 * cos (m.getD k 0 * z)) * (G.drn - 1))
      - W.condEnd * sin (m.getD k 0 * 1) * (G.drn - 1) := by simp [cTop, wellG, soilG]
  have c2 : cBot (wellG G W) (m.getD k 0) = (∫ z in (0:ℝ)..1, W.cond z * (m.getD k 0 * cos (m.getD k 0 * z)) * 1)
      - W.condEnd * sin (m.getD k 0 * 1) * 1 := by simp [cBot, wellG, soilG]
  unfold Lt
  dsimp only
  rw [c1, c2, ← i1 (G.drn - 1), ← i1 1, hce, show m.getD k 0 * 1 = m.getD k 0 from mul_one _, hdr]
  ring

/-- `pors` and `porc` in terms of the coefficients. -/
theorem part_ok (h : VRCInput x S s tend G C) (hM : a.Made x) {t : ℝ} (h1 : s ≤ t) (h2 : t ≤ tend) {c : ℕ → ℝ} (hc : x.column a t = .ok c) :
    ∃ τ1 τ2 : ℝ, (NoStep x.base.top t → τ1 = G.top t) ∧ (NoStep x.base.bot t → τ2 = G.bot t) ∧
      ∀ k z, 0 ≤ z → z ≤ 1 → x.part a k z t = .ok ((∑ j ∈ Finset.range a.m.length,
        (dotV a.m.length (betBlk a.m.length a.bet k 0) c j - dotV a.m.length (betX a.m.length x.alp a.bet k)
          (fun l => Lt G (soilW G) (a.m.getD l 0) τ1 τ2 + Lt G (colW C) (a.m.getD l 0) τ1 τ2) j) * sin (a.m.getD j 0 * z))
        + (1 - (1 - G.drn) * z) * G.top t + z * G.bot t) := by
  obtain ⟨hl, hget, hd, hne, hsc⟩ := m_ok h.base hM.m
  obtain ⟨bot, tops, bots, e0, hb, ht1, ht2, hb1, hb2, hn⟩ := normBot_ok h.base
  obtain ⟨kv, c0, ekv, edT, hW⟩ := soil_cond h
  obtain ⟨τ1, τ2, n1, n2, hf⟩ := foft_gen h.base hM.m e0 h1 h2
  refine ⟨τ1, τ2, n1, n2, fun k z hz0 hz1 => ?_⟩
  have r1 := C74_value a.m (dotV a.m.length (betBlk a.m.length a.bet k 0) c) hb z t hz0 hz1 h1 h2
  have hdr : ((x.base.boundary bot).drn : ℝ) = (G.drn : ℝ) := by rw [h.base.drnG]; rfl
  rw [hdr, ht1, hb1] at r1
  unfold VRC.part
  simp only [hc, e0, Bind.bind, Except.bind, r1]
  by_cases hnone : x.base.top.isNone ∧ x.base.bot.isNone
  · rw [if_pos hnone]
    have g1 : x.base.top = none := by simpa using hnone.1
    have g2 : x.base.bot = none := by simpa using hnone.2
    have t1 : tops = [] := by
      have := hb.top
      simpa [VR.boundary, g1, Loads] using this
    have t2 : bots = [] := by
      have := hb.bot
      simpa [VR.boundary, hn g2, Loads] using this
    subst t1 t2
    have w1 : τ1 = 0 := by rw [n1 (by rw [g1]; intro l hl; cases hl), ← ht1]; simp [total]
    have w2 : τ2 = 0 := by rw [n2 (by rw [g2]; intro l hl; cases hl), ← hb1]; simp [total]
    subst w1 w2
    simp [Lt, dotV, pure, Except.pure]
  · rw [if_neg hnone]
    choose p p1 p2 using hf kv c0 (soilW G) hW (betX a.m.length x.alp a.bet k)
    choose q q1 q2 using hf x.kvc x.dTvc (colW C) h.col (betX a.m.length x.alp a.bet k)
    have u1 := mapM_range_ok (n := a.m.length) (X := p) (fun i _ => p1 i)
    have u2 := mapM_range_ok (n := a.m.length) (X := q) (fun i _ => q1 i)
    have hb0 : BoundaryLoads ⟨x.base.drn, none, none, none, none⟩ s tend [] [] := ⟨hb.drn, rfl, rfl⟩
    unfold VRC.added
    simp only [ekv, edT, u1, u2, Bind.bind, Except.bind, pure, Except.pure]
    rw [C74_value a.m _ hb0 z t hz0 hz1 h1 h2]
    simp only [total, List.map_nil, List.sum_nil, mul_zero, add_zero]
    congr 1
    have : ∑ j ∈ Finset.range a.m.length, (c0 * ((List.range a.m.length).map p).getD j 0 + x.dTvc * ((List.range a.m.length).map q).getD j 0) * sin (a.m.getD j 0 * z) =
        ∑ j ∈ Finset.range a.m.length, (-dotV a.m.length (betX a.m.length x.alp a.bet k)
          (fun l => Lt G (soilW G) (a.m.getD l 0) τ1 τ2 + Lt G (colW C) (a.m.getD l 0) τ1 τ2) j) * sin (a.m.getD j 0 * z) := by
      refine Finset.sum_congr rfl fun j hj => ?_
      have g : ∀ p : ℕ → ℝ, ((List.range a.m.length).map p).getD j 0 = p j := fun p => by
        have := Finset.mem_range.1 hj
        simp [List.getD_eq_getElem?_getD, this]
      rw [g, g, p2 j, q2 j, dot_add]
      ring
    rw [this]
    simp only [sub_mul, neg_mul, Finset.sum_sub_distrib, Finset.sum_neg_distrib]
    ring

/-- The reported average pore pressure is always the area average of the reported pressures in the soil and in the column. -/
theorem C92_average (h : VRCInput x S s tend G C) (hM : a.Made x) (h0 : ∀ i, i < a.m.length → a.eigs i ≠ 0) (z t : ℝ) (hz0 : 0 ≤ z) (hz1 : z ≤ 1)
    (h1 : s ≤ t) (h2 : t ≤ tend) : ∃ u us uc : ℝ, x.por a z t = .ok u ∧ x.pors a z t = .ok us ∧ x.porc a z t = .ok uc ∧
      u = (1 - 1 / x.n ^ 2) * us + 1 / x.n ^ 2 * uc := by
  obtain ⟨hl, hget, hd, hne, hsc⟩ := m_ok h.base hM.m
  obtain ⟨A, hcol, _⟩ := vrc_core h hM h0
  obtain ⟨c, e', ec⟩ := hcol t h1 h2
  obtain ⟨bot, tops, bots, e0, _⟩ := normBot_ok h.base
  obtain ⟨τ1, τ2, n1, n2, hp⟩ := part_ok h hM h1 h2 e'
  refine ⟨series G x.base.neig (fun j => a.m.getD j 0) A z t, _, _, ?_, hp 0 z hz0 hz1, hp 1 z hz0 hz1, ?_⟩
  · unfold VRC.por
    simp only [e', e0, Bind.bind, Except.bind]
    exact dim1sinF_series h.base hM.m e0 h1 h2 (fun j _ => ec j) z hz0 hz1
  have e : 1 / x.n ^ 2 = x.alp := rfl
  rw [e]
  have k0 : ∀ q, q < 3 → ∀ (f : ℕ → ℝ) i, i < a.m.length → (1 - x.alp) * dotV a.m.length (betBlk a.m.length a.bet 0 q) f i + x.alp * dotV a.m.length (betBlk a.m.length a.bet 1 q) f i =
      if 0 = q then f i else 0 := by
    intro q hq f i hi
    have b0 : a.P.block x.alp 0 0 = fun i j => if i = j then 1 - x.alp else 0 := rfl
    have b1 : a.P.block x.alp 0 1 = fun i j => if i = j then x.alp else 0 := rfl
    have b2 : a.P.block x.alp 0 2 = fun i j => 0 := rfl
    have key : ∀ j, j < a.m.length → (1 - x.alp) * betBlk a.m.length a.bet 0 q i j + x.alp * betBlk a.m.length a.bet 1 q i j = if 0 = q ∧ i = j then 1 else 0 := by
      intro j hj
      rw [← inv3 hM.inv (p := 0) (by omega) hq hi hj, b0, b1, b2]
      simp [matMul, hi]
    unfold dotV
    rw [Finset.mul_sum, Finset.mul_sum, ← Finset.sum_add_distrib]
    rw [Finset.sum_congr rfl (fun j hj => by rw [← mul_assoc, ← mul_assoc, ← add_mul, key j (Finset.mem_range.1 hj)])]
    by_cases e : 0 = q
    · simp [← e, hi]
    · simp [e]
  have bx : ∀ k (f : ℕ → ℝ) j, dotV a.m.length (betX a.m.length x.alp a.bet k) f j = dotV a.m.length (betBlk a.m.length a.bet k 1) f j + x.alp * dotV a.m.length (betBlk a.m.length a.bet k 2) f j :=
    fun k f j => dot_addM _ _ _ _ f j
  set L : ℕ → ℝ := fun l => Lt G (soilW G) (a.m.getD l 0) τ1 τ2 + Lt G (colW C) (a.m.getD l 0) τ1 τ2 with hL
  have : ∑ j ∈ Finset.range a.m.length, A j t * sin (a.m.getD j 0 * z) = (1 - x.alp) * (∑ j ∈ Finset.range a.m.length,
      (dotV a.m.length (betBlk a.m.length a.bet 0 0) c j - dotV a.m.length (betX a.m.length x.alp a.bet 0) L j) * sin (a.m.getD j 0 * z))
      + x.alp * ∑ j ∈ Finset.range a.m.length,
      (dotV a.m.length (betBlk a.m.length a.bet 1 0) c j - dotV a.m.length (betX a.m.length x.alp a.bet 1) L j) * sin (a.m.getD j 0 * z) := by
    rw [Finset.mul_sum, Finset.mul_sum, ← Finset.sum_add_distrib]
    refine Finset.sum_congr rfl fun j hj => ?_
    have hj := Finset.mem_range.1 hj
    have r0 := k0 0 (by omega) c j hj
    have r1 := k0 1 (by omega) L j hj
    have r2 := k0 2 (by omega) L j hj
    simp only [if_true, show (0:ℕ) ≠ 1 by omega, show (0:ℕ) ≠ 2 by omega, if_false] at r0 r1 r2
    rw [bx, bx, ← ec j, ← r0]
    linear_combination (sin (a.m.getD j 0 * z)) * r1 + x.alp * sin (a.m.getD j 0 * z) * r2
  unfold series bTop
  rw [← hl, this]
  ring

/-- The reported averages of the pressures in the soil and in the column over a depth interval are the means of the reported pressures. -/
theorem C92_means (h : VRCInput x S s tend G C) (hM : a.Made x) (h0 : ∀ i, i < a.m.length → a.eigs i ≠ 0) (k : ℕ) (z1 z2 t : ℝ) (hz0 : 0 ≤ z1)
    (hz : z1 < z2) (hz1 : z2 ≤ 1) (h1 : s ≤ t) (h2 : t ≤ tend) : ∃ (u : ℝ → ℝ) (b : ℝ), (∀ z, 0 ≤ z → z ≤ 1 → x.part a k z t = .ok (u z)) ∧
      x.avpart a k z1 z2 t = .ok b ∧ b * (z2 - z1) = ∫ z in z1..z2, u z := by
  obtain ⟨hl, hget, hd, hne, hsc⟩ := m_ok h.base hM.m
  obtain ⟨A, hcol, _⟩ := vrc_core h hM h0
  obtain ⟨c, e', ec⟩ := hcol t h1 h2
  obtain ⟨bot, tops, bots, e0, hb, _⟩ := normBot_ok h.base
  obtain ⟨kv, c0, ekv, edT, hW⟩ := soil_cond h
  obtain ⟨τ1, τ2, n1, n2, hf⟩ := foft_gen h.base hM.m e0 h1 h2
  obtain ⟨u1, b1, f1, f2, f3⟩ := C75_average a.m hne (dotV a.m.length (betBlk a.m.length a.bet k 0) c) hb z1 z2 t hz0 hz hz1 h1 h2
  by_cases hnone : x.base.top.isNone ∧ x.base.bot.isNone
  · refine ⟨u1, b1, fun z g0 g1 => ?_, ?_, f3⟩
    · unfold VRC.part
      simp only [e', e0, Bind.bind, Except.bind, f1 z g0 g1]
      rw [if_pos hnone]; rfl
    · unfold VRC.avpart
      simp only [e', e0, Bind.bind, Except.bind, f2]
      rw [if_pos hnone]; rfl
  · choose p p1 p2 using hf kv c0 (soilW G) hW (betX a.m.length x.alp a.bet k)
    choose q q1 q2 using hf x.kvc x.dTvc (colW C) h.col (betX a.m.length x.alp a.bet k)
    have r1 := mapM_range_ok (n := a.m.length) (X := p) (fun i _ => p1 i)
    have r2 := mapM_range_ok (n := a.m.length) (X := q) (fun i _ => q1 i)
    have hb0 : BoundaryLoads ⟨x.base.drn, none, none, none, none⟩ s tend [] [] := ⟨hb.drn, rfl, rfl⟩
    have hadd : x.added a k bot t = .ok (fun i => c0 * ((List.range a.m.length).map p).getD i 0 + x.dTvc * ((List.range a.m.length).map q).getD i 0) := by
      unfold VRC.added
      simp only [ekv, edT, r1, r2, Bind.bind, Except.bind, pure, Except.pure]
    obtain ⟨u2, b2, g1, g2, g3⟩ := C75_average a.m hne (fun i => c0 * ((List.range a.m.length).map p).getD i 0 + x.dTvc * ((List.range a.m.length).map q).getD i 0) hb0 z1 z2 t hz0 hz hz1 h1 h2
    have v1 := fun z (k0 : 0 ≤ z) (k1 : z ≤ 1) => C74_value a.m (dotV a.m.length (betBlk a.m.length a.bet k 0) c) hb z t k0 k1 h1 h2
    have v2 := fun z (k0 : 0 ≤ z) (k1 : z ≤ 1) => C74_value a.m (fun i => c0 * ((List.range a.m.length).map p).getD i 0 + x.dTvc * ((List.range a.m.length).map q).getD i 0) hb0 z t k0 k1 h1 h2
    have sub : ∀ z ∈ Set.uIcc z1 z2, 0 ≤ z ∧ z ≤ 1 := fun z hzz => by
      rw [Set.uIcc_of_le hz.le] at hzz
      exact ⟨hz0.trans hzz.1, hzz.2.trans hz1⟩
    have i1 : IntervalIntegrable u1 volume z1 z2 := by
      have hc : Continuous fun z => (∑ j ∈ Finset.range a.m.length, dotV a.m.length (betBlk a.m.length a.bet k 0) c j * sin (a.m.getD j 0 * z))
        + (1 - (1 - (x.base.boundary bot).drn) * z) * total tops t + z * total bots t := by fun_prop
      refine (hc.intervalIntegrable z1 z2).congr ?_
      refine fun z hzz => ?_
      obtain ⟨k0, k1⟩ := sub z (Set.uIoc_subset_uIcc hzz)
      have := f1 z k0 k1
      rw [v1 z k0 k1] at this
      injection this with this
    have i2 : IntervalIntegrable u2 volume z1 z2 := by
      have hc : Continuous fun z => (∑ j ∈ Finset.range a.m.length, (c0 * ((List.range a.m.length).map p).getD j 0 + x.dTvc * ((List.range a.m.length).map q).getD j 0) * sin (a.m.getD j 0 * z))
        + (1 - (1 - x.base.drn) * z) * total [] t + z * total [] t := by fun_prop
      refine (hc.intervalIntegrable z1 z2).congr ?_
      refine fun z hzz => ?_
      obtain ⟨k0, k1⟩ := sub z (Set.uIoc_subset_uIcc hzz)
      have := g1 z k0 k1
      rw [v2 z k0 k1] at this
      injection this with this
    refine ⟨fun z => u1 z + u2 z, b1 + b2, fun z k0 k1 => ?_, ?_, ?_⟩
    · unfold VRC.part
      simp only [e', e0, Bind.bind, Except.bind, f1 z k0 k1]
      rw [if_neg hnone]
      simp only [hadd, g1 z k0 k1]
      rfl
    · unfold VRC.avpart
      simp only [e', e0, Bind.bind, Except.bind, f2]
      rw [if_neg hnone]
      simp only [hadd, g2]
      rfl
    · rw [intervalIntegral.integral_add i1 i2, ← f3, ← g3]
      ring

/-- The reported pressures in the soil and in the column satisfy the equations, at times without a step of the boundary values, if `dT = 1` or there
are no boundary loads, and if the permeability of the column does not vary with depth or there are no boundary loads. -/
theorem C92_parts_partial (h : VRCInput x S s tend G C) (hM : a.Made x) (h0 : ∀ i, i < a.m.length → a.eigs i ≠ 0)
    (hF : (x.base.top = none ∧ x.base.bot = none) ∨ (x.base.dT = 1 ∧ ∀ z, 0 < z → z < 1 → C.cond z = C.condEnd)) :
    ∃ (A : ℕ → ℝ → ℝ) (u us usz uc ucz beta : ℝ → ℝ → ℝ),
      (∀ z t, 0 ≤ z → z ≤ 1 → s ≤ t → t ≤ tend → x.por a z t = .ok (u z t)) ∧
      (∀ z t, 0 ≤ z → z ≤ 1 → s ≤ t → t ≤ tend → NoStep x.base.top t → NoStep x.base.bot t → x.pors a z t = .ok (us z t) ∧ x.porc a z t = .ok (uc z t)) ∧
      (∀ z t, HasDerivAt (fun z => us z t) (usz z t) z ∧ HasDerivAt (fun z => uc z t) (ucz z t) z) ∧
      (∀ t, us 0 t = G.top t ∧ (G.drn = 0 → us 1 t = G.bot t) ∧ (G.drn = 1 → usz 1 t = G.bot t)) ∧
      (∀ t, uc 0 t = G.top t ∧ (G.drn = 0 → uc 1 t = G.bot t) ∧ (G.drn = 1 → ucz 1 t = G.bot t)) ∧
      (∀ i, i < x.base.neig → ∀ t f, f = π * ((i:ℝ) + 1 - G.drn / 2) →
        Column.soilOut G us usz beta (fun z => sin (f * z)) (fun z => f * cos (f * z)) t =
          C.columnOut uc ucz beta (fun z => sin (f * z)) (fun z => f * cos (f * z)) t ∧
        Column.soilOut G us usz beta (fun z => sin (f * z)) (fun z => f * cos (f * z)) t =
          C.sectionOut (1 / x.n ^ 2) G usz ucz (fun z => sin (f * z)) (fun z => f * cos (f * z)) t) ∧
      ∀ i, i < x.base.neig → ∀ t, s ≤ t → t ≤ tend → ∀ f, f = π * ((i:ℝ) + 1 - G.drn / 2) →
        |C.residual (1 / x.n ^ 2) G s u usz ucz (fun z => sin (f * z)) (fun z => f * cos (f * z)) t| ≤
        1 / 100000000 * ((∑ j ∈ Finset.range x.base.neig, |A j t|) + |x.base.dT| * ∑ j ∈ Finset.range x.base.neig, |∫ r in s..t, A j r|) := by
  obtain ⟨hl, hget, hd, hne, hsc⟩ := m_ok h.base hM.m
  obtain ⟨A, hcol, hres⟩ := vrc_core h hM h0
  have hF' : x.NoBoundaryFlow C := hF.imp id (fun h => h.2)
  have hmem : ∀ l, l < a.m.length → a.m.getD l 0 ≠ 0 := fun l hl' => hne _ (by
      rw [List.getD_eq_getElem?_getD, List.getElem?_eq_getElem hl']; exact List.getElem_mem hl')
  refine ⟨A, series G x.base.neig (fun j => a.m.getD j 0) A,
    series G x.base.neig (fun j => a.m.getD j 0) (vrcCoef x a G C A 0), seriesZ G x.base.neig (fun j => a.m.getD j 0) (vrcCoef x a G C A 0),
    series G x.base.neig (fun j => a.m.getD j 0) (vrcCoef x a G C A 1), seriesZ G x.base.neig (fun j => a.m.getD j 0) (vrcCoef x a G C A 1),
    series G x.base.neig (fun j => a.m.getD j 0) (vrcCoef x a G C A 2), ?_, ?_, fun z t => ⟨series_deriv _ _ _ _ _ _, series_deriv _ _ _ _ _ _⟩,
    series_bc h.base hM.m _, series_bc h.base hM.m _, ?_, ?_⟩
  · intro z t hz0 hz1 h1 h2
    obtain ⟨c, e', ec⟩ := hcol t h1 h2
    obtain ⟨bot, tops, bots, e0, _⟩ := normBot_ok h.base
    unfold VRC.por
    simp only [e', e0, Bind.bind, Except.bind]
    exact dim1sinF_series h.base hM.m e0 h1 h2 (fun j _ => ec j) z hz0 hz1
  · intro z t hz0 hz1 h1 h2 m1 m2
    obtain ⟨c, e', ec⟩ := hcol t h1 h2
    obtain ⟨τ1, τ2, n1, n2, hp⟩ := part_ok h hM h1 h2 e'
    have key : ∀ k, x.part a k z t = .ok (series G x.base.neig (fun j => a.m.getD j 0) (vrcCoef x a G C A k) z t) := by
      intro k
      rw [hp k z hz0 hz1, n1 m1, n2 m2]
      unfold series bTop
      congr 3
      rw [hl]
      refine Finset.sum_congr rfl fun j hj => ?_
      congr 1
      unfold vrcCoef
      rw [sub_eq_add_neg, hl]
      congr 1
      · unfold dotV; exact Finset.sum_congr rfl fun l _ => by rw [ec]
      · unfold dotV
        rw [← Finset.sum_neg_distrib]
        refine Finset.sum_congr rfl fun l hl' => ?_
        have hl'' : l < a.m.length := by rw [hl]; exact Finset.mem_range.1 hl'
        have z1 := (Qt_zero h hF' _ t (hmem l hl'')).1
        have q1 : Lt G (soilW G) (a.m.getD l 0) (G.top t) (G.bot t) = Qt G (soilW G) (a.m.getD l 0) t := rfl
        have q2 : Lt G (colW C) (a.m.getD l 0) (G.top t) (G.bot t) = Qt G (colW C) (a.m.getD l 0) t := rfl
        dsimp only
        rw [q1, q2]
        unfold rVec
        rw [z1]
        rcases hF with hF | ⟨hF, _⟩
        · have : Qt G (soilW G) (a.m.getD l 0) t = 0 := by
            obtain ⟨bot, tops, bots, e0, hb, ht1, ht2, hb1, hb2, hn⟩ := normBot_ok h.base
            have t1 : tops = [] := by
              have := hb.top
              simpa [VR.boundary, hF.1, Loads] using this
            have t2 : bots = [] := by
              have := hb.bot
              simpa [VR.boundary, hn hF.2, Loads] using this
            subst t1 t2
            have g1 : ∀ t, G.top t = 0 := fun t => by rw [← ht1]; simp [total]
            have g2 : ∀ t, G.bot t = 0 := fun t => by rw [← hb1]; simp [total]
            simp [Qt, g1, g2]
          rw [this]; ring
        · rw [hF]; ring
    exact ⟨key 0, key 1⟩
  · rintro i hi t f rfl
    rw [← hget i hi]
    exact vrc_balances h hM A (by omega) t rfl rfl rfl rfl rfl rfl
  · rintro i hi t h1 h2 f rfl
    have e : vrcError x a G C s i t = 0 := by
      have hz : ∀ l, l < a.m.length → wellQ G (colW C) s (a.m.getD l 0) t = 0 := fun l hl' => (Qt_zero h hF' _ t (hmem l hl')).2
      unfold vrcError dotV
      rw [Finset.sum_eq_zero (fun l hl' => by dsimp only; rw [hz l (Finset.mem_range.1 hl'), mul_zero]), hz i (by omega)]
      ring
    rw [← hget i hi]
    have := hres i (by omega) t h1 h2
    rw [e, sub_zero] at this
    exact this

end Geotecha.Speccon
