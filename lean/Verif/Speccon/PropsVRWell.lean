import Verif.Speccon.VRWEigen

/-!
# Property C81: the drain pressure reported by speccon1d_vrw
-/

set_option linter.unusedVariables false
open Real intervalIntegral MeasureTheory Filter Topology
namespace Geotecha.Speccon
open Geotecha.Spec Geotecha.Piecewise

variable {x : VRW} {S : Set ℝ} {s tend : ℝ} {G : Ground} {W : Well} {a : VRWArrays}

/-- No load of the list has a step at time `t`. -/
def NoStep (vs : Option (List (PolyLine ℝ))) (t : ℝ) : Prop :=
  ∀ l, vs = some l → ∀ p ∈ l, ∀ T P, p.getX.1 = .ok T → p.getY.1 = .ok P → polyLeft (T.zip P) t = polyRight (T.zip P) t

theorem pinterpLeft_eq {p : PolyLine ℝ} {om : Om} {h : ℝ → ℝ} {h0 t : ℝ} (H : LoadHistory p om s tend h h0)
    (hn : ∀ T P, p.getX.1 = .ok T → p.getY.1 = .ok P → polyLeft (T.zip P) t = polyRight (T.zip P) t) : pinterpLeft p t = pinterp p t := by
  obtain ⟨T, P, hx, hy, hl, hs, hr, n, hn', hspan, _⟩ := H.ex
  have e := hn T P hx hy
  unfold pinterpLeft pinterp
  have hne : nth T 0 < nth T (T.length - 1) := by
    have e1 : T.length - 1 = n + 1 := by omega
    rw [e1, nth_eq_getElem (by omega), nth_eq_getElem (by omega)]
    exact hspan
  simp only [hx, hy, Bind.bind, Except.bind]
  rw [interpXY_left hs hl.symm hne, interpXY_right hs hl.symm hne, e]

theorem foftLoop_ok {n : ℕ} {I : ℕ → ℕ → ℝ} {theta : Except PyErr (ℕ → ℝ)} {vs : Option (List (PolyLine ℝ))} {om : Option (List Om)}
    {hs : List ((ℝ → ℝ) × ℝ)} (hl : Loads vs om s tend hs) {t : ℝ} (h1 : s ≤ t) (h2 : t ≤ tend) (hn : NoStep vs t) {th : ℕ → ℝ}
    (hth : theta = .ok th) (i : ℕ) : foftLoop n I theta vs om i t = .ok (dotV n I th i * total hs t) := by
  cases vs with
  | none =>
    have : hs = [] := hl
    subst this
    simp [foftLoop, total]
  | some l =>
    have hn' := hn l rfl
    unfold foftLoop
    rw [hth]
    simp only [Loads] at hl
    dsimp only [Bind.bind, Except.bind]
    have hmem : ∀ q ∈ l.zip (omList l om), q.1 ∈ l := fun q hq => (List.of_mem_zip hq).1
    generalize l.zip (omList l om) = L at hl hmem ⊢
    induction hl with
    | nil => simp [sumM, total]
    | @cons q x l' hs' hq hr ih =>
      obtain ⟨v, e1, e2⟩ := hq.solve.1 t h1 h2
      rw [sumM, pinterpLeft_eq hq (hn' q.1 (hmem q (by simp))), e1, ih (fun q hq => hmem q (by simp [hq]))]
      simp only [Bind.bind, Except.bind, pure, Except.pure, total, List.map_cons, List.sum_cons, ← e2]
      congr 1; ring

theorem scaled_noStep {f : ℝ → ℝ} {c : ℝ} (hf : ∀ v, f v = v * c) {p q : PolyLine ℝ} (e : scaled f p = .ok q) {t : ℝ}
    (hp : ∀ T P, p.getX.1 = .ok T → p.getY.1 = .ok P → polyLeft (T.zip P) t = polyRight (T.zip P) t) :
    ∀ T P, q.getX.1 = .ok T → q.getY.1 = .ok P → polyLeft (T.zip P) t = polyRight (T.zip P) t := by
  intro T P hx hy
  unfold scaled at e
  rw [mapY_fst] at e
  have k0 := getX_fst p
  have k1 := getY_fst p
  rcases hq : p.getXY.1 with er | l <;> rw [hq] at e k0 k1
  · simp at e
  · simp only [Except.map] at k0 k1
    have hfe : f = fun v => v * c := funext hf
    unfold PolyLine.ofX_Y at e
    dsimp only at e
    split_ifs at e with hc
    · simp [Out.ofLine] at e
    simp only [Out.ofLine, Except.ok.injEq] at e
    subst e
    simp only [PolyLine.getX, PolyLine.getXY, Except.ok.injEq] at hx
    simp only [PolyLine.getY, PolyLine.getXY, Except.ok.injEq] at hy
    rw [List.map_fst_zip (by simp)] at hx
    rw [List.map_snd_zip (by simp)] at hy
    subst hx hy
    rw [hfe, zip_map_scale, polyLeft_scale, polyRight_scale, hp _ _ k0 k1]

theorem mapM_mem {α β : Type} {f : α → Except PyErr β} : ∀ {l : List α} {l' : List β}, l.mapM f = .ok l' → ∀ y ∈ l', ∃ x ∈ l, f x = .ok y
  | [], l', e, y, hy => by
    simp only [List.mapM_nil, pure, Except.pure, Except.ok.injEq] at e
    subst e; simp at hy
  | a :: l, l', e, y, hy => by
    rw [List.mapM_cons] at e
    rcases h1 : f a with _ | b
    · rw [h1] at e; cases e
    rcases h2 : l.mapM f with _ | bs
    · rw [h1, h2] at e; cases e
    rw [h1, h2] at e
    simp only [Bind.bind, Except.bind, pure, Except.pure, Except.ok.injEq] at e
    subst e
    rcases List.mem_cons.1 hy with rfl | hy
    · exact ⟨a, by simp, h1⟩
    · obtain ⟨x, hx, e⟩ := mapM_mem h2 y hy
      exact ⟨x, by simp [hx], e⟩

theorem normBot_noStep {x : VR} {bot : Option (List (PolyLine ℝ))} (e : x.normBot = .ok bot) {t : ℝ} (h : NoStep x.bot t) : NoStep bot t := by
  intro l' hl' q hq
  unfold VR.normBot at e
  rcases hb : x.bot with _ | l
  · rw [hb] at e; cases e; cases hl'
  rw [hb] at e
  dsimp only at e
  by_cases hd : x.drn = 1
  · rw [if_pos hd] at e
    rcases h2 : l.mapM (scaled (fun v => v * x.H)) with _ | bs
    · rw [h2] at e; cases e
    rw [h2] at e
    simp only [Bind.bind, Except.bind, pure, Except.pure, Except.ok.injEq] at e
    subst e
    cases hl'
    obtain ⟨p, hp, e⟩ := mapM_mem h2 q hq
    exact scaled_noStep (fun v => rfl) e (h l hb p hp)
  · rw [if_neg hd] at e
    simp only [pure, Except.pure, Except.ok.injEq] at e
    rw [← e] at hl'
    injection hl' with hl'
    exact h l hb q (by rw [hl']; exact hq)

/-- The boundary terms of the drain, as the program computes them for the output. -/
theorem foftIpsiw_ok (h : VRWInput x S s tend G W) (hM : a.Made x) {bot : Option (List (PolyLine ℝ))} (hbot : x.base.normBot = .ok bot)
    {t : ℝ} (h1 : s ≤ t) (h2 : t ≤ tend) (n1 : NoStep x.base.top t) (n2 : NoStep x.base.bot t) (i : ℕ) :
    ∃ v, foftIpsiw a.m a.IpsiW x.kw (x.base.boundary bot) i t = .ok v ∧ x.dTw * v =
      -∑ k ∈ Finset.range a.m.length, a.IpsiW i k * (cTop (wellG G W) (a.m.getD k 0) * G.top t + cBot (wellG G W) (a.m.getD k 0) * G.bot t) := by
  obtain ⟨hl, hget, hd, hne, hsc⟩ := m_ok h.base hM.m
  obtain ⟨bot', tops, bots, e0, hb, ht1, ht2, hb1, hb2, hn⟩ := normBot_ok h.base
  rw [hbot] at e0
  injection e0 with e0
  subst e0
  obtain ⟨f, kend, hf, hk, hc, hce⟩ := h.well
  obtain ⟨q, hq, hqp⟩ := zdistTop_ok hf x.base.drn h.base.drn
  obtain ⟨r, hr, hrp⟩ := zdistBot_ok hf
  obtain ⟨t1, e1, k1⟩ := pDaDb_ok h.base.sep hf hqp hne hk
  obtain ⟨t2, e2, k2⟩ := pDaDb_ok (e := 0) (d := 1) h.base.sep hf (hrp.congr (fun z _ _ => by ring)) hne hk
  have f1 := foftLoop_ok (n := a.m.length) (I := a.IpsiW) hb.top h1 h2 n1 e1 i
  have f2 := foftLoop_ok (n := a.m.length) (I := a.IpsiW) (theta := do pDaDb a.m x.kw (← zdistBot x.kw)) hb.bot h1 h2 (normBot_noStep hbot n2) (by rw [hr]; exact e2) i
  refine ⟨_, by
    unfold foftIpsiw
    have hq' : zdistTop (x.base.boundary bot).drn x.kw = .ok q := hq
    simp only [hq', Bind.bind, Except.bind]
    simp only [Bind.bind, Except.bind] at f2
    rw [f1, f2]
    rfl, ?_⟩
  have hdr : (G.drn : ℝ) = x.base.drn := by rw [h.base.drnG]
  rw [ht1, hb1]
  unfold dotV
  rw [Finset.sum_mul, Finset.sum_mul, ← Finset.sum_add_distrib, Finset.mul_sum, ← Finset.sum_neg_distrib]
  refine Finset.sum_congr rfl (fun k hkk => ?_)
  rw [k1 k (Finset.mem_range.1 hkk), k2 k (Finset.mem_range.1 hkk)]
  have i1 : ∀ d : ℝ, x.dTw * ∫ z in (0:ℝ)..1, f z * d * (a.m.getD k 0 * cos (a.m.getD k 0 * z)) =
      ∫ z in (0:ℝ)..1, W.cond z * (a.m.getD k 0 * cos (a.m.getD k 0 * z)) * d := by
    intro d
    rw [← intervalIntegral.integral_const_mul]
    congr 1
    funext z
    rw [hc]; ring
  have c1 : cTop (wellG G W) (a.m.getD k 0) = (∫ z in (0:ℝ)..1, W.cond z * (a.m.getD k 0 * cos (a.m.getD k 0 * z)) * (G.drn - 1))
      - W.condEnd * sin (a.m.getD k 0 * 1) * (G.drn - 1) := by simp [cTop, wellG, soilG]
  have c2 : cBot (wellG G W) (a.m.getD k 0) = (∫ z in (0:ℝ)..1, W.cond z * (a.m.getD k 0 * cos (a.m.getD k 0 * z)) * 1)
      - W.condEnd * sin (a.m.getD k 0 * 1) * 1 := by simp [cBot, wellG, soilG]
  rw [c1, c2, ← i1 (G.drn - 1), ← i1 1, hce, show a.m.getD k 0 * 1 = a.m.getD k 0 from mul_one _, hdr]
  ring

/-- What is known of `por` and `porwell` in terms of one family of coefficients. -/
theorem porwell_core (h : VRWInput x S s tend G W) (hM : a.Made x) (h0 : ∀ i, i < a.m.length → a.eigs i ≠ 0) {g : ℝ → ℝ}
    (hg : ∃ bots, Loads x.base.bot x.base.botOm s tend bots ∧ ∀ t, g t = total bots t) :
    ∃ A : ℕ → ℝ → ℝ, (∀ t, s ≤ t → t ≤ tend → ∃ c, x.column a t = .ok c ∧ ∀ j, c j = A j t) ∧
      (∀ z t, 0 ≤ z → z ≤ 1 → s ≤ t → t ≤ tend → x.por a z t = .ok (series G x.base.neig (fun j => a.m.getD j 0) A z t)) ∧
      ∀ z t, 0 ≤ z → z ≤ 1 → s ≤ t → t ≤ tend → NoStep x.base.top t → NoStep x.base.bot t →
        x.porwell a z t = .ok (series G x.base.neig (fun j => a.m.getD j 0) (wellCoef x a G W A) z t + z * (g t - G.bot t)
          - (1 - 1 / x.base.dT) * ∑ j ∈ Finset.range a.m.length, sin (a.m.getD j 0 * z) * ∑ k ∈ Finset.range a.m.length, a.IpsiW j k *
              (cTop (wellG G W) (a.m.getD k 0) * G.top t + cBot (wellG G W) (a.m.getD k 0) * G.bot t)) := by
  obtain ⟨hl, hget, hd, hne, hsc⟩ := m_ok h.base hM.m
  obtain ⟨gam, psi, f1, f2, hE⟩ := hM.eig
  have hB : ∀ i, i < (x.base.basis a.m a.eigs a.Igamv).m.length → (x.base.basis a.m a.eigs a.Igamv).dT * (x.base.basis a.m a.eigs a.Igamv).eigs i ≠ 0 :=
    fun i hi => mul_ne_zero h.base.dT (h0 i hi)
  obtain ⟨A, hA, hc, hsol⟩ := coeffs_of (E_eq (B := x.base.basis a.m a.eigs a.Igamv) h hB hne a.psiS a.IpsiW) hE
  obtain ⟨bot, tops, bots, e0, hb, ht1, ht2, hb1, hb2, hn⟩ := normBot_ok h.base
  obtain ⟨raw, hraw, hg⟩ := hg
  refine ⟨A, hc, ?_, ?_⟩
  · intro z t hz0 hz1 h1 h2
    obtain ⟨c, e, ec⟩ := hc t h1 h2
    have e' : x.column a t = .ok c := e
    unfold VRW.por
    simp only [e', e0, Bind.bind, Except.bind]
    exact dim1sinF_series h.base hM.m e0 h1 h2 (fun j _ => ec j) z hz0 hz1
  · intro z t hz0 hz1 h1 h2 n1 n2
    obtain ⟨c, e, ec⟩ := hc t h1 h2
    have e' : x.column a t = .ok c := e
    choose v hv1 hv2 using fun i => foftIpsiw_ok h hM e0 h1 h2 n1 n2 i
    have hbr : BoundaryLoads (x.base.boundary x.base.bot) s tend tops raw := ⟨hb.drn, hb.top, hraw⟩
    have hb0 : BoundaryLoads ⟨x.base.drn, none, none, none, none⟩ s tend [] [] := ⟨hb.drn, rfl, rfl⟩
    have r1 := C74_value a.m (dotV a.m.length (matMul a.m.length a.IpsiW a.psiS) c) hbr z t hz0 hz1 h1 h2
    have r2 := mapM_range_ok (n := a.m.length) (X := v) (fun i _ => hv1 i)
    have r3 := C74_value a.m (fun i => ((List.range a.m.length).map v).getD i 0) hb0 z t hz0 hz1 h1 h2
    unfold VRW.porwell
    simp only [e', e0, Bind.bind, Except.bind, r1, r2, r3, pure, Except.pure]
    congr 1
    have hdr : ((x.base.boundary x.base.bot).drn : ℝ) = (G.drn : ℝ) := by rw [h.base.drnG]; rfl
    rw [hdr, ht1, ← hg]
    simp only [total, List.map_nil, List.sum_nil, mul_zero, add_zero]
    unfold series bTop
    rw [← hl]
    have s1 : ∑ j ∈ Finset.range a.m.length, dotV a.m.length (matMul a.m.length a.IpsiW a.psiS) c j * sin (a.m.getD j 0 * z) =
        ∑ j ∈ Finset.range a.m.length, (∑ k ∈ Finset.range a.m.length, a.IpsiW j k * ∑ l ∈ Finset.range a.m.length, a.psiS k l * A l t) * sin (a.m.getD j 0 * z) := by
      refine Finset.sum_congr rfl (fun j _ => ?_)
      rw [dot_matMul]
      unfold dotV
      simp only [ec]
    have s2 : x.dTw * ∑ j ∈ Finset.range a.m.length, ((List.range a.m.length).map v).getD j 0 * sin (a.m.getD j 0 * z) =
        -∑ j ∈ Finset.range a.m.length, sin (a.m.getD j 0 * z) * ∑ k ∈ Finset.range a.m.length, a.IpsiW j k *
              (cTop (wellG G W) (a.m.getD k 0) * G.top t + cBot (wellG G W) (a.m.getD k 0) * G.bot t) := by
      rw [Finset.mul_sum, ← Finset.sum_neg_distrib]
      refine Finset.sum_congr rfl (fun j hj => ?_)
      have : ((List.range a.m.length).map v).getD j 0 = v j := by
        have := Finset.mem_range.1 hj
        simp [List.getD_eq_getElem?_getD, this]
      rw [this, ← mul_assoc, hv2 j]
      ring
    have s3 : ∑ j ∈ Finset.range a.m.length, wellCoef x a G W A j t * sin (a.m.getD j 0 * z) =
        (∑ j ∈ Finset.range a.m.length, (∑ k ∈ Finset.range a.m.length, a.IpsiW j k * ∑ l ∈ Finset.range a.m.length, a.psiS k l * A l t) * sin (a.m.getD j 0 * z))
        - 1 / x.base.dT * ∑ j ∈ Finset.range a.m.length, sin (a.m.getD j 0 * z) * ∑ k ∈ Finset.range a.m.length, a.IpsiW j k *
              (cTop (wellG G W) (a.m.getD k 0) * G.top t + cBot (wellG G W) (a.m.getD k 0) * G.bot t) := by
      rw [Finset.mul_sum, ← Finset.sum_sub_distrib]
      refine Finset.sum_congr rfl (fun j _ => ?_)
      unfold wellCoef
      simp only [mul_sub, Finset.sum_sub_distrib]
      have : ∑ k ∈ Finset.range a.m.length, a.IpsiW j k * (1 / x.base.dT * (cTop (wellG G W) (a.m.getD k 0) * G.top t + cBot (wellG G W) (a.m.getD k 0) * G.bot t))
          = 1 / x.base.dT * ∑ k ∈ Finset.range a.m.length, a.IpsiW j k * (cTop (wellG G W) (a.m.getD k 0) * G.top t + cBot (wellG G W) (a.m.getD k 0) * G.bot t) := by
        rw [Finset.mul_sum]
        exact Finset.sum_congr rfl (fun k _ => by ring)
      rw [this]
      ring
    rw [s1, s2, s3]
    ring

/-- The coefficients of the reported drain pressure. -/
noncomputable def wellRep (x : VRW) (a : VRWArrays) (G : Ground) (W : Well) (A : ℕ → ℝ → ℝ) (j : ℕ) (t : ℝ) : ℝ :=
  wellCoef x a G W A j t - (1 - 1 / x.base.dT) * ∑ k ∈ Finset.range a.m.length, a.IpsiW j k *
    (cTop (wellG G W) (a.m.getD k 0) * G.top t + cBot (wellG G W) (a.m.getD k 0) * G.bot t)

theorem wellRep_series (h : VRWInput x S s tend G W) (hM : a.Made x) (A : ℕ → ℝ → ℝ) (z t : ℝ) :
    series G x.base.neig (fun j => a.m.getD j 0) (wellRep x a G W A) z t = series G x.base.neig (fun j => a.m.getD j 0) (wellCoef x a G W A) z t
      - (1 - 1 / x.base.dT) * ∑ j ∈ Finset.range a.m.length, sin (a.m.getD j 0 * z) * ∑ k ∈ Finset.range a.m.length, a.IpsiW j k *
              (cTop (wellG G W) (a.m.getD k 0) * G.top t + cBot (wellG G W) (a.m.getD k 0) * G.bot t) := by
  unfold series wellRep
  rw [← (m_ok h.base hM.m).1, Finset.mul_sum]
  have e : ∑ j ∈ Finset.range a.m.length, (wellCoef x a G W A j t - (1 - 1 / x.base.dT) * ∑ k ∈ Finset.range a.m.length, a.IpsiW j k *
              (cTop (wellG G W) (a.m.getD k 0) * G.top t + cBot (wellG G W) (a.m.getD k 0) * G.bot t)) * sin (a.m.getD j 0 * z) =
      (∑ j ∈ Finset.range a.m.length, wellCoef x a G W A j t * sin (a.m.getD j 0 * z)) -
      ∑ j ∈ Finset.range a.m.length, (1 - 1 / x.base.dT) * (sin (a.m.getD j 0 * z) * ∑ k ∈ Finset.range a.m.length, a.IpsiW j k *
              (cTop (wellG G W) (a.m.getD k 0) * G.top t + cBot (wellG G W) (a.m.getD k 0) * G.bot t)) := by
    rw [← Finset.sum_sub_distrib]
    exact Finset.sum_congr rfl (fun j _ => by ring)
  rw [e]
  ring

theorem rep_balance (h : VRWInput x S s tend G W) (hM : a.Made x) (A : ℕ → ℝ → ℝ) (i : ℕ) (hi : i < a.m.length) (t : ℝ) :
    W.balance G (series G x.base.neig (fun j => a.m.getD j 0) A) (series G x.base.neig (fun j => a.m.getD j 0) (wellRep x a G W A))
      (seriesZ G x.base.neig (fun j => a.m.getD j 0) (wellRep x a G W A)) (fun z => sin (a.m.getD i 0 * z))
      (fun z => a.m.getD i 0 * cos (a.m.getD i 0 * z)) t =
    (1 - x.base.dT) * (cTop (wellG G W) (a.m.getD i 0) * G.top t + cBot (wellG G W) (a.m.getD i 0) * G.bot t) := by
  obtain ⟨hl, hget, hd, hne, hsc⟩ := m_ok h.base hM.m
  have hdT := h.base.dT
  obtain ⟨ps, es, hs⟩ := psiS_ok h hd
  rw [hM.psiS] at es
  injection es with es
  subst es
  obtain ⟨pw, ew, hw⟩ := psiW_ok h hd hM.psiS
  obtain ⟨pw', ew', hinv⟩ := hM.inv
  rw [ew] at ew'
  injection ew' with ew'
  subst ew'
  have e0 := well_balance h hM A i hi t
  have c0 := balance_eq h x.base.neig (fun j => a.m.getD j 0) A (wellCoef x a G W A) i (fun j hj => hsc i j (by omega) hj) t
  have c1 := balance_eq h x.base.neig (fun j => a.m.getD j 0) A (wellRep x a G W A) i (fun j hj => hsc i j (by omega) hj) t
  rw [c0] at e0
  refine c1.trans ?_
  rw [← hl] at e0 ⊢
  set q : ℕ → ℝ := fun k => cTop (wellG G W) (a.m.getD k 0) * G.top t + cBot (wellG G W) (a.m.getD k 0) * G.bot t with hq
  have e2 : ∑ j ∈ Finset.range a.m.length, pw i j * (∑ k ∈ Finset.range a.m.length, a.IpsiW j k * q k) = q i := by
    have := dot_matMul a.m.length pw a.IpsiW q i
    unfold dotV at this
    rw [← this, Finset.sum_congr rfl (fun k hk => by rw [hinv i k hi (Finset.mem_range.1 hk)])]
    simp [hi]
  have e3 : ∑ j ∈ Finset.range a.m.length, (psiForm (wellG G W) (a.m.getD i 0) (a.m.getD j 0) + radial G (a.m.getD i 0) (a.m.getD j 0)) *
      (∑ k ∈ Finset.range a.m.length, a.IpsiW j k * q k) = x.base.dT * q i := by
    rw [← e2, Finset.mul_sum]
    refine Finset.sum_congr rfl (fun j hj => ?_)
    rw [← hs i j hi (Finset.mem_range.1 hj), ← hw i j hi (Finset.mem_range.1 hj)]
    ring
  have e4 : ∀ C : ℕ → ℝ → ℝ, ∑ j ∈ Finset.range a.m.length, radial G (a.m.getD i 0) (a.m.getD j 0) * (A j t - C j t) =
      (∑ j ∈ Finset.range a.m.length, radial G (a.m.getD i 0) (a.m.getD j 0) * A j t) - ∑ j ∈ Finset.range a.m.length, radial G (a.m.getD i 0) (a.m.getD j 0) * C j t := by
    intro C
    rw [← Finset.sum_sub_distrib]
    exact Finset.sum_congr rfl (fun j _ => by ring)
  have e5 : (∑ j ∈ Finset.range a.m.length, psiForm (wellG G W) (a.m.getD i 0) (a.m.getD j 0) * wellRep x a G W A j t)
      + (∑ j ∈ Finset.range a.m.length, radial G (a.m.getD i 0) (a.m.getD j 0) * wellRep x a G W A j t)
      = (∑ j ∈ Finset.range a.m.length, psiForm (wellG G W) (a.m.getD i 0) (a.m.getD j 0) * wellCoef x a G W A j t)
      + (∑ j ∈ Finset.range a.m.length, radial G (a.m.getD i 0) (a.m.getD j 0) * wellCoef x a G W A j t) - (1 - 1 / x.base.dT) * (x.base.dT * q i) := by
    rw [← e3, Finset.mul_sum, ← Finset.sum_add_distrib, ← Finset.sum_add_distrib, ← Finset.sum_sub_distrib]
    refine Finset.sum_congr rfl (fun j _ => ?_)
    have : wellRep x a G W A j t = wellCoef x a G W A j t - (1 - 1 / x.base.dT) * ∑ k ∈ Finset.range a.m.length, a.IpsiW j k * q k := rfl
    rw [this]
    ring
  rw [e4] at e0 ⊢
  have e6 : (1 - 1 / x.base.dT) * (x.base.dT * q i) = (x.base.dT - 1) * q i := by field_simp
  have e7 : cTop (wellG G W) (a.m.getD i 0) * G.top t + cBot (wellG G W) (a.m.getD i 0) * G.bot t = q i := rfl
  rw [e6] at e5
  linear_combination e5 + e0

theorem well_cTop (G : Ground) (W : Well) (w t : ℝ) : cTop (wellG G W) w * G.top t + cBot (wellG G W) w * G.bot t =
    ((∫ z in (0:ℝ)..1, W.cond z * (w * cos (w * z))) - W.condEnd * sin (w * 1)) * (G.bot t - (1 - G.drn) * G.top t) := by
  have e : ∫ z in (0:ℝ)..1, W.cond z * (w * cos (w * z)) * (G.drn - 1 : ℝ) = (∫ z in (0:ℝ)..1, W.cond z * (w * cos (w * z))) * (G.drn - 1 : ℝ) :=
    intervalIntegral.integral_mul_const _ _
  simp only [cTop, cBot, wellG, soilG, zero_mul, intervalIntegral.integral_zero, List.map_nil, List.sum_nil, add_zero, mul_one]
  rw [e]
  ring

/-- The drain pressure reported by the program, if no gradient is prescribed at the bottom (or `H = 1`), at times without a step of
the boundary pressures: it has the boundary values of the soil, and it violates the balance of the drain by `1 - dT` times
the boundary term. -/
theorem C81_balance (h : VRWInput x S s tend G W) (hM : a.Made x) (h0 : ∀ i, i < a.m.length → a.eigs i ≠ 0)
    (hH : x.base.drn = 0 ∨ x.base.H = 1 ∨ x.base.bot = none) :
    ∃ (u w wz : ℝ → ℝ → ℝ),
      (∀ z t, 0 ≤ z → z ≤ 1 → s ≤ t → t ≤ tend → x.por a z t = .ok (u z t)) ∧
      (∀ z t, 0 ≤ z → z ≤ 1 → s ≤ t → t ≤ tend → NoStep x.base.top t → NoStep x.base.bot t → x.porwell a z t = .ok (w z t)) ∧
      (∀ z t, HasDerivAt (fun z => w z t) (wz z t) z) ∧
      (∀ t, w 0 t = G.top t ∧ (G.drn = 0 → w 1 t = G.bot t) ∧ (G.drn = 1 → wz 1 t = G.bot t)) ∧
      ∀ i, i < x.base.neig → ∀ t, s ≤ t → t ≤ tend → ∀ f, f = π * ((i:ℝ) + 1 - G.drn / 2) →
        W.balance G u w wz (fun z => sin (f * z)) (fun z => f * cos (f * z)) t =
          (1 - x.base.dT) * (((∫ z in (0:ℝ)..1, W.cond z * (f * cos (f * z))) - W.condEnd * sin (f * 1)) * (G.bot t - (1 - G.drn) * G.top t)) := by
  obtain ⟨hl, hget, hd, hne, hsc⟩ := m_ok h.base hM.m
  obtain ⟨_, bots, hb, hb1, _⟩ := h.base.bot
  obtain ⟨A, _, h1, h2⟩ := porwell_core h hM h0 (g := total bots) ⟨bots, hb, fun t => rfl⟩
  refine ⟨_, series G x.base.neig (fun j => a.m.getD j 0) (wellRep x a G W A), seriesZ G x.base.neig (fun j => a.m.getD j 0) (wellRep x a G W A),
    h1, ?_, fun z t => series_deriv _ _ _ _ _ _, series_bc h.base hM.m _, ?_⟩
  · intro z t hz0 hz1 t0 t1 n1 n2
    rw [h2 z t hz0 hz1 t0 t1 n1 n2, wellRep_series h hM]
    have : total bots t = G.bot t := by
      rw [hb1]
      rcases hH with e | e | e
      · rw [e]; simp
      · rw [e]; simp
      · rw [e] at hb
        have hb' : bots = [] := hb
        simp [hb', total]
    rw [this]
    congr 1
    ring
  · rintro i hi t t0 t1 f rfl
    rw [← hget i hi, rep_balance h hM A i (by omega) t, well_cTop]

/-- If moreover `dT = 1` the reported drain pressure satisfies the balance of the drain.  (Not proved, because not true, for other
`dT`, for a bottom gradient, and at the times of steps: see `C81_balance`, `C81_bottom_gradient`; at a step the last term uses the value before the step, the others that after it.) -/
theorem C81_drain_partial (h : VRWInput x S s tend G W) (hM : a.Made x) (h0 : ∀ i, i < a.m.length → a.eigs i ≠ 0)
    (hH : x.base.drn = 0 ∨ x.base.H = 1 ∨ x.base.bot = none) (hdT : x.base.dT = 1) :
    ∃ (u w wz : ℝ → ℝ → ℝ),
      (∀ z t, 0 ≤ z → z ≤ 1 → s ≤ t → t ≤ tend → x.por a z t = .ok (u z t)) ∧
      (∀ z t, 0 ≤ z → z ≤ 1 → s ≤ t → t ≤ tend → NoStep x.base.top t → NoStep x.base.bot t → x.porwell a z t = .ok (w z t)) ∧
      (∀ z t, HasDerivAt (fun z => w z t) (wz z t) z) ∧
      (∀ t, w 0 t = G.top t ∧ (G.drn = 0 → w 1 t = G.bot t) ∧ (G.drn = 1 → wz 1 t = G.bot t)) ∧
      ∀ i, i < x.base.neig → ∀ t, s ≤ t → t ≤ tend → ∀ f, f = π * ((i:ℝ) + 1 - G.drn / 2) →
        W.balance G u w wz (fun z => sin (f * z)) (fun z => f * cos (f * z)) t = 0 := by
  obtain ⟨u, w, wz, r1, r2, r3, r4, r5⟩ := C81_balance h hM h0 hH
  refine ⟨u, w, wz, r1, r2, r3, r4, fun i hi t t0 t1 f hf => ?_⟩
  rw [r5 i hi t t0 t1 f hf, hdT, sub_self, zero_mul]

/-- Defect: with an impervious bottom the gradient of the reported drain pressure at the bottom is the user's value `g`, while that
of the pore pressure is `H g` (the depth coordinate is `z / H`). -/
theorem C81_bottom_gradient (h : VRWInput x S s tend G W) (hM : a.Made x) (h0 : ∀ i, i < a.m.length → a.eigs i ≠ 0) (hdrn : x.base.drn = 1)
    (g : ℝ → ℝ) (hg : ∃ bots, Loads x.base.bot x.base.botOm s tend bots ∧ ∀ t, g t = (bots.map (fun b => b.1 t)).sum) :
    ∃ (u uz w wz : ℝ → ℝ → ℝ),
      (∀ z t, 0 ≤ z → z ≤ 1 → s ≤ t → t ≤ tend → x.por a z t = .ok (u z t)) ∧
      (∀ z t, 0 ≤ z → z ≤ 1 → s ≤ t → t ≤ tend → NoStep x.base.top t → NoStep x.base.bot t → x.porwell a z t = .ok (w z t)) ∧
      (∀ z t, HasDerivAt (fun z => u z t) (uz z t) z ∧ HasDerivAt (fun z => w z t) (wz z t) z) ∧
      ∀ t, uz 1 t = G.bot t ∧ wz 1 t = g t := by
  obtain ⟨A, _, h1, h2⟩ := porwell_core h hM h0 (g := g) hg
  refine ⟨_, _, fun z t => series G x.base.neig (fun j => a.m.getD j 0) (wellRep x a G W A) z t + z * (g t - G.bot t),
    fun z t => seriesZ G x.base.neig (fun j => a.m.getD j 0) (wellRep x a G W A) z t + 1 * (g t - G.bot t),
    h1, ?_, fun z t => ⟨series_deriv _ _ _ _ _ _, (series_deriv _ _ _ _ _ _).add ((hasDerivAt_id z).mul_const _)⟩, fun t => ⟨?_, ?_⟩⟩
  · intro z t hz0 hz1 t0 t1 n1 n2
    rw [h2 z t hz0 hz1 t0 t1 n1 n2]
    dsimp only
    rw [wellRep_series h hM]
    congr 1
    ring
  · exact (series_bc h.base hM.m A t).2.2 (by rw [h.base.drnG, hdrn])
  · dsimp only
    rw [(series_bc h.base hM.m _ t).2.2 (by rw [h.base.drnG, hdrn])]
    ring

/-! ## The hypotheses are met -/

theorem Ex.load_noStep (t : ℝ) (ht : 0 < t) (ht5 : t ≤ 5) : NoStep (some [Ex.load]) t := by
  intro l hl p hp T P hx hy
  cases hl
  simp only [List.mem_singleton] at hp
  subst hp
  cases hx
  cases hy
  have a1 : ¬ (-t < -8) := by linarith
  have a2 : ¬ (t < 0) := by linarith
  simp only [polyRight, mirror, List.zip_cons_cons, List.zip_nil_right, List.map_cons, List.map_nil, List.reverse_cons, List.reverse_nil,
    List.nil_append, List.cons_append, polyLeft]
  rw [if_neg a1, if_neg a2, if_neg (by rintro ⟨_, h⟩; linarith), if_neg a2, if_pos (by constructor <;> linarith),
    if_pos (by constructor <;> linarith)]
  simp [line]

/-- Unit `dT`, pervious bottom. -/
noncomputable def Ex.wellInput2 : VRW := { Ex.wellInput with base := { Ex.wellInput.base with drn := 0, dT := 1 } }

noncomputable def Ex.wellGround2 : Ground := { Ex.wellGround with drn := 0, bot := fun _ => 100 }

theorem Ex.well_ok2 : VRWInput Ex.wellInput2 {0, 1/2, 1} 0 5 Ex.wellGround2 Ex.well where
  base := { Ex.well_ok.base with
    drn := Or.inl rfl
    drnG := rfl
    dT := one_ne_zero
    bot := ⟨fun l e => by cases e; rfl, [(fun t => 100 * mult none t, 0)], .cons (Ex.load_history _) .nil,
      fun t => by simp [Ex.wellGround2, Ex.wellInput2, total, mult], by simp [Ex.wellGround2, Ex.wellGround, Ex.ground, total0]⟩ }
  noVac := rfl
  radial := ⟨rfl, rfl, rfl⟩
  well := Ex.well_ok.well

/-- C81 on this input. -/
example : ∃ (a : VRWArrays) (w : ℝ → ℝ → ℝ), a.Made Ex.wellInput2 ∧
    (∀ z t, 0 ≤ z → z ≤ 1 → 0 < t → t ≤ 5 → Ex.wellInput2.porwell a z t = .ok (w z t)) ∧ ∀ t, w 0 t = 100 := by
  obtain ⟨⟨a, hM⟩, hpos⟩ := C83_eigensystem Ex.well_ok2 one_pos 1 1 2 3 (fun z _ _ => Ex.layersF_ge z) zero_le_one
    (fun z _ _ => by simpa [Ex.wellGround2, Ex.wellGround, Ex.ground] using Ex.layersF_ge z) (by norm_num) (fun z _ _ => by
      have := Ex.layersF_ge z
      simp only [Ex.wellGround2, Ex.wellGround, Ex.ground]; nlinarith) (by norm_num)
    (fun z _ _ => by
      have := Ex.layersF_ge z
      simp only [Ex.well]; linarith) (by norm_num) (fun f hf => by
      simp only [Ex.wellGround2, Ex.wellGround, Ex.ground, List.mem_singleton] at hf
      rw [hf]; norm_num) (by norm_num [Ex.wellInput2, Ex.wellInput, Ex.input]) (by
      have := two_le_pi
      norm_num [Ex.wellInput2, Ex.wellInput, Ex.input]; nlinarith)
  obtain ⟨u, w, wz, h1, h2, h3, h4, h5⟩ := C81_drain_partial Ex.well_ok2 hM (fun i hi => (hpos a hM i hi).ne') (Or.inl rfl) rfl
  exact ⟨a, w, hM, fun z t hz0 hz1 ht0 ht1 => h2 z t hz0 hz1 ht0.le ht1 (Ex.load_noStep t ht0 ht1) (Ex.load_noStep t ht0 ht1), fun t => (h4 t).1⟩

/-- The defect on `Ex.wellInput`: the gradients at the bottom are 1000 and 100. -/
example : ∃ (a : VRWArrays) (uz wz : ℝ → ℝ → ℝ), a.Made Ex.wellInput ∧ ∀ t, uz 1 t = 1000 ∧ wz 1 t = 100 := by
  obtain ⟨⟨a, hM⟩, hpos⟩ := Ex.well_solvable
  obtain ⟨u, uz, w, wz, h1, h2, h3, h4⟩ := C81_bottom_gradient Ex.well_ok hM (fun i hi => (hpos a hM i hi).ne') rfl (fun _ => 100)
    ⟨[(fun t => 100 * mult none t, 0)], .cons (Ex.load_history _) .nil, fun t => by simp [mult]⟩
  refine ⟨a, uz, wz, hM, fun t => ⟨(h4 t).1.trans ?_, (h4 t).2⟩⟩
  norm_num [Ex.wellGround, Ex.ground]

end Geotecha.Speccon
