import Verif.Constitutive.EpusHist

/-!
# Elastic and plastic volume change in the EPUS model
-/

set_option autoImplicit false
set_option linter.unusedVariables false

namespace Geotecha.Epus

theorem vol_anti {p : Par} {v0 y y' c c' comp unl : ℝ} (hu : 0 ≤ unl) (hc : unl ≤ comp) (hy0 : 0 < y) (hyy : y ≤ y')
    (hc0 : 0 < c) (hcc : c ≤ c') : vol p v0 y' c' comp unl ≤ vol p v0 y c comp unl := by
  have h1 : Real.logb 10 y ≤ Real.logb 10 y' := Real.logb_le_logb_of_le (by norm_num) hy0 hyy
  have h2 : Real.logb 10 c ≤ Real.logb 10 c' := Real.logb_le_logb_of_le (by norm_num) hc0 hcc
  unfold vol
  apply max_le_max le_rfl
  nlinarith [mul_nonneg (sub_nonneg.2 h1) (sub_nonneg.2 hc), mul_nonneg (sub_nonneg.2 h2) hu]

theorem voids_mono {f g : List Pore} (h : List.Forall₂ (fun q q' => q'.RVC ≤ q.RVC) f g) : voids g ≤ voids f := by
  unfold voids
  induction h with
  | nil => simp
  | cons h _ ih => simp only [List.map_cons, List.sum_cons]; linarith

theorem f2_and_left {α β : Type} {R : α → β → Prop} {P : α → Prop} {l : List α} {r : List β} (h : List.Forall₂ R l r)
    (hP : ∀ a ∈ l, P a) : List.Forall₂ (fun a b => P a ∧ R a b) l r := by
  induction h with
  | nil => exact .nil
  | cons h _ ih => exact .cons ⟨hP _ (by simp), h⟩ (ih fun a ha => hP a (by simp [ha]))

/-- Specification: the indexes of every pore group are ordered `0 ≤ Csp ≤ Ccp` and its yield stress is positive. -/
def Indexed (st : State) : Prop := ∀ q ∈ st.f, 0 ≤ q.Csp ∧ q.Csp ≤ q.Ccp ∧ 0 < q.YieldSt

/-- **C190, drying compresses.**  Drying to a larger suction, from any state reached by at least one operation, enlarges
no pore group, so the void ratio does not increase. -/
theorem C190_drying_never_expands (p : Par) (ss : ℝ) (st st' : State) (hs : Settled p st) (hi : Indexed st)
    (hss : st.Suction ≤ ss) (hpos : 0 < st.Suction + st.Stress) (h : drying p ss st = .ok st') :
    List.Forall₂ (fun q q' => q'.RVC ≤ q.RVC) st.f st'.f ∧ voids st'.f ≤ voids st.f := by
  have key : List.Forall₂ (fun q q' => q'.RVC ≤ q.RVC) st.f st'.f := by
    refine (f2_and_left (drying_inv h).1 (P := fun q => (q.Filled = true → q.RVC = vol p q.RV q.YieldSt
      (st.Suction + st.Stress) q.Ccp q.Csp) ∧ 0 ≤ q.Csp ∧ q.Csp ≤ q.Ccp ∧ 0 < q.YieldSt)
      fun q hq => ⟨hs q hq, hi q hq⟩).imp fun q q' ⟨⟨hset, hu, hc, hy⟩, e, h⟩ => ?_
    have hev := (dryPore_evolves h).yield
    rcases dryPore_inv h with ⟨_, rfl, _⟩ | ⟨hf, g, c1, c2, _, _, _, _, _, _, hv, _⟩ | ⟨hf, g, c1, _, _, _, _, _, hv, _⟩
    · exact le_rfl
    · rw [hv, hset hf]; exact vol_anti hu hc hy hev hpos (by linarith)
    · rw [hv, hset hf]; exact vol_anti hu hc hy hev hpos (by linarith)
  exact ⟨key, voids_mono key⟩

/-- **C190, loading compresses a saturated soil.**  When every pore group is filled, loading to a larger net stress
enlarges none of them. -/
theorem C190_loading_compresses_saturated (p : Par) (x : ℝ) (st st' : State) (hs : Settled p st) (hi : Indexed st)
    (hsat : ∀ q ∈ st.f, q.Filled = true) (hx : st.Stress ≤ x) (hpos : 0 < st.Suction + st.Stress)
    (h : loading p x st = .ok st') :
    List.Forall₂ (fun q q' => q'.RVC ≤ q.RVC) st.f st'.f ∧ voids st'.f ≤ voids st.f := by
  have key : List.Forall₂ (fun q q' => q'.RVC ≤ q.RVC) st.f st'.f := by
    refine (f2_and_left (loading_inv h).1 (P := fun q => q.Filled = true ∧ (q.Filled = true → q.RVC = vol p q.RV q.YieldSt
      (st.Suction + st.Stress) q.Ccp q.Csp) ∧ 0 ≤ q.Csp ∧ q.Csp ≤ q.Ccp ∧ 0 < q.YieldSt)
      fun q hq => ⟨hsat q hq, hs q hq, hi q hq⟩).imp fun q q' ⟨⟨hf, hset, hu, hc, hy⟩, e, h⟩ => ?_
    have hev := (loadPore_evolves h).yield
    rcases loadPore_inv h with ⟨_, g, _, _, _, hv, _⟩ | ⟨hf', _⟩ | ⟨hf', _⟩
    · rw [hv, hset hf]; exact vol_anti hu hc hy hev hpos (by linarith)
    · rw [hf] at hf'; exact absurd hf' (by simp)
    · rw [hf] at hf'; exact absurd hf' (by simp)
  exact ⟨key, voids_mono key⟩

/-- **C190, unloading never compresses.**  Unloading to a smaller net stress, from any state reached by at least one
operation, shrinks no pore group: the void ratio does not decrease. -/
theorem C190_unloading_never_compresses (p : Par) (x : ℝ) (st st' : State) (hs : Settled p st) (hi : Indexed st)
    (hx : x ≤ st.Stress) (h : unloading p x st = .ok st') :
    List.Forall₂ (fun q q' => q.RVC ≤ q'.RVC) st.f st'.f ∧ voids st.f ≤ voids st'.f := by
  have key : List.Forall₂ (fun q q' => q.RVC ≤ q'.RVC) st.f st'.f := by
    refine (f2_and_left (unloading_inv h).1 (P := fun q => (q.Filled = true → q.RVC = vol p q.RV q.YieldSt
      (st.Suction + st.Stress) q.Ccp q.Csp) ∧ 0 ≤ q.Csp ∧ q.Csp ≤ q.Ccp ∧ 0 < q.YieldSt)
      fun q hq => ⟨hs q hq, hi q hq⟩).imp fun q q' ⟨⟨hset, hu, hc, hy⟩, e, h⟩ => ?_
    rcases unloadPore_inv h with ⟨_, ⟨_, rfl⟩ | ⟨hf, g, _, _, hpos, hv, _⟩⟩
    · exact le_rfl
    · rw [hv, hset hf]; exact vol_anti hu hc hy le_rfl hpos (by linarith)
  exact ⟨key, voids_mono (f := st'.f) (g := st.f) key.flip⟩

/-- **C190, wetting swells a saturated soil.**  When every group is filled and none is loaded past its yield stress,
wetting to a smaller suction shrinks none of them. -/
theorem C190_wetting_swells_saturated (p : Par) (ss : ℝ) (st st' : State) (hs : Settled p st) (hi : Indexed st)
    (hsat : ∀ q ∈ st.f, q.Filled = true ∧ st.Suction + st.Stress ≤ q.YieldSt) (hss : ss ≤ st.Suction)
    (h : wetting p ss st = .ok st') :
    List.Forall₂ (fun q q' => q.RVC ≤ q'.RVC ∧ q'.YieldSt = q.YieldSt) st.f st'.f ∧ voids st.f ≤ voids st'.f := by
  have key : List.Forall₂ (fun q q' => q.RVC ≤ q'.RVC ∧ q'.YieldSt = q.YieldSt) st.f st'.f := by
    refine (f2_and_left (wetting_inv h).1 (P := fun q => (q.Filled = true ∧ st.Suction + st.Stress ≤ q.YieldSt) ∧
      (q.Filled = true → q.RVC = vol p q.RV q.YieldSt
      (st.Suction + st.Stress) q.Ccp q.Csp) ∧ 0 ≤ q.Csp ∧ q.Csp ≤ q.Ccp ∧ 0 < q.YieldSt)
      fun q hq => ⟨hsat q hq, hs q hq, hi q hq⟩).imp fun q q' ⟨⟨⟨hf, hle⟩, hset, hu, hc, hy⟩, e, h⟩ => ?_
    rcases wetPore_inv h with ⟨_, g, hy', _, hpos, hv, _⟩ | ⟨hf', _⟩ | ⟨hf', _⟩
    · have : q'.YieldSt = q.YieldSt := by rw [hy']; exact max_eq_right (by linarith)
      refine ⟨?_, this⟩
      rw [hv, hset hf, this]; exact vol_anti hu hc hy le_rfl hpos (by linarith)
    · rw [hf] at hf'; exact absurd hf' (by simp)
    · rw [hf] at hf'; exact absurd hf' (by simp)
  refine ⟨key, voids_mono (f := st'.f) (g := st.f) ?_⟩
  exact (key.imp fun _ _ h => h.1).flip

/-! ## C191: elastic cycles and independence of the subdivision -/

theorem pore_ext {q q' : Pore} (g : SameGroup q q') (h1 : q'.YieldSt = q.YieldSt) (h2 : q'.Filled = q.Filled)
    (h3 : q'.RVC = q.RVC) (h4 : q'.Airentrapped = q.Airentrapped) : q' = q := by
  obtain ⟨a1, a2, a3, a4, a5, a6, a7, a8⟩ := g
  cases q; cases q'
  simp_all

theorem f2_eq {α : Type} {l r : List α} (h : List.Forall₂ (fun a b => b = a) l r) : r = l := by
  induction h with
  | nil => rfl
  | cons h _ ih => rw [h, ih]

theorem f2_comp {α β γ : Type} {R : α → β → Prop} {S : β → γ → Prop} {l : List α} {m : List β} {n : List γ}
    (h1 : List.Forall₂ R l m) (h2 : List.Forall₂ S m n) : List.Forall₂ (fun a c => ∃ b, R a b ∧ S b c) l n := by
  induction h1 generalizing n with
  | nil => cases h2; exact .nil
  | cons ha _ ih => cases h2 with | cons hb h2 => exact .cons ⟨_, ha, hb⟩ (ih h2)

/-- **C191, elastic cycle.**  Unload to any net stress and load back to the stress one came from: every water-filled pore
group that was not past its yield stress is exactly as it was before. -/
theorem C191_unload_reload_is_elastic (p : Par) (x : ℝ) (st s1 s2 : State) (hs : Settled p st)
    (h1 : unloading p x st = .ok s1) (h2 : loading p st.Stress s1 = .ok s2) :
    List.Forall₂ (fun q q' => q.Filled = true → st.Suction + st.Stress ≤ q.YieldSt → q' = q) st.f s2.f ∧
      s2.Suction = st.Suction ∧ s2.Stress = st.Stress ∧ s2.RefSr = st.RefSr ∧ s2.Curveon = st.Curveon := by
  obtain ⟨f1, a1, a2, a3, a4, _⟩ := unloading_inv h1
  obtain ⟨f2, b1, b2, b3, b4, _⟩ := loading_inv h2
  refine ⟨?_, by rw [b1, a1], b2, by rw [b4, a4], by rw [b3, a3]⟩
  refine (f2_and_left (f2_comp f1 f2) (P := fun q : Pore => q.Filled = true → q.RVC = vol p q.RV q.YieldSt
      (st.Suction + st.Stress) q.Ccp q.Csp) fun q hq => hs q hq).imp fun q q2 ⟨hset, q1, ⟨e1, k1⟩, e2, k2⟩ hf hle => ?_
  rcases unloadPore_inv k1 with ⟨_, ⟨hf', _⟩ | ⟨_, g, hy, _, _, _, hf1, ha⟩⟩
  · rw [hf] at hf'; exact absurd hf' (by simp)
  rcases loadPore_inv k2 with ⟨_, g2, hy2, _, _, hv2, hf2, ha2, _⟩ | ⟨hf', _⟩ | ⟨hf', _⟩
  · have hyy : q2.YieldSt = q.YieldSt := by rw [hy2, hy, a1]; exact max_eq_right (by linarith)
    refine pore_ext (g.trans g2) hyy (by rw [hf2, hf]) ?_ (by rw [ha2, ha])
    rw [hv2, hyy, hset hf, g.2.2.2.2.2.1, g.2.2.1, g.2.2.2.1, a1]
  · rw [hf1] at hf'; exact absurd hf' (by simp)
  · rw [hf1] at hf'; exact absurd hf' (by simp)

/-- **C191, elastic cycle of a saturated soil.**  If every group is filled and inside its yield stress, the whole soil
and the void ratio return exactly to where they were. -/
theorem C191_saturated_cycle_closes (p : Par) (x : ℝ) (st s1 s2 : State) (hs : Settled p st)
    (hsat : ∀ q ∈ st.f, q.Filled = true ∧ st.Suction + st.Stress ≤ q.YieldSt)
    (h1 : unloading p x st = .ok s1) (h2 : loading p st.Stress s1 = .ok s2) :
    s2.f = st.f ∧ voids s2.f = voids st.f := by
  have hf := (C191_unload_reload_is_elastic p x st s1 s2 hs h1 h2).1
  have : s2.f = st.f := f2_eq ((f2_and_left hf (P := fun q => q.Filled = true ∧ st.Suction + st.Stress ≤ q.YieldSt)
    hsat).imp fun q q' h => h.2 h.1.1 h.1.2)
  exact ⟨this, by rw [this]⟩

/-- **C191, subdivision.**  For a saturated soil, loading in two stages ends in the same pore groups as loading at once:
the number of points a loading step is divided into does not matter. -/
theorem C191_loading_subdivision (p : Par) (x y : ℝ) (hxy : x ≤ y) (st s1 s2 s3 : State)
    (hsat : ∀ q ∈ st.f, q.Filled = true)
    (h1 : loading p x st = .ok s1) (h2 : loading p y s1 = .ok s2) (h3 : loading p y st = .ok s3) : s2.f = s3.f := by
  obtain ⟨f1, a1, a2, a3, a4, _⟩ := loading_inv h1
  obtain ⟨f2, b1, b2, b3, b4, _⟩ := loading_inv h2
  obtain ⟨f3, _⟩ := loading_inv h3
  refine f2_eq (f2_comp f3.flip (f2_and_left (f2_comp f1 f2) hsat) |>.imp
    fun q3 q2 ⟨q, ⟨e3, k3⟩, hf, q1, ⟨e1, k1⟩, e2, k2⟩ => ?_)
  rcases loadPore_inv k1 with ⟨_, g1, hy1, _, _, _, hf1, ha1, _⟩ | ⟨hf', _⟩ | ⟨hf', _⟩
  rotate_left
  · rw [hf] at hf'; exact absurd hf' (by simp)
  · rw [hf] at hf'; exact absurd hf' (by simp)
  rcases loadPore_inv k2 with ⟨_, g2, hy2, _, _, hv2, hf2, ha2, _⟩ | ⟨hf', _⟩ | ⟨hf', _⟩
  rotate_left
  · rw [hf1] at hf'; exact absurd hf' (by simp)
  · rw [hf1] at hf'; exact absurd hf' (by simp)
  rcases loadPore_inv k3 with ⟨_, g3, hy3, _, _, hv3, hf3, ha3, _⟩ | ⟨hf', _⟩ | ⟨hf', _⟩
  rotate_left
  · rw [hf] at hf'; exact absurd hf' (by simp)
  · rw [hf] at hf'; exact absurd hf' (by simp)
  have hyy : q2.YieldSt = q3.YieldSt := by
    rw [hy2, hy1, hy3, a1, ← max_assoc, max_eq_left (a := y + st.Suction) (by linarith)]
  have hg : SameGroup q3 q2 := by
    have := g1.trans g2
    obtain ⟨t1, t2, t3, t4, t5, t6, t7, t8⟩ := this
    obtain ⟨u1, u2, u3, u4, u5, u6, u7, u8⟩ := g3
    exact ⟨by rw [t1, u1], by rw [t2, u2], by rw [t3, u3], by rw [t4, u4], by rw [t5, u5], by rw [t6, u6], by rw [t7, u7],
      by rw [t8, u8]⟩
  refine pore_ext hg hyy (by rw [hf2, hf3]) ?_ (by rw [ha2, ha1, ha3])
  rw [hv2, hv3, hyy, a1, g1.2.2.2.2.2.1, g1.2.2.1, g1.2.2.2.1]

/-- **C191, last unloading counts.**  Two unloadings in a row leave the same pore groups as the second alone. -/
theorem C191_unloading_subdivision (p : Par) (x y : ℝ) (st s1 s2 s3 : State)
    (h1 : unloading p x st = .ok s1) (h2 : unloading p y s1 = .ok s2) (h3 : unloading p y st = .ok s3) : s2 = s3 := by
  obtain ⟨f1, a1, a2, a3, a4, a5, a6, a7⟩ := unloading_inv h1
  obtain ⟨f2, b1, b2, b3, b4, b5, b6, b7⟩ := unloading_inv h2
  obtain ⟨f3, c1, c2, c3, c4, c5, c6, c7⟩ := unloading_inv h3
  have hf : s2.f = s3.f := by
    refine f2_eq (f2_comp f3.flip (f2_comp f1 f2) |>.imp fun q3 q2 ⟨q, ⟨e3, k3⟩, q1, ⟨e1, k1⟩, e2, k2⟩ => ?_)
    rcases unloadPore_inv k1 with ⟨_, ⟨hd, rfl⟩ | ⟨hf, g1, hy1, _, _, hv1, hf1, ha1⟩⟩
    · rcases unloadPore_inv k2 with ⟨_, ⟨_, rfl⟩ | ⟨hf', _⟩⟩
      · rcases unloadPore_inv k3 with ⟨_, ⟨_, rfl⟩ | ⟨hf', _⟩⟩
        · rfl
        · rw [hd] at hf'; exact absurd hf' (by simp)
      · rw [hd] at hf'; exact absurd hf' (by simp)
    · rcases unloadPore_inv k2 with ⟨_, ⟨hd, _⟩ | ⟨_, g2, hy2, _, _, hv2, hf2, ha2⟩⟩
      · rw [hf1] at hd; exact absurd hd (by simp)
      · rcases unloadPore_inv k3 with ⟨_, ⟨hd, _⟩ | ⟨_, g3, hy3, _, _, hv3, hf3, ha3⟩⟩
        · rw [hf] at hd; exact absurd hd (by simp)
        · have hg : SameGroup q3 q2 := by
            have := g1.trans g2
            obtain ⟨t1, t2, t3, t4, t5, t6, t7, t8⟩ := this
            obtain ⟨u1, u2, u3, u4, u5, u6, u7, u8⟩ := g3
            exact ⟨by rw [t1, u1], by rw [t2, u2], by rw [t3, u3], by rw [t4, u4], by rw [t5, u5], by rw [t6, u6],
              by rw [t7, u7], by rw [t8, u8]⟩
          refine pore_ext hg (by rw [hy2, hy1, hy3]) (by rw [hf2, hf3]) ?_ (by rw [ha2, ha1, ha3])
          rw [hv2, hv3, hy1, a1, g1.2.2.2.2.2.1, g1.2.2.1, g1.2.2.2.1]
  cases s2; cases s3
  simp_all

/-! ## C192: the volume of an emptied pore group, and loading past yield -/

/-- **C192, an emptied pore group keeps shrinking with the step size.**  The volume a group gets when drying empties it is
the volume at the new suction `ss`, not at its air entry value: the assignment for the emptied group (line 591) is
overwritten (line 599).  It is smaller than the volume at the air entry value by the rebound index times the log ratio. -/
theorem C192_emptied_volume (p : Par) (ss : ℝ) (st st' : State) (h : drying p ss st = .ok st') :
    List.Forall₂ (fun q q' => q.Filled = true → q'.Filled = false → ∃ c : ℝ × Bool,
      changeSuction p st.Stress (max (st.Stress + pow10 q.AEV) q.YieldSt) (pow10 q.AEV) = .ok c ∧
      q'.YieldSt = max (pow10 q.AEV / c.1 + st.Stress) q.YieldSt ∧
      q'.RVC = vol p q.RV q'.YieldSt (st.Stress + ss) q.Ccp q.Csp ∧
      (0 < q'.RVC → 0 < pow10 q.AEV / c.1 + st.Stress →
        0 ≤ q.Csp * Real.logb 10 ((st.Stress + ss) / (pow10 q.AEV / c.1 + st.Stress)) →
        vol p q.RV q'.YieldSt (pow10 q.AEV / c.1 + st.Stress) q.Ccp q.Csp - q'.RVC =
        q.Csp * Real.logb 10 ((st.Stress + ss) / (pow10 q.AEV / c.1 + st.Stress)))) st.f st'.f := by
  refine (drying_inv h).1.imp fun q q' ⟨e, h⟩ hf hf' => ?_
  rcases dryPore_inv h with ⟨hd, _⟩ | ⟨_, g, c1, c2, _, _, h2, hy, hyp, hcp, hv, _⟩ | ⟨_, g, c1, _, _, _, _, _, _, hf'', _⟩
  · rw [hf] at hd; exact absurd hd (by simp)
  · refine ⟨c2, h2, hy, hv, fun hpos ha hlog => ?_⟩
    rw [Real.logb_div (by positivity) ha.ne'] at hlog ⊢
    have hvp : 0 < q.RV - (Real.logb 10 q'.YieldSt - p.minS) * q.Ccp +
        (Real.logb 10 q'.YieldSt - Real.logb 10 (st.Stress + ss)) * q.Csp := by
      rw [hv] at hpos
      unfold vol at hpos
      by_contra hn
      rw [max_eq_left (not_lt.1 hn)] at hpos
      exact lt_irrefl _ hpos
    rw [hv]
    unfold vol
    rw [max_eq_right hvp.le, max_eq_right (by nlinarith)]
    ring
  · rw [hf''] at hf'; exact absurd hf' (by simp)

end Geotecha.Epus
