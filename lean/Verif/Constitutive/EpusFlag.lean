import Verif.Constitutive.EpusTotal

/-!
# C226: when the EPUS model warns that the pore-shape parameter is not valid

`_Calresults_scalar` ends with the warning "Input data is not valid, please check the PORE-SHAPE PARAMETER" when `errocc` is set.
-/

set_option autoImplicit false
set_option linter.unusedVariables false

namespace Geotecha.Epus

/-! ## Specification -/

/-- The water left above residual at suction `s0` on the virgin slurry line, as a void ratio. -/
noncomputable def waterLeft (p : Par) (s0 : ℝ) : ℝ := p.wsat * p.Gs - p.Ccs * Real.logb 10 s0 - p.wr * p.Gs

/-- The entry suction `s0` of a pore group is changed by the compression of the group: the largest stress `m` is above it, the
group is below the residual range, and there is water left. -/
def Affected (p : Par) (m s0 : ℝ) : Prop := s0 < m ∧ s0 < (10 * p.a) ^ (1 / p.b) ∧ 0 < waterLeft p s0

/-- The relative size of the compressed pore, `w` being the suction at which the group fills or empties. -/
noncomputable def poreSize (p : Par) (stress m s0 w : ℝ) : ℝ :=
  1 - p.poreShape * (((p.Ccs - p.Css) * Real.logb 10 m + p.Css * Real.logb 10 (w + stress) - p.Ccs * Real.logb 10 s0) / (3 * waterLeft p s0))

/-- The pore would have no size left. -/
def Invalid (p : Par) (stress m s0 w : ℝ) : Prop := Affected p m s0 ∧ poreSize p stress m s0 w ≤ 0

open Classical in
/-- The factor applied to the entry suction. -/
noncomputable def factor (p : Par) (stress m s0 w : ℝ) : ℝ :=
  if Affected p m s0 ∧ 0 < poreSize p stress m s0 w then poreSize p stress m s0 w else 1

/-! ## The functions -/

theorem not_affected {p : Par} {stress m s0 w : ℝ} (h : ¬ Affected p m s0) :
    factor p stress m s0 w = 1 ∧ ¬ Invalid p stress m s0 w :=
  ⟨if_neg (fun k => h k.1), fun k => h k.1⟩

theorem changeSuction_spec {p : Par} {stress m s0 : ℝ} {c : ℝ × Bool} (h : changeSuction p stress m s0 = .ok c) :
    c.1 = factor p stress m s0 s0 ∧ (c.2 = true ↔ Invalid p stress m s0 s0) := by
  unfold changeSuction at h
  split at h
  · rename_i k
    obtain ⟨q1, q2⟩ := not_affected (stress := stress) (w := s0) (fun a : Affected p m s0 => absurd a.1 (not_lt.2 k))
    cases h
    rw [q1]; exact ⟨rfl, by simp [q2]⟩
  split at h
  · cases h
  split at h
  · rename_i k
    obtain ⟨q1, q2⟩ := not_affected (stress := stress) (w := s0) (fun a : Affected p m s0 => absurd a.2.1 (not_lt.2 k))
    cases h
    rw [q1]; exact ⟨rfl, by simp [q2]⟩
  rename_i k1 k2 k3
  rw [bind_ok] at h
  obtain ⟨l0, hl0, h⟩ := h
  obtain ⟨_, rfl⟩ := log10_ok.1 hl0
  dsimp only at h
  split at h
  · rename_i k
    obtain ⟨q1, q2⟩ := not_affected (stress := stress) (w := s0) (fun a : Affected p m s0 => absurd a.2.2 (not_lt.2 k))
    cases h
    rw [q1]; exact ⟨rfl, by simp [q2]⟩
  rename_i k4
  rw [bind_ok] at h
  obtain ⟨lm, hlm, h⟩ := h
  obtain ⟨_, rfl⟩ := log10_ok.1 hlm
  rw [bind_ok] at h
  obtain ⟨lc, hlc, h⟩ := h
  obtain ⟨_, rfl⟩ := log10_ok.1 hlc
  have ha : Affected p m s0 := ⟨not_le.1 k1, not_le.1 k3, not_le.1 k4⟩
  split at h
  · rename_i k
    have k' : poreSize p stress m s0 s0 ≤ 0 := k
    cases h
    refine ⟨?_, by simp [Invalid, ha, k']⟩
    unfold factor
    rw [if_neg (fun hh => absurd hh.2 (not_lt.2 k'))]
  · rename_i k
    have k' : ¬ poreSize p stress m s0 s0 ≤ 0 := k
    cases h
    refine ⟨?_, by simp only [Invalid, ha, true_and]; exact ⟨fun e => (by cases e), fun e => absurd e k'⟩⟩
    unfold factor
    rw [if_pos ⟨ha, not_le.1 k'⟩]
    rfl

theorem changeWetSuction_spec {p : Par} {stress m s0 w : ℝ} {c : ℝ × Bool} (h : changeWetSuction p stress m s0 w = .ok c) :
    c.1 = factor p stress m s0 w ∧ (c.2 = true ↔ Invalid p stress m s0 w) := by
  unfold changeWetSuction at h
  split at h
  · rename_i k
    obtain ⟨q1, q2⟩ := not_affected (stress := stress) (w := w) (fun a : Affected p m s0 => absurd a.1 (not_lt.2 k))
    cases h
    rw [q1]; exact ⟨rfl, by simp [q2]⟩
  split at h
  · cases h
  split at h
  · rename_i k
    obtain ⟨q1, q2⟩ := not_affected (stress := stress) (w := w) (fun a : Affected p m s0 => absurd a.2.1 (not_lt.2 k))
    cases h
    rw [q1]; exact ⟨rfl, by simp [q2]⟩
  rename_i k1 k2 k3
  rw [bind_ok] at h
  obtain ⟨l0, hl0, h⟩ := h
  obtain ⟨_, rfl⟩ := log10_ok.1 hl0
  dsimp only at h
  split at h
  · rename_i k
    obtain ⟨q1, q2⟩ := not_affected (stress := stress) (w := w) (fun a : Affected p m s0 => absurd a.2.2 (not_lt.2 (le_of_lt k)))
    cases h
    rw [q1]; exact ⟨rfl, by simp [q2]⟩
  rename_i k4
  rw [bind_ok] at h
  obtain ⟨lm, hlm, h⟩ := h
  obtain ⟨_, rfl⟩ := log10_ok.1 hlm
  rw [bind_ok] at h
  obtain ⟨lc, hlc, h⟩ := h
  obtain ⟨_, rfl⟩ := log10_ok.1 hlc
  split at h
  · cases h
  rename_i k5
  have ha : Affected p m s0 := ⟨not_le.1 k1, not_le.1 k3, lt_of_le_of_ne (not_lt.1 k4) (Ne.symm k5)⟩
  split at h
  · rename_i k
    have k' : poreSize p stress m s0 w ≤ 0 := k
    cases h
    refine ⟨?_, by simp [Invalid, ha, k']⟩
    unfold factor
    rw [if_neg (fun hh => absurd hh.2 (not_lt.2 k'))]
  · rename_i k
    have k' : ¬ poreSize p stress m s0 w ≤ 0 := k
    cases h
    refine ⟨?_, by simp only [Invalid, ha, true_and]; exact ⟨fun e => (by cases e), fun e => absurd e k'⟩⟩
    unfold factor
    rw [if_pos ⟨ha, not_le.1 k'⟩]
    rfl

theorem dryPore_flag {p : Par} {stress ss : ℝ} {q : Pore} {r : Pore × Bool} (h : dryPore p stress ss q = .ok r) :
    r.2 = true ↔ q.Filled = true ∧ (Invalid p stress q.YieldSt (pow10 q.AEV) (pow10 q.AEV) ∨
      (pow10 q.AEV / factor p stress q.YieldSt (pow10 q.AEV) (pow10 q.AEV) ≤ ss ∧
        Invalid p stress (max (stress + pow10 q.AEV) q.YieldSt) (pow10 q.AEV) (pow10 q.AEV))) := by
  unfold dryPore at h
  split at h <;> rename_i hf
  · rw [bind_ok] at h
    obtain ⟨c1, h1, h⟩ := h
    obtain ⟨e1, f1⟩ := changeSuction_spec h1
    dsimp only at h
    split at h <;> rename_i hs <;> rw [e1] at hs
    · rw [bind_ok] at h
      obtain ⟨c2, h2, h⟩ := h
      obtain ⟨e2, f2⟩ := changeSuction_spec h2
      rw [raise_eq_max] at f2
      rw [bind_ok] at h
      obtain ⟨_, _, h⟩ := h
      rw [bind_ok] at h
      obtain ⟨v, hv, h⟩ := h
      cases h
      show (c1.2 || c2.2) = true ↔ _
      rw [Bool.or_eq_true, f1, f2]
      exact ⟨fun k => ⟨hf, k.imp id (fun k => ⟨hs, k⟩)⟩, fun k => k.2.imp id (fun k => k.2)⟩
    · rw [bind_ok] at h
      obtain ⟨v, hv, h⟩ := h
      cases h
      show c1.2 = true ↔ _
      rw [f1]
      exact ⟨fun k => ⟨hf, Or.inl k⟩, fun k => k.2.elim id (fun k => absurd k.1 hs)⟩
  · cases h
    exact ⟨fun k => (by cases k), fun k => absurd k.1 hf⟩

theorem wetPore_flag {p : Par} {stress refSr ss : ℝ} {q : Pore} {r : Pore × Bool} (h : wetPore p stress refSr ss q = .ok r) :
    r.2 = true ↔ q.Filled = false ∧ Invalid p stress (max (stress + pow10 q.WEV) q.YieldSt) (pow10 q.AEV) (pow10 q.WEV) := by
  unfold wetPore at h
  split at h <;> rename_i hf
  · rw [bind_ok] at h
    obtain ⟨v, hv, h⟩ := h
    cases h
    exact ⟨fun k => (by cases k), fun k => (by rw [hf] at k; cases k.1)⟩
  · have hf' : q.Filled = false := by simpa using hf
    rw [bind_ok] at h
    obtain ⟨c, hc, h⟩ := h
    obtain ⟨e, f⟩ := changeWetSuction_spec hc
    rw [raise_eq_max] at f
    dsimp only at h
    split at h <;> rw [bind_ok] at h <;> obtain ⟨v, hv, h⟩ := h <;> cases h
    · show c.2 = true ↔ _
      rw [f]; exact ⟨fun k => ⟨hf', k⟩, fun k => k.2⟩
    · show c.2 = true ↔ _
      rw [f]; exact ⟨fun k => ⟨hf', k⟩, fun k => k.2⟩

theorem loadPore_flag {p : Par} {stress suction refSr x : ℝ} {q : Pore} {r : Pore × Bool} (h : loadPore p stress suction refSr x q = .ok r) :
    r.2 = true ↔ q.Filled = false ∧ Invalid p stress (max (x + pow10 q.WEV) q.YieldSt) (pow10 q.AEV) (pow10 q.WEV) := by
  unfold loadPore at h
  split at h <;> rename_i hf
  · rw [bind_ok] at h
    obtain ⟨v, hv, h⟩ := h
    cases h
    exact ⟨fun k => (by cases k), fun k => (by rw [hf] at k; cases k.1)⟩
  · have hf' : q.Filled = false := by simpa using hf
    dsimp only at h
    rw [bind_ok] at h
    obtain ⟨c, hc, h⟩ := h
    obtain ⟨e, f⟩ := changeWetSuction_spec hc
    rw [raise_eq_max] at f
    split at h <;> rw [bind_ok] at h <;> obtain ⟨v, hv, h⟩ := h <;> cases h
    · show c.2 = true ↔ _
      rw [f]; exact ⟨fun k => ⟨hf', k⟩, fun k => k.2⟩
    · show c.2 = true ↔ _
      rw [f]; exact ⟨fun k => ⟨hf', k⟩, fun k => k.2⟩

theorem any_flag {α β : Type} {f : α → Except PyErr (β × Bool)} {P : α → Prop} (hP : ∀ a r, f a = .ok r → (r.2 = true ↔ P a)) :
    ∀ {l : List α} {rs : List (β × Bool)}, l.mapM f = .ok rs → (rs.any (·.2) = true ↔ ∃ a ∈ l, P a) := by
  intro l rs h
  have hf := mapM_f2 h
  clear h
  induction hf with
  | nil => simp
  | @cons a b l r hb _ ih =>
    rw [List.any_cons, Bool.or_eq_true]
    exact (or_congr (hP a b hb) ih).trans (by simp)

/-- **C226** Drying sets the error flag exactly when some water-filled pore group would lose its whole size, either under its yield
stress or, if it empties, under the larger of that stress and its entry suction plus the net stress. -/
theorem C226_drying_flag (p : Par) (ss : ℝ) (st st' : State) (h : drying p ss st = .ok st') :
    st'.errocc = true ↔ st.errocc = true ∨ ∃ q ∈ st.f, q.Filled = true ∧
      (Invalid p st.Stress q.YieldSt (10 ^ q.AEV) (10 ^ q.AEV) ∨
        ((10:ℝ) ^ q.AEV / factor p st.Stress q.YieldSt (10 ^ q.AEV) (10 ^ q.AEV) ≤ ss ∧
          Invalid p st.Stress (max (st.Stress + 10 ^ q.AEV) q.YieldSt) (10 ^ q.AEV) (10 ^ q.AEV))) := by
  unfold drying at h
  rw [bind_ok] at h
  obtain ⟨cr, hcr, h⟩ := h
  rw [bind_ok] at h
  obtain ⟨rs, hrs, h⟩ := h
  cases h
  show (st.errocc || rs.any (·.2)) = true ↔ _
  rw [Bool.or_eq_true, any_flag (fun a r => dryPore_flag) hrs]
  rfl

/-- **C226** Wetting sets it exactly when some dry pore group would. -/
theorem C226_wetting_flag (p : Par) (ss : ℝ) (st st' : State) (h : wetting p ss st = .ok st') :
    st'.errocc = true ↔ st.errocc = true ∨ ∃ q ∈ st.f, q.Filled = false ∧
      Invalid p st.Stress (max (st.Stress + 10 ^ q.WEV) q.YieldSt) (10 ^ q.AEV) (10 ^ q.WEV) := by
  unfold wetting at h
  rw [bind_ok] at h
  obtain ⟨cr, hcr, h⟩ := h
  rw [bind_ok] at h
  obtain ⟨rs, hrs, h⟩ := h
  cases h
  show (st.errocc || rs.any (·.2)) = true ↔ _
  rw [Bool.or_eq_true, any_flag (fun a r => wetPore_flag) hrs]
  rfl

/-- **C226** Loading to `x` sets it exactly when some dry pore group would; the formula mixes the new stress (in the yield stress)
with the stress before the loading. -/
theorem C226_loading_flag (p : Par) (x : ℝ) (st st' : State) (h : loading p x st = .ok st') :
    st'.errocc = true ↔ st.errocc = true ∨ ∃ q ∈ st.f, q.Filled = false ∧
      Invalid p st.Stress (max (x + 10 ^ q.WEV) q.YieldSt) (10 ^ q.AEV) (10 ^ q.WEV) := by
  unfold loading at h
  rw [bind_ok] at h
  obtain ⟨rs, hrs, h⟩ := h
  cases h
  show (st.errocc || rs.any (·.2)) = true ↔ _
  rw [Bool.or_eq_true, any_flag (fun a r => loadPore_flag) hrs]
  rfl

/-- **C226** Unloading never sets it; and no history ever clears it. -/
theorem C226_unloading_flag (p : Par) (x : ℝ) (st st' : State) (h : unloading p x st = .ok st') : st'.errocc = st.errocc :=
  (unloading_inv h).2.2.2.2.2.1

theorem not_invalid {p : Par} (hp : p.poreShape = 0) (stress m s0 w : ℝ) : ¬ Invalid p stress m s0 w := by
  intro h
  have := h.2
  unfold poreSize at this
  rw [hp] at this
  norm_num at this

theorem op_flag {p : Par} (hp : p.poreShape = 0) {o : Op} {s s' : State} (h : o.run p s = .ok s') : s'.errocc = s.errocc := by
  have key : ∀ {P : Prop}, (s'.errocc = true ↔ s.errocc = true ∨ P) → ¬ P → s'.errocc = s.errocc := by
    intro P k n
    cases e : s.errocc <;> cases e' : s'.errocc <;> simp_all
  cases o with
  | dry ss =>
    refine key (C226_drying_flag p ss s s' h) ?_
    rintro ⟨q, hq, _, k | k⟩
    · exact not_invalid hp _ _ _ _ k
    · exact not_invalid hp _ _ _ _ k.2
  | wet ss =>
    refine key (C226_wetting_flag p ss s s' h) ?_
    rintro ⟨q, hq, _, k⟩
    exact not_invalid hp _ _ _ _ k
  | load x =>
    refine key (C226_loading_flag p x s s' h) ?_
    rintro ⟨q, hq, _, k⟩
    exact not_invalid hp _ _ _ _ k
  | unload x => exact C226_unloading_flag p x s s' h

/-- **C226** With pore-shape parameter zero no history gives the warning. -/
theorem C226_no_shape_no_warning (p : Par) (hp : p.poreShape = 0) (ops : List Op) (st st' : State) (h : runOps p ops st = .ok st') :
    st'.errocc = st.errocc :=
  foldlM_inv (fun s => s.errocc = st.errocc) (fun b o b' hb hr => (op_flag hp hr).trans hb) ops st st' rfl h

/-! ## The hypotheses are met, the flag being set or not -/

/-- One group with entry suction 1 and yield stress 10; `k` is the pore-shape parameter. -/
noncomputable def flagPar (k : ℝ) : Par where
  wsat := 1
  a := 1
  b := 1
  wr := 0
  sl := 0
  logDS := 1
  logRS := 2
  Ccs := 1
  Css := 0
  Ccd := 0
  Gs := 1
  assumption := 0
  beta := 0
  pm := 1
  poreShape := k
  K0 := 1
  npoint := 1
  numSr := 2
  maxS := 6
  minS := -3

noncomputable def flagPore : Pore := ⟨0, -1, 0, 0, 0, 1, 10, true, 1, 0, 0, false⟩
noncomputable def flagState : State := ⟨[flagPore], 1/2, 1, 0, 0, false, [], []⟩

theorem flag_affected (k : ℝ) : Affected (flagPar k) 10 (10 ^ (0:ℝ)) ∧ poreSize (flagPar k) 1 10 (10 ^ (0:ℝ)) (10 ^ (0:ℝ)) = 1 - k / 3 := by
  have e : Real.logb 10 10 = 1 := Real.logb_self_eq_one (by norm_num)
  refine ⟨⟨by norm_num, ?_, ?_⟩, ?_⟩
  · norm_num [flagPar]
  · norm_num [waterLeft, flagPar]
  · norm_num [poreSize, waterLeft, flagPar, e]; ring

theorem flag_runs (k : ℝ) : ∃ st', drying (flagPar k) 2 flagState = .ok st' := by
  obtain ⟨r, hr⟩ := dryPore_total (p := flagPar k) (by norm_num [flagPar]) (stress := 1) (ss := 2) (q := flagPore) (by norm_num) (by norm_num) (by norm_num [flagPore])
  refine ⟨⟨[r.1], 2, 1, 0, 0, false || [r].any (·.2), [], []⟩, ?_⟩
  have hm : [flagPore].mapM (dryPore (flagPar k) 1 2) = .ok [r] := by
    rw [List.mapM_cons, hr]; rfl
  unfold drying
  rw [bind_ok]
  refine ⟨(0, 0), by simp [dryRef, flagState], ?_⟩
  rw [bind_ok]
  exact ⟨[r], hm, rfl⟩

/-- Pore-shape parameter 6: the flag is set. -/
example : ∃ st', drying (flagPar 6) 2 flagState = .ok st' ∧ st'.errocc = true := by
  obtain ⟨st', h⟩ := flag_runs 6
  obtain ⟨h1, h2⟩ := flag_affected 6
  exact ⟨st', h, (C226_drying_flag _ _ _ _ h).2 (Or.inr ⟨flagPore, by simp [flagState], rfl, Or.inl ⟨h1, by
    show poreSize (flagPar 6) 1 10 (10 ^ (0:ℝ)) (10 ^ (0:ℝ)) ≤ 0
    rw [h2]; norm_num⟩⟩)⟩

/-- Pore-shape parameter 0: it is not. -/
example : ∃ st', runOps (flagPar 0) [.dry 2] flagState = .ok st' ∧ st'.errocc = false := by
  obtain ⟨st', h⟩ := flag_runs 0
  have hr : runOps (flagPar 0) [.dry 2] flagState = .ok st' := by
    show (drying (flagPar 0) 2 flagState >>= fun s => pure s) = _
    rw [h]; rfl
  exact ⟨st', hr, C226_no_shape_no_warning _ rfl _ _ _ hr⟩

end Geotecha.Epus
