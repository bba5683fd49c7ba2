import Verif.Constitutive.EpusElastic

/-!
# When the EPUS operations succeed
-/

set_option autoImplicit false
set_option linter.unusedVariables false

namespace Geotecha.Epus

/-- The quantity `temp2` of `ChangeWetSuction` for a pore group, epus.py:515. -/
noncomputable def temp2 (p : Par) (q : Pore) : ℝ := p.wsat * p.Gs - p.Ccs * q.AEV - p.wr * p.Gs

/-- Specification: a state the operations can work on. -/
structure Valid (p : Par) (st : State) : Prop where
  b : p.b ≠ 0
  numSr : 2 ≤ p.numSr
  range : p.minS < p.maxS
  dryLen : st.Srdry.length = p.numSr
  wetLen : st.Srwet.length = p.numSr
  suction : 0 < st.Suction
  stress : 0 < st.Stress
  pores : ∀ q ∈ st.f, 0 < q.YieldSt ∧ temp2 p q ≠ 0

/-- Specification: an operation whose target suction lies in the range of the reference tables, or whose target net
stress is positive. -/
def OpIn (p : Par) : Op → Prop
  | .dry ss => pow10 p.minS ≤ ss ∧ ss ≤ pow10 p.maxS
  | .wet ss => pow10 p.minS ≤ ss ∧ ss ≤ pow10 p.maxS
  | .load x => 0 < x
  | .unload x => 0 < x

theorem ok_bind {α β : Type} (a : α) (f : α → Except PyErr β) : ((Except.ok a : Except PyErr α) >>= f) = f a := rfl

theorem changeSuction_total {p : Par} (hb : p.b ≠ 0) {stress m s0 : ℝ} (hs : 0 < s0) (hst : 0 < stress) :
    ∃ c, changeSuction p stress m s0 = .ok c := by
  unfold changeSuction
  split
  · exact ⟨_, rfl⟩
  rename_i hm
  split
  · exact ⟨_, rfl⟩
  rw [log10_pos hs, ok_bind]
  dsimp only
  split
  · exact ⟨_, rfl⟩
  rw [log10_pos (show 0 < m by linarith [not_le.1 hm]), ok_bind, log10_pos (show 0 < s0 + stress by linarith), ok_bind]
  split
  · exact ⟨_, rfl⟩
  · exact ⟨_, rfl⟩

theorem changeWetSuction_total {p : Par} (hb : p.b ≠ 0) {stress m w : ℝ} {q : Pore} (hw : 0 < w) (hst : 0 < stress)
    (ht : temp2 p q ≠ 0) : ∃ c, changeWetSuction p stress m (pow10 q.AEV) w = .ok c := by
  unfold changeWetSuction
  split
  · exact ⟨_, rfl⟩
  rename_i hm
  split
  · exact ⟨_, rfl⟩
  rw [log10_pos (pow10_pos _), ok_bind, logb_pow10]
  dsimp only
  split
  · exact ⟨_, rfl⟩
  rw [log10_pos (show 0 < m by linarith [not_le.1 hm, pow10_pos q.AEV]), ok_bind,
    log10_pos (show 0 < w + stress by linarith), ok_bind]
  rw [if_neg (show p.wsat * p.Gs - p.Ccs * q.AEV - p.wr * p.Gs ≠ 0 from ht)]
  split
  · exact ⟨_, rfl⟩
  · exact ⟨_, rfl⟩

theorem changevolume_total {p : Par} {v0 y c comp unl : ℝ} (hy : 0 < y) (hc : 0 < c) :
    changevolume p v0 y c comp unl = .ok (vol p v0 y c comp unl) := changevolume_ok.2 ⟨hy, hc, rfl⟩

theorem dryPore_total {p : Par} (hb : p.b ≠ 0) {stress ss : ℝ} {q : Pore} (hst : 0 < stress) (hss : 0 < ss)
    (hy : 0 < q.YieldSt) : ∃ r, dryPore p stress ss q = .ok r := by
  unfold dryPore
  split
  · obtain ⟨c1, h1⟩ := changeSuction_total hb (m := q.YieldSt) (pow10_pos q.AEV) hst
    rw [h1, ok_bind]
    dsimp only
    split
    · obtain ⟨c2, h2⟩ := changeSuction_total hb (m := raise (stress + pow10 q.AEV) q.YieldSt) (pow10_pos q.AEV) hst
      rw [h2, ok_bind]
      have hc2 := changeSuction_pos h2
      have hp : 0 < pow10 q.AEV / c2.1 := div_pos (pow10_pos _) hc2
      rw [changevolume_total (lt_of_lt_of_le hy (le_raise _ _)) (by linarith), ok_bind,
        changevolume_total (lt_of_lt_of_le hy (le_raise _ _)) (by linarith), ok_bind]
      exact ⟨_, rfl⟩
    · rw [changevolume_total (lt_of_lt_of_le hy (le_raise _ _)) (by linarith), ok_bind]
      exact ⟨_, rfl⟩
  · exact ⟨_, rfl⟩

theorem staysDry_total {p : Par} {stress num r : ℝ} {q : Pore} (hn : 0 < num) (hy : 0 < q.YieldSt) :
    ∃ q', staysDry p stress num r q = .ok q' := by
  unfold staysDry
  split
  · have : ∃ t, dryYield p stress num r q = .ok t := by
      unfold dryYield
      split
      · rw [log10_pos (div_pos hn (pow10_pos _)), ok_bind]; exact ⟨_, rfl⟩
      · exact ⟨_, rfl⟩
    obtain ⟨t, ht⟩ := this
    rw [ht, ok_bind]
    split
    · rename_i hl
      rw [changevolume_total (by linarith) (by linarith), ok_bind]; exact ⟨_, rfl⟩
    · exact ⟨_, rfl⟩
  · exact ⟨_, rfl⟩

theorem wetPore_total {p : Par} (hb : p.b ≠ 0) {stress r ss : ℝ} {q : Pore} (hst : 0 < stress) (hss : 0 < ss)
    (hy : 0 < q.YieldSt) (ht : temp2 p q ≠ 0) : ∃ x, wetPore p stress r ss q = .ok x := by
  unfold wetPore
  split
  · dsimp only
    rw [changevolume_total (lt_of_lt_of_le hy (le_raise _ _)) (by linarith), ok_bind]
    exact ⟨_, rfl⟩
  · obtain ⟨c, hc⟩ := changeWetSuction_total hb (m := raise (stress + pow10 q.WEV) q.YieldSt) (pow10_pos q.WEV) hst ht
    rw [hc, ok_bind]
    split
    · dsimp only
      rw [changevolume_total (lt_of_lt_of_le hy (le_raise _ _)) (by linarith), ok_bind]
      exact ⟨_, rfl⟩
    · obtain ⟨q', hq⟩ := staysDry_total (p := p) (stress := stress) (r := r) hst hy
      rw [hq, ok_bind]
      exact ⟨_, rfl⟩

theorem loadPore_total {p : Par} (hb : p.b ≠ 0) {stress suction r x : ℝ} {q : Pore} (hst : 0 < stress)
    (hsu : 0 < suction) (hx : 0 < x) (hy : 0 < q.YieldSt) (ht : temp2 p q ≠ 0) :
    ∃ z, loadPore p stress suction r x q = .ok z := by
  unfold loadPore
  split
  · dsimp only
    rw [changevolume_total (lt_of_lt_of_le hy (le_raise _ _)) (by linarith), ok_bind]
    exact ⟨_, rfl⟩
  · obtain ⟨c, hc⟩ := changeWetSuction_total hb (m := raise (x + pow10 q.WEV) q.YieldSt) (pow10_pos q.WEV) hst ht
    dsimp only
    rw [hc, ok_bind]
    split
    · rw [changevolume_total (lt_of_lt_of_le hy (le_raise _ _)) (by linarith), ok_bind]
      exact ⟨_, rfl⟩
    · obtain ⟨q', hq⟩ := staysDry_total (p := p) (stress := stress) (r := r) hx hy
      rw [hq, ok_bind]
      exact ⟨_, rfl⟩

theorem unloadPore_total {p : Par} {suction x : ℝ} {q : Pore} (hsu : 0 < suction) (hx : 0 < x) (hy : 0 < q.YieldSt) :
    ∃ z, unloadPore p suction x q = .ok z := by
  unfold unloadPore
  split
  · rw [changevolume_total hy (by linarith), ok_bind]
    exact ⟨_, rfl⟩
  · exact ⟨_, rfl⟩

theorem pyGet_nat (l : List ℝ) (k : ℕ) (h : k < l.length) : pyGet l (k : ℤ) = .ok l[k] := by
  unfold pyGet
  rw [if_pos (by positivity), Int.toNat_natCast, List.getElem?_eq_getElem h]

/-- Inside the suction range the reference table is read at a valid index, the floor of the position. -/
theorem rfSr_in (p : Par) (tab : List ℝ) (ss : ℝ) (hn : 2 ≤ p.numSr) (hr : p.minS < p.maxS) (hl : tab.length = p.numSr)
    (h1 : pow10 p.minS ≤ ss) (h2 : ss ≤ pow10 p.maxS) :
    ∃ k : ℕ, ∃ hk : k < tab.length, rfSr p tab ss = .ok tab[k] ∧
      (k : ℝ) ≤ (Real.logb 10 ss - p.minS) / ((p.maxS - p.minS) / ((p.numSr : ℝ) - 1)) ∧
      (Real.logb 10 ss - p.minS) / ((p.maxS - p.minS) / ((p.numSr : ℝ) - 1)) < k + 1 := by
  have hss : 0 < ss := lt_of_lt_of_le (pow10_pos _) h1
  have hn' : (2 : ℝ) ≤ p.numSr := by exact_mod_cast hn
  have l1 : p.minS ≤ Real.logb 10 ss := by
    have := Real.logb_le_logb_of_le (b := 10) (by norm_num) (pow10_pos _) h1
    rwa [logb_pow10] at this
  have l2 : Real.logb 10 ss ≤ p.maxS := by
    have := Real.logb_le_logb_of_le (b := 10) (by norm_num) hss h2
    rwa [logb_pow10] at this
  have hd : 0 < (p.maxS - p.minS) / ((p.numSr : ℝ) - 1) := div_pos (by linarith) (by linarith)
  set x := (Real.logb 10 ss - p.minS) / ((p.maxS - p.minS) / ((p.numSr : ℝ) - 1)) with hx
  have hx0 : 0 ≤ x := div_nonneg (by linarith) hd.le
  have hx1 : x ≤ (p.numSr : ℝ) - 1 := by
    rw [hx, div_le_iff₀ hd]
    have : ((p.numSr : ℝ) - 1) * ((p.maxS - p.minS) / ((p.numSr : ℝ) - 1)) = p.maxS - p.minS := by
      have h0 : (p.numSr : ℝ) - 1 ≠ 0 := by linarith
      field_simp
    linarith
  have hk : ⌊x⌋₊ < tab.length := by
    rw [hl]
    have : (⌊x⌋₊ : ℝ) ≤ x := Nat.floor_le hx0
    have : (⌊x⌋₊ : ℝ) < p.numSr := by linarith
    exact_mod_cast this
  refine ⟨⌊x⌋₊, hk, ?_, Nat.floor_le hx0, Nat.lt_floor_add_one x⟩
  unfold rfSr
  rw [log10_pos hss, ok_bind, if_neg (by linarith), if_neg hd.ne']
  have : pyInt x = ((⌊x⌋₊ : ℕ) : ℤ) := by
    unfold pyInt
    rw [if_pos hx0, Int.natCast_floor_eq_floor hx0]
  rw [← hx, this, pyGet_nat _ _ hk]

theorem dryRef_total {p : Par} {st : State} {ss : ℝ} (hv : Valid p st) (h1 : pow10 p.minS ≤ ss) (h2 : ss ≤ pow10 p.maxS) :
    ∃ c, dryRef p st ss = .ok c := by
  obtain ⟨k, hk, h, _⟩ := rfSr_in p st.Srdry ss hv.numSr hv.range hv.dryLen h1 h2
  unfold dryRef
  rw [h]
  split
  · exact ⟨_, rfl⟩
  split
  · rw [ok_bind]; split <;> exact ⟨_, rfl⟩
  · exact ⟨_, rfl⟩

theorem wetRef_total {p : Par} {st : State} {ss : ℝ} (hv : Valid p st) (h1 : pow10 p.minS ≤ ss) (h2 : ss ≤ pow10 p.maxS) :
    ∃ c, wetRef p st ss = .ok c := by
  obtain ⟨k, hk, h, _⟩ := rfSr_in p st.Srwet ss hv.numSr hv.range hv.wetLen h1 h2
  unfold wetRef
  rw [h]
  split
  · rw [ok_bind]; split <;> exact ⟨_, rfl⟩
  split
  · exact ⟨_, rfl⟩
  · exact ⟨_, rfl⟩

theorem mapM_total {α β : Type} {f : α → Except PyErr β} {l : List α} (h : ∀ a ∈ l, ∃ b, f a = .ok b) :
    ∃ r, l.mapM f = .ok r := by
  induction l with
  | nil => exact ⟨[], rfl⟩
  | cons a l ih =>
    obtain ⟨b, hb⟩ := h a (by simp)
    obtain ⟨r, hr⟩ := ih fun a ha => h a (by simp [ha])
    exact ⟨b :: r, by rw [List.mapM_cons, hb, hr]; rfl⟩

theorem op_total {p : Par} {o : Op} {st : State} (hv : Valid p st) (ho : OpIn p o) :
    ∃ st', o.run p st = .ok st' ∧ Valid p st' := by
  have key : ∃ st', o.run p st = .ok st' ∧ 0 < st'.Suction ∧ 0 < st'.Stress := by
    cases o with
    | dry ss =>
      have hss : 0 < ss := lt_of_lt_of_le (pow10_pos _) ho.1
      obtain ⟨c, hc⟩ := dryRef_total hv ho.1 ho.2
      obtain ⟨r, hr⟩ := mapM_total (l := st.f) (f := dryPore p st.Stress ss)
        fun q hq => dryPore_total hv.b hv.stress hss (hv.pores q hq).1
      have : ∃ st', drying p ss st = .ok st' := by unfold drying; rw [hc, ok_bind, hr, ok_bind]; exact ⟨_, rfl⟩
      obtain ⟨st', h⟩ := this
      obtain ⟨_, i1, i2, _⟩ := drying_inv h
      exact ⟨st', h, by rw [i1]; exact hss, by rw [i2]; exact hv.stress⟩
    | wet ss =>
      have hss : 0 < ss := lt_of_lt_of_le (pow10_pos _) ho.1
      obtain ⟨c, hc⟩ := wetRef_total hv ho.1 ho.2
      obtain ⟨r, hr⟩ := mapM_total (l := st.f) (f := wetPore p st.Stress st.RefSr ss)
        fun q hq => wetPore_total hv.b hv.stress hss (hv.pores q hq).1 (hv.pores q hq).2
      have : ∃ st', wetting p ss st = .ok st' := by unfold wetting; rw [hc, ok_bind, hr, ok_bind]; exact ⟨_, rfl⟩
      obtain ⟨st', h⟩ := this
      obtain ⟨_, i1, i2, _⟩ := wetting_inv h
      exact ⟨st', h, by rw [i1]; exact hss, by rw [i2]; exact hv.stress⟩
    | load x =>
      obtain ⟨r, hr⟩ := mapM_total (l := st.f) (f := loadPore p st.Stress st.Suction st.RefSr x)
        fun q hq => loadPore_total hv.b hv.stress hv.suction ho (hv.pores q hq).1 (hv.pores q hq).2
      have : ∃ st', loading p x st = .ok st' := by unfold loading; rw [hr, ok_bind]; exact ⟨_, rfl⟩
      obtain ⟨st', h⟩ := this
      obtain ⟨_, i1, i2, _⟩ := loading_inv h
      exact ⟨st', h, by rw [i1]; exact hv.suction, by rw [i2]; exact ho⟩
    | unload x =>
      obtain ⟨r, hr⟩ := mapM_total (l := st.f) (f := unloadPore p st.Suction x)
        fun q hq => unloadPore_total hv.suction ho (hv.pores q hq).1
      have : ∃ st', unloading p x st = .ok st' := by unfold unloading; rw [hr, ok_bind]; exact ⟨_, rfl⟩
      obtain ⟨st', h⟩ := this
      obtain ⟨_, i1, i2, _⟩ := unloading_inv h
      exact ⟨st', h, by rw [i1]; exact hv.suction, by rw [i2]; exact ho⟩
  obtain ⟨st', h, h1, h2⟩ := key
  obtain ⟨e, d, w, _⟩ := op_evolves h
  refine ⟨st', h, hv.b, hv.numSr, hv.range, by rw [d, hv.dryLen], by rw [w, hv.wetLen], h1, h2, fun q' hq' => ?_⟩
  obtain ⟨q, hq, hqq⟩ := mem_of_f2 e q' hq'
  refine ⟨lt_of_lt_of_le (hv.pores q hq).1 hqq.yield, ?_⟩
  unfold temp2
  rw [hqq.group.1]
  exact (hv.pores q hq).2

/-- **C193.**  From a valid state no history of operations with suctions inside the table range and positive net stresses
raises an exception, and the state stays valid. -/
theorem C193_histories_succeed (p : Par) (ops : List Op) (hops : ∀ o ∈ ops, OpIn p o) (st : State) (hv : Valid p st) :
    ∃ st', runOps p ops st = .ok st' ∧ Valid p st' := by
  unfold runOps
  induction ops generalizing st with
  | nil => exact ⟨st, rfl, hv⟩
  | cons o ops ih =>
    obtain ⟨s1, h1, v1⟩ := op_total hv (hops o (by simp))
    obtain ⟨s2, h2, v2⟩ := ih (fun o ho => hops o (by simp [ho])) s1 v1
    exact ⟨s2, by rw [List.foldlM_cons, h1, ok_bind, h2], v2⟩

end Geotecha.Epus
