import Verif.Constitutive.EpusBase

/-!
# Histories of the EPUS model: what every sequence of drying, wetting, loading and unloading preserves
-/

set_option autoImplicit false
set_option linter.unusedVariables false

namespace Geotecha.Epus

theorem f2_map_fst {α β γ : Type} {R : α → β × γ → Prop} {l : List α} {r : List (β × γ)} (h : List.Forall₂ R l r) :
    List.Forall₂ (fun a b => ∃ c, R a (b, c)) l (r.map (·.1)) := by
  induction h with
  | nil => exact .nil
  | @cons a b l r hb _ ih => exact .cons ⟨b.2, hb⟩ ih

theorem drying_inv {p : Par} {ss : ℝ} {st st' : State} (h : drying p ss st = .ok st') :
    List.Forall₂ (fun q q' => ∃ e, dryPore p st.Stress ss q = .ok (q', e)) st.f st'.f ∧ st'.Suction = ss ∧
      st'.Stress = st.Stress ∧ dryRef p st ss = .ok (st'.Curveon, st'.RefSr) ∧ (st.errocc = true → st'.errocc = true) ∧
      st'.Srdry = st.Srdry ∧ st'.Srwet = st.Srwet := by
  unfold drying at h
  rw [bind_ok] at h
  obtain ⟨cr, hcr, h⟩ := h
  rw [bind_ok] at h
  obtain ⟨rs, hrs, h⟩ := h
  cases h
  exact ⟨f2_map_fst (mapM_f2 hrs), rfl, rfl, hcr, fun h => by simp [h], rfl, rfl⟩

theorem wetting_inv {p : Par} {ss : ℝ} {st st' : State} (h : wetting p ss st = .ok st') :
    List.Forall₂ (fun q q' => ∃ e, wetPore p st.Stress st.RefSr ss q = .ok (q', e)) st.f st'.f ∧ st'.Suction = ss ∧
      st'.Stress = st.Stress ∧ wetRef p st ss = .ok (st'.Curveon, st'.RefSr) ∧ (st.errocc = true → st'.errocc = true) ∧
      st'.Srdry = st.Srdry ∧ st'.Srwet = st.Srwet := by
  unfold wetting at h
  rw [bind_ok] at h
  obtain ⟨cr, hcr, h⟩ := h
  rw [bind_ok] at h
  obtain ⟨rs, hrs, h⟩ := h
  cases h
  exact ⟨f2_map_fst (mapM_f2 hrs), rfl, rfl, hcr, fun h => by simp [h], rfl, rfl⟩

theorem loading_inv {p : Par} {x : ℝ} {st st' : State} (h : loading p x st = .ok st') :
    List.Forall₂ (fun q q' => ∃ e, loadPore p st.Stress st.Suction st.RefSr x q = .ok (q', e)) st.f st'.f ∧
      st'.Suction = st.Suction ∧ st'.Stress = x ∧ st'.Curveon = st.Curveon ∧ st'.RefSr = st.RefSr ∧
      (st.errocc = true → st'.errocc = true) ∧ st'.Srdry = st.Srdry ∧ st'.Srwet = st.Srwet := by
  unfold loading at h
  rw [bind_ok] at h
  obtain ⟨rs, hrs, h⟩ := h
  cases h
  exact ⟨f2_map_fst (mapM_f2 hrs), rfl, rfl, rfl, rfl, fun h => by simp [h], rfl, rfl⟩

theorem unloading_inv {p : Par} {x : ℝ} {st st' : State} (h : unloading p x st = .ok st') :
    List.Forall₂ (fun q q' => ∃ e, unloadPore p st.Suction x q = .ok (q', e)) st.f st'.f ∧
      st'.Suction = st.Suction ∧ st'.Stress = x ∧ st'.Curveon = st.Curveon ∧ st'.RefSr = st.RefSr ∧
      st'.errocc = st.errocc ∧ st'.Srdry = st.Srdry ∧ st'.Srwet = st.Srwet := by
  unfold unloading at h
  rw [bind_ok] at h
  obtain ⟨rs, hrs, h⟩ := h
  cases h
  refine ⟨f2_map_fst (mapM_f2 hrs), rfl, rfl, rfl, rfl, ?_, rfl, rfl⟩
  have : rs.any (·.2) = false := by
    have hf := mapM_f2 hrs
    clear hrs
    generalize st.f = l0 at hf
    induction hf with
    | nil => rfl
    | @cons a b l r hb _ ih =>
      rw [List.any_cons, ih, (unloadPore_inv (q' := b.1) (e := b.2) hb).1]; rfl
  show (st.errocc || rs.any (·.2)) = st.errocc
  rw [this, Bool.or_false]

/-- Specification: how one pore group may change along any history.  Its identity is fixed, its yield stress never
decreases, its air-entrapped flag is never cleared, and a non-negative volume stays non-negative. -/
structure Evolves (q q' : Pore) : Prop where
  group : SameGroup q q'
  yield : q.YieldSt ≤ q'.YieldSt
  air : q.Airentrapped = true → q'.Airentrapped = true
  volume : 0 ≤ q.RVC → 0 ≤ q'.RVC
  dryAir : (q.Filled = false → q.Airentrapped = true) → q'.Filled = false → q'.Airentrapped = true

theorem Evolves.rfl' (q : Pore) : Evolves q q := ⟨.rfl' q, le_rfl, id, id, fun h h' => h h'⟩

theorem Evolves.trans {a b c : Pore} (h1 : Evolves a b) (h2 : Evolves b c) : Evolves a c :=
  ⟨h1.group.trans h2.group, h1.yield.trans h2.yield, fun h => h2.air (h1.air h), fun h => h2.volume (h1.volume h),
    fun h => h2.dryAir (h1.dryAir h)⟩

theorem dryPore_evolves {p : Par} {stress ss : ℝ} {q q' : Pore} {e : Bool} (h : dryPore p stress ss q = .ok (q', e)) :
    Evolves q q' := by
  rcases dryPore_inv h with ⟨_, rfl, _⟩ | ⟨_, g, c1, c2, _, _, _, hy, _, _, hv, hf, ha, _⟩ | ⟨_, g, c1, _, _, hy, _, _, hv, hf, ha, _⟩
  · exact .rfl' q'
  · exact ⟨g, by rw [hy]; exact le_max_right _ _, fun _ => ha, fun _ => by rw [hv]; exact vol_nonneg _ _ _ _ _ _,
      fun _ _ => ha⟩
  · exact ⟨g, by rw [hy]; exact le_max_right _ _, fun h => by rw [ha, h], fun _ => by rw [hv]; exact vol_nonneg _ _ _ _ _ _,
      fun _ h => by rw [hf] at h; exact absurd h (by simp)⟩

theorem staysDry_evolves {p : Par} {stress num r : ℝ} {q q' : Pore} (h : staysDry p stress num r q = .ok q') :
    Evolves q q' := by
  rcases staysDry_inv h with rfl | ⟨_, _, g, hy, _, _, hv, hf, ha⟩
  · exact .rfl' q'
  · exact ⟨g, hy.le, fun h => by rw [ha, h], fun _ => by rw [hv]; exact vol_nonneg _ _ _ _ _ _,
      fun h h' => by rw [ha]; exact h (hf ▸ h')⟩

theorem wetPore_evolves {p : Par} {stress r ss : ℝ} {q q' : Pore} {e : Bool} (h : wetPore p stress r ss q = .ok (q', e)) :
    Evolves q q' := by
  rcases wetPore_inv h with ⟨_, g, hy, _, _, hv, hf, ha, _⟩ | ⟨_, g, c, _, _, hy, _, _, hv, hf, ha, _⟩ | ⟨_, c, _, _, hs, _⟩
  · exact ⟨g, by rw [hy]; exact le_max_right _ _, fun h => by rw [ha, h], fun _ => by rw [hv]; exact vol_nonneg _ _ _ _ _ _,
      fun _ h => by rw [hf] at h; exact absurd h (by simp)⟩
  · exact ⟨g, by rw [hy]; exact le_max_right _ _, fun h => by rw [ha, h], fun _ => by rw [hv]; exact vol_nonneg _ _ _ _ _ _,
      fun _ h => by rw [hf] at h; exact absurd h (by simp)⟩
  · exact staysDry_evolves hs

theorem loadPore_evolves {p : Par} {stress suction r x : ℝ} {q q' : Pore} {e : Bool}
    (h : loadPore p stress suction r x q = .ok (q', e)) : Evolves q q' := by
  rcases loadPore_inv h with ⟨_, g, hy, _, _, hv, hf, ha, _⟩ | ⟨_, g, c, _, _, hy, _, _, hv, hf, ha, _⟩ | ⟨_, c, _, _, hs, _⟩
  · exact ⟨g, by rw [hy]; exact le_max_right _ _, fun h => by rw [ha, h], fun _ => by rw [hv]; exact vol_nonneg _ _ _ _ _ _,
      fun _ h => by rw [hf] at h; exact absurd h (by simp)⟩
  · exact ⟨g, by rw [hy]; exact le_max_right _ _, fun h => by rw [ha, h], fun _ => by rw [hv]; exact vol_nonneg _ _ _ _ _ _,
      fun _ h => by rw [hf] at h; exact absurd h (by simp)⟩
  · exact staysDry_evolves hs

theorem unloadPore_evolves {p : Par} {suction x : ℝ} {q q' : Pore} {e : Bool}
    (h : unloadPore p suction x q = .ok (q', e)) : Evolves q q' := by
  rcases unloadPore_inv h with ⟨_, ⟨_, rfl⟩ | ⟨_, g, hy, _, _, hv, hf, ha⟩⟩
  · exact .rfl' q'
  · exact ⟨g, hy.ge, fun h => by rw [ha, h], fun _ => by rw [hv]; exact vol_nonneg _ _ _ _ _ _,
      fun _ h => by rw [hf] at h; exact absurd h (by simp)⟩

theorem f2_trans {α : Type} {R : α → α → Prop} (hR : ∀ a b c, R a b → R b c → R a c) {l m n : List α}
    (h1 : List.Forall₂ R l m) (h2 : List.Forall₂ R m n) : List.Forall₂ R l n := by
  induction h1 generalizing n with
  | nil => cases h2; exact .nil
  | cons ha _ ih => cases h2 with | cons hb h2 => exact .cons (hR _ _ _ ha hb) (ih h2)

theorem f2_refl {α : Type} {R : α → α → Prop} (hR : ∀ a, R a a) (l : List α) : List.Forall₂ R l l := by
  induction l with
  | nil => exact .nil
  | cons a l ih => exact .cons (hR a) ih

theorem op_evolves {p : Par} {o : Op} {st st' : State} (h : o.run p st = .ok st') :
    List.Forall₂ Evolves st.f st'.f ∧ st'.Srdry = st.Srdry ∧ st'.Srwet = st.Srwet ∧
      (st.errocc = true → st'.errocc = true) := by
  cases o with
  | dry ss =>
    obtain ⟨hf, _, _, _, he, h1, h2⟩ := drying_inv h
    exact ⟨hf.imp fun _ _ ⟨_, h⟩ => dryPore_evolves h, h1, h2, he⟩
  | wet ss =>
    obtain ⟨hf, _, _, _, he, h1, h2⟩ := wetting_inv h
    exact ⟨hf.imp fun _ _ ⟨_, h⟩ => wetPore_evolves h, h1, h2, he⟩
  | load x =>
    obtain ⟨hf, _, _, _, _, he, h1, h2⟩ := loading_inv h
    exact ⟨hf.imp fun _ _ ⟨_, h⟩ => loadPore_evolves h, h1, h2, he⟩
  | unload x =>
    obtain ⟨hf, _, _, _, _, he, h1, h2⟩ := unloading_inv h
    exact ⟨hf.imp fun _ _ ⟨_, h⟩ => unloadPore_evolves h, h1, h2, fun h => by rw [he, h]⟩

/-- **C187.**  Along every history of drying, wetting, loading and unloading to arbitrary values: the pore groups keep
their number, order and identity; no yield stress ever decreases; an air-entrapped flag is never cleared; volumes stay
non-negative; a dry group is flagged air-entrapped whenever that held at the start; the reference saturation tables are
untouched; a reported input error stays reported. -/
theorem C187_history_invariants (p : Par) (ops : List Op) (st st' : State) (h : runOps p ops st = .ok st') :
    List.Forall₂ Evolves st.f st'.f ∧ st'.Srdry = st.Srdry ∧ st'.Srwet = st.Srwet ∧
      (st.errocc = true → st'.errocc = true) := by
  refine foldlM_inv (fun s => List.Forall₂ Evolves st.f s.f ∧ s.Srdry = st.Srdry ∧ s.Srwet = st.Srwet ∧
    (st.errocc = true → s.errocc = true)) ?_ ops st st' ⟨f2_refl Evolves.rfl' _, rfl, rfl, id⟩ h
  rintro b o b' ⟨h1, h2, h3, h4⟩ ho
  obtain ⟨g1, g2, g3, g4⟩ := op_evolves ho
  exact ⟨f2_trans (R := Evolves) (fun _ _ _ h h' => h.trans h') h1 g1, g2.trans h2, g3.trans h3, fun h => g4 (h4 h)⟩

/-! ## C188: which operations fill and which empty pores -/

/-- **C188, drying.**  Drying to suction `ss` fills nothing, leaves every dry group exactly as it was, and a filled group
stays filled exactly when its current air entry value `10**AEV / c` exceeds `ss`, where `c` is the pore-shape factor at
its yield stress; a group that empties is flagged air-entrapped. -/
theorem C188_drying_empties (p : Par) (ss : ℝ) (st st' : State) (h : drying p ss st = .ok st') :
    List.Forall₂ (fun q q' => (q.Filled = false → q' = q) ∧
      (q.Filled = true → ∃ c, changeSuction p st.Stress q.YieldSt (pow10 q.AEV) = .ok c ∧
        (q'.Filled = true ↔ ss < pow10 q.AEV / c.1) ∧
        (q'.Filled = false → q'.Airentrapped = true) ∧ (q'.Filled = true → q'.Airentrapped = q.Airentrapped)))
      st.f st'.f := by
  refine (drying_inv h).1.imp fun q q' ⟨e, h⟩ => ?_
  rcases dryPore_inv h with ⟨hf, rfl, _⟩ | ⟨hf, g, c1, c2, h1, hle, _, _, _, _, _, hf', ha, _⟩ |
    ⟨hf, g, c1, h1, hlt, _, _, _, _, hf', ha, _⟩
  · exact ⟨fun _ => rfl, fun h => by rw [hf] at h; exact absurd h (by simp)⟩
  · refine ⟨fun h => by rw [hf] at h; exact absurd h (by simp), fun _ => ⟨c1, h1, ?_, fun _ => ha, fun h => ?_⟩⟩
    · rw [hf']; simp [hle]
    · rw [hf'] at h; exact absurd h (by simp)
  · refine ⟨fun h => by rw [hf] at h; exact absurd h (by simp), fun _ => ⟨c1, h1, ?_, fun h => ?_, fun _ => ha⟩⟩
    · rw [hf']; simp [hlt]
    · rw [hf'] at h; exact absurd h (by simp)

/-- **C188, wetting.**  Wetting to suction `ss` empties nothing, and a dry group fills exactly when its current water
entry value `10**WEV / c` is at least `ss`. -/
theorem C188_wetting_fills (p : Par) (ss : ℝ) (st st' : State) (h : wetting p ss st = .ok st') :
    List.Forall₂ (fun q q' => (q.Filled = true → q'.Filled = true) ∧
      (q.Filled = false → ∃ c, changeWetSuction p st.Stress (max (st.Stress + pow10 q.WEV) q.YieldSt) (pow10 q.AEV)
        (pow10 q.WEV) = .ok c ∧ (q'.Filled = true ↔ ss ≤ pow10 q.WEV / c.1)) ∧ q'.Airentrapped = q.Airentrapped)
      st.f st'.f := by
  refine (wetting_inv h).1.imp fun q q' ⟨e, h⟩ => ?_
  rcases wetPore_inv h with ⟨hf, g, hy, _, _, hv, hf', ha, _⟩ | ⟨hf, g, c, hc, hle, hy, _, _, hv, hf', ha, _⟩ |
    ⟨hf, c, hc, hlt, hs, _⟩
  · exact ⟨fun _ => hf', fun h => by rw [hf] at h; exact absurd h (by simp), ha⟩
  · exact ⟨fun h => by rw [hf] at h; exact absurd h (by simp), fun _ => ⟨c, hc, by simp [hf', hle]⟩, ha⟩
  · have hq : q'.Filled = q.Filled ∧ q'.Airentrapped = q.Airentrapped := by
      rcases staysDry_inv hs with rfl | ⟨_, _, g, hy, _, _, hv, hf, ha⟩
      · exact ⟨rfl, rfl⟩
      · exact ⟨hf, ha⟩
    exact ⟨fun h => by rw [hf] at h; exact absurd h (by simp),
      fun _ => ⟨c, hc, by rw [hq.1, hf]; simp [hlt]⟩, hq.2⟩

/-- **C188, loading.**  Loading empties nothing, and a dry group fills exactly when its water entry value at the new
stress exceeds the current suction. -/
theorem C188_loading_fills (p : Par) (x : ℝ) (st st' : State) (h : loading p x st = .ok st') :
    List.Forall₂ (fun q q' => (q.Filled = true → q'.Filled = true) ∧
      (q.Filled = false → ∃ c, changeWetSuction p st.Stress (max (x + pow10 q.WEV) q.YieldSt) (pow10 q.AEV)
        (pow10 q.WEV) = .ok c ∧ (q'.Filled = true ↔ st.Suction < pow10 q.WEV / c.1)) ∧ q'.Airentrapped = q.Airentrapped)
      st.f st'.f := by
  refine (loading_inv h).1.imp fun q q' ⟨e, h⟩ => ?_
  rcases loadPore_inv h with ⟨hf, g, hy, _, _, hv, hf', ha, _⟩ | ⟨hf, g, c, hc, hle, hy, _, _, hv, hf', ha, _⟩ |
    ⟨hf, c, hc, hlt, hs, _⟩
  · exact ⟨fun _ => hf', fun h => by rw [hf] at h; exact absurd h (by simp), ha⟩
  · exact ⟨fun h => by rw [hf] at h; exact absurd h (by simp), fun _ => ⟨c, hc, by simp [hf', hle]⟩, ha⟩
  · have hq : q'.Filled = q.Filled ∧ q'.Airentrapped = q.Airentrapped := by
      rcases staysDry_inv hs with rfl | ⟨_, _, g, hy, _, _, hv, hf, ha⟩
      · exact ⟨rfl, rfl⟩
      · exact ⟨hf, ha⟩
    exact ⟨fun h => by rw [hf] at h; exact absurd h (by simp),
      fun _ => ⟨c, hc, by rw [hq.1, hf]; simp [hlt]⟩, hq.2⟩

/-- **C188, unloading.**  Unloading fills and empties nothing, changes no yield stress, and leaves dry groups exactly as
they were. -/
theorem C188_unloading_elastic (p : Par) (x : ℝ) (st st' : State) (h : unloading p x st = .ok st') :
    List.Forall₂ (fun q q' => q'.Filled = q.Filled ∧ q'.YieldSt = q.YieldSt ∧ q'.Airentrapped = q.Airentrapped ∧
      (q.Filled = false → q' = q)) st.f st'.f := by
  refine (unloading_inv h).1.imp fun q q' ⟨e, h⟩ => ?_
  rcases unloadPore_inv h with ⟨_, ⟨hf, rfl⟩ | ⟨hf, g, hy, _, _, hv, hf', ha⟩⟩
  · exact ⟨rfl, rfl, rfl, fun _ => rfl⟩
  · exact ⟨by rw [hf', hf], hy, ha, fun h => by rw [hf] at h; exact absurd h (by simp)⟩

/-- **C188, histories.**  A history without wetting and loading never fills a pore group; a history without drying never
empties one. -/
theorem C188_histories (p : Par) (ops : List Op) (st st' : State) (h : runOps p ops st = .ok st') :
    ((∀ o ∈ ops, (∃ s, o = .dry s) ∨ ∃ s, o = .unload s) →
      List.Forall₂ (fun q q' => q'.Filled = true → q.Filled = true) st.f st'.f) ∧
    ((∀ o ∈ ops, ∀ s, o ≠ .dry s) → List.Forall₂ (fun q q' => q.Filled = true → q'.Filled = true) st.f st'.f) := by
  unfold runOps at h
  induction ops generalizing st with
  | nil =>
    simp [List.foldlM, pure, Except.pure] at h; subst h
    exact ⟨fun _ => f2_refl (fun _ => id) _, fun _ => f2_refl (fun _ => id) _⟩
  | cons o ops ih =>
    rw [List.foldlM_cons, bind_ok] at h
    obtain ⟨s1, h1, h⟩ := h
    have ih' := ih s1 h
    refine ⟨fun hall => ?_, fun hall => ?_⟩
    · refine f2_trans (fun _ _ _ a b c => a (b c)) ?_ (ih'.1 fun o ho => hall o (by simp [ho]))
      rcases hall o (by simp) with ⟨s, rfl⟩ | ⟨s, rfl⟩
      · refine (C188_drying_empties p s st s1 h1).imp fun q q' hq hf => ?_
        cases e : q.Filled with
        | true => rfl
        | false => rw [hq.1 e] at hf; rw [hf] at e; exact absurd e (by simp)
      · exact (C188_unloading_elastic p s st s1 h1).imp fun q q' hq hf => by rw [← hq.1, hf]
    · refine f2_trans (fun _ _ _ a b c => b (a c)) ?_ (ih'.2 fun o ho => hall o (by simp [ho]))
      cases o with
      | dry s => exact absurd rfl (hall (.dry s) (by simp) s)
      | wet s => exact (C188_wetting_fills p s st s1 h1).imp fun q q' hq => hq.1
      | load s => exact (C188_loading_fills p s st s1 h1).imp fun q q' hq => hq.1
      | unload s => exact (C188_unloading_elastic p s st s1 h1).imp fun q q' hq hf => by rw [hq.1, hf]

/-! ## C189: the volume of a filled pore group is a function of its state -/

/-- Specification: in a settled state every filled pore group has the volume given by its yield stress and the sum of
the current suction and net stress. -/
def Settled (p : Par) (st : State) : Prop :=
  ∀ q ∈ st.f, q.Filled = true → q.RVC = vol p q.RV q.YieldSt (st.Suction + st.Stress) q.Ccp q.Csp

theorem mem_of_f2 {α β : Type} {R : α → β → Prop} {l : List α} {r : List β} (h : List.Forall₂ R l r) :
    ∀ b ∈ r, ∃ a ∈ l, R a b := by
  induction h with
  | nil => simp
  | @cons a b l r hab _ ih =>
    intro b' hb'
    rcases List.mem_cons.1 hb' with rfl | hb'
    · exact ⟨a, by simp, hab⟩
    · obtain ⟨a', ha', h⟩ := ih b' hb'
      exact ⟨a', by simp [ha'], h⟩

theorem op_settled {p : Par} {o : Op} {st st' : State} (h : o.run p st = .ok st') : Settled p st' := by
  intro q' hq' hf'
  cases o with
  | dry ss =>
    obtain ⟨hf, h1, h2, _⟩ := drying_inv h
    obtain ⟨q, _, e, h⟩ := mem_of_f2 hf q' hq'
    rw [h1, h2]
    rcases dryPore_inv h with ⟨hf, rfl, _⟩ | ⟨_, g, c1, c2, _, _, _, hy, _, _, hv, hf, ha, _⟩ | ⟨_, g, c1, _, _, hy, _, _, hv, hf, ha, _⟩
    · rw [hf] at hf'; exact absurd hf' (by simp)
    · rw [hf] at hf'; exact absurd hf' (by simp)
    · rw [hv, g.2.2.2.2.2.1, g.2.2.1, g.2.2.2.1, add_comm ss]
  | wet ss =>
    obtain ⟨hf, h1, h2, _⟩ := wetting_inv h
    obtain ⟨q, _, e, h⟩ := mem_of_f2 hf q' hq'
    rw [h1, h2]
    rcases wetPore_inv h with ⟨_, g, hy, _, _, hv, hf, ha, _⟩ | ⟨_, g, c, _, _, hy, _, _, hv, hf, ha, _⟩ | ⟨hd, c, _, _, hs, _⟩
    · rw [hv, g.2.2.2.2.2.1, g.2.2.1, g.2.2.2.1, add_comm ss]
    · rw [hv, g.2.2.2.2.2.1, g.2.2.1, g.2.2.2.1, add_comm ss]
    · exfalso
      rcases staysDry_inv hs with rfl | ⟨_, _, g, hy, _, _, hv, hf, ha⟩
      · rw [hd] at hf'; exact absurd hf' (by simp)
      · rw [hf, hd] at hf'; exact absurd hf' (by simp)
  | load x =>
    obtain ⟨hf, h1, h2, _⟩ := loading_inv h
    obtain ⟨q, _, e, h⟩ := mem_of_f2 hf q' hq'
    rw [h1, h2]
    rcases loadPore_inv h with ⟨_, g, hy, _, _, hv, hf, ha, _⟩ | ⟨_, g, c, _, _, hy, _, _, hv, hf, ha, _⟩ | ⟨hd, c, _, _, hs, _⟩
    · rw [hv, g.2.2.2.2.2.1, g.2.2.1, g.2.2.2.1]
    · rw [hv, g.2.2.2.2.2.1, g.2.2.1, g.2.2.2.1]
    · exfalso
      rcases staysDry_inv hs with rfl | ⟨_, _, g, hy, _, _, hv, hf, ha⟩
      · rw [hd] at hf'; exact absurd hf' (by simp)
      · rw [hf, hd] at hf'; exact absurd hf' (by simp)
  | unload x =>
    obtain ⟨hf, h1, h2, _⟩ := unloading_inv h
    obtain ⟨q, _, e, h⟩ := mem_of_f2 hf q' hq'
    rw [h1, h2]
    rcases unloadPore_inv h with ⟨_, ⟨hd, rfl⟩ | ⟨_, g, hy, _, _, hv, hf, ha⟩⟩
    · rw [hd] at hf'; exact absurd hf' (by simp)
    · rw [hv, hy, g.2.2.2.2.2.1, g.2.2.1, g.2.2.2.1]

/-- **C189.**  After any non-empty history the volume of every water-filled pore group depends on the past only through
its yield stress: it is the closed-form volume at the current sum of suction and net stress. -/
theorem C189_volume_is_state_function (p : Par) (ops : List Op) (hne : ops ≠ []) (st st' : State)
    (h : runOps p ops st = .ok st') : Settled p st' := by
  unfold runOps at h
  induction ops generalizing st with
  | nil => exact absurd rfl hne
  | cons o ops ih =>
    rw [List.foldlM_cons, bind_ok] at h
    obtain ⟨s1, h1, h⟩ := h
    by_cases ho : ops = []
    · subst ho
      simp [List.foldlM, pure, Except.pure] at h; subst h
      exact op_settled h1
    · exact ih ho s1 h

end Geotecha.Epus
