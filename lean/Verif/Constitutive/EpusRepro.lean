import Verif.Constitutive.EpusTables

/-!
# Reproducibility and totality of `Calresults`
-/

set_option autoImplicit false
set_option linter.unusedVariables false

namespace Geotecha.Epus

/-- Two computations agree up to a relation: both fail with the same exception or both succeed with related values. -/
def RelE {α β : Type} (R : α → β → Prop) : Except PyErr α → Except PyErr β → Prop
  | .ok a, .ok b => R a b
  | .error e, .error e' => e = e'
  | _, _ => False

theorem RelE.bind {α β γ δ : Type} {R : α → β → Prop} {S : γ → δ → Prop} {x : Except PyErr α} {y : Except PyErr β}
    {f : α → Except PyErr γ} {g : β → Except PyErr δ} (h : RelE R x y) (hf : ∀ a b, R a b → RelE S (f a) (g b)) :
    RelE S (x >>= f) (y >>= g) := by
  cases x <;> cases y <;> simp only [RelE] at h
  · subst h; exact rfl
  · exact hf _ _ h

theorem RelE.bind' {α β γ δ : Type} {R : α → β → Prop} {S : γ → δ → Prop} {x : Except PyErr α} {y : Except PyErr β}
    {f : α → Except PyErr γ} {g : β → Except PyErr δ} (h : RelE R x y)
    (hf : ∀ a b, x = .ok a → y = .ok b → R a b → RelE S (f a) (g b)) :
    RelE S (x >>= f) (y >>= g) := by
  cases x <;> cases y <;> simp only [RelE] at h
  · subst h; exact rfl
  · exact hf _ _ rfl rfl h

theorem RelE.refl {α : Type} {R : α → α → Prop} (hR : ∀ a, R a a) (x : Except PyErr α) : RelE R x x := by
  cases x <;> simp [RelE, hR]

theorem foldlM_range_rel {β γ : Type} {f : β → ℕ → Except PyErr β} {g : γ → ℕ → Except PyErr γ} (P : ℕ → β → γ → Prop)
    (n : ℕ) (hs : ∀ i b c, i < n → P i b c → RelE (P (i + 1)) (f b i) (g c i)) (b : β) (c : γ) (h0 : P 0 b c) :
    RelE (P n) ((List.range n).foldlM f b) ((List.range n).foldlM g c) := by
  induction n with
  | zero => exact h0
  | succ n ih =>
    rw [List.range_succ, List.foldlM_append, List.foldlM_append]
    refine (ih fun i b c hi => hs i b c (by omega)).bind fun b' c' h => ?_
    simp only [List.foldlM_cons, List.foldlM_nil]
    exact (hs n b' c' (by omega) h).bind fun _ _ h => h

theorem foldlM_rel {α β γ : Type} {f : β → α → Except PyErr β} {g : γ → α → Except PyErr γ} (P : β → γ → Prop)
    (hs : ∀ a b c, P b c → RelE P (f b a) (g c a)) : ∀ (l : List α) (b : β) (c : γ), P b c →
    RelE P (l.foldlM f b) (l.foldlM g c)
  | [], b, c, h => h
  | a :: l, b, c, h => by
    rw [List.foldlM_cons, List.foldlM_cons]
    exact (hs a b c h).bind fun b' c' h' => foldlM_rel P hs l b' c' h'

/-- Two objects that differ at most in the reference saturation, the branch and the contents of the tables. -/
structure Sim (a b : State) : Prop where
  f : a.f = b.f
  suction : a.Suction = b.Suction
  stress : a.Stress = b.Stress
  errocc : a.errocc = b.errocc
  dry : a.Srdry.length = b.Srdry.length
  wet : a.Srwet.length = b.Srwet.length
  ca : a.Curveon ∈ [1, 2, 3]
  cb : b.Curveon ∈ [1, 2, 3]

theorem pyGet_rel {l m : List ℝ} (h : l.length = m.length) (i : ℤ) : RelE (fun _ _ => True) (pyGet l i) (pyGet m i) := by
  unfold pyGet
  split
  · by_cases hi : i.toNat < l.length
    · rw [List.getElem?_eq_getElem hi, List.getElem?_eq_getElem (h ▸ hi)]; trivial
    · rw [List.getElem?_eq_none (by omega), List.getElem?_eq_none (by omega)]; rfl
  · rw [h]
    split
    · by_cases hi : m.length - (-i).toNat < m.length
      · rw [List.getElem?_eq_getElem (by omega : m.length - (-i).toNat < l.length), List.getElem?_eq_getElem hi]; trivial
      · rw [List.getElem?_eq_none (by omega), List.getElem?_eq_none (by omega)]; rfl
    · rfl

theorem rfSr_rel {p : Par} {l m : List ℝ} (h : l.length = m.length) (ss : ℝ) :
    RelE (fun _ _ => True) (rfSr p l ss) (rfSr p m ss) := by
  unfold rfSr
  refine (RelE.refl (R := Eq) (fun _ => rfl) (log10 ss)).bind fun a b hab => ?_
  subst hab
  split
  · rfl
  split
  · rfl
  exact pyGet_rel h _

theorem dryRef_rel {p : Par} {a b : State} (h : Sim a b) (ss : ℝ) :
    RelE (fun x y : ℕ × ℝ => x.1 ∈ [1, 2, 3] ∧ y.1 ∈ [1, 2, 3]) (dryRef p a ss) (dryRef p b ss) := by
  have key : ∀ s : State, s.Curveon ∈ [1, 2, 3] → ∃ F : ℝ → ℕ × ℝ, (∀ r, (F r).1 ∈ [1, 2, 3]) ∧
      dryRef p s ss = rfSr p s.Srdry ss >>= fun r => .ok (F r) := by
    intro s hs
    unfold dryRef
    by_cases h1 : s.Curveon = 1
    · rw [if_pos h1]; exact ⟨fun r => (1, r), by simp, rfl⟩
    · rw [if_neg h1, if_pos (by simp at hs; omega)]
      refine ⟨fun r => if s.RefSr ≤ r then (2, s.RefSr) else (1, r), fun r => by dsimp only; split <;> simp, ?_⟩
      congr 1
      funext r
      beta_reduce
      split <;> rfl
  obtain ⟨F, hF, e1⟩ := key a h.ca
  obtain ⟨G, hG, e2⟩ := key b h.cb
  rw [e1, e2]
  exact (rfSr_rel h.dry ss).bind fun r r' _ => ⟨hF r, hG r'⟩

theorem wetRef_rel {p : Par} {a b : State} (h : Sim a b) (ss : ℝ) :
    RelE (fun x y : ℕ × ℝ => x.1 ∈ [1, 2, 3] ∧ y.1 ∈ [1, 2, 3]) (wetRef p a ss) (wetRef p b ss) := by
  have key : ∀ s : State, s.Curveon ∈ [1, 2, 3] → ∃ F : ℝ → ℕ × ℝ, (∀ r, (F r).1 ∈ [1, 2, 3]) ∧
      wetRef p s ss = rfSr p s.Srwet ss >>= fun r => .ok (F r) := by
    intro s hs
    unfold wetRef
    by_cases h1 : s.Curveon = 1 ∨ s.Curveon = 2
    · rw [if_pos h1]
      refine ⟨fun r => if r ≤ s.RefSr then (2, s.RefSr) else (3, r), fun r => by dsimp only; split <;> simp, ?_⟩
      congr 1
      funext r
      beta_reduce
      split <;> rfl
    · rw [if_neg h1, if_pos (by simp at hs; omega)]; exact ⟨fun r => (3, r), by simp, rfl⟩
  obtain ⟨F, hF, e1⟩ := key a h.ca
  obtain ⟨G, hG, e2⟩ := key b h.cb
  rw [e1, e2]
  exact (rfSr_rel h.wet ss).bind fun r r' _ => ⟨hF r, hG r'⟩

/-- The reference saturation cannot influence the pore groups. -/
def RefFree (p : Par) (st : State) : Prop := p.assumption ≠ 1 ∨ ∀ q ∈ st.f, st.Stress ≤ pow10 q.AEV

theorem staysDry_refFree {p : Par} {stress num r r' : ℝ} {q : Pore} (h : p.assumption ≠ 1 ∨ stress ≤ pow10 q.AEV) :
    staysDry p stress num r q = staysDry p stress num r' q := by
  unfold staysDry
  rcases h with h | h
  · rw [if_neg (fun h' => h h'.1), if_neg (fun h' => h h'.1)]
  · have : dryYield p stress num r q = dryYield p stress num r' q := by
      unfold dryYield
      rw [if_neg (not_lt.2 h), if_neg (not_lt.2 h)]
    rw [this]

theorem mapM_congr {α β : Type} {f g : α → Except PyErr β} : ∀ {l : List α}, (∀ a ∈ l, f a = g a) → l.mapM f = l.mapM g
  | [], _ => rfl
  | a :: l, h => by
    rw [List.mapM_cons, List.mapM_cons, h a (by simp), mapM_congr fun a ha => h a (by simp [ha])]

theorem drying_sim {p : Par} {a b : State} (h : Sim a b) (ss : ℝ) : RelE Sim (drying p ss a) (drying p ss b) := by
  unfold drying
  refine (dryRef_rel h ss).bind fun x y hxy => ?_
  rw [h.f, h.stress]
  refine (RelE.refl (R := Eq) (fun _ => rfl) _).bind fun r r' hr => ?_
  subst hr
  exact ⟨rfl, rfl, rfl, by show (a.errocc || _) = (b.errocc || _); rw [h.errocc], h.dry, h.wet, hxy.1, hxy.2⟩

theorem wetting_sim {p : Par} {a b : State} (h : Sim a b) (hr : RefFree p b) (ss : ℝ) :
    RelE Sim (wetting p ss a) (wetting p ss b) := by
  unfold wetting
  refine (wetRef_rel h ss).bind fun x y hxy => ?_
  rw [h.f, h.stress, mapM_congr (f := wetPore p b.Stress a.RefSr ss) (g := wetPore p b.Stress b.RefSr ss)
    (l := b.f) fun q hq => by
      unfold wetPore
      rw [staysDry_refFree (r := a.RefSr) (r' := b.RefSr) (hr.imp id fun h => h q hq)]]
  refine (RelE.refl (R := Eq) (fun _ => rfl) _).bind fun r r' hr => ?_
  subst hr
  exact ⟨rfl, rfl, rfl, by show (a.errocc || _) = (b.errocc || _); rw [h.errocc], h.dry, h.wet, hxy.1, hxy.2⟩

theorem loading_sim {p : Par} {a b : State} (h : Sim a b) (hr : p.assumption ≠ 1) (x : ℝ) :
    RelE Sim (loading p x a) (loading p x b) := by
  unfold loading
  rw [h.f, h.stress, h.suction, mapM_congr (f := loadPore p b.Stress b.Suction a.RefSr x)
    (g := loadPore p b.Stress b.Suction b.RefSr x) (l := b.f) fun q hq => by
      unfold loadPore
      rw [staysDry_refFree (r := a.RefSr) (r' := b.RefSr) (Or.inl hr)]]
  refine (RelE.refl (R := Eq) (fun _ => rfl) _).bind fun r r' hr => ?_
  subst hr
  exact ⟨rfl, rfl, rfl, by show (a.errocc || _) = (b.errocc || _); rw [h.errocc], h.dry, h.wet, h.ca, h.cb⟩

theorem unloading_sim {p : Par} {a b : State} (h : Sim a b) (x : ℝ) :
    RelE Sim (unloading p x a) (unloading p x b) := by
  unfold unloading
  rw [h.f, h.suction]
  refine (RelE.refl (R := Eq) (fun _ => rfl) _).bind fun r r' hr => ?_
  subst hr
  exact ⟨rfl, rfl, rfl, by show (a.errocc || _) = (b.errocc || _); rw [h.errocc], h.dry, h.wet, h.ca, h.cb⟩

theorem slurryRow_aev (p : Par) (hr : p.minS ≤ p.maxS) (i : ℕ) : p.minS ≤ (slurryRow p i).AEV := by
  show p.minS ≤ i * interval p + p.minS
  have : 0 ≤ interval p := div_nonneg (by linarith) (Nat.cast_nonneg _)
  have := mul_nonneg (Nat.cast_nonneg (α := ℝ) i) this
  linarith

theorem low_stress {p : Par} {l : ℝ} (h : p.minS ≤ l) : pow10 p.minS / 1000 ≤ pow10 l := by
  have h1 : pow10 p.minS ≤ pow10 l := Real.rpow_le_rpow_of_exponent_le (by norm_num) h
  have := pow10_pos p.minS
  linarith

/-- Along the table construction: stress at its slurry value, air entry values at least `10**MinSuction`. -/
def LowStress (p : Par) (st : State) : Prop :=
  st.Stress = pow10 p.minS / 1000 ∧ ∀ q ∈ st.f, p.minS ≤ q.AEV

theorem LowStress.refFree {p : Par} {st : State} (h : LowStress p st) : RefFree p st :=
  Or.inr fun q hq => by rw [h.1]; exact low_stress (h.2 q hq)

theorem LowStress.step {p : Par} {st st' : State} (h : LowStress p st) (hs : st'.Stress = st.Stress)
    (he : List.Forall₂ Evolves st.f st'.f) : LowStress p st' :=
  ⟨hs.trans h.1, f2_mem_right he h.2 fun q q' hq hqq => by rw [hqq.group.1]; exact hq⟩

theorem list_ext_of {l m : List ℝ} (h : l.length = m.length)
    (he : ∀ k (hk : k < l.length) (hk' : k < m.length), l[k] = m[k]) : l = m := List.ext_getElem h he

theorem degreeSat_sim {p : Par} (hr : p.minS ≤ p.maxS) {e : Bool} {d w d' w' : List ℝ} (hd : d.length = p.numSr)
    (hd' : d'.length = p.numSr) (hw : w.length = p.numSr) (hw' : w'.length = p.numSr) :
    RelE (fun a b => a.errocc = b.errocc ∧ a.Srdry = b.Srdry ∧ a.Srwet = b.Srwet) (degreeSat p e d w) (degreeSat p e d' w') := by
  unfold degreeSat
  have h0 : RelE (fun a b => Sim a b ∧ LowStress p b ∧ a.Srdry.length = p.numSr ∧ a.Srwet.length = p.numSr)
      (slurry p e d w) (slurry p e d' w') := by
    unfold slurry
    refine (RelE.refl (R := Eq) (fun _ => rfl) _).bind fun r r' hr => ?_
    refine ⟨⟨rfl, rfl, rfl, rfl, by rw [hd, hd'], by rw [hw, hw'], by simp, by simp⟩, ⟨rfl, ?_⟩, hd, hw⟩
    intro q hq
    simp only [List.mem_map] at hq
    obtain ⟨i, _, rfl⟩ := hq
    exact slurryRow_aev p ‹_› i
  refine h0.bind fun a b hab => ?_
  have h1 := foldlM_range_rel (f := srDryStep p) (g := srDryStep p)
    (fun i a b => (Sim a b ∧ LowStress p b ∧ a.Srdry.length = p.numSr ∧ a.Srwet.length = p.numSr) ∧
      ∀ k (h1 : k < a.Srdry.length) (h2 : k < b.Srdry.length), k < i → a.Srdry[k] = b.Srdry[k]) p.numSr (by
    rintro i a b hi ⟨⟨hs, hl, h3, h4⟩, h5⟩
    unfold srDryStep
    refine (drying_sim hs _).bind' fun x y hx hy hxy => ?_
    obtain ⟨_, _, i3, _, _, i6, i7⟩ := drying_inv hx
    obtain ⟨_, _, j3, _, _, j6, j7⟩ := drying_inv hy
    have hev := (op_evolves (o := .dry _) hy).1
    refine ⟨⟨⟨hxy.f, hxy.suction, hxy.stress, hxy.errocc, by simp [hxy.dry], hxy.wet, hxy.ca, hxy.cb⟩,
      hl.step (st' := ⟨y.f, y.Suction, y.Stress, y.RefSr, y.Curveon, y.errocc, _, y.Srwet⟩) j3 hev, by simp [i6, h3], by simp [i7, h4]⟩, ?_⟩
    intro k hk hk' hki
    simp only [List.getElem_set, hxy.f]
    split
    · rfl
    · simp only [i6, j6]
      exact h5 k _ _ (by omega)) a b ⟨hab, by intro k h1 h2 h; omega⟩
  refine h1.bind fun a b hab => ?_
  have h2 := foldlM_range_rel (f := srWetStep p) (g := srWetStep p)
    (fun i a b => (Sim a b ∧ LowStress p b ∧ a.Srdry = b.Srdry ∧ a.Srwet.length = p.numSr) ∧
      ∀ k (h1 : k < a.Srwet.length) (h2 : k < b.Srwet.length), p.numSr - i ≤ k → a.Srwet[k] = b.Srwet[k]) p.numSr (by
    rintro i a b hi ⟨⟨hs, hl, h3, h4⟩, h5⟩
    unfold srWetStep
    refine (wetting_sim hs hl.refFree _).bind' fun x y hx hy hxy => ?_
    obtain ⟨_, _, i3, _, _, i6, i7⟩ := wetting_inv hx
    obtain ⟨_, _, j3, _, _, j6, j7⟩ := wetting_inv hy
    have hev := (op_evolves (o := .wet _) hy).1
    refine ⟨⟨⟨hxy.f, hxy.suction, hxy.stress, hxy.errocc, hxy.dry, by simp [hxy.wet], hxy.ca, hxy.cb⟩,
      hl.step (st' := ⟨y.f, y.Suction, y.Stress, y.RefSr, y.Curveon, y.errocc, y.Srdry, _⟩) j3 hev,
      by show x.Srdry = y.Srdry; rw [i6, j6, h3], by simp [i7, h4]⟩, ?_⟩
    intro k hk hk' hki
    simp only [List.getElem_set, hxy.f]
    split
    · rfl
    · simp only [i7, j7]
      exact h5 k _ _ (by omega)) a b ⟨⟨hab.1.1, hab.1.2.1, ?_, hab.1.2.2.2⟩, ?_⟩
  · revert h2
    generalize (List.range p.numSr).foldlM (srWetStep p) a = X
    generalize (List.range p.numSr).foldlM (srWetStep p) b = Y
    intro h2
    cases X <;> cases Y <;> simp only [RelE] at h2 ⊢
    · exact h2
    · refine ⟨h2.1.1.errocc, h2.1.2.2.1, list_ext_of h2.1.1.wet fun k hk hk' => h2.2 k hk hk' (by omega)⟩
  · exact list_ext_of hab.1.1.dry fun k hk hk' => hab.2 k hk hk' (by rw [hab.1.2.2.1] at hk; exact hk)
  · intro k hk hk' hki
    rw [hab.1.2.2.2] at hk
    omega

theorem suctionPt_sim {p : Par} (hp : p.assumption ≠ 1) (cs ct : ℝ) (stp : PathStep) (j : ℕ)
    (b c : State × List Pt) (h : Sim b.1 c.1 ∧ b.2 = c.2) :
    RelE (fun b c => Sim b.1 c.1 ∧ b.2 = c.2) (suctionPt p cs ct stp b j) (suctionPt p cs ct stp c j) := by
  unfold suctionPt
  dsimp only
  refine RelE.bind (R := Sim) ?_ fun x y hxy => ⟨hxy, by show b.2 ++ _ = c.2 ++ _; rw [h.2, hxy.f]⟩
  split
  · exact drying_sim h.1 _
  · exact wetting_sim h.1 (Or.inl hp) _

theorem stressPt_sim {p : Par} (hp : p.assumption ≠ 1) (cs ct : ℝ) (stp : PathStep) (j : ℕ)
    (b c : State × List Pt) (h : Sim b.1 c.1 ∧ b.2 = c.2) :
    RelE (fun b c => Sim b.1 c.1 ∧ b.2 = c.2) (stressPt p cs ct stp b j) (stressPt p cs ct stp c j) := by
  unfold stressPt
  dsimp only
  refine RelE.bind (R := Sim) ?_ fun x y hxy => ⟨hxy, by show b.2 ++ _ = c.2 ++ _; rw [h.2, hxy.f]⟩
  split
  · exact loading_sim h.1 hp _
  · exact unloading_sim h.1 _

theorem calStep_sim {p : Par} (hp : p.assumption ≠ 1) (stp : PathStep) (b c : Prog)
    (h : Sim b.st c.st ∧ b.cs = c.cs ∧ b.ct = c.ct ∧ b.pts = c.pts) :
    RelE (fun b c : Prog => Sim b.st c.st ∧ b.cs = c.cs ∧ b.ct = c.ct ∧ b.pts = c.pts) (calStep p b stp) (calStep p c stp) := by
  obtain ⟨h1, h2, h3, h4⟩ := h
  unfold calStep
  refine (RelE.refl (R := fun _ _ => True) (fun _ => trivial) _).bind fun _ _ _ => ?_
  split
  · rfl
  split
  · rw [h2, h3]
    refine (RelE.refl (R := fun _ _ => True) (fun _ => trivial) _).bind fun _ _ _ => ?_
    exact (foldlM_rel (fun b c : State × List Pt => Sim b.1 c.1 ∧ b.2 = c.2)
      (fun j b c h => stressPt_sim hp _ _ stp j b c h) _ (b.st, []) (c.st, []) ⟨h1, rfl⟩).bind
      fun x y hxy => ⟨hxy.1, rfl, rfl, by show b.pts ++ _ = c.pts ++ _; rw [h4, hxy.2]⟩
  · rw [h2, h3]
    refine (RelE.refl (R := fun _ _ => True) (fun _ => trivial) _).bind fun _ _ _ => ?_
    exact (foldlM_rel (fun b c : State × List Pt => Sim b.1 c.1 ∧ b.2 = c.2)
      (fun j b c h => suctionPt_sim hp _ _ stp j b c h) _ (b.st, []) (c.st, []) ⟨h1, rfl⟩).bind
      fun x y hxy => ⟨hxy.1, rfl, rfl, by show b.pts ++ _ = c.pts ++ _; rw [h4, hxy.2]⟩

/-- **C197.**  `Calresults` is reproducible: its recorded results, and the exception if it raises one, do not depend on
what the reference tables of the object contained before, hence not on earlier calls on the same object.  With
`Assumption = 1` the final object is the same as well. -/
theorem C197_rerun_reproducible (p : Par) (hr : p.minS ≤ p.maxS) (path : List PathStep) (d w d' w' : List ℝ)
    (hd : d.length = p.numSr) (hd' : d'.length = p.numSr) (hw : w.length = p.numSr) (hw' : w'.length = p.numSr) :
    (calresults p path d w).map (·.2) = (calresults p path d' w').map (·.2) ∧
    (p.assumption = 1 → calresults p path d w = calresults p path d' w') := by
  by_cases hp : p.assumption = 1
  · have key : calresults p path d w = calresults p path d' w' := by
      unfold calresults startTables
      rw [if_pos hp, if_pos hp]
      have := degreeSat_sim hr (e := false) hd hd' hw hw'
      revert this
      generalize degreeSat p false d w = X
      generalize degreeSat p false d' w' = Y
      intro h
      cases X <;> cases Y <;> simp only [RelE] at h
      · subst h; rfl
      · simp only [ok_bind]
        rw [h.1, h.2.1, h.2.2]
    exact ⟨by rw [key], fun _ => key⟩
  · refine ⟨?_, fun h => absurd h hp⟩
    have : RelE (fun x y : State × List (List Pt) => x.2 = y.2) (calresults p path d w) (calresults p path d' w') := by
      unfold calresults startTables
      rw [if_neg hp, if_neg hp]
      simp only [ok_bind]
      have hs : RelE Sim (slurry p false d w) (slurry p false d' w') := by
        unfold slurry
        refine (RelE.refl (R := Eq) (fun _ => rfl) _).bind fun r r' hr => ?_
        exact ⟨rfl, rfl, rfl, rfl, by rw [hd, hd'], by rw [hw, hw'], by simp, by simp⟩
      refine hs.bind fun a b hab => ?_
      refine (foldlM_rel _ (calStep_sim hp) path ⟨a, a.Suction, a.Stress, []⟩ ⟨b, b.Suction, b.Stress, []⟩
        ⟨hab, hab.suction, hab.stress, rfl⟩).bind fun x y hxy => ?_
      show x.pts.map _ = y.pts.map _
      rw [hxy.2.2.2]
    revert this
    generalize calresults p path d w = X
    generalize calresults p path d' w' = Y
    intro h
    cases X <;> cases Y <;> simp only [RelE] at h
    · subst h; rfl
    · exact congrArg Except.ok h

end Geotecha.Epus
