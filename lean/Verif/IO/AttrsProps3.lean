import Verif.IO.AttrsProps2
import Verif.IO.Setups

/-! # C62: loads of a checked spectral consolidation input -/

set_option linter.unusedVariables false
namespace Geotecha.IO

/-- The attributes of one kind of load are usable together: all `None`, or all lists of one length. -/
def LoadReady (o : Obj) (vs : List String) : Prop :=
  (∀ v ∈ vs, Absent o v) ∨ ∃ n, ∀ v ∈ vs, ∃ l, o v = some (.list l) ∧ l.length = n

/-- All attribute names a configuration mentions. -/
def Setup.names (s : Setup) : List String :=
  s.zeroOrAll.flatten ++ s.atLeastOne.flatten ++ s.oneImplies.flatten ++ s.lists ++ s.sameLen.flatten ++ s.sameLimits.flatten ++ s.lenPairs.flatten

/-- Decidable version of `HeadsNotTails`. -/
def headsOk (gs : List (List String)) : Bool := gs.all fun g => gs.all fun g' => match g, g' with
  | v :: _, _ :: ws' => !(ws'.contains v)
  | _, _ => true

theorem headsOk_spec {gs : List (List String)} (h : headsOk gs = true) : HeadsNotTails gs := by
  intro v ws v' ws' h1 h2 hm
  unfold headsOk at h
  rw [List.all_eq_true] at h
  have := h _ h1
  rw [List.all_eq_true] at this
  have := this _ h2
  simp at this
  exact this hm

/-- A depth/time/frequency load is fully covered by the rules of `s`. -/
def tripleOk (s : Setup) (d t p : String) : Bool :=
  headsOk s.sameLen && s.zeroOrAll.contains [d, t] && s.sameLen.contains [t, p] && s.oneImplies.contains [p, d, t] &&
  (s.lenPairs.contains [d, t] || s.lenPairs.contains [t, d]) && (s.lenPairs.contains [t, p] || s.lenPairs.contains [p, t]) &&
  s.lists.contains d && s.lists.contains t && s.lists.contains p &&
  s.sameLen.all fun g => match g with
    | [] => true
    | v :: ws => !(ws.contains d) && !(ws.contains t) && (!(ws.contains p) || v == t)

/-- A time/frequency load is fully covered by the rules of `s`. -/
def pairOk (s : Setup) (t p : String) : Bool :=
  headsOk s.sameLen && s.sameLen.contains [t, p] && s.oneImplies.contains [p, t] &&
  (s.lenPairs.contains [t, p] || s.lenPairs.contains [p, t]) &&
  s.lists.contains t && s.lists.contains p &&
  s.sameLen.all fun g => match g with
    | [] => true
    | v :: ws => !(ws.contains t) && (!(ws.contains p) || v == t)

structure Facts (s : Setup) (o o' : Obj) : Prop where
  sound : ¬ Violated o s.zeroOrAll s.atLeastOne s.oneImplies
  lists : ∀ v ∈ s.lists, ∃ x, o' v = some x ∧ (x.isNone = true ∨ x.isList = true)
  given : ∀ v, Given o v → Given o' v
  pairs : ∀ v1 v2, [v1, v2] ∈ s.lenPairs → Given o' v1 → Given o' v2 → ∃ a b n, o' v1 = some a ∧ o' v2 = some b ∧ a.len? = some n ∧ b.len? = some n
  filled : HeadsNotTails s.sameLen → ∀ v ws, v :: ws ∈ s.sameLen → Given o v → ∀ w ∈ ws, Given o' w
  kept : HeadsNotTails s.sameLen → ∀ w, Absent o w → Absent o' w ∨ ∃ v ws, v :: ws ∈ s.sameLen ∧ w ∈ ws ∧ Given o v

theorem facts {s : Setup} {o o' : Obj} (h : checkInput s o = .ok o') (hex : AllExist o s.names) : Facts s o o' := by
  have m : ∀ {v}, v ∈ s.zeroOrAll.flatten ∨ v ∈ s.atLeastOne.flatten ∨ v ∈ s.oneImplies.flatten ∨ v ∈ s.lists ∨ v ∈ s.lenPairs.flatten → v ∈ s.names := by
    intro v hv
    unfold Setup.names
    simp only [List.mem_append]
    tauto
  have h1 : ∀ g ∈ s.zeroOrAll ++ s.atLeastOne ++ s.oneImplies, AllExist o g := by
    intro g hg v hv
    apply hex
    apply m
    simp only [List.mem_append] at hg
    rcases hg with (hg | hg) | hg
    · exact Or.inl (List.mem_flatten.2 ⟨g, hg, hv⟩)
    · exact Or.inr (Or.inl (List.mem_flatten.2 ⟨g, hg, hv⟩))
    · exact Or.inr (Or.inr (Or.inl (List.mem_flatten.2 ⟨g, hg, hv⟩)))
  have h2 : AllExist o s.lists := fun v hv => hex v (m (by tauto))
  have h3 : ∀ p ∈ s.lenPairs, AllExist o p := fun p hp v hv => hex v (m (by have := List.mem_flatten.2 ⟨p, hp, hv⟩; tauto))
  obtain ⟨a1, a2, a3, a4, a5⟩ := C61_sound s o o' h h1 h2 h3
  obtain ⟨b1, o1, b2, b3, b4, b5⟩ := checkInput_inv h
  obtain ⟨o1', b2', hw⟩ := checkIsList_force s.lists o h2
  rw [b2] at b2'; cases b2'
  have hwn : ∀ x : Val, (wrapped x).isNone = x.isNone := by intro x; cases x <;> rfl
  have gg : ∀ w, Given o w ↔ Given o1 w := by
    intro w
    unfold Given
    rw [hw]
    split_ifs
    · constructor
      · rintro ⟨x, hx, hn⟩
        exact ⟨wrapped x, by rw [hx]; rfl, by rw [hwn]; exact hn⟩
      · rintro ⟨x, hx, hn⟩
        obtain ⟨y, hy, rfl⟩ := Option.map_eq_some_iff.1 hx
        exact ⟨y, hy, by rw [hwn] at hn; exact hn⟩
    · exact Iff.rfl
  have aa : ∀ w, Absent o w → Absent o1 w := by
    intro w ha
    unfold Absent at ha ⊢
    rw [hw, ha]
    split_ifs <;> rfl
  obtain ⟨f1, f2, f3⟩ := forceSameLen_spec b3
  refine ⟨a1, a2, a4, ?_, ?_, ?_⟩
  · intro v1 v2 hp
    obtain ⟨u1, u2, he, hh⟩ := a5 _ hp
    simp only [List.cons.injEq, and_true] at he
    obtain ⟨rfl, rfl⟩ := he
    exact hh
  · intro hh v ws hv hg w hw
    exact (f3 hh).1 v ws hv ((gg v).1 hg) w hw
  · intro hh w ha
    rcases (f3 hh).2 w with he | ⟨_, v, ws, h1, h2, h3⟩
    · left; unfold Absent; rw [he]; exact aa w ha
    · right; exact ⟨v, ws, h1, h2, (gg v).2 h3⟩

theorem list_of_given {o : Obj} {v : String} (hg : Given o v) (hl : ∃ x, o v = some x ∧ (x.isNone = true ∨ x.isList = true)) :
    ∃ l, o v = some (.list l) := by
  obtain ⟨x, hx, hn⟩ := hg
  obtain ⟨y, hy, hy'⟩ := hl
  rw [hx] at hy; cases hy
  rw [hn] at hy'
  cases x <;> simp [Val.isList] at hy'
  exact ⟨_, hx⟩

theorem same_len {s : Setup} {o o' : Obj} (f : Facts s o o') {a b : String} (hp : [a, b] ∈ s.lenPairs ∨ [b, a] ∈ s.lenPairs)
    {l l' : List Val} (ha : o' a = some (.list l)) (hb : o' b = some (.list l')) : l'.length = l.length := by
  rcases hp with hp | hp
  · obtain ⟨x, y, n, h1, h2, h3, h4⟩ := f.pairs a b hp ⟨_, ha, rfl⟩ ⟨_, hb, rfl⟩
    rw [ha] at h1; rw [hb] at h2; cases h1; cases h2
    simp [Val.len?] at h3 h4; omega
  · obtain ⟨x, y, n, h1, h2, h3, h4⟩ := f.pairs b a hp ⟨_, hb, rfl⟩ ⟨_, ha, rfl⟩
    rw [ha] at h2; rw [hb] at h1; cases h1; cases h2
    simp [Val.len?] at h3 h4; omega

theorem pair_ready {s : Setup} {o o' : Obj} {t p : String} (hok : pairOk s t p = true) (h : checkInput s o = .ok o') (hex : AllExist o s.names) :
    LoadReady o' [t, p] := by
  have f := facts h hex
  unfold pairOk at hok
  simp only [Bool.and_eq_true, Bool.or_eq_true, List.contains_iff_mem] at hok
  obtain ⟨⟨⟨⟨⟨⟨k1, k2⟩, k3⟩, k4⟩, k5⟩, k6⟩, k7⟩ := hok
  have hh := headsOk_spec k1
  have ex : ∀ v ∈ s.lists, ∃ x, o v = some x := fun v hv => hex v (by unfold Setup.names; simp only [List.mem_append]; tauto)
  rcases given_or_absent (ex t k5) with hg | ha
  · right
    obtain ⟨l, hl⟩ := list_of_given (f.given t hg) (f.lists t k5)
    obtain ⟨l', hl'⟩ := list_of_given (f.filled hh t [p] k2 hg p (by simp)) (f.lists p k6)
    refine ⟨l.length, fun v hv => ?_⟩
    simp only [List.mem_cons, List.not_mem_nil, or_false] at hv
    rcases hv with rfl | rfl
    · exact ⟨l, hl, rfl⟩
    · exact ⟨l', hl', same_len f k4 hl hl'⟩
  · left
    have hap : Absent o p := by
      rcases given_or_absent (ex p k6) with hg | ha'
      · exact absurd (Or.inr (Or.inr ⟨_, k3, Or.inr ⟨p, [t], rfl, hg, t, by simp, ha⟩⟩)) f.sound
      · exact ha'
    rw [List.all_eq_true] at k7
    have key : ∀ v, v = t ∨ v = p → Absent o v → Absent o' v := by
      intro v hv hav
      rcases f.kept hh v hav with hk | ⟨u, ws, h1, h2, h3⟩
      · exact hk
      · have := k7 _ h1
        simp at this
        rcases hv with rfl | rfl
        · exact absurd h2 this.1
        · have : u = t := by tauto
          subst this
          exact absurd ha (fun ha => not_given_absent h3 ha)
    intro v hv
    simp only [List.mem_cons, List.not_mem_nil, or_false] at hv
    rcases hv with rfl | rfl
    · exact key _ (Or.inl rfl) ha
    · exact key _ (Or.inr rfl) hap

theorem triple_ready {s : Setup} {o o' : Obj} {d t p : String} (hok : tripleOk s d t p = true) (h : checkInput s o = .ok o') (hex : AllExist o s.names) :
    LoadReady o' [d, t, p] := by
  have f := facts h hex
  unfold tripleOk at hok
  simp only [Bool.and_eq_true, Bool.or_eq_true, List.contains_iff_mem] at hok
  obtain ⟨⟨⟨⟨⟨⟨⟨⟨⟨k1, k0⟩, k2⟩, k3⟩, kd⟩, k4⟩, kl⟩, k5⟩, k6⟩, k7⟩ := hok
  have hh := headsOk_spec k1
  have ex : ∀ v ∈ s.lists, ∃ x, o v = some x := fun v hv => hex v (by unfold Setup.names; simp only [List.mem_append]; tauto)
  rcases given_or_absent (ex t k5) with hg | ha
  · right
    have hgd : Given o d := by
      rcases given_or_absent (ex d kl) with hg' | ha'
      · exact hg'
      · exact absurd (Or.inl ⟨_, k0, ⟨d, by simp, ha'⟩, t, by simp, hg⟩) f.sound
    obtain ⟨l, hl⟩ := list_of_given (f.given t hg) (f.lists t k5)
    obtain ⟨l', hl'⟩ := list_of_given (f.filled hh t [p] k2 hg p (by simp)) (f.lists p k6)
    obtain ⟨l'', hl''⟩ := list_of_given (f.given d hgd) (f.lists d kl)
    refine ⟨l.length, fun v hv => ?_⟩
    simp only [List.mem_cons, List.not_mem_nil, or_false] at hv
    rcases hv with rfl | rfl | rfl
    · exact ⟨l'', hl'', same_len f (by tauto) hl hl''⟩
    · exact ⟨l, hl, rfl⟩
    · exact ⟨l', hl', same_len f k4 hl hl'⟩
  · left
    have had : Absent o d := by
      rcases given_or_absent (ex d kl) with hg' | ha'
      · exact absurd (Or.inl ⟨_, k0, ⟨t, by simp, ha⟩, d, by simp, hg'⟩) f.sound
      · exact ha'
    have hap : Absent o p := by
      rcases given_or_absent (ex p k6) with hg | ha'
      · exact absurd (Or.inr (Or.inr ⟨_, k3, Or.inr ⟨p, [d, t], rfl, hg, t, by simp, ha⟩⟩)) f.sound
      · exact ha'
    rw [List.all_eq_true] at k7
    have key : ∀ v, v = d ∨ v = t ∨ v = p → Absent o v → Absent o' v := by
      intro v hv hav
      rcases f.kept hh v hav with hk | ⟨u, ws, h1, h2, h3⟩
      · exact hk
      · have := k7 _ h1
        simp at this
        rcases hv with rfl | rfl | rfl
        · exact absurd h2 this.1.1
        · exact absurd h2 this.1.2
        · have : u = t := by tauto
          subst this
          exact absurd ha (fun ha => not_given_absent h3 ha)
    intro v hv
    simp only [List.mem_cons, List.not_mem_nil, or_false] at hv
    rcases hv with rfl | rfl | rfl
    · exact key _ (by tauto) had
    · exact key _ (by tauto) ha
    · exact key _ (by tauto) hap

theorem names_sub {s : Setup} {o : Obj} {as : List String} (h : s.names.all (as.contains ·) = true) (hex : AllExist o as) : AllExist o s.names := by
  rw [List.all_eq_true] at h
  exact fun v hv => hex v (by simpa using h v hv)

/-- **C62** every load of a checked `Speccon1dVR` input is usable: its depth profiles, time histories and frequencies are all `None` or lists
of one length (so the `zip`s in the assembly drop nothing). -/
theorem C62_vr (o o' : Obj) (hex : AllExist o vrAttributes) (h : checkInput vrSetup o = .ok o') :
    LoadReady o' ["surcharge_vs_depth", "surcharge_vs_time", "surcharge_omega_phase"] ∧
    LoadReady o' ["vacuum_vs_depth", "vacuum_vs_time", "vacuum_omega_phase"] ∧
    LoadReady o' ["top_vs_time", "top_omega_phase"] ∧ LoadReady o' ["bot_vs_time", "bot_omega_phase"] ∧
    LoadReady o' ["fixed_ppress", "fixed_ppress_omega_phase"] ∧ LoadReady o' ["pumping", "pumping_omega_phase"] := by
  have hn : AllExist o vrSetup.names := names_sub (by decide +kernel) hex
  exact ⟨triple_ready (by decide +kernel) h hn, triple_ready (by decide +kernel) h hn, pair_ready (by decide +kernel) h hn,
    pair_ready (by decide +kernel) h hn, pair_ready (by decide +kernel) h hn, pair_ready (by decide +kernel) h hn⟩

/-- **C62** the same for `Speccon1dVRW`. -/
theorem C62_vrw (o o' : Obj) (hex : AllExist o vrwAttributes) (h : checkInput vrwSetup o = .ok o') :
    LoadReady o' ["surcharge_vs_depth", "surcharge_vs_time", "surcharge_omega_phase"] ∧
    LoadReady o' ["top_vs_time", "top_omega_phase"] ∧ LoadReady o' ["bot_vs_time", "bot_omega_phase"] ∧
    LoadReady o' ["fixed_ppress", "fixed_ppress_omega_phase"] ∧ LoadReady o' ["pumping", "pumping_omega_phase"] := by
  have hn : AllExist o vrwSetup.names := names_sub (by decide +kernel) hex
  exact ⟨triple_ready (by decide +kernel) h hn, pair_ready (by decide +kernel) h hn, pair_ready (by decide +kernel) h hn,
    pair_ready (by decide +kernel) h hn, pair_ready (by decide +kernel) h hn⟩

/-- **C62** the same for `Speccon1dVRC`. -/
theorem C62_vrc (o o' : Obj) (hex : AllExist o vrcAttributes) (h : checkInput vrcSetup o = .ok o') :
    LoadReady o' ["surcharge_vs_depth", "surcharge_vs_time", "surcharge_omega_phase"] ∧
    LoadReady o' ["top_vs_time", "top_omega_phase"] ∧ LoadReady o' ["bot_vs_time", "bot_omega_phase"] := by
  have hn : AllExist o vrcSetup.names := names_sub (by decide +kernel) hex
  exact ⟨triple_ready (by decide +kernel) h hn, pair_ready (by decide +kernel) h hn, pair_ready (by decide +kernel) h hn⟩

/-- **C62** the same for `Speccon1dUnsat`. -/
theorem C62_unsat (o o' : Obj) (hex : AllExist o unsatAttributes) (h : checkInput unsatSetup o = .ok o') :
    LoadReady o' ["surcharge_vs_depth", "surcharge_vs_time", "surcharge_omega_phase"] ∧
    LoadReady o' ["atop_vs_time", "atop_omega_phase"] ∧ LoadReady o' ["abot_vs_time", "abot_omega_phase"] ∧
    LoadReady o' ["wtop_vs_time", "wtop_omega_phase"] ∧ LoadReady o' ["wbot_vs_time", "wbot_omega_phase"] := by
  have hn : AllExist o unsatSetup.names := names_sub (by decide +kernel) hex
  exact ⟨triple_ready (by decide +kernel) h hn, pair_ready (by decide +kernel) h hn, pair_ready (by decide +kernel) h hn,
    pair_ready (by decide +kernel) h hn, pair_ready (by decide +kernel) h hn⟩

/-- **C62** the drainage data of a checked `Speccon1dVR` input is complete: radial drainage has `dTh`, `kh` and `et` together, vertical drainage
`dTv` and `kv` together, at least one of the two is present, a vacuum needs radial drainage, `mv` and `tvals` are given, and so is at least one load and output. -/
theorem C62_vr_soil (o o' : Obj) (hex : AllExist o vrAttributes) (h : checkInput vrSetup o = .ok o') :
    (Given o "dTh" ↔ Given o "kh") ∧ (Given o "dTh" ↔ Given o "et") ∧ (Given o "dTv" ↔ Given o "kv") ∧ (Given o "dTh" ∨ Given o "dTv") ∧
    (Given o "vacuum_vs_time" → Given o "dTh") ∧ Given o "mv" ∧ Given o "tvals" ∧
    (∃ v ∈ ["surcharge_vs_time", "vacuum_vs_time", "top_vs_time", "bot_vs_time", "fixed_ppress", "pumping"], Given o v) ∧
    (∃ v ∈ ["ppress_z", "avg_ppress_z_pairs", "settlement_z_pairs"], Given o v) := by
  have hn : AllExist o vrSetup.names := names_sub (by decide +kernel) hex
  have f := (facts h hn).sound
  have ex : ∀ v, v ∈ vrAttributes → Given o v ∨ Absent o v := fun v hv => given_or_absent (hex v hv)
  have zo : ∀ g ∈ vrSetup.zeroOrAll, ∀ a ∈ g, ∀ b ∈ g, Given o a → Given o b := by
    intro g hg a ha b hb hga
    have hb' : b ∈ vrSetup.names := by unfold Setup.names; simp only [List.mem_append]; have := List.mem_flatten.2 ⟨g, hg, hb⟩; tauto
    rcases given_or_absent (hn b hb') with hh | hh
    · exact hh
    · exact absurd (Or.inl ⟨g, hg, ⟨b, hb, hh⟩, a, ha, hga⟩) f
  have al : ∀ g ∈ vrSetup.atLeastOne, ∃ v ∈ g, Given o v := by
    intro g hg
    by_contra hc
    push Not at hc
    refine f (Or.inr (Or.inl ⟨g, hg, fun v hv => ?_⟩))
    have hb' : v ∈ vrSetup.names := by unfold Setup.names; simp only [List.mem_append]; have := List.mem_flatten.2 ⟨g, hg, hv⟩; tauto
    rcases given_or_absent (hn v hb') with hh | hh
    · exact absurd hh (hc v hv)
    · exact hh
  have m1 : ["dTh", "kh", "et"] ∈ vrSetup.zeroOrAll := by decide +kernel
  have m2 : ["dTv", "kv"] ∈ vrSetup.zeroOrAll := by decide +kernel
  refine ⟨⟨zo _ m1 _ (by simp) _ (by simp), zo _ m1 _ (by simp) _ (by simp)⟩, ⟨zo _ m1 _ (by simp) _ (by simp), zo _ m1 _ (by simp) _ (by simp)⟩,
    ⟨zo _ m2 _ (by simp) _ (by simp), zo _ m2 _ (by simp) _ (by simp)⟩, ?_, ?_, ?_, ?_, al _ (by decide +kernel), al _ (by decide +kernel)⟩
  · obtain ⟨v, hv, hg⟩ := al ["dTh", "dTv"] (by decide +kernel)
    simp only [List.mem_cons, List.not_mem_nil, or_false] at hv
    rcases hv with rfl | rfl
    · exact Or.inl hg
    · exact Or.inr hg
  · intro hg
    rcases ex "dTh" (by decide +kernel) with hh | hh
    · exact hh
    · exact absurd (Or.inr (Or.inr ⟨["vacuum_vs_time", "dTh", "kh", "et"], by decide +kernel, Or.inr ⟨_, _, rfl, hg, "dTh", by simp, hh⟩⟩)) f
  · obtain ⟨v, hv, hg⟩ := al ["mv"] (by decide +kernel)
    simp only [List.mem_cons, List.not_mem_nil, or_false] at hv
    exact hv ▸ hg
  · obtain ⟨v, hv, hg⟩ := al ["tvals"] (by decide +kernel)
    simp only [List.mem_cons, List.not_mem_nil, or_false] at hv
    exact hv ▸ hg

/-- A surcharge given as plain PolyLines (not lists), no frequency: the check accepts it, wraps both and adds a list with one `None`. -/
def exObj : Obj := fun v =>
  if v ∈ ["dTv", "H", "drn", "neig"] then some (.scalar 1)
  else if v ∈ ["mv", "kv", "surcharge_vs_depth"] then some (.poly [0, 1])
  else if v = "surcharge_vs_time" then some (.poly [0, 0, 10])
  else if v ∈ ["tvals", "ppress_z"] then some (.sized 5 0)
  else if v ∈ vrAttributes then some .none else Option.none

example : AllExist exObj vrAttributes := by
  intro v hv
  unfold exObj
  split_ifs <;> exact ⟨_, rfl⟩

example : (match checkInput vrSetup exObj with
    | .ok o => (match o "surcharge_vs_time", o "surcharge_omega_phase" with
      | some (.list [.poly [0, 0, 10]]), some (.list [.none]) => true
      | _, _ => false)
    | .error _ => false) = true := by decide +kernel

end Geotecha.IO
