import Verif.IO.AttrsProps
import Mathlib.Tactic.Positivity

/-! # C60–C62: x limits, the whole check, and the input of `Speccon1dVR` -/

set_option linter.unusedVariables false
namespace Geotecha.IO

/-! ## C60 -/

/-- The PolyLines named by a group: the values, or the members of list values, of the attributes that are not `None`. -/
def linesOf (o : Obj) : List String → List Val
  | [] => []
  | v :: vs => (match o v with
    | Option.none => []
    | some .none => []
    | some x => members x) ++ linesOf o vs

/-- A PolyLine with first abscissa `a` and last abscissa `b`. -/
def HasLimits (m : Val) (r : ℚ × ℚ) : Prop := ∃ x xs, m = .poly (x :: xs) ∧ r.1 = x ∧ (x :: xs).getLast? = some r.2

/-- Given attributes are PolyLines with points, or non-empty lists of those. -/
def WellFormed (o : Obj) (sub : List String) : Prop :=
  ∀ v ∈ sub, ∃ x, o v = some x ∧ (x.isNone = true ∨ (members x ≠ [] ∧ ∀ m ∈ members x, ∃ r, HasLimits m r))

theorem limits_iff (m : Val) (r : ℚ × ℚ) : limits m = .ok r ↔ HasLimits m r := by
  unfold HasLimits
  match m with
  | .poly (x :: xs) =>
    constructor
    · intro h
      unfold limits at h
      cases h
      exact ⟨x, xs, rfl, rfl, List.getLast?_eq_some_getLast (by simp)⟩
    · rintro ⟨y, ys, he, h1, h2⟩
      obtain ⟨rfl, rfl⟩ : x = y ∧ xs = ys := by simpa using he
      rw [List.getLast?_eq_some_getLast (by simp)] at h2
      unfold limits
      cases r
      simp at h1 h2
      simp [h1, h2]
  | .poly [] => simp [limits]
  | .none => simp [limits]
  | .list _ => simp [limits]
  | .sized _ _ => simp [limits]
  | .scalar _ => simp [limits]

theorem firstLimits_spec {o : Obj} {sub : List String} (h : WellFormed o sub) :
    (linesOf o sub = [] → firstLimits o sub = .ok .none) ∧
    ∀ m ms, linesOf o sub = m :: ms → ∃ r, HasLimits m r ∧ firstLimits o sub = .ok (some r) := by
  induction sub with
  | nil => exact ⟨fun _ => rfl, by simp [linesOf]⟩
  | cons v vs ih =>
    have ih := ih (fun w hw => h w (by simp [hw]))
    obtain ⟨x, hx, hw⟩ := h v (by simp)
    rw [firstLimits, get_some hx, linesOf, hx]
    cases hn : x.isNone with
    | true =>
      rw [isNone_iff] at hn; subst hn
      simpa using ih
    | false =>
      rcases hw with hw | ⟨hne, hall⟩
      · rw [hn] at hw; cases hw
      obtain ⟨m, ms, hm⟩ := List.exists_cons_of_ne_nil hne
      have hx' : x ≠ .none := by rintro rfl; simp [Val.isNone] at hn
      obtain ⟨r, hr⟩ := hall m (by rw [hm]; simp)
      have key : (match (Except.ok x : Except Exn Val) with
        | .error e => Except.error e
        | .ok .none => firstLimits o vs
        | .ok x => match members x with
          | [] => .error .indexError
          | m :: _ => match limits m with
            | .error e => .error e
            | .ok r => .ok (some r)) = .ok (some r) := by
        have : limits m = .ok r := (limits_iff m r).2 hr
        cases x with
        | none => exact absurd rfl hx'
        | _ => simp only [hm, this]
      refine ⟨fun he => ?_, fun m' ms' he => ⟨r, ?_, key⟩⟩
      · exfalso
        cases x with
        | none => exact absurd rfl hx'
        | _ => simp only [hm] at he; simp at he
      · have : m' = m := by
          cases x with
          | none => exact absurd rfl hx'
          | _ => simp only [hm, List.cons_append, List.cons.injEq] at he; exact he.1.symm
        rw [this]; exact hr

theorem checkMember_spec {m : Val} {r : ℚ × ℚ} (hr : HasLimits m r) (c : ℚ × ℚ) : checkMember c m = if closeLimits r c then .ok () else .error .valueError := by
  unfold checkMember; rw [(limits_iff m r).2 hr]

theorem checkAll_spec {o : Obj} {c : ℚ × ℚ} {sub : List String} (h : WellFormed o sub) :
    (forEach (checkAttrLimits o c) sub = .ok () ↔ ∀ m ∈ linesOf o sub, ∀ r, HasLimits m r → closeLimits r c = true) ∧
    ∀ e, forEach (checkAttrLimits o c) sub = .error e → e = .valueError := by
  have one : ∀ v ∈ sub, (checkAttrLimits o c v = .ok () ↔ ∀ m ∈ linesOf o [v], ∀ r, HasLimits m r → closeLimits r c = true) ∧
      ∀ e, checkAttrLimits o c v = .error e → e = .valueError := by
    intro v hv
    obtain ⟨x, hx, hw⟩ := h v hv
    unfold checkAttrLimits
    rw [get_some hx]
    cases hn : x.isNone with
    | true =>
      rw [isNone_iff] at hn; subst hn
      simp [linesOf, hx]
    | false =>
      rcases hw with hw | ⟨hne, hall⟩
      · rw [hn] at hw; cases hw
      have e1 : (match (Except.ok x : Except Exn Val) with
        | .error e => Except.error e
        | .ok .none => .ok ()
        | .ok x => forEach (checkMember c) (members x)) = forEach (checkMember c) (members x) := by
        cases x <;> simp [Val.isNone] at hn ⊢
      have e2 : linesOf o [v] = members x := by
        rw [linesOf, hx]; cases x <;> simp [Val.isNone, linesOf] at hn ⊢
      have e1' := e1
      refine ⟨?_, fun e he => ?_⟩
      · rw [e2]
        refine Iff.trans (by rw [← e1]; rfl) ((forEach_ok_iff _ _).trans ?_)
        refine forall₂_congr fun m hm => ?_
        obtain ⟨r, hr⟩ := hall m hm
        rw [checkMember_spec hr]
        constructor
        · intro hh r' hr'
          have : r' = r := by
            have a := (limits_iff m r).2 hr
            have b := (limits_iff m r').2 hr'
            rw [a] at b; cases b; rfl
          rw [this]
          by_contra hc
          rw [if_neg hc] at hh; cases hh
        · intro hh; rw [if_pos (hh r hr)]
      · have he' : forEach (checkMember c) (members x) = .error e := by rw [← e1]; exact he
        obtain ⟨m, hm, hf⟩ := forEach_error he'
        obtain ⟨r, hr⟩ := hall m hm
        rw [checkMember_spec hr] at hf
        split_ifs at hf; cases hf; rfl
  refine ⟨?_, fun e he => ?_⟩
  · rw [forEach_ok_iff]
    have hl : ∀ m, m ∈ linesOf o sub ↔ ∃ v ∈ sub, m ∈ linesOf o [v] := by
      intro m
      clear one h
      induction sub with
      | nil => simp [linesOf]
      | cons v vs ih =>
        simp only [linesOf, List.append_nil, List.mem_append, ih, List.mem_cons, exists_eq_or_imp]
    constructor
    · intro hh m hm
      obtain ⟨v, hv, hmv⟩ := (hl m).1 hm
      exact (one v hv).1.1 (hh v hv) m hmv
    · intro hh v hv
      exact (one v hv).1.2 (fun m hm => hh m ((hl m).2 ⟨v, hv, hm⟩))
  · obtain ⟨v, hv, hf⟩ := forEach_error he
    exact (one v hv).2 e hf

/-- **C60** a group of PolyLine attributes is accepted exactly when the end points of every line are close (`np.allclose`) to those of the
first line of the group; otherwise `ValueError`. -/
theorem C60_limits (o : Obj) (sub : List String) (h : WellFormed o sub) :
    ((∀ f fs, linesOf o sub = f :: fs → ∀ r, HasLimits f r → ∀ m ∈ linesOf o sub, ∀ q, HasLimits m q → closeLimits q r = true) →
      checkLimitsGroup o sub = .ok ()) ∧
    ((∃ f fs, linesOf o sub = f :: fs ∧ ∃ r, HasLimits f r ∧ ∃ m ∈ linesOf o sub, ∃ q, HasLimits m q ∧ closeLimits q r = false) →
      checkLimitsGroup o sub = .error .valueError) := by
  unfold checkLimitsGroup
  obtain ⟨h1, h2⟩ := firstLimits_spec h
  constructor
  · intro hh
    cases hl : linesOf o sub with
    | nil => rw [h1 hl]
    | cons f fs =>
      obtain ⟨r, hr, hf⟩ := h2 f fs hl
      rw [hf]
      exact (checkAll_spec h).1.2 (hh f fs hl r hr)
  · rintro ⟨f, fs, hl, r, hr, m, hm, q, hq, hc⟩
    obtain ⟨r', hr', hf⟩ := h2 f fs hl
    have : r' = r := by
      have a := (limits_iff f r).2 hr
      have b := (limits_iff f r').2 hr'
      rw [a] at b; cases b; rfl
    subst this
    rw [hf]
    dsimp only
    rcases ok_or_error (forEach (checkAttrLimits o r') sub) with ⟨u, hu⟩ | ⟨e, he⟩
    · have := (checkAll_spec (c := r') h).1.1 hu m hm q hq
      rw [hc] at this; cases this
    · rw [he, (checkAll_spec h).2 e he]

/-- **C60** lines with identical end points are always accepted. -/
theorem C60_identical (o : Obj) (sub : List String) (h : WellFormed o sub) (r : ℚ × ℚ) (hr : ∀ m ∈ linesOf o sub, HasLimits m r) :
    checkLimitsGroup o sub = .ok () := by
  refine (C60_limits o sub h).1 ?_
  intro f fs hl r1 hr1 m hm q hq
  have uniq : ∀ {m a b}, HasLimits m a → HasLimits m b → a = b := by
    intro m a b ha hb
    have a' := (limits_iff m a).2 ha
    have b' := (limits_iff m b).2 hb
    rw [a'] at b'; cases b'; rfl
  rw [uniq hr1 (hr f (by rw [hl]; simp)), uniq hq (hr m hm)]
  unfold closeLimits
  simp only [sub_self, abs_zero, Bool.and_eq_true, decide_eq_true_eq]
  constructor <;> positivity

/-! ## `force_attribute_same_len_if_none` -/

theorem forceGroup_spec {a1 value : Val} {vs : List String} {o o' : Obj} (h : forceGroup a1 value vs o = .ok o') :
    (∀ w, w ∉ vs → o' w = o w) ∧ (∀ w, Given o w → o' w = o w) ∧ (∀ w ∈ vs, o' w = o w ∨ Absent o w) ∧
    (value.isNone = true ∨ value.isNone = false → ∀ w ∈ vs, Given o' w) ∧
    ∀ w, o' w = o w ∨ (Absent o w ∧ w ∈ vs ∧ ∃ n, a1.len? = some n ∧ o' w = some (.list (List.replicate n value))) := by
  induction vs generalizing o with
  | nil =>
    rw [forceGroup] at h; cases h
    exact ⟨fun _ _ => rfl, fun _ _ => rfl, by simp, by simp, fun _ => Or.inl rfl⟩
  | cons v vs ih =>
    rw [forceGroup] at h
    cases hx : o v with
    | none => simp [Obj.get, hx] at h
    | some x =>
      rw [get_some hx] at h
      dsimp only at h
      cases hn : x.isNone with
      | true =>
        rw [hn, if_pos rfl] at h
        have hab : Absent o v := by rw [isNone_iff] at hn; rw [hn] at hx; exact hx
        cases hl : a1.len? with
        | none => rw [hl] at h; cases h
        | some n =>
          rw [hl] at h
          dsimp only at h
          obtain ⟨i1, i2, i3, i4, i5⟩ := ih h
          have gv : Given (o.set v (.list (List.replicate n value))) v := ⟨_, set_same _ _ _, rfl⟩
          refine ⟨fun w hw => ?_, fun w hg => ?_, fun w hw => ?_, fun hv w hw => ?_, fun w => ?_⟩
          · rw [List.mem_cons, not_or] at hw
            rw [i1 w hw.2, set_other _ _ hw.1]
          · have hwv : w ≠ v := by rintro rfl; exact not_given_absent hg hab
            have : Given (o.set v (.list (List.replicate n value))) w := by
              obtain ⟨y, hy, hyn⟩ := hg; exact ⟨y, by rw [set_other _ _ hwv]; exact hy, hyn⟩
            rw [i2 w this, set_other _ _ hwv]
          · by_cases hwv : w = v
            · subst hwv; exact Or.inr hab
            · rcases List.mem_cons.1 hw with e | hw
              · exact absurd e hwv
              · rcases i3 w hw with hh | hh
                · left; rw [hh, set_other _ _ hwv]
                · right; unfold Absent at hh ⊢; rwa [set_other _ _ hwv] at hh
          · rcases List.mem_cons.1 hw with rfl | hw
            · obtain ⟨y, hy, hyn⟩ := gv
              exact ⟨y, by rw [i2 _ ⟨y, hy, hyn⟩]; exact hy, hyn⟩
            · exact i4 hv w hw
          · by_cases hwv : w = v
            · subst hwv
              right
              refine ⟨hab, by simp, n, rfl, ?_⟩
              rw [i2 _ gv, set_same]
            · rcases i5 w with hh | ⟨ha, hm, k, hk, he⟩
              · left; rw [hh, set_other _ _ hwv]
              · right; refine ⟨by unfold Absent at ha ⊢; rwa [set_other _ _ hwv] at ha, by simp [hm], k, hl ▸ hk, he⟩
      | false =>
        rw [hn, if_neg (by simp)] at h
        obtain ⟨i1, i2, i3, i4, i5⟩ := ih h
        refine ⟨fun w hw => i1 w (by simp at hw; exact hw.2), i2, fun w hw => ?_, fun hv w hw => ?_, fun w => ?_⟩
        · rcases List.mem_cons.1 hw with rfl | hw
          · exact Or.inl (i2 _ ⟨x, hx, hn⟩)
          · exact i3 w hw
        · rcases List.mem_cons.1 hw with rfl | hw
          · exact ⟨x, by rw [i2 _ ⟨x, hx, hn⟩]; exact hx, hn⟩
          · exact i4 hv w hw
        · rcases i5 w with hh | ⟨ha, hm, k, hk, he⟩
          · exact Or.inl hh
          · exact Or.inr ⟨ha, by simp [hm], k, hk, he⟩

/-- No group's first attribute is filled in by a group. -/
def HeadsNotTails (gs : List (List String)) : Prop := ∀ v ws v' ws', v :: ws ∈ gs → v' :: ws' ∈ gs → v ∉ ws'

theorem forceSameLen_spec {value : Val} {gs : List (List String)} {o o' : Obj} (h : forceSameLen value gs o = .ok o') :
    (∀ w, Given o w → o' w = o w) ∧
    (∀ w, o' w = o w ∨ (Absent o w ∧ ∃ n, o' w = some (.list (List.replicate n value)))) ∧
    (HeadsNotTails gs → (∀ v ws, v :: ws ∈ gs → Given o v → ∀ w ∈ ws, Given o' w) ∧
      ∀ w, o' w = o w ∨ (Absent o w ∧ ∃ v ws, v :: ws ∈ gs ∧ w ∈ ws ∧ Given o v)) := by
  induction gs generalizing o with
  | nil =>
    rw [forceSameLen] at h; cases h
    exact ⟨fun _ _ => rfl, fun _ => Or.inl rfl, fun _ => ⟨by simp, fun _ => Or.inl rfl⟩⟩
  | cons g gs ih =>
    cases g with
    | nil => rw [forceSameLen] at h; cases h
    | cons v vs =>
      rw [forceSameLen] at h
      cases hx : o v with
      | none => simp [Obj.get, hx] at h
      | some x =>
        rw [get_some hx] at h
        dsimp only at h
        have sub : HeadsNotTails ((v :: vs) :: gs) → HeadsNotTails gs := fun hh a as b bs ha hb => hh a as b bs (by simp [ha]) (by simp [hb])
        cases hn : x.isNone with
        | true =>
          rw [hn, if_pos rfl] at h
          have hab : Absent o v := by rw [isNone_iff] at hn; rw [hn] at hx; exact hx
          obtain ⟨i1, i2, i3⟩ := ih h
          refine ⟨i1, i2, fun hh => ?_⟩
          obtain ⟨j1, j2⟩ := i3 (sub hh)
          refine ⟨fun a as ha hg w hw => ?_, fun w => ?_⟩
          · rcases List.mem_cons.1 ha with e | ha
            · obtain ⟨rfl, rfl⟩ := List.cons.inj e
              exact absurd hab (fun hab => not_given_absent hg hab)
            · exact j1 a as ha hg w hw
          · rcases j2 w with h1 | ⟨h1, a, as, h2, h3, h4⟩
            · exact Or.inl h1
            · exact Or.inr ⟨h1, a, as, by simp [h2], h3, h4⟩
        | false =>
          rw [hn, if_neg (by simp)] at h
          cases hf : forceGroup x value vs o with
          | error e => rw [hf] at h; cases h
          | ok o1 =>
            rw [hf] at h
            dsimp only at h
            obtain ⟨f1, f2, f3, f4, f5⟩ := forceGroup_spec hf
            obtain ⟨i1, i2, i3⟩ := ih h
            have hgv : Given o v := ⟨x, hx, hn⟩
            have lift : ∀ w, Given o w → Given o1 w := fun w hg => by
              obtain ⟨y, hy, hyn⟩ := hg; exact ⟨y, by rw [f2 w ⟨y, hy, hyn⟩]; exact hy, hyn⟩
            have lift' : ∀ w, Given o1 w → Given o' w := fun w hg => by
              obtain ⟨y, hy, hyn⟩ := hg; exact ⟨y, by rw [i1 w ⟨y, hy, hyn⟩]; exact hy, hyn⟩
            refine ⟨fun w hg => by rw [i1 w (lift w hg), f2 w hg], fun w => ?_, fun hh => ?_⟩
            · rcases i2 w with h1 | ⟨h1, n, h2⟩
              · rcases f5 w with h3 | ⟨h3, _, n, _, h4⟩
                · left; rw [h1, h3]
                · right; exact ⟨h3, n, by rw [h1, h4]⟩
              · rcases f5 w with h3 | ⟨h3, _, m, _, h4⟩
                · right; refine ⟨?_, n, h2⟩; unfold Absent at h1 ⊢; rwa [h3] at h1
                · right; exact ⟨h3, n, h2⟩
            · obtain ⟨j1, j2⟩ := i3 (sub hh)
              -- heads are untouched by the first group
              have heads : ∀ a as, a :: as ∈ gs → o1 a = o a := fun a as ha => f1 a (hh a as v vs (by simp [ha]) (by simp))
              refine ⟨fun a as ha hg w hw => ?_, fun w => ?_⟩
              · rcases List.mem_cons.1 ha with e | ha
                · obtain ⟨rfl, rfl⟩ := List.cons.inj e
                  exact lift' w (f4 (by cases value.isNone <;> simp) w hw)
                · exact j1 a as ha (lift a hg) w hw
              · rcases j2 w with h1 | ⟨h1, a, as, h2, h3, h4⟩
                · rcases f5 w with h5 | ⟨h5, h6, _, _, _⟩
                  · left; rw [h1, h5]
                  · right; exact ⟨h5, v, vs, by simp, h6, hgv⟩
                · have hga : Given o a := by
                    obtain ⟨y, hy, hyn⟩ := h4
                    exact ⟨y, by rw [← heads a as h2]; exact hy, hyn⟩
                  rcases f5 w with h5 | ⟨h5, h6, _, _, _⟩
                  · right; refine ⟨?_, a, as, by simp [h2], h3, hga⟩
                    unfold Absent at h1 ⊢; rwa [h5] at h1
                  · right; exact ⟨h5, v, vs, by simp, h6, hgv⟩

/-! ## C61 -/

theorem checkInput_inv {s : Setup} {o o' : Obj} (h : checkInput s o = .ok o') :
    checkCombinations o s.zeroOrAll s.atLeastOne s.oneImplies = .ok () ∧ ∃ o1, checkIsList true s.lists o = .ok o1 ∧
      forceSameLen .none s.sameLen o1 = .ok o' ∧ checkLimits o' s.sameLimits = .ok () ∧ checkPairs o' s.lenPairs = .ok () := by
  unfold checkInput at h
  rcases ok_or_error (checkCombinations o s.zeroOrAll s.atLeastOne s.oneImplies) with ⟨u, h1⟩ | ⟨e, h1⟩
  · rw [h1] at h; dsimp only at h
    rcases ok_or_error (checkIsList true s.lists o) with ⟨o1, h2⟩ | ⟨e, h2⟩
    · rw [h2] at h; dsimp only at h
      rcases ok_or_error (forceSameLen .none s.sameLen o1) with ⟨o2, h3⟩ | ⟨e, h3⟩
      · rw [h3] at h; dsimp only at h
        rcases ok_or_error (checkLimits o2 s.sameLimits) with ⟨u', h4⟩ | ⟨e, h4⟩
        · rw [h4] at h; dsimp only at h
          rcases ok_or_error (checkPairs o2 s.lenPairs) with ⟨u'', h5⟩ | ⟨e, h5⟩
          · rw [h5] at h; dsimp only at h
            cases h
            exact ⟨h1, o1, h2, h3, h4, h5⟩
          · rw [h5] at h; cases h
        · rw [h4] at h; cases h
      · rw [h3] at h; cases h
    · rw [h2] at h; cases h
  · rw [h1] at h; cases h

/-- **C61** after a successful `check_input_attributes`: no combination rule was violated by the input; attributes that should be lists are
`None` or lists; an attribute changed only by being wrapped in a list, or from `None` to a list of `None`s; given attributes stay given;
when both of a pair are given their lengths agree. -/
theorem C61_sound (s : Setup) (o o' : Obj) (h : checkInput s o = .ok o')
    (hex : ∀ g ∈ s.zeroOrAll ++ s.atLeastOne ++ s.oneImplies, AllExist o g) (hexl : AllExist o s.lists) (hexp : ∀ p ∈ s.lenPairs, AllExist o p) :
    ¬ Violated o s.zeroOrAll s.atLeastOne s.oneImplies ∧
    (∀ v ∈ s.lists, ∃ x, o' v = some x ∧ (x.isNone = true ∨ x.isList = true)) ∧
    (∀ v, o' v = o v ∨ (v ∈ s.lists ∧ ∃ x, o v = some x ∧ o' v = some (.list [x])) ∨ (Absent o v ∧ ∃ n, o' v = some (.list (List.replicate n .none)))) ∧
    (∀ v, Given o v → Given o' v) ∧
    (∀ p ∈ s.lenPairs, ∃ v1 v2, p = [v1, v2] ∧
      (Given o' v1 → Given o' v2 → ∃ a b n, o' v1 = some a ∧ o' v2 = some b ∧ a.len? = some n ∧ b.len? = some n)) := by
  obtain ⟨h1, o1, h2, h3, h4, h5⟩ := checkInput_inv h
  obtain ⟨o1', h2', hw⟩ := checkIsList_force s.lists o hexl
  rw [h2] at h2'; cases h2'
  obtain ⟨f1, f2, _⟩ := forceSameLen_spec h3
  have hwn : ∀ x : Val, (wrapped x).isNone = x.isNone := by intro x; cases x <;> rfl
  have habs : ∀ w, Absent o1 w → Absent o w := by
    intro w ha
    unfold Absent at ha ⊢
    rw [hw] at ha
    split_ifs at ha with hm
    · obtain ⟨x, hx, hx'⟩ := Option.map_eq_some_iff.1 ha
      rw [hx]
      have := hwn x
      rw [hx'] at this
      have := (isNone_iff x).1 this.symm
      rw [this]
    · exact ha
  have hgiven : ∀ w, Given o w → Given o1 w := by
    rintro w ⟨x, hx, hn⟩
    unfold Given
    rw [hw]
    split_ifs
    · exact ⟨wrapped x, by rw [hx]; rfl, by rw [hwn]; exact hn⟩
    · exact ⟨x, hx, hn⟩
  refine ⟨fun hv => ?_, fun v hv => ?_, fun v => ?_, fun v hg => ?_, ?_⟩
  · rw [(C40_exact o _ _ _ hex).1 hv] at h1; cases h1
  · obtain ⟨x, hx⟩ := hexl v hv
    rcases f2 v with he | ⟨_, n, he⟩
    · refine ⟨wrapped x, by rw [he, hw, if_pos hv, hx]; rfl, ?_⟩
      cases x <;> simp [wrapped, Val.isNone, Val.isList]
    · exact ⟨_, he, Or.inr rfl⟩
  · rcases f2 v with he | ⟨ha, n, he⟩
    · by_cases hv : v ∈ s.lists
      · obtain ⟨x, hx⟩ := hexl v hv
        have : o' v = some (wrapped x) := by rw [he, hw, if_pos hv, hx]; rfl
        cases hk : (x.isNone || x.isList) with
        | true => left; rw [this, hx]; cases x <;> simp [Val.isNone, Val.isList, wrapped] at hk ⊢
        | false => right; left; refine ⟨hv, x, hx, ?_⟩; rw [this]; cases x <;> simp [Val.isNone, Val.isList, wrapped] at hk ⊢
      · left; rw [he, hw, if_neg hv]
    · exact Or.inr (Or.inr ⟨habs v ha, n, he⟩)
  · have := hgiven v hg
    obtain ⟨x, hx, hn⟩ := this
    exact ⟨x, by rw [f1 v ⟨x, hx, hn⟩]; exact hx, hn⟩
  · refine (C59_pairs o' s.lenPairs ?_).1 h5
    intro p hp v hv
    obtain ⟨x, hx⟩ := hexp p hp v hv
    rcases f2 v with he | ⟨_, n, he⟩
    · rw [he, hw]; split_ifs
      · exact ⟨wrapped x, by rw [hx]; rfl⟩
      · exact ⟨x, hx⟩
    · exact ⟨_, he⟩

end Geotecha.IO
