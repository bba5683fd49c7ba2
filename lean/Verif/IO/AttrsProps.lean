import Verif.IO.Attrs

/-! # C40, C58–C63: attribute checks -/

set_option linter.unusedVariables false
namespace Geotecha.IO

/-! ## Specification vocabulary -/

/-- The attribute exists and is not `None`. -/
def Given (o : Obj) (v : String) : Prop := ∃ x, o v = some x ∧ x.isNone = false
/-- The attribute exists and is `None`. -/
def Absent (o : Obj) (v : String) : Prop := o v = some .none
/-- All attributes mentioned exist. -/
def AllExist (o : Obj) (vs : List String) : Prop := ∀ v ∈ vs, ∃ x, o v = some x
/-- The call raises `e`. -/
def Raises {α : Type} (r : Except Exn α) (e : Exn) : Prop := r = .error e

theorem isNone_iff (x : Val) : x.isNone = true ↔ x = .none := by cases x <;> simp [Val.isNone]

theorem get_some {o : Obj} {v : String} {x : Val} (h : o v = some x) : o.get v = .ok x := by unfold Obj.get; rw [h]

theorem given_or_absent {o : Obj} {v : String} (h : ∃ x, o v = some x) : Given o v ∨ Absent o v := by
  obtain ⟨x, hx⟩ := h
  cases hn : x.isNone with
  | false => exact Or.inl ⟨x, hx, hn⟩
  | true => exact Or.inr (by rw [isNone_iff] at hn; rw [hn] at hx; exact hx)

theorem not_given_absent {o : Obj} {v : String} (h : Given o v) (h' : Absent o v) : False := by
  obtain ⟨x, hx, hn⟩ := h
  rw [h'] at hx; cases hx; simp [Val.isNone] at hn

open Classical in
theorem noneFlags_ok {o : Obj} {vs : List String} (h : AllExist o vs) : noneFlags o vs = .ok (vs.map fun v => decide (Absent o v)) := by
  induction vs with
  | nil => rfl
  | cons v vs ih =>
    obtain ⟨x, hx⟩ := h v (by simp)
    rw [noneFlags, get_some hx]
    dsimp only
    rw [ih (fun w hw => h w (by simp [hw]))]
    dsimp only
    have : x.isNone = decide (Absent o v) := by
      cases hn : x.isNone with
      | false => symm; rw [decide_eq_false_iff_not]; exact fun ha => not_given_absent ⟨x, hx, hn⟩ ha
      | true => symm; rw [decide_eq_true_iff]; rw [isNone_iff] at hn; rw [hn] at hx; exact hx
    rw [this]; rfl

theorem forEach_ok_iff {α : Type} (f : α → Except Exn Unit) (l : List α) : forEach f l = .ok () ↔ ∀ a ∈ l, f a = .ok () := by
  induction l with
  | nil => simp [forEach]
  | cons a l ih =>
    rw [forEach]
    cases h : f a with
    | error e => simp [h]
    | ok u => simp [h, ih]

theorem forEach_error {α : Type} {f : α → Except Exn Unit} {l : List α} {e : Exn} (h : forEach f l = .error e) : ∃ a ∈ l, f a = .error e := by
  induction l with
  | nil => cases h
  | cons a l ih =>
    rw [forEach] at h
    cases ha : f a with
    | error e' => rw [ha] at h; cases h; exact ⟨a, by simp, ha⟩
    | ok u =>
      rw [ha] at h
      obtain ⟨b, hb, hf⟩ := ih h
      exact ⟨b, by simp [hb], hf⟩

theorem ok_or_error {α : Type} (r : Except Exn α) : (∃ a, r = .ok a) ∨ ∃ e, r = .error e := by cases r <;> simp

open Classical in
theorem zeroOrAll_spec {o : Obj} {vs : List String} (h : AllExist o vs) :
    checkZeroOrAll o vs = if (∃ v ∈ vs, Absent o v) ∧ (∃ v ∈ vs, Given o v) then .error .valueError else .ok () := by
  unfold checkZeroOrAll
  rw [noneFlags_ok h]
  dsimp only
  have h1 : 1 ≤ (vs.map fun v => decide (Absent o v)).count true ↔ ∃ v ∈ vs, Absent o v := by
    rw [Nat.succ_le_iff, List.count_pos_iff]
    simp
  have h2 : (vs.map fun v => decide (Absent o v)).count true < vs.length ↔ ∃ v ∈ vs, Given o v := by
    have hlen : (vs.map fun v => decide (Absent o v)).length = vs.length := by simp
    have hle := List.count_le_length (a := true) (l := vs.map fun v => decide (Absent o v))
    rw [hlen] at hle
    constructor
    · intro hlt
      by_contra hc
      have : (vs.map fun v => decide (Absent o v)).count true = vs.length := by
        rw [← hlen, List.count_eq_length]
        intro b hb
        obtain ⟨v, hv, rfl⟩ := List.mem_map.1 hb
        symm; rw [decide_eq_true_iff]
        rcases given_or_absent (h v hv) with hg | ha
        · exact absurd ⟨v, hv, hg⟩ hc
        · exact ha
      omega
    · rintro ⟨v, hv, hg⟩
      refine lt_of_le_of_ne hle fun heq => ?_
      rw [← hlen, List.count_eq_length] at heq
      have := heq (decide (Absent o v)) (List.mem_map_of_mem hv)
      exact not_given_absent hg (by simpa using this.symm)
  by_cases hc : (∃ v ∈ vs, Absent o v) ∧ ∃ v ∈ vs, Given o v
  · rw [if_pos hc, if_pos ⟨h1.2 hc.1, h2.2 hc.2⟩]
  · rw [if_neg hc, if_neg (fun hh => hc ⟨h1.1 hh.1, h2.1 hh.2⟩)]

open Classical in
theorem atLeastOne_spec {o : Obj} {vs : List String} (h : AllExist o vs) :
    checkAtLeastOne o vs = if ∀ v ∈ vs, Absent o v then .error .valueError else .ok () := by
  unfold checkAtLeastOne
  rw [noneFlags_ok h]
  dsimp only
  by_cases hc : ∀ v ∈ vs, Absent o v
  · rw [if_pos hc, if_pos (by simp; exact hc)]
  · rw [if_neg hc, if_neg (by simp; simpa using hc)]

open Classical in
theorem oneImplies_spec {o : Obj} {vs : List String} (h : AllExist o vs) :
    checkOneImplies o vs = if vs.length ≤ 1 ∨ ∃ v ws, vs = v :: ws ∧ Given o v ∧ ∃ w ∈ ws, Absent o w then .error .valueError else .ok () := by
  match vs, h with
  | [], h => simp [checkOneImplies]
  | [v], h => simp [checkOneImplies]
  | v :: w :: ws, h =>
    obtain ⟨x, hx⟩ := h v (by simp)
    unfold checkOneImplies
    dsimp only
    rw [get_some hx]
    dsimp only
    cases hn : x.isNone with
    | true =>
      rw [if_pos rfl, if_neg]
      rintro (hl | ⟨a, b, he, hg, _⟩)
      · simp at hl
      · obtain ⟨rfl, _⟩ := List.cons.inj he
        rw [isNone_iff] at hn; rw [hn] at hx
        exact not_given_absent hg hx
    | false =>
      rw [if_neg (by simp), noneFlags_ok (fun a ha => h a (by simp at ha ⊢; tauto))]
      dsimp only
      by_cases hc : ∃ u ∈ w :: ws, Absent o u
      · rw [if_pos, if_pos (Or.inr ⟨v, w :: ws, rfl, ⟨x, hx, hn⟩, hc⟩)]
        rw [List.all_eq_false]
        obtain ⟨u, hu, ha⟩ := hc
        exact ⟨true, List.mem_map.2 ⟨u, hu, by simpa using ha⟩, by simp⟩
      · rw [if_neg, if_neg]
        · rintro (hl | ⟨a, b, he, hg, hb⟩)
          · simp at hl
          · obtain ⟨rfl, rfl⟩ := List.cons.inj he
            exact hc hb
        · rw [List.all_eq_false]
          rintro ⟨b, hb, hbf⟩
          obtain ⟨u, hu, rfl⟩ := List.mem_map.1 hb
          exact hc ⟨u, hu, by simpa using hbf⟩

/-! ## C40 -/

/-- What `check_attribute_combinations` is documented to reject. -/
def Violated (o : Obj) (zoa alo oio : List (List String)) : Prop :=
  (∃ g ∈ zoa, (∃ v ∈ g, Absent o v) ∧ ∃ v ∈ g, Given o v) ∨
  (∃ g ∈ alo, ∀ v ∈ g, Absent o v) ∨
  (∃ g ∈ oio, g.length ≤ 1 ∨ ∃ v ws, g = v :: ws ∧ Given o v ∧ ∃ w ∈ ws, Absent o w)

/-- **C40** for objects having all the attributes mentioned, the check raises `ValueError` when a rule is violated and returns otherwise. -/
theorem C40_exact (o : Obj) (zoa alo oio : List (List String)) (h : ∀ g ∈ zoa ++ alo ++ oio, AllExist o g) :
    (Violated o zoa alo oio → checkCombinations o zoa alo oio = .error .valueError) ∧
    (¬ Violated o zoa alo oio → checkCombinations o zoa alo oio = .ok ()) := by
  have h1 : ∀ g ∈ zoa, AllExist o g := fun g hg => h g (by simp [hg])
  have h2 : ∀ g ∈ alo, AllExist o g := fun g hg => h g (by simp [hg])
  have h3 : ∀ g ∈ oio, AllExist o g := fun g hg => h g (by simp [hg])
  have ok1 : forEach (checkZeroOrAll o) zoa = .ok () ↔ ¬ ∃ g ∈ zoa, (∃ v ∈ g, Absent o v) ∧ ∃ v ∈ g, Given o v := by
    rw [forEach_ok_iff]
    constructor
    · rintro hh ⟨g, hg, hc⟩
      have := hh g hg
      rw [zeroOrAll_spec (h1 g hg), if_pos hc] at this; cases this
    · intro hh g hg
      rw [zeroOrAll_spec (h1 g hg), if_neg (fun hc => hh ⟨g, hg, hc⟩)]
  have ok2 : forEach (checkAtLeastOne o) alo = .ok () ↔ ¬ ∃ g ∈ alo, ∀ v ∈ g, Absent o v := by
    rw [forEach_ok_iff]
    constructor
    · rintro hh ⟨g, hg, hc⟩
      have := hh g hg
      rw [atLeastOne_spec (h2 g hg), if_pos hc] at this; cases this
    · intro hh g hg
      rw [atLeastOne_spec (h2 g hg), if_neg (fun hc => hh ⟨g, hg, hc⟩)]
  have ok3 : forEach (checkOneImplies o) oio = .ok () ↔ ¬ ∃ g ∈ oio, g.length ≤ 1 ∨ ∃ v ws, g = v :: ws ∧ Given o v ∧ ∃ w ∈ ws, Absent o w := by
    rw [forEach_ok_iff]
    constructor
    · rintro hh ⟨g, hg, hc⟩
      have := hh g hg
      rw [oneImplies_spec (h3 g hg), if_pos hc] at this; cases this
    · intro hh g hg
      rw [oneImplies_spec (h3 g hg), if_neg (fun hc => hh ⟨g, hg, hc⟩)]
  have e1 : ∀ e, forEach (checkZeroOrAll o) zoa = .error e → e = .valueError := by
    intro e he
    obtain ⟨g, hg, hf⟩ := forEach_error he
    rw [zeroOrAll_spec (h1 g hg)] at hf
    split_ifs at hf; cases hf; rfl
  have e2 : ∀ e, forEach (checkAtLeastOne o) alo = .error e → e = .valueError := by
    intro e he
    obtain ⟨g, hg, hf⟩ := forEach_error he
    rw [atLeastOne_spec (h2 g hg)] at hf
    split_ifs at hf; cases hf; rfl
  have e3 : ∀ e, forEach (checkOneImplies o) oio = .error e → e = .valueError := by
    intro e he
    obtain ⟨g, hg, hf⟩ := forEach_error he
    rw [oneImplies_spec (h3 g hg)] at hf
    split_ifs at hf; cases hf; rfl
  unfold checkCombinations Violated
  constructor
  · rintro hv
    rcases ok_or_error (forEach (checkZeroOrAll o) zoa) with ⟨_, hz⟩ | ⟨e, hz⟩
    · rw [hz]; dsimp only
      rcases ok_or_error (forEach (checkAtLeastOne o) alo) with ⟨_, ha⟩ | ⟨e, ha⟩
      · rw [ha]; dsimp only
        rcases ok_or_error (forEach (checkOneImplies o) oio) with ⟨_, hi⟩ | ⟨e, hi⟩
        · rcases hv with hv | hv | hv
          · exact absurd hv (ok1.1 hz)
          · exact absurd hv (ok2.1 ha)
          · exact absurd hv (ok3.1 hi)
        · rw [hi, e3 e hi]
      · rw [ha, e2 e ha]
    · rw [hz, e1 e hz]
  · intro hv
    rw [not_or, not_or] at hv
    rw [ok1.2 hv.1]; dsimp only
    rw [ok2.2 hv.2.1]; dsimp only
    exact ok3.2 hv.2.2

/-- **C40** a group naming a missing attribute raises `AttributeError` (when reached). -/
theorem C40_missing (o : Obj) (v : String) (h : o v = none) (g : List String) : checkCombinations o ([v] :: g.map (fun w => [w])) [] [] = .error .attributeError := by
  simp [checkCombinations, forEach, checkZeroOrAll, noneFlags, Obj.get, h]

/-! ## C58 lists -/

theorem set_same (o : Obj) (v : String) (x : Val) : o.set v x v = some x := by simp [Obj.set]
theorem set_other (o : Obj) {v w : String} (x : Val) (h : w ≠ v) : o.set v x w = o w := by simp [Obj.set, h]

/-- What wrapping does to one value. -/
def wrapped : Val → Val
  | .none => .none
  | .list l => .list l
  | x => .list [x]

theorem wrapped_wrapped (x : Val) : wrapped (wrapped x) = wrapped x := by cases x <;> rfl

theorem checkIsList_force (vs : List String) (o : Obj) (h : AllExist o vs) :
    ∃ o', checkIsList true vs o = .ok o' ∧ ∀ w, o' w = if w ∈ vs then (o w).map wrapped else o w := by
  induction vs generalizing o with
  | nil => exact ⟨o, rfl, by simp⟩
  | cons v vs ih =>
    obtain ⟨x, hx⟩ := h v (by simp)
    have hkeep : (x.isNone || x.isList) = true → wrapped x = x := by cases x <;> simp [Val.isNone, Val.isList, wrapped]
    have hwrap : (x.isNone || x.isList) = false → wrapped x = .list [x] := by cases x <;> simp [Val.isNone, Val.isList, wrapped]
    rw [checkIsList, get_some hx]
    dsimp only
    cases hb : (x.isNone || x.isList) with
    | true =>
      rw [if_pos rfl]
      obtain ⟨o', h1, h2⟩ := ih o (fun w hw => h w (by simp [hw]))
      refine ⟨o', h1, fun w => ?_⟩
      rw [h2]
      by_cases hwv : w = v
      · subst hwv
        rw [hx]
        by_cases hm : w ∈ vs <;> simp [hm, hkeep hb]
      · simp [hwv]
    | false =>
      rw [if_neg (by simp), if_pos rfl]
      obtain ⟨o', h1, h2⟩ := ih (o.set v (.list [x])) (fun w hw => by
        by_cases hwv : w = v
        · exact ⟨_, by rw [hwv]; exact set_same _ _ _⟩
        · rw [set_other _ _ hwv]; exact h w (by simp [hw]))
      refine ⟨o', h1, fun w => ?_⟩
      rw [h2]
      by_cases hwv : w = v
      · subst hwv
        rw [set_same, hx]
        have hw' : wrapped (.list [x]) = .list [x] := rfl
        by_cases hm : w ∈ vs <;> simp [hm, hwrap hb, hw']
      · rw [set_other _ _ hwv]; simp [hwv]

/-- **C58** with `force_list` every listed attribute ends as `None` or a list, lists are kept, anything else is wrapped exactly once (also when
named twice), and no other attribute changes. -/
theorem C58_force (vs : List String) (o : Obj) (h : AllExist o vs) :
    ∃ o', checkIsList true vs o = .ok o' ∧ (∀ v ∉ vs, o' v = o v) ∧
      ∀ v ∈ vs, (o v = some .none → o' v = some .none) ∧ (∀ l, o v = some (.list l) → o' v = some (.list l)) ∧
        (∀ x, o v = some x → x.isNone = false → x.isList = false → o' v = some (.list [x])) := by
  obtain ⟨o', h1, h2⟩ := checkIsList_force vs o h
  refine ⟨o', h1, fun v hv => by rw [h2, if_neg hv], fun v hv => ⟨fun hh => ?_, fun l hh => ?_, fun x hh hn hl => ?_⟩⟩
  · rw [h2, if_pos hv, hh]; rfl
  · rw [h2, if_pos hv, hh]; rfl
  · rw [h2, if_pos hv, hh]
    cases x <;> simp [Val.isNone, Val.isList, wrapped] at hn hl ⊢

/-- **C58** without `force_list`: `ValueError` exactly when a listed attribute is neither `None` nor a list; the object is never changed. -/
theorem C58_check (vs : List String) (o : Obj) (h : AllExist o vs) :
    ((∃ v ∈ vs, ∃ x, o v = some x ∧ x.isNone = false ∧ x.isList = false) → checkIsList false vs o = .error .valueError) ∧
    ((∀ v ∈ vs, ∀ x, o v = some x → x.isNone = true ∨ x.isList = true) → checkIsList false vs o = .ok o) := by
  induction vs with
  | nil => exact ⟨by rintro ⟨v, hv, _⟩; simp at hv, fun _ => rfl⟩
  | cons v vs ih =>
    obtain ⟨x, hx⟩ := h v (by simp)
    have ih := ih (fun w hw => h w (by simp [hw]))
    rw [checkIsList, get_some hx]
    dsimp only
    constructor
    · rintro ⟨w, hw, y, hy, hn, hl⟩
      by_cases hb : (x.isNone || x.isList) = true
      · rw [if_pos hb]
        rcases List.mem_cons.1 hw with rfl | hw
        · rw [hx] at hy; cases hy; simp [hn, hl] at hb
        · exact ih.1 ⟨w, hw, y, hy, hn, hl⟩
      · rw [if_neg hb]; rfl
    · intro hh
      rw [if_pos (by simpa using hh v (by simp) x hx)]
      exact ih.2 (fun w hw => hh w (by simp [hw]))

/-! ## C59 pairs of equal length -/

/-- **C59** the pair check passes exactly when each pair has two names and, if both are given, both have lengths and they are equal. -/
theorem C59_pairs (o : Obj) (pairs : List (List String)) (h : ∀ p ∈ pairs, AllExist o p) :
    checkPairs o pairs = .ok () ↔ ∀ p ∈ pairs, ∃ v1 v2, p = [v1, v2] ∧
      (Given o v1 → Given o v2 → ∃ a b n, o v1 = some a ∧ o v2 = some b ∧ a.len? = some n ∧ b.len? = some n) := by
  unfold checkPairs
  rw [forEach_ok_iff]
  refine forall₂_congr fun p hp => ?_
  match p, h p hp with
  | [], _ => simp [checkPair]
  | [_], _ => simp [checkPair]
  | _ :: _ :: _ :: _, _ => simp [checkPair]
  | [v1, v2], h =>
    obtain ⟨a, ha⟩ := h v1 (by simp)
    obtain ⟨b, hb⟩ := h v2 (by simp)
    rw [checkPair, get_some ha]
    dsimp only
    rw [get_some hb]
    dsimp only
    have hga : Given o v1 ↔ a.isNone = false := by
      unfold Given; rw [ha]; simp
    have hgb : Given o v2 ↔ b.isNone = false := by
      unfold Given; rw [hb]; simp
    cases hna : a.isNone with
    | true =>
      rw [if_pos (by simp)]
      refine ⟨fun _ => ⟨v1, v2, rfl, fun hg => ?_⟩, fun _ => rfl⟩
      rw [hga, hna] at hg; cases hg
    | false =>
      cases hnb : b.isNone with
      | true =>
        rw [if_pos (by simp)]
        refine ⟨fun _ => ⟨v1, v2, rfl, fun _ hg => ?_⟩, fun _ => rfl⟩
        rw [hgb, hnb] at hg; cases hg
      | false =>
        rw [if_neg (by simp)]
        cases hla : a.len? with
        | none =>
          refine ⟨fun hh => (by cases hh), ?_⟩
          rintro ⟨w1, w2, he, hh⟩
          simp at he; obtain ⟨rfl, rfl⟩ := he
          obtain ⟨a', b', n, h1, h2, h3, h4⟩ := hh (hga.2 hna) (hgb.2 hnb)
          rw [ha] at h1; cases h1; rw [hla] at h3; cases h3
        | some m =>
          cases hlb : b.len? with
          | none =>
            refine ⟨fun hh => (by cases hh), ?_⟩
            rintro ⟨w1, w2, he, hh⟩
            simp at he; obtain ⟨rfl, rfl⟩ := he
            obtain ⟨a', b', n, h1, h2, h3, h4⟩ := hh (hga.2 hna) (hgb.2 hnb)
            rw [hb] at h2; cases h2; rw [hlb] at h4; cases h4
          | some n =>
            dsimp only
            by_cases hmn : m = n
            · subst hmn
              rw [if_neg (by simp)]
              exact ⟨fun _ => ⟨v1, v2, rfl, fun _ _ => ⟨a, b, m, ha, hb, hla, hlb⟩⟩, fun _ => rfl⟩
            · rw [if_pos hmn]
              refine ⟨fun hh => (by cases hh), ?_⟩
              rintro ⟨w1, w2, he, hh⟩
              simp at he; obtain ⟨rfl, rfl⟩ := he
              obtain ⟨a', b', k, h1, h2, h3, h4⟩ := hh (hga.2 hna) (hgb.2 hnb)
              rw [ha] at h1; cases h1; rw [hb] at h2; cases h2
              rw [hla] at h3; rw [hlb] at h4; cases h3; cases h4
              exact absurd rfl hmn

/-! ## C63 copying and initialising -/

/-- **C63** every listed attribute gets the source's value, else the default, else the fallback; no other attribute changes. -/
theorem C63_copy (src defaults : Obj) (nf : Val) (vs : List String) (o : Obj) (v : String) :
    copyAttributes src defaults nf vs o v = if v ∈ vs then some ((src v).getD ((defaults v).getD nf)) else o v := by
  induction vs generalizing o with
  | nil => simp [copyAttributes]
  | cons a vs ih =>
    rw [copyAttributes, ih]
    by_cases hm : v ∈ vs
    · simp [hm]
    · by_cases hva : v = a
      · subst hva; simp [hm, set_same]
      · simp [hm, hva, set_other]

theorem C63_init (defaults : Obj) (nf : Val) (vs : List String) (o : Obj) (v : String) :
    initAttributes defaults nf vs o v = if v ∈ vs then some ((defaults v).getD nf) else o v := by
  induction vs generalizing o with
  | nil => simp [initAttributes]
  | cons a vs ih =>
    rw [initAttributes, ih]
    by_cases hm : v ∈ vs
    · simp [hm]
    · by_cases hva : v = a
      · subst hva; simp [hm, set_same]
      · simp [hm, hva, set_other]

/-- **C63** user defaults override the common ones (`copy_dict`), and neither argument is consulted for other keys. -/
theorem C63_defaults (src diffs : Obj) (k : String) : (∀ v, diffs k = some v → copyDict src diffs k = some v) ∧ (diffs k = none → copyDict src diffs k = src k) := by
  unfold copyDict
  constructor
  · intro v h; rw [h]
  · intro h; rw [h]

end Geotecha.IO
