import Verif.Plot.Props
import Verif.Plot.SpecCalls

/-!
# Properties of geotecha/plotting/one_d.py, part 2

C117: line styles; C118: subplots and calls on many objects.
-/

namespace Geotecha.Plot
open Geotecha (PyErr)
set_option linter.unusedVariables false

/-! ## C117 -/

theorem pyIndex_ok {α : Type} {l : List α} {i : ℤ} {v : α} : pyIndex l i = .ok v ↔ Spec.At l i v := by
  unfold pyIndex Spec.At
  by_cases hi : i < 0
  · simp only [if_pos hi]
    by_cases hj : i + l.length < 0
    · rw [if_pos hj]
      constructor
      · intro h; cases h
      · rintro (⟨h, _⟩ | ⟨_, h, _⟩) <;> omega
    · rw [if_neg hj, add_comm i]
      cases h : l[((l.length : ℤ) + i).toNat]? with
      | none => simp [hi, not_le.2 hi]
      | some w =>
        simp only [Except.ok.injEq, Option.some.injEq]
        constructor
        · rintro rfl; exact Or.inr ⟨hi, by omega, rfl⟩
        · rintro (⟨h, _⟩ | ⟨_, _, h⟩)
          · omega
          · exact h
  · simp only [if_neg hi]
    cases h : l[i.toNat]? with
    | none => simp [hi]
    | some w =>
      simp only [Except.ok.injEq, Option.some.injEq]
      constructor
      · rintro rfl; exact Or.inl ⟨not_lt.1 hi, rfl⟩
      · rintro (⟨_, h⟩ | ⟨h, _⟩)
        · exact h
        · omega

theorem cycleGet_ok {l : Option (List (Option ℤ))} {i : ℕ} {v : Option ℤ} (h : cycleGet l i = .ok v) : Spec.entry l i = v := by
  cases l with
  | none => simp [cycleGet] at h; subst h; rfl
  | some l =>
    unfold cycleGet at h; unfold Spec.entry
    simp only at h ⊢
    cases e : l[i % l.length]? with
    | none => rw [e] at h; cases h
    | some w => rw [e] at h; cases h; rfl

theorem cycleGet_eq {l : Option (List (Option ℤ))} (hl : l ≠ some []) (i : ℕ) : cycleGet l i = .ok (Spec.entry l i) := by
  cases l with
  | none => rfl
  | some l =>
    have : l ≠ [] := fun e => hl (by rw [e])
    have hlt : i % l.length < l.length := Nat.mod_lt _ (List.length_pos_iff.2 this)
    unfold cycleGet Spec.entry
    simp only [List.getElem?_eq_getElem hlt, Option.join_some]

theorem dictGet_ok {d : Dict PVal} {k : String} {v : PVal} (h : dictGet d k = .ok v) : d.lookup k = some v := by
  unfold dictGet at h
  cases e : d.lookup k with
  | none => rw [e] at h; cases h
  | some w => rw [e] at h; cases h; rfl

/-- The conditions on the marker part. -/
def MarkerOK (o : MDC) (m mc : Option ℤ) (s : Dict PVal) : Prop :=
  match m with
    | none => s.lookup "marker" = some (.str "none")
    | some m => ∃ mk, Spec.At o.markers m mk ∧
        (∀ k, k ∉ ["color", "linestyle", "dashes", "markeredgecolor", "markerfacecolor"] → s.lookup k = mk.lookup k) ∧
        ∀ k ∈ ["markeredgecolor", "markerfacecolor"],
          (mk.lookup k = some (.str "none") → s.lookup k = some (.str "none")) ∧
          (mk.lookup k ≠ some (.str "none") → Spec.IsColor o mc (s.lookup k))

theorem two_sets (mk : Dict PVal) (e f : PVal) (he : mk.lookup "markeredgecolor" = some e) (hf : mk.lookup "markerfacecolor" = some f)
    (o : MDC) (mc : Option ℤ) (a b : PVal) (ha : e ≠ .str "none" → Spec.IsColor o mc (some a)) (hb : f ≠ .str "none" → Spec.IsColor o mc (some b)) :
    let s := if e ≠ .str "none" then Dict.set mk "markeredgecolor" a else mk
    let s := if f ≠ .str "none" then Dict.set s "markerfacecolor" b else s
    (∀ k, k ∉ ["color", "linestyle", "dashes", "markeredgecolor", "markerfacecolor"] → s.lookup k = mk.lookup k) ∧
        ∀ k ∈ ["markeredgecolor", "markerfacecolor"],
          (mk.lookup k = some (.str "none") → s.lookup k = some (.str "none")) ∧
          (mk.lookup k ≠ some (.str "none") → Spec.IsColor o mc (s.lookup k)) := by
  intro s0 s
  have l0 : ∀ k, s0.lookup k = if k = "markeredgecolor" ∧ e ≠ .str "none" then some a else mk.lookup k := fun k => by
    by_cases h : e ≠ .str "none"
    · simp only [s0, if_pos h, lookup_set, h, and_true, ne_eq, not_false_eq_true]
    · simp only [s0, if_neg h, h, and_false, if_false]
  have l1 : ∀ k, s.lookup k = if k = "markerfacecolor" ∧ f ≠ .str "none" then some b else s0.lookup k := fun k => by
    by_cases h : f ≠ .str "none"
    · simp only [s, if_pos h, lookup_set, h, and_true, ne_eq, not_false_eq_true]
    · simp only [s, if_neg h, h, and_false, if_false]
  refine ⟨fun k hk => ?_, fun k hk => ?_⟩
  · simp only [List.mem_cons, List.not_mem_nil, or_false, not_or] at hk
    rw [l1, if_neg (fun c => hk.2.2.2.2 c.1), l0, if_neg (fun c => hk.2.2.2.1 c.1)]
  · simp only [List.mem_cons, List.not_mem_nil, or_false] at hk
    rcases hk with rfl | rfl
    · have e1 : ¬("markeredgecolor" = "markerfacecolor" ∧ f ≠ .str "none") := fun c => absurd c.1 (by decide)
      rw [l1, if_neg e1, l0, he]
      by_cases h : e = .str "none"
      · subst h; simp
      · simp [h, ha h]
    · have e1 : ¬("markerfacecolor" = "markeredgecolor" ∧ e ≠ .str "none") := fun c => absurd c.1 (by decide)
      rw [l1, l0, if_neg e1, hf]
      by_cases h : f = .str "none"
      · subst h; simp
      · simp [h, hb h]

theorem markerPart_ok {o : MDC} {m mc : Option ℤ} {s : Dict PVal} (h : markerPart o m mc = .ok s) : MarkerOK o m mc s := by
  cases m with
  | none => simp only [markerPart, Except.ok.injEq] at h; subst h; rfl
  | some m =>
    unfold markerPart at h
    simp only [Bind.bind, Except.bind] at h
    cases hm : pyIndex o.markers m with
    | error e => rw [hm] at h; cases h
    | ok mk =>
      rw [hm] at h; simp only at h
      cases he : dictGet mk "markeredgecolor" with
      | error _ => rw [he] at h; cases h
      | ok e =>
        rw [he] at h; simp only at h
        cases hf : dictGet mk "markerfacecolor" with
        | error _ => rw [hf] at h; cases h
        | ok f =>
          rw [hf] at h; simp only at h
          have he' := dictGet_ok he
          have hf' := dictGet_ok hf
          refine ⟨mk, pyIndex_ok.1 hm, ?_⟩
          cases mc with
          | none =>
            simp only [Except.ok.injEq] at h
            have := two_sets mk e f he' hf' o none o.color o.color (fun _ => rfl) (fun _ => rfl)
            simp only at this
            rw [h] at this
            exact this
          | some c =>
            simp only at h
            cases hc : pyIndex o.colors c with
            | ok w =>
              rw [hc] at h; simp only at h
              have := two_sets mk e f he' hf' o (some c) w w (fun _ => ⟨w, pyIndex_ok.1 hc, rfl⟩) (fun _ => ⟨w, pyIndex_ok.1 hc, rfl⟩)
              simp only at this
              by_cases h1 : e = .str "none" <;> by_cases h2 : f = .str "none" <;>
                simp only [h1, h2, ne_eq, not_true_eq_false, not_false_eq_true, if_true, if_false, Except.ok.injEq] at h this <;>
                (subst h; simpa using this)
            | error _ =>
              rw [hc] at h; simp only at h
              have h1 : e = .str "none" := by
                by_contra c; simp [c] at h
              have h2 : f = .str "none" := by
                by_contra c; simp [c, h1] at h
              have := two_sets mk e f he' hf' o (some c) e f (fun c => absurd h1 c) (fun c => absurd h2 c)
              simp only [h1, h2, ne_eq, not_true_eq_false, if_false, Except.ok.injEq] at h this
              subst h; simpa using this

theorem markerOK_set {o : MDC} {m mc : Option ℤ} {s : Dict PVal} (h : MarkerOK o m mc s) (k : String) (v : PVal)
    (hk : k ∈ ["color", "linestyle", "dashes"]) : MarkerOK o m mc (Dict.set s k v) := by
  have hk' : k = "color" ∨ k = "linestyle" ∨ k = "dashes" := by simpa using hk
  cases m with
  | none =>
    unfold MarkerOK at h ⊢
    simp only at h ⊢
    rw [lookup_set, if_neg, h]
    rcases hk' with rfl | rfl | rfl <;> decide
  | some m =>
    obtain ⟨mk, h1, h2, h3⟩ := h
    refine ⟨mk, h1, fun k' hk'' => ?_, fun k' hk'' => ?_⟩
    · rw [lookup_set, if_neg, h2 k' hk'']
      rintro rfl
      apply hk''
      rcases hk' with rfl | rfl | rfl <;> decide
    · have : (Dict.set s k v).lookup k' = s.lookup k' := by
        rw [lookup_set, if_neg]
        rintro rfl
        rcases hk' with rfl | rfl | rfl <;> revert hk'' <;> decide
      rw [this]; exact h3 k' hk''

theorem oneStyle_ok {o : MDC} {ms ds mcs lcs : Option (List (Option ℤ))} {i : ℕ} {s : Dict PVal} (h : oneStyle o ms ds mcs lcs i = .ok s) :
    Spec.IsStyle o (Spec.entry ms i) (Spec.entry mcs i) (Spec.entry ds i) (Spec.entry lcs i) s := by
  unfold oneStyle at h
  simp only [Bind.bind, Except.bind] at h
  cases h1 : cycleGet ms i with
  | error _ => rw [h1] at h; cases h
  | ok m =>
  rw [h1] at h; simp only at h
  cases h2 : cycleGet mcs i with
  | error _ => rw [h2] at h; cases h
  | ok mc =>
  rw [h2] at h; simp only at h
  cases h3 : markerPart o m mc with
  | error _ => rw [h3] at h; cases h
  | ok s1 =>
  rw [h3] at h; simp only at h
  cases h4 : cycleGet ds i with
  | error _ => rw [h4] at h; cases h
  | ok d =>
  rw [h4] at h; simp only at h
  have k1 := markerPart_ok h3
  rw [cycleGet_ok h1, cycleGet_ok h2, cycleGet_ok h4]
  -- the dash part
  have key : ∀ s2 : Dict PVal, MarkerOK o m mc s2 →
      (match d with
        | none => s2.lookup "linestyle" = some (.str "None")
        | some d => ∃ v, Spec.At o.dashes d v ∧ s2.lookup "dashes" = some v) →
      ∀ lc w, cycleGet lcs i = .ok lc → Spec.IsColor o lc (some w) → Dict.set s2 "color" w = s →
      Spec.IsStyle o m mc d (Spec.entry lcs i) s := by
    rintro s2 hm hd lc w h5 hw rfl
    rw [cycleGet_ok h5]
    refine ⟨by rw [lookup_set, if_pos rfl]; exact hw, ?_, markerOK_set hm _ _ (by simp)⟩
    cases d with
    | none => simp only at hd ⊢; rw [lookup_set, if_neg (by decide), hd]
    | some d => simp only at hd ⊢; rw [lookup_set, if_neg (by decide)]; exact hd
  cases d with
  | none =>
    simp only at h
    have key' := key (Dict.set s1 "linestyle" (.str "None")) (markerOK_set k1 _ _ (by simp)) (by simp only; rw [lookup_set, if_pos rfl])
    cases h5 : cycleGet lcs i with
    | error _ => rw [h5] at h; cases h
    | ok lc =>
    rw [h5] at h; simp only at h
    cases lc with
    | none => simp only [Except.ok.injEq] at h; exact key' _ _ h5 rfl h
    | some lc =>
      simp only at h
      cases h6 : pyIndex o.colors lc with
      | error _ => rw [h6] at h; cases h
      | ok c =>
        rw [h6] at h; simp only [Except.ok.injEq] at h
        exact key' _ c h5 ⟨c, pyIndex_ok.1 h6, rfl⟩ h
  | some d =>
    simp only at h
    cases h7 : pyIndex o.dashes d with
    | error _ => rw [h7] at h; cases h
    | ok v =>
      rw [h7] at h; simp only at h
      have key' := key (Dict.set s1 "dashes" v) (markerOK_set k1 _ _ (by simp)) ⟨v, pyIndex_ok.1 h7, by rw [lookup_set, if_pos rfl]⟩
      cases h5 : cycleGet lcs i with
      | error _ => rw [h5] at h; cases h
      | ok lc =>
      rw [h5] at h; simp only at h
      cases lc with
      | none => simp only [Except.ok.injEq] at h; exact key' _ _ h5 rfl h
      | some lc =>
        simp only at h
        cases h6 : pyIndex o.colors lc with
        | error _ => rw [h6] at h; cases h
        | ok c =>
          rw [h6] at h; simp only [Except.ok.injEq] at h
          exact key' _ c h5 ⟨c, pyIndex_ok.1 h6, rfl⟩ h

theorem foldl_max (l : List ℕ) (a : ℕ) : (∀ x ∈ l, x ≤ l.foldl max a) ∧ a ≤ l.foldl max a ∧ (l.foldl max a = a ∨ l.foldl max a ∈ l) := by
  induction l generalizing a with
  | nil => simp
  | cons x l ih =>
    obtain ⟨h1, h2, h3⟩ := ih (max a x)
    rw [List.foldl_cons]
    refine ⟨?_, le_trans (le_max_left _ _) h2, ?_⟩
    · intro y hy
      rcases List.mem_cons.1 hy with rfl | hy
      · exact le_trans (le_max_right _ _) h2
      · exact h1 y hy
    · rcases h3 with h | h
      · rcases le_total a x with c | c
        · right; rw [h, max_eq_right c]; simp
        · left; rw [h, max_eq_left c]
      · right; exact List.mem_cons_of_mem _ h

theorem maxLen_spec (ls : List (Option (List (Option ℤ)))) :
    (∀ l, some l ∈ ls → l.length ≤ maxLen ls) ∧ (0 < maxLen ls → ∃ l, some l ∈ ls ∧ l.length = maxLen ls) := by
  obtain ⟨h1, _, h3⟩ := foldl_max (ls.filterMap fun l => l.map List.length) 0
  refine ⟨fun l hl => h1 _ (List.mem_filterMap.2 ⟨some l, hl, rfl⟩), fun hp => ?_⟩
  rcases h3 with h | h
  · unfold maxLen at hp; omega
  · obtain ⟨l, hl, e⟩ := List.mem_filterMap.1 h
    cases l with
    | none => cases e
    | some l => exact ⟨l, hl, by simpa [maxLen] using e⟩

theorem mapM_getElem {α β ε : Type} {f : α → Except ε β} {l : List α} {out : List β} (h : l.mapM f = .ok out) :
    out.length = l.length ∧ ∀ (i : ℕ) (a : α), l[i]? = some a → ∃ b, out[i]? = some b ∧ f a = .ok b := by
  induction l generalizing out with
  | nil => simp only [List.mapM_nil] at h; cases h; simp
  | cons a l ih =>
    rw [List.mapM_cons] at h
    simp only [Bind.bind, Except.bind] at h
    cases ha : f a with
    | error _ => rw [ha] at h; cases h
    | ok b =>
      rw [ha] at h; simp only at h
      cases hl : l.mapM f with
      | error _ => rw [hl] at h; cases h
      | ok bs =>
        rw [hl] at h; simp only [pure, Except.pure, Except.ok.injEq] at h
        subst h
        obtain ⟨h1, h2⟩ := ih hl
        refine ⟨by simp [h1], fun i x hx => ?_⟩
        cases i with
        | zero => simp at hx; subst hx; exact ⟨b, rfl, ha⟩
        | succ i => simpa using h2 i x (by simpa using hx)

theorem mapM_ok {α β ε : Type} {f : α → Except ε β} {l : List α} (h : ∀ a ∈ l, ∃ b, f a = .ok b) : ∃ out, l.mapM f = .ok out := by
  induction l with
  | nil => exact ⟨[], rfl⟩
  | cons a l ih =>
    obtain ⟨b, hb⟩ := h a (by simp)
    obtain ⟨bs, hbs⟩ := ih fun x hx => h x (List.mem_cons_of_mem _ hx)
    refine ⟨b :: bs, ?_⟩
    rw [List.mapM_cons]; simp only [Bind.bind, Except.bind, hb, hbs]; rfl

theorem mapM_error {α β ε : Type} {f : α → Except ε β} {l : List α} {a : α} {e : ε} {r : List α} (hl : l = a :: r) (h : f a = .error e) :
    l.mapM f = .error e := by
  subst hl
  rw [List.mapM_cons]; simp only [Bind.bind, Except.bind, h]

/-- **C117**: when any of the four lists has an entry, there are as many styles as the longest list has entries, and style `i` is made of the
`i`-th entries of the four lists, each repeated from its start as often as needed. -/
theorem C117_styles (o : MDC) (ms ds mcs lcs : Option (List (Option ℤ))) (out : List (Dict PVal)) (h : callStyles o ms ds mcs lcs = .ok out)
    (l : List (Option ℤ)) (hl : some l ∈ [ms, ds, mcs, lcs]) (hne : l ≠ []) :
    (∀ l, some l ∈ [ms, ds, mcs, lcs] → l.length ≤ out.length) ∧ (∃ l, some l ∈ [ms, ds, mcs, lcs] ∧ l.length = out.length) ∧
    ∀ i, i < out.length → ∃ s, out[i]? = some s ∧
      Spec.IsStyle o (Spec.entry ms i) (Spec.entry mcs i) (Spec.entry ds i) (Spec.entry lcs i) s := by
  obtain ⟨h1, h2⟩ := maxLen_spec [ms, ds, mcs, lcs]
  have hpos : 0 < maxLen [ms, ds, mcs, lcs] := lt_of_lt_of_le (List.length_pos_iff.2 hne) (h1 l hl)
  unfold callStyles at h
  rw [if_neg hpos.ne'] at h
  obtain ⟨h3, h4⟩ := mapM_getElem h
  rw [List.length_range] at h3
  refine ⟨by rw [h3]; exact h1, by rw [h3]; exact h2 hpos, fun i hi => ?_⟩
  obtain ⟨s, hs1, hs2⟩ := h4 i i (List.getElem?_range (h3 ▸ hi))
  exact ⟨s, hs1, oneStyle_ok hs2⟩

theorem oneStyle_succeeds {o : MDC} {ms ds mcs lcs : Option (List (Option ℤ))} {i : ℕ}
    (hne : ∀ l ∈ [ms, ds, mcs, lcs], l ≠ some [])
    (hm : ∀ m, Spec.entry ms i = some m → ∃ mk e f, Spec.At o.markers m mk ∧ mk.lookup "markeredgecolor" = some e ∧ mk.lookup "markerfacecolor" = some f)
    (hd : ∀ d, Spec.entry ds i = some d → ∃ v, Spec.At o.dashes d v)
    (hmc : ∀ c, Spec.entry mcs i = some c → ∃ v, Spec.At o.colors c v)
    (hlc : ∀ c, Spec.entry lcs i = some c → ∃ v, Spec.At o.colors c v) : ∃ s, oneStyle o ms ds mcs lcs i = .ok s := by
  have hmk : ∃ s, markerPart o (Spec.entry ms i) (Spec.entry mcs i) = .ok s := by
    cases e1 : Spec.entry ms i with
    | none => exact ⟨_, rfl⟩
    | some m =>
      obtain ⟨mk, e, f, a, b, c⟩ := hm m e1
      unfold markerPart
      simp only [Bind.bind, Except.bind, pyIndex_ok.2 a, dictGet, b, c]
      cases e2 : Spec.entry mcs i with
      | none => exact ⟨_, rfl⟩
      | some mc =>
        obtain ⟨v, hv⟩ := hmc mc e2
        simp only [pyIndex_ok.2 hv]
        by_cases c1 : e = .str "none" <;> by_cases c2 : f = .str "none" <;> simp [c1, c2]
  obtain ⟨s1, hs1⟩ := hmk
  unfold oneStyle
  simp only [Bind.bind, Except.bind]
  rw [cycleGet_eq (hne ms (by simp)), cycleGet_eq (hne mcs (by simp)), cycleGet_eq (hne ds (by simp)), cycleGet_eq (hne lcs (by simp))]
  simp only [hs1]
  cases e3 : Spec.entry ds i with
  | none =>
    simp only
    cases e4 : Spec.entry lcs i with
    | none => exact ⟨_, rfl⟩
    | some c => obtain ⟨v, hv⟩ := hlc c e4; simp only [pyIndex_ok.2 hv]; exact ⟨_, rfl⟩
  | some d =>
    obtain ⟨w, hw⟩ := hd d e3
    simp only [pyIndex_ok.2 hw]
    cases e4 : Spec.entry lcs i with
    | none => exact ⟨_, rfl⟩
    | some c => obtain ⟨v, hv⟩ := hlc c e4; simp only [pyIndex_ok.2 hv]; exact ⟨_, rfl⟩

/-- A marker has the two colour entries. -/
def Complete (o : MDC) : Prop := ∀ mk ∈ o.markers, ∃ e f, mk.lookup "markeredgecolor" = some e ∧ mk.lookup "markerfacecolor" = some f

theorem at_mem {α : Type} {l : List α} {i : ℤ} {v : α} (h : Spec.At l i v) : v ∈ l := by
  rcases h with ⟨_, h⟩ | ⟨_, _, h⟩ <;> exact List.mem_of_getElem? h

theorem at_exists {α : Type} {l : List α} {i : ℤ} (h1 : -(l.length : ℤ) ≤ i) (h2 : i < l.length) : ∃ v, Spec.At l i v := by
  by_cases hi : i < 0
  · have : ((l.length : ℤ) + i).toNat < l.length := by omega
    exact ⟨_, Or.inr ⟨hi, by omega, List.getElem?_eq_getElem this⟩⟩
  · have : i.toNat < l.length := by omega
    exact ⟨_, Or.inl ⟨by omega, List.getElem?_eq_getElem this⟩⟩

theorem entry_mem {l : List (Option ℤ)} {i : ℕ} {m : ℤ} (h : Spec.entry (some l) i = some m) : some m ∈ l := by
  unfold Spec.entry at h
  simp only at h
  cases e : l[i % l.length]? with
  | none => rw [e] at h; cases h
  | some w => rw [e] at h; simp at h; subst h; exact List.mem_of_getElem? e

/-- **C117**: the call succeeds when no list is empty and all numbers are within their tables (negative ones count from the end). -/
theorem C117_succeeds (o : MDC) (ho : Complete o) (ms ds mcs lcs : Option (List (Option ℤ))) (hne : ∀ l ∈ [ms, ds, mcs, lcs], l ≠ some [])
    (hsome : ∃ l, some l ∈ [ms, ds, mcs, lcs])
    (hm : ∀ l, ms = some l → ∀ i, some i ∈ l → -(o.markers.length : ℤ) ≤ i ∧ i < o.markers.length)
    (hd : ∀ l, ds = some l → ∀ i, some i ∈ l → -(o.dashes.length : ℤ) ≤ i ∧ i < o.dashes.length)
    (hc : ∀ l, mcs = some l ∨ lcs = some l → ∀ i, some i ∈ l → -(o.colors.length : ℤ) ≤ i ∧ i < o.colors.length) :
    ∃ out, callStyles o ms ds mcs lcs = .ok out := by
  have hpos : maxLen [ms, ds, mcs, lcs] ≠ 0 := by
    obtain ⟨l, hl⟩ := hsome
    have h1 := (maxLen_spec [ms, ds, mcs, lcs]).1 l hl
    have : l ≠ [] := fun e => hne _ hl (by rw [e])
    have := List.length_pos_iff.2 this
    omega
  unfold callStyles
  rw [if_neg hpos]
  refine mapM_ok fun i hi => oneStyle_succeeds hne ?_ ?_ ?_ ?_
  · intro m e
    cases ms with
    | none => cases e
    | some l =>
      obtain ⟨a, b⟩ := hm l rfl m (entry_mem e)
      obtain ⟨mk, hmk⟩ := at_exists a b
      obtain ⟨x, y, hx, hy⟩ := ho mk (at_mem hmk)
      exact ⟨mk, x, y, hmk, hx, hy⟩
  · intro m e
    cases ds with
    | none => cases e
    | some l => obtain ⟨a, b⟩ := hd l rfl m (entry_mem e); exact at_exists a b
  · intro m e
    cases mcs with
    | none => cases e
    | some l => obtain ⟨a, b⟩ := hc l (Or.inl rfl) m (entry_mem e); exact at_exists a b
  · intro m e
    cases lcs with
    | none => cases e
    | some l => obtain ⟨a, b⟩ := hc l (Or.inr rfl) m (entry_mem e); exact at_exists a b

/-- **C117**: an empty list beside one that is not empty is not "nothing given": no call with one succeeds. -/
theorem C117_empty (o : MDC) (ms ds mcs lcs : Option (List (Option ℤ))) (he : some [] ∈ [ms, ds, mcs, lcs])
    (l : List (Option ℤ)) (hl : some l ∈ [ms, ds, mcs, lcs]) (hne : l ≠ []) : ∀ out, callStyles o ms ds mcs lcs ≠ .ok out := by
  intro out h
  have hpos : 0 < maxLen [ms, ds, mcs, lcs] := lt_of_lt_of_le (List.length_pos_iff.2 hne) ((maxLen_spec _).1 l hl)
  unfold callStyles at h
  rw [if_neg hpos.ne'] at h
  obtain ⟨s, _, hs⟩ := (mapM_getElem h).2 0 0 (List.getElem?_range hpos)
  have hc : cycleGet (some []) 0 = .error .other := rfl
  unfold oneStyle at hs
  simp only [Bind.bind, Except.bind] at hs
  cases h1 : cycleGet ms 0 with
  | error _ => rw [h1] at hs; cases hs
  | ok m =>
  rw [h1] at hs; simp only at hs
  cases h2 : cycleGet mcs 0 with
  | error _ => rw [h2] at hs; cases hs
  | ok mc =>
  rw [h2] at hs; simp only at hs
  cases h3 : markerPart o m mc with
  | error _ => rw [h3] at hs; cases hs
  | ok s1 =>
  rw [h3] at hs; simp only at hs
  cases h4 : cycleGet ds 0 with
  | error _ => rw [h4] at hs; cases hs
  | ok d =>
  rw [h4] at hs; simp only at hs
  have h5 : ∃ lc, cycleGet lcs 0 = .ok lc := by
    cases h5 : cycleGet lcs 0 with
    | ok lc => exact ⟨lc, rfl⟩
    | error _ =>
      rw [h5] at hs
      cases d with
      | none => cases hs
      | some d =>
        simp only at hs
        cases h6 : pyIndex o.dashes d with
        | error _ => rw [h6] at hs; cases hs
        | ok v => rw [h6] at hs; cases hs
  obtain ⟨lc, h5⟩ := h5
  simp only [List.mem_cons, List.not_mem_nil, or_false] at he
  rcases he with rfl | rfl | rfl | rfl
  · rw [hc] at h1; cases h1
  · rw [hc] at h4; cases h4
  · rw [hc] at h2; cases h2
  · rw [hc] at h5; cases h5

theorem entry_range {n i : ℕ} (h : 0 < n) : Spec.entry (some (rangeOpt n)) i = some ((i % n : ℕ) : ℤ) := by
  have : i % n < n := Nat.mod_lt _ h
  unfold Spec.entry rangeOpt
  simp only [List.length_map, List.length_range, List.getElem?_map, List.getElem?_range this, Option.map_some, Option.join_some]

theorem at_nat {α : Type} {l : List α} {i : ℕ} {v : α} : Spec.At l (i : ℤ) v ↔ l[i]? = some v := by
  unfold Spec.At
  constructor
  · rintro (⟨_, h⟩ | ⟨h, _⟩)
    · simpa using h
    · omega
  · intro h; exact Or.inl ⟨by omega, by simpa using h⟩

/-- **C117**: called with no lists, or only empty ones, the styles use every marker, every dash pattern and every colour of the object at
least once; their number is the size of the longest table. -/
theorem C117_default (o : MDC) (ho : Complete o) (h1 : o.markers ≠ []) (h2 : o.dashes ≠ []) (h3 : o.colors ≠ [])
    (ms ds mcs lcs : Option (List (Option ℤ))) (hall : ∀ l ∈ [ms, ds, mcs, lcs], l = none ∨ l = some []) :
    ∃ out, callStyles o ms ds mcs lcs = .ok out ∧ out.length = max o.markers.length (max o.dashes.length o.colors.length) ∧
      (∀ mk ∈ o.markers, ∃ s ∈ out, s.lookup "marker" = mk.lookup "marker" ∧ s.lookup "fillstyle" = mk.lookup "fillstyle") ∧
      (∀ v ∈ o.dashes, ∃ s ∈ out, s.lookup "dashes" = some v) ∧ (∀ v ∈ o.colors, ∃ s ∈ out, s.lookup "color" = some v) := by
  have p1 := List.length_pos_iff.2 h1
  have p2 := List.length_pos_iff.2 h2
  have p3 := List.length_pos_iff.2 h3
  have hz : maxLen [ms, ds, mcs, lcs] = 0 := by
    by_contra c
    obtain ⟨l, hl, e⟩ := (maxLen_spec [ms, ds, mcs, lcs]).2 (Nat.pos_of_ne_zero c)
    rcases hall _ hl with h | h
    · cases h
    · cases h; simp at e; omega
  unfold callStyles
  rw [if_pos hz]
  simp only
  set n := maxLen [some (rangeOpt o.markers.length), some (rangeOpt o.dashes.length), some (rangeOpt o.colors.length),
    some (rangeOpt o.colors.length)] with hn
  have en : n = max o.markers.length (max o.dashes.length o.colors.length) := by
    rw [hn]; simp [maxLen, rangeOpt]
  have ok : ∀ i ∈ List.range n, ∃ s, oneStyle o (some (rangeOpt o.markers.length)) (some (rangeOpt o.dashes.length))
      (some (rangeOpt o.colors.length)) (some (rangeOpt o.colors.length)) i = .ok s := by
    intro i _
    have ne : ∀ k, 0 < k → some (rangeOpt k) ≠ some [] := fun k hk e => by
      have := congrArg List.length (Option.some.inj e); simp [rangeOpt] at this; omega
    refine oneStyle_succeeds ?_ ?_ ?_ ?_ ?_
    · intro l hl
      simp only [List.mem_cons, List.not_mem_nil, or_false] at hl
      rcases hl with rfl | rfl | rfl | rfl
      · exact ne _ p1
      · exact ne _ p2
      · exact ne _ p3
      · exact ne _ p3
    · intro m e
      rw [entry_range p1] at e; cases e
      have hlt := Nat.mod_lt i p1
      obtain ⟨x, y, hx, hy⟩ := ho _ (List.getElem_mem hlt)
      exact ⟨_, x, y, at_nat.2 (List.getElem?_eq_getElem hlt), hx, hy⟩
    · intro m e
      rw [entry_range p2] at e; cases e
      exact ⟨_, at_nat.2 (List.getElem?_eq_getElem (Nat.mod_lt i p2))⟩
    · intro m e
      rw [entry_range p3] at e; cases e
      exact ⟨_, at_nat.2 (List.getElem?_eq_getElem (Nat.mod_lt i p3))⟩
    · intro m e
      rw [entry_range p3] at e; cases e
      exact ⟨_, at_nat.2 (List.getElem?_eq_getElem (Nat.mod_lt i p3))⟩
  obtain ⟨out, hout⟩ := mapM_ok ok
  obtain ⟨l1, l2⟩ := mapM_getElem hout
  rw [List.length_range] at l1
  have st : ∀ i, i < n → ∃ s ∈ out, Spec.IsStyle o (some ((i % o.markers.length : ℕ) : ℤ)) (some ((i % o.colors.length : ℕ) : ℤ))
      (some ((i % o.dashes.length : ℕ) : ℤ)) (some ((i % o.colors.length : ℕ) : ℤ)) s := fun i hi => by
    obtain ⟨s, hs1, hs2⟩ := l2 i i (List.getElem?_range hi)
    have := oneStyle_ok hs2
    rw [entry_range p1, entry_range p2, entry_range p3] at this
    exact ⟨s, List.mem_of_getElem? hs1, this⟩
  refine ⟨out, hout, by rw [l1, en], fun mk hmk => ?_, fun v hv => ?_, fun v hv => ?_⟩
  · obtain ⟨i, hi⟩ := List.mem_iff_getElem?.1 hmk
    have hlt : i < o.markers.length := (List.getElem?_eq_some_iff.1 hi).1
    obtain ⟨s, hs, k⟩ := st i (by omega)
    obtain ⟨mk', a, b, _⟩ := k.marker
    rw [at_nat, Nat.mod_eq_of_lt hlt, hi] at a
    cases a
    exact ⟨s, hs, b _ (by decide), b _ (by decide)⟩
  · obtain ⟨i, hi⟩ := List.mem_iff_getElem?.1 hv
    have hlt : i < o.dashes.length := (List.getElem?_eq_some_iff.1 hi).1
    obtain ⟨s, hs, k⟩ := st i (by omega)
    obtain ⟨w, a, b⟩ := k.dash
    rw [at_nat, Nat.mod_eq_of_lt hlt, hi] at a
    cases a
    exact ⟨s, hs, b⟩
  · obtain ⟨i, hi⟩ := List.mem_iff_getElem?.1 hv
    have hlt : i < o.colors.length := (List.getElem?_eq_some_iff.1 hi).1
    obtain ⟨s, hs, k⟩ := st i (by omega)
    obtain ⟨w, a, b⟩ := k.line
    rw [at_nat, Nat.mod_eq_of_lt hlt, hi] at a
    cases a
    exact ⟨s, hs, b⟩

/-- **C117**: every object the constructor makes, whatever the keywords, has 32 complete markers (keywords are kept except where the marker table
differs), 6 dash patterns and 7 colours: the two previous theorems apply to it. -/
theorem C117_object (kw : Dict PVal) (hk : (kw.map Prod.fst).Nodup) : ∃ o, MDC.mk' kw = .ok o ∧ Complete o ∧ o.markers.length = 32 ∧
    o.dashes.length = 6 ∧ o.colors.length = 7 ∧ o.color = (kw.lookup "color").getD (.str "#262626") ∧
    ∀ (i : ℕ) (mk : Dict PVal), o.markers[i]? = some mk → ∀ k v, kw.lookup k = some v →
      k ∉ ["marker", "fillstyle", "markerfacecolor"] → mk.lookup k = some v := by
  have hc : ∃ cs, (colorTable.mapM fun c => rgbShade c (0.8 : ℚ)) = .ok cs ∧ cs.length = 7 := by
    obtain ⟨cs, h⟩ := mapM_ok (f := fun c => rgbShade c (0.8 : ℚ)) (l := colorTable)
      fun c _ => (C114_refuses c (0.8 : ℚ) true).1.2 (by norm_num)
    exact ⟨cs, h, (mapM_getElem h).1⟩
  obtain ⟨cs, hcs, hlen⟩ := hc
  unfold MDC.mk'
  simp only [Bind.bind, Except.bind, hcs]
  refine ⟨_, rfl, ?_, by simp [markerTable], rfl, by simpa using hlen, rfl, ?_⟩
  · intro mk hmk
    simp only [List.mem_map] at hmk
    obtain ⟨d, hd, rfl⟩ := hmk
    have key : ∀ k, (∃ v, List.lookup k ([("markersize", .nums [5]), ("markeredgecolor", (kw.lookup "color").getD (.str "#262626")),
        ("markeredgewidth", .nums [1]), ("markerfacecolor", (kw.lookup "color").getD (.str "#262626")), ("alpha", .nums [0.9]),
        ("color", (kw.lookup "color").getD (.str "#262626"))] : Dict PVal) = some v) →
        ∃ v, (copyDict (Dict.update [("markersize", .nums [5]), ("markeredgecolor", (kw.lookup "color").getD (.str "#262626")),
        ("markeredgewidth", .nums [1]), ("markerfacecolor", (kw.lookup "color").getD (.str "#262626")), ("alpha", .nums [0.9]),
        ("color", (kw.lookup "color").getD (.str "#262626"))] kw) d).lookup k = some v := by
      rintro k ⟨v, hv⟩
      unfold copyDict
      rw [lookup_update, lookup_update, hv]
      cases lastFor d k <;> cases lastFor kw k <;> simp
    obtain ⟨e, he⟩ := key "markeredgecolor" ⟨_, rfl⟩
    obtain ⟨f, hf⟩ := key "markerfacecolor" ⟨_, rfl⟩
    exact ⟨e, f, he, hf⟩
  · intro i mk hmk k v hv hk'
    rw [List.getElem?_map] at hmk
    obtain ⟨d, hd, rfl⟩ := Option.map_eq_some_iff.1 hmk
    unfold copyDict
    rw [lookup_update, lookup_update, lastFor_eq kw hk, hv]
    have : lastFor d k = none := by
      unfold lastFor
      rw [List.lookup_eq_none_iff]
      intro p hp
      have hp' : p.1 ∈ ["marker", "fillstyle", "markerfacecolor"] := by
        have hall : ∀ d ∈ markerTable, ∀ p ∈ d, p.1 ∈ ["marker", "fillstyle", "markerfacecolor"] := by decide +kernel
        exact hall d (List.mem_of_getElem? hd) p (by simpa using hp)
      have : k ≠ p.1 := fun e => hk' (e ▸ hp')
      simp [this]
    rw [this]; simp

example : ∃ o out, MDC.mk' [("alpha", .nums [1])] = .ok o ∧ callStyles o none none none none = .ok out ∧ out.length = 32 := by
  obtain ⟨o, h, hc, l1, l2, l3, _⟩ := C117_object [("alpha", .nums [1])] (by decide)
  obtain ⟨out, h1, h2, _⟩ := C117_default o hc (fun e => by simp [e] at l1) (fun e => by simp [e] at l2) (fun e => by simp [e] at l3)
    none none none none (by simp)
  exact ⟨o, out, h, h1, by rw [h2, l1, l2, l3]; rfl⟩

example : ∃ o out, MDC.mk' [] = .ok o ∧ callStyles o (some [some 0, some 1, some (-1)]) (some [some 2, none]) none none = .ok out ∧ out.length = 3 := by
  obtain ⟨o, h, hc, l1, l2, l3, _⟩ := C117_object [] (by decide)
  obtain ⟨out, h1⟩ := C117_succeeds o hc (some [some 0, some 1, some (-1)]) (some [some 2, none]) none none (by simp) ⟨[some 0, some 1, some (-1)], by simp⟩
    (by rintro l ⟨⟩ i hi; simp at hi; rcases hi with rfl | rfl | rfl <;> rw [l1] <;> decide)
    (by rintro l ⟨⟩ i hi; simp at hi; subst hi; rw [l2]; decide)
    (by rintro l (h | h) <;> cases h)
  obtain ⟨a, ⟨l, hl, b⟩, _⟩ := C117_styles o _ _ _ _ out h1 [some 0, some 1, some (-1)] (by simp) (by simp)
  refine ⟨o, out, h, h1, ?_⟩
  have := a [some 0, some 1, some (-1)] (by simp)
  simp at hl this
  rcases hl with rfl | rfl <;> simp at b <;> omega

example (o : MDC) : ∀ out, callStyles o (some [some 0]) (some []) none none ≠ .ok out :=
  C117_empty o _ _ _ _ (by simp) [some 0] (by simp) (by simp)

/-! ## C118 -/

variable {V : Type}

/-- What is drawn for one data set: method (nothing: `plot`), positional and keyword arguments. -/
def callOf (xy : List (Item V)) : Option V × List V × Dict V :=
  ((splitSequence xy).2.lookup "plot_type", (splitSequence xy).1, (splitSequence xy).2.filter fun p => p.1 ≠ "plot_type")

theorem gridLoop_ok (gs : List ℕ) (sx sy : List (Option ℤ)) (data : List (List (List (Item V)))) (ax out : List (Subplot V))
    (h : gridLoop gs sx sy data ax = .ok out) :
    out.length = ax.length + data.length ∧ (∀ i, i < ax.length → out[i]? = ax[i]?) ∧
    ∀ (i : ℕ) (d : List (List (Item V))), data[i]? = some d → ∃ j, gs[ax.length + i]? = some j ∧
      out[ax.length + i]? = some ⟨j, none, none, d.map callOf⟩ := by
  induction data generalizing ax with
  | nil => simp only [gridLoop, Except.ok.injEq] at h; subst h; simp
  | cons d r ih =>
    rw [gridLoop] at h
    simp only [Bind.bind, Except.bind] at h
    cases hj : gs[ax.length]? with
    | none => rw [hj] at h; cases h
    | some j =>
    rw [hj] at h; simp only at h
    cases h1 : shareLookup sx ax.length ax.length with
    | error _ => rw [h1] at h; cases h
    | ok _ =>
    rw [h1] at h; simp only at h
    cases h2 : shareLookup sy ax.length ax.length with
    | error _ => rw [h2] at h; cases h
    | ok _ =>
    rw [h2] at h; simp only at h
    obtain ⟨a, b, c⟩ := ih _ h
    rw [List.length_append, List.length_singleton] at a b c
    refine ⟨by rw [a, List.length_cons]; omega, fun i hi => ?_, fun i d' hd => ?_⟩
    · rw [b i (by omega), List.getElem?_append_left hi]
    · cases i with
      | zero =>
        simp at hd; subst hd
        refine ⟨j, hj, ?_⟩
        rw [Nat.add_zero, b _ (by omega), List.getElem?_append_right (le_refl _)]
        simp [callOf]
      | succ i =>
        obtain ⟨j', x, y⟩ := c i d' (by simpa using hd)
        exact ⟨j', by rw [← x]; congr 1; omega, by rw [← y]; congr 1; omega⟩

/-- **C118**: when `plot_data_in_grid` returns, there is one subplot for each set of data, in order, at the grid position asked for (its own
number by default), and everything in that set was plotted in order with its arguments split as C115 says and `plot_type` as the method.  But
whatever `sharex` and `sharey` ask for, no axes are shared. -/
theorem C118_grid (data : List (List (List (Item V)))) (gs : Option (List ℕ)) (sharex sharey : Option (List (Option ℤ))) (out : List (Subplot V))
    (h : plotDataInGrid data gs sharex sharey = .ok out) : out.length = data.length ∧
    ∀ (i : ℕ) (d : List (List (Item V))), data[i]? = some d → ∃ p, out[i]? = some p ∧
      (gs.getD (List.range data.length))[i]? = some p.pos ∧ p.sharex = none ∧ p.sharey = none ∧
      p.calls.length = d.length ∧ ∀ (j : ℕ) (xy : List (Item V)), d[j]? = some xy → ∃ c, p.calls[j]? = some c ∧
        c.1 = (splitSequence xy).2.lookup "plot_type" ∧ c.2.1 = (splitSequence xy).1 ∧
        (∀ k, k ≠ "plot_type" → c.2.2.lookup k = (splitSequence xy).2.lookup k) ∧ c.2.2.lookup "plot_type" = none := by
  unfold plotDataInGrid at h
  simp only [Bind.bind, Except.bind] at h
  cases h1 : shareList data.length sharex with
  | error _ => rw [h1] at h; cases h
  | ok sx =>
  rw [h1] at h; simp only at h
  cases h2 : shareList data.length sharey with
  | error _ => rw [h2] at h; cases h
  | ok sy =>
  rw [h2] at h; simp only at h
  obtain ⟨a, _, c⟩ := gridLoop_ok _ _ _ _ _ _ h
  simp only [List.length_nil, Nat.zero_add] at a c
  refine ⟨a, fun i d hd => ?_⟩
  obtain ⟨j, x, y⟩ := c i d hd
  refine ⟨_, y, x, rfl, rfl, by simp, fun k xy hxy => ⟨_, by rw [List.getElem?_map, hxy]; rfl, rfl, rfl, fun q hq => ?_, ?_⟩⟩
  · simp only [callOf]
    generalize (splitSequence xy).2 = D
    induction D with
    | nil => rfl
    | cons e D ih =>
      obtain ⟨u, w⟩ := e
      by_cases hu : u = "plot_type"
      · subst hu
        have e1 : (q == "plot_type") = false := by simp [hq]
        rw [List.filter_cons_of_neg (by simp), ih, List.lookup_cons, e1]
      · rw [List.filter_cons_of_pos (by simp [hu]), List.lookup_cons, List.lookup_cons, ih]
  · rw [List.lookup_eq_none_iff]
    intro p hp
    have := (List.mem_filter.1 hp).2
    simp at this
    simp [Ne.symm this]

theorem gridLoop_succeeds (gs : List ℕ) (sx sy : List (Option ℤ)) (data : List (List (List (Item V)))) (ax : List (Subplot V))
    (hg : ax.length + data.length ≤ gs.length)
    (hs : ∀ i, ax.length ≤ i → i < ax.length + data.length → (∃ r, shareLookup sx i i = .ok r) ∧ ∃ r, shareLookup sy i i = .ok r) :
    ∃ out, gridLoop gs sx sy data ax = .ok out := by
  induction data generalizing ax with
  | nil => exact ⟨ax, rfl⟩
  | cons d r ih =>
    rw [List.length_cons] at hg hs
    obtain ⟨⟨r1, h1⟩, r2, h2⟩ := hs ax.length (le_refl _) (by omega)
    have hj : ax.length < gs.length := by omega
    rw [gridLoop]
    simp only [Bind.bind, Except.bind, List.getElem?_eq_getElem hj, h1, h2]
    refine ih _ (by rw [List.length_append, List.length_singleton]; omega) fun i hi hi' => ?_
    rw [List.length_append, List.length_singleton] at hi hi'
    exact hs i (by omega) (by omega)

theorem gridLoop_fails (gs : List ℕ) (sx sy : List (Option ℤ)) (data : List (List (List (Item V)))) (ax : List (Subplot V)) (i : ℕ)
    (hi : ax.length ≤ i) (hi' : i < ax.length + data.length) (e : PyErr) (hs : shareLookup sx i i = .error e ∨ shareLookup sy i i = .error e) :
    ∀ out, gridLoop gs sx sy data ax ≠ .ok out := by
  induction data generalizing ax with
  | nil => simp at hi'; omega
  | cons d r ih =>
    intro out h
    rw [gridLoop] at h
    simp only [Bind.bind, Except.bind] at h
    cases hj : gs[ax.length]? with
    | none => rw [hj] at h; cases h
    | some j =>
    rw [hj] at h; simp only at h
    cases h1 : shareLookup sx ax.length ax.length with
    | error _ => rw [h1] at h; cases h
    | ok _ =>
    rw [h1] at h; simp only at h
    cases h2 : shareLookup sy ax.length ax.length with
    | error _ => rw [h2] at h; cases h
    | ok _ =>
    rw [h2] at h; simp only at h
    rcases Nat.eq_or_lt_of_le hi with c | c
    · subst c
      rcases hs with hs | hs
      · rw [h1] at hs; cases hs
      · rw [h2] at hs; cases hs
    · refine ih (ax ++ [⟨j, none, none, _⟩]) ?_ ?_ out h
      · rw [List.length_append, List.length_singleton]; omega
      · rw [List.length_append, List.length_singleton, List.length_cons] at *; omega

/-- **C118**: with nothing to share, the call succeeds exactly when there is a grid position for every set of data. -/
theorem C118_plain (data : List (List (List (Item V)))) (gs : Option (List ℕ)) :
    (∃ out, plotDataInGrid data gs none none = .ok out) ↔ data.length ≤ (gs.getD (List.range data.length)).length := by
  constructor
  · rintro ⟨out, h⟩
    by_contra c
    have hlt := not_le.1 c
    have hd : data[(gs.getD (List.range data.length)).length]? = some (data[(gs.getD (List.range data.length)).length]'hlt) :=
      List.getElem?_eq_getElem hlt
    obtain ⟨p, _, hp, _⟩ := (C118_grid data gs none none out h).2 _ _ hd
    rw [List.getElem?_eq_none (le_refl _)] at hp; cases hp
  · intro h
    unfold plotDataInGrid
    simp only [Bind.bind, Except.bind, shareList]
    refine gridLoop_succeeds _ _ _ _ _ (by simpa using h) fun i _ hi => ?_
    have : i < data.length := by simpa using hi
    simp [shareLookup, this]

/-- **C118**: one number in `sharex` ("all subplots will share the given axis") with two or more sets of data: it works only for the number 0;
and `[None]` is never accepted. -/
theorem C118_share_one (data : List (List (List (Item V)))) (k : ℤ) (h2 : 2 ≤ data.length) :
    ((∃ out, plotDataInGrid data none (some [some k]) none = .ok out) ↔ k = 0) ∧
    plotDataInGrid data none (some [none]) none = .error .typeError := by
  refine ⟨⟨?_, ?_⟩, rfl⟩
  · rintro ⟨out, h⟩
    by_contra hk
    unfold plotDataInGrid at h
    simp only [Bind.bind, Except.bind, shareList] at h
    cases h1 : pySetIdx (List.replicate data.length (some k)) k none with
    | error _ => rw [h1] at h; cases h
    | ok sx =>
    rw [h1] at h; simp only at h
    unfold pySetIdx at h1
    simp only [List.length_replicate] at h1
    set j := if k < 0 then k + (data.length : ℤ) else k with hj
    by_cases hb : j < 0 ∨ data.length ≤ j.toNat
    · rw [if_pos hb] at h1; cases h1
    · rw [if_neg hb] at h1
      simp only [Except.ok.injEq] at h1
      -- entry 0 or 1 of the list looks up an axis that does not exist
      by_cases h0 : j.toNat = 0
      · have hk' : k = -(data.length : ℤ) := by
          by_cases c : k < 0
          · rw [if_pos c] at hj; omega
          · rw [if_neg c] at hj; omega
        refine gridLoop_fails _ _ _ data [] 1 (by simp) (by simp; omega) .indexError (Or.inl ?_) out h
        unfold shareLookup
        have : sx[1]? = some (some k) := by
          rw [← h1, h0, List.getElem?_set_ne (by omega), List.getElem?_replicate, if_pos (by omega)]
        rw [this]
        simp only [Bind.bind, Except.bind, pyIndex]
        rw [if_pos (by omega : k < 0), if_pos (by simp; omega)]
      · refine gridLoop_fails _ _ _ data [] 0 (by simp) (by simp; omega) .indexError (Or.inl ?_) out h
        unfold shareLookup
        have : sx[0]? = some (some k) := by
          rw [← h1, List.getElem?_set_ne h0, List.getElem?_replicate, if_pos (by omega)]
        rw [this]
        have : pyIndex (List.range 0) k = .error .indexError := by
          unfold pyIndex
          by_cases c : k < 0 <;> simp [c]
        simp only [Bind.bind, Except.bind, this]
  · rintro rfl
    unfold plotDataInGrid
    simp only [Bind.bind, Except.bind, shareList]
    have : pySetIdx (List.replicate data.length (some (0:ℤ))) 0 none = .ok ((List.replicate data.length (some (0:ℤ))).set 0 none) := by
      have : ¬((0:ℤ) < 0 ∨ data.length ≤ (0:ℤ).toNat) := by simp; intro e; simp [e] at h2
      unfold pySetIdx
      simp only [List.length_replicate, lt_irrefl, if_false]
      rw [if_neg (by simpa using this)]; rfl
    rw [this]
    simp only
    refine gridLoop_succeeds _ _ _ _ _ (by simp) fun i _ hi => ?_
    have hi : i < data.length := by simpa using hi
    refine ⟨?_, by simp [shareLookup, hi]⟩
    unfold shareLookup
    by_cases c : i = 0
    · subst c
      rw [List.getElem?_set_self (by simpa using hi)]; exact ⟨_, rfl⟩
    · rw [List.getElem?_set_ne (by omega), List.getElem?_replicate, if_pos hi]
      have h0 : (List.range i)[(0:ℤ).toNat]? = some 0 := List.getElem?_range (by simp; omega)
      simp only [Bind.bind, Except.bind, pyIndex]
      rw [if_neg (by omega), if_neg (by omega), h0]
      exact ⟨_, rfl⟩

/-- **C118**: calls on many objects: with no arguments or one, every object is called once in order (with one argument `None`: none is); with
more, object `i` is called exactly when there is an argument `i` that is not `None`, with that argument; more arguments than objects are
harmless exactly when the excess ones are `None`. -/
theorem C118_calls {A : Type} (n : ℕ) (unpack : Bool) (args : List (Option A)) :
    (args = [] → ∃ cs, iterableMethodCall n unpack args = .ok cs ∧ cs.map (fun c => (c.target, c.arg)) = (List.range n).map fun i => (i, none)) ∧
    (∀ a, args = [some a] → ∃ cs, iterableMethodCall n unpack args = .ok cs ∧
      cs.map (fun c => (c.target, c.arg, c.unpack)) = (List.range n).map fun i => (i, some a, unpack)) ∧
    (args = [none] → iterableMethodCall n unpack args = .ok []) ∧
    (2 ≤ args.length → ((∃ cs, iterableMethodCall n unpack args = .ok cs) ↔ ∀ (i : ℕ) (a : A), args[i]? = some (some a) → i < n) ∧
      ∀ cs, iterableMethodCall n unpack args = .ok cs → (cs.map Call.target).Pairwise (· < ·) ∧
        ∀ c, c ∈ cs ↔ ∃ a, args[c.target]? = some (some a) ∧ c.arg = some a ∧ c.unpack = unpack) := by
  refine ⟨?_, ?_, ?_, ?_⟩
  · rintro rfl; exact ⟨_, rfl, by simp⟩
  · rintro a rfl; exact ⟨_, rfl, by simp⟩
  · rintro rfl; rfl
  · intro h2
    have hdef : iterableMethodCall n unpack args = (args.zipIdx.filterMap fun (a, i) => a.map fun a => (i, a)).mapM fun (i, a) =>
        if i < n then .ok ⟨i, some a, unpack⟩ else .error .indexError := by
      match args, h2 with
      | a :: b :: r, _ => rfl
    rw [hdef]
    set L := args.zipIdx.filterMap fun (a, i) => a.map fun a => (i, a) with hL
    have mem : ∀ p : ℕ × A, p ∈ L ↔ args[p.1]? = some (some p.2) := by
      rintro ⟨i, a⟩
      rw [hL, List.mem_filterMap]
      constructor
      · rintro ⟨⟨b, j⟩, h, e⟩
        simp only [Option.map_eq_some_iff, Prod.mk.injEq] at e
        obtain ⟨a', rfl, rfl, rfl⟩ := e
        simpa using List.mem_zipIdx_iff_getElem?.1 h
      · intro h
        exact ⟨(some a, i), List.mem_zipIdx_iff_getElem?.2 (by simpa using h), rfl⟩
    have pw : L.Pairwise fun p q => p.1 < q.1 := by
      rw [hL, List.pairwise_filterMap]
      have : (args.zipIdx).Pairwise fun p q => p.2 < q.2 := by
        have := List.pairwise_lt_range' (s := 0) (n := args.length) (step := 1)
        rw [← List.zipIdx_map_snd 0 args, List.pairwise_map] at this
        exact this
      refine this.imp ?_
      rintro ⟨a, i⟩ ⟨b, j⟩ hij p hp q hq
      simp only [Option.map_eq_some_iff] at hp hq
      obtain ⟨_, _, rfl⟩ := hp
      obtain ⟨_, _, rfl⟩ := hq
      exact hij
    refine ⟨⟨?_, ?_⟩, fun cs hcs => ?_⟩
    · rintro ⟨cs, hcs⟩ i a ha
      by_contra hn
      obtain ⟨k, hk⟩ := List.mem_iff_getElem?.1 ((mem (i, a)).2 ha)
      obtain ⟨b, _, hb⟩ := (mapM_getElem hcs).2 k _ hk
      simp only at hb
      rw [if_neg hn] at hb; cases hb
    · intro h
      refine mapM_ok ?_
      rintro ⟨i, a⟩ hp
      exact ⟨_, if_pos (h i a ((mem (i, a)).1 hp))⟩
    · have hcs' : cs = L.map fun p => ⟨p.1, some p.2, unpack⟩ := by
        obtain ⟨l1, l2⟩ := mapM_getElem hcs
        refine List.ext_getElem? fun k => ?_
        rw [List.getElem?_map]
        cases hk : L[k]? with
        | none =>
          have := List.getElem?_eq_none_iff.1 hk
          rw [List.getElem?_eq_none (by omega)]; rfl
        | some p =>
          obtain ⟨b, hb1, hb2⟩ := l2 k p hk
          obtain ⟨i, a⟩ := p
          simp only at hb2
          by_cases hi : i < n
          · rw [if_pos hi] at hb2; cases hb2; rw [hb1]; rfl
          · rw [if_neg hi] at hb2; cases hb2
      subst hcs'
      refine ⟨?_, fun c => ?_⟩
      · rw [List.map_map, List.pairwise_map]; exact pw
      · rw [List.mem_map]
        constructor
        · rintro ⟨p, hp, rfl⟩
          exact ⟨p.2, (mem p).1 hp, rfl, rfl⟩
        · rintro ⟨a, h1, h3, h4⟩
          refine ⟨(c.target, a), (mem _).2 h1, ?_⟩
          obtain ⟨t, ar, u⟩ := c
          simp only at h3 h4; subst h3; subst h4; rfl

/-- **C118**: applying dictionaries to objects: refused exactly when the numbers differ; object `i` is given, in order, exactly the entries of
dictionary `i` that it has a setter for. -/
theorem C118_apply (objs : List (List String)) (dics : List (Option (Dict V))) :
    ((∃ r, applyDicts objs dics = .ok r) ↔ objs.length = dics.length) ∧
    ∀ r, applyDicts objs dics = .ok r → r.length = objs.length ∧
      ∀ (i : ℕ) (o : List String) (d : Option (Dict V)), objs[i]? = some o → dics[i]? = some d → ∃ s, r[i]? = some s ∧
        (d = none → s = []) ∧ ∀ D, d = some D → s.Sublist D ∧ ∀ p, p ∈ s ↔ p ∈ D ∧ p.1 ∈ o := by
  unfold applyDicts
  by_cases h : objs.length = dics.length
  · rw [if_neg (not_not.2 h)]
    refine ⟨by simp [h], ?_⟩
    rintro r ⟨⟩
    refine ⟨by simp [h], fun i o d ho hd => ?_⟩
    have hz : (objs.zip dics)[i]? = some (o, d) := by
      rw [List.getElem?_zip_eq_some]; exact ⟨ho, hd⟩
    rw [List.getElem?_map, hz]
    refine ⟨_, rfl, ?_, ?_⟩
    · rintro rfl; rfl
    · rintro D rfl
      exact ⟨List.filter_sublist, fun p => by simp [List.mem_filter]⟩
  · rw [if_pos h]
    exact ⟨by simp [h], by rintro r ⟨⟩⟩

/-- **C118**: saving a figure writes one file for each extension, in order, named after it and in that format; the resolution is passed on for
`png` only. -/
theorem C118_save (fname : String) (ext : List String) (dpi : ℕ) : (saveFigure fname ext dpi).length = ext.length ∧
    ∀ (i : ℕ) (e : String), ext[i]? = some e → ∃ r, (saveFigure fname ext dpi)[i]? = some (fname ++ "." ++ e, e, r) ∧
      (r = some dpi ↔ e = "png") ∧ (e ≠ "png" → r = none) := by
  refine ⟨by simp [saveFigure], fun i e h => ⟨if e = "png" then some dpi else none, ?_, ?_, ?_⟩⟩
  · simp [saveFigure, h]
  · by_cases c : e = "png" <;> simp [c]
  · intro c; rw [if_neg c]

/-- A small data set: two subplots, the first with two lines. -/
def exData : List (List (List (Item String))) :=
  [[[.other "x", .other "y", .dict [("color", "red"), ("plot_type", "scatter")]], [.other "x", .other "z"]], [[.other "u", .other "v"]]]

example : ∃ out, plotDataInGrid exData none none none = .ok out ∧ out.length = 2 := by
  obtain ⟨out, h⟩ := (C118_plain exData none).2 (by simp)
  exact ⟨out, h, (C118_grid exData none none none out h).1⟩

/-- The documented use of `sharex=[0]` is accepted and shares nothing; `sharex=[1]` is refused. -/
example : (∃ out p, plotDataInGrid exData none (some [some 0]) none = .ok out ∧ out[1]? = some p ∧ p.sharex = none) ∧
    ¬∃ out, plotDataInGrid exData none (some [some 1]) none = .ok out := by
  constructor
  · obtain ⟨out, h⟩ := (C118_share_one exData 0 (by decide)).1.2 rfl
    obtain ⟨p, h1, _, h2, _⟩ := (C118_grid exData none _ none out h).2 1 [[.other "u", .other "v"]] rfl
    exact ⟨out, p, h, h1, h2⟩
  · rw [(C118_share_one exData 1 (by decide)).1]; decide

example : ∃ cs, iterableMethodCall 3 false [some "a", none, some "b"] = .ok cs ∧ (⟨2, some "b", false⟩ : Call String) ∈ cs := by
  obtain ⟨h1, h2⟩ := (C118_calls 3 false [some "a", none, some "b"]).2.2.2 (by simp)
  obtain ⟨cs, h⟩ := h1.2 (by intro i a h; have := (List.getElem?_eq_some_iff.1 h).1; simpa using this)
  exact ⟨cs, h, ((h2 cs h).2 _).2 ⟨"b", rfl, rfl, rfl⟩⟩

example : ∃ r, applyDicts [["marker"], ["color"]] [some [("marker", 1), ("zz", 2)], none] = .ok r :=
  (C118_apply _ _).1.2 rfl

end Geotecha.Plot
