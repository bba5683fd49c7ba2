import Verif.Constitutive.Epus
import Mathlib.Tactic

/-!
# Inversion lemmas for the pore-group operations of epus.py
-/

set_option autoImplicit false
set_option linter.unusedVariables false

namespace Geotecha.Epus

theorem bind_ok {α β : Type} {x : Except PyErr α} {f : α → Except PyErr β} {y : β} :
    (x >>= f) = .ok y ↔ ∃ a, x = .ok a ∧ f a = .ok y := by
  cases x with
  | error e => simp [Bind.bind, Except.bind]
  | ok v => simp [Bind.bind, Except.bind]

theorem mapM_f2 {α β : Type} {f : α → Except PyErr β} : ∀ {l : List α} {r : List β},
    l.mapM f = .ok r → List.Forall₂ (fun a b => f a = .ok b) l r
  | [], r, h => by
    have : r = [] := by rw [List.mapM_nil] at h; simp [pure, Except.pure] at h; exact h
    subst this; exact .nil
  | a :: l, r, h => by
    rw [List.mapM_cons, bind_ok] at h
    obtain ⟨b, hb, h⟩ := h
    rw [bind_ok] at h
    obtain ⟨r', hr, h⟩ := h
    simp only [pure, Except.pure, Except.ok.injEq] at h
    subst h
    exact .cons hb (mapM_f2 hr)

theorem mapM_of_f2 {α β : Type} {f : α → Except PyErr β} {l : List α} {r : List β}
    (h : List.Forall₂ (fun a b => f a = .ok b) l r) : l.mapM f = .ok r := by
  induction h with
  | nil => rfl
  | cons hb _ ih => rw [List.mapM_cons, hb, ih]; rfl

theorem foldlM_inv {α β : Type} {f : β → α → Except PyErr β} (P : β → Prop)
    (hs : ∀ b a b', P b → f b a = .ok b' → P b') : ∀ (l : List α) (b b' : β), P b → l.foldlM f b = .ok b' → P b'
  | [], b, b', hb, h => by
    simp [List.foldlM, pure, Except.pure] at h; subst h; exact hb
  | a :: l, b, b', hb, h => by
    rw [List.foldlM_cons, bind_ok] at h
    obtain ⟨c, hc, h⟩ := h
    exact foldlM_inv P hs l c b' (hs b a c hb hc) h

theorem log10_ok {x y : ℝ} : log10 x = .ok y ↔ 0 < x ∧ y = Real.logb 10 x := by
  unfold log10
  split <;> rename_i h
  · simp [h, eq_comm]
  · simp [h]

theorem log10_pos {x : ℝ} (h : 0 < x) : log10 x = .ok (Real.logb 10 x) := log10_ok.2 ⟨h, rfl⟩

theorem pow10_pos (x : ℝ) : 0 < pow10 x := Real.rpow_pos_of_pos (by norm_num) x

theorem logb_pow10 (x : ℝ) : Real.logb 10 (pow10 x) = x := Real.logb_rpow (by norm_num) (by norm_num)

theorem pow10_logb {x : ℝ} (h : 0 < x) : pow10 (Real.logb 10 x) = x := Real.rpow_logb (by norm_num) (by norm_num) h

theorem raise_eq_max (x y : ℝ) : raise x y = max x y := by
  unfold raise; split
  · rw [max_eq_left (by linarith)]
  · rw [max_eq_right (by linarith)]

theorem le_raise (x y : ℝ) : y ≤ raise x y := by rw [raise_eq_max]; exact le_max_right _ _

theorem raise_le (x y : ℝ) : x ≤ raise x y := by rw [raise_eq_max]; exact le_max_left _ _

/-- Specification: the volume of a water-filled pore group with slurry volume `v0`, yield stress `y`, acting stress `c`,
virgin index `comp` and rebound index `unl`, in closed form. -/
noncomputable def vol (p : Par) (v0 y c comp unl : ℝ) : ℝ :=
  max 0 (v0 - (Real.logb 10 y - p.minS) * comp + (Real.logb 10 y - Real.logb 10 c) * unl)

theorem vol_nonneg (p : Par) (v0 y c comp unl : ℝ) : 0 ≤ vol p v0 y c comp unl := le_max_left _ _

theorem changevolume_ok {p : Par} {v0 y c comp unl v : ℝ} :
    changevolume p v0 y c comp unl = .ok v ↔ 0 < y ∧ 0 < c ∧ v = vol p v0 y c comp unl := by
  unfold changevolume
  rw [bind_ok]
  constructor
  · rintro ⟨ly, h1, h⟩
    rw [bind_ok] at h
    obtain ⟨lc, h2, h⟩ := h
    obtain ⟨hy, rfl⟩ := log10_ok.1 h1
    obtain ⟨hc, rfl⟩ := log10_ok.1 h2
    refine ⟨hy, hc, ?_⟩
    unfold vol
    dsimp only at h
    split at h <;> rename_i h0
    · cases h; rw [max_eq_right h0.le]
    · cases h; rw [max_eq_left (not_lt.1 h0)]
  · rintro ⟨hy, hc, rfl⟩
    refine ⟨_, log10_pos hy, ?_⟩
    rw [bind_ok]
    refine ⟨_, log10_pos hc, ?_⟩
    dsimp only
    unfold vol
    split <;> rename_i h0
    · rw [max_eq_right h0.le]
    · rw [max_eq_left (not_lt.1 h0)]

theorem changeSuction_pos {p : Par} {stress m s0 : ℝ} {c : ℝ × Bool} (h : changeSuction p stress m s0 = .ok c) :
    0 < c.1 := by
  unfold changeSuction at h
  split at h
  · cases h; norm_num
  split at h
  · cases h
  split at h
  · cases h; norm_num
  rw [bind_ok] at h
  obtain ⟨l0, _, h⟩ := h
  dsimp only at h
  split at h
  · cases h; norm_num
  rw [bind_ok] at h
  obtain ⟨lm, _, h⟩ := h
  rw [bind_ok] at h
  obtain ⟨lc, _, h⟩ := h
  split at h
  · cases h; norm_num
  · rename_i h0; cases h; exact not_le.1 h0

theorem changeWetSuction_pos {p : Par} {stress m s0 w : ℝ} {c : ℝ × Bool} (h : changeWetSuction p stress m s0 w = .ok c) :
    0 < c.1 := by
  unfold changeWetSuction at h
  split at h
  · cases h; norm_num
  split at h
  · cases h
  split at h
  · cases h; norm_num
  rw [bind_ok] at h
  obtain ⟨l0, _, h⟩ := h
  dsimp only at h
  split at h
  · cases h; norm_num
  rw [bind_ok] at h
  obtain ⟨lm, _, h⟩ := h
  rw [bind_ok] at h
  obtain ⟨lc, _, h⟩ := h
  split at h
  · cases h
  split at h
  · cases h; norm_num
  · rename_i h0; cases h; exact not_le.1 h0

/-- Two pore groups have the same identity: everything but the yield stress, the fill state, the current volume and the
air-entrapped flag. -/
def SameGroup (q q' : Pore) : Prop :=
  q'.AEV = q.AEV ∧ q'.WEV = q.WEV ∧ q'.Ccp = q.Ccp ∧ q'.Csp = q.Csp ∧ q'.Ccd = q.Ccd ∧ q'.RV = q.RV ∧
    q'.AEVC = q.AEVC ∧ q'.WEVC = q.WEVC

theorem SameGroup.rfl' (q : Pore) : SameGroup q q := ⟨rfl, rfl, rfl, rfl, rfl, rfl, rfl, rfl⟩

theorem SameGroup.trans {a b c : Pore} (h1 : SameGroup a b) (h2 : SameGroup b c) : SameGroup a c := by
  obtain ⟨a1, a2, a3, a4, a5, a6, a7, a8⟩ := h1
  obtain ⟨b1, b2, b3, b4, b5, b6, b7, b8⟩ := h2
  exact ⟨b1.trans a1, b2.trans a2, b3.trans a3, b4.trans a4, b5.trans a5, b6.trans a6, b7.trans a7, b8.trans a8⟩

/-- The effect of drying on one pore group. -/
theorem dryPore_inv {p : Par} {stress ss : ℝ} {q q' : Pore} {e : Bool} (h : dryPore p stress ss q = .ok (q', e)) :
    (q.Filled = false ∧ q' = q ∧ e = false) ∨
    (q.Filled = true ∧ SameGroup q q' ∧ ∃ c1 c2 : ℝ × Bool, changeSuction p stress q.YieldSt (pow10 q.AEV) = .ok c1 ∧
      pow10 q.AEV / c1.1 ≤ ss ∧ changeSuction p stress (max (stress + pow10 q.AEV) q.YieldSt) (pow10 q.AEV) = .ok c2 ∧
      q'.YieldSt = max (pow10 q.AEV / c2.1 + stress) q.YieldSt ∧ 0 < q'.YieldSt ∧ 0 < stress + ss ∧
      q'.RVC = vol p q.RV q'.YieldSt (stress + ss) q.Ccp q.Csp ∧ q'.Filled = false ∧ q'.Airentrapped = true ∧
      e = (c1.2 || c2.2)) ∨
    (q.Filled = true ∧ SameGroup q q' ∧ ∃ c1 : ℝ × Bool, changeSuction p stress q.YieldSt (pow10 q.AEV) = .ok c1 ∧
      ss < pow10 q.AEV / c1.1 ∧ q'.YieldSt = max (stress + ss) q.YieldSt ∧ 0 < q'.YieldSt ∧ 0 < stress + ss ∧
      q'.RVC = vol p q.RV q'.YieldSt (stress + ss) q.Ccp q.Csp ∧ q'.Filled = true ∧ q'.Airentrapped = q.Airentrapped ∧
      e = c1.2) := by
  unfold dryPore at h
  split at h <;> rename_i hf
  · right
    rw [bind_ok] at h
    obtain ⟨c1, h1, h⟩ := h
    dsimp only at h
    split at h <;> rename_i hle
    · left
      rw [bind_ok] at h
      obtain ⟨c2, h2, h⟩ := h
      rw [bind_ok] at h
      obtain ⟨v0, hv0, h⟩ := h
      rw [bind_ok] at h
      obtain ⟨v, hv, h⟩ := h
      cases h
      obtain ⟨hy, hc, rfl⟩ := changevolume_ok.1 hv
      rw [raise_eq_max] at h2
      refine ⟨hf, ⟨rfl, rfl, rfl, rfl, rfl, rfl, rfl, rfl⟩, c1, c2, h1, hle, h2, raise_eq_max _ _, hy, hc, rfl, rfl, rfl, rfl⟩
    · right
      rw [bind_ok] at h
      obtain ⟨v, hv, h⟩ := h
      cases h
      obtain ⟨hy, hc, rfl⟩ := changevolume_ok.1 hv
      exact ⟨hf, ⟨rfl, rfl, rfl, rfl, rfl, rfl, rfl, rfl⟩, c1, h1, not_le.1 hle, raise_eq_max _ _, hy, hc, rfl, hf, rfl, rfl⟩
  · left
    cases h
    exact ⟨by simpa using hf, rfl, rfl⟩

/-- What happens to a pore group that stays dry. -/
theorem staysDry_inv {p : Par} {stress num r : ℝ} {q q' : Pore} (h : staysDry p stress num r q = .ok q') :
    q' = q ∨ (p.assumption = 1 ∧ 0 < q.Ccp ∧ SameGroup q q' ∧ q.YieldSt < q'.YieldSt ∧ 0 < q'.YieldSt ∧
      dryYield p stress num r q = .ok q'.YieldSt ∧
      q'.RVC = vol p q.RV q'.YieldSt q'.YieldSt q.Ccp q.Csp ∧ q'.Filled = q.Filled ∧ q'.Airentrapped = q.Airentrapped) := by
  unfold staysDry at h
  split at h <;> rename_i hc
  · rw [bind_ok] at h
    obtain ⟨t, ht, h⟩ := h
    split at h <;> rename_i hl
    · rw [bind_ok] at h
      obtain ⟨v, hv, h⟩ := h
      cases h
      obtain ⟨hy, _, rfl⟩ := changevolume_ok.1 hv
      exact Or.inr ⟨hc.1, hc.2, ⟨rfl, rfl, rfl, rfl, rfl, rfl, rfl, rfl⟩, hl, hy, ht, rfl, rfl, rfl⟩
    · cases h; exact Or.inl rfl
  · cases h; exact Or.inl rfl

/-- The effect of wetting on one pore group. -/
theorem wetPore_inv {p : Par} {stress r ss : ℝ} {q q' : Pore} {e : Bool} (h : wetPore p stress r ss q = .ok (q', e)) :
    (q.Filled = true ∧ SameGroup q q' ∧ q'.YieldSt = max (stress + ss) q.YieldSt ∧ 0 < q'.YieldSt ∧ 0 < stress + ss ∧
      q'.RVC = vol p q.RV q'.YieldSt (stress + ss) q.Ccp q.Csp ∧ q'.Filled = true ∧ q'.Airentrapped = q.Airentrapped ∧
      e = false) ∨
    (q.Filled = false ∧ SameGroup q q' ∧ ∃ c : ℝ × Bool,
      changeWetSuction p stress (max (stress + pow10 q.WEV) q.YieldSt) (pow10 q.AEV) (pow10 q.WEV) = .ok c ∧
      ss ≤ pow10 q.WEV / c.1 ∧ q'.YieldSt = max (pow10 q.WEV / c.1 + stress) q.YieldSt ∧ 0 < q'.YieldSt ∧ 0 < stress + ss ∧
      q'.RVC = vol p q.RV q'.YieldSt (stress + ss) q.Ccp q.Csp ∧ q'.Filled = true ∧ q'.Airentrapped = q.Airentrapped ∧
      e = c.2) ∨
    (q.Filled = false ∧ ∃ c : ℝ × Bool,
      changeWetSuction p stress (max (stress + pow10 q.WEV) q.YieldSt) (pow10 q.AEV) (pow10 q.WEV) = .ok c ∧
      pow10 q.WEV / c.1 < ss ∧ staysDry p stress stress r q = .ok q' ∧ e = c.2) := by
  unfold wetPore at h
  split at h <;> rename_i hf
  · left
    dsimp only at h
    rw [bind_ok] at h
    obtain ⟨v, hv, h⟩ := h
    cases h
    obtain ⟨hy, hc, rfl⟩ := changevolume_ok.1 hv
    exact ⟨hf, ⟨rfl, rfl, rfl, rfl, rfl, rfl, rfl, rfl⟩, raise_eq_max _ _, hy, hc, rfl, hf, rfl, rfl⟩
  · right
    rw [bind_ok] at h
    obtain ⟨c, hc, h⟩ := h
    rw [raise_eq_max] at hc
    dsimp only at h
    split at h <;> rename_i hle
    · left
      rw [bind_ok] at h
      obtain ⟨v, hv, h⟩ := h
      cases h
      obtain ⟨hy, hc', rfl⟩ := changevolume_ok.1 hv
      exact ⟨by simpa using hf, ⟨rfl, rfl, rfl, rfl, rfl, rfl, rfl, rfl⟩, c, hc, hle, raise_eq_max _ _, hy, hc', rfl, rfl, rfl, rfl⟩
    · right
      rw [bind_ok] at h
      obtain ⟨q'', hq, h⟩ := h
      cases h
      exact ⟨by simpa using hf, c, hc, not_le.1 hle, hq, rfl⟩

/-- The effect of loading on one pore group. -/
theorem loadPore_inv {p : Par} {stress suction r stN : ℝ} {q q' : Pore} {e : Bool}
    (h : loadPore p stress suction r stN q = .ok (q', e)) :
    (q.Filled = true ∧ SameGroup q q' ∧ q'.YieldSt = max (stN + suction) q.YieldSt ∧ 0 < q'.YieldSt ∧ 0 < suction + stN ∧
      q'.RVC = vol p q.RV q'.YieldSt (suction + stN) q.Ccp q.Csp ∧ q'.Filled = true ∧ q'.Airentrapped = q.Airentrapped ∧
      e = false) ∨
    (q.Filled = false ∧ SameGroup q q' ∧ ∃ c : ℝ × Bool,
      changeWetSuction p stress (max (stN + pow10 q.WEV) q.YieldSt) (pow10 q.AEV) (pow10 q.WEV) = .ok c ∧
      suction < pow10 q.WEV / c.1 ∧ q'.YieldSt = max (stN + pow10 q.WEV) q.YieldSt ∧ 0 < q'.YieldSt ∧ 0 < suction + stN ∧
      q'.RVC = vol p q.RV q'.YieldSt (suction + stN) q.Ccp q.Csp ∧ q'.Filled = true ∧ q'.Airentrapped = q.Airentrapped ∧
      e = c.2) ∨
    (q.Filled = false ∧ ∃ c : ℝ × Bool,
      changeWetSuction p stress (max (stN + pow10 q.WEV) q.YieldSt) (pow10 q.AEV) (pow10 q.WEV) = .ok c ∧
      pow10 q.WEV / c.1 ≤ suction ∧ staysDry p stress stN r q = .ok q' ∧ e = c.2) := by
  unfold loadPore at h
  split at h <;> rename_i hf
  · left
    dsimp only at h
    rw [bind_ok] at h
    obtain ⟨v, hv, h⟩ := h
    cases h
    obtain ⟨hy, hc, rfl⟩ := changevolume_ok.1 hv
    exact ⟨hf, ⟨rfl, rfl, rfl, rfl, rfl, rfl, rfl, rfl⟩, raise_eq_max _ _, hy, hc, rfl, hf, rfl, rfl⟩
  · right
    dsimp only at h
    rw [bind_ok] at h
    obtain ⟨c, hc, h⟩ := h
    rw [raise_eq_max] at hc
    split at h <;> rename_i hle
    · left
      rw [bind_ok] at h
      obtain ⟨v, hv, h⟩ := h
      cases h
      obtain ⟨hy, hc', rfl⟩ := changevolume_ok.1 hv
      exact ⟨by simpa using hf, ⟨rfl, rfl, rfl, rfl, rfl, rfl, rfl, rfl⟩, c, hc, hle, raise_eq_max _ _, hy, hc', rfl, rfl, rfl, rfl⟩
    · right
      rw [bind_ok] at h
      obtain ⟨q'', hq, h⟩ := h
      cases h
      exact ⟨by simpa using hf, c, hc, not_lt.1 hle, hq, rfl⟩

/-- The effect of unloading on one pore group. -/
theorem unloadPore_inv {p : Par} {suction stN : ℝ} {q q' : Pore} {e : Bool} (h : unloadPore p suction stN q = .ok (q', e)) :
    e = false ∧ ((q.Filled = false ∧ q' = q) ∨
    (q.Filled = true ∧ SameGroup q q' ∧ q'.YieldSt = q.YieldSt ∧ 0 < q.YieldSt ∧ 0 < suction + stN ∧
      q'.RVC = vol p q.RV q.YieldSt (suction + stN) q.Ccp q.Csp ∧ q'.Filled = true ∧ q'.Airentrapped = q.Airentrapped)) := by
  unfold unloadPore at h
  split at h <;> rename_i hf
  · rw [bind_ok] at h
    obtain ⟨v, hv, h⟩ := h
    cases h
    obtain ⟨hy, hc, rfl⟩ := changevolume_ok.1 hv
    exact ⟨rfl, Or.inr ⟨hf, ⟨rfl, rfl, rfl, rfl, rfl, rfl, rfl, rfl⟩, rfl, hy, hc, rfl, hf, rfl⟩⟩
  · cases h
    exact ⟨rfl, Or.inl ⟨by simpa using hf, rfl⟩⟩

end Geotecha.Epus
