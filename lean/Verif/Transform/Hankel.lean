import Verif.Transform.ModelHankel
import Verif.Transform.SpecHankel
import Verif.Quad.PropsGK
import Verif.Quad.PropsShanks
import Mathlib.Tactic.Linarith
import Mathlib.Tactic.FieldSimp
import Mathlib.Tactic.Ring

/-!
# C125, C126: the Hankel transform
-/

set_option linter.unusedVariables false
open MeasureTheory
namespace Geotecha.Transform
open Geotecha (PyErr)
open Geotecha.Quad

/-- `gk_quad` with `n` points is off by at most `ε` on any interval inside `[lo, hi]`. -/
def Accurate (g : ℝ → ℝ) (n : ℕ) (lo hi ε : ℝ) : Prop :=
  ∀ p q, lo ≤ p → p < q → q ≤ hi → ∃ v e, gkQuad g [p] [q] n = .ok [(v, e)] ∧ |v - ∫ x in p..q, g x| ≤ ε

theorem gkQuad_zip (g : ℝ → ℝ) (n : ℕ) (hn : SupportedK n) :
    ∃ F : ℝ → ℝ → ℝ × ℝ, ∀ A B : List ℝ, A.length = B.length → gkQuad g A B n = .ok (List.zipWith F A B) := by
  obtain ⟨t, h1, h2, h3, h4, h5, h6⟩ := gkRule_ok hn
  refine ⟨fun a b => (panel ((t.map fun p => (unscale p.1, unscale p.2.1, unscale p.2.2)).map fun p => (p.1, p.2.2)) g a b,
    |panel ((t.map fun p => (unscale p.1, unscale p.2.1, unscale p.2.2)).map fun p => (p.1, p.2.2)) g a b -
      panel ((t.map fun p => (unscale p.1, unscale p.2.1, unscale p.2.2)).map fun p => (p.1, p.2.1)) g a b|), fun A B h => ?_⟩
  unfold gkQuad
  rw [h2]
  simp only [bind, Except.bind, h, ne_eq, not_true_eq_false, if_false, pure, Except.pure]

/-- Neighbouring segments add up. -/
theorem chain (g : ℝ → ℝ) (F : ℝ → ℝ → ℝ) (ε lo hi : ℝ) (hint : IntervalIntegrable g volume lo hi)
    (hF : ∀ p q, lo ≤ p → p < q → q ≤ hi → |F p q - ∫ x in p..q, g x| ≤ ε) (x : ℝ) (rest : List ℝ)
    (hp : (x :: rest).Pairwise (· < ·)) (hx : lo ≤ x) (hl : (x :: rest).getLast (by simp) ≤ hi) :
    |(List.zipWith F (x :: rest).dropLast rest).sum - ∫ r in x..(x :: rest).getLast (by simp), g r| ≤ rest.length * ε := by
  induction rest generalizing x with
  | nil => simp
  | cons y r ih =>
    have hxy : x < y := (List.pairwise_cons.1 hp).1 y (by simp)
    have hp' := (List.pairwise_cons.1 hp).2
    have hlast : (x :: y :: r).getLast (by simp) = (y :: r).getLast (by simp) := by simp
    rw [hlast] at hl ⊢
    have ih' := ih y hp' (hx.trans hxy.le) hl
    have hyl : y ≤ (y :: r).getLast (by simp) := by
      rcases List.mem_cons.1 (List.getLast_mem (l := y :: r) (by simp)) with h | h
      · exact h.ge
      · exact ((List.pairwise_cons.1 hp').1 _ h).le
    have hlohi : lo ≤ hi := hx.trans (hxy.le.trans (hyl.trans hl))
    have hsub : ∀ p q, lo ≤ p → p ≤ q → q ≤ hi → IntervalIntegrable g volume p q := by
      intro p q h1 h2 h3
      refine hint.mono_set ?_
      rw [Set.uIcc_of_le h2, Set.uIcc_of_le hlohi]
      exact Set.Icc_subset_Icc h1 h3
    have hadd := intervalIntegral.integral_add_adjacent_intervals (hsub x y hx hxy.le (hyl.trans hl))
      (hsub y _ (hx.trans hxy.le) hyl hl)
    have hz : (List.zipWith F (x :: y :: r).dropLast (y :: r)).sum = F x y + (List.zipWith F (y :: r).dropLast r).sum := by
      rw [List.dropLast_cons_cons, List.zipWith_cons_cons, List.sum_cons]
    rw [hz, ← hadd]
    have h1 := hF x y hx hxy (hyl.trans hl)
    have : F x y + (List.zipWith F (y :: r).dropLast r).sum - ((∫ r in x..y, g r) + ∫ r' in y..(y :: r).getLast (by simp), g r')
        = (F x y - ∫ r in x..y, g r) + ((List.zipWith F (y :: r).dropLast r).sum - ∫ r' in y..(y :: r).getLast (by simp), g r') := by ring
    rw [this]
    refine (abs_add_le _ _).trans ?_
    have hlen : (((y :: r).length : ℕ) : ℝ) * ε = ε + r.length * ε := by simp; ring
    rw [hlen]
    exact add_le_add h1 ih'

theorem over_spec (o : Hankel) (g : ℝ → ℝ) (b : Option ℝ) (hb : o.shanksInd = none ∨ b ≠ none) (ε lo hi : ℝ) (h0 : SupportedK o.ng0)
    (h1 : SupportedK o.ng) (ha0 : Accurate g o.ng0 lo hi ε) (ha1 : Accurate g o.ng lo hi ε) (hint : IntervalIntegrable g volume lo hi)
    (P : List ℝ) (hP : P.Pairwise (· < ·)) (hlo : P.head? = some lo) (hhi : P.getLast? = some hi) (hlt : lo < hi) :
    ∃ v e, o.over g b P = .ok (v, e) ∧ |v - ∫ x in lo..hi, g x| ≤ ((P.length : ℝ) - 1) * ε := by
  match P, hP, hlo, hhi with
  | [x], _, hlo, hhi =>
    simp at hlo hhi
    linarith
  | x :: y :: rest, hP, hlo, hhi =>
    obtain rfl : x = lo := by simpa using hlo
    have hxy : x < y := (List.pairwise_cons.1 hP).1 y (by simp)
    have hP' := (List.pairwise_cons.1 hP).2
    have hlast : (y :: rest).getLast (by simp) = hi := by
      rw [List.getLast?_cons_cons, List.getLast?_eq_getLast_of_ne_nil (by simp)] at hhi
      exact Option.some.inj hhi
    have hyl : y ≤ hi := by
      rw [← hlast]
      rcases List.mem_cons.1 (List.getLast_mem (l := y :: rest) (by simp)) with h | h
      · exact h.ge
      · exact ((List.pairwise_cons.1 hP').1 _ h).le
    obtain ⟨F0, hF0⟩ := gkQuad_zip g o.ng0 h0
    obtain ⟨F1, hF1⟩ := gkQuad_zip g o.ng h1
    have hb0 : |(F0 x y).1 - ∫ r in x..y, g r| ≤ ε := by
      obtain ⟨v, e, h, h'⟩ := ha0 x y le_rfl hxy hyl
      rw [hF0 [x] [y] rfl] at h
      have := Except.ok.inj h
      simp at this
      rw [this]
      exact h'
    have hb1 : ∀ p q, x ≤ p → p < q → q ≤ hi → |(F1 p q).1 - ∫ r in p..q, g r| ≤ ε := by
      intro p q hp hpq hq
      obtain ⟨v, e, h, h'⟩ := ha1 p q hp hpq hq
      rw [hF1 [p] [q] rfl] at h
      have := Except.ok.inj h
      simp at this
      rw [this]
      exact h'
    have hch := chain g (fun p q => (F1 p q).1) ε x hi hint hb1 y rest hP' hxy.le hlast.le
    rw [hlast] at hch
    have hsub : ∀ p q, x ≤ p → p ≤ q → q ≤ hi → IntervalIntegrable g volume p q := by
      intro p q h1 h2 h3
      refine hint.mono_set ?_
      rw [Set.uIcc_of_le h2, Set.uIcc_of_le hlt.le]
      exact Set.Icc_subset_Icc h1 h3
    have hadd := intervalIntegral.integral_add_adjacent_intervals (hsub x y le_rfl hxy.le hyl) (hsub y hi hxy.le hyl le_rfl)
    unfold Hankel.over
    dsimp only
    rw [hF0 [x] [y] rfl]
    dsimp only [List.zipWith_cons_cons, List.zipWith_nil_left, List.headD_cons]
    by_cases hr : rest = []
    · rw [if_pos hr]
      refine ⟨_, _, rfl, ?_⟩
      subst hr
      obtain rfl : y = hi := by simpa using hlast
      have : (([x, y].length : ℕ) : ℝ) - 1 = 1 := by norm_num
      rw [this, one_mul]
      exact hb0
    · rw [if_neg hr, hF1 (y :: rest).dropLast rest (by simp)]
      dsimp only
      rw [if_pos hb]
      refine ⟨_, _, rfl, ?_⟩
      rw [List.map_zipWith, ← hadd]
      have : (F0 x y).1 + (List.zipWith (fun p q => (F1 p q).1) (y :: rest).dropLast rest).sum - ((∫ r in x..y, g r) + ∫ r in y..hi, g r)
        = ((F0 x y).1 - ∫ r in x..y, g r) + ((List.zipWith (fun p q => (F1 p q).1) (y :: rest).dropLast rest).sum - ∫ r in y..hi, g r) := by ring
      rw [this]
      refine (abs_add_le _ _).trans ?_
      have hlen : (((x :: y :: rest).length : ℝ) - 1) * ε = ε + rest.length * ε := by simp; ring
      rw [hlen]
      exact add_le_add hb0 hch

/-! ## The limits of the segments -/

theorem mem_unique (l : List ℝ) (x : ℝ) : x ∈ unique l ↔ x ∈ l := by
  unfold unique
  rw [Finset.mem_sort, List.mem_toFinset]

theorem unique_lt (l : List ℝ) : (unique l).Pairwise (· < ·) := by
  unfold unique
  have h1 := Finset.pairwise_sort l.toFinset (· ≤ ·)
  have h2 := Finset.sort_nodup l.toFinset (· ≤ ·)
  exact h1.imp₂ (fun a b h h' => lt_of_le_of_ne h h') h2

theorem unique_length (l : List ℝ) : (unique l).length ≤ l.length := by
  unfold unique
  rw [Finset.length_sort]
  exact l.toFinset_card_le

/-- In a strictly increasing list the first is the least and the last the largest. -/
theorem ends (P : List ℝ) (hP : P.Pairwise (· < ·)) (lo hi : ℝ) (hlo : lo ∈ P) (hhi : hi ∈ P) (hb : ∀ x ∈ P, lo ≤ x ∧ x ≤ hi) :
    P.head? = some lo ∧ P.getLast? = some hi := by
  constructor
  · match P, hP, hlo, hb with
    | x :: r, hP, hlo, hb =>
      rcases List.mem_cons.1 hlo with rfl | h
      · rfl
      · have h1 := (List.pairwise_cons.1 hP).1 lo h
        have h2 := (hb x (by simp)).1
        linarith
  · have hne : P ≠ [] := List.ne_nil_of_mem hlo
    rw [List.getLast?_eq_getLast_of_ne_nil hne]
    congr 1
    rw [← List.dropLast_append_getLast hne] at hhi hP
    have h2 := (hb _ (List.getLast_mem hne)).2
    rcases List.mem_append.1 hhi with h | h
    · have := (List.pairwise_append.1 hP).2.2 hi h _ (List.mem_singleton.2 rfl)
      linarith
    · exact (by simpa using h : hi = _).symm

variable (o : Hankel) (s : ℝ)

theorem zeros0_lt (hs : 0 < s) (hz : Spec.Zeros o.zs) : (o.zeros0 s).Pairwise (· < ·) := by
  unfold Hankel.zeros0
  rw [List.pairwise_map]
  exact hz.imp fun {a b} h => div_lt_div_of_pos_right h hs

theorem zeros0_ends (hs : 0 < s) (R : ℝ) (hz : Spec.Zeros o.zs) (hR : o.zs.getLast? = some R) :
    (0 : ℝ) ∈ o.zeros0 s ∧ R / s ∈ o.zeros0 s ∧ (o.zeros0 s).getLastD 0 = R / s ∧ 0 < R / s ∧ ∀ x ∈ o.zeros0 s, 0 ≤ x ∧ x ≤ R / s := by
  have hne : o.zs ≠ [] := by rintro h; simp [h] at hR
  have hRm : R ∈ o.zs := List.mem_of_getLast? hR
  have hRpos : 0 < R := (List.pairwise_cons.1 hz).1 R hRm
  refine ⟨by simp [Hankel.zeros0], ?_, ?_, div_pos hRpos hs, ?_⟩
  · unfold Hankel.zeros0
    exact List.mem_map.2 ⟨R, by simp [hRm], rfl⟩
  · unfold Hankel.zeros0
    rw [List.getLastD_eq_getLast?, List.getLast?_map, List.getLast?_cons, hR]
    rfl
  · intro x hx
    obtain ⟨y, hy, rfl⟩ := List.mem_map.1 hx
    have hy0 : 0 ≤ y := by
      rcases List.mem_cons.1 hy with rfl | h
      · exact le_rfl
      · exact ((List.pairwise_cons.1 hz).1 y h).le
    have hyR : y ≤ R := by
      rcases List.mem_cons.1 hy with rfl | h
      · exact hRpos.le
      · rw [← List.dropLast_append_getLast hne] at h
        have hl : o.zs.getLast hne = R := by
          rw [List.getLast?_eq_getLast_of_ne_nil hne] at hR
          exact Option.some.inj hR
        have hp := (List.pairwise_cons.1 hz).2
        rw [← List.dropLast_append_getLast hne] at hp
        rcases List.mem_append.1 h with h | h
        · have := (List.pairwise_append.1 hp).2.2 y h _ (List.mem_singleton.2 rfl)
          rw [hl] at this
          exact this.le
        · rw [hl] at h
          exact (by simpa using h : y = R).le
    exact ⟨div_nonneg hy0 hs.le, div_le_div_of_nonneg_right hyR hs.le⟩

theorem zeros1_ends (hs : 0 < s) (R : ℝ) (hz : Spec.Zeros o.zs) (hR : o.zs.getLast? = some R) :
    (o.zeros1 s).Pairwise (· < ·) ∧ (0 : ℝ) ∈ o.zeros1 s ∧ R / s ∈ o.zeros1 s ∧ (∀ x ∈ o.zeros1 s, 0 ≤ x ∧ x ≤ R / s) ∧
      (o.zeros1 s).length ≤ o.zs.length + 1 + (o.points.getD []).length := by
  obtain ⟨h1, h2, h3, h4, h5⟩ := zeros0_ends o s hs R hz hR
  unfold Hankel.zeros1
  cases hp : o.points with
  | none => exact ⟨zeros0_lt o s hs hz, h1, h2, h5, by simp [Hankel.zeros0]⟩
  | some ps =>
    dsimp only
    refine ⟨unique_lt _, (mem_unique _ _).2 (by simp [h1]), (mem_unique _ _).2 (by simp [h2]), ?_, ?_⟩
    · intro x hx
      rcases List.mem_append.1 ((mem_unique _ _).1 hx) with h | h
      · exact h5 x h
      · have := (List.mem_filter.1 h).2
        rw [h3] at this
        simp only [decide_eq_true_eq] at this
        exact ⟨this.2.le, this.1.le⟩
    · refine (unique_length _).trans ?_
      rw [List.length_append]
      have := List.length_filter_le (fun p => decide (p < (o.zeros0 s).getLastD 0 ∧ 0 < p)) ps
      simp only [Hankel.zeros0, List.length_map, List.length_cons, Option.getD_some] at this ⊢
      omega

/-- Without extrapolation the answer is the integral from `0` to the last zero, up to the accuracy of `gk_quad` on the segments; further
points only split segments. -/
theorem C125_value (hs : 0 < s) (R ε : ℝ) (hz : Spec.Zeros o.zs) (hR : o.zs.getLast? = some R) (h0 : SupportedK o.ng0) (h1 : SupportedK o.ng)
    (hsh : o.shanksInd = none)
    (ha0 : Accurate (fun r => o.func r * r * o.J (s * r)) o.ng0 0 (R / s) ε) (ha1 : Accurate (fun r => o.func r * r * o.J (s * r)) o.ng 0 (R / s) ε)
    (hint : IntervalIntegrable (fun r => o.func r * r * o.J (s * r)) volume 0 (R / s)) (hε : 0 ≤ ε) :
    ∃ v e, o.call s = .ok (v, e) ∧ |v - Spec.hankel o.func o.J s 0 (R / s)| ≤ (o.zs.length + (o.points.getD []).length) * ε := by
  obtain ⟨g1, g2, g3, g4, g5⟩ := zeros1_ends o s hs R hz hR
  obtain ⟨e1, e2⟩ := ends _ g1 0 (R / s) g2 g3 g4
  obtain ⟨v, e, h, h'⟩ := over_spec o _ none (.inl hsh) ε 0 (R / s) h0 h1 ha0 ha1 hint _ g1 e1 e2
    (zeros0_ends o s hs R hz hR).2.2.2.1
  refine ⟨v, e, ?_, h'.trans ?_⟩
  · unfold Hankel.call Hankel.zeros
    rw [if_neg (by simp)]
    exact h
  · refine mul_le_mul_of_nonneg_right ?_ hε
    have : ((o.zeros1 s).length : ℝ) ≤ o.zs.length + 1 + (o.points.getD []).length := by exact_mod_cast g5
    linarith

theorem clip_mono (a : ℝ) (b : Option ℝ) (x y : ℝ) (h : x ≤ y) : clip a b x ≤ clip a b y := by
  unfold clip
  cases b with
  | none => exact max_le_max_right a h
  | some b => exact min_le_min_right b (max_le_max_right a h)

/-- With limits `a` and `b` the integral runs over `[a, b]` cut down to `[0, last zero]`, and extrapolation is off when `b` is given. -/
theorem C125_limits (hs : 0 < s) (R ε a lo hi : ℝ) (b : Option ℝ) (hab : a ≠ 0 ∨ b ≠ none) (hz : Spec.Zeros o.zs) (hR : o.zs.getLast? = some R)
    (h0 : SupportedK o.ng0) (h1 : SupportedK o.ng) (hsh : o.shanksInd = none ∨ b ≠ none)
    (hlo : lo = max a 0) (hhi : hi = match b with | none => R / s | some b => min b (R / s)) (hlt : lo < hi)
    (ha0 : Accurate (fun r => o.func r * r * o.J (s * r)) o.ng0 lo hi ε) (ha1 : Accurate (fun r => o.func r * r * o.J (s * r)) o.ng lo hi ε)
    (hint : IntervalIntegrable (fun r => o.func r * r * o.J (s * r)) volume lo hi) (hε : 0 ≤ ε) :
    ∃ v e, o.call s a b = .ok (v, e) ∧ |v - Spec.hankel o.func o.J s lo hi| ≤ (o.zs.length + (o.points.getD []).length) * ε := by
  obtain ⟨g1, g2, g3, g4, g5⟩ := zeros1_ends o s hs R hz hR
  have cl0 : clip a b 0 = lo := by
    unfold clip
    cases b with
    | none => simp only; rw [hlo, max_comm]
    | some b =>
      simp only at hhi ⊢
      rw [max_comm, ← hlo]
      have : hi ≤ b := hhi ▸ min_le_left _ _
      exact min_eq_left (by linarith)
  have clR : clip a b (R / s) = hi := by
    have haR : a < R / s := by
      have h1 : a ≤ lo := hlo ▸ le_max_left _ _
      have h2 : hi ≤ R / s := by
        cases b with
        | none => exact hhi.le
        | some b => exact hhi ▸ min_le_right _ _
      linarith
    unfold clip
    cases b with
    | none => simp only at hhi ⊢; rw [hhi, max_eq_left haR.le]
    | some b => simp only at hhi ⊢; rw [hhi, max_eq_left haR.le, min_comm]
  have hm0 : lo ∈ unique ((o.zeros1 s).map (clip a b)) := (mem_unique _ _).2 (List.mem_map.2 ⟨0, g2, cl0⟩)
  have hmR : hi ∈ unique ((o.zeros1 s).map (clip a b)) := (mem_unique _ _).2 (List.mem_map.2 ⟨_, g3, clR⟩)
  have hbd : ∀ x ∈ unique ((o.zeros1 s).map (clip a b)), lo ≤ x ∧ x ≤ hi := by
    intro x hx
    obtain ⟨y, hy, rfl⟩ := List.mem_map.1 ((mem_unique _ _).1 hx)
    rw [← cl0, ← clR]
    exact ⟨clip_mono a b _ _ (g4 y hy).1, clip_mono a b _ _ (g4 y hy).2⟩
  obtain ⟨e1, e2⟩ := ends _ (unique_lt _) lo hi hm0 hmR hbd
  obtain ⟨v, e, h, h'⟩ := over_spec o _ b hsh ε lo hi h0 h1 ha0 ha1 hint _ (unique_lt _) e1 e2 hlt
  refine ⟨v, e, ?_, h'.trans ?_⟩
  · unfold Hankel.call Hankel.zeros
    rw [if_pos hab]
    exact h
  · refine mul_le_mul_of_nonneg_right ?_ hε
    have h6 := unique_length ((o.zeros1 s).map (clip a b))
    rw [List.length_map] at h6
    have : ((unique ((o.zeros1 s).map (clip a b))).length : ℝ) ≤ o.zs.length + 1 + (o.points.getD []).length := by exact_mod_cast h6.trans g5
    linarith

/-- When nothing of `[a, b]` is left the call fails with an `IndexError`. -/
theorem C125_empty (hs : 0 < s) (R a lo hi : ℝ) (b : Option ℝ) (hab : a ≠ 0 ∨ b ≠ none) (hz : Spec.Zeros o.zs) (hR : o.zs.getLast? = some R)
    (hlo : lo = max a 0) (hhi : hi = match b with | none => R / s | some b => min b (R / s)) (hle : hi ≤ lo) :
    o.call s a b = .error .indexError := by
  obtain ⟨g1, g2, g3, g4, g5⟩ := zeros1_ends o s hs R hz hR
  have hRp := (zeros0_ends o s hs R hz hR).2.2.2.1
  have hconst : ∃ c, ∀ x, 0 ≤ x → x ≤ R / s → clip a b x = c := by
    unfold clip
    cases b with
    | none =>
      simp only at hhi ⊢
      refine ⟨a, fun x h0 h1 => max_eq_right ?_⟩
      rcases max_choice a 0 with h | h
      · rw [hlo, h] at hle; linarith
      · rw [hlo, h] at hle; linarith
    | some b =>
      simp only at hhi ⊢
      rcases le_or_gt b a with hba | hba
      · exact ⟨b, fun x h0 h1 => min_eq_right (hba.trans (le_max_right _ _))⟩
      · rcases le_or_gt b 0 with hb0 | hb0
        · exact ⟨b, fun x h0 h1 => min_eq_right (hb0.trans (h0.trans (le_max_left _ _)))⟩
        · have haR : R / s ≤ a := by
            by_contra hc
            push Not at hc
            have : lo < hi := by rw [hlo, hhi]; exact max_lt (lt_min hba hc) (lt_min hb0 hRp)
            linarith
          exact ⟨min a b, fun x h0 h1 => by rw [max_eq_right (h1.trans haR)]⟩
  obtain ⟨c, hc⟩ := hconst
  have hall : ∀ x ∈ unique ((o.zeros1 s).map (clip a b)), x = c := by
    intro x hx
    obtain ⟨y, hy, rfl⟩ := List.mem_map.1 ((mem_unique _ _).1 hx)
    exact hc y (g4 y hy).1 (g4 y hy).2
  unfold Hankel.call Hankel.zeros
  rw [if_pos hab]
  have hp := unique_lt ((o.zeros1 s).map (clip a b))
  match hP : unique ((o.zeros1 s).map (clip a b)), hp, hall with
  | [], _, _ => rfl
  | [x], _, _ => rfl
  | x :: y :: r, hp, hall =>
    have h1 := hall x (by simp)
    have h2 := hall y (by simp)
    have h3 := (List.pairwise_cons.1 hp).1 y (by simp)
    linarith

/-! ## C126: the error estimate -/

/-- With one segment the error returned is that of `gk_quad` itself, with more it is `√200` times the documented
`∑ 200 |G - K|^1.5`. -/
theorem C126_error_partial (h0 : SupportedK o.ng0) (h1 : SupportedK o.ng) (g : ℝ → ℝ) (b : Option ℝ) (x y : ℝ) (rest : List ℝ) :
    ∃ e0 : ℝ, ∃ errs : List ℝ, (∃ v, gkQuad g [x] [y] o.ng0 = .ok [(v, e0)]) ∧
      (∃ rm, gkQuad g (y :: rest).dropLast rest o.ng = .ok rm ∧ errs = rm.map (·.2)) ∧
      ∃ v, o.over g b (x :: y :: rest) = .ok (v,
        if rest = [] then e0 else Real.sqrt 200 * (200 * |e0| ^ (1.5 : ℝ) + (errs.map fun e => 200 * |e| ^ (1.5 : ℝ)).sum)) := by
  obtain ⟨F0, hF0⟩ := gkQuad_zip g o.ng0 h0
  obtain ⟨F1, hF1⟩ := gkQuad_zip g o.ng h1
  refine ⟨(F0 x y).2, (List.zipWith F1 (y :: rest).dropLast rest).map (·.2), ⟨(F0 x y).1, by rw [hF0 [x] [y] rfl]; rfl⟩,
    ⟨_, hF1 (y :: rest).dropLast rest (by simp), rfl⟩, ?_⟩
  have hpow : ∀ e : ℝ, (200 * |e|) ^ (1.5 : ℝ) = Real.sqrt 200 * (200 * |e| ^ (1.5 : ℝ)) := by
    intro e
    rw [Real.mul_rpow (by norm_num) (abs_nonneg e)]
    have : (200 : ℝ) ^ (1.5 : ℝ) = Real.sqrt 200 * 200 := by
      rw [show (1.5 : ℝ) = 1 / 2 + 1 by norm_num, Real.rpow_add (by norm_num), Real.rpow_one, ← Real.sqrt_eq_rpow]
    rw [this]
    ring
  unfold Hankel.over
  dsimp only
  rw [hF0 [x] [y] rfl]
  dsimp only [List.zipWith_cons_cons, List.zipWith_nil_left, List.headD_cons]
  by_cases hr : rest = []
  · rw [if_pos hr, if_pos hr]
    exact ⟨_, rfl⟩
  · rw [if_neg hr, if_neg hr, hF1 (y :: rest).dropLast rest (by simp)]
    dsimp only
    refine ⟨_, congrArg Except.ok (Prod.ext rfl ?_)⟩
    show _ + _ = _
    rw [hpow, mul_add, ← List.sum_map_mul_left]
    congr 2
    exact List.map_congr_left fun e _ => hpow e

/-- With one segment and a `gk_quad` error of `4`, say, the documented number is `1600`; the call returns `4`. -/
theorem C126_error_wrong : (4 : ℝ) ≠ 200 * |(4 : ℝ)| ^ (1.5 : ℝ) ∧
    ∀ e : ℝ, 0 < e → e = 200 * |e| ^ (1.5 : ℝ) → e = 1 / 40000 := by
  have key : ∀ e : ℝ, 0 < e → e = 200 * |e| ^ (1.5 : ℝ) → e = 1 / 40000 := by
    intro e he h
    rw [abs_of_pos he, show (1.5 : ℝ) = 1 + 1 / 2 by norm_num, Real.rpow_add he, Real.rpow_one, ← Real.sqrt_eq_rpow] at h
    have h1 : 200 * Real.sqrt e = 1 := by
      have : e * (200 * Real.sqrt e) = e * 1 := by linarith
      exact mul_left_cancel₀ he.ne' this
    have h2 := Real.mul_self_sqrt he.le
    nlinarith
  refine ⟨fun h => ?_, key⟩
  have := key 4 (by norm_num) h
  norm_num at this

theorem cumsum_geo (c q : ℝ) (hq : q ≠ 1) (n m : ℕ) :
    cumsumFrom (c / (1 - q) + (-(c / (1 - q))) * q ^ m) ((List.range' m n).map fun k => c * q ^ k) =
      (List.range' m n).map fun k => c / (1 - q) + (-(c * q / (1 - q))) * q ^ k := by
  have h1 : 1 - q ≠ 0 := sub_ne_zero.2 hq.symm
  induction n generalizing m with
  | zero => rfl
  | succ n ih =>
    rw [List.range'_succ, List.map_cons, List.map_cons]
    unfold cumsumFrom
    have e : c / (1 - q) + (-(c / (1 - q))) * q ^ m + c * q ^ m = c / (1 - q) + (-(c / (1 - q))) * q ^ (m + 1) := by
      rw [pow_succ]
      field_simp
      ring
    rw [e, ih]
    congr 1
    rw [pow_succ]
    ring

/-- With extrapolation: if the integrals over the segments after the first form a geometric sequence, the answer is the first integral plus
the sum of the whole series. -/
theorem C125_shanks (ind : ℤ) (hsh : o.shanksInd = some ind) (x y : ℝ) (rest : List ℝ) (hP : o.zeros s 0 none = x :: y :: rest) (v0 e0 c q : ℝ)
    (rm : List (ℝ × ℝ)) (n : ℕ)
    (h0 : gkQuad (fun r => o.func r * r * o.J (s * r)) [x] [y] o.ng0 = .ok [(v0, e0)])
    (h1 : gkQuad (fun r => o.func r * r * o.J (s * r)) (y :: rest).dropLast rest o.ng = .ok rm)
    (hgeo : rm.map (·.1) = (List.range n).map fun k => c * q ^ k) (hq : q ≠ 1) (hind : 0 ≤ ind) (hn : ind + 3 ≤ n) :
    ∃ e, o.call s = .ok (v0 + c / (1 - q), e) := by
  unfold Hankel.call
  rw [hP]
  unfold Hankel.over Hankel.integrand
  dsimp only
  rw [h0]
  dsimp only [List.headD_cons]
  have hr : rest ≠ [] := by
    rintro rfl
    unfold gkQuad at h1
    cases hg : gkRule o.ng with
    | error e => rw [hg] at h1; simp [bind, Except.bind] at h1
    | ok r =>
      rw [hg] at h1
      simp [bind, Except.bind, pure, Except.pure] at h1
      rw [h1] at hgeo
      have := congrArg List.length hgeo
      simp at this
      omega
  rw [if_neg hr, h1]
  dsimp only
  rw [if_neg (by simp [hsh]), hgeo, hsh]
  refine ⟨_, congrArg Except.ok (Prod.ext ?_ rfl)⟩
  have := cumsum_geo c q hq n 0
  rw [← List.range_eq_range'] at this
  rw [pow_zero, mul_one, add_neg_cancel] at this
  show v0 + _ = v0 + _
  rw [this, C22_geometric _ _ _ hq n ind (.inl ⟨hind, hn⟩)]

/-- `vhankel_transform` without extrapolation: the integral from `0` to the last zero over `r`, up to the accuracy of `gl_quad`. -/
theorem C125_vhankel (f J : ℝ → ℝ) (zs : List ℝ) (ng : ℕ) (r R ε : ℝ) (hr : 0 < r) (hz : Spec.Zeros zs) (hR : zs.getLast? = some R)
    (hacc : ∀ p q, 0 ≤ p → p < q → q ≤ R / r → ∃ v, glQuad (fun x => f x * x * J (r * x)) [p] [q] ng = .ok [v] ∧
      |v - ∫ x in p..q, f x * x * J (r * x)| ≤ ε)
    (hint : IntervalIntegrable (fun x => f x * x * J (r * x)) volume 0 (R / r)) :
    ∃ v, vhankel f J zs ng none r = .ok v ∧ |v - Spec.hankel f J r 0 (R / r)| ≤ zs.length * ε := by
  set o : Hankel := ⟨f, J, zs, none, ng, ng, none⟩ with ho
  obtain ⟨h1, h2, h3, h4, h5⟩ := zeros0_ends o r hr R hz hR
  have hlt := zeros0_lt o r hr hz
  have hfun : (fun x => f x * J (r * x) * x) = fun x => f x * x * J (r * x) := by funext x; ring
  obtain ⟨rule, hrule⟩ : ∃ rule, glRule ng = .ok rule := by
    obtain ⟨v, hv, _⟩ := hacc 0 (R / r) le_rfl h4 le_rfl
    unfold glQuad at hv
    cases hg : glRule ng with
    | ok rule => exact ⟨rule, rfl⟩
    | error e => rw [hg] at hv; simp [bind, Except.bind] at hv
  have hq : ∀ A B : List ℝ, A.length = B.length → glQuad (fun x => f x * x * J (r * x)) A B ng =
      .ok (List.zipWith (panel rule fun x => f x * x * J (r * x)) A B) := by
    intro A B h
    unfold glQuad
    rw [hrule]
    simp only [bind, Except.bind, h, ne_eq, not_true_eq_false, if_false, pure, Except.pure]
  have hb1 : ∀ p q, 0 ≤ p → p < q → q ≤ R / r → |panel rule (fun x => f x * x * J (r * x)) p q - ∫ x in p..q, f x * x * J (r * x)| ≤ ε := by
    intro p q hp hpq hq'
    obtain ⟨v, h, h'⟩ := hacc p q hp hpq hq'
    rw [hq [p] [q] rfl] at h
    have := Except.ok.inj h
    simp at this
    rw [this]
    exact h'
  have hcons : o.zeros0 r = 0 :: zs.map (· / r) := by simp [Hankel.zeros0, ho]
  rw [hcons] at hlt h3
  have hlast : ((0 : ℝ) :: zs.map (· / r)).getLast (by simp) = R / r := by
    rw [← h3, List.getLastD_eq_getLast?, List.getLast?_eq_getLast_of_ne_nil (by simp)]
    rfl
  have hch := chain (fun x => f x * x * J (r * x)) _ ε 0 (R / r) hint hb1 0 (zs.map (· / r)) hlt le_rfl hlast.le
  rw [hlast, List.length_map] at hch
  refine ⟨_, ?_, hch⟩
  unfold vhankel
  dsimp only
  have e1 : (0 :: zs).dropLast.map (· / r) = ((0 : ℝ) :: zs.map (· / r)).dropLast := by
    rw [List.map_dropLast]
    simp
  rw [hfun, e1, hq _ _ (by simp)]
  simp [bind, Except.bind, pure, Except.pure]

/-- A case that meets the hypotheses of `C125_value`: `f = 1` with `J = 1`, zeros `1, 2`, a point in between. -/
example : ∃ ε : ℝ, 0 ≤ ε ∧ Spec.Zeros [1, 2] ∧ ([1, 2] : List ℝ).getLast? = some 2 ∧ SupportedK 7 ∧
    Accurate (fun r => (1 : ℝ) * r * 1) 7 0 (2 / 1) ε ∧ IntervalIntegrable (fun r : ℝ => (1 : ℝ) * r * 1) volume 0 (2 / 1) := by
  refine ⟨2 / 2 * (10 ^ (-24 : ℤ) * 4), by positivity, ?_, rfl, .inl rfl, ?_, ?_⟩
  · unfold Spec.Zeros
    norm_num
  · intro p q hp hpq hq
    have hfun : (fun r : ℝ => (1 : ℝ) * r * 1) = fun r => (Polynomial.X : Polynomial ℝ).eval r := by funext r; simp
    rw [hfun]
    obtain ⟨r, h1, h2, h3⟩ := C51_quad (n := 7) (.inl rfl) Polynomial.X [p] [q] rfl
    match r, h1, h2, h3 with
    | [(v, e)], h1, h2, h3 =>
      refine ⟨v, e, h1, ((h3 0 (by simp) (by simp) (by simp)).1 (by simp)).trans ?_⟩
      simp only [List.getElem_cons_zero, Polynomial.X_comp]
      have hsum : ∑ k ∈ Finset.range (3 * 7 + 2), |(Polynomial.C ((q - p) / 2) * Polynomial.X + Polynomial.C ((p + q) / 2)).coeff k| =
          |(p + q) / 2| + |(q - p) / 2| := by
        simp [Finset.sum_range_succ, Polynomial.coeff_C, Polynomial.coeff_X]
      rw [hsum]
      have hq2 : q ≤ 2 := by linarith
      have a1 : |(p + q) / 2| ≤ 2 := by rw [abs_le]; constructor <;> linarith
      have a2 : |(q - p) / 2| ≤ 2 := by rw [abs_le]; constructor <;> linarith
      have a3 : |q - p| ≤ 2 := by rw [abs_le]; constructor <;> linarith
      gcongr
      linarith
  · exact (by fun_prop : Continuous fun r : ℝ => (1 : ℝ) * r * 1).intervalIntegrable _ _

/-- `[a, b]` beyond the last zero is cut off without a word: hypotheses of `C125_limits` with `b = 5`, last zero `2`. -/
example : (0 : ℝ) = max 0 0 ∧ (2 / 1 : ℝ) = min 5 (2 / 1) ∧ (0 : ℝ) < 2 / 1 ∧ ((0 : ℝ) ≠ 0 ∨ some (5 : ℝ) ≠ none) := by
  refine ⟨by norm_num, by norm_num, by norm_num, .inr (by simp)⟩

end Geotecha.Transform
