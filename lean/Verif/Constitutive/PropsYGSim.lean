import Verif.Constitutive.PropsYG2

/-! # C212: the simulations `CRSS` and `CRSN` -/

set_option autoImplicit false
set_option linter.unusedVariables false

namespace Geotecha.YG
open Geotecha.Spec Geotecha.Piecewise

/-! ### The time grid -/

theorem pairwise_range_map {f : ℕ → ℝ} (n : ℕ) (h : ∀ a b, a < b → b < n → f a < f b) :
    ((List.range n).map f).Pairwise (· < ·) := by
  rw [List.pairwise_map]
  refine (List.pairwise_lt_range (n := n)).imp_of_mem ?_
  intro a b ha hb hab
  exact h a b hab (List.mem_range.1 hb)

theorem linspaceOpen_props (a b : ℝ) (hab : a < b) (n : ℕ) (hn : 0 < n) :
    (linspaceOpen a b n).Pairwise (· < ·) ∧ (∀ x ∈ linspaceOpen a b n, a ≤ x ∧ x < b) ∧ (linspaceOpen a b n).head? = some a := by
  have hn' : (0:ℝ) < n := by exact_mod_cast hn
  have hd : 0 < (b - a) / n := div_pos (sub_pos.2 hab) hn'
  refine ⟨pairwise_range_map n ?_, ?_, ?_⟩
  · intro i j hij _
    have : (i:ℝ) < j := by exact_mod_cast hij
    have := mul_lt_mul_of_pos_right this hd
    linarith
  · intro x hx
    simp only [linspaceOpen, List.mem_map, List.mem_range] at hx
    obtain ⟨k, hk, rfl⟩ := hx
    have hk' : (k:ℝ) < n := by exact_mod_cast hk
    have h0 : (0:ℝ) ≤ k := by positivity
    refine ⟨by have := mul_nonneg h0 hd.le; linarith, ?_⟩
    have := mul_lt_mul_of_pos_right hk' hd
    have : (n:ℝ) * ((b - a) / n) = b - a := by field_simp
    linarith
  · cases n with
    | zero => exact absurd hn (lt_irrefl _)
    | succ n => simp [linspaceOpen, List.range_succ_eq_map]

/-- Blocks of a subdivision. -/
noncomputable def blocks (nseg : ℝ → ℝ → ℕ) : List ℝ → List ℝ
  | a :: b :: r => linspaceOpen a b (nseg a b) ++ blocks nseg (b :: r)
  | [a] => [a]
  | [] => []

theorem blocks_eq (nseg : ℝ → ℝ → ℕ) (x : List ℝ) (xl : ℝ) (h : x.getLast? = some xl) :
    ((List.range (x.length - 1)).map (fun i => linspaceOpen (nth x i) (nth x (i+1)) (nseg (nth x i) (nth x (i+1))))).flatten ++ [xl]
      = blocks nseg x := by
  induction x with
  | nil => simp at h
  | cons a r ih =>
    cases r with
    | nil => simp at h; subst h; simp [blocks]
    | cons b r =>
      rw [List.getLast?_cons_cons] at h
      have := ih h
      simp only [List.length_cons, Nat.add_sub_cancel] at this ⊢
      rw [List.range_succ_eq_map, List.map_cons, List.flatten_cons, List.map_map, List.append_assoc, blocks, ← this]
      rfl

theorem blocks_props (nseg : ℝ → ℝ → ℕ) (hn : ∀ a b, 0 < nseg a b) (x : List ℝ) (hx : x.Pairwise (· < ·)) (a : ℝ)
    (ha : x.head? = some a) :
    (blocks nseg x).Pairwise (· < ·) ∧ (∀ y ∈ blocks nseg x, a ≤ y) ∧ (blocks nseg x).head? = some a ∧
      (blocks nseg x).getLast? = x.getLast? := by
  induction x generalizing a with
  | nil => simp at ha
  | cons c r ih =>
    simp only [List.head?_cons, Option.some.injEq] at ha
    subst ha
    cases r with
    | nil => simp [blocks]
    | cons b r =>
      rw [List.pairwise_cons] at hx
      obtain ⟨h1, h2, h3, h4⟩ := ih hx.2 b rfl
      have hab := hx.1 b (by simp)
      obtain ⟨l1, l2, l3⟩ := linspaceOpen_props c b hab _ (hn c b)
      rw [blocks]
      refine ⟨?_, ?_, ?_, ?_⟩
      · rw [List.pairwise_append]
        exact ⟨l1, h1, fun x hx y hy => (l2 x hx).2.trans_le (h2 y hy)⟩
      · intro y hy
        rcases List.mem_append.1 hy with hy | hy
        · exact (l2 y hy).1
        · exact hab.le.trans (h2 y hy)
      · rw [List.head?_append, l3]; rfl
      · rw [List.getLast?_append, h4, List.getLast?_cons_cons]
        cases hl : (b :: r).getLast? with
        | none => simp at hl
        | some v => rfl

theorem numSegs_pos (a b d : ℝ) (m : ℕ) (hm : 1 ≤ m) : 0 < numSegs a b d m := by
  unfold numSegs; exact lt_of_lt_of_le hm (le_max_right _ _)

theorem linspaceOpen_length (a b : ℝ) (n : ℕ) : (linspaceOpen a b n).length = n := by simp [linspaceOpen]

/-- The grid of a simulation over increasing times: increasing, from the first to the last time, with at least
`min_segments` intervals. -/
theorem grid_props (tvals : List ℝ) (h2 : 2 ≤ tvals.length) (hx : tvals.Pairwise (· < ·)) (d : ℝ) (hd : d ≠ 0) (m : ℕ) (hm : 1 ≤ m) :
    ∃ grid, subdivideX tvals (some d) m none = .ok grid ∧ grid.Pairwise (· < ·) ∧ grid.head? = tvals.head? ∧
      grid.getLast? = tvals.getLast? ∧ m + 1 ≤ grid.length := by
  cases tvals with
  | nil => simp at h2
  | cons a r =>
    cases r with
    | nil => simp at h2
    | cons b r =>
      obtain ⟨xl, hxl⟩ : ∃ xl, (a :: b :: r).getLast? = some xl := by
        cases h : (a :: b :: r).getLast? with
        | none => simp at h
        | some v => exact ⟨v, rfl⟩
      obtain ⟨h1, h2', h3, h4⟩ := blocks_props (fun x y => numSegs x y d m) (fun x y => numSegs_pos x y d m hm) (a :: b :: r) hx a rfl
      refine ⟨blocks (fun x y => numSegs x y d m) (a :: b :: r), ?_, h1, h3, h4, ?_⟩
      · simp only [subdivideX, Option.getD_some, hxl]
        rw [if_neg (by simp [hd])]
        exact congrArg Except.ok (blocks_eq (fun x y => numSegs x y d m) (a :: b :: r) xl hxl)
      · rw [blocks, List.length_append, linspaceOpen_length]
        have : m ≤ numSegs a b d m := le_max_right _ _
        have : 0 < (blocks (fun x y => numSegs x y d m) (b :: r)).length := by
          have := (blocks_props (fun x y => numSegs x y d m) (fun x y => numSegs_pos x y d m hm) (b :: r) (List.pairwise_cons.1 hx).2 b rfl).2.2.1
          cases hb : blocks (fun x y => numSegs x y d m) (b :: r) with
          | nil => rw [hb] at this; simp at this
          | cons c l => simp
        omega

/-! ### Constant rates -/

theorem npInterp_const (r : ℝ) (l : List (ℝ × ℝ)) (hl : l ≠ []) (h : ∀ q ∈ l, q.2 = r) (x : ℝ) : Const.npInterp x l = r := by
  induction l with
  | nil => exact absurd rfl hl
  | cons p l ih =>
    cases l with
    | nil => simpa [Const.npInterp] using h p (by simp)
    | cons q l =>
      rw [Const.npInterp]
      have hp := h p (by simp)
      have hq := h q (by simp)
      split
      · exact hp
      · split
        · rw [hp, hq]; ring
        · exact ih (by simp) (fun x hx => h x (List.mem_cons_of_mem _ hx))

/-- Stresses and intervals of a simulation at the constant rate `r` over the grid, from stress `s` at the first grid point. -/
noncomputable def rateSteps (r s : ℝ) : List ℝ → List (ℝ × ℝ)
  | a :: b :: g => (s + r * (b - a), b - a) :: rateSteps r (s + r * (b - a)) (b :: g)
  | _ => []

theorem cumFrom_tail (s d : ℝ) (l : List ℝ) : (cumFrom s (d :: l)).tail = cumFrom (s + d) l := rfl

theorem cumFrom_rate (r : ℝ) (g : List ℝ) : ∀ s a, cumFrom s (((diff (a :: g))).map fun d => r * d)
    = (a :: g).map fun t => s + r * (t - a) := by
  induction g with
  | nil => intro s a; simp [diff, cumFrom]
  | cons b g ih =>
    intro s a
    simp only [diff, List.map_cons, cumFrom]
    rw [ih (s + r * (b - a)) b]
    simp only [List.map_cons, List.cons.injEq, sub_self, mul_zero, add_zero, true_and]
    exact List.map_congr_left fun t _ => by ring

theorem rateSteps_eq (r : ℝ) (g : List ℝ) : ∀ s a,
    (cumFrom s ((diff (a :: g)).map fun d => r * d)).tail.zip (diff (a :: g)) = rateSteps r s (a :: g) := by
  induction g with
  | nil => intro s a; simp [diff, cumFrom, rateSteps]
  | cons b g ih =>
    intro s a
    have := ih (s + r * (b - a)) b
    simp only [diff, List.map_cons, cumFrom, List.tail_cons, rateSteps] at this ⊢
    rw [← this]
    cases g with
    | nil => simp [diff, cumFrom]
    | cons c g => simp [diff, cumFrom]

theorem zipWith_const (r : ℝ) : ∀ (l m : List ℝ), (∀ x ∈ l, x = r) → m.length ≤ l.length →
    List.zipWith (fun a d => a * d) l m = m.map fun d => r * d
  | [], [], _, _ => rfl
  | [], _ :: _, _, h => by simp at h
  | _ :: _, [], _, _ => rfl
  | a :: l, d :: m, h, hl => by
    simp only [List.zipWith_cons_cons, List.map_cons]
    rw [h a (by simp), zipWith_const r l m (fun x hx => h x (List.mem_cons_of_mem _ hx)) (by simpa using hl)]

theorem diff_length (g : List ℝ) : (diff g).length = g.length - 1 := by
  induction g with
  | nil => rfl
  | cons a g ih =>
    cases g with
    | nil => rfl
    | cons b g => simp only [diff, List.length_cons, ih]; simp

theorem increments_const (r : ℝ) (tvals rates grid : List ℝ) (hl : tvals.zip rates ≠ []) (hr : ∀ x ∈ rates, x = r) :
    increments tvals rates grid = (diff grid).map fun d => r * d := by
  unfold increments
  refine zipWith_const r _ _ ?_ ?_
  · intro x hx
    have hx := List.mem_of_mem_dropLast hx
    simp only [List.mem_map] at hx
    obtain ⟨t, _, rfl⟩ := hx
    exact npInterp_const r _ hl (fun q hq => hr _ (List.of_mem_zip hq).2) t
  · rw [diff_length]; simp

theorem rateSteps_Steps (r : ℝ) (hr : r ≠ 0) (g : List ℝ) : ∀ s a, (a :: g).Pairwise (· < ·) → (∀ t ∈ a :: g, 0 < s + r * (t - a)) →
    Steps s (rateSteps r s (a :: g)) := by
  induction g with
  | nil => intro s a _ _; exact trivial
  | cons b g ih =>
    intro s a hp hpos
    rw [List.pairwise_cons] at hp
    have hab := hp.1 b (by simp)
    refine ⟨hpos b (by simp), by linarith, ?_, ih _ _ hp.2 ?_⟩
    · intro hc
      have : r * (b - a) = 0 := by linarith
      rcases mul_eq_zero.1 this with h | h
      · exact hr h
      · linarith
    · intro t ht
      have := hpos t (List.mem_cons_of_mem _ ht)
      have e : s + r * (b - a) + r * (t - b) = s + r * (t - a) := by ring
      rwa [e]

theorem knots_rateSteps (r : ℝ) (g : List ℝ) : ∀ s a, knots (rateSteps r s (a :: g)) = g.map fun t => t - a := by
  induction g with
  | nil => intro s a; rfl
  | cons b g ih =>
    intro s a
    simp only [rateSteps, knots, List.map_cons, ih, List.map_map, List.cons.injEq, true_and]
    refine List.map_congr_left fun t _ => ?_
    simp only [Function.comp_apply]; ring

theorem total_rateSteps (r : ℝ) (g : List ℝ) : ∀ s a l, (a :: g).getLast? = some l → total (rateSteps r s (a :: g)) = l - a := by
  induction g with
  | nil => intro s a l h; simp at h; subst h; simp [rateSteps, total]
  | cons b g ih =>
    intro s a l h
    rw [List.getLast?_cons_cons] at h
    have := ih (s + r * (b - a)) b l h
    simp only [total, rateSteps, List.map_cons, List.sum_cons] at this ⊢
    rw [this]; ring

theorem path_rateSteps (r : ℝ) (g : List ℝ) : ∀ s a l, (a :: g).Pairwise (· < ·) → (a :: g).getLast? = some l →
    ∀ t ∈ Set.Icc 0 (l - a), stressPath s (rateSteps r s (a :: g)) t = s + r * t := by
  induction g with
  | nil =>
    intro s a l _ h t ht
    simp at h; subst h
    have : t = 0 := le_antisymm (by simpa using ht.2) ht.1
    subst this; simp [rateSteps, stressPath]
  | cons b g ih =>
    intro s a l hp h t ht
    rw [List.getLast?_cons_cons] at h
    rw [List.pairwise_cons] at hp
    have hab := hp.1 b (by simp)
    have hba : b - a ≠ 0 := by linarith
    rw [rateSteps, stressPath]
    by_cases hle : t ≤ b - a
    · rw [if_pos hle]; field_simp; ring
    · rw [if_neg hle, ih (s + r * (b - a)) b l hp.2 h (t - (b - a)) ⟨by linarith [not_le.1 hle], by linarith [ht.2]⟩]
      ring

/-- What a simulation at a constant rate does, in terms of the steps taken. -/
theorem crss_eq (o : Obj) (i : Init) (hinit : o.init = some i) (tvals rates : List ℝ) (dx : Option ℝ) (minSeg : Option ℕ)
    (h2 : 2 ≤ tvals.length) (hl : tvals.length = rates.length) (hx : tvals.Pairwise (· < ·)) (r : ℝ) (hr : ∀ x ∈ rates, x = r)
    (hdx : ∀ d, dx = some d → d ≠ 0) (hm : ∀ m, minSeg = some m → 1 ≤ m) :
    ∃ a g l, tvals.head? = some a ∧ tvals.getLast? = some l ∧ (a :: g).getLast? = some l ∧ (a :: g).Pairwise (· < ·) ∧
      minSeg.getD 50 ≤ g.length ∧
      crss o tvals rates dx minSeg = (do
        let (es, o') ← eSteps o (rateSteps r i.s0 (a :: g))
        return (⟨a :: g, (a :: g).map fun t => i.s0 + r * (t - a), i.e0 :: es,
          (a :: g).map fun t => Const.npInterp t (tvals.zip rates)⟩, restore o o')) := by
  obtain ⟨a, ha⟩ : ∃ a, tvals.head? = some a := by
    cases tvals with
    | nil => simp at h2
    | cons a r => exact ⟨a, rfl⟩
  obtain ⟨l, hll⟩ : ∃ a, tvals.getLast? = some a := by
    cases h : tvals.getLast? with
    | none => rw [List.getLast?_eq_none_iff] at h; subst h; simp at h2
    | some v => exact ⟨v, rfl⟩
  have hal : a < l := by
    cases tvals with
    | nil => simp at h2
    | cons c t =>
      cases t with
      | nil => simp at h2
      | cons b t =>
        simp at ha; subst ha
        rw [List.getLast?_cons_cons] at hll
        exact (List.pairwise_cons.1 hx).1 l (List.mem_of_getLast? hll)
  have hd : dx.getD ((l - a) / 200) ≠ 0 := by
    cases dx with
    | none => simp only [Option.getD_none]; exact (div_pos (sub_pos.2 hal) (by norm_num)).ne'
    | some d => exact hdx d rfl
  have hmm : 1 ≤ minSeg.getD 50 := by
    cases minSeg with
    | none => simp
    | some m => exact hm m rfl
  obtain ⟨grid, hg1, hg2, hg3, hg4, hg5⟩ := grid_props tvals h2 hx _ hd _ hmm
  have hz : tvals.zip rates ≠ [] := by
    cases tvals with
    | nil => simp at h2
    | cons c t =>
      cases rates with
      | nil => simp at hl
      | cons d u => simp
  cases grid with
  | nil => simp at hg5
  | cons c g =>
    rw [ha] at hg3
    simp only [List.head?_cons, Option.some.injEq] at hg3
    subst hg3
    refine ⟨c, g, l, ha, hll, by rw [hg4, hll], hg2, by simpa using hg5, ?_⟩
    simp only [crss, ha, hll, Option.elim_some, hinit]
    change (do let grid ← subdivideX tvals _ _ none; _) = _
    rw [hg1]
    change (do let (es, o') ← eSteps o _; return (Sim.mk _ _ _ _, restore o o')) = _
    rw [increments_const r tvals rates _ hz hr, rateSteps_eq, cumFrom_rate]

/-- **C212, constant rate of stress.** On a new object, for times increasing from 0, a constant stress rate `r ≠ 0` and
stresses that stay positive, `CRSS` by steps returns the stresses `estress0 + r t`, and void ratios that are, without any
discretisation error, those of the differential equation which `method='odeint'` hands to the solver: every solution of it
passes through all returned values. -/
theorem C212_constant_rate (p : Par) (h : p.soil.Good) (i : Init) (hi : i.Good p) (o : Obj) (hp : o.par = p)
    (hinit : o.init = some i) (hI : o.igral = 0) (hes : o.estress = i.s0) (tvals rates : List ℝ) (dx : Option ℝ) (minSeg : Option ℕ)
    (h2 : 2 ≤ tvals.length) (hl : tvals.length = rates.length) (hx : tvals.Pairwise (· < ·)) (h0 : tvals.head? = some 0)
    (T : ℝ) (hT : tvals.getLast? = some T) (r : ℝ) (hr0 : r ≠ 0) (hr : ∀ x ∈ rates, x = r) (hpos : 0 < i.s0 + r * T)
    (hdx : ∀ d, dx = some d → d ≠ 0) (hm : ∀ m, minSeg = some m → 1 ≤ m) :
    ∃ sim o', crss o tvals rates dx minSeg = .ok (sim, o') ∧ sim.t.head? = some 0 ∧ sim.t.getLast? = some T ∧
      minSeg.getD 50 + 1 ≤ sim.t.length ∧ sim.estress = sim.t.map (fun t => i.s0 + r * t) ∧
      ∀ E : ℝ → ℝ, E 0 = i.e0 → ContinuousOn E (Set.Icc 0 T) →
        (∀ t ∈ Set.Ioo 0 T, HasDerivAt E (crssRhs p r (i.s0 + r * t) (E t)) t) → sim.e = sim.t.map E := by
  obtain ⟨a, g, l, ha, hl1, hl2, hpw, hlen, hcr⟩ := crss_eq o i hinit tvals rates dx minSeg h2 hl hx r hr hdx hm
  rw [h0] at ha
  cases ha
  rw [hT] at hl1
  cases hl1
  have hs0 := hi.s0
  have hpos' : ∀ t, 0 ≤ t → t ≤ T → 0 < i.s0 + r * t := by
    intro t ht0 ht1
    rcases le_or_gt 0 r with hr' | hr'
    · have := mul_nonneg hr' ht0; linarith
    · have := mul_le_mul_of_nonpos_left ht1 hr'.le; linarith
  have hmem : ∀ t ∈ (0:ℝ) :: g, 0 ≤ t ∧ t ≤ T := by
    have hall : ∀ (g : List ℝ) (c l : ℝ), (c :: g).Pairwise (· < ·) → (c :: g).getLast? = some l → ∀ t ∈ c :: g, c ≤ t ∧ t ≤ l := by
      intro g
      induction g with
      | nil => intro c l _ h t ht; simp at h ht; subst h; subst ht; exact ⟨le_refl _, le_refl _⟩
      | cons b g ih =>
        intro c l hp h t ht
        rw [List.getLast?_cons_cons] at h
        rw [List.pairwise_cons] at hp
        have hb := ih b l hp.2 h
        have hcb := hp.1 b (by simp)
        rcases List.mem_cons.1 ht with rfl | ht
        · exact ⟨le_refl _, hcb.le.trans (hb b (by simp)).2⟩
        · exact ⟨hcb.le.trans (hb t ht).1, (hb t ht).2⟩
    exact hall g 0 T hpw hl2
  have hst : Steps i.s0 (rateSteps r i.s0 (0 :: g)) :=
    rateSteps_Steps r hr0 g _ _ hpw (fun t ht => by rw [sub_zero]; exact hpos' t (hmem t ht).1 (hmem t ht).2)
  obtain ⟨es, o', he, -, hE⟩ := C209_exact_solution p h i hi o hp hinit hI hes _ hst
  rw [he] at hcr
  refine ⟨_, _, hcr, rfl, hl2, by simpa using hlen, by simp, ?_⟩
  intro E hE0 hEc hEd
  have htot := total_rateSteps r g i.s0 0 T hl2
  have hpath := path_rateSteps r g i.s0 0 T hpw hl2
  have := hE E ⟨hE0, by rw [htot, sub_zero]; exact hEc, ?_⟩
  · simp only [List.map_cons, hE0, List.cons.injEq, true_and]
    rw [this, knots_rateSteps]
    simp
  · intro t ht _
    rw [htot, sub_zero] at ht
    rw [sub_zero] at hpath
    have hev : stressPath i.s0 (rateSteps r i.s0 (0 :: g)) =ᶠ[nhds t] fun u => i.s0 + r * u := by
      filter_upwards [Ioo_mem_nhds ht.1 ht.2] with u hu
      exact hpath u ⟨hu.1.le, hu.2.le⟩
    refine ⟨r, ?_, ?_⟩
    · refine HasDerivAt.congr_of_eventuallyEq ?_ hev
      exact (((hasDerivAt_id t).const_mul r).const_add i.s0).congr_deriv (by simp)
    · rw [hev.eq_of_nhds]
      exact hEd t ht

theorem eSteps_last (steps : List (ℝ × ℝ)) : ∀ (o o' : Obj) (es : List ℝ), eSteps o steps = .ok (es, o') →
    (steps = [] → o' = o) ∧ (∀ q, steps.getLast? = some q → o'.estress = q.1) := by
  induction steps with
  | nil => intro o o' es h; cases h; exact ⟨fun _ => rfl, by simp⟩
  | cons a r ih =>
    obtain ⟨s, dt⟩ := a
    intro o o' es h
    refine ⟨by simp, ?_⟩
    intro q hq
    cases hi : o.init with
    | none => simp only [eSteps, eFromStress, hi] at h; cases h
    | some i =>
      simp only [eSteps, eFromStress_ok o i hi] at h
      change (do let (es, o2) ← eSteps (o.advance _ s) r; return (_ :: es, o2)) = _ at h
      cases h1 : eSteps (o.advance (incOf o.par i o.estress s dt) s) r with
      | error e => rw [h1] at h; cases h
      | ok v =>
        obtain ⟨es1, o1⟩ := v
        rw [h1] at h
        cases h
        obtain ⟨a1, a2⟩ := ih _ _ _ h1
        cases r with
        | nil => simp at hq; subst hq; rw [a1 rfl]; rfl
        | cons c r => rw [List.getLast?_cons_cons] at hq; exact a2 q hq

/-- The increment grows with the stress from which a given stress is reached. -/
theorem incOf_lt {p : Par} (h : p.soil.Good) {i : Init} (hi : i.Good p) {a b s dt : ℝ} (ha : 0 < a) (hab : a < b) (hs : 0 < s)
    (hdt : 0 < dt) (h1 : s ≠ a) (h2 : s ≠ b) : incOf p i a s dt < incOf p i b s dt := by
  have hal := alpha_pos h
  have h0 := hi.s0
  have hb := ha.trans hab
  rw [incOf_eq_integral h hi ha hs hdt h1, incOf_eq_integral h hi hb hs hdt h2]
  have hcont : ∀ a, Continuous fun u : ℝ => 1 / i.t0 * ((a + u * ((s - a) / dt)) / i.s0) ^ p.alpha := by
    intro a
    refine continuous_const.mul ?_
    exact Continuous.rpow_const (by fun_prop) (fun x => Or.inr hal.le)
  have key : ∀ u, 0 ≤ u → u < dt → 1 / i.t0 * ((a + u * ((s - a) / dt)) / i.s0) ^ p.alpha < 1 / i.t0 * ((b + u * ((s - b) / dt)) / i.s0) ^ p.alpha := by
    intro u hu0 hu1
    refine mul_lt_mul_of_pos_left ?_ (one_div_pos.2 hi.t0)
    refine Real.rpow_lt_rpow (div_nonneg (lin_pos ha hs hdt hu0 hu1.le).le h0.le) ?_ hal
    refine div_lt_div_of_pos_right ?_ h0
    have e : ∀ c, c + u * ((s - c) / dt) = c * (1 - u / dt) + s * u / dt := by intro c; field_simp; ring
    rw [e, e]
    have : 0 < 1 - u / dt := by rw [sub_pos, div_lt_one hdt]; exact hu1
    have := mul_lt_mul_of_pos_right hab this
    linarith
  refine intervalIntegral.integral_lt_integral_of_continuousOn_of_le_of_exists_lt hdt (hcont a).continuousOn (hcont b).continuousOn ?_
    ⟨0, ⟨le_refl _, hdt.le⟩, key 0 (le_refl _) hdt⟩
  intro u hu
  rcases eq_or_lt_of_le hu.2 with rfl | hlt
  · have e : ∀ c, c + u * ((s - c) / u) = s := by intro c; field_simp; ring
    rw [e, e]
  · exact (key u hu.1.le hlt).le

/-- **C212, what a simulation leaves behind.** After `CRSS` on a new object the creep integral is back to zero but the
current stress stays at the end of the simulation.  If the object had been stepped before, the creep integral is not put
back either. -/
theorem C212_left_behind (o o' : Obj) (i : Init) (hinit : o.init = some i) (tvals rates : List ℝ) (dx : Option ℝ) (minSeg : Option ℕ)
    (h2 : 2 ≤ tvals.length) (hl : tvals.length = rates.length) (hx : tvals.Pairwise (· < ·)) (r : ℝ) (hr : ∀ x ∈ rates, x = r)
    (hdx : ∀ d, dx = some d → d ≠ 0) (hm : ∀ m, minSeg = some m → 1 ≤ m) (sim : Sim)
    (hc : crss o tvals rates dx minSeg = .ok (sim, o')) :
    sim.estress.getLast? = some o'.estress ∧ o'.init = o.init ∧ (o.igralArr = false → o'.igral = o.igral) ∧
    (o.igralArr = true → ∃ es o'', eSteps o (sim.estress.tail.zip (diff sim.t)) = .ok (es, o'') ∧ o'.igral = o''.igral) := by
  obtain ⟨a, g, l, ha, hl1, hl2, hpw, hlen, hcr⟩ := crss_eq o i hinit tvals rates dx minSeg h2 hl hx r hr hdx hm
  rw [hc] at hcr
  cases he : eSteps o (rateSteps r i.s0 (a :: g)) with
  | error e => rw [he] at hcr; cases hcr
  | ok v =>
    obtain ⟨es, o1⟩ := v
    rw [he] at hcr
    cases hcr
    have hg : g ≠ [] := by
      have hm' : 1 ≤ minSeg.getD 50 := by
        cases minSeg with
        | none => simp
        | some m => exact hm m rfl
      rintro rfl
      simp only [List.length_nil] at hlen
      omega
    have hlast : ∀ (g : List ℝ) (s a l : ℝ), g ≠ [] → (a :: g).getLast? = some l →
        ∃ q, (rateSteps r s (a :: g)).getLast? = some q ∧ q.1 = s + r * (l - a) := by
      intro g
      induction g with
      | nil => intro s a l h _; exact absurd rfl h
      | cons b g ih =>
        intro s a l _ h
        rw [List.getLast?_cons_cons] at h
        cases g with
        | nil => simp at h; subst h; exact ⟨_, rfl, rfl⟩
        | cons c g =>
          obtain ⟨q, hq1, hq2⟩ := ih (s + r * (b - a)) b l (by simp) h
          refine ⟨q, ?_, by rw [hq2]; ring⟩
          rw [rateSteps, rateSteps, List.getLast?_cons_cons]
          rw [rateSteps] at hq1
          exact hq1
    obtain ⟨q, hq1, hq2⟩ := hlast g i.s0 a l hg hl2
    have hos := (eSteps_last _ _ _ _ he).2 q hq1
    have hin := (eSteps_init _ _ _ _ he).2.1
    have hzip : ((a :: g).map fun t => i.s0 + r * (t - a)).tail.zip (diff (a :: g)) = rateSteps r i.s0 (a :: g) := by
      rw [← cumFrom_rate, rateSteps_eq]
    have hres : (restore o o1).estress = o1.estress ∧ (restore o o1).init = o1.init := by
      unfold restore; split <;> exact ⟨rfl, rfl⟩
    refine ⟨?_, by rw [hres.2, hin], ?_, ?_⟩
    · rw [hres.1, hos, hq2, List.getLast?_map, hl2]; rfl
    · intro hf; simp only [restore, hf]; rfl
    · intro ht
      exact ⟨es, o1, by rw [hzip]; exact he, by simp only [restore, ht]; rfl⟩

/-- **C212, running a simulation twice gives two results.** On a new object run `CRSS` twice with the same arguments, an
increasing stress and at least two intervals (the default has at least fifty).  The second run starts its first increment
at the final stress of the first run, and its void ratio after the first interval is smaller. -/
theorem C212_rerun_differs (p : Par) (h : p.soil.Good) (i : Init) (hi : i.Good p) (o : Obj) (hp : o.par = p)
    (hinit : o.init = some i) (hI : o.igral = 0) (hA : o.igralArr = false) (hes : o.estress = i.s0) (tvals rates : List ℝ)
    (dx : Option ℝ) (minSeg : Option ℕ) (h2 : 2 ≤ tvals.length) (hl : tvals.length = rates.length) (hx : tvals.Pairwise (· < ·))
    (r : ℝ) (hr0 : 0 < r) (hr : ∀ x ∈ rates, x = r) (hdx : ∀ d, dx = some d → d ≠ 0) (hm : ∀ m, minSeg = some m → 2 ≤ m)
    (sim1 sim2 : Sim) (o1 o2 : Obj) (h1 : crss o tvals rates dx minSeg = .ok (sim1, o1))
    (h2' : crss o1 tvals rates dx minSeg = .ok (sim2, o2)) :
    sim2.t = sim1.t ∧ sim2.estress = sim1.estress ∧ sim2.e[0]? = sim1.e[0]? ∧
      ∃ a b, sim1.e[1]? = some a ∧ sim2.e[1]? = some b ∧ b < a := by
  have hm1 : ∀ m, minSeg = some m → 1 ≤ m := fun m h => by have := hm m h; omega
  obtain ⟨b1, b2, b3, -⟩ := C212_left_behind o o1 i hinit tvals rates dx minSeg h2 hl hx r hr hdx hm1 sim1 h1
  have hin1 : o1.init = some i := by rw [b2, hinit]
  obtain ⟨a, g, l, ha, hl1, hl2, hpw, hlen, hcr⟩ := crss_eq o i hinit tvals rates dx minSeg h2 hl hx r hr hdx hm1
  obtain ⟨a', g', l', ha', hl1', hl2', hpw', hlen', hcr'⟩ := crss_eq o1 i hin1 tvals rates dx minSeg h2 hl hx r hr hdx hm1
  -- the grids agree
  have hgrid : a' :: g' = a :: g := by
    have e1 : crss o tvals rates dx minSeg = crss o tvals rates dx minSeg := rfl
    have : ∀ (oo : Obj) (sim : Sim) (o' : Obj), crss oo tvals rates dx minSeg = .ok (sim, o') →
        subdivideX tvals (some (dx.getD ((l - a) / 200))) (minSeg.getD 50) none = .ok sim.t := by
      intro oo sim o' hc
      simp only [crss, ha, hl1, Option.elim_some] at hc
      cases hs : subdivideX tvals (some (dx.getD ((l - a) / 200))) (minSeg.getD 50) none with
      | error e =>
        change (do let grid ← subdivideX tvals _ _ none; _) = _ at hc
        rw [hs] at hc; cases hc
      | ok grid =>
        change (do let grid ← subdivideX tvals _ _ none; _) = _ at hc
        rw [hs] at hc
        cases hio : oo.init with
        | none => simp only [hio] at hc; cases hc
        | some j =>
          simp only [hio] at hc
          change (do let (es, o') ← eSteps oo _; return (Sim.mk _ _ _ _, restore oo o')) = _ at hc
          cases he : eSteps oo ((cumFrom j.s0 (increments tvals rates grid)).tail.zip (diff grid)) with
          | error e => rw [he] at hc; cases hc
          | ok v => rw [he] at hc; cases hc; rfl
    have s1 := this _ _ _ h1
    have s2 := this _ _ _ h2'
    rw [h1] at hcr
    rw [h2'] at hcr'
    cases he : eSteps o (rateSteps r i.s0 (a :: g)) with
    | error e => rw [he] at hcr; cases hcr
    | ok v =>
      cases he' : eSteps o1 (rateSteps r i.s0 (a' :: g')) with
      | error e => rw [he'] at hcr'; cases hcr'
      | ok v' =>
        rw [he] at hcr; rw [he'] at hcr'
        cases hcr; cases hcr'
        rw [s1] at s2
        injection s2 with s2
        exact s2.symm
  rw [hgrid] at hcr' hl2'
  have haa : a' = a := by injection hgrid
  subst haa
  have hm2 : 2 ≤ minSeg.getD 50 := by
    cases minSeg with
    | none => simp
    | some m => exact hm m rfl
  obtain ⟨b, c, g2, rfl⟩ : ∃ b c g2, g = b :: c :: g2 := by
    cases g with
    | nil => simp at hlen; omega
    | cons b g =>
      cases g with
      | nil => simp at hlen; omega
      | cons c g => exact ⟨b, c, g, rfl⟩
  rw [h1] at hcr
  rw [h2'] at hcr'
  cases he : eSteps o (rateSteps r i.s0 (a' :: b :: c :: g2)) with
  | error e => rw [he] at hcr; cases hcr
  | ok v =>
    cases he' : eSteps o1 (rateSteps r i.s0 (a' :: b :: c :: g2)) with
    | error e => rw [he'] at hcr'; cases hcr'
    | ok v' =>
      obtain ⟨es, oe⟩ := v
      obtain ⟨es', oe'⟩ := v'
      rw [he] at hcr; rw [he'] at hcr'
      cases hcr; cases hcr'
      have hab : a' < b := (List.pairwise_cons.1 hpw).1 b (by simp)
      have hbl : b < l := by
        rw [List.getLast?_cons_cons, List.getLast?_cons_cons] at hl2
        exact (List.pairwise_cons.1 (List.pairwise_cons.1 hpw).2).1 l (List.mem_of_getLast? hl2)
      have hs1 : (restore o oe).estress = i.s0 + r * (l - a') := by
        rw [List.getLast?_map, hl2] at b1
        simp only [Option.map_some, Option.some.injEq] at b1
        exact b1.symm
      have hpar : (restore o oe).par = p := by
        have := (eSteps_init _ _ _ _ he).1
        unfold restore; split <;> simp [this, hp]
      have hI1 : (restore o oe).igral = 0 := by rw [b3 hA, hI]
      have hs0 := hi.s0
      have first : ∀ (oo ox : Obj) (es : List ℝ), oo.init = some i → eSteps oo (rateSteps r i.s0 (a' :: b :: c :: g2)) = .ok (es, ox) →
          es[0]? = some (voidRatio oo.par i (oo.igral + incOf oo.par i oo.estress (i.s0 + r * (b - a')) (b - a')) (i.s0 + r * (b - a'))) := by
        intro oo ox es hio hh
        rw [rateSteps] at hh
        simp only [eSteps, eFromStress_ok oo i hio] at hh
        change (do let (es, o2) ← eSteps (oo.advance _ _) _; return (_ :: es, o2)) = _ at hh
        cases h1 : eSteps (oo.advance (incOf oo.par i oo.estress (i.s0 + r * (b - a')) (b - a')) (i.s0 + r * (b - a')))
            (rateSteps r (i.s0 + r * (b - a')) (b :: c :: g2)) with
        | error e => rw [h1] at hh; cases hh
        | ok v => obtain ⟨es1, o1⟩ := v; rw [h1] at hh; cases hh; rfl
      refine ⟨rfl, rfl, rfl, _, _, first o oe es hinit he, first _ oe' es' hin1 he', ?_⟩
      rw [hpar, hI1, hs1, hp, hI, hes]
      have hd : 0 < b - a' := sub_pos.2 hab
      have e1 : 0 < r * (b - a') := mul_pos hr0 hd
      have e2 : r * (b - a') < r * (l - a') := mul_lt_mul_of_pos_left (by linarith) hr0
      have hlt := incOf_lt h hi hs0 (by linarith : i.s0 < i.s0 + r * (l - a')) (by linarith : 0 < i.s0 + r * (b - a')) hd
        (by linarith) (by linarith)
      have hp1 := incOf_pos h hi hs0 (by linarith : 0 < i.s0 + r * (b - a')) hd
      simp only [voidRatio]
      have := Real.log_lt_log (by linarith : 0 < 0 + incOf p i i.s0 (i.s0 + r * (b - a')) (b - a') + 1)
        (by linarith : 0 + incOf p i i.s0 (i.s0 + r * (b - a')) (b - a') + 1
          < 0 + incOf p i (i.s0 + r * (l - a')) (i.s0 + r * (b - a')) (b - a') + 1)
      have hpsi : 0 < p.psi := h.psi
      have := mul_lt_mul_of_pos_left this hpsi
      linarith

end Geotecha.YG
