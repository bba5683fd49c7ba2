import Verif.Constitutive.Props

set_option linter.unusedVariables false
namespace Geotecha.Const

/-! # C35 Hansbo's non-Darcian flow model -/

/-- What the documentation requires of the attributes. -/
structure Consistent (m : Hansbo) : Prop where
  n_ge : 1 ≤ m.n
  ks_pos : 0 < m.kstar
  kl_pos : 0 < m.klinear
  iL_nonneg : 0 ≤ m.iL
  kl : m.klinear = m.kstar * m.n * m.iL ^ (m.n - 1)
  i0 : m.i0 = m.iL * (m.n - 1) / m.n
  vL : m.vL = m.klinear * (m.iL - m.i0)

/-- A keyword that is given satisfies `P`. -/
def Given (o : Option ℝ) (P : ℝ → Prop) : Prop := ∀ x, o = some x → P x

theorem darcyLike_ok {k : ℝ} (hk : 0 < k) {m : Hansbo}
    (h : m = ⟨k, 1, 0, 0, k, k * (0 - 0)⟩) : Consistent m := by
  subst h
  exact ⟨le_refl _, hk, hk, le_refl _, by simp, by simp, rfl⟩

theorem init_inv {fp : (ℝ → ℝ) → Option ℝ} {klinear kstar n i0 iL : Option ℝ} {m : Hansbo} (h : hansboInit fp klinear kstar n i0 iL = .ok m) :
    ∃ a, hansboAttrs fp klinear kstar n i0 iL = .ok a ∧ a.klinear = some m.klinear ∧ m = ⟨a.kstar, a.n, a.iL, a.i0, m.klinear, m.klinear * (a.iL - a.i0)⟩ ∧
      a.i0 ≤ a.iL ∧ (a.i0 < a.iL ∨ a.i0 ≤ 0) ∧ 1 ≤ a.n := by
  unfold hansboInit at h
  cases ha : hansboAttrs fp klinear kstar n i0 iL with
  | error e => rw [ha] at h; cases h
  | ok a =>
    rw [ha] at h
    simp only [bind, Except.bind] at h
    split_ifs at h with h1 h2 h3
    cases hk : a.klinear with
    | none => rw [hk] at h; cases h
    | some kl =>
      rw [hk] at h
      cases h
      refine ⟨a, rfl, hk, rfl, not_lt.1 h1, ?_, not_lt.1 h3⟩
      by_contra hc
      rw [not_or] at hc
      exact h2 ⟨not_lt.1 hc.1, not_le.1 hc.2⟩

theorem mk_ok {ks n iL i0 kl : ℝ} (hn : 1 ≤ n) (hks : 0 < ks) (hiL : 0 ≤ iL) (hkl : 0 < kl) (h1 : kl = ks * n * iL ^ (n-1))
    (h2 : i0 = iL * (n - 1) / n) {m : Hansbo} (hm : m = ⟨ks, n, iL, i0, kl, kl * (iL - i0)⟩) : Consistent m := by
  subst hm; exact ⟨hn, hks, hkl, hiL, h1, h2, rfl⟩

/-- Every successful construction from admissible parameters satisfies the documented relations.  `fp` is the fixed point
iteration used when `n` has to be found; it is required to return exact fixed points (in floating point they are
approximate), and a limiting gradient of exactly 1 is excluded there because the iteration divides by `ln iL`. -/
theorem C35_consistent (fp : (ℝ → ℝ) → Option ℝ) (hfp : ∀ f x, fp f = some x → f x = x)
    (klinear kstar n i0 iL : Option ℝ) (m : Hansbo) (h : hansboInit fp klinear kstar n i0 iL = .ok m)
    (gkl : Given klinear (0 < ·)) (gks : Given kstar (0 < ·)) (gn : Given n (1 ≤ ·)) (gi0 : Given i0 (0 ≤ ·)) (giL : Given iL (0 ≤ ·))
    (h1 : kstar.isSome → klinear.isSome → n = none → m.iL ≠ 1) : Consistent m := by
  obtain ⟨a, ha, hkl, hm, hle, hlt, hn1⟩ := init_inv h
  unfold hansboAttrs at ha
  split at ha
  · rename_i ks n iL
    have hks := gks ks rfl
    have hn := gn n rfl
    have hiL := giL iL rfl
    split_ifs at ha with hc
    · cases ha; simp at hkl
    · cases ha
      rw [not_or] at hc
      have hn' : 1 < n := lt_of_le_of_ne hn (Ne.symm hc.1)
      have hiL' : 0 < iL := lt_of_le_of_ne hiL (Ne.symm hc.2)
      simp only [Option.some.injEq] at hkl
      refine mk_ok hn hks hiL ?_ hkl.symm (by ring) hm
      rw [← hkl]; positivity
  · rename_i ks n i0
    have hks := gks ks rfl
    have hn := gn n rfl
    have hi0 := gi0 i0 rfl
    split_ifs at ha with hc
    · cases ha
      simp only [darcyLike, Option.some.injEq] at hkl hm
      exact darcyLike_ok hks (by rw [hm, ← hkl])
    · cases ha
      rw [not_or] at hc
      have hn' : 0 < n - 1 := sub_pos.2 (lt_of_le_of_ne hn (Ne.symm hc.1))
      have hi0' : 0 < i0 := lt_of_le_of_ne hi0 (Ne.symm hc.2)
      have hnp : 0 < n := by linarith
      simp only [Option.some.injEq] at hkl
      have hp : 0 < i0 * n / (n - 1) := by positivity
      refine mk_ok hn hks hp.le ?_ hkl.symm ?_ hm
      · rw [← hkl]
        have := Real.rpow_pos_of_pos hp (n - 1)
        positivity
      · field_simp
  · rename_i ks n kl
    have hks := gks ks rfl
    have hn := gn n rfl
    have hkl0 := gkl kl rfl
    split_ifs at ha with hc
    · cases ha
      simp only [darcyLike, Option.some.injEq] at hkl hm
      exact darcyLike_ok hkl0 (by rw [hm, ← hkl])
    · cases ha
      have hn' : 0 < n - 1 := sub_pos.2 (lt_of_le_of_ne hn (Ne.symm hc))
      have hnp : 0 < n := by linarith
      simp only [Option.some.injEq] at hkl
      have hb : 0 < kl / (ks * n) := by positivity
      refine mk_ok hn hks (Real.rpow_nonneg hb.le _) (by rw [← hkl]; exact hkl0) ?_ rfl hm
      rw [← Real.rpow_mul hb.le, one_div_mul_cancel hn'.ne', Real.rpow_one, ← hkl]
      field_simp
  · rename_i ks iL i0
    have hks := gks ks rfl
    have hiL := giL iL rfl
    have hi0 := gi0 i0 rfl
    split_ifs at ha with hc
    · cases ha
      simp only [darcyLike, Option.some.injEq] at hkl hm
      exact darcyLike_ok hks (by rw [hm, ← hkl])
    · cases ha
      simp only at hle hn1
      have hlt' : 0 < iL - i0 := sub_pos.2 (lt_of_le_of_ne hle (Ne.symm hc))
      have hiL' : 0 < iL := by linarith
      simp only [Option.some.injEq] at hkl
      refine mk_ok hn1 hks hiL ?_ hkl.symm ?_ hm
      · rw [← hkl]
        have := Real.rpow_pos_of_pos hiL' (iL / (iL - i0) - 1)
        positivity
      · field_simp; ring
  · rename_i ks iL kl
    have hks := gks ks rfl
    have hiL := giL iL rfl
    have hkl0 := gkl kl rfl
    have h1' := h1 rfl rfl rfl
    split_ifs at ha with hc
    · cases ha
      simp only [darcyLike, Option.some.injEq] at hkl hm
      exact darcyLike_ok hkl0 (by rw [hm, ← hkl])
    · split at ha
      · cases ha
      · rename_i nn hf
        cases ha
        have hfix := hfp _ _ hf
        simp only at hn1
        have hiL' : 0 < iL := lt_of_le_of_ne hiL (Ne.symm hc)
        have hiL1 : iL ≠ 1 := by rw [hm] at h1'; exact h1'
        have hlog : Real.log iL ≠ 0 := Real.log_ne_zero_of_pos_of_ne_one hiL' hiL1
        simp only [Option.some.injEq] at hkl
        have hnp : 0 < nn := by linarith
        have hq : 0 < kl / ks / nn := by positivity
        have e : (nn - 1) * Real.log iL = Real.log (kl / ks / nn) := by
          have : Real.log (kl / ks / nn) / Real.log iL = nn - 1 := by linarith
          rw [← this]; field_simp
        have e2 : iL ^ (nn - 1) = kl / ks / nn := by
          rw [Real.rpow_def_of_pos hiL', mul_comm, e, Real.exp_log hq]
        refine mk_ok hn1 hks hiL (by rw [← hkl]; exact hkl0) ?_ rfl hm
        rw [e2, ← hkl]; field_simp
  · rename_i ks i0 kl
    have hks := gks ks rfl
    have hi0 := gi0 i0 rfl
    have hkl0 := gkl kl rfl
    have h1' := h1 rfl rfl rfl
    split_ifs at ha with hc
    · cases ha
      simp only [darcyLike, Option.some.injEq] at hkl hm
      exact darcyLike_ok hkl0 (by rw [hm, ← hkl])
    · split at ha
      · cases ha
      · rename_i nn hf
        cases ha
        have hfix := hfp _ _ hf
        simp only at hn1 hle hlt
        have hi0' : 0 < i0 := lt_of_le_of_ne hi0 (Ne.symm hc)
        have hnn : 0 < nn - 1 := by
          rcases hn1.lt_or_eq with h | h
          · linarith
          · rw [← h] at hle; simp at hle; linarith
        have hnp : 0 < nn := by linarith
        have hp : 0 < i0 * nn / (nn - 1) := by positivity
        have hiL1 : i0 * nn / (nn - 1) ≠ 1 := by rw [hm] at h1'; exact h1'
        have hlog : Real.log (i0 * nn / (nn - 1)) ≠ 0 := Real.log_ne_zero_of_pos_of_ne_one hp hiL1
        simp only [Option.some.injEq] at hkl
        have hq : 0 < kl / ks / nn := by positivity
        have e : (nn - 1) * Real.log (i0 * nn / (nn - 1)) = Real.log (kl / ks / nn) := by
          have : Real.log (kl / ks / nn) / Real.log (i0 * nn / (nn - 1)) = nn - 1 := by linarith
          exact ((div_eq_iff hlog).1 this).symm
        have e2 : (i0 * nn / (nn - 1)) ^ (nn - 1) = kl / ks / nn := by
          rw [Real.rpow_def_of_pos hp, mul_comm, e, Real.exp_log hq]
        refine mk_ok hn1 hks hp.le (by rw [← hkl]; exact hkl0) ?_ ?_ hm
        · rw [e2, ← hkl]; field_simp
        · field_simp
  · rename_i n iL kl
    have hn := gn n rfl
    have hiL := giL iL rfl
    have hkl0 := gkl kl rfl
    split_ifs at ha with hc
    · cases ha
      simp only [darcyLike, Option.some.injEq] at hkl hm
      exact darcyLike_ok hkl0 (by rw [hm, ← hkl])
    · cases ha
      rw [not_or] at hc
      have hiL' : 0 < iL := lt_of_le_of_ne hiL (Ne.symm hc.2)
      have hnp : 0 < n := by linarith
      have hpw := Real.rpow_pos_of_pos hiL' (n - 1)
      simp only [Option.some.injEq] at hkl
      refine mk_ok hn (by positivity) hiL (by rw [← hkl]; exact hkl0) ?_ rfl hm
      rw [← hkl]; field_simp
  · rename_i n i0 kl
    have hn := gn n rfl
    have hi0 := gi0 i0 rfl
    have hkl0 := gkl kl rfl
    split_ifs at ha with hc
    · cases ha
      simp only [darcyLike, Option.some.injEq] at hkl hm
      exact darcyLike_ok hkl0 (by rw [hm, ← hkl])
    · cases ha
      rw [not_or] at hc
      have hn' : 0 < n - 1 := sub_pos.2 (lt_of_le_of_ne hn (Ne.symm hc.1))
      have hi0' : 0 < i0 := lt_of_le_of_ne hi0 (Ne.symm hc.2)
      have hnp : 0 < n := by linarith
      have hp : 0 < i0 * n / (n - 1) := by positivity
      have hpw := Real.rpow_pos_of_pos hp (n - 1)
      simp only [Option.some.injEq] at hkl
      refine mk_ok hn (by positivity) hp.le (by rw [← hkl]; exact hkl0) ?_ ?_ hm
      · rw [← hkl, mul_assoc, div_mul_cancel₀]; positivity
      · field_simp
  · rename_i iL i0 kl
    have hiL := giL iL rfl
    have hi0 := gi0 i0 rfl
    have hkl0 := gkl kl rfl
    split_ifs at ha with hc
    cases ha
    simp only at hle hn1
    have hlt' : 0 < iL - i0 := lt_of_le_of_ne (sub_nonneg.2 hle) (Ne.symm hc)
    have hiL' : 0 < iL := by linarith
    have hpw := Real.rpow_pos_of_pos hiL' (iL / (iL - i0) - 1)
    simp only [Option.some.injEq] at hkl
    refine mk_ok hn1 (by positivity) hiL (by rw [← hkl]; exact hkl0) ?_ ?_ hm
    · rw [← hkl, mul_assoc, div_mul_cancel₀]; positivity
    · field_simp; ring
  · cases ha

/-- Wrong number of parameters, or neither `kstar` nor `klinear`: TypeError. -/
theorem C35_rejects (fp : (ℝ → ℝ) → Option ℝ) (klinear kstar n i0 iL : Option ℝ)
    (h : ([kstar, n, iL, i0, klinear].filter Option.isSome).length ≠ 3 ∨ (kstar = none ∧ klinear = none)) :
    hansboInit fp klinear kstar n i0 iL = .error .typeError := by
  have : hansboAttrs fp klinear kstar n i0 iL = .error .typeError := by
    cases klinear <;> cases kstar <;> cases n <;> cases i0 <;> cases iL <;> first | rfl | (exfalso; simp at h)
  unfold hansboInit; rw [this]; rfl

/-- The documented Darcy limit fails for `(kstar, n = 1, iL)` and `(kstar, n, iL = 0)`: AttributeError (a misspelt
attribute), for all values. -/
theorem C35_negation (fp : (ℝ → ℝ) → Option ℝ) (kstar n iL : ℝ) (h : n = 1 ∨ iL = 0) :
    hansboInit fp none (some kstar) (some n) none (some iL) = .error .attributeError := by
  unfold hansboInit hansboAttrs
  simp only [if_pos h, bind, Except.bind]
  norm_num

/-- And `(iL, i0 = iL, klinear)` divides by zero instead of reporting a bad parameter. -/
theorem C35_zero_division (fp : (ℝ → ℝ) → Option ℝ) (kl iL : ℝ) :
    hansboInit fp (some kl) none none (some iL) (some iL) = .error .zeroDivision := by
  unfold hansboInit hansboAttrs
  simp [bind, Except.bind]

/-! ## Behaviour of a consistent model -/

variable {m : Hansbo}

/-- The law on non-negative gradients. -/
noncomputable def law (m : Hansbo) (x : ℝ) : ℝ := if x ≥ m.iL then m.klinear * (x - m.i0) else m.kstar * x ^ m.n

theorem knee (c : Consistent m) : m.klinear * (m.iL - m.i0) = m.kstar * m.iL ^ m.n := by
  have hn : 0 < m.n := by linarith [c.n_ge]
  rcases c.iL_nonneg.lt_or_eq with h | h
  · rw [c.i0, c.kl, Real.rpow_sub h, Real.rpow_one]
    field_simp; ring
  · rw [c.i0, ← h, Real.zero_rpow hn.ne']; simp

theorem law_zero (c : Consistent m) : law m 0 = 0 := by
  have hn : 0 < m.n := by linarith [c.n_ge]
  unfold law
  split_ifs with h
  · have : m.iL = 0 := le_antisymm h c.iL_nonneg
    rw [c.i0, this]; simp
  · rw [Real.zero_rpow hn.ne', mul_zero]

theorem law_of_le (c : Consistent m) {x : ℝ} (h : x ≤ m.iL) : law m x = m.kstar * x ^ m.n := by
  unfold law
  split_ifs with h'
  · have : x = m.iL := le_antisymm h h'
    rw [this, knee c]
  · rfl

theorem law_of_ge {x : ℝ} (h : m.iL ≤ x) : law m x = m.klinear * (x - m.i0) := if_pos h

theorem law_mono (c : Consistent m) : StrictMonoOn (law m) (Set.Ici 0) := by
  have hn : 0 < m.n := by linarith [c.n_ge]
  have p1 : ∀ x y, 0 ≤ x → x < y → y ≤ m.iL → law m x < law m y := fun x y hx hxy hy => by
    rw [law_of_le c (le_trans hxy.le hy), law_of_le c hy]
    exact mul_lt_mul_of_pos_left (Real.rpow_lt_rpow hx hxy hn) c.ks_pos
  have p2 : ∀ x y, m.iL ≤ x → x < y → law m x < law m y := fun x y hx hxy => by
    rw [law_of_ge hx, law_of_ge (le_trans hx hxy.le)]
    exact mul_lt_mul_of_pos_left (by linarith) c.kl_pos
  intro x hx y hy hxy
  rcases le_or_gt y m.iL with h | h
  · exact p1 x y hx hxy h
  · rcases le_or_gt m.iL x with h' | h'
    · exact p2 x y h' hxy
    · exact lt_trans (p1 x m.iL hx h' le_rfl) (p2 m.iL y le_rfl h)

theorem v_nonneg (c : Consistent m) {i : ℝ} (h : 0 ≤ i) : m.vFromI i = law m i := by
  unfold Hansbo.vFromI
  rw [abs_of_nonneg h, mul_one]
  rcases h.lt_or_eq with h | h
  · rw [npSign_pos h, mul_one]; rfl
  · subst h; rw [npSign_zero, mul_zero, law_zero c]

/-- `v_from_i` is odd. -/
theorem C35_odd (m : Hansbo) (i : ℝ) : m.vFromI (-i) = -m.vFromI i := by
  unfold Hansbo.vFromI; rw [abs_neg, npSign_odd]; ring

/-- The documented law for positive gradients, with both branches agreeing at the limiting gradient. -/
theorem C35_law (c : Consistent m) (i : ℝ) (h : 0 ≤ i) :
    (i ≤ m.iL → m.vFromI i = m.kstar * i ^ m.n) ∧ (m.iL ≤ i → m.vFromI i = m.klinear * (i - m.i0)) := by
  rw [v_nonneg c h]
  exact ⟨fun h' => law_of_le c h', fun h' => law_of_ge h'⟩

/-- `v_from_i` is strictly increasing over all gradients of either sign. -/
theorem C35_increasing (c : Consistent m) : StrictMono m.vFromI := by
  have hneg : ∀ i, i < 0 → m.vFromI i = -law m (-i) := fun i hi => by
    have := C35_odd m (-i)
    rw [neg_neg] at this
    rw [this, v_nonneg c (by linarith)]
  have hpos : ∀ x, 0 < x → 0 < law m x := fun x hx => by
    have := law_mono c (Set.mem_Ici.2 le_rfl) (Set.mem_Ici.2 hx.le) hx
    rwa [law_zero c] at this
  have hnn : ∀ x, 0 ≤ x → 0 ≤ law m x := fun x hx => by
    rcases hx.lt_or_eq with h | h
    · exact (hpos x h).le
    · rw [← h, law_zero c]
  intro i j hij
  rcases lt_or_ge i 0 with hi | hi
  · rcases lt_or_ge j 0 with hj | hj
    · rw [hneg i hi, hneg j hj]
      have := law_mono c (Set.mem_Ici.2 (by linarith : 0 ≤ -j)) (Set.mem_Ici.2 (by linarith : 0 ≤ -i)) (by linarith)
      linarith
    · rw [hneg i hi, v_nonneg c hj]
      have := hpos (-i) (by linarith)
      have := hnn j hj
      linarith
  · rw [v_nonneg c hi, v_nonneg c (by linarith)]
    exact law_mono c (Set.mem_Ici.2 hi) (Set.mem_Ici.2 (by linarith)) hij

/-- `v_from_i` is continuous. -/
theorem C35_continuous (c : Consistent m) : Continuous m.vFromI := by
  have hn : 0 < m.n := by linarith [c.n_ge]
  have hlaw : ∀ x, 0 ≤ x → law m x = m.kstar * (min x m.iL) ^ m.n + m.klinear * (max x m.iL - m.iL) := by
    intro x hx
    rcases le_total x m.iL with h | h
    · rw [law_of_le c h, min_eq_left h, max_eq_right h]; ring
    · rw [law_of_ge h, min_eq_right h, max_eq_left h, ← knee c]; ring
  have hform : m.vFromI = fun i => (m.kstar * (min (max i 0) m.iL) ^ m.n + m.klinear * (max (max i 0) m.iL - m.iL)) -
      (m.kstar * (min (max (-i) 0) m.iL) ^ m.n + m.klinear * (max (max (-i) 0) m.iL - m.iL)) := by
    funext i
    rw [← hlaw _ (le_max_right _ _), ← hlaw _ (le_max_right _ _)]
    rcases le_total 0 i with h | h
    · rw [max_eq_left h, max_eq_right (by linarith : -i ≤ 0), law_zero c, v_nonneg c h, sub_zero]
    · rw [max_eq_right h, max_eq_left (by linarith : 0 ≤ -i), law_zero c]
      have := C35_odd m (-i)
      rw [neg_neg] at this
      rw [this, v_nonneg c (by linarith)]; ring
  rw [hform]
  have h1 : ∀ f : ℝ → ℝ, Continuous f → Continuous (fun x => f x ^ m.n) := fun f hf =>
    Continuous.rpow_const hf (fun x => Or.inr hn.le)
  refine Continuous.sub (Continuous.add (continuous_const.mul (h1 _ (by fun_prop))) (by fun_prop))
    (Continuous.add (continuous_const.mul (h1 _ (by fun_prop))) (by fun_prop))

/-- The inverse law on non-negative velocities. -/
noncomputable def inv (m : Hansbo) (v : ℝ) : ℝ := if v ≥ m.vL then v / m.klinear + m.i0 else (v / m.kstar) ^ (1 / m.n)

theorem inv_law (c : Consistent m) {x : ℝ} (hx : 0 ≤ x) : inv m (law m x) = x := by
  have hn : 0 < m.n := by linarith [c.n_ge]
  have hkl := c.kl_pos
  have hks := c.ks_pos
  have hvL : m.vL = law m m.iL := by rw [law_of_ge le_rfl, c.vL]
  unfold inv
  rcases le_or_gt m.iL x with h | h
  · have : law m x ≥ m.vL := by
      rw [hvL]; exact (law_mono c).monotoneOn (Set.mem_Ici.2 c.iL_nonneg) (Set.mem_Ici.2 hx) h
    rw [if_pos this, law_of_ge h]; field_simp; ring
  · have : ¬ law m x ≥ m.vL := by
      rw [hvL]; exact not_le.2 (law_mono c (Set.mem_Ici.2 hx) (Set.mem_Ici.2 c.iL_nonneg) h)
    rw [if_neg this, law_of_le c h.le, mul_div_cancel_left₀ _ hks.ne', ← Real.rpow_mul hx, mul_one_div_cancel hn.ne', Real.rpow_one]

theorem inv_nonneg (c : Consistent m) {v : ℝ} (hv : 0 ≤ v) : 0 ≤ inv m v := by
  have hn : 0 < m.n := by linarith [c.n_ge]
  have hkl := c.kl_pos
  have hks := c.ks_pos
  have hi0 : 0 ≤ m.i0 := by
    rw [c.i0]; exact div_nonneg (mul_nonneg c.iL_nonneg (by linarith [c.n_ge])) hn.le
  unfold inv
  split_ifs
  · positivity
  · positivity

theorem law_inv (c : Consistent m) {v : ℝ} (hv : 0 ≤ v) : law m (inv m v) = v := by
  have hn : 0 < m.n := by linarith [c.n_ge]
  have hkl := c.kl_pos
  have hks := c.ks_pos
  unfold inv
  split_ifs with h
  · have : m.iL ≤ v / m.klinear + m.i0 := by
      rw [c.vL] at h
      have := (le_div_iff₀ hkl).2 (by linarith : (m.iL - m.i0) * m.klinear ≤ v)
      linarith
    rw [law_of_ge this]; field_simp; ring
  · have hlt : v < m.kstar * m.iL ^ m.n := by rw [← knee c, ← c.vL]; exact not_le.1 h
    have h0 : 0 ≤ v / m.kstar := by positivity
    have h1 : (v / m.kstar) ^ (1 / m.n) ≤ m.iL := by
      have h2 : v / m.kstar ≤ m.iL ^ m.n := ((div_lt_iff₀ hks).2 (by linarith)).le
      have := Real.rpow_le_rpow h0 h2 (by positivity : 0 ≤ 1 / m.n)
      rwa [← Real.rpow_mul c.iL_nonneg, mul_one_div_cancel hn.ne', Real.rpow_one] at this
    rw [law_of_le c h1, ← Real.rpow_mul h0, one_div_mul_cancel hn.ne', Real.rpow_one]
    field_simp

/-- `i_from_v` inverts `v_from_i` and conversely, for every gradient and velocity of either sign. -/
theorem C35_inverse (c : Consistent m) (i v : ℝ) : m.iFromV (m.vFromI i) = i ∧ m.vFromI (m.iFromV v) = v := by
  have iodd : ∀ v, m.iFromV (-v) = -m.iFromV v := fun v => by
    unfold Hansbo.iFromV; rw [abs_neg, npSign_odd]; ring
  have inn : ∀ v, 0 ≤ v → m.iFromV v = inv m v := fun v hv => by
    unfold Hansbo.iFromV
    rw [abs_of_nonneg hv, mul_one]
    rcases hv.lt_or_eq with h | h
    · rw [npSign_pos h, mul_one]; rfl
    · subst h
      have := inv_law c (le_refl (0:ℝ))
      rw [law_zero c] at this
      rw [npSign_zero, mul_zero, this]
  have hnn : ∀ x, 0 ≤ x → 0 ≤ law m x := fun x hx => by
    have := (law_mono c).monotoneOn (Set.mem_Ici.2 le_rfl) (Set.mem_Ici.2 hx) hx
    rwa [law_zero c] at this
  have r1 : ∀ i, 0 ≤ i → m.iFromV (m.vFromI i) = i := fun i hi => by
    rw [v_nonneg c hi, inn _ (hnn i hi), inv_law c hi]
  have r2 : ∀ v, 0 ≤ v → m.vFromI (m.iFromV v) = v := fun v hv => by
    rw [inn v hv, v_nonneg c (inv_nonneg c hv), law_inv c hv]
  constructor
  · rcases le_total 0 i with h | h
    · exact r1 i h
    · have := r1 (-i) (by linarith)
      rw [C35_odd, iodd] at this; linarith
  · rcases le_total 0 v with h | h
    · exact r2 v h
    · have := r2 (-v) (by linarith)
      rw [iodd, C35_odd] at this; linarith

theorem law_deriv (c : Consistent m) {i : ℝ} (h : 0 < i) : HasDerivAt (law m) (m.dvdi i) i := by
  have hd1 : ∀ x, 0 < x → HasDerivAt (fun x => m.kstar * x ^ m.n) (m.kstar * m.n * x ^ (m.n - 1)) x := fun x hx => by
    have := (Real.hasDerivAt_rpow_const (p := m.n) (Or.inl hx.ne')).const_mul m.kstar
    exact this.congr_deriv (by ring)
  have hd2 : ∀ x, HasDerivAt (fun x => m.klinear * (x - m.i0)) m.klinear x := fun x => by
    simpa using ((hasDerivAt_id x).sub_const m.i0).const_mul m.klinear
  unfold Hansbo.dvdi
  rw [npSign_pos h, mul_one, mul_one, abs_of_pos h]
  rcases lt_trichotomy i m.iL with hi | hi | hi
  · rw [if_neg (not_le.2 hi)]
    refine (hd1 i h).congr_of_eventuallyEq ?_
    filter_upwards [Iio_mem_nhds hi] with t ht
    exact law_of_le c (le_of_lt ht)
  · rw [if_pos hi.symm.le]
    have hs : m.klinear = m.kstar * m.n * i ^ (m.n - 1) := by rw [hi]; exact c.kl
    have w1 : HasDerivWithinAt (law m) m.klinear (Set.Iic i) i := by
      have := (hd1 i h).hasDerivWithinAt (s := Set.Iic i)
      rw [← hs] at this
      refine this.congr (fun t ht => law_of_le c (by rw [← hi]; exact ht)) (law_of_le c hi.le)
    have w2 : HasDerivWithinAt (law m) m.klinear (Set.Ici i) i := by
      refine (hd2 i).hasDerivWithinAt.congr (fun t ht => law_of_ge (by rw [← hi]; exact ht)) (law_of_ge hi.symm.le)
    have := w1.union w2
    rwa [Set.Iic_union_Ici, hasDerivWithinAt_univ] at this
  · rw [if_pos hi.le]
    refine (hd2 i).congr_of_eventuallyEq ?_
    filter_upwards [Ioi_mem_nhds hi] with t ht
    exact law_of_ge (le_of_lt ht)

/-- `dv_di` is the slope of `v_from_i` for positive gradients (also exactly at the limiting gradient) and *minus* the slope
for negative ones. -/
theorem C35_slope (c : Consistent m) (i : ℝ) : (0 < i → HasDerivAt m.vFromI (m.dvdi i) i) ∧
    (i < 0 → HasDerivAt m.vFromI (-m.dvdi i) i) := by
  have hp : ∀ i, 0 < i → HasDerivAt m.vFromI (m.dvdi i) i := fun i h => by
    refine (law_deriv c h).congr_of_eventuallyEq ?_
    filter_upwards [Ioi_mem_nhds h] with t ht
    exact v_nonneg c (le_of_lt ht)
  refine ⟨hp i, fun h => ?_⟩
  have h1 := hp (-i) (by linarith)
  have h2 : HasDerivAt (fun x => -m.vFromI (-x)) (m.dvdi (-i)) i := by
    have := (h1.comp i (hasDerivAt_neg i)).neg
    exact this.congr_deriv (by ring)
  have e1 : (fun x => -m.vFromI (-x)) = m.vFromI := by funext x; rw [C35_odd]; ring
  have e2 : m.dvdi (-i) = -m.dvdi i := by unfold Hansbo.dvdi; rw [abs_neg, npSign_odd]; ring
  rw [e1, e2] at h2
  exact h2

/-! Non-vacuity: the documented example `kstar=2, n=1.3, iL=16.24...`. -/
example : ∃ m, hansboInit (fun _ => none) none (some 2) (some (13/10)) none (some 16) = .ok m ∧ Consistent m := by
  have hi : ∃ m, hansboInit (fun _ => none) none (some 2) (some (13/10)) none (some 16) = .ok m := by
    unfold hansboInit hansboAttrs
    simp only [bind, Except.bind]
    norm_num
  obtain ⟨m, hm⟩ := hi
  refine ⟨m, hm, C35_consistent (fun _ => none) (by simp) _ _ _ _ _ m hm ?_ ?_ ?_ ?_ ?_ ?_⟩
  · intro x hx; simp at hx
  · intro x hx; simp at hx; subst hx; norm_num
  · intro x hx; simp at hx; subst hx; norm_num
  · intro x hx; simp at hx
  · intro x hx; simp at hx; subst hx; norm_num
  · intro _ h; simp at h

end Geotecha.Const
