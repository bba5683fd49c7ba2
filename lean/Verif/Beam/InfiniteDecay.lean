import Verif.Beam.InfiniteProps
import Mathlib.Analysis.SpecialFunctions.Complex.Log
import Mathlib.Analysis.Real.Pi.Bounds

/-!
# Infinite beam: decay, and uniqueness of the bounded response (C219)
-/
set_option autoImplicit false
set_option linter.unusedVariables false

namespace Geotecha.Beam

open Complex Filter Topology Set

/-! ## Sums of two exponentials -/

theorem norm_exp_mul (s : ℝ) (z : ℂ) : ‖exp (s * z)‖ = Real.exp (s * z.re) := by
  rw [Complex.norm_exp]; simp

theorem exp_decay {z : ℂ} (hz : z.re < 0) : Tendsto (fun s : ℝ => exp (s * z)) atTop (𝓝 0) := by
  rw [tendsto_zero_iff_norm_tendsto_zero]
  have : Tendsto (fun s : ℝ => Real.exp (s * z.re)) atTop (𝓝 0) :=
    Real.tendsto_exp_atBot.comp (tendsto_id.atTop_mul_const_of_neg hz)
  exact this.congr fun s => (norm_exp_mul s z).symm

theorem exp_sep {g h : ℂ} (hgh : g ≠ h) : ∃ d : ℝ, exp (d * g) - exp (d * h) ≠ 0 := by
  have hn : 0 < ‖g - h‖ := norm_pos_iff.mpr (sub_ne_zero.mpr hgh)
  refine ⟨1 / ‖g - h‖, fun he => ?_⟩
  have e1 : exp (((1 / ‖g - h‖ : ℝ) : ℂ) * (g - h)) = 1 := by
    rw [mul_sub, exp_sub, sub_eq_zero.mp he, div_self (exp_ne_zero _)]
  obtain ⟨n, hn2⟩ := Complex.exp_eq_one_iff.mp e1
  have hnorm := congrArg norm hn2
  rw [norm_mul, Complex.norm_real, Real.norm_of_nonneg (by positivity), one_div, inv_mul_cancel₀ hn.ne',
    norm_mul, norm_mul, norm_mul, norm_I, Complex.norm_real, Real.norm_of_nonneg Real.pi_pos.le,
    Complex.norm_ofNat, mul_one] at hnorm
  have hni : ‖(n : ℂ)‖ = ((|n| : ℤ) : ℝ) := by rw [Complex.norm_intCast]; push_cast; rfl
  rw [hni] at hnorm
  have pi3 := Real.pi_gt_three
  rcases eq_or_ne n 0 with rfl | hn0
  · norm_num at hnorm
  · have : (1:ℝ) ≤ ((|n| : ℤ) : ℝ) := by exact_mod_cast Int.one_le_abs hn0
    nlinarith

/-- Eliminate the second exponential. -/
theorem two_elim (b c g h : ℂ) (d s : ℝ) :
    (b * exp ((s + d : ℝ) * g) + c * exp ((s + d : ℝ) * h)) - exp (d * h) * (b * exp (s * g) + c * exp (s * h))
      = (b * (exp (d * g) - exp (d * h))) * exp (s * g) := by
  push_cast
  rw [add_mul, add_mul, exp_add, exp_add]
  ring

theorem one_decay_iff {b g : ℂ} (hb : b ≠ 0) (ht : Tendsto (fun s : ℝ => b * exp (s * g)) atTop (𝓝 0)) :
    g.re < 0 := by
  by_contra hg
  push Not at hg
  rw [tendsto_zero_iff_norm_tendsto_zero] at ht
  have hbp : 0 < ‖b‖ := norm_pos_iff.mpr hb
  obtain ⟨s, hs0, hs⟩ := ((eventually_ge_atTop (0:ℝ)).and
    (ht.eventually (gt_mem_nhds hbp))).exists
  rw [norm_mul, norm_exp_mul] at hs
  have : 1 ≤ Real.exp (s * g.re) := Real.one_le_exp (mul_nonneg hs0 hg)
  nlinarith

theorem two_decay_iff {b c g h : ℂ} (hb : b ≠ 0) (hc : c ≠ 0) (hgh : g ≠ h) :
    Tendsto (fun s : ℝ => b * exp (s * g) + c * exp (s * h)) atTop (𝓝 0) ↔ g.re < 0 ∧ h.re < 0 := by
  constructor
  · intro ht
    have one : ∀ b c g h : ℂ, b ≠ 0 → g ≠ h →
        Tendsto (fun s : ℝ => b * exp (s * g) + c * exp (s * h)) atTop (𝓝 0) → g.re < 0 := by
      intro b c g h hb hgh ht
      obtain ⟨d, hd⟩ := exp_sep hgh
      refine one_decay_iff (mul_ne_zero hb hd) ?_
      have t1 : Tendsto (fun s : ℝ => s + d) atTop atTop := tendsto_atTop_add_const_right _ d tendsto_id
      have := (ht.comp t1).sub (ht.const_mul (exp (d * h)))
      simp only [mul_zero, sub_zero] at this
      exact this.congr fun s => two_elim b c g h d s
    refine ⟨one b c g h hb hgh ht, one c b h g hc hgh.symm ?_⟩
    exact ht.congr fun s => by ring
  · rintro ⟨h1, h2⟩
    have := ((exp_decay h1).const_mul b).add ((exp_decay h2).const_mul c)
    simpa using this

theorem one_bdd_iff {b g : ℂ} (hb : b ≠ 0) {M : ℝ} (hM : ∀ s : ℝ, 0 < s → ‖b * exp (s * g)‖ ≤ M) :
    g.re ≤ 0 := by
  by_contra hg
  push Not at hg
  have hbp : 0 < ‖b‖ := norm_pos_iff.mpr hb
  have hM1 := hM 1 one_pos
  have hM0 : 0 ≤ M := (norm_nonneg _).trans hM1
  have := hM ((M + 1) / ‖b‖ / g.re) (by positivity)
  rw [norm_mul, norm_exp_mul, div_mul_cancel₀ _ hg.ne'] at this
  have e := Real.add_one_le_exp ((M + 1) / ‖b‖)
  have : ‖b‖ * ((M + 1) / ‖b‖ + 1) ≤ M := (mul_le_mul_of_nonneg_left e hbp.le).trans this
  rw [mul_add, mul_div_cancel₀ _ hbp.ne'] at this
  linarith

theorem two_bdd_iff {b c g h : ℂ} (hb : b ≠ 0) (hc : c ≠ 0) (hgh : g ≠ h) :
    (∃ M : ℝ, ∀ s : ℝ, 0 < s → ‖b * exp (s * g) + c * exp (s * h)‖ ≤ M) ↔ g.re ≤ 0 ∧ h.re ≤ 0 := by
  constructor
  · rintro ⟨M, hM⟩
    have one : ∀ b c g h : ℂ, b ≠ 0 → g ≠ h →
        (∀ s : ℝ, 0 < s → ‖b * exp (s * g) + c * exp (s * h)‖ ≤ M) → g.re ≤ 0 := by
      intro b c g h hb hgh hM
      obtain ⟨d, hd⟩ : ∃ d : ℝ, 0 ≤ d ∧ exp (d * g) - exp (d * h) ≠ 0 := by
        obtain ⟨d, hd⟩ := exp_sep hgh
        rcases le_total 0 d with h0 | h0
        · exact ⟨d, h0, hd⟩
        · refine ⟨-d, by linarith, fun he => hd ?_⟩
          have e1 : exp (((-d : ℝ) : ℂ) * g) = exp (((-d : ℝ) : ℂ) * h) := sub_eq_zero.mp he
          rw [ofReal_neg, neg_mul, neg_mul, exp_neg, exp_neg] at e1
          rw [inv_injective e1, sub_self]
      refine one_bdd_iff (mul_ne_zero hb hd.2) (M := M + ‖exp (d * h)‖ * M) fun s hs => ?_
      rw [← two_elim]
      refine (norm_sub_le _ _).trans (add_le_add (hM _ (by linarith [hd.1])) ?_)
      rw [norm_mul]
      exact mul_le_mul_of_nonneg_left (hM s hs) (norm_nonneg _)
    refine ⟨one b c g h hb hgh hM, one c b h g hc hgh.symm fun s hs => ?_⟩
    rw [add_comm]; exact hM s hs
  · rintro ⟨h1, h2⟩
    refine ⟨‖b‖ + ‖c‖, fun s hs => ?_⟩
    refine (norm_add_le _ _).trans (add_le_add ?_ ?_)
    · rw [norm_mul, norm_exp_mul]
      have : Real.exp (s * g.re) ≤ 1 := Real.exp_le_one_iff.mpr (mul_nonpos_of_nonneg_of_nonpos hs.le h1)
      nlinarith [norm_nonneg b]
    · rw [norm_mul, norm_exp_mul]
      have : Real.exp (s * h.re) ≤ 1 := Real.exp_le_one_iff.mpr (mul_nonpos_of_nonneg_of_nonpos hs.le h2)
      nlinarith [norm_nonneg c]

/-! ## The displacement -/

theorem movingLoad_ok {α β : ℝ} {γ : Fin 4 → ℂ} (h : IsRoots α β γ) (hi : Function.Injective γ)
    (slim : ℝ × ℝ) (npts : ℕ) : movingLoad γ slim npts
        = .ok (linspaceN slim.1 slim.2 npts, (linspaceN slim.1 slim.2 npts).map (mlW α β γ 0)) := by
  unfold movingLoad
  rw [mlA_ok h hi]
  show Except.ok _ = _
  rw [mlDisp_eq]

theorem mlW_right {α β : ℝ} {γ : Fin 4 → ℂ} {s : ℝ} (hs : 0 ≤ s) : mlW α β γ 0 s
    = 8 / dPoly α β (γ 0) * exp (s * γ 0) + 8 / dPoly α β (γ 1) * exp (s * γ 1) := by
  unfold mlW glueC; rw [if_pos hs]; unfold twoExp; ring

theorem mlW_left {α β : ℝ} {γ : Fin 4 → ℂ} {s : ℝ} (hs : s < 0) : mlW α β γ 0 s
    = -(8 / dPoly α β (γ 2)) * exp (s * γ 2) + -(8 / dPoly α β (γ 3)) * exp (s * γ 3) := by
  unfold mlW glueC; rw [if_neg (not_le.mpr hs)]; unfold twoExp; ring

theorem flip_exp (s : ℝ) (z : ℂ) : exp (((-s : ℝ) : ℂ) * z) = exp (s * (-z)) := by
  push_cast; ring_nf

section
variable {α β : ℝ} {γ : Fin 4 → ℂ}

theorem mlW_top (h : IsRoots α β γ) (hi : Function.Injective γ) :
    Tendsto (mlW α β γ 0) atTop (𝓝 0) ↔ (γ 0).re < 0 ∧ (γ 1).re < 0 := by
  have nz : ∀ j, 8 / dPoly α β (γ j) ≠ 0 := fun j => div_ne_zero (by norm_num) (dPoly_ne h hi j)
  rw [← two_decay_iff (nz 0) (nz 1) (fun e => absurd (hi e) (by decide))]
  refine tendsto_congr' ?_
  filter_upwards [eventually_ge_atTop 0] with s hs
  exact mlW_right hs

theorem mlW_bot (h : IsRoots α β γ) (hi : Function.Injective γ) :
    Tendsto (mlW α β γ 0) atBot (𝓝 0) ↔ 0 < (γ 2).re ∧ 0 < (γ 3).re := by
  have nz : ∀ j, -(8 / dPoly α β (γ j)) ≠ 0 :=
    fun j => neg_ne_zero.mpr (div_ne_zero (by norm_num) (dPoly_ne h hi j))
  have k := two_decay_iff (nz 2) (nz 3) (g := -γ 2) (h := -γ 3)
    (fun e => absurd (hi (neg_injective e)) (by decide))
  simp only [neg_re, neg_lt_zero] at k
  rw [← k]
  constructor
  · intro t
    refine (t.comp tendsto_neg_atTop_atBot).congr' ?_
    filter_upwards [eventually_gt_atTop 0] with s hs
    show mlW α β γ 0 (-s) = _
    rw [mlW_left (by linarith), flip_exp, flip_exp]
  · intro t
    refine (t.comp tendsto_neg_atBot_atTop).congr' ?_
    filter_upwards [eventually_lt_atBot 0] with s hs
    show _ = mlW α β γ 0 s
    rw [mlW_left hs]
    simp only [Function.comp]
    rw [flip_exp, flip_exp, neg_neg, neg_neg]

theorem mlW_bdd (h : IsRoots α β γ) (hi : Function.Injective γ) :
    (∃ M : ℝ, ∀ s, ‖mlW α β γ 0 s‖ ≤ M)
      ↔ ((γ 0).re ≤ 0 ∧ (γ 1).re ≤ 0) ∧ (0 ≤ (γ 2).re ∧ 0 ≤ (γ 3).re) := by
  have nz : ∀ j, 8 / dPoly α β (γ j) ≠ 0 := fun j => div_ne_zero (by norm_num) (dPoly_ne h hi j)
  have k1 := two_bdd_iff (nz 0) (nz 1) (g := γ 0) (h := γ 1) (fun e => absurd (hi e) (by decide))
  have k2 := two_bdd_iff (neg_ne_zero.mpr (nz 2)) (neg_ne_zero.mpr (nz 3)) (g := -γ 2) (h := -γ 3)
    (fun e => absurd (hi (neg_injective e)) (by decide))
  simp only [neg_re, neg_nonpos] at k2
  rw [← k1, ← k2]
  constructor
  · rintro ⟨M, hM⟩
    refine ⟨⟨M, fun s hs => ?_⟩, ⟨M, fun s hs => ?_⟩⟩
    · rw [← mlW_right hs.le]; exact hM s
    · rw [← flip_exp, ← flip_exp, ← mlW_left (show -s < 0 by linarith)]; exact hM (-s)
  · rintro ⟨⟨M1, h1⟩, ⟨M2, h2⟩⟩
    refine ⟨max (max M1 M2) ‖mlW α β γ 0 0‖, fun s => ?_⟩
    rcases lt_trichotomy s 0 with hs | rfl | hs
    · have := h2 (-s) (by linarith)
      rw [← flip_exp, ← flip_exp, neg_neg, ← mlW_left hs] at this
      exact this.trans ((le_max_right _ _).trans (le_max_left _ _))
    · exact le_max_right _ _
    · have := h1 s hs
      rw [← mlW_right hs.le] at this
      exact this.trans ((le_max_left _ _).trans (le_max_left _ _))

end

/-- **C219** The code "assumes that gam0 and gam1 have negative real components" and never orders the
roots.  The returned displacement dies out far from the load on both sides exactly when the first two roots
listed have negative and the last two have positive real part, and is bounded exactly when these hold
weakly. -/
theorem C219_decay_iff_root_order_partial (α β : ℝ) (γ : Fin 4 → ℂ) (h : IsRoots α β γ)
    (hi : Function.Injective γ) :
    ∃ w : ℝ → ℂ, (∀ slim npts, movingLoad γ slim npts
        = .ok (linspaceN slim.1 slim.2 npts, (linspaceN slim.1 slim.2 npts).map w))
    ∧ ((Tendsto w atTop (𝓝 0) ∧ Tendsto w atBot (𝓝 0))
        ↔ ((γ 0).re < 0 ∧ (γ 1).re < 0) ∧ (0 < (γ 2).re ∧ 0 < (γ 3).re))
    ∧ ((∃ M : ℝ, ∀ s, ‖w s‖ ≤ M)
        ↔ ((γ 0).re ≤ 0 ∧ (γ 1).re ≤ 0) ∧ (0 ≤ (γ 2).re ∧ 0 ≤ (γ 3).re)) :=
  ⟨mlW α β γ 0, movingLoad_ok h hi, and_congr (mlW_top h hi) (mlW_bot h hi), mlW_bdd h hi⟩

end Geotecha.Beam
