import Verif.Consol.ZhuYinClaims
import Verif.Roots.Hop
import Mathlib.Analysis.Real.Pi.Bounds
import Mathlib.Analysis.SpecialFunctions.Integrals.Basic
import Mathlib.Analysis.SpecialFunctions.Sqrt

/-! # Concrete cases for C141-C145: constant properties, so that the Bessel functions have order 1/2 -/

set_option linter.unusedVariables false
set_option autoImplicit false
open Real Finset MeasureTheory
namespace Geotecha.Consol
open Geotecha (PyErr)
namespace ZY

/-- `sqrt (2 / (pi x))`. -/
noncomputable def amp (x : ℝ) : ℝ := √(2 / (π * x))

/-- Bessel functions of order -1/2, 1/2 and 3/2. -/
noncomputable def half : BesselFns where
  J := fun mu x => amp x * if mu = 1 / 2 then sin x else if mu = -1 / 2 then cos x else sin x / x - cos x
  Y := fun mu x => amp x * if mu = 1 / 2 then -cos x else if mu = -1 / 2 then sin x else -cos x / x - sin x

theorem amp_pos {x : ℝ} (hx : 0 < x) : 0 < amp x := by unfold amp; have := pi_pos; positivity

theorem amp_sq {x : ℝ} (hx : 0 < x) : amp x ^ 2 = 2 / (π * x) := by unfold amp; have := pi_pos; exact sq_sqrt (by positivity)

theorem amp_deriv {x : ℝ} (hx : 0 < x) : HasDerivAt amp (-(amp x / (2 * x))) x := by
  have hp := pi_pos
  have h1 : HasDerivAt (fun x => 2 / (π * x)) (-(2 / (π * x)) / x) x := by
    have := ((hasDerivAt_inv hx.ne').const_mul (2 / π))
    refine (this.congr_deriv ?_).congr_of_eventuallyEq (Filter.Eventually.of_forall fun y => ?_)
    · field_simp
    · simp only; rw [← div_div, div_eq_mul_inv]
  have h2 : 2 / (π * x) ≠ 0 := by positivity
  refine (h1.sqrt h2).congr_deriv ?_
  have h3 : √(2 / (π * x)) ^ 2 = 2 / (π * x) := amp_sq hx
  have h4 : 0 < √(2 / (π * x)) := amp_pos hx
  unfold amp
  generalize hg : √(2 / (π * x)) = g at *
  rw [← h3]
  field_simp

theorem half_ok : Spec.IsBessel half.J half.Y (1 / 2) := by
  have hp := pi_pos
  have a1 : (1:ℝ) / 2 - 1 = -1 / 2 := by norm_num
  have a2 : ((-1:ℝ) / 2 = 1 / 2) = False := by norm_num
  have a3 : ((1:ℝ) / 2 + 1 = 1 / 2) = False := by norm_num
  have a4 : ((1:ℝ) / 2 + 1 = -1 / 2) = False := by norm_num
  constructor <;> intro x hx <;> simp only [half, a1, a2, a3, a4, if_true, if_false]
  · refine ((amp_deriv hx).mul (hasDerivAt_sin x)).congr_deriv ?_
    field_simp; ring
  · refine ((amp_deriv hx).mul (hasDerivAt_cos x).neg).congr_deriv ?_
    simp only [Pi.neg_apply]
    field_simp; ring
  · field_simp; ring
  · field_simp; ring
  · refine ((amp_deriv hx).mul (((hasDerivAt_sin x).div (hasDerivAt_id x) hx.ne').sub (hasDerivAt_cos x))).congr_deriv ?_
    simp only [Pi.sub_apply, Pi.div_apply, id]
    field_simp; ring
  · refine ((amp_deriv hx).mul ((((hasDerivAt_cos x).neg).div (hasDerivAt_id x) hx.ne').sub (hasDerivAt_sin x))).congr_deriv ?_
    simp only [Pi.sub_apply, Pi.div_apply, Pi.neg_apply, id]
    field_simp; ring
  · have h2 := amp_sq hx
    have h3 := sin_sq_add_cos_sq x
    calc _ = amp x ^ 2 * (sin x ^ 2 + cos x ^ 2) := by field_simp; ring
      _ = _ := by rw [h2, h3, mul_one]

/-- A uniform layer; one mode. -/
noncomputable def uni (alpha : ℝ) (drn : ℤ) : ZY := ⟨[0.5], [0, 1], alpha, 0, 0, drn, none, 1, 1, 0.1, 10, 1, 1⟩

variable {alpha : ℝ} {drn : ℤ}

theorem uni_nu : (uni alpha drn).nu = 1 / 2 := by unfold nu n uni; norm_num
theorem uni_b (ha : 0 < alpha) : (uni alpha drn).b = 1 + alpha := by unfold b n uni; norm_num
theorem uni_valid (ha : 0 < alpha) (hd : drn = 0 ∨ drn = 1) : (uni alpha drn).Valid := by
  constructor <;> simp only [uni] <;> try norm_num
  · linarith
  · exact ha.ne'
  · exact hd

theorem uni_clear : (uni alpha drn).Clear := Or.inl (by norm_num [uni])

theorem half_z {eta y : ℝ} : zmu half eta (1 / 2) (1 / 2) y = -(amp eta * amp (eta * y) * sin (eta * y - eta)) := by
  unfold zmu half
  simp only [if_true]
  rw [sin_sub]; ring

theorem uni_f0 (ha : 0 < alpha) (eta : ℝ) : zmu half eta (uni alpha 0).nu (uni alpha 0).nu (uni alpha 0).b =
    -(amp eta * amp (eta * (1 + alpha)) * sin (eta * alpha)) := by
  rw [uni_nu, uni_b ha, half_z]
  congr 3; ring

theorem amp_neg {x : ℝ} (hx : x ≤ 0) : amp x = 0 := by
  unfold amp
  refine sqrt_eq_zero_of_nonpos (div_nonpos_of_nonneg_of_nonpos (by norm_num) ?_)
  exact mul_nonpos_of_nonneg_of_nonpos pi_pos.le hx

theorem uni_solver (ha : 0 < alpha) : ∃ solve, (uni alpha 0).SolverOk half solve := by
  obtain ⟨solve, hs⟩ := Roots.Spec.exists_solver (f := fun x => -sin (x * alpha)) (by fun_prop)
  refine ⟨solve, fun f hf => ?_⟩
  unfold charEqn at hf
  rw [if_pos (show (uni alpha 0).drn = 0 from rfl)] at hf
  injection hf with hf
  subst hf
  intro x0 x1 g hlt hne hle
  simp only [uni_f0 ha] at hne hle ⊢
  have hx0 : 0 < x0 := by
    by_contra hc
    push Not at hc
    apply hne
    rw [amp_neg hc]; ring
  have hx1 : 0 < x1 := hx0.trans hlt
  have p0 : 0 < amp x0 * amp (x0 * (1 + alpha)) := mul_pos (amp_pos hx0) (amp_pos (by positivity))
  have p1 : 0 < amp x1 * amp (x1 * (1 + alpha)) := mul_pos (amp_pos hx1) (amp_pos (by positivity))
  obtain ⟨r1, r2, r3⟩ := hs x0 x1 g hlt (fun hz => hne (by
      have : sin (x0 * alpha) = 0 := by linarith
      rw [this]; ring)) (by
      by_contra hc
      push Not at hc
      have := mul_pos (mul_pos p0 p1) hc
      nlinarith)
  refine ⟨r1, r2, ?_⟩
  have : sin (solve x0 x1 g * alpha) = 0 := by linarith
  rw [this]; ring

theorem uni_sign (ha : 0 < alpha) {x x' : ℝ} (hx : 0 < x) (hx' : 0 < x') :
    (0 < sin (x * alpha) * sin (x' * alpha) → 0 < -(amp x * amp (x * (1 + alpha)) * sin (x * alpha)) * -(amp x' * amp (x' * (1 + alpha)) * sin (x' * alpha))) ∧
    (sin (x * alpha) * sin (x' * alpha) ≤ 0 → -(amp x * amp (x * (1 + alpha)) * sin (x * alpha)) * -(amp x' * amp (x' * (1 + alpha)) * sin (x' * alpha)) ≤ 0) := by
  have p0 : 0 < amp x * amp (x * (1 + alpha)) := mul_pos (amp_pos hx) (amp_pos (by positivity))
  have p1 : 0 < amp x' * amp (x' * (1 + alpha)) := mul_pos (amp_pos hx') (amp_pos (by positivity))
  have e : -(amp x * amp (x * (1 + alpha)) * sin (x * alpha)) * -(amp x' * amp (x' * (1 + alpha)) * sin (x' * alpha)) =
    (amp x * amp (x * (1 + alpha)) * (amp x' * amp (x' * (1 + alpha)))) * (sin (x * alpha) * sin (x' * alpha)) := by ring
  rw [e]
  exact ⟨fun h => mul_pos (mul_pos p0 p1) h, fun h => mul_nonpos_of_nonneg_of_nonpos (mul_pos p0 p1).le h⟩

theorem sin_mid {x : ℝ} (h0 : π < x) (h1 : x < 2 * π) : sin x < 0 := by
  have := sin_pos_of_pos_of_lt_pi (x := x - π) (by linarith) (by linarith)
  rw [sin_sub_pi] at this
  linarith

theorem uni_char (ha : 0 < alpha) : (uni alpha 0).charEqn half = some fun eta => -(amp eta * amp (eta * (1 + alpha)) * sin (eta * alpha)) := by
  unfold charEqn
  rw [if_pos (show (uni alpha 0).drn = 0 from rfl)]
  congr 1; funext eta; exact uni_f0 ha eta

theorem uni_finish (ha : 0 < alpha) {solve : ℝ → ℝ → ℝ → ℝ} {b : ℝ}
    (hend : Roots.Ends ((uni alpha 0).rootArgs (fun eta => -(amp eta * amp (eta * (1 + alpha)) * sin (eta * alpha))) solve) (.returned [b])) :
    ∃ r, (uni alpha 0).Ends half solve (.ok r) := by
  have hout : ∃ r, (uni alpha 0).output half [b] = .ok r := by
    unfold output
    dsimp only
    rw [if_neg (by norm_num [uni]), if_neg (by
      have := pow_ne (uni_valid (alpha := alpha) (drn := 0) ha (Or.inl rfl))
      unfold frDen
      exact mul_ne_zero (by norm_num [n, uni]) this)]
    exact ⟨_, rfl⟩
  obtain ⟨r, hr⟩ := hout
  refine ⟨r, ?_⟩
  unfold Ends
  rw [if_neg (by norm_num [n, uni]), uni_char ha]
  exact Or.inr ⟨[b], hend, hr.symm⟩

/-- The call ends: `alpha = 570`, both ends drain. -/
theorem uni_ends {solve : ℝ → ℝ → ℝ → ℝ} (hs : (uni 570 0).SolverOk half solve) : ∃ r, (uni 570 0).Ends half solve (.ok r) := by
  have h1 := pi_gt_d2
  have h2 := pi_lt_d2
  have hs' := hs _ (uni_char (by norm_num))
  set f : ℝ → ℝ := fun eta => -(amp eta * amp (eta * (1 + 570)) * sin (eta * 570)) with hfd
  have ps : ∀ x x' : ℝ, 0 < x → 0 < x' → x < 0.0054 → x' < 0.0054 → 0 < f x * f x' := fun x x' g0 g1 g2 g3 =>
    (uni_sign (by norm_num) g0 g1).1 (mul_pos (sin_pos_of_pos_of_lt_pi (by positivity) (by linarith)) (sin_pos_of_pos_of_lt_pi (by positivity) (by linarith)))
  obtain ⟨k, b, hk⟩ := Roots.hop5 (a := (uni 570 0).rootArgs f solve) (x00 := 0.001) (x := 0.001) (d := 0.001) rfl rfl rfl rfl hs' (by norm_num) (by norm_num)
    (ps _ _ (by norm_num) (by norm_num) (by norm_num) (by norm_num)) (ps _ _ (by norm_num) (by norm_num) (by norm_num) (by norm_num))
    (ps _ _ (by norm_num) (by norm_num) (by norm_num) (by norm_num)) (ps _ _ (by norm_num) (by norm_num) (by norm_num) (by norm_num))
    ((uni_sign (by norm_num) (by norm_num) (by norm_num)).2 (mul_nonpos_of_nonneg_of_nonpos
      (sin_pos_of_pos_of_lt_pi (by norm_num) (by norm_num; linarith)).le (sin_mid (by norm_num; linarith) (by norm_num; linarith)).le))
  exact uni_finish (by norm_num) ⟨k, hk⟩

/-- The call ends: `alpha = 3300`, both ends drain. -/
theorem uni_ends2 {solve : ℝ → ℝ → ℝ → ℝ} (hs : (uni 3300 0).SolverOk half solve) : ∃ r, (uni 3300 0).Ends half solve (.ok r) := by
  have h1 := pi_gt_d2
  have h2 := pi_lt_d2
  have hs' := hs _ (uni_char (by norm_num))
  set f : ℝ → ℝ := fun eta => -(amp eta * amp (eta * (1 + 3300)) * sin (eta * 3300)) with hfd
  have ps : ∀ x x' : ℝ, 0.00099 < x → 0.00099 < x' → x < 0.00182 → x' < 0.00182 → 0 < f x * f x' := fun x x' g0 g1 g2 g3 =>
    (uni_sign (by norm_num) (by linarith) (by linarith)).1 (mul_pos_of_neg_of_neg (sin_mid (by linarith) (by linarith)) (sin_mid (by linarith) (by linarith)))
  have ph : ∀ x : ℝ, 0.00192 < x → x < 0.0025 → 0 < sin (x * 3300) := fun x g0 g1 => by
    have := sin_pos_of_pos_of_lt_pi (x := x * 3300 - 2 * π) (by linarith) (by linarith)
    rwa [sin_sub_two_pi] at this
  have hb := Roots.hop_back (a := (uni 3300 0).rootArgs f solve) (x00 := 0.001) (x := 0.001) (d := 0.001) rfl rfl (j := 0) (by norm_num)
    ((uni_sign (by norm_num) (by norm_num) (by norm_num)).2 (mul_nonpos_of_nonpos_of_nonneg (sin_mid (by norm_num; linarith) (by norm_num; linarith)).le
      (ph _ (by norm_num) (by norm_num)).le))
  obtain ⟨k, b, hk⟩ := Roots.hop5 (a := (uni 3300 0).rootArgs f solve) (x00 := 0.001) (x := 0.001) (d := 0.001 * 0.2) rfl rfl rfl rfl hs' (by norm_num) (by norm_num)
    (ps _ _ (by norm_num) (by norm_num) (by norm_num) (by norm_num)) (ps _ _ (by norm_num) (by norm_num) (by norm_num) (by norm_num))
    (ps _ _ (by norm_num) (by norm_num) (by norm_num) (by norm_num)) (ps _ _ (by norm_num) (by norm_num) (by norm_num) (by norm_num))
    ((uni_sign (by norm_num) (by norm_num) (by norm_num)).2 (mul_nonpos_of_nonpos_of_nonneg
      (sin_mid (by norm_num; linarith) (by norm_num; linarith)).le (ph _ (by norm_num) (by norm_num)).le))
  refine uni_finish (by norm_num) (b := b) ⟨k + 1, ?_⟩
  unfold Roots.run
  show (match Roots.step ((uni 3300 0).rootArgs f solve) (Roots.hopSt ((uni 3300 0).rootArgs f solve) 0.001 0.001 0.001 0) with
    | .inl s' => Roots.run ((uni 3300 0).rootArgs f solve) k s'
    | .inr o => .inr o) = _
  rw [hb]
  exact hk

/-- The hypotheses of C141-C143 hold together for a uniform layer. -/
theorem uni_case : ∃ (o : ZY) (B : BesselFns) (solve : ℝ → ℝ → ℝ → ℝ) (r : Output), o.Valid ∧ Spec.IsBessel B.J B.Y o.nu ∧ o.SolverOk B solve ∧
    (o.drn = 0 → o.Clear) ∧ o.nterms = 1 ∧ o.Ends B solve (.ok r) := by
  obtain ⟨solve, hs⟩ := uni_solver (alpha := 570) (by norm_num)
  obtain ⟨r, hr⟩ := uni_ends hs
  exact ⟨uni 570 0, half, solve, r, uni_valid (by norm_num) (Or.inl rfl), by rw [uni_nu]; exact half_ok, hs, fun _ => uni_clear, rfl, hr⟩

/-- The slowest mode of a uniform layer. -/
theorem slow_mode : (uni alpha 0).soil.Mode (π ^ 2) (fun z => sin (π * z)) (fun z => π * cos (π * z)) := by
  have hl : ∀ z, HasDerivAt (fun z => π * z) π z := fun z => by simpa using (hasDerivAt_id z).const_mul π
  refine ⟨fun z _ _ => ?_, fun z _ _ => ?_, ?_, ?_, ?_⟩
  · exact ((hl z).sin).congr_deriv (by ring)
  · have : ∀ z, (uni alpha 0).soil.kv z / (uni alpha 0).soil.gamw * (π * cos (π * z)) = π / 10 * cos (π * z) := fun z => by
      simp [soil, uni]; ring
    simp only [this]
    have hm : (uni alpha 0).soil.mv z = 0.1 := by simp [soil, uni]
    rw [hm]
    refine (((hl z).cos).const_mul (π / 10)).congr_deriv ?_
    norm_num; ring
  · simp
  · intro _; simp [soil, uni]
  · intro hd; exact absurd rfl hd

theorem uni_total (f : ℝ → ℝ) : (uni alpha 0).soil.total f = 0.1 * ∫ z in (0:ℝ)..1, f z := by
  unfold Spec.Vary.total
  rw [← intervalIntegral.integral_const_mul]
  simp [soil, uni]

/-- **C144**, the consequence: for a uniform layer that drains at both ends, `alpha = 3300`, the first degree of consolidation (time 0) is above
0.8: the slowest mode is missed. -/
theorem C144_negation : ∃ (o : ZY) (B : BesselFns) (solve : ℝ → ℝ → ℝ → ℝ) (r : Output), o.Valid ∧ Spec.IsBessel B.J B.Y o.nu ∧ o.SolverOk B solve ∧
    o.p = 0 ∧ o.q = 0 ∧ o.t = [0, 1] ∧ o.Ends B solve (.ok r) ∧ ∀ u ∈ r.doc, 0.8 ≤ u := by
  obtain ⟨solve, hs⟩ := uni_solver (alpha := 3300) (by norm_num)
  obtain ⟨r, hr⟩ := uni_ends2 hs
  have hB : Spec.IsBessel half.J half.Y (uni 3300 0).nu := by rw [uni_nu]; exact half_ok
  have hv : (uni 3300 0).Valid := uni_valid (by norm_num) (Or.inl rfl)
  refine ⟨uni 3300 0, half, solve, r, hv, hB, hs, rfl, rfl, rfl, hr, ?_⟩
  have h1 := pi_gt_d2
  have h2 := pi_lt_d2
  have hp := pi_pos
  have t1 : (uni 3300 0).soil.total (fun _ => 1) = 0.1 := by rw [uni_total]; simp
  have tY : (uni 3300 0).soil.total (fun z => sin (π * z)) = 0.1 * (2 / π) := by
    rw [uni_total, intervalIntegral.integral_comp_mul_left (fun x => sin x) hp.ne', integral_sin]
    simp; left; ring
  have tY2 : (uni 3300 0).soil.total (fun z => sin (π * z) ^ 2) = 0.1 * (1 / 2) := by
    rw [uni_total, intervalIntegral.integral_comp_mul_left (fun x => sin x ^ 2) hp.ne', integral_sin_sq]
    simp; field_simp; exact Or.inl trivial
  obtain ⟨U, hU, hge⟩ := C144_missed (uni 3300 0) hv half hB solve hs (fun _ => uni_clear) r hr (π ^ 2) _ _ slow_mode (by rw [tY2]; norm_num) (by
    norm_num [uni]; nlinarith)
  rw [t1, tY, tY2] at hge
  have e : (0.1 * (2 / π)) ^ 2 / (0.1 * (1 / 2)) / 0.1 = 8 / π ^ 2 := by field_simp; norm_num
  rw [e] at hge
  have hl : 0.8 ≤ 8 / π ^ 2 := by rw [le_div_iff₀ (by positivity)]; nlinarith
  intro u hu
  rw [hU] at hu
  obtain ⟨t, ht, rfl⟩ := List.mem_map.1 hu
  refine hl.trans (hge t ?_)
  have : t ∈ [(0:ℝ), 1] := ht
  simp only [List.mem_cons, List.not_mem_nil, or_false] at this
  rcases this with rfl | rfl <;> norm_num

example : ∃ (o : ZY) (B : BesselFns) (solve : ℝ → ℝ → ℝ → ℝ) (r : Except PyErr Output), o.q = -1 ∧ o.p - o.q = 2 ∧ o.Ends B solve r :=
  ⟨{ uni 570 0 with p := 1, q := -1 }, half, fun _ _ _ => 0, .error .zeroDivision, rfl, by norm_num, by
    unfold Ends; rw [if_pos (by norm_num [n])]⟩

end ZY
end Geotecha.Consol
