import Verif.Transform.ModelTalbot
import Verif.Transform.SpecTalbot
import Mathlib.Analysis.SpecialFunctions.Trigonometric.Deriv
import Mathlib.Analysis.Calculus.Deriv.Inv
import Mathlib.Analysis.Calculus.Deriv.Mul
import Mathlib.Analysis.Calculus.Deriv.Add
import Mathlib.Analysis.Complex.RealDeriv
import Mathlib.Tactic.FieldSimp
import Mathlib.Tactic.Ring
import Mathlib.Tactic.Linarith

/-!
# C122, C123: the numerical inverse Laplace transform
-/

set_option linter.unusedVariables false
open Real
namespace Geotecha.Transform
open Geotecha (PyErr)
namespace Talbot

theorem N_even (o : Talbot) : o.N % 2 = 0 := by unfold N; omega

theorem theta_eq (o : Talbot) (h0 : o.N ≠ 0) (i : ℕ) : o.theta i = Spec.midpoint o.N i := by
  have : (o.N : ℝ) ≠ 0 := by exact_mod_cast h0
  unfold theta Spec.midpoint h
  field_simp

theorem mid_form (N i : ℕ) (h0 : N ≠ 0) : Spec.midpoint N i = π * ((2 * i + 1 - N) / N) := by
  have : (N : ℝ) ≠ 0 := by exact_mod_cast h0
  unfold Spec.midpoint
  field_simp
  ring

theorem mid_ne (N i : ℕ) (h0 : N ≠ 0) (he : N % 2 = 0) : Spec.midpoint N i ≠ 0 := by
  have hN : (N : ℝ) ≠ 0 := by exact_mod_cast h0
  rw [mid_form N i h0]
  apply mul_ne_zero pi_ne_zero
  apply div_ne_zero _ hN
  intro h
  have : ((2 * i + 1 : ℕ) : ℝ) = (N : ℕ) := by push_cast; linarith
  have := Nat.cast_injective this
  omega

theorem mid_lt (N i : ℕ) (hi : i < N) : |Spec.midpoint N i| < π := by
  have h0 : N ≠ 0 := by omega
  have hN : (0 : ℝ) < N := by exact_mod_cast Nat.pos_of_ne_zero h0
  rw [mid_form N i h0, abs_mul, abs_of_pos pi_pos]
  have hi' : (i : ℝ) + 1 ≤ N := by exact_mod_cast hi
  have hi0 : (0 : ℝ) ≤ i := by positivity
  have : |((2 * i + 1 - N) / N : ℝ)| < 1 := by
    rw [abs_lt]
    constructor
    · rw [lt_div_iff₀ hN]; linarith
    · rw [div_lt_iff₀ hN]; linarith
  nlinarith [pi_pos]

theorem sin_ne (th : ℝ) (h0 : th ≠ 0) (h1 : |th| < π) : sin (0.6407 * th) ≠ 0 := by
  rcases lt_or_gt_of_ne h0 with h | h
  · rw [abs_of_neg h] at h1
    exact (sin_neg_of_neg_of_neg_pi_lt (by linarith) (by linarith)).ne
  · rw [abs_of_pos h] at h1
    exact (sin_pos_of_pos_of_lt_pi (by linarith) (by linarith)).ne'

theorem cot_eq (x : ℝ) : cot x = cos x / sin x := by
  unfold cot
  rw [tan_eq_sin_div_cos, one_div_div]

theorem z_eq (o : Talbot) (t th : ℝ) : o.z t th = Spec.contour o.N o.shift t th := by
  unfold z Spec.contour
  rw [cot_eq]
  push_cast
  rfl

theorem contour_hasDeriv (N : ℕ) (s t th : ℝ) (hs : sin (0.6407 * th) ≠ 0) :
    HasDerivAt (Spec.contour N s t)
      (N / t * (-0.5017 * 0.6407 * th * (csc (0.6407 * th)) ^ 2 + 0.5017 * cot (0.6407 * th) + 0.2645 * Complex.I)) th := by
  have hl : HasDerivAt (fun x : ℝ => 0.6407 * x) 0.6407 th := by
    simpa using (hasDerivAt_id th).const_mul (0.6407 : ℝ)
  have hq := (hl.cos).div (hl.sin) hs
  have hr : HasDerivAt (fun x : ℝ => 0.5017 * x * (cos (0.6407 * x) / sin (0.6407 * x)))
      (-0.5017 * 0.6407 * th * (csc (0.6407 * th)) ^ 2 + 0.5017 * cot (0.6407 * th)) th := by
    have h5 : HasDerivAt (fun x : ℝ => 0.5017 * x) 0.5017 th := by
      simpa using (hasDerivAt_id th).const_mul (0.5017 : ℝ)
    refine (h5.mul hq).congr_deriv ?_
    rw [cot_eq]
    unfold csc
    have hsq := sin_sq_add_cos_sq (0.6407 * th)
    simp only [Pi.div_apply]
    generalize sin (0.6407 * th) = S at *
    generalize cos (0.6407 * th) = C at *
    field_simp
    have hC : C ^ 2 = 1 - S ^ 2 := by linarith
    ring_nf
    rw [hC]
    ring
  have hi : HasDerivAt (fun x : ℝ => (0.2645 : ℂ) * Complex.I * (x : ℂ)) (0.2645 * Complex.I) th := by
    simpa using ((hasDerivAt_id th).ofReal_comp).const_mul ((0.2645 : ℂ) * Complex.I)
  have hc := (((hr.ofReal_comp.sub_const (0.6122 : ℂ)).add hi).const_mul ((N : ℂ) / t)).const_add (s : ℂ)
  have he : Spec.contour N s t = fun x : ℝ => (s : ℂ) + (N : ℂ) / t * ((((0.5017 * x * (cos (0.6407 * x) / sin (0.6407 * x)) : ℝ) : ℂ) - 0.6122) + 0.2645 * Complex.I * (x : ℂ)) := by
    funext x
    unfold Spec.contour
    push_cast
    rfl
  rw [he]
  refine hc.congr_deriv ?_
  push_cast
  ring

theorem dz_eq (o : Talbot) (t : ℝ) (i : ℕ) (hi : i < o.N) :
    o.dz t (o.theta i) = deriv (Spec.contour o.N o.shift t) (Spec.midpoint o.N i) := by
  have h0 : o.N ≠ 0 := by omega
  rw [theta_eq o h0]
  rw [(contour_hasDeriv o.N o.shift t _ (sin_ne _ (mid_ne _ i h0 o.N_even) (mid_lt _ i hi))).deriv]
  rfl

theorem sum_eq (o : Talbot) (t : ℝ) (h0 : o.N ≠ 0) : o.sum t = Spec.rule o.N o.shift o.f t := by
  unfold sum Spec.rule
  rw [mul_comm, Finset.mul_sum, Finset.mul_sum]
  refine Finset.sum_congr rfl fun i hi => ?_
  have hi' := Finset.mem_range.1 hi
  have ht : o.term t i = Complex.exp (o.z t (o.theta i) * t) * o.f (o.z t (o.theta i)) * o.dz t (o.theta i) := by
    unfold term
    dsimp only
    split_ifs
    · rfl
    · ring
  rw [ht, dz_eq o t i hi', z_eq, theta_eq o h0]
  unfold h
  push_cast
  ring

/-- What the user is told about the shape of the answer. -/
theorem C122_value (o : Talbot) (hn : o.n ≠ 0) (ts : List ℝ) (h : (0 : ℝ) ∉ ts) :
    ∃ N : ℕ, N % 2 = 0 ∧ o.n ≤ N ∧ N ≤ o.n + 1 ∧
      (∀ t, ts = [t] → o.call ts = .ok (.scalar (Spec.rule N o.shift o.f t).re)) ∧
      (ts.length ≠ 1 → o.call ts = .ok (.array (ts.map fun t => (Spec.rule N o.shift o.f t).re))) := by
  have h0 : o.N ≠ 0 := by unfold N; omega
  refine ⟨o.N, o.N_even, by unfold N; omega, by unfold N; omega, ?_, ?_⟩
  · rintro t rfl
    unfold call
    rw [if_neg h, if_neg h0]
    simp [sum_eq o _ h0]
  · intro hl
    unfold call
    rw [if_neg h, if_neg h0]
    have : (fun t => (o.sum t).re) = fun t => (Spec.rule o.N o.shift o.f t).re := by
      funext t; rw [sum_eq o t h0]
    rw [this]
    match ts, hl with
    | [], _ => rfl
    | [a], hl => exact absurd rfl hl
    | a :: b :: r, _ => rfl

/-- Nothing can go wrong on the contour: no node of the rule is the pole `theta = 0` of the cotangent or a further one. -/
theorem C122_nodes (N i : ℕ) (he : N % 2 = 0) (hi : i < N) :
    Spec.midpoint N i ≠ 0 ∧ |Spec.midpoint N i| < π ∧ sin (0.6407 * Spec.midpoint N i) ≠ 0 :=
  ⟨mid_ne N i (by omega) he, mid_lt N i hi, sin_ne _ (mid_ne N i (by omega) he) (mid_lt N i hi)⟩

theorem C122_zero_time (o : Talbot) (ts : List ℝ) (hn : o.n ≠ 0) :
    (o.call ts = .error .valueError ↔ (0 : ℝ) ∈ ts) ∧ (o.mpCall ts = .error .valueError ↔ (0 : ℝ) ∈ ts) := by
  have h0 : o.N ≠ 0 := by unfold N; omega
  constructor
  · unfold call
    by_cases h : (0 : ℝ) ∈ ts
    · simp [h]
    · rw [if_neg h, if_neg h0]
      simp only [h, iff_false]
      split <;> simp
  · unfold mpCall
    by_cases h : (0 : ℝ) ∈ ts
    · simp [h]
    · rw [if_neg h, if_neg h0]
      simp only [h, iff_false]
      split <;> simp

theorem C122_n_zero (o : Talbot) (ts : List ℝ) (hn : o.n = 0) (h : (0 : ℝ) ∉ ts) :
    o.call ts = .error .zeroDivision ∧ o.mpCall ts = .error .zeroDivision := by
  have h0 : o.N = 0 := by unfold N; omega
  unfold call mpCall
  simp [h, h0]

/-- The two classes, and the loops and the arrays, agree. -/
theorem C122_same (o : Talbot) (ts : List ℝ) :
    o.mpCall ts = o.call ts ∧ ({ o with vectorized := true } : Talbot).call ts = ({ o with vectorized := false } : Talbot).call ts := by
  constructor
  · unfold mpCall call
    have : (fun t : ℝ => ((∑ i ∈ Finset.range o.N, Complex.exp (o.mpZ t (o.theta i) * t) * o.f (o.mpZ t (o.theta i)) * o.mpDz t (o.theta i)) *
        (o.h / (2 * Complex.I * π))).re) = fun t => (o.sum t).re := by
      funext t
      unfold sum
      congr 2
      refine Finset.sum_congr rfl fun i _ => ?_
      have hz : o.mpZ t (o.theta i) = o.z t (o.theta i) := by
        unfold mpZ z cot
        push_cast
        ring
      have hd : o.mpDz t (o.theta i) = o.dz t (o.theta i) := by
        unfold mpDz dz cot csc
        push_cast
        ring
      rw [hz, hd]
      unfold term
      dsimp only
      split_ifs
      · rfl
      · ring
    rw [this]
  · have hs : (fun t : ℝ => (({ o with vectorized := true } : Talbot).sum t).re) = fun t => (({ o with vectorized := false } : Talbot).sum t).re := by
      funext t
      unfold sum
      congr 2
      refine Finset.sum_congr rfl fun i _ => ?_
      unfold term
      dsimp only
      simp only [if_true, Bool.false_eq_true, if_false]
      show _ * _ * _ = _ * _ * _
      rw [mul_right_comm]
      rfl
    unfold call
    rw [hs]
    rfl

/-! ## C123 -/

theorem rule_linear (N : ℕ) (s : ℝ) (f g : ℂ → ℂ) (a b t : ℝ) :
    (Spec.rule N s (fun p => a * f p + b * g p) t).re = a * (Spec.rule N s f t).re + b * (Spec.rule N s g t).re := by
  have : Spec.rule N s (fun p => a * f p + b * g p) t = a * Spec.rule N s f t + b * Spec.rule N s g t := by
    unfold Spec.rule
    simp only [Finset.mul_sum]
    rw [← Finset.sum_add_distrib]
    refine Finset.sum_congr rfl fun i _ => ?_
    ring
  rw [this]
  simp

theorem contour_shift (N : ℕ) (s t th : ℝ) : Spec.contour N s t th = s + Spec.contour N 0 t th := by
  unfold Spec.contour; simp

theorem deriv_shift (N : ℕ) (s t : ℝ) : deriv (Spec.contour N s t) = deriv (Spec.contour N 0 t) := by
  have : Spec.contour N s t = fun th => (s : ℂ) + Spec.contour N 0 t th := by
    funext th; exact contour_shift N s t th
  rw [this]
  funext th
  exact deriv_const_add (f := Spec.contour N 0 t) (s : ℂ)

/-- Moving the contour by `s` and the transform with it multiplies the answer by `e^{st}`. -/
theorem rule_shift (N : ℕ) (s : ℝ) (f : ℂ → ℂ) (t : ℝ) :
    (Spec.rule N s (fun p => f (p - s)) t).re = exp (s * t) * (Spec.rule N 0 f t).re := by
  have : Spec.rule N s (fun p => f (p - s)) t = (exp (s * t) : ℝ) * Spec.rule N 0 f t := by
    unfold Spec.rule
    simp only [Finset.mul_sum]
    refine Finset.sum_congr rfl fun i _ => ?_
    rw [deriv_shift N s, contour_shift N s, add_sub_cancel_left, add_mul, Complex.exp_add]
    push_cast
    ring
  rw [this, Complex.re_ofReal_mul]

/-- Change of the time scale. -/
theorem rule_scale (N : ℕ) (f : ℂ → ℂ) (c t : ℝ) (hc : c ≠ 0) (ht : t ≠ 0) :
    (Spec.rule N 0 (fun p => f (c * p)) t).re = 1 / c * (Spec.rule N 0 f (t / c)).re := by
  have hcc : (c : ℂ) ≠ 0 := by exact_mod_cast hc
  have htc : (t : ℂ) ≠ 0 := by exact_mod_cast ht
  have hcon : ∀ th, Spec.contour N 0 (t / c) th = c * Spec.contour N 0 t th := by
    intro th
    unfold Spec.contour
    push_cast
    simp only [zero_add]
    generalize (0.5017 * (th : ℂ) * (Complex.cos (0.6407 * (th : ℂ)) / Complex.sin (0.6407 * (th : ℂ))) - 0.6122 + 0.2645 * Complex.I * (th : ℂ)) = A
    field_simp
  have hd : ∀ th, deriv (Spec.contour N 0 (t / c)) th = c * deriv (Spec.contour N 0 t) th := by
    intro th
    have : Spec.contour N 0 (t / c) = fun th => c * Spec.contour N 0 t th := funext hcon
    rw [this]
    exact deriv_const_mul_field (v := Spec.contour N 0 t) (c : ℂ)
  have : Spec.rule N 0 (fun p => f (c * p)) t = ((1 / c : ℝ) : ℂ) * Spec.rule N 0 f (t / c) := by
    unfold Spec.rule
    simp only [Finset.mul_sum]
    refine Finset.sum_congr rfl fun i _ => ?_
    rw [hd, hcon]
    have : (c * Spec.contour N 0 t (Spec.midpoint N i)) * ((t / c : ℝ) : ℂ) = Spec.contour N 0 t (Spec.midpoint N i) * t := by
      push_cast
      field_simp
    rw [this]
    push_cast
    field_simp
  rw [this, Complex.re_ofReal_mul]

/-! The nodes come in conjugate pairs. -/

theorem mid_symm (N i : ℕ) (hi : i < N) : Spec.midpoint N (N - 1 - i) = -Spec.midpoint N i := by
  have h0 : N ≠ 0 := by omega
  rw [mid_form N _ h0, mid_form N _ h0]
  have : ((N - 1 - i : ℕ) : ℝ) = N - 1 - i := by
    rw [Nat.cast_sub (by omega), Nat.cast_sub (by omega)]
    simp
  rw [this]
  ring

theorem contour_conj (N : ℕ) (s t th : ℝ) : Spec.contour N s t (-th) = starRingEnd ℂ (Spec.contour N s t th) := by
  unfold Spec.contour
  have h1 : (0.6407 : ℝ) * -th = -(0.6407 * th) := by ring
  rw [h1, Real.cos_neg, Real.sin_neg]
  generalize Real.cos (0.6407 * th) = C
  generalize Real.sin (0.6407 * th) = S
  have e : ∀ x : ℝ, (s : ℂ) + N / t * (0.5017 * x * ((C : ℂ) / ((S : ℝ) : ℂ)) - 0.6122 + 0.2645 * Complex.I * x) =
      ((s + N / t * (0.5017 * x * (C / S) - 0.6122) : ℝ) : ℂ) + ((N / t * 0.2645 * x : ℝ) : ℂ) * Complex.I := by
    intro x; push_cast; ring
  rw [e th, map_add, map_mul, Complex.conj_ofReal, Complex.conj_ofReal, Complex.conj_I]
  push_cast
  ring

theorem deriv_conj (N : ℕ) (s t th : ℝ) (hs : sin (0.6407 * th) ≠ 0) :
    deriv (Spec.contour N s t) (-th) = -starRingEnd ℂ (deriv (Spec.contour N s t) th) := by
  have hs' : sin (0.6407 * -th) ≠ 0 := by
    have h1 : (0.6407 : ℝ) * -th = -(0.6407 * th) := by ring
    rw [h1, Real.sin_neg]
    exact neg_ne_zero.2 hs
  rw [(contour_hasDeriv N s t th hs).deriv, (contour_hasDeriv N s t (-th) hs').deriv]
  have h1 : (0.6407 : ℝ) * -th = -(0.6407 * th) := by ring
  rw [cot_eq, cot_eq]
  unfold csc
  rw [h1, Real.cos_neg, Real.sin_neg]
  generalize Real.cos (0.6407 * th) = C
  generalize Real.sin (0.6407 * th) = S
  have e : ∀ x A B : ℝ, (N : ℂ) / t * (-0.5017 * 0.6407 * x * ((A : ℝ) : ℂ) ^ 2 + 0.5017 * ((B : ℝ) : ℂ) + 0.2645 * Complex.I) =
      ((N / t * (-0.5017 * 0.6407 * x * A ^ 2 + 0.5017 * B) : ℝ) : ℂ) + ((N / t * 0.2645 : ℝ) : ℂ) * Complex.I := by
    intro x A B; push_cast; ring
  rw [e, e, map_add, map_mul, Complex.conj_ofReal, Complex.conj_ofReal, Complex.conj_I]
  push_cast
  rw [div_neg, div_neg]
  ring

/-- For the transform of a real function the sum is real: the code throws nothing away when it takes the real part. -/
theorem rule_real (N : ℕ) (he : N % 2 = 0) (s : ℝ) (f : ℂ → ℂ) (hf : ∀ p, f (starRingEnd ℂ p) = starRingEnd ℂ (f p)) (t : ℝ) :
    (Spec.rule N s f t).im = 0 := by
  rw [← Complex.conj_eq_iff_im]
  unfold Spec.rule
  rw [map_mul, map_sum, ← Finset.sum_range_reflect, Finset.mul_sum, Finset.mul_sum]
  refine Finset.sum_congr rfl fun i hi => ?_
  have hi' := Finset.mem_range.1 hi
  have hn := C122_nodes N i he hi'
  rw [mid_symm N i hi', deriv_conj N s t _ hn.2.2, contour_conj, hf]
  simp only [map_mul, map_div₀, map_one, map_neg, Complex.conj_conj, Complex.conj_ofReal, Complex.conj_I, ← Complex.exp_conj, map_ofNat]
  have hpi : (π : ℂ) ≠ 0 := by exact_mod_cast pi_ne_zero
  field_simp

theorem call_one (o : Talbot) (hn : o.n ≠ 0) (t : ℝ) (ht : t ≠ 0) :
    o.call [t] = .ok (.scalar (Spec.rule o.N o.shift o.f t).re) := by
  have h0 : o.N ≠ 0 := by unfold N; omega
  unfold call
  rw [if_neg (by simpa using ht.symm), if_neg h0]
  simp [sum_eq o _ h0]

/-- Linear in the function, for real coefficients. -/
theorem C123_linear (n : ℕ) (hn : n ≠ 0) (s : ℝ) (vec : Bool) (f g : ℂ → ℂ) (a b t : ℝ) (ht : t ≠ 0) :
    ∃ x y : ℝ, (⟨f, n, s, vec⟩ : Talbot).call [t] = .ok (.scalar x) ∧ (⟨g, n, s, vec⟩ : Talbot).call [t] = .ok (.scalar y) ∧
      (⟨fun p => a * f p + b * g p, n, s, vec⟩ : Talbot).call [t] = .ok (.scalar (a * x + b * y)) := by
  refine ⟨_, _, call_one _ hn t ht, call_one _ hn t ht, ?_⟩
  rw [call_one _ hn t ht, rule_linear]
  rfl

/-- Moving the contour by `s` and the transform with it multiplies the answer by `e^{st}`. -/
theorem C123_shift (n : ℕ) (hn : n ≠ 0) (s : ℝ) (vec : Bool) (f : ℂ → ℂ) (t : ℝ) (ht : t ≠ 0) :
    ∃ x : ℝ, (⟨f, n, 0, vec⟩ : Talbot).call [t] = .ok (.scalar x) ∧
      (⟨fun p => f (p - s), n, s, vec⟩ : Talbot).call [t] = .ok (.scalar (exp (s * t) * x)) := by
  refine ⟨_, call_one _ hn t ht, ?_⟩
  rw [call_one _ hn t ht, rule_shift]
  rfl

/-- Change of the time scale. -/
theorem C123_scale (n : ℕ) (hn : n ≠ 0) (vec : Bool) (f : ℂ → ℂ) (c t : ℝ) (hc : c ≠ 0) (ht : t ≠ 0) :
    ∃ x : ℝ, (⟨f, n, 0, vec⟩ : Talbot).call [t / c] = .ok (.scalar x) ∧
      (⟨fun p => f (c * p), n, 0, vec⟩ : Talbot).call [t] = .ok (.scalar (1 / c * x)) := by
  refine ⟨_, call_one _ hn _ (div_ne_zero ht hc), ?_⟩
  rw [call_one _ hn t ht]
  show Except.ok (Out.scalar (Spec.rule _ 0 (fun p => f (c * p)) t).re) = _
  rw [rule_scale _ _ _ _ hc ht]
  rfl

/-- For the transform of a real function the complex sum is real: the code throws nothing away when it takes the real part. -/
theorem C123_real (o : Talbot) (hn : o.n ≠ 0) (hf : ∀ p, o.f (starRingEnd ℂ p) = starRingEnd ℂ (o.f p)) (t : ℝ) :
    (o.sum t).im = 0 := by
  have h0 : o.N ≠ 0 := by unfold N; omega
  rw [sum_eq o t h0]
  exact rule_real _ o.N_even _ _ hf t

/-- Without that symmetry the imaginary part of the inverse is lost: a purely imaginary multiple of a real transform inverts to `0`. -/
theorem C123_imag (n : ℕ) (hn : n ≠ 0) (s : ℝ) (vec : Bool) (f : ℂ → ℂ) (hf : ∀ p, f (starRingEnd ℂ p) = starRingEnd ℂ (f p)) (t : ℝ) (ht : t ≠ 0) :
    (⟨fun p => Complex.I * f p, n, s, vec⟩ : Talbot).call [t] = .ok (.scalar 0) := by
  rw [call_one _ hn t ht]
  have : Spec.rule (Talbot.N ⟨fun p => Complex.I * f p, n, s, vec⟩) s (fun p => Complex.I * f p) t =
      Complex.I * Spec.rule (Talbot.N ⟨fun p => Complex.I * f p, n, s, vec⟩) s f t := by
    unfold Spec.rule
    simp only [Finset.mul_sum]
    refine Finset.sum_congr rfl fun i _ => ?_
    ring
  show Except.ok (Out.scalar (Spec.rule _ s (fun p => Complex.I * f p) t).re) = _
  rw [this]
  have hr := rule_real (Talbot.N ⟨fun p => Complex.I * f p, n, s, vec⟩) (N_even _) s f hf t
  simp [hr]

/-- `1/(s+1)`, the transform of `e^{-t}`: its hypotheses are met. -/
example : (∀ p : ℂ, (fun s : ℂ => 1 / (s + 1)) (starRingEnd ℂ p) = starRingEnd ℂ ((fun s : ℂ => 1 / (s + 1)) p)) ∧
    (24 : ℕ) ≠ 0 ∧ (0 : ℝ) ∉ [(1 : ℝ), 2] := by
  refine ⟨fun p => ?_, by norm_num, by norm_num⟩
  simp

/-- An odd number of points is rounded up. -/
example : (⟨fun s => 1 / s, 7, 0, true⟩ : Talbot).N = 8 := rfl

end Talbot
end Geotecha.Transform
