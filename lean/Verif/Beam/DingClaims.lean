import Verif.Beam.DingGalerkin

/-!
# Claims C165, C166: equation of motion and power balance
-/
set_option autoImplicit false
set_option linter.unusedVariables false

namespace Geotecha.Beam

open Real

/-- The physical deflection after a run: `L` times the sum of the coefficients at the normalised time
with the simply supported shapes (this is what `wofx` returns, claim C170). -/
noncomputable def Phys.defl (P : Phys) (n : ℕ) (y : ℝ → ℕ → ℝ) (x t : ℝ) : ℝ :=
  Spec.shape P.L n (y (tNorm P.E P.rho P.L t)) x

theorem defl_t (P : Phys) (n : ℕ) (y : ℝ → ℕ → ℝ) (d : ℕ → ℝ) (t x : ℝ)
    (h : ∀ k < n, HasDerivAt (fun s => y s k) (d k) (tNorm P.E P.rho P.L t)) :
    HasDerivAt (fun t => P.defl n y x t) (Spec.shape P.L n (fun k => d k * (√(P.E / P.rho) / P.L)) x) t := by
  unfold Phys.defl Spec.shape
  refine HasDerivAt.const_mul P.L (HasDerivAt.fun_sum fun k hk => HasDerivAt.mul_const ?_ _)
  exact (h k (Finset.mem_range.1 hk)).comp t (tNorm_deriv P.E P.rho P.L t)

/-- **C165.** A simply supported `DingEtAl2012` beam created from physical values, run from the first
requested time on: the deflection (in metres, at raw times) has velocity `V` and acceleration `A`, is
simply supported, starts from rest at the first requested time, and satisfies the Galerkin equations
`∫ (ρA w_tt + μ w_t + k1 w + EI w_xxxx) φᵢ + k3·(quadrature of w³φᵢ) = F φᵢ(v t)` of a beam on a linear plus
cubic foundation under a force moving at speed `v`, for every one of its modes. -/
theorem C165_ding_equation_of_motion (P : Phys) (rt : ℕ → ℝ) {c : Coef} (hc : norm P.args = .ok c) (n : ℕ)
    {m : ℕ} (xj Ij : Fin m → ℝ) {T0 T1 : ℝ} {y : ℝ → ℕ → ℝ}
    (h : Run .ss c (beta .ss rt) n (.rule m xj Ij) T0 T1 y) :
    (∀ t x, tNorm P.E P.rho P.L t = T0 → P.defl n y x t = 0) ∧
    ∃ V A w2 w4 : ℝ → ℝ → ℝ,
      (∀ t x, tNorm P.E P.rho P.L t = T0 → V x t = 0) ∧
      ∀ t, tNorm P.E P.rho P.L t ∈ Set.Ioo T0 T1 →
        (∀ x, HasDerivAt (fun t => P.defl n y x t) (V x t) t) ∧
        (∀ x, HasDerivAt (fun t => V x t) (A x t) t) ∧
        Spec.SimplySupported P.L (fun x => P.defl n y x t) (fun x => w2 x t) (fun x => w4 x t) ∧
        ∀ i < n,
          (∫ x in (0:ℝ)..P.L, (P.rho * P.A * A x t + P.mu * V x t + P.k1 * P.defl n y x t
              + P.E * P.I * w4 x t) * Spec.mode P.L i x)
            + P.k3 * (P.L * ∑ j, Ij j * (P.defl n y (P.L * xj j) t) ^ 3 * Spec.mode P.L i (P.L * xj j)) =
          P.F * Spec.mode P.L i (P.v * t) := by
  set r := √(P.E / P.rho) / P.L with hr
  set T := tNorm P.E P.rho P.L with hT
  refine ⟨fun t x ht => ?_, fun x t => Spec.shape P.L n (fun k => y (T t) (n + k) * r) x,
    fun x t => Spec.shape P.L n (fun k => accR .ss c (beta .ss rt) n xj Ij (y (T t)) (fun k => y (T t) (n + k)) (T t) k * r ^ 2) x,
    fun x t => P.L * ∑ k ∈ Finset.range n, -(y (T t) k * (((k : ℝ) + 1) * π / P.L) ^ 2) * Spec.mode P.L k x,
    fun x t => P.L * ∑ k ∈ Finset.range n, y (T t) k * (((k : ℝ) + 1) * π / P.L) ^ 4 * Spec.mode P.L k x,
    fun t x ht => ?_, fun t ht => ⟨fun x => ?_, fun x => ?_, shape_ss P.hL n _, fun i hi => ?_⟩⟩
  · unfold Phys.defl Spec.shape
    rw [← hT, ht, Finset.sum_eq_zero (fun k hk => by rw [h.start k (by have := Finset.mem_range.1 hk; omega), zero_mul]), mul_zero]
  · unfold Spec.shape
    beta_reduce
    rw [ht, Finset.sum_eq_zero (fun k hk => by
      rw [h.start (n + k) (by have := Finset.mem_range.1 hk; omega), zero_mul, zero_mul]), mul_zero]
  · exact defl_t P n y (fun k => y (T t) (n + k)) t x fun k hk => (h.ss ht hk).1
  · unfold Spec.shape
    refine HasDerivAt.const_mul P.L (HasDerivAt.fun_sum fun k hk => HasDerivAt.mul_const ?_ _)
    have := ((h.ss ht (Finset.mem_range.1 hk)).2.comp t (tNorm_deriv P.E P.rho P.L t)).mul_const r
    exact this.congr_deriv (by rw [← hr]; ring)
  · have key := mode_balance P rt hc n xj Ij (y (T t)) (fun k => y (T t) (n + k)) t i
    rw [← hT, ← hr] at key
    rw [← key]
    congr 1
    rw [← int_sum_mode P.hL n (fun i => P.rho * P.A * (P.L * (accR .ss c (beta .ss rt) n xj Ij (y (T t)) (fun k => y (T t) (n + k)) (T t) i * r ^ 2))
      + P.mu * (P.L * (y (T t) (n + i) * r)) + P.k1 * (P.L * y (T t) i)
      + P.E * P.I * (P.L * (y (T t) i * (((i : ℝ) + 1) * π / P.L) ^ 4))) hi]
    refine intervalIntegral.integral_congr fun x _ => ?_
    simp only [Phys.defl, Spec.shape, ← hT, Finset.mul_sum, ← Finset.sum_add_distrib]
    congr 1
    refine Finset.sum_congr rfl fun k _ => by ring

/-- Energy of the beam and its foundation at time `t`, from the deflection, the velocity and the
curvature: kinetic, bending, linear spring and cubic spring (the last by the quadrature). -/
noncomputable def Spec.energy (P : Phys) {m : ℕ} (xj Ij : Fin m → ℝ) (w V w2 : ℝ → ℝ) : ℝ :=
  (∫ x in (0:ℝ)..P.L, P.rho * P.A / 2 * V x ^ 2) + (∫ x in (0:ℝ)..P.L, P.E * P.I / 2 * w2 x ^ 2)
    + (∫ x in (0:ℝ)..P.L, P.k1 / 2 * w x ^ 2) + P.k3 / 4 * (P.L * ∑ j, Ij j * w (P.L * xj j) ^ 4)

theorem int_shape_sq {L : ℝ} (hL : 0 < L) (n : ℕ) (a : ℕ → ℝ) (s : ℝ) :
    ∫ x in (0:ℝ)..L, s * (L * ∑ k ∈ Finset.range n, a k * Spec.mode L k x) ^ 2 =
      s * L ^ 3 / 2 * ∑ k ∈ Finset.range n, a k ^ 2 := by
  have e : ∀ x, s * (L * ∑ k ∈ Finset.range n, a k * Spec.mode L k x) ^ 2 =
      s * L ^ 2 * ((∑ k ∈ Finset.range n, a k * Spec.mode L k x) * ∑ k ∈ Finset.range n, a k * Spec.mode L k x) := fun x => by ring
  simp_rw [e]
  rw [intervalIntegral.integral_const_mul, int_sum_modes hL]
  simp_rw [pow_two]
  ring

/-- **C166.** In the same run the energy of beam and foundation changes at the rate *power of the moving
force minus dissipation in the dashpots*: `dH/dt = F·w_t(v t, t) − ∫ μ w_t²`, exactly, also with the
cubic term evaluated by the quadrature rule, whatever the rule. -/
theorem C166_ding_power_balance (P : Phys) (rt : ℕ → ℝ) {c : Coef} (hc : norm P.args = .ok c) (n : ℕ)
    {m : ℕ} (xj Ij : Fin m → ℝ) {T0 T1 : ℝ} {y : ℝ → ℕ → ℝ}
    (h : Run .ss c (beta .ss rt) n (.rule m xj Ij) T0 T1 y) :
    ∃ V w2 : ℝ → ℝ → ℝ,
      ∀ t, tNorm P.E P.rho P.L t ∈ Set.Ioo T0 T1 →
        (∀ x, HasDerivAt (fun t => P.defl n y x t) (V x t) t) ∧
        (∃ w4, Spec.SimplySupported P.L (fun x => P.defl n y x t) (fun x => w2 x t) w4) ∧
        HasDerivAt (fun t => Spec.energy P xj Ij (fun x => P.defl n y x t) (fun x => V x t) (fun x => w2 x t))
          (P.F * V (P.v * t) t - ∫ x in (0:ℝ)..P.L, P.mu * V x t ^ 2) t := by
  set r := √(P.E / P.rho) / P.L with hr
  set T := tNorm P.E P.rho P.L with hT
  refine ⟨fun x t => P.L * ∑ k ∈ Finset.range n, (y (T t) (n + k) * r) * Spec.mode P.L k x,
    fun x t => P.L * ∑ k ∈ Finset.range n, -(y (T t) k * (((k : ℝ) + 1) * π / P.L) ^ 2) * Spec.mode P.L k x,
    fun t ht => ⟨fun x => ?_, ⟨_, shape_ss P.hL n _⟩, ?_⟩⟩
  · exact defl_t P n y (fun k => y (T t) (n + k)) t x fun k hk => (h.ss ht hk).1
  · have dT := tNorm_deriv P.E P.rho P.L t
    rw [← hT, ← hr] at dT
    set a := fun k => accR .ss c (beta .ss rt) n xj Ij (y (T t)) (fun k => y (T t) (n + k)) (T t) k with ha
    have dq : ∀ k ∈ Finset.range n, HasDerivAt (fun t => y (T t) k) (y (T t) (n + k) * r) t := fun k hk =>
      (h.ss ht (Finset.mem_range.1 hk)).1.comp t dT
    have dv : ∀ k ∈ Finset.range n, HasDerivAt (fun t => y (T t) (n + k)) (a k * r) t := fun k hk =>
      (h.ss ht (Finset.mem_range.1 hk)).2.comp t dT
    have dw : ∀ x, HasDerivAt (fun t => P.defl n y x t)
        (P.L * ∑ k ∈ Finset.range n, (y (T t) (n + k) * r) * Spec.mode P.L k x) t := fun x =>
      defl_t P n y (fun k => y (T t) (n + k)) t x fun k hk => (h.ss ht hk).1
    have e : ∀ s, Spec.energy P xj Ij (fun x => P.defl n y x s)
        (fun x => P.L * ∑ k ∈ Finset.range n, (y (T s) (n + k) * r) * Spec.mode P.L k x)
        (fun x => P.L * ∑ k ∈ Finset.range n, -(y (T s) k * (((k : ℝ) + 1) * π / P.L) ^ 2) * Spec.mode P.L k x) =
        P.rho * P.A / 2 * P.L ^ 3 / 2 * (∑ k ∈ Finset.range n, (y (T s) (n + k) * r) ^ 2)
        + P.E * P.I / 2 * P.L ^ 3 / 2 * (∑ k ∈ Finset.range n, (-(y (T s) k * (((k : ℝ) + 1) * π / P.L) ^ 2)) ^ 2)
        + P.k1 / 2 * P.L ^ 3 / 2 * (∑ k ∈ Finset.range n, y (T s) k ^ 2)
        + P.k3 / 4 * (P.L * ∑ j, Ij j * P.defl n y (P.L * xj j) s ^ 4) := fun s => by
      unfold Spec.energy Phys.defl Spec.shape
      rw [int_shape_sq P.hL, int_shape_sq P.hL, int_shape_sq P.hL]
    simp_rw [e]
    have D := (((HasDerivAt.const_mul (P.rho * P.A / 2 * P.L ^ 3 / 2) (HasDerivAt.fun_sum fun k hk => ((dv k hk).mul_const r).fun_pow 2)).fun_add
      (HasDerivAt.const_mul (P.E * P.I / 2 * P.L ^ 3 / 2) (HasDerivAt.fun_sum fun k hk =>
        ((dq k hk).mul_const ((((k : ℝ) + 1) * π / P.L) ^ 2)).fun_neg.fun_pow 2))).fun_add
      (HasDerivAt.const_mul (P.k1 / 2 * P.L ^ 3 / 2) (HasDerivAt.fun_sum fun k hk => (dq k hk).fun_pow 2))).fun_add
      (HasDerivAt.const_mul (P.k3 / 4) (HasDerivAt.const_mul P.L (HasDerivAt.fun_sum (u := Finset.univ) fun (j : Fin m) _ =>
        ((dw (P.L * xj j)).fun_pow 4).const_mul (Ij j))))
    refine D.congr_deriv ?_
    rw [int_shape_sq P.hL]
    -- the balance of every mode, weighted with its velocity
    have key : ∀ k ∈ Finset.range n, _ := fun k _ => congrArg (· * (P.L * (y (T t) (n + k) * r)))
      (mode_balance P rt hc n xj Ij (y (T t)) (fun k => y (T t) (n + k)) t k)
    have sum := Finset.sum_congr rfl key
    simp only [← hT, ← hr] at sum
    have hF : ∑ k ∈ Finset.range n, P.F * Spec.mode P.L k (P.v * t) * (P.L * (y (T t) (n + k) * r)) =
        P.F * (P.L * ∑ k ∈ Finset.range n, y (T t) (n + k) * r * Spec.mode P.L k (P.v * t)) := by
      simp only [Finset.mul_sum]; refine Finset.sum_congr rfl fun k _ => by ring
    rw [hF] at sum
    rw [← sum]
    have hK : ∑ j, Ij j * (((4 : ℕ) : ℝ) * P.defl n y (P.L * xj j) t ^ (4 - 1) *
        (P.L * ∑ k ∈ Finset.range n, y (T t) (n + k) * r * Spec.mode P.L k (P.L * xj j))) =
        4 * ∑ k ∈ Finset.range n, (∑ j, Ij j * Spec.shape P.L n (y (T t)) (P.L * xj j) ^ 3 * Spec.mode P.L k (P.L * xj j))
          * (P.L * (y (T t) (n + k) * r)) := by
      simp only [Finset.mul_sum, Finset.sum_mul, Phys.defl, ← hT]
      rw [Finset.sum_comm]
      refine Finset.sum_congr rfl fun k _ => Finset.sum_congr rfl fun j _ => by push_cast; ring
    rw [hK]
    simp only [Finset.mul_sum, ← Finset.sum_add_distrib, ← Finset.sum_sub_distrib]
    refine Finset.sum_congr rfl fun k _ => ?_
    rw [show accR .ss c (beta .ss rt) n xj Ij (y (T t)) (fun k => y (T t) (n + k)) (T t) k = a k from rfl]
    simp only [← Finset.mul_sum]
    push_cast
    have hL := P.hL.ne'
    ring
/-! ## Normalised arguments -/

/-- **C165, normalised arguments.**  A normalised value passed to the constructor is used as it is, even beside physical values. -/
theorem C165_normalised_kept (a : Args) (c : Coef) (h : norm a = .ok c) :
    (∀ x, a.kf = some x → c.kf = x) ∧ (∀ x, a.vN = some x → c.v = x) ∧ (∀ x, a.FzN = some x → c.F = x) ∧
      (∀ x, a.muN = some x → c.mu = x) ∧ (∀ x, a.k1N = some x → c.k1 = x) ∧ ∀ x, a.k3N = some x → c.k3 = x := by
  have key : ∀ (o : Option ℝ) (e : Except PyErr ℝ) (v : ℝ), orElse o e = .ok v → ∀ x, o = some x → v = x := by
    intro o e v hv x hx
    subst hx
    exact (Except.ok.inj hv).symm
  have step : ∀ {β : Type} {m : Except PyErr ℝ} {f : ℝ → Except PyErr β} {r : β}, (m >>= f) = .ok r → ∃ v, m = .ok v ∧ f v = .ok r := by
    intro β m f r hm
    cases m with
    | error e => cases hm
    | ok v => exact ⟨v, rfl, hm⟩
  unfold norm at h
  obtain ⟨kf, e1, h⟩ := step h
  obtain ⟨v, e2, h⟩ := step h
  obtain ⟨f, e3, h⟩ := step h
  obtain ⟨mu, e4, h⟩ := step h
  obtain ⟨k1, e5, h⟩ := step h
  obtain ⟨k3, e6, h⟩ := step h
  cases h
  exact ⟨key _ _ _ e1, key _ _ _ e2, key _ _ _ e3, key _ _ _ e4, key _ _ _ e5, key _ _ _ e6⟩

/-- **C165, normalised arguments.**  With all six normalised values no physical value is needed. -/
theorem C165_normalised_only (a : Args) (c : Coef) (h : a.kf = some c.kf ∧ a.vN = some c.v ∧ a.FzN = some c.F ∧ a.muN = some c.mu ∧
    a.k1N = some c.k1 ∧ a.k3N = some c.k3) : norm a = .ok c := by
  obtain ⟨h1, h2, h3, h4, h5, h6⟩ := h
  unfold norm
  rw [h1, h2, h3, h4, h5, h6]
  rfl

/-- A damping ratio given in normalised form beside a physical one. -/
example : ∃ c, norm ⟨none, none, none, none, none, none, none, some 7, none, none, some 1, some 2, some 3, some 4, some 5, some 6⟩ = .ok c ∧ c.mu = 4 :=
  ⟨⟨2, 1, 3, 4, 5, 6⟩, C165_normalised_only _ _ ⟨rfl, rfl, rfl, rfl, rfl, rfl⟩, rfl⟩

end Geotecha.Beam
