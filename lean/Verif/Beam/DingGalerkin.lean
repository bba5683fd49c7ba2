import Verif.Beam.DingSpec

/-!
# Galerkin equations and power balance of `DingEtAl2012`
-/
set_option autoImplicit false
set_option linter.unusedVariables false

namespace Geotecha.Beam

open Real

theorem norm_phys (P : Phys) : norm P.args =
    .ok ⟨1 / P.L * √(P.I / P.A), P.v * √(P.rho / P.E), P.F / (P.E * P.A),
      P.mu / P.A * √(P.L ^ 2 / (P.rho * P.E)), P.k1 * P.L ^ 2 / (P.E * P.A),
      P.k3 * P.L ^ 4 / (P.E * P.A)⟩ := by
  have hE := P.hE.ne'
  have hr := P.hrho.ne'
  have hA := P.hA.ne'
  have hL := P.hL.ne'
  simp only [norm, Phys.args, orElse, need, pdiv, Bind.bind, Except.bind, pure, Except.pure, hE, hr, hA, hL,
    mul_eq_zero, or_self, if_false]

theorem int_modes {L : ℝ} (hL : 0 < L) (i j : ℕ) :
    ∫ x in (0:ℝ)..L, Spec.mode L i x * Spec.mode L j x = if i = j then L / 2 else 0 := by
  have e : ∀ x, Spec.mode L i x * Spec.mode L j x =
      (fun z => sin (Speccon.freq 0 i * z) * sin (Speccon.freq 0 j * z)) (x / L) := fun x => by
    simp only [Spec.mode, Speccon.freq]
    congr 2 <;> push_cast <;> ring
  simp_rw [e]
  rw [intervalIntegral.integral_comp_div (fun z => sin (Speccon.freq 0 i * z) * sin (Speccon.freq 0 j * z)) hL.ne',
    zero_div, div_self hL.ne', (Speccon.orthogonal (Or.inl rfl) i j).1]
  split_ifs <;> simp; ring

theorem mode_cont (L : ℝ) (i : ℕ) : Continuous (Spec.mode L i) := by
  unfold Spec.mode; fun_prop

/-- The product of two sums of modes integrates to the product of coefficients. -/
theorem int_sum_modes {L : ℝ} (hL : 0 < L) (n : ℕ) (a b : ℕ → ℝ) :
    ∫ x in (0:ℝ)..L, (∑ k ∈ Finset.range n, a k * Spec.mode L k x) * (∑ k ∈ Finset.range n, b k * Spec.mode L k x) =
      L / 2 * ∑ k ∈ Finset.range n, a k * b k := by
  have hc := mode_cont L
  have e : ∀ x, (∑ k ∈ Finset.range n, a k * Spec.mode L k x) * (∑ k ∈ Finset.range n, b k * Spec.mode L k x) =
      ∑ k ∈ Finset.range n, ∑ l ∈ Finset.range n, a k * b l * (Spec.mode L k x * Spec.mode L l x) := fun x => by
    rw [Finset.sum_mul_sum]
    refine Finset.sum_congr rfl fun k _ => Finset.sum_congr rfl fun l _ => by ring
  simp_rw [e]
  rw [intervalIntegral.integral_finsetSum (fun k _ => Continuous.intervalIntegrable
    (by have := hc; fun_prop) _ _), Finset.mul_sum]
  refine Finset.sum_congr rfl fun k hk => ?_
  rw [intervalIntegral.integral_finsetSum (fun l _ => Continuous.intervalIntegrable
    (by have := hc; fun_prop) _ _)]
  simp_rw [intervalIntegral.integral_const_mul, int_modes hL]
  rw [Finset.sum_eq_single k]
  · simp; ring
  · intro l _ h; simp [Ne.symm h]
  · intro h; exact absurd hk h

theorem int_sum_mode {L : ℝ} (hL : 0 < L) (n : ℕ) (a : ℕ → ℝ) {i : ℕ} (hi : i < n) :
    ∫ x in (0:ℝ)..L, (∑ k ∈ Finset.range n, a k * Spec.mode L k x) * Spec.mode L i x = L / 2 * a i := by
  have h := int_sum_modes hL n a (fun k => if k = i then 1 else 0)
  have e : ∀ x, ∑ k ∈ Finset.range n, (if k = i then (1:ℝ) else 0) * Spec.mode L k x = Spec.mode L i x := fun x => by
    rw [Finset.sum_eq_single i] <;> simp +contextual [hi]
  simp_rw [e] at h
  rw [h]
  congr 1
  rw [Finset.sum_eq_single i] <;> simp +contextual [hi]

/-- Shape derivatives. -/
theorem shape_ss {L : ℝ} (hL : 0 < L) (n : ℕ) (q : ℕ → ℝ) :
    Spec.SimplySupported L (Spec.shape L n q)
      (fun x => L * ∑ k ∈ Finset.range n, -(q k * (((k : ℝ) + 1) * π / L) ^ 2) * Spec.mode L k x)
      (fun x => L * ∑ k ∈ Finset.range n, q k * (((k : ℝ) + 1) * π / L) ^ 4 * Spec.mode L k x) := by
  have d0 : ∀ (k : ℕ) (x : ℝ), HasDerivAt (fun x => ((k : ℝ) + 1) * π * x / L) (((k : ℝ) + 1) * π / L) x := fun k x => by
    simpa using ((hasDerivAt_id x).const_mul (((k : ℝ) + 1) * π)).div_const L
  have ds : ∀ (k : ℕ) (x : ℝ), HasDerivAt (Spec.mode L k) (cos (((k : ℝ) + 1) * π * x / L) * (((k : ℝ) + 1) * π / L)) x :=
    fun k x => (d0 k x).sin
  have dc : ∀ (k : ℕ) (x : ℝ), HasDerivAt (fun x => cos (((k : ℝ) + 1) * π * x / L))
      (-Spec.mode L k x * (((k : ℝ) + 1) * π / L)) x := fun k x => (d0 k x).cos
  have m0 : ∀ k : ℕ, Spec.mode L k 0 = 0 := fun k => by simp [Spec.mode]
  have mL : ∀ k : ℕ, Spec.mode L k L = 0 := fun k => by
    simp only [Spec.mode]
    rw [mul_div_assoc, div_self hL.ne', mul_one]
    exact_mod_cast sin_nat_mul_pi (k + 1)
  refine ⟨⟨fun x => L * ∑ k ∈ Finset.range n, q k * (((k : ℝ) + 1) * π / L) * cos (((k : ℝ) + 1) * π * x / L),
    fun x => L * ∑ k ∈ Finset.range n, -(q k * (((k : ℝ) + 1) * π / L) ^ 3) * cos (((k : ℝ) + 1) * π * x / L),
    fun x => ?_, fun x => ?_, fun x => ?_, fun x => ?_⟩, ?_, ?_, ?_, ?_⟩
  · exact (HasDerivAt.const_mul L (HasDerivAt.fun_sum fun k _ => (ds k x).const_mul (q k))).congr_deriv
      (by congr 1; refine Finset.sum_congr rfl fun k _ => by ring)
  · exact (HasDerivAt.const_mul L (HasDerivAt.fun_sum fun k _ => (dc k x).const_mul _)).congr_deriv
      (by congr 1; refine Finset.sum_congr rfl fun k _ => by ring)
  · exact (HasDerivAt.const_mul L (HasDerivAt.fun_sum fun k _ => (ds k x).const_mul _)).congr_deriv
      (by congr 1; refine Finset.sum_congr rfl fun k _ => by ring)
  · exact (HasDerivAt.const_mul L (HasDerivAt.fun_sum fun k _ => (dc k x).const_mul _)).congr_deriv
      (by congr 1; refine Finset.sum_congr rfl fun k _ => by ring)
  · simp [Spec.shape, m0]
  · simp [Spec.shape, mL]
  · simp [m0]
  · simp [mL]

/-- The normalised speed of time. -/
theorem tNorm_deriv (E rho L t : ℝ) : HasDerivAt (tNorm E rho L) (√(E / rho) / L) t := by
  have := ((hasDerivAt_id t).div_const L).mul_const √(E / rho)
  exact this.congr_deriv (by simp; ring)

theorem sqrt_facts (P : Phys) : √(P.E / P.rho) ^ 2 = P.E / P.rho ∧ √(P.rho / P.E) * √(P.E / P.rho) = 1 ∧
    √(P.L ^ 2 / (P.rho * P.E)) * √(P.E / P.rho) = P.L / P.rho ∧ √(P.I / P.A) ^ 2 = P.I / P.A := by
  have hE := P.hE
  have hr := P.hrho
  have hA := P.hA
  have hI := P.hI
  have hL := P.hL
  refine ⟨sq_sqrt (by positivity), ?_, ?_, sq_sqrt (by positivity)⟩
  · rw [← sqrt_mul (by positivity), show P.rho / P.E * (P.E / P.rho) = 1 by field_simp, sqrt_one]
  · rw [← sqrt_mul (by positivity), show P.L ^ 2 / (P.rho * P.E) * (P.E / P.rho) = (P.L / P.rho) ^ 2 by field_simp]
    exact sqrt_sq (by positivity)

theorem wN_ss (L : ℝ) (hL : 0 < L) (rt : ℕ → ℝ) (n : ℕ) (q : ℕ → ℝ) (x : ℝ) :
    L * wN .ss (beta .ss rt) n q x = Spec.shape L n q (L * x) := by
  simp only [wN, Spec.shape, phi, phiSS, beta, Spec.mode]
  congr 1
  refine Finset.sum_congr rfl fun k _ => ?_
  congr 2
  field_simp

theorem phi_ss (L : ℝ) (hL : 0 < L) (rt : ℕ → ℝ) (i : ℕ) (x : ℝ) :
    phi .ss x (beta .ss rt i) = Spec.mode L i (L * x) := by
  simp only [phi, phiSS, beta, Spec.mode]
  congr 1
  field_simp

/-- A run, read off coefficient by coefficient. -/
theorem Run.ss {c : Coef} {rt : ℕ → ℝ} {n m : ℕ} {x I : Fin m → ℝ} {T0 T1 : ℝ} {y : ℝ → ℕ → ℝ}
    (h : Run .ss c (beta .ss rt) n (.rule m x I) T0 T1 y) {t : ℝ} (ht : t ∈ Set.Ioo T0 T1) {i : ℕ} (hi : i < n) :
    HasDerivAt (fun s => y s i) (y t (n + i)) t ∧
    HasDerivAt (fun s => y s (n + i))
      (accR .ss c (beta .ss rt) n x I (y t) (fun k => y t (n + k)) t i) t := by
  constructor
  · obtain ⟨d, h1, h2⟩ := h.field t ht i (by omega)
    simp only [vectorfield, if_pos hi, Except.ok.injEq, Option.some.injEq] at h1
    rwa [h1]
  · obtain ⟨d, h1, h2⟩ := h.field t ht (n + i) (by omega)
    simp only [vectorfield, if_neg (show ¬ n + i < n by omega), Nat.add_sub_cancel_left, acc, phiNan, and_false,
      exists_const, or_self, if_false, Except.ok.injEq, Option.some.injEq] at h1
    rwa [h1]

/-- The balance of one mode in physical units. -/
theorem mode_balance (P : Phys) (rt : ℕ → ℝ) {c : Coef} (hc : norm P.args = .ok c) (n : ℕ) {m : ℕ}
    (x I : Fin m → ℝ) (q qd : ℕ → ℝ) (t : ℝ) (i : ℕ) :
    P.L / 2 * (P.rho * P.A * (P.L * (accR .ss c (beta .ss rt) n x I q qd (tNorm P.E P.rho P.L t) i * (√(P.E / P.rho) / P.L) ^ 2))
      + P.mu * (P.L * (qd i * (√(P.E / P.rho) / P.L))) + P.k1 * (P.L * q i)
      + P.E * P.I * (P.L * (q i * (((i : ℝ) + 1) * π / P.L) ^ 4)))
      + P.k3 * (P.L * ∑ j, I j * (Spec.shape P.L n q (P.L * x j)) ^ 3 * Spec.mode P.L i (P.L * x j)) =
    P.F * Spec.mode P.L i (P.v * t) := by
  rw [norm_phys] at hc
  obtain rfl := Except.ok.inj hc
  obtain ⟨s1, s2, s3, s4⟩ := sqrt_facts P
  have hE := P.hE
  have hr := P.hrho
  have hA := P.hA
  have hI := P.hI
  have hL := P.hL
  have load : phi .ss (P.v * √(P.rho / P.E) * tNorm P.E P.rho P.L t) (beta .ss rt i) = Spec.mode P.L i (P.v * t) := by
    rw [phi_ss P.L hL]
    congr 1
    unfold tNorm
    calc P.L * (P.v * √(P.rho / P.E) * (t / P.L * √(P.E / P.rho)))
        = P.v * t * (√(P.rho / P.E) * √(P.E / P.rho)) := by field_simp
      _ = _ := by rw [s2, mul_one]
  have cub : ∑ j, I j * (Spec.shape P.L n q (P.L * x j)) ^ 3 * Spec.mode P.L i (P.L * x j) =
      P.L ^ 3 * ∑ j, I j * (wN .ss (beta .ss rt) n q (x j)) ^ 3 * phi .ss (x j) (beta .ss rt i) := by
    rw [Finset.mul_sum]
    refine Finset.sum_congr rfl fun j _ => ?_
    rw [← wN_ss P.L hL rt, phi_ss P.L hL]; ring
  rw [cub]
  simp only [accR, load, bcCoeff]
  set S := ∑ j, I j * (wN .ss (beta .ss rt) n q (x j)) ^ 3 * phi .ss (x j) (beta .ss rt i)
  have b4 : beta .ss rt i = ((i : ℝ) + 1) * π := by simp [beta]; ring
  rw [b4]
  have e1 : (1 / P.L * √(P.I / P.A)) ^ 2 = P.I / P.A / P.L ^ 2 := by rw [mul_pow, s4]; field_simp
  have e2 : (√(P.E / P.rho) / P.L) ^ 2 = P.E / P.rho / P.L ^ 2 := by rw [div_pow, s1]
  rw [e1, e2]
  have e3 : P.mu / P.A * √(P.L ^ 2 / (P.rho * P.E)) = P.mu * √(P.E / P.rho) * P.L / (P.A * P.E) := by
    have : √(P.L ^ 2 / (P.rho * P.E)) = P.L * √(P.E / P.rho) / P.E := by
      have hs : 0 < √(P.E / P.rho) := sqrt_pos.2 (by positivity)
      have h := s3
      rw [← eq_div_iff hs.ne'] at h
      rw [h, div_div, div_eq_div_iff (by positivity) (by positivity)]
      have : P.rho * √(P.E / P.rho) ^ 2 = P.E := by rw [s1]; field_simp
      linear_combination (-P.L) * this
    rw [this]; field_simp
  rw [e3]
  set r := √(P.E / P.rho)
  field_simp
  ring

end Geotecha.Beam
