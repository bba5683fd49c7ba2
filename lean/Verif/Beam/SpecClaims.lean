import Verif.Beam.SpecMotion

/-!
# Claim C179: equation of motion of `SpecBeam` (numerical solution)
-/
set_option autoImplicit false
set_option linter.unusedVariables false

namespace Geotecha.Beam

open Real Geotecha.Speccon Geotecha.Piecewise Geotecha.Spec intervalIntegral MeasureTheory

/-- The physical deflection after a run: `L` times the sum of the coefficients at the normalised time with the simply
supported shapes (this is what `wofx` returns with `normalise_w=False`, claim C181). -/
noncomputable def SPhys.defl (P : SPhys) (n : ℕ) (y : ℝ → ℕ → ℝ) (x t : ℝ) : ℝ :=
  Spec.shape P.L n (y (tNorm P.E P.rho P.L t)) x

/-- The point loads in normalised units are those in physical units. -/
theorem scale_loads (P : SPhys) (c : Vehicle) (hv : c.v ≠ 0) (t : ℝ) : (P.scale c).pointLoads (tNorm P.E P.rho P.L t) =
    (c.pointLoads t).map fun q => (q.1 / P.L, q.2 / (P.E * P.A)) := by
  have hp : 0 < √(P.rho / P.E) := sqrt_pos.2 (div_pos P.hrho P.hE)
  have hs : √(P.rho / P.E) * √(P.E / P.rho) = 1 := by
    have hE := P.hE
    have hr := P.hrho
    rw [← sqrt_mul (by positivity), show P.rho / P.E * (P.E / P.rho) = 1 by field_simp, sqrt_one]
  have hv' : (P.scale c).v ≠ 0 := mul_ne_zero hv hp.ne'
  rw [C174_point_loads_error _ hv', C174_point_loads_error _ hv, List.map_map]
  have := scale_same P c
  unfold Spec.SameVehicle at this
  simp only [SPhys.scale] at this
  rw [List.forall₂_map_right_iff, List.forall₂_same] at this
  rw [show (P.scale c).axles = c.axles.map fun a => (a.1 / P.L, a.2 / (P.E * P.A)) from rfl, List.map_map]
  refine List.map_congr_left fun a ha => ?_
  obtain ⟨_, h⟩ := this a ha
  obtain ⟨h1, h2⟩ := h t
  simp only [Function.comp]
  rw [Prod.mk.injEq]
  constructor
  · have h1' : Spec.axleAt (P.scale c) (a.1 / P.L, a.2 / (P.E * P.A)) (tNorm P.E P.rho P.L t) = Spec.axleAt c a t / P.L := h1
    rw [h1']
    have e : (P.scale c).v * (P.scale c).t0 = c.v * c.t0 / P.L := by
      simp only [SPhys.scale, tNorm]
      calc _ = c.v * c.t0 / P.L * (√(P.rho / P.E) * √(P.E / P.rho)) := by ring
        _ = _ := by rw [hs, mul_one]
    rw [e]
    by_cases hn : c.v < 0
    · rw [if_pos hn, if_pos (show (P.scale c).v < 0 from mul_neg_of_neg_of_pos hn hp)]
      simp only [SPhys.scale]; ring
    · rw [if_neg hn, if_neg (show ¬ (P.scale c).v < 0 from not_lt.2 (mul_nonneg (not_lt.1 hn) hp.le))]
      ring
  · have h2' : Spec.OnBeam (P.scale c) (a.1 / P.L, a.2 / (P.E * P.A)) (tNorm P.E P.rho P.L t) ↔ Spec.OnBeam c a t := h2
    by_cases ho : Spec.OnBeam c a t
    · rw [if_pos ho, if_pos (h2'.2 ho)]
    · rw [if_neg ho, if_neg (mt h2'.1 ho), zero_div]

/-- What the constructor leaves behind for physical input. -/
theorem init_phys {P : SPhys} {n : ℕ} {nq : Option ℕ} {m : MArgs} {sa : StArgs} {B : Bars} {impl : Impl} {s : SBeam} {vs : List Vehicle}
    {ls : List SLoad} (hm : Spec.Moving P.L m vs) (hs : Spec.Still sa ls) (hp : ∀ l ∈ ls, Spec.Proper l)
    (h : SBeam.init n (P.args nq) m sa B impl = .ok s) :
    s.n = n ∧ s.L = some P.L ∧ s.kf = 1 / P.L * √(P.I / P.A) ∧ s.mu = P.mu / P.A * √(P.L ^ 2 / (P.rho * P.E)) ∧
      s.k1 = P.k1 * P.L ^ 2 / (P.E * P.A) ∧ s.k3 = P.k3 * P.L ^ 4 / (P.E * P.A) ∧ s.veh = vs.map P.scale ∧
      (∀ b t, s.still b (tNorm P.E P.rho P.L t) = .ok ((ls.map fun l => polyLeft l.pts t * (match l.om with
        | none => 1
        | some o => cos (o.1 * t + o.2 / (P.E * P.A))) / (P.E * P.A) * sin (b * (l.x / P.L))).sum)) ∧
      mkRule .ss nq = .ok s.quad ∧ s.bars = B ∧ s.impl = impl := by
  obtain ⟨c1, c2, c3, c4⟩ := coef_ok P nq
  have hg : (P.args nq).gate = .ok () := by
    unfold SArgs.gate; rw [if_neg]; simp [SPhys.args]
  have hv : vehicles (P.args nq) m = .ok (vs.map P.scale) := by
    rcases hm with hm | ⟨rfl, h1, h2, h3, h4, h5, h6⟩
    · exact vehicles_raw P nq hm
    · unfold vehicles; rw [if_pos ⟨h4, h5, h6, h1, h2, h3⟩]; rfl
  have hst : ∃ st, stationary (P.args nq) sa = .ok st ∧ ∀ s : SBeam, s.stat = st → ∀ b t,
      s.still b (tNorm P.E P.rho P.L t) = .ok ((ls.map fun l => polyLeft l.pts t * (match l.om with
        | none => 1
        | some o => cos (o.1 * t + o.2 / (P.E * P.A))) / (P.E * P.A) * sin (b * (l.x / P.L))).sum) := by
    rcases hs with hs | ⟨rfl, h1, h2, h3, h4, h5⟩
    · exact still_ok P nq hs hp
    · refine ⟨⟨[], [], []⟩, by unfold stationary; rw [if_pos ⟨h3, h5, h4, h1, h2⟩], fun s hs b t => ?_⟩
      unfold SBeam.still
      rw [hs]
      rfl
  obtain ⟨st, e1, e2⟩ := hst
  unfold SBeam.init at h
  simp only [hg, c1, c2, c3, c4, hv, e1, Bind.bind, Except.bind] at h
  rw [if_pos (by rfl)] at h
  rcases hq : mkRule .ss nq with _ | quad
  · rw [show (P.args nq).nquad = nq from rfl, hq] at h; exact absurd h (by simp)
  · rw [show (P.args nq).nquad = nq from rfl, hq] at h
    simp only [pure, Except.pure, Except.ok.injEq] at h
    subst h
    exact ⟨rfl, rfl, rfl, rfl, rfl, rfl, rfl, e2 _ rfl, rfl, rfl, rfl⟩

theorem moving_ok {P : SPhys} {s : SBeam} {vs : List Vehicle} (h : s.veh = vs.map P.scale) (hv : ∀ c ∈ vs, c.v ≠ 0) {i : ℕ} (hi : i < s.n) (t : ℝ) :
    P.E * P.A * s.moving (s.beta.getD i 0) (tNorm P.E P.rho P.L t) =
      (vs.map fun c => ((c.pointLoads t).map fun q => q.2 * Spec.mode P.L i q.1).sum).sum := by
  unfold SBeam.moving
  rw [h, beta_getD s hi, List.map_map, ← List.sum_map_mul_left]
  congr 1
  refine List.map_congr_left fun c hc => ?_
  simp only [Function.comp]
  rw [scale_loads P c (hv c hc), List.map_map, ← List.sum_map_mul_left]
  congr 1
  refine List.map_congr_left fun q _ => ?_
  simp only [Function.comp, sbCoeff, phiSS, mode_div P.hL]
  have hE := P.hE.ne'
  have hA := P.hA.ne'
  field_simp

/-- The Galerkin balance of one mode, in physical units, for the loads as the code computes them. -/
theorem spec_balance {P : SPhys} {S : Set ℝ} {fE fI frho fA fk1 fmu : ℝ → ℝ} {s : SBeam} (hc : Spec.Curves s.bars S fE fI frho fA fk1 fmu)
    (hkf : s.kf = 1 / P.L * √(P.I / P.A)) (hmu : s.mu = P.mu / P.A * √(P.L ^ 2 / (P.rho * P.E)))
    (hk1 : s.k1 = P.k1 * P.L ^ 2 / (P.E * P.A)) (hk3 : s.k3 = P.k3 * P.L ^ 4 / (P.E * P.A)) {M : SMats} (hM : s.matrices = .ok M)
    {pts : List (ℝ × ℝ)} (hpts : s.bars.k1.getXY.1 = .ok pts) (q qd a : ℕ → ℝ) (T st : ℝ) {i : ℕ} (hi : i < s.n)
    (h : dotV s.n M.lam a i = s.rhsR M q qd T st i) :
    (∫ x in (0:ℝ)..P.L, ((P.rho * P.A * (frho (x / P.L) * fA (x / P.L)) * Spec.shape P.L s.n (fun k => a k * (√(P.E / P.rho) / P.L) ^ 2) x
        + P.mu * fmu (x / P.L) * Spec.shape P.L s.n (fun k => qd k * (√(P.E / P.rho) / P.L)) x
        + P.k1 * fk1 (x / P.L) * Spec.shape P.L s.n q x) * Spec.mode P.L i x
        + P.E * P.I * (fE (x / P.L) * fI (x / P.L)) * (P.L * ∑ k ∈ Finset.range s.n, -(q k * (((k : ℝ) + 1) * π / P.L) ^ 2) * Spec.mode P.L k x)
          * Spec.modeCurv P.L i x))
      + P.k3 * (P.L * ∑ j, M.Ij j * polyLeft pts (M.xj j) * (Spec.shape P.L s.n q (P.L * M.xj j)) ^ 3 * Spec.mode P.L i (P.L * M.xj j)) =
    P.E * P.A * s.moving (s.beta.getD i 0) T + P.E * P.A * st := by
  have hE := P.hE
  have hr := P.hrho
  have hA := P.hA
  have hI := P.hI
  have hL := P.hL
  -- the quadrature is there
  obtain ⟨m, xj, Ij, hq⟩ : ∃ m xj Ij, s.quad = .rule m xj Ij := by
    rcases e : s.quad with _ | _ | ⟨m, xj, Ij⟩
    · exfalso
      unfold SBeam.matrices at hM
      rw [e] at hM
      revert hM
      simp only [Bind.bind, Except.bind]
      split <;> [simp; (split <;> [simp; (split <;> [simp; (split <;> simp)])])]
    · exfalso
      unfold SBeam.matrices at hM
      rw [e] at hM
      revert hM
      simp only [Bind.bind, Except.bind]
      split <;> [simp; (split <;> [simp; (split <;> [simp; (split <;> simp)])])]
    · exact ⟨m, xj, Ij, rfl⟩
  obtain ⟨lam, psiq, psiqd, hM', l1, l2, l3⟩ := matrices_ok s hc hq hpts
  rw [hM] at hM'
  obtain rfl := Except.ok.inj hM'
  -- the integral
  have b1 := (Profile.bdd hc.rho).mul (Profile.bdd hc.A)
  have b2 := Profile.bdd hc.mu
  have b3 := Profile.bdd hc.k1
  have b4 := (Profile.bdd hc.E).mul (Profile.bdd hc.I)
  set r := √(P.E / P.rho) / P.L with hrdef
  have key := int_four hL b1 b2 b3 b4 s.n (fun k => P.rho * P.A * P.L * r ^ 2 * a k) (fun k => P.mu * P.L * r * qd k)
    (fun k => P.k1 * P.L * q k)
    (fun k => P.E * P.I * P.L * ((((k : ℝ) + 1) * π / P.L) ^ 2 * (((i : ℝ) + 1) * π / P.L) ^ 2) * q k) i
  have e1 : ∀ x, ((P.rho * P.A * (frho (x / P.L) * fA (x / P.L)) * Spec.shape P.L s.n (fun k => a k * r ^ 2) x
        + P.mu * fmu (x / P.L) * Spec.shape P.L s.n (fun k => qd k * r) x
        + P.k1 * fk1 (x / P.L) * Spec.shape P.L s.n q x) * Spec.mode P.L i x
        + P.E * P.I * (fE (x / P.L) * fI (x / P.L)) * (P.L * ∑ k ∈ Finset.range s.n, -(q k * (((k : ℝ) + 1) * π / P.L) ^ 2) * Spec.mode P.L k x)
          * Spec.modeCurv P.L i x) =
      ((frho (x / P.L) * fA (x / P.L) * (∑ k ∈ Finset.range s.n, P.rho * P.A * P.L * r ^ 2 * a k * Spec.mode P.L k x)
        + fmu (x / P.L) * (∑ k ∈ Finset.range s.n, P.mu * P.L * r * qd k * Spec.mode P.L k x)
      + fk1 (x / P.L) * (∑ k ∈ Finset.range s.n, P.k1 * P.L * q k * Spec.mode P.L k x)
      + fE (x / P.L) * fI (x / P.L) * (∑ k ∈ Finset.range s.n, P.E * P.I * P.L * ((((k : ℝ) + 1) * π / P.L) ^ 2 * (((i : ℝ) + 1) * π / P.L) ^ 2) * q k
        * Spec.mode P.L k x)) * Spec.mode P.L i x) := fun x => by
    unfold Spec.shape Spec.modeCurv
    simp only [Finset.mul_sum, Finset.sum_mul, add_mul, mul_add, ← Finset.sum_add_distrib]
    refine Finset.sum_congr rfl fun k _ => by ring
  simp_rw [e1]
  rw [key]
  -- the vector field
  unfold SBeam.rhsR dotV at h
  have s1 : √(P.E / P.rho) ^ 2 = P.E / P.rho := sq_sqrt (by positivity)
  have s3 : √(P.L ^ 2 / (P.rho * P.E)) * √(P.E / P.rho) = P.L / P.rho := by
    rw [← sqrt_mul (by positivity), show P.L ^ 2 / (P.rho * P.E) * (P.E / P.rho) = (P.L / P.rho) ^ 2 by field_simp]
    exact sqrt_sq (by positivity)
  have s4 : √(P.I / P.A) ^ 2 = P.I / P.A := sq_sqrt (by positivity)
  have ss : √(P.E / P.rho) ≠ 0 := (sqrt_pos.2 (by positivity)).ne'
  have cr : P.rho * P.A * P.L * r ^ 2 * P.L = P.E * P.A := by
    rw [hrdef, div_pow, s1]; field_simp
  have cm : P.mu * P.L * r * P.L = P.E * P.A * s.mu := by
    rw [hmu, hrdef]
    have : √(P.L ^ 2 / (P.rho * P.E)) = P.L / P.rho / √(P.E / P.rho) := by rw [← s3]; field_simp
    rw [this]
    have e2 : √(P.E / P.rho) * √(P.E / P.rho) = P.E / P.rho := by rw [← pow_two, s1]
    field_simp
    rw [s1]
    field_simp
  have ck : P.k1 * P.L * P.L = P.E * P.A * s.k1 := by rw [hk1]; field_simp
  have ce : P.E * P.I / P.L ^ 2 = P.E * P.A * s.kf ^ 2 := by rw [hkf, mul_pow, s4]; field_simp
  have cc : P.k3 * P.L * P.L ^ 3 = P.E * P.A * s.k3 := by rw [hk3]; field_simp
  have cub : ∑ j, Ij j * polyLeft pts (xj j) * (Spec.shape P.L s.n q (P.L * xj j)) ^ 3 * Spec.mode P.L i (P.L * xj j) =
      P.L ^ 3 * (SMats.mk lam psiq psiqd m xj Ij fun j => polyLeft pts (xj j)).cubic s.n (fun k => s.beta.getD k 0) q (s.beta.getD i 0) := by
    unfold SMats.cubic
    rw [Finset.mul_sum]
    refine Finset.sum_congr rfl fun j _ => ?_
    simp only
    have e : Spec.shape P.L s.n q (P.L * xj j) = P.L * ∑ k ∈ Finset.range s.n, q k * phiSS (xj j) (s.beta.getD k 0) := by
      unfold Spec.shape
      congr 1
      refine Finset.sum_congr rfl fun k hk => ?_
      rw [beta_getD s (Finset.mem_range.1 hk), mode_div hL, mul_div_cancel_left₀ _ hL.ne']
      rfl
    rw [e, mode_div hL, mul_div_cancel_left₀ _ hL.ne', beta_getD s hi]
    unfold phiSS
    ring
  rw [cub]
  have i1 : P.L * ∑ k ∈ Finset.range s.n, gal (fun z => frho z * fA z) i k * (P.rho * P.A * P.L * r ^ 2 * a k) =
      P.E * P.A * ∑ j ∈ Finset.range s.n, lam i j * a j := by
    rw [← cr, Finset.mul_sum, Finset.mul_sum]
    refine Finset.sum_congr rfl fun k hk => ?_
    rw [l1 i k hi (Finset.mem_range.1 hk)]; ring
  have i2 : P.L * ∑ k ∈ Finset.range s.n, gal fmu i k * (P.mu * P.L * r * qd k) =
      -(P.E * P.A * ∑ j ∈ Finset.range s.n, psiqd i j * qd j) := by
    rw [Finset.mul_sum, Finset.mul_sum, ← Finset.sum_neg_distrib]
    refine Finset.sum_congr rfl fun k hk => ?_
    rw [l3 i k hi (Finset.mem_range.1 hk)]
    calc _ = P.mu * P.L * r * P.L * (gal fmu i k * qd k) := by ring
      _ = _ := by rw [cm]; ring
  have i3 : P.L * (∑ k ∈ Finset.range s.n, gal fk1 i k * (P.k1 * P.L * q k)) + P.L * (∑ k ∈ Finset.range s.n, gal (fun z => fE z * fI z) i k *
        (P.E * P.I * P.L * ((((k : ℝ) + 1) * π / P.L) ^ 2 * (((i : ℝ) + 1) * π / P.L) ^ 2) * q k)) =
      -(P.E * P.A * ∑ j ∈ Finset.range s.n, psiq i j * q j) := by
    rw [Finset.mul_sum, Finset.mul_sum, Finset.mul_sum, ← Finset.sum_neg_distrib, ← Finset.sum_add_distrib]
    refine Finset.sum_congr rfl fun k hk => ?_
    rw [l2 i k hi (Finset.mem_range.1 hk)]
    calc _ = P.k1 * P.L * P.L * (gal fk1 i k * q k) + P.E * P.I / P.L ^ 2 *
          ((π * ((i : ℝ) + 1)) ^ 2 * (π * ((k : ℝ) + 1)) ^ 2 * gal (fun z => fE z * fI z) i k * q k) := by field_simp
      _ = _ := by rw [ck, ce]; ring
  have h' := congrArg (fun v => P.E * P.A * v) h
  simp only [sbCoeff, one_mul, mul_add, mul_sub] at h'
  simp only [mul_add] at *
  have c5 : P.k3 * (P.L * (P.L ^ 3 * (SMats.mk lam psiq psiqd m xj Ij fun j => polyLeft pts (xj j)).cubic s.n (fun k => s.beta.getD k 0) q (s.beta.getD i 0))) =
      P.E * P.A * (s.k3 * (SMats.mk lam psiq psiqd m xj Ij fun j => polyLeft pts (xj j)).cubic s.n (fun k => s.beta.getD k 0) q (s.beta.getD i 0)) := by
    rw [← mul_assoc, ← mul_assoc, cc]; ring
  rw [c5]
  linarith [i1, i2, i3, h']

theorem sdefl_t (P : SPhys) (n : ℕ) (y : ℝ → ℕ → ℝ) (d : ℕ → ℝ) (t x : ℝ)
    (h : ∀ k < n, HasDerivAt (fun s => y s k) (d k) (tNorm P.E P.rho P.L t)) :
    HasDerivAt (fun t => P.defl n y x t) (Spec.shape P.L n (fun k => d k * (√(P.E / P.rho) / P.L)) x) t := by
  unfold SPhys.defl Spec.shape
  refine HasDerivAt.const_mul P.L (HasDerivAt.fun_sum fun k hk => HasDerivAt.mul_const ?_ _)
  exact (h k (Finset.mem_range.1 hk)).comp t (tNorm_deriv P.E P.rho P.L t)

/-- The stationary force as the code computes it: the phase divided by `E A`. -/
noncomputable def SPhys.codeForce (P : SPhys) (l : SLoad) (t : ℝ) : ℝ :=
  Spec.force ⟨l.x, l.pts, l.om.map fun o => (o.1, o.2 / (P.E * P.A))⟩ t

/-- **C179.** A run of the numerical solution with physical input, as the code computes it: the deflection has
velocity `V`, acceleration `A` and curvature `w2`, is simply supported, starts from rest at the first
requested time, and satisfies for every mode the Galerkin equations of a beam with *varying* properties
`E I`, `ρ A`, `μ`, `k1` (the profiles at `x/L`), on a linear plus cubic foundation, under all vehicles and all stationary
loads.  Three things are not as documented: the cubic spring varies along the beam like `k1bar` (claim
`C179_k3bar_ignored`), the axle positions are those of claim C174, the phases those of claim C178. -/
theorem C179_equation_of_motion_general {P : SPhys} {n : ℕ} {nq : Option ℕ} {m : MArgs} {sa : StArgs} {B : Bars} {impl : Impl} {s : SBeam}
    {vs : List Vehicle} {ls : List SLoad} (hm : Spec.Moving P.L m vs) (hv : ∀ c ∈ vs, c.v ≠ 0) (hs : Spec.Still sa ls) (hp : ∀ l ∈ ls, Spec.Proper l)
    {S : Set ℝ} {fE fI frho fA fk1 fmu : ℝ → ℝ} (hc : Spec.Curves B S fE fI frho fA fk1 fmu)
    {pts : List (ℝ × ℝ)} (hpts : B.k1.getXY.1 = .ok pts)
    (hinit : SBeam.init n (P.args nq) m sa B impl = .ok s) {M : SMats} (hM : s.matrices = .ok M) {T0 T1 : ℝ} {y : ℝ → ℕ → ℝ} (h : SRun s M T0 T1 y) :
    (∀ t x, tNorm P.E P.rho P.L t = T0 → P.defl n y x t = 0) ∧
    ∃ V A w2 : ℝ → ℝ → ℝ,
      (∀ t x, tNorm P.E P.rho P.L t = T0 → V x t = 0) ∧
      ∀ t, tNorm P.E P.rho P.L t ∈ Set.Ioo T0 T1 →
        (∀ x, HasDerivAt (fun t => P.defl n y x t) (V x t) t) ∧
        (∀ x, HasDerivAt (fun t => V x t) (A x t) t) ∧
        (∃ w4, Spec.SimplySupported P.L (fun x => P.defl n y x t) (fun x => w2 x t) w4) ∧
        ∀ i < n,
          (∫ x in (0:ℝ)..P.L, ((P.rho * P.A * (frho (x / P.L) * fA (x / P.L)) * A x t + P.mu * fmu (x / P.L) * V x t
              + P.k1 * fk1 (x / P.L) * P.defl n y x t) * Spec.mode P.L i x
              + P.E * P.I * (fE (x / P.L) * fI (x / P.L)) * w2 x t * Spec.modeCurv P.L i x))
            + P.k3 * (P.L * ∑ j, M.Ij j * polyLeft pts (M.xj j) * (P.defl n y (P.L * M.xj j) t) ^ 3 * Spec.mode P.L i (P.L * M.xj j)) =
          (vs.map fun c => ((c.pointLoads t).map fun q => q.2 * Spec.mode P.L i q.1).sum).sum
            + (ls.map fun l => P.codeForce l t * Spec.mode P.L i l.x).sum := by
  obtain ⟨e1, e2, e3, e4, e5, e6, e7, e8, e9, e10, e11⟩ := init_phys hm hs hp hinit
  subst e1
  subst e10
  set r := √(P.E / P.rho) / P.L with hr
  set T := tNorm P.E P.rho P.L with hT
  have hex : ∀ u : ℝ, ∃ a : ℕ → ℝ, u ∈ Set.Ioo T0 T1 → (∀ i < s.n, HasDerivAt (fun r => y r i) (y u (s.n + i)) u) ∧
      (∀ i < s.n, HasDerivAt (fun r => y r (s.n + i)) (a i) u) ∧
      ∀ i < s.n, ∃ st, s.still (s.beta.getD i 0) u = .ok st ∧
        dotV s.n M.lam a i = s.rhsR M (y u) (fun k => y u (s.n + k)) u st i := fun u => by
    by_cases hu : u ∈ Set.Ioo T0 T1
    · obtain ⟨a, ha⟩ := h.rate hu
      exact ⟨a, fun _ => ha⟩
    · exact ⟨0, fun h => absurd h hu⟩
  choose a ha using hex
  refine ⟨fun t x ht => ?_, fun x t => Spec.shape P.L s.n (fun k => y (T t) (s.n + k) * r) x,
    fun x t => Spec.shape P.L s.n (fun k => a (T t) k * r ^ 2) x,
    fun x t => P.L * ∑ k ∈ Finset.range s.n, -(y (T t) k * (((k : ℝ) + 1) * π / P.L) ^ 2) * Spec.mode P.L k x,
    fun t x ht => ?_, fun t ht => ⟨fun x => ?_, fun x => ?_, ⟨_, shape_ss P.hL s.n _⟩, fun i hi => ?_⟩⟩
  · unfold SPhys.defl Spec.shape
    rw [← hT, ht, Finset.sum_eq_zero (fun k hk => by rw [h.start k (by have := Finset.mem_range.1 hk; omega), zero_mul]), mul_zero]
  · unfold Spec.shape
    beta_reduce
    rw [ht, Finset.sum_eq_zero (fun k hk => by
      rw [h.start (s.n + k) (by have := Finset.mem_range.1 hk; omega), zero_mul, zero_mul]), mul_zero]
  · exact sdefl_t P s.n y (fun k => y (T t) (s.n + k)) t x fun k hk => (ha (T t) ht).1 k hk
  · unfold Spec.shape
    refine HasDerivAt.const_mul P.L (HasDerivAt.fun_sum fun k hk => HasDerivAt.mul_const ?_ _)
    have := (((ha (T t) ht).2.1 k (Finset.mem_range.1 hk)).comp t (tNorm_deriv P.E P.rho P.L t)).mul_const r
    exact this.congr_deriv (by rw [← hr]; ring)
  · obtain ⟨st, hst, hb⟩ := (ha (T t) ht).2.2 i hi
    have key := spec_balance (P := P) hc e3 e4 e5 e6 hM hpts _ _ _ _ _ hi hb
    rw [← hr] at key
    refine key.trans ?_
    rw [moving_ok e7 hv hi]
    congr 1
    rw [e8] at hst
    rw [← Except.ok.inj hst, ← List.sum_map_mul_left]
    congr 1
    refine List.map_congr_left fun l _ => ?_
    rw [mode_div P.hL, beta_getD s hi]
    unfold SPhys.codeForce Spec.force
    have hE := P.hE.ne'
    have hA := P.hA.ne'
    rcases ho : l.om with _ | o <;> simp only [ho, Option.map_none, Option.map_some] <;> field_simp

/-- **C179 (partial: every vehicle enters at `t0 = 0` (and one going left has `x0 = 0`), phases zero or `E A = 1`, and
`k3bar` and `k1bar` agree at the quadrature points).** Then the run satisfies the documented equation: the cubic spring
varies like `k3bar`, every axle on the beam presses with its force where it is, every stationary load with its force
where it stands. -/
theorem C179_equation_of_motion_partial {P : SPhys} {n : ℕ} {nq : Option ℕ} {m : MArgs} {sa : StArgs} {B : Bars} {impl : Impl} {s : SBeam}
    {vs : List Vehicle} {ls : List SLoad} (hm : Spec.Moving P.L m vs) (hv : ∀ c ∈ vs, c.v ≠ 0 ∧ c.t0 = 0 ∧ (c.v < 0 → c.x0 = 0))
    (hs : Spec.Still sa ls) (hp : ∀ l ∈ ls, Spec.Proper l) (hph : ∀ l ∈ ls, ∀ o, l.om = some o → o.2 = 0 ∨ P.E * P.A = 1)
    {S : Set ℝ} {fE fI frho fA fk1 fmu : ℝ → ℝ} (hc : Spec.Curves B S fE fI frho fA fk1 fmu)
    {pts pts3 : List (ℝ × ℝ)} (hpts : B.k1.getXY.1 = .ok pts) (hpts3 : B.k3.getXY.1 = .ok pts3)
    (hinit : SBeam.init n (P.args nq) m sa B impl = .ok s) {M : SMats} (hM : s.matrices = .ok M)
    (h31 : ∀ j, polyLeft pts3 (M.xj j) = polyLeft pts (M.xj j)) {T0 T1 : ℝ} {y : ℝ → ℕ → ℝ} (h : SRun s M T0 T1 y) :
    (∀ t x, tNorm P.E P.rho P.L t = T0 → P.defl n y x t = 0) ∧
    ∃ V A w2 : ℝ → ℝ → ℝ,
      (∀ t x, tNorm P.E P.rho P.L t = T0 → V x t = 0) ∧
      ∀ t, tNorm P.E P.rho P.L t ∈ Set.Ioo T0 T1 →
        (∀ x, HasDerivAt (fun t => P.defl n y x t) (V x t) t) ∧
        (∀ x, HasDerivAt (fun t => V x t) (A x t) t) ∧
        (∃ w4, Spec.SimplySupported P.L (fun x => P.defl n y x t) (fun x => w2 x t) w4) ∧
        ∀ i < n,
          (∫ x in (0:ℝ)..P.L, ((P.rho * P.A * (frho (x / P.L) * fA (x / P.L)) * A x t + P.mu * fmu (x / P.L) * V x t
              + P.k1 * fk1 (x / P.L) * P.defl n y x t) * Spec.mode P.L i x
              + P.E * P.I * (fE (x / P.L) * fI (x / P.L)) * w2 x t * Spec.modeCurv P.L i x))
            + P.k3 * (P.L * ∑ j, M.Ij j * polyLeft pts3 (M.xj j) * (P.defl n y (P.L * M.xj j) t) ^ 3 * Spec.mode P.L i (P.L * M.xj j)) =
          (vs.map fun c => (c.axles.map fun a =>
            (open Classical in if Spec.OnBeam c a t then a.2 else 0) * Spec.mode P.L i (Spec.axleAt c a t)).sum).sum
            + (ls.map fun l => Spec.force l t * Spec.mode P.L i l.x).sum := by
  obtain ⟨h0, V, A, w2, g0, g⟩ := C179_equation_of_motion_general hm (fun c hc => (hv c hc).1) hs hp hc hpts hinit hM h
  refine ⟨h0, V, A, w2, g0, fun t ht => ?_⟩
  obtain ⟨g1, g2, g3, g4⟩ := g t ht
  refine ⟨g1, g2, g3, fun i hi => ?_⟩
  have := g4 i hi
  simp only [h31]
  rw [this]
  congr 2
  · refine List.map_congr_left fun c hc => ?_
    obtain ⟨v1, v2, v3⟩ := hv c hc
    rw [C174_point_loads_partial c v1 v2 v3, List.map_map]
    rfl
  · refine List.map_congr_left fun l hl => ?_
    congr 1
    unfold SPhys.codeForce Spec.force
    rcases ho : l.om with _ | o
    · rfl
    · simp only [Option.map_some]
      rcases hph l hl o ho with h | h
      · rw [h, zero_div]
      · rw [h, div_one]

/-- **C179.** `k3bar` has no effect at all: replacing it by any other profile changes neither the matrices nor the vector
field (so not the results), for every input. -/
theorem C179_k3bar_ignored (s : SBeam) (k : PolyLine ℝ) :
    let s' : SBeam := ⟨s.n, s.L, s.kf, s.mu, s.k1, s.k3, s.veh, s.stat, s.quad,
      ⟨s.bars.E, s.bars.I, s.bars.rho, s.bars.A, s.bars.k1, k, s.bars.mu⟩, s.impl⟩
    s'.matrices = s.matrices ∧ ∀ M y t, s'.field M y t = s.field M y t := ⟨rfl, fun M y t => rfl⟩

end Geotecha.Beam
