import Verif.Beam.SpecClaims
import Verif.Speccon.VRWEigen

/-!
# Claim C180: power balance of a beam with varying properties
-/
set_option autoImplicit false
set_option linter.unusedVariables false

namespace Geotecha.Beam

open Real Geotecha.Speccon Geotecha.Piecewise Geotecha.Spec intervalIntegral MeasureTheory

/-- Energy of a beam with profiles `frho fA`, `fE fI`, `fk1` and of its foundation, from the deflection `w`, the velocity `V` and
the curvature `w2`: kinetic, bending, linear springs, cubic springs (at the quadrature points, as in the code; `kj` is
the cubic spring's profile there). -/
noncomputable def Spec.senergy (P : SPhys) (fE fI frho fA fk1 : ℝ → ℝ) {m : ℕ} (xj Ij kj : Fin m → ℝ) (w V w2 : ℝ → ℝ) : ℝ :=
  P.rho * P.A / 2 * (∫ x in (0:ℝ)..P.L, frho (x / P.L) * fA (x / P.L) * V x ^ 2)
    + P.E * P.I / 2 * (∫ x in (0:ℝ)..P.L, fE (x / P.L) * fI (x / P.L) * w2 x ^ 2)
    + P.k1 / 2 * (∫ x in (0:ℝ)..P.L, fk1 (x / P.L) * w x ^ 2)
    + P.k3 / 4 * (P.L * ∑ j, Ij j * kj j * w (P.L * xj j) ^ 4)

/-- A weighted integral of a square over the physical beam. -/
theorem phys_form {L : ℝ} (hL : 0 < L) {f : ℝ → ℝ} (hf : BddOn f 0 1) (n : ℕ) (K : ℝ) (c : ℕ → ℝ) :
    ∫ x in (0:ℝ)..L, f (x / L) * (K * ∑ k ∈ Finset.range n, c k * Spec.mode L k x) ^ 2 = L * (K ^ 2 * form n (gal f) c c) := by
  have e : ∀ x, f (x / L) * (K * ∑ k ∈ Finset.range n, c k * Spec.mode L k x) ^ 2 =
      (fun z => K ^ 2 * (f z * (∑ k ∈ Finset.range n, c k * sin (π * ((k : ℝ) + 1) * z)) ^ 2)) (x / L) := fun x => by
    simp only [mode_div hL]; ring
  simp_rw [e]
  rw [integral_comp_div (fun z => K ^ 2 * (f z * (∑ k ∈ Finset.range n, c k * sin (π * ((k : ℝ) + 1) * z)) ^ 2)) hL.ne', zero_div,
    div_self hL.ne', smul_eq_mul, intervalIntegral.integral_const_mul,
    ← form_int hf n (fun i z => sin (π * ((i : ℝ) + 1) * z)) (fun i => by fun_prop)]
  rfl

theorem gal_symm (f : ℝ → ℝ) (i j : ℕ) : gal f i j = gal f j i := by
  unfold gal; congr 1; funext z; ring

theorem form_lin (n : ℕ) (a : ℕ → ℕ → ℝ) (d c : ℕ → ℝ) : form n a (fun k => d k * c k) (fun k => d k * c k) =
    form n (fun i j => d i * d j * a i j) c c := by
  unfold form
  refine Finset.sum_congr rfl fun i _ => Finset.sum_congr rfl fun j _ => by ring

theorem form_deriv {n : ℕ} {a : ℕ → ℕ → ℝ} (hs : ∀ i j, i < n → j < n → a i j = a j i) {c : ℝ → ℕ → ℝ} {d : ℕ → ℝ} {t : ℝ}
    (h : ∀ k < n, HasDerivAt (fun s => c s k) (d k) t) : HasDerivAt (fun s => form n a (c s) (c s)) (2 * form n a d (c t)) t := by
  have : HasDerivAt (fun s => form n a (c s) (c s)) (form n a d (c t) + form n a (c t) d) t := by
    unfold form
    rw [← Finset.sum_add_distrib]
    refine HasDerivAt.fun_sum fun i hi => ?_
    rw [← Finset.sum_add_distrib]
    refine HasDerivAt.fun_sum fun j hj => ?_
    exact ((h i (Finset.mem_range.1 hi)).mul_const (a i j)).fun_mul (h j (Finset.mem_range.1 hj))
  rw [form_symm hs (c t) d] at this
  exact this.congr_deriv (by ring)

/-- Energy in normalised coordinates. -/
noncomputable def SBeam.nEnergy (s : SBeam) (M : SMats) (q qd : ℕ → ℝ) : ℝ :=
  1 / 2 * form s.n M.lam qd qd - 1 / 2 * form s.n M.psiq q q
    + s.k3 / 4 * ∑ j, M.Ij j * M.k3j j * (∑ k ∈ Finset.range s.n, q k * phiSS (M.xj j) (s.beta.getD k 0)) ^ 4

theorem nEnergy_deriv {s : SBeam} {M : SMats} (h1 : ∀ i j, i < s.n → j < s.n → M.lam i j = M.lam j i)
    (h2 : ∀ i j, i < s.n → j < s.n → M.psiq i j = M.psiq j i) {q qd : ℝ → ℕ → ℝ} {a st : ℕ → ℝ} {t : ℝ}
    (hq : ∀ k < s.n, HasDerivAt (fun r => q r k) (qd t k) t) (hqd : ∀ k < s.n, HasDerivAt (fun r => qd r k) (a k) t)
    (hb : ∀ i < s.n, dotV s.n M.lam a i = s.rhsR M (q t) (qd t) t (st i) i) :
    HasDerivAt (fun r => s.nEnergy M (q r) (qd r)) (form s.n M.psiqd (qd t) (qd t)
      + ∑ i ∈ Finset.range s.n, qd t i * (s.moving (s.beta.getD i 0) t + st i)) t := by
  have d1 := (form_deriv h1 hqd).const_mul (1 / 2)
  have d2 := (form_deriv h2 hq).const_mul (1 / 2)
  have d3 : HasDerivAt (fun r => s.k3 / 4 * ∑ j, M.Ij j * M.k3j j * (∑ k ∈ Finset.range s.n, q r k * phiSS (M.xj j) (s.beta.getD k 0)) ^ 4)
      (s.k3 / 4 * ∑ j, M.Ij j * M.k3j j * (4 * (∑ k ∈ Finset.range s.n, q t k * phiSS (M.xj j) (s.beta.getD k 0)) ^ 3 *
        ∑ k ∈ Finset.range s.n, qd t k * phiSS (M.xj j) (s.beta.getD k 0))) t := by
    refine HasDerivAt.const_mul _ (HasDerivAt.fun_sum fun j _ => HasDerivAt.const_mul _ ?_)
    have : HasDerivAt (fun r => ∑ k ∈ Finset.range s.n, q r k * phiSS (M.xj j) (s.beta.getD k 0))
        (∑ k ∈ Finset.range s.n, qd t k * phiSS (M.xj j) (s.beta.getD k 0)) t :=
      HasDerivAt.fun_sum fun k hk => (hq k (Finset.mem_range.1 hk)).mul_const _
    exact (this.fun_pow 4).congr_deriv (by norm_num)
  refine ((d1.fun_sub d2).fun_add d3).congr_deriv ?_
  have e1 : form s.n M.lam a (qd t) = form s.n M.lam (qd t) a := form_symm h1 _ _
  have e2 : form s.n M.lam (qd t) a = form s.n M.psiq (qd t) (q t) + form s.n M.psiqd (qd t) (qd t)
      + (∑ i ∈ Finset.range s.n, qd t i * (s.moving (s.beta.getD i 0) t + st i))
      - s.k3 * ∑ i ∈ Finset.range s.n, qd t i * M.cubic s.n (fun k => s.beta.getD k 0) (q t) (s.beta.getD i 0) := by
    rw [form_vec, form_vec, form_vec, Finset.mul_sum, ← Finset.sum_add_distrib, ← Finset.sum_add_distrib, ← Finset.sum_sub_distrib]
    refine Finset.sum_congr rfl fun i hi => ?_
    rw [hb i (Finset.mem_range.1 hi)]
    unfold SBeam.rhsR sbCoeff
    ring
  have e3 : ∑ i ∈ Finset.range s.n, qd t i * M.cubic s.n (fun k => s.beta.getD k 0) (q t) (s.beta.getD i 0) =
      ∑ j, M.Ij j * M.k3j j * ((∑ k ∈ Finset.range s.n, q t k * phiSS (M.xj j) (s.beta.getD k 0)) ^ 3 *
        ∑ k ∈ Finset.range s.n, qd t k * phiSS (M.xj j) (s.beta.getD k 0)) := by
    unfold SMats.cubic
    simp only [Finset.mul_sum]
    rw [Finset.sum_comm]
    refine Finset.sum_congr rfl fun j _ => Finset.sum_congr rfl fun i _ => by ring
  have e4 : ∑ j, M.Ij j * M.k3j j * (4 * (∑ k ∈ Finset.range s.n, q t k * phiSS (M.xj j) (s.beta.getD k 0)) ^ 3 *
        ∑ k ∈ Finset.range s.n, qd t k * phiSS (M.xj j) (s.beta.getD k 0)) = 4 * ∑ j, M.Ij j * M.k3j j *
        ((∑ k ∈ Finset.range s.n, q t k * phiSS (M.xj j) (s.beta.getD k 0)) ^ 3 *
        ∑ k ∈ Finset.range s.n, qd t k * phiSS (M.xj j) (s.beta.getD k 0)) := by
    rw [Finset.mul_sum]; exact Finset.sum_congr rfl fun j _ => by ring
  rw [e4, e1, e2, e3]
  ring

/-- A force on the beam: its power is force times velocity. -/
theorem power_sum (L : ℝ) (n : ℕ) (c : ℕ → ℝ) (F : List (ℝ × ℝ)) :
    ∑ i ∈ Finset.range n, c i * (F.map fun q => q.2 * Spec.mode L i q.1).sum = (F.map fun q => q.2 * ∑ i ∈ Finset.range n, c i * Spec.mode L i q.1).sum := by
  induction F with
  | nil => simp
  | cons a l ih =>
    simp only [List.map_cons, List.sum_cons, mul_add, Finset.sum_add_distrib, ih]
    congr 1
    rw [Finset.mul_sum]
    exact Finset.sum_congr rfl fun i _ => by ring

theorem sum_of_lists {α : Type} (n : ℕ) (c : ℕ → ℝ) (l : List α) (g : ℕ → α → ℝ) :
    ∑ i ∈ Finset.range n, c i * (l.map (g i)).sum = (l.map fun a => ∑ i ∈ Finset.range n, c i * g i a).sum := by
  induction l with
  | nil => simp
  | cons a l ih => simp only [List.map_cons, List.sum_cons, mul_add, Finset.sum_add_distrib, ih]

/-- The normalised energy is the physical one over `E A L`. -/
theorem energy_eq {P : SPhys} {S : Set ℝ} {fE fI frho fA fk1 fmu : ℝ → ℝ} {s : SBeam} (hc : Spec.Curves s.bars S fE fI frho fA fk1 fmu)
    (hkf : s.kf = 1 / P.L * √(P.I / P.A)) (hk1 : s.k1 = P.k1 * P.L ^ 2 / (P.E * P.A)) (hk3 : s.k3 = P.k3 * P.L ^ 4 / (P.E * P.A))
    {M : SMats}
    (l1 : ∀ i j, i < s.n → j < s.n → M.lam i j = gal (fun z => frho z * fA z) i j)
    (l2 : ∀ i j, i < s.n → j < s.n → M.psiq i j = -s.kf ^ 2 * ((π * ((i : ℝ) + 1)) ^ 2 * (π * ((j : ℝ) + 1)) ^ 2 * gal (fun z => fE z * fI z) i j)
        - s.k1 * gal fk1 i j) (q qd : ℕ → ℝ) :
    Spec.senergy P fE fI frho fA fk1 M.xj M.Ij M.k3j (Spec.shape P.L s.n q)
      (Spec.shape P.L s.n fun k => qd k * (√(P.E / P.rho) / P.L))
      (fun x => P.L * ∑ k ∈ Finset.range s.n, -(q k * (((k : ℝ) + 1) * π / P.L) ^ 2) * Spec.mode P.L k x) =
    P.E * P.A * P.L * s.nEnergy M q qd := by
  have hE := P.hE
  have hr := P.hrho
  have hA := P.hA
  have hI := P.hI
  have hL := P.hL
  set r := √(P.E / P.rho) / P.L with hrd
  have s1 : r ^ 2 = P.E / P.rho / P.L ^ 2 := by rw [hrd, div_pow, sq_sqrt (by positivity)]
  have s4 : √(P.I / P.A) ^ 2 = P.I / P.A := sq_sqrt (by positivity)
  have b1 := (Profile.bdd hc.rho).mul (Profile.bdd hc.A)
  have b3 := Profile.bdd hc.k1
  have b4 := (Profile.bdd hc.E).mul (Profile.bdd hc.I)
  unfold Spec.senergy
  have t1 : ∫ x in (0:ℝ)..P.L, frho (x / P.L) * fA (x / P.L) * Spec.shape P.L s.n (fun k => qd k * r) x ^ 2 =
      P.L * ((P.L * r) ^ 2 * form s.n M.lam qd qd) := by
    rw [form_congr l1, ← phys_form hL b1]
    congr 1; funext x
    unfold Spec.shape
    rw [Finset.mul_sum, Finset.mul_sum]
    congr 2
    exact Finset.sum_congr rfl fun k _ => by ring
  have t2 : ∫ x in (0:ℝ)..P.L, fE (x / P.L) * fI (x / P.L) * (P.L * ∑ k ∈ Finset.range s.n, -(q k * (((k : ℝ) + 1) * π / P.L) ^ 2) * Spec.mode P.L k x) ^ 2 =
      P.L * ((-(1 / P.L)) ^ 2 * form s.n (fun i j => (π * ((i : ℝ) + 1)) ^ 2 * (π * ((j : ℝ) + 1)) ^ 2 * gal (fun z => fE z * fI z) i j) q q) := by
    rw [← form_lin, ← phys_form hL b4]
    congr 1; funext x
    rw [Finset.mul_sum, Finset.mul_sum]
    congr 2
    refine Finset.sum_congr rfl fun k _ => by field_simp
  have t3 : ∫ x in (0:ℝ)..P.L, fk1 (x / P.L) * Spec.shape P.L s.n q x ^ 2 = P.L * (P.L ^ 2 * form s.n (gal fk1) q q) := by
    rw [← phys_form hL b3]; rfl
  have t4 : ∑ j, M.Ij j * M.k3j j * Spec.shape P.L s.n q (P.L * M.xj j) ^ 4 =
      P.L ^ 4 * ∑ j, M.Ij j * M.k3j j * (∑ k ∈ Finset.range s.n, q k * phiSS (M.xj j) (s.beta.getD k 0)) ^ 4 := by
    rw [Finset.mul_sum]
    refine Finset.sum_congr rfl fun j _ => ?_
    have e : Spec.shape P.L s.n q (P.L * M.xj j) = P.L * ∑ k ∈ Finset.range s.n, q k * phiSS (M.xj j) (s.beta.getD k 0) := by
      unfold Spec.shape
      congr 1
      refine Finset.sum_congr rfl fun k hk => ?_
      rw [beta_getD s (Finset.mem_range.1 hk), mode_div hL, mul_div_cancel_left₀ _ hL.ne']
      rfl
    rw [e]; ring
  have t5 : form s.n M.psiq q q = -s.kf ^ 2 * form s.n (fun i j => (π * ((i : ℝ) + 1)) ^ 2 * (π * ((j : ℝ) + 1)) ^ 2 * gal (fun z => fE z * fI z) i j) q q
      + -s.k1 * form s.n (gal fk1) q q := by
    rw [form_congr l2, ← form_smul, ← form_smul, ← form_add]
    exact form_congr (fun i j _ _ => by ring) _ _
  rw [t1, t2, t3, t4]
  unfold SBeam.nEnergy
  rw [t5, hkf, hk1, hk3, mul_pow, mul_pow, s4, s1]
  generalize form s.n (fun i j => (π * ((i : ℝ) + 1)) ^ 2 * (π * ((j : ℝ) + 1)) ^ 2 * gal (fun z => fE z * fI z) i j) q q = X1
  generalize form s.n (gal fk1) q q = X2
  generalize form s.n M.lam qd qd = X3
  field_simp
  ring

/-- **C180.** Along every run of the numerical solution with physical input and varying properties, the energy of beam and
foundation (with the profiles) changes at the rate *power of all forces (force times velocity of the beam
where it acts)* minus *dissipation `∫ μ V²`* — the loads as in claim `C179_equation_of_motion_general`. -/
theorem C180_power_balance {P : SPhys} {n : ℕ} {nq : Option ℕ} {m : MArgs} {sa : StArgs} {B : Bars} {impl : Impl} {s : SBeam}
    {vs : List Vehicle} {ls : List SLoad} (hm : Spec.Moving P.L m vs) (hv : ∀ c ∈ vs, c.v ≠ 0) (hs : Spec.Still sa ls) (hp : ∀ l ∈ ls, Spec.Proper l)
    {S : Set ℝ} {fE fI frho fA fk1 fmu : ℝ → ℝ} (hc : Spec.Curves B S fE fI frho fA fk1 fmu)
    {pts : List (ℝ × ℝ)} (hpts : B.k1.getXY.1 = .ok pts)
    (hinit : SBeam.init n (P.args nq) m sa B impl = .ok s) {M : SMats} (hM : s.matrices = .ok M) {T0 T1 : ℝ} {y : ℝ → ℕ → ℝ} (h : SRun s M T0 T1 y) :
    ∃ V w2 : ℝ → ℝ → ℝ, ∀ t, tNorm P.E P.rho P.L t ∈ Set.Ioo T0 T1 →
      (∀ x, HasDerivAt (fun t => P.defl n y x t) (V x t) t) ∧
      (∃ w4, Spec.SimplySupported P.L (fun x => P.defl n y x t) (fun x => w2 x t) w4) ∧
      HasDerivAt (fun t => Spec.senergy P fE fI frho fA fk1 M.xj M.Ij (fun j => polyLeft pts (M.xj j))
          (fun x => P.defl n y x t) (fun x => V x t) (fun x => w2 x t))
        ((vs.map fun c => ((c.pointLoads t).map fun q => q.2 * V q.1 t).sum).sum
          + (ls.map fun l => P.codeForce l t * V l.x t).sum
          - P.mu * ∫ x in (0:ℝ)..P.L, fmu (x / P.L) * V x t ^ 2) t := by
  obtain ⟨e1, e2, e3, e4, e5, e6, e7, e8, e9, e10, e11⟩ := init_phys hm hs hp hinit
  subst e1
  subst e10
  obtain ⟨m, xj, Ij, hq⟩ : ∃ m xj Ij, s.quad = .rule m xj Ij := by
    rcases e : s.quad with _ | _ | ⟨m, xj, Ij⟩
    · exfalso
      unfold SBeam.matrices at hM
      rw [e] at hM
      revert hM
      simp only [Bind.bind, Except.bind]
      split <;> [simp; (split <;> [simp; (split <;> [simp; (split <;> simp)])])]
    · exfalso
      unfold SBeam.matrices at hM
      rw [e] at hM
      revert hM
      simp only [Bind.bind, Except.bind]
      split <;> [simp; (split <;> [simp; (split <;> [simp; (split <;> simp)])])]
    · exact ⟨m, xj, Ij, rfl⟩
  obtain ⟨lam, psiq, psiqd, hM', l1, l2, l3⟩ := matrices_ok s hc hq hpts
  rw [hM] at hM'
  obtain rfl := Except.ok.inj hM'
  set M : SMats := ⟨lam, psiq, psiqd, m, xj, Ij, fun j => polyLeft pts (xj j)⟩ with hMd
  set r := √(P.E / P.rho) / P.L with hr
  set T := tNorm P.E P.rho P.L with hT
  refine ⟨fun x t => Spec.shape P.L s.n (fun k => y (T t) (s.n + k) * r) x,
    fun x t => P.L * ∑ k ∈ Finset.range s.n, -(y (T t) k * (((k : ℝ) + 1) * π / P.L) ^ 2) * Spec.mode P.L k x, fun t ht => ?_⟩
  obtain ⟨a, ha1, ha2, ha3⟩ := h.rate ht
  refine ⟨fun x => sdefl_t P s.n y (fun k => y (T t) (s.n + k)) t x fun k hk => ha1 k hk, ⟨_, shape_ss P.hL s.n _⟩, ?_⟩
  have he : ∀ u, Spec.senergy P fE fI frho fA fk1 M.xj M.Ij (fun j => polyLeft pts (M.xj j))
      (fun x => P.defl s.n y x u) (fun x => Spec.shape P.L s.n (fun k => y (T u) (s.n + k) * r) x)
      (fun x => P.L * ∑ k ∈ Finset.range s.n, -(y (T u) k * (((k : ℝ) + 1) * π / P.L) ^ 2) * Spec.mode P.L k x) =
      P.E * P.A * P.L * s.nEnergy M (y (T u)) (fun k => y (T u) (s.n + k)) := fun u =>
    energy_eq (P := P) (M := M) hc e3 e5 e6 l1 l2 (y (T u)) (fun k => y (T u) (s.n + k))
  simp_rw [he]
  -- the stationary part
  set st : ℕ → ℝ := fun i => (ls.map fun l => polyLeft l.pts t * (match l.om with
        | none => 1
        | some o => cos (o.1 * t + o.2 / (P.E * P.A))) / (P.E * P.A) * sin (s.beta.getD i 0 * (l.x / P.L))).sum with hst
  have hb : ∀ i < s.n, dotV s.n M.lam a i = s.rhsR M (y (T t)) (fun k => y (T t) (s.n + k)) (T t) (st i) i := fun i hi => by
    obtain ⟨st', h1, h2⟩ := ha3 i hi
    rw [e8] at h1
    rw [← Except.ok.inj h1] at h2
    exact h2
  have sy1 : ∀ i j, i < s.n → j < s.n → M.lam i j = M.lam j i := fun i j hi hj => by
    rw [show M.lam = lam from rfl, l1 i j hi hj, l1 j i hj hi, gal_symm]
  have sy2 : ∀ i j, i < s.n → j < s.n → M.psiq i j = M.psiq j i := fun i j hi hj => by
    rw [show M.psiq = psiq from rfl, l2 i j hi hj, l2 j i hj hi, gal_symm, gal_symm fk1]; ring
  have key := (nEnergy_deriv (q := y) (qd := fun u k => y u (s.n + k)) sy1 sy2 ha1 ha2 hb).comp t (tNorm_deriv P.E P.rho P.L t)
  refine (key.const_mul (P.E * P.A * P.L)).congr_deriv ?_
  rw [← hr]
  have hE := P.hE
  have hrho := P.hrho
  have hA := P.hA
  have hL := P.hL
  have p1 : P.mu * ∫ x in (0:ℝ)..P.L, fmu (x / P.L) * Spec.shape P.L s.n (fun k => y (T t) (s.n + k) * r) x ^ 2 =
      -(P.E * P.A * P.L * (form s.n M.psiqd (fun k => y (T t) (s.n + k)) (fun k => y (T t) (s.n + k)) * r)) := by
    have t1 : ∫ x in (0:ℝ)..P.L, fmu (x / P.L) * Spec.shape P.L s.n (fun k => y (T t) (s.n + k) * r) x ^ 2 =
        P.L * ((P.L * r) ^ 2 * form s.n (gal fmu) (fun k => y (T t) (s.n + k)) (fun k => y (T t) (s.n + k))) := by
      rw [← phys_form hL (Profile.bdd hc.mu)]
      congr 1; funext x
      unfold Spec.shape
      rw [Finset.mul_sum, Finset.mul_sum]
      congr 2
      exact Finset.sum_congr rfl fun k _ => by ring
    rw [t1, form_congr (a := M.psiqd) (b := fun i j => -s.mu * gal fmu i j) l3, form_smul, e4]
    have s3 : √(P.L ^ 2 / (P.rho * P.E)) * √(P.E / P.rho) = P.L / P.rho := by
      rw [← sqrt_mul (by positivity), show P.L ^ 2 / (P.rho * P.E) * (P.E / P.rho) = (P.L / P.rho) ^ 2 by field_simp]
      exact sqrt_sq (by positivity)
    have ss : 0 < √(P.E / P.rho) := sqrt_pos.2 (by positivity)
    have s5 : √(P.L ^ 2 / (P.rho * P.E)) = P.L / P.rho / √(P.E / P.rho) := by rw [← s3]; field_simp
    have s6 : √(P.E / P.rho) ^ 2 = P.E / P.rho := sq_sqrt (by positivity)
    rw [s5]
    have s7 : r = √(P.E / P.rho) / P.L := rfl
    generalize form s.n (gal fmu) (fun k => y (T t) (s.n + k)) (fun k => y (T t) (s.n + k)) = X
    rw [s7, mul_div_cancel₀ _ hL.ne', s6]
    field_simp
  have p2 : (vs.map fun c => ((c.pointLoads t).map fun q => q.2 * Spec.shape P.L s.n (fun k => y (T t) (s.n + k) * r) q.1).sum).sum =
      P.L * r * ∑ i ∈ Finset.range s.n, y (T t) (s.n + i) * (P.E * P.A * s.moving (s.beta.getD i 0) (T t)) := by
    rw [Finset.sum_congr rfl fun i hi => by rw [moving_ok e7 hv (Finset.mem_range.1 hi)],
      sum_of_lists s.n (fun i => y (T t) (s.n + i)) vs (fun i c => ((c.pointLoads t).map fun q => q.2 * Spec.mode P.L i q.1).sum),
      ← List.sum_map_mul_left]
    congr 1
    refine List.map_congr_left fun c _ => ?_
    rw [power_sum, ← List.sum_map_mul_left]
    congr 1
    refine List.map_congr_left fun q _ => ?_
    unfold Spec.shape
    simp only [Finset.mul_sum]
    exact Finset.sum_congr rfl fun k _ => by ring
  have p3 : (ls.map fun l => P.codeForce l t * Spec.shape P.L s.n (fun k => y (T t) (s.n + k) * r) l.x).sum =
      P.L * r * ∑ i ∈ Finset.range s.n, y (T t) (s.n + i) * (P.E * P.A * st i) := by
    have g : ∀ i ∈ Finset.range s.n, y (T t) (s.n + i) * (P.E * P.A * st i) =
        y (T t) (s.n + i) * (ls.map fun l => P.codeForce l t * Spec.mode P.L i l.x).sum := fun i hi => by
      congr 1
      rw [hst, ← List.sum_map_mul_left]
      congr 1
      refine List.map_congr_left fun l _ => ?_
      rw [mode_div P.hL, beta_getD s (Finset.mem_range.1 hi)]
      unfold SPhys.codeForce Spec.force
      have hE := P.hE.ne'
      have hA := P.hA.ne'
      rcases ho : l.om with _ | o <;> simp only [ho, Option.map_none, Option.map_some] <;> field_simp
    rw [Finset.sum_congr rfl g, sum_of_lists s.n (fun i => y (T t) (s.n + i)) ls (fun i l => P.codeForce l t * Spec.mode P.L i l.x),
      ← List.sum_map_mul_left]
    congr 1
    refine List.map_congr_left fun l _ => ?_
    unfold Spec.shape
    simp only [Finset.mul_sum]
    exact Finset.sum_congr rfl fun k _ => by ring
  rw [p1, p2, p3]
  have e : ∀ i ∈ Finset.range s.n, y (T t) (s.n + i) * (s.moving (s.beta.getD i 0) (T t) + st i) =
      y (T t) (s.n + i) * s.moving (s.beta.getD i 0) (T t) + y (T t) (s.n + i) * st i := fun i _ => by ring
  have c1 : ∀ g : ℕ → ℝ, ∑ i ∈ Finset.range s.n, y (T t) (s.n + i) * (P.E * P.A * g i) =
      P.E * P.A * ∑ i ∈ Finset.range s.n, y (T t) (s.n + i) * g i := fun g => by
    rw [Finset.mul_sum]; exact Finset.sum_congr rfl fun i _ => by ring
  rw [Finset.sum_congr rfl e, Finset.sum_add_distrib, c1, c1]
  ring

/-- **C180.** So a beam that has lost all its loads only loses energy: over any stretch of the run in which no axle is on the beam
and all stationary forces are zero, with non-negative damping the energy never grows. -/
theorem C180_energy_decays {P : SPhys} {n : ℕ} {nq : Option ℕ} {m : MArgs} {sa : StArgs} {B : Bars} {impl : Impl} {s : SBeam}
    {vs : List Vehicle} {ls : List SLoad} (hm : Spec.Moving P.L m vs) (hv : ∀ c ∈ vs, c.v ≠ 0) (hs : Spec.Still sa ls) (hp : ∀ l ∈ ls, Spec.Proper l)
    {S : Set ℝ} {fE fI frho fA fk1 fmu : ℝ → ℝ} (hc : Spec.Curves B S fE fI frho fA fk1 fmu)
    {pts : List (ℝ × ℝ)} (hpts : B.k1.getXY.1 = .ok pts)
    (hinit : SBeam.init n (P.args nq) m sa B impl = .ok s) {M : SMats} (hM : s.matrices = .ok M) {T0 T1 : ℝ} {y : ℝ → ℕ → ℝ} (h : SRun s M T0 T1 y)
    (hmu : 0 ≤ P.mu) (hfmu : ∀ z, 0 ≤ z → z ≤ 1 → 0 ≤ fmu z) :
    ∃ V w2 : ℝ → ℝ → ℝ, (∀ t, tNorm P.E P.rho P.L t ∈ Set.Ioo T0 T1 → (∀ x, HasDerivAt (fun t => P.defl n y x t) (V x t) t) ∧
        ∃ w4, Spec.SimplySupported P.L (fun x => P.defl n y x t) (fun x => w2 x t) w4) ∧
      ∀ a b, T0 < tNorm P.E P.rho P.L a → tNorm P.E P.rho P.L b < T1 →
        (∀ t ∈ Set.Icc a b, (∀ c ∈ vs, ∀ ax ∈ c.axles, ¬ Spec.OnBeam c ax t) ∧ ∀ l ∈ ls, P.codeForce l t = 0) →
        ∀ t ∈ Set.Icc a b, ∀ t' ∈ Set.Icc a b, t ≤ t' →
          Spec.senergy P fE fI frho fA fk1 M.xj M.Ij (fun j => polyLeft pts (M.xj j)) (fun x => P.defl n y x t') (fun x => V x t') (fun x => w2 x t') ≤
          Spec.senergy P fE fI frho fA fk1 M.xj M.Ij (fun j => polyLeft pts (M.xj j)) (fun x => P.defl n y x t) (fun x => V x t) (fun x => w2 x t) := by
  obtain ⟨V, w2, H⟩ := C180_power_balance hm hv hs hp hc hpts hinit hM h
  refine ⟨V, w2, fun t ht => ⟨(H t ht).1, (H t ht).2.1⟩, fun a b ha hb hz t ht t' ht' htt => ?_⟩
  have hin : ∀ u ∈ Set.Icc a b, tNorm P.E P.rho P.L u ∈ Set.Ioo T0 T1 := fun u hu => by
    have hr := rate_pos P
    rw [tNorm_mul] at ha hb ⊢
    constructor
    · exact ha.trans_le (mul_le_mul_of_nonneg_right hu.1 hr.le)
    · exact (mul_le_mul_of_nonneg_right hu.2 hr.le).trans_lt hb
  refine antitoneOn_of_deriv_nonpos (convex_Icc a b) (fun u hu => (H u (hin u hu)).2.2.continuousAt.continuousWithinAt)
    (fun u hu => (H u (hin u (interior_subset hu))).2.2.differentiableAt.differentiableWithinAt) (fun u hu => ?_) ht ht' htt
  have hu' := interior_subset hu
  rw [(H u (hin u hu')).2.2.deriv]
  obtain ⟨z1, z2⟩ := hz u hu'
  have f1 : (vs.map fun c => ((c.pointLoads u).map fun q => q.2 * V q.1 u).sum).sum = 0 := by
    refine List.sum_eq_zero fun x hx => ?_
    obtain ⟨c, hcm, rfl⟩ := List.mem_map.1 hx
    rw [C174_point_loads_error c (hv c hcm), List.map_map]
    refine List.sum_eq_zero fun x hx => ?_
    obtain ⟨ax, hax, rfl⟩ := List.mem_map.1 hx
    simp only [Function.comp]
    rw [if_neg (z1 c hcm ax hax), zero_mul]
  have f2 : (ls.map fun l => P.codeForce l u * V l.x u).sum = 0 := by
    refine List.sum_eq_zero fun x hx => ?_
    obtain ⟨l, hl, rfl⟩ := List.mem_map.1 hx
    rw [z2 l hl, zero_mul]
  have f3 : 0 ≤ ∫ x in (0:ℝ)..P.L, fmu (x / P.L) * V x u ^ 2 := by
    refine intervalIntegral.integral_nonneg P.hL.le fun x hx => ?_
    exact mul_nonneg (hfmu _ (div_nonneg hx.1 P.hL.le) (by rw [div_le_one P.hL]; exact hx.2)) (sq_nonneg _)
  rw [f1, f2]
  have := mul_nonneg hmu f3
  linarith

end Geotecha.Beam
