import Verif.Beam.SpecAnaPhys
import Verif.Beam.SpecEx

/-!
# The claims C184 to C186 are not vacuous
-/
set_option autoImplicit false
set_option linter.unusedVariables false

namespace Geotecha.Beam

open Real Geotecha.Speccon Geotecha.Piecewise Geotecha.Spec Ana

/-- C184: a ramp from 0 to 2 over times 0 to 1 and an eigenvalue `1 + i`. -/
example (load : ℝ → ℝ) (hl : LoadCurve load [0, 1] [0, 2]) :
    Cx.eloadLinear .vectorized [0, 1] [0, 2] 1 3 (1 + Complex.I) =
      .ok (∫ τ in (0:ℝ)..3, (load τ : ℂ) * Complex.exp (-(((1:ℝ) : ℂ) * (1 + Complex.I)) * (((3:ℝ):ℂ) - τ))) := by
  refine Cx.C184_Eload_linear_complex .vectorized [0, 1] [0, 2] 1 0 3 _ load (by simp) (by simp [SortedLe]) hl ?_ ?_ (by simp) (by norm_num)
  · intro k hk _ h
    simp at hk
    subst hk
    simp at h
  · intro h
    have := congrArg Complex.re h
    simp at this

/-- C184: the same with a factor `sin(2 τ)`, and the failure with a cosine. -/
example (load : ℝ → ℝ) (hl : LoadCurve load [0, 1] [0, 2]) :
    Cx.eloadSin .scalar [0, 1] [0, 2] 2 0 1 3 (1 + Complex.I) =
      .ok (∫ τ in (0:ℝ)..3, ((load τ * sin (2 * τ + 0) : ℝ) : ℂ) * Complex.exp (-(((1:ℝ) : ℂ) * (1 + Complex.I)) * (((3:ℝ):ℂ) - τ))) ∧
    Cx.eloadCos .vectorized [0, 1] [0, 2] 2 0 1 3 (1 + Complex.I) = .error .typeError := by
  have hr : NoRepeatedPoint ([0, 1] : List ℝ) ([0, 2] : List ℝ) := by
    intro k hk _ h
    simp at hk
    subst hk
    simp at h
  refine ⟨Cx.C184_Eload_sin_complex .scalar [0, 1] [0, 2] 2 0 1 0 3 _ load (by simp) (by simp [SortedLe]) hl hr ?_ ?_ (by simp) (by norm_num), 
    Cx.C184_Eload_cos_complex_fails _ _ _ _ _ _ _ (by simp) (by simp) (by simp [SortedLe]) hr (by simp) (by simp)⟩
  · intro h
    have := congrArg Complex.re h
    simp at this
  · intro h
    have := congrArg Complex.re h
    simp [pow_two, Complex.mul_re, Complex.mul_im] at this

/-- A linear beam with unit values. -/
def lin : SPhys := ⟨1, 1, 1, 1, 1, 1, 0, 1, one_pos, one_pos, one_pos, one_pos, one_pos⟩

/-- A force of 2 that crosses the beam at speed 1 from time zero. -/
def cross : MArgs := ⟨some [[0]], some [[2]], some [1], none, none, none, none, none, none, none, none, none, none, none⟩

/-- A force at midspan that grows from 0 to 3 in two seconds. -/
noncomputable def grow : StArgs := ⟨some [1/2], some [⟨some [(0, 0), (2, 3)], true, true, none⟩], none, none, none, none⟩

theorem two_roots : ∃ a b : ℂ, a ≠ b ∧ a * a - a + ((π ^ 4 + 1 : ℝ) : ℂ) = 0 ∧ b * b - b + ((π ^ 4 + 1 : ℝ) : ℂ) = 0 ∧ a.im ≠ 0 := by
  have hk : 0 < π ^ 4 + 3 / 4 := by positivity
  have hs : √(π ^ 4 + 3 / 4) * √(π ^ 4 + 3 / 4) = π ^ 4 + 3 / 4 := mul_self_sqrt hk.le
  have hp : 0 < √(π ^ 4 + 3 / 4) := sqrt_pos.2 hk
  refine ⟨⟨1/2, √(π ^ 4 + 3 / 4)⟩, ⟨1/2, -√(π ^ 4 + 3 / 4)⟩, ?_, ?_, ?_, ?_⟩
  · intro h
    have := congrArg Complex.im h
    dsimp only at this
    linarith
  · apply Complex.ext
    · simp only [Complex.add_re, Complex.sub_re, Complex.mul_re, Complex.ofReal_re, Complex.zero_re]; linarith
    · simp only [Complex.add_im, Complex.sub_im, Complex.mul_im, Complex.ofReal_im, Complex.zero_im]; ring
  · apply Complex.ext
    · simp only [Complex.add_re, Complex.sub_re, Complex.mul_re, Complex.ofReal_re, Complex.zero_re]; linarith
    · simp only [Complex.add_im, Complex.sub_im, Complex.mul_im, Complex.ofReal_im, Complex.zero_im]; ring
  · exact hp.ne'

/-- One term: an `np.linalg.eig` for the matrices of the beam. -/
theorem one_eig {M : SMats} (h1 : M.lam 0 0 = 1 / 2) (h2 : M.psiq 0 0 = -(π ^ 4 + 1) / 2) (h3 : M.psiqd 0 0 = -1 / 2) :
    ∃ eig : Matrix (Fin 1 ⊕ Fin 1) (Fin 1 ⊕ Fin 1) ℝ → (Fin 1 ⊕ Fin 1 → ℂ) × Matrix (Fin 1 ⊕ Fin 1) (Fin 1 ⊕ Fin 1) ℂ,
      (∀ A, Spec.Eig A (eig A)) ∧ ∃ e, M.eigsAndV 1 eig = .ok e ∧ ∃ j, (e.eigs j).im ≠ 0 := by
  obtain ⟨a, b, hab, ha, hb, him⟩ := two_roots
  have hdet : (M.gam 1).det = 1 / 2 := by
    unfold SMats.gam
    rw [Matrix.det_fromBlocks_zero₂₁, Matrix.det_one, one_mul]
    simp [blk, h1]
  set A₁ : Matrix (Fin 1 ⊕ Fin 1) (Fin 1 ⊕ Fin 1) ℝ := Matrix.fromBlocks 0 (-1) (Matrix.of fun _ _ => π ^ 4 + 1) 1 with hA₁
  have hA : (M.gam 1)⁻¹ * M.psi 1 = A₁ := by
    have : M.psi 1 = M.gam 1 * A₁ := by
      ext i j
      rcases i with i | i <;> rcases j with j | j <;> fin_cases i <;> fin_cases j <;>
        simp [SMats.psi, SMats.gam, hA₁, Matrix.mul_apply, Fintype.sum_sum_type, blk, h1, h2, h3]
      · ring
      · norm_num
    rw [this, ← Matrix.mul_assoc, Matrix.nonsing_inv_mul _ (by rw [hdet]; norm_num), Matrix.one_mul]
  set lamv : Fin 1 ⊕ Fin 1 → ℂ := Sum.elim (fun _ => a) (fun _ => b) with hl
  set V : Matrix (Fin 1 ⊕ Fin 1) (Fin 1 ⊕ Fin 1) ℂ := Matrix.fromBlocks 1 1 (Matrix.of fun _ _ => -a) (Matrix.of fun _ _ => -b) with hV
  have hVdet : V.det ≠ 0 := by
    rw [hV, Matrix.det_fromBlocks_one₁₁, Matrix.det_fin_one]
    simp only [Matrix.sub_apply, Matrix.mul_one, Matrix.of_apply]
    intro h
    exact hab (by linear_combination h)
  classical
  refine ⟨fun A => if A = A₁ then (lamv, V) else (0, 0), fun A => ?_, ?_⟩
  · by_cases h : A = A₁
    · rw [h]
      simp only [if_true]
      intro j k
      rcases k with k | k <;> rcases j with j | j <;> fin_cases k <;> fin_cases j <;>
        simp [hA₁, hV, hl, Fintype.sum_sum_type]
      · push_cast at ha; linear_combination ha
      · push_cast at hb; linear_combination hb
    · simp only [if_neg h]
      intro j k
      simp
  · have hne : (cm (M.gam 1) * V).det ≠ 0 := by
      rw [Matrix.det_mul]
      refine mul_ne_zero ?_ hVdet
      have : (cm (M.gam 1)).det = (((M.gam 1).det : ℝ) : ℂ) := (Complex.ofRealHom.map_det (M.gam 1)).symm
      rw [this, hdet]
      norm_num
    refine ⟨⟨lamv, V, (cm (M.gam 1) * V)⁻¹⟩, ?_, .inl 0, ?_⟩
    · unfold SMats.eigsAndV
      rw [if_neg (by rw [hdet]; norm_num), hA]
      simp only [if_true]
      rw [if_neg hne]
    · simpa [hl] using him

theorem one_eig' {n : ℕ} (hn : n = 1) {M : SMats} (h1 : M.lam 0 0 = 1 / 2) (h2 : M.psiq 0 0 = -(π ^ 4 + 1) / 2) (h3 : M.psiqd 0 0 = -1 / 2) :
    ∃ eig : Matrix (Fin n ⊕ Fin n) (Fin n ⊕ Fin n) ℝ → (Fin n ⊕ Fin n → ℂ) × Matrix (Fin n ⊕ Fin n) (Fin n ⊕ Fin n) ℂ,
      (∀ A, Spec.Eig A (eig A)) ∧ ∃ e, M.eigsAndV n eig = .ok e ∧ ∃ j, (e.eigs j).im ≠ 0 := by
  subst hn
  exact one_eig h1 h2 h3

theorem cross_moving : Spec.Moving lin.L cross [⟨[(0, 2)], 0, 1, 1, 0, 0⟩] :=
  Or.inl ⟨rfl, rfl, rfl, Or.inr ⟨rfl, by simp⟩, Or.inr ⟨rfl, by simp⟩, Or.inr ⟨rfl, by simp⟩, Or.inr ⟨rfl, by simp [lin]⟩, rfl, rfl, rfl, rfl, rfl, rfl, rfl⟩

theorem grow_still : Spec.Still grow [⟨1/2, [(0, 0), (2, 3)], none⟩] :=
  Or.inl ⟨rfl, ⟨_, rfl, .cons rfl .nil⟩, Or.inr ⟨rfl, by simp⟩, rfl, rfl, rfl⟩

theorem grow_plain : ∀ l ∈ ([⟨1/2, [(0, 0), (2, 3)], none⟩] : List SLoad), Spec.Plain 0 2 l := by
  intro l hl
  rw [List.mem_singleton] at hl
  subst hl
  refine ⟨rfl, by simp [Spec.Increasing], ?_, ⟨(0, 0), by simp, le_rfl⟩, ⟨(2, 3), by simp, le_rfl⟩⟩
  intro p hp
  simp at hp
  rcases hp with rfl | rfl <;> norm_num

theorem cross_starts : ∀ c ∈ ([⟨[(0, 2)], 0, 1, 1, 0, 0⟩] : List Vehicle), Spec.Starts lin.L 0 c := by
  intro c hc
  rw [List.mem_singleton] at hc
  subst hc
  refine ⟨by norm_num, rfl, rfl, rfl, fun a ha => ?_⟩
  simp at ha
  subst ha
  refine ⟨by norm_num, fun t ht => ?_⟩
  unfold Spec.OnBeam Spec.axleAt at ht
  norm_num at ht
  exact ht.1

/-- C185, C186: all hypotheses of `C185_physical` and `C186_damped_beam_stable` hold for a beam with one term, a force that crosses and a
force that grows; the eigenvalues are not real, and the run exists. -/
theorem lin_case (impl : Impl) : ∃ (s : SBeam) (M : SMats) (eig : _) (e : Eigs s.n), SBeam.init 1 (lin.anaArgs (some 3)) cross grow unitBars impl = .ok s ∧
    s.matrices = .ok M ∧ (∀ A, Spec.Eig A (eig A)) ∧ M.eigsAndV s.n eig = .ok e ∧ (∃ j, (e.eigs j).im ≠ 0) ∧ (∀ j, 0 < (e.eigs j).re) ∧
    s.impl = impl ∧ Spec.OffResonance s e ∧ (∃ y, SRun s M (tNorm lin.E lin.rho lin.L 0) (tNorm lin.E lin.rho lin.L 2) y) ∧
    ∃ d, s.runAnalytical eig [1 / 4, 1 / 2] [1, 2] = .ok d := by
  have hp : ∀ l ∈ ([⟨1/2, [(0, 0), (2, 3)], none⟩] : List SLoad), Spec.Proper l := fun l hl => plain_proper (by norm_num) (grow_plain l hl)
  obtain ⟨s, M, hinit, hM, _⟩ := C183_field_total (P := lin) (n := 1) (nq := 3) (impl := impl) (by norm_num) cross_moving grow_still hp unit_curves one_pos (fun z _ _ => by norm_num)
  obtain ⟨e1, e2, e3, e4, e5, e6, e7, e8, e9, e10, e11⟩ := init_phys cross_moving grow_still hp hinit
  obtain ⟨w, hw, _⟩ := C167_ding_quadrature_exact 3 (by norm_num)
  rw [hw] at e9
  have hq := (Except.ok.inj e9).symm
  have kf1 : s.kf = 1 := by rw [e3]; simp [lin]
  have k11 : s.k1 = 1 := by rw [e5]; simp [lin]
  have mu1 : s.mu = 1 := by rw [e4]; simp [lin]
  have hc : Spec.Curves s.bars {0, 1} (fun _ => 1) (fun _ => 1) (fun _ => 1) (fun _ => 1) (fun _ => 1) (fun _ => 1) := by rw [e10]; exact unit_curves
  obtain ⟨lam, psiq, psiqd, hM', g1, g2, g3⟩ := matrices_ok s hc hq (by rw [e10]; exact unit_xy)
  rw [hM'] at hM
  obtain rfl := Except.ok.inj hM
  have m1 : lam 0 0 = 1 / 2 := by
    rw [g1 0 0 (by omega) (by omega)]
    simp [gal_one]
  have m2 : psiq 0 0 = -(π ^ 4 + 1) / 2 := by
    rw [g2 0 0 (by omega) (by omega), kf1, k11]
    simp [gal_one]
    ring
  have m3 : psiqd 0 0 = -1 / 2 := by
    rw [g3 0 0 (by omega) (by omega), mu1]
    simp [gal_one]
    norm_num
  obtain ⟨eig, h1, e, h2, h3⟩ := one_eig' e1 (M := ⟨lam, psiq, psiqd, 3, nodesSS 3, w, fun j => polyLeft [(0, 1), (1, 1)] (nodesSS 3 j)⟩) m1 m2 m3
  obtain ⟨k1, k2⟩ := C186_damped_beam_stable hM' hc (by rw [kf1]; norm_num) (by rw [k11]; norm_num) (by rw [mu1]; norm_num) one_pos (fun z _ _ => by norm_num)
    (fun z _ _ => by norm_num) (fun z _ _ => by norm_num) (fun z _ _ => by norm_num) h1 h2
  have hinit' : SBeam.init 1 (lin.anaArgs (some 3)) cross grow unitBars impl = .ok s := by rw [C185_same_object lin rfl]; exact hinit
  obtain ⟨_, ⟨y, hy⟩, H⟩ := C185_physical (P := lin) rfl (by norm_num) cross_moving cross_starts grow_still grow_plain hinit' hM' h1 h2 k2
  refine ⟨s, _, eig, e, hinit', hM', h1, h2, h3, k1, e11, k2, ⟨y, hy⟩, ?_⟩
  have := H y hy [1 / 4, 1 / 2] [1, 2] (by intro t ht; simp at ht; rcases ht with rfl | rfl <;> norm_num)
  simp only [List.map_cons, List.map_nil, tNorm, lin] at this
  norm_num at this
  exact ⟨_, by norm_num; exact this⟩

/-- The same beam with other stationary loads. -/
def SBeam.withStill (s : SBeam) (st : Stationary) : SBeam := ⟨s.n, s.L, s.kf, s.mu, s.k1, s.k3, s.veh, st, s.quad, s.bars, s.impl⟩

theorem SBeam.withStill_matrices (s : SBeam) (st : Stationary) : (s.withStill st).matrices = s.matrices := rfl

/-- A growing force with a factor `cos(2 t)`. -/
noncomputable def hum : Stationary := ⟨[1/2], [⟨some [(0, 0), (2, 3)], true, true, none⟩], [some (2, 0)]⟩

/-- `C185_harmonic_fails`: the same beam when the force at midspan has a factor `cos(2 t)`. -/
example : ∃ (s : SBeam) (eig : _), ∀ d, (s.withStill hum).runAnalytical eig [1 / 4, 1 / 2] [1, 2] ≠ .ok d := by
  obtain ⟨s, M, eig, e, hinit, hM, h1, h2, h3, _, hi, _⟩ := lin_case .vectorized
  refine ⟨s, eig, fun d => ?_⟩
  have hz : ((1 / 2 : ℝ), (⟨some [(0, 0), (2, 3)], true, true, none⟩ : PolyLine ℝ), (some (2, 0) : Om)) ∈
      (s.withStill hum).stat.x.zip ((s.withStill hum).stat.vs.zip (s.withStill hum).stat.op) := by
    simp only [SBeam.withStill, hum, List.zip_cons_cons, List.zip_nil_left, List.mem_singleton]
  exact C185_harmonic_fails (s := s.withStill hum) (pts := [(0, 0), (2, 3)]) (s.withStill_matrices hum ▸ hM) hi h2 h3 hz rfl
    (by simp [SortedLe]) (increasing_norep (by simp [Spec.Increasing])) ⟨(0, 0), by simp, (2, 3), by simp, by norm_num⟩ _
    ⟨1, by simp, (0, 0), by simp, by norm_num⟩ d

end Geotecha.Beam
