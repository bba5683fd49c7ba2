import Verif.Beam.SpecLoads
import Verif.Beam.DingClaims
import Verif.Speccon.Bounded
import Verif.Speccon.ThetaLemmas

/-!
# Galerkin form of the vector field of `SpecBeam`
-/
set_option autoImplicit false
set_option linter.unusedVariables false

namespace Geotecha.Beam

open Real Geotecha.Speccon Geotecha.Piecewise Geotecha.Spec intervalIntegral MeasureTheory

namespace Spec

/-- The profiles `Ebar`, … are proper profiles over the normalised beam `[0, 1]` with curves `E`, …; all break points
lie in a set `S` of points further apart than the PolyLine tolerance. -/
structure Curves (B : Bars) (S : Set ℝ) (E I rho A k1 mu : ℝ → ℝ) : Prop where
  sep : TolSep S
  E : Profile S B.E E
  I : Profile S B.I I
  rho : Profile S B.rho rho
  A : Profile S B.A A
  k1 : Profile S B.k1 k1
  mu : Profile S B.mu mu

/-- Curvature of a mode. -/
noncomputable def modeCurv (L : ℝ) (i : ℕ) (x : ℝ) : ℝ := -(((i : ℝ) + 1) * π / L) ^ 2 * mode L i x

/-- It is the second derivative of the mode. -/
theorem modeCurv_is (L : ℝ) (i : ℕ) : ∃ d : ℝ → ℝ, (∀ x, HasDerivAt (mode L i) (d x) x) ∧
    ∀ x, HasDerivAt d (modeCurv L i x) x := by
  refine ⟨fun x => (((i : ℝ) + 1) * π / L) * cos (((i : ℝ) + 1) * π * x / L), fun x => ?_, fun x => ?_⟩
  · have h : HasDerivAt (fun x : ℝ => ((i : ℝ) + 1) * π * x / L) (((i : ℝ) + 1) * π / L) x :=
      (((hasDerivAt_id x).const_mul (((i : ℝ) + 1) * π)).div_const L).congr_deriv (by simp)
    exact h.sin.congr_deriv (by ring)
  · have h : HasDerivAt (fun x : ℝ => ((i : ℝ) + 1) * π * x / L) (((i : ℝ) + 1) * π / L) x :=
      (((hasDerivAt_id x).const_mul (((i : ℝ) + 1) * π)).div_const L).congr_deriv (by simp)
    exact (h.cos.const_mul _).congr_deriv (by unfold modeCurv mode; ring)

end Spec

/-! ## Frequencies -/

theorem beta_length (s : SBeam) : s.beta.length = s.n := by simp [SBeam.beta]

theorem beta_getD (s : SBeam) {k : ℕ} (hk : k < s.n) : s.beta.getD k 0 = π * ((k : ℝ) + 1) := by
  simp [SBeam.beta, hk]

theorem beta_distinct (s : SBeam) : DistinctAbs s.beta := by
  constructor
  · intro v hv
    simp only [SBeam.beta, List.mem_map] at hv
    obtain ⟨k, _, rfl⟩ := hv
    positivity
  · unfold SBeam.beta
    rw [List.pairwise_map]
    refine List.Pairwise.imp (R := (· < ·)) ?_ List.pairwise_lt_range
    intro a b hab h
    rw [abs_of_pos (by positivity), abs_of_pos (by positivity)] at h
    have := mul_left_cancel₀ pi_pos.ne' h
    have h' : (a : ℝ) < b := by exact_mod_cast hab
    linarith

/-! ## Matrices -/

theorem pDDabDDf_ok {S : Set ℝ} {a b : PolyLine ℝ} {f g : ℝ → ℝ} {m : List ℝ} (hS : TolSep S) (impl : Impl) (ha : Profile S a f)
    (hb : Profile S b g) (hm : DistinctAbs m) :
    ∃ th, pDDabDDf impl m a b = .ok th ∧ ∀ i j, i < m.length → j < m.length →
      th i j = m.getD i 0 ^ 2 * m.getD j 0 ^ 2 * ∫ z in (0:ℝ)..1, f z * g z * sin (m.getD i 0 * z) * sin (m.getD j 0 * z) := by
  obtain ⟨a', b', zt, zb, y1, y2, w1, w2, e, _, _, e1, e2, h1, h2, h3⟩ := common2 hS ha hb
  refine ⟨_, by unfold pDDabDDf; simp only [e, Bind.bind, Except.bind, e1, e2]; rfl, fun i j hi hj => ?_⟩
  rw [C43_DDabDDf impl m _ _ _ _ _ _ f g h1 h2 h3 hm i j hi hj, getD_m hi, getD_m hj]

/-- `∫₀¹ f sin(π(i+1)z) sin(π(j+1)z) dz`. -/
noncomputable def gal (f : ℝ → ℝ) (i j : ℕ) : ℝ :=
  ∫ z in (0:ℝ)..1, f z * sin (π * ((i : ℝ) + 1) * z) * sin (π * ((j : ℝ) + 1) * z)

theorem mapM_getD {α : Type} {f : α → Except PyErr ℝ} : ∀ {l : List α} {r : List ℝ}, l.mapM f = .ok r →
    ∀ i (hi : i < l.length), f l[i] = .ok (r.getD i 0)
  | [], _, _ => fun i hi => absurd hi (by simp)
  | a :: l, r, h => by
    rw [List.mapM_cons] at h
    rcases e : f a with _ | v
    · rw [e] at h; exact absurd h (by simp [Bind.bind, Except.bind])
    · rcases e' : l.mapM f with _ | r'
      · rw [e, e'] at h; exact absurd h (by simp [Bind.bind, Except.bind])
      · rw [e, e'] at h
        simp only [Bind.bind, Except.bind, pure, Except.pure, Except.ok.injEq] at h
        subst h
        intro i hi
        cases i with
        | zero => simpa using e
        | succ i => simpa using mapM_getD e' i (by simpa using hi)

variable {B : Bars} {S : Set ℝ} {fE fI frho fA fk1 fmu : ℝ → ℝ}

/-- The matrices of a beam with proper profiles. -/
theorem matrices_ok (s : SBeam) (hc : Spec.Curves s.bars S fE fI frho fA fk1 fmu) {m : ℕ} {xj Ij : Fin m → ℝ} (hq : s.quad = .rule m xj Ij)
    {pts : List (ℝ × ℝ)} (hp : s.bars.k1.getXY.1 = .ok pts) :
    ∃ lam psiq psiqd, s.matrices = .ok ⟨lam, psiq, psiqd, m, xj, Ij, fun j => polyLeft pts (xj j)⟩ ∧
      (∀ i j, i < s.n → j < s.n → lam i j = gal (fun z => frho z * fA z) i j) ∧
      (∀ i j, i < s.n → j < s.n → psiq i j = -s.kf ^ 2 * ((π * ((i : ℝ) + 1)) ^ 2 * (π * ((j : ℝ) + 1)) ^ 2 * gal (fun z => fE z * fI z) i j)
        - s.k1 * gal fk1 i j) ∧
      (∀ i j, i < s.n → j < s.n → psiqd i j = -s.mu * gal fmu i j) := by
  have hm := beta_distinct s
  have hl := beta_length s
  obtain ⟨lam, e1, h1⟩ := pAbf_ok hc.sep s.impl hc.rho hc.A hm
  obtain ⟨d, e2, h2⟩ := pDDabDDf_ok hc.sep s.impl hc.E hc.I hm
  obtain ⟨k, e3, h3⟩ := pAf_ok s.impl hc.k1 hm
  obtain ⟨u, e4, h4⟩ := pAf_ok s.impl hc.mu hm
  rw [hl] at h1 h2 h3 h4
  have e5 : collect (fun j => pinterpLeft s.bars.k1 (xj j)) = .ok fun j => polyLeft pts (xj j) := by
    obtain ⟨pts', p1, _, p3, ⟨hne, p4, p5⟩, _⟩ := hc.k1.ex
    rw [hp] at p1
    obtain rfl := Except.ok.inj p1
    unfold collect
    rw [mapM_all_ok (fun j => pinterpLeft_pts hp p3 ⟨_, List.head_mem hne, _, List.getLast_mem hne, by rw [p4, p5]; norm_num⟩ (xj j))]
    simp only [Bind.bind, Except.bind, pure, Except.pure]
    congr 1
    funext j
    simp
  refine ⟨lam, fun i j => -s.kf ^ 2 * d i j - s.k1 * k i j, fun i j => -s.mu * u i j, ?_, fun i j hi hj => ?_, fun i j hi hj => ?_, fun i j hi hj => ?_⟩
  · unfold SBeam.matrices
    simp only [e1, e2, e3, e4, Bind.bind, Except.bind, hq]
    rw [e5]
    rfl
  · rw [h1 i j hi hj, beta_getD s hi, beta_getD s hj]; rfl
  · beta_reduce; rw [h2 i j hi hj, h3 i j hi hj, beta_getD s hi, beta_getD s hj]; rfl
  · beta_reduce; rw [h4 i j hi hj, beta_getD s hi, beta_getD s hj]; rfl

/-! ## The vector field -/

theorem solveN_ok {n : ℕ} {A : ℕ → ℕ → ℝ} {r a : ℕ → ℝ} (h : solveN n A r = .ok a) {i : ℕ} (hi : i < n) : dotV n A a i = r i := by
  unfold solveN at h
  by_cases hd : (blk n A).det = 0
  · rw [if_pos hd] at h; exact absurd h (by simp)
  · rw [if_neg hd] at h
    obtain rfl := Except.ok.inj h
    have hu : IsUnit (blk n A).det := isUnit_iff_ne_zero.2 hd
    have e : (blk n A).mulVec ((blk n A)⁻¹.mulVec fun j : Fin n => r j) = fun j : Fin n => r j := by
      rw [Matrix.mulVec_mulVec, Matrix.mul_nonsing_inv _ hu, Matrix.one_mulVec]
    have := congrFun e ⟨i, hi⟩
    simp only [Matrix.mulVec, dotProduct] at this
    unfold dotV
    rw [← this, Finset.sum_range]
    refine Finset.sum_congr rfl fun j _ => ?_
    simp only [j.2, dif_pos, blk, Matrix.mulVec, dotProduct]

theorem field_ok {s : SBeam} {M : SMats} {y d : ℕ → ℝ} {t : ℝ} (h : s.field M y t = .ok d) {i : ℕ} (hi : i < s.n) :
    d i = y (s.n + i) ∧ ∃ st, s.still (s.beta.getD i 0) t = .ok st ∧
      dotV s.n M.lam (fun k => d (s.n + k)) i = s.rhsR M y (fun k => y (s.n + k)) t st i := by
  unfold SBeam.field at h
  rcases e : (List.range s.n).mapM (fun i => s.still (s.beta.getD i 0) t) with _ | st
  · rw [e] at h; exact absurd h (by simp [Bind.bind, Except.bind])
  · rcases e2 : solveN s.n M.lam (fun i => s.rhsR M y (fun k => y (s.n + k)) t (st.getD i 0) i) with _ | acc
    · simp only [e, e2, Bind.bind, Except.bind] at h; exact absurd h (by simp)
    · simp only [e, e2, Bind.bind, Except.bind, pure, Except.pure, Except.ok.injEq] at h
      subst h
      refine ⟨by beta_reduce; rw [if_pos hi], st.getD i 0, ?_, ?_⟩
      · have := mapM_getD e i (by simpa using hi)
        simpa using this
      · have := solveN_ok e2 hi
        rw [← this]
        unfold dotV
        refine Finset.sum_congr rfl fun k hk => ?_
        beta_reduce
        rw [if_neg (by omega), Nat.add_sub_cancel_left]

theorem SRun.rate {s : SBeam} {M : SMats} {T0 T1 : ℝ} {y : ℝ → ℕ → ℝ} (h : SRun s M T0 T1 y) {t : ℝ} (ht : t ∈ Set.Ioo T0 T1) :
    ∃ a : ℕ → ℝ, (∀ i < s.n, HasDerivAt (fun r => y r i) (y t (s.n + i)) t) ∧
      (∀ i < s.n, HasDerivAt (fun r => y r (s.n + i)) (a i) t) ∧
      ∀ i < s.n, ∃ st, s.still (s.beta.getD i 0) t = .ok st ∧
        dotV s.n M.lam a i = s.rhsR M (y t) (fun k => y t (s.n + k)) t st i := by
  obtain ⟨d, h1, h2⟩ := h.field t ht
  refine ⟨fun k => d (s.n + k), fun i hi => ?_, fun i hi => h2 _ (by omega), fun i hi => (field_ok h1 hi).2⟩
  rw [← (field_ok h1 hi).1]
  exact h2 i (by omega)

/-! ## Integrals over the physical beam -/

theorem int_gal {f : ℝ → ℝ} (hf : BddOn f 0 1) (n : ℕ) (c : ℕ → ℝ) (i : ℕ) :
    ∫ z in (0:ℝ)..1, f z * ((∑ k ∈ Finset.range n, c k * sin (π * ((k : ℝ) + 1) * z)) * sin (π * ((i : ℝ) + 1) * z)) =
      ∑ k ∈ Finset.range n, gal f i k * c k := by
  have e : ∀ z, f z * ((∑ k ∈ Finset.range n, c k * sin (π * ((k : ℝ) + 1) * z)) * sin (π * ((i : ℝ) + 1) * z)) =
      ∑ k ∈ Finset.range n, f z * sin (π * ((i : ℝ) + 1) * z) * sin (π * ((k : ℝ) + 1) * z) * c k := fun z => by
    rw [Finset.sum_mul, Finset.mul_sum]
    exact Finset.sum_congr rfl fun k _ => by ring
  simp_rw [e]
  rw [intervalIntegral.integral_finsetSum]
  · refine Finset.sum_congr rfl fun k _ => ?_
    rw [intervalIntegral.integral_mul_const]; rfl
  · intro k _
    exact (((hf.mul (BddOn.of_continuous (f := fun z => sin (π * ((i : ℝ) + 1) * z)) (by fun_prop) 0 1)).mul
      (BddOn.of_continuous (f := fun z => sin (π * ((k : ℝ) + 1) * z)) (by fun_prop) 0 1)).int zero_le_one).mul_const _

theorem mode_div {L : ℝ} (hL : 0 < L) (i : ℕ) (x : ℝ) : Spec.mode L i x = sin (π * ((i : ℝ) + 1) * (x / L)) := by
  unfold Spec.mode; congr 1; ring

/-- Four weighted sums of modes against a mode. -/
theorem int_four {L : ℝ} (hL : 0 < L) {f1 f2 f3 f4 : ℝ → ℝ} (h1 : BddOn f1 0 1) (h2 : BddOn f2 0 1) (h3 : BddOn f3 0 1) (h4 : BddOn f4 0 1)
    (n : ℕ) (c1 c2 c3 c4 : ℕ → ℝ) (i : ℕ) :
    ∫ x in (0:ℝ)..L, ((f1 (x / L) * (∑ k ∈ Finset.range n, c1 k * Spec.mode L k x) + f2 (x / L) * (∑ k ∈ Finset.range n, c2 k * Spec.mode L k x)
      + f3 (x / L) * (∑ k ∈ Finset.range n, c3 k * Spec.mode L k x) + f4 (x / L) * (∑ k ∈ Finset.range n, c4 k * Spec.mode L k x)) * Spec.mode L i x) =
    L * ((∑ k ∈ Finset.range n, gal f1 i k * c1 k) + (∑ k ∈ Finset.range n, gal f2 i k * c2 k) + (∑ k ∈ Finset.range n, gal f3 i k * c3 k)
      + ∑ k ∈ Finset.range n, gal f4 i k * c4 k) := by
  set g : (ℝ → ℝ) → (ℕ → ℝ) → ℝ → ℝ := fun f c z =>
    f z * ((∑ k ∈ Finset.range n, c k * sin (π * ((k : ℝ) + 1) * z)) * sin (π * ((i : ℝ) + 1) * z)) with hg
  have hi : ∀ {f : ℝ → ℝ}, BddOn f 0 1 → ∀ c, IntervalIntegrable (g f c) volume 0 1 := fun {f} hf c =>
    (hf.mul (BddOn.of_continuous (by fun_prop) 0 1)).int zero_le_one
  have e : ∀ x, ((f1 (x / L) * (∑ k ∈ Finset.range n, c1 k * Spec.mode L k x) + f2 (x / L) * (∑ k ∈ Finset.range n, c2 k * Spec.mode L k x)
      + f3 (x / L) * (∑ k ∈ Finset.range n, c3 k * Spec.mode L k x) + f4 (x / L) * (∑ k ∈ Finset.range n, c4 k * Spec.mode L k x)) * Spec.mode L i x) =
      (fun z => g f1 c1 z + g f2 c2 z + g f3 c3 z + g f4 c4 z) (x / L) := fun x => by
    simp only [hg, mode_div hL]; ring
  simp_rw [e]
  rw [integral_comp_div (fun z => g f1 c1 z + g f2 c2 z + g f3 c3 z + g f4 c4 z) hL.ne', zero_div, div_self hL.ne', smul_eq_mul,
    intervalIntegral.integral_add (((hi h1 _).add (hi h2 _)).add (hi h3 _)) (hi h4 _), intervalIntegral.integral_add ((hi h1 _).add (hi h2 _)) (hi h3 _), intervalIntegral.integral_add (hi h1 _) (hi h2 _)]
  simp only [hg, int_gal h1, int_gal h2, int_gal h3, int_gal h4]

end Geotecha.Beam
