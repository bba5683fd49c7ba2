import Verif.Beam.SpecAnaStill
import Verif.Beam.SpecUnique

/-!
# The analytical solution of `SpecBeam` solves the equations of motion
-/
set_option autoImplicit false
set_option linter.unusedVariables false

namespace Geotecha.Beam

open Real Geotecha.Speccon Geotecha.Piecewise Geotecha.Spec intervalIntegral MeasureTheory Ana

/-- What `np.linalg.eig(A)` returns: eigenvalues, and eigenvectors as columns. -/
def Spec.Eig {n : ℕ} (A : Matrix (Fin n ⊕ Fin n) (Fin n ⊕ Fin n) ℝ) (r : (Fin n ⊕ Fin n → ℂ) × Matrix (Fin n ⊕ Fin n) (Fin n ⊕ Fin n) ℂ) : Prop :=
  ∀ j k, ∑ i, (A k i : ℂ) * r.2 i j = r.1 j * r.2 k j

theorem modal_of {M : SMats} {n : ℕ}
    {eig : Matrix (Fin n ⊕ Fin n) (Fin n ⊕ Fin n) ℝ → (Fin n ⊕ Fin n → ℂ) × Matrix (Fin n ⊕ Fin n) (Fin n ⊕ Fin n) ℂ}
    (heig : ∀ A, Spec.Eig A (eig A)) {e : Eigs n} (he : M.eigsAndV n eig = .ok e) :
    Modal (M.gam n) (M.psi n) e.eigs e.v e.W ∧ (M.gam n).det ≠ 0 := by
  unfold SMats.eigsAndV at he
  by_cases h1 : (M.gam n).det = 0
  · rw [if_pos h1] at he; exact absurd he (by simp)
  · rw [if_neg h1] at he
    dsimp only at he
    set A := (M.gam n)⁻¹ * M.psi n with hA
    by_cases h2 : (cm (M.gam n) * (eig A).2).det = 0
    · rw [if_pos h2] at he; exact absurd he (by simp)
    · rw [if_neg h2] at he
      obtain rfl := Except.ok.inj he
      refine ⟨⟨?_, Matrix.mul_nonsing_inv _ (isUnit_iff_ne_zero.2 h2)⟩, h1⟩
      have hu : IsUnit (M.gam n).det := isUnit_iff_ne_zero.2 h1
      have e1 : cm (M.psi n) = cm (M.gam n) * cm A := by
        show (M.psi n).map Complex.ofRealHom = (M.gam n).map Complex.ofRealHom * A.map Complex.ofRealHom
        rw [← Matrix.map_mul, hA, ← Matrix.mul_assoc, Matrix.mul_nonsing_inv _ hu, Matrix.one_mul]
      have e2 : cm A * (eig A).2 = (eig A).2 * Matrix.diagonal (eig A).1 := by
        ext k j
        rw [Matrix.mul_diagonal, Matrix.mul_apply, mul_comm]
        exact heig A j k
      dsimp only
      rw [e1, Matrix.mul_assoc, e2, Matrix.mul_assoc]

/-- Coefficients of the deflection. -/
noncomputable def SBeam.anaQ (s : SBeam) (e : Eigs s.n) (ls : List SLoad) (T0 t : ℝ) (i : ℕ) : ℝ :=
  if h : i < s.n then (sol e.eigs e.v e.W (Spec.loads s ls) T0 t (.inl ⟨i, h⟩)).re else 0

/-- Their rates. -/
noncomputable def SBeam.anaV (s : SBeam) (e : Eigs s.n) (ls : List SLoad) (T0 t : ℝ) (i : ℕ) : ℝ :=
  if h : i < s.n then (sol e.eigs e.v e.W (Spec.loads s ls) T0 t (.inr ⟨i, h⟩)).re else 0

theorem det_lam {M : SMats} {n : ℕ} (h : (M.gam n).det ≠ 0) : (blk n M.lam).det ≠ 0 := by
  unfold SMats.gam at h
  rw [Matrix.det_fromBlocks_zero₂₁, Matrix.det_one, one_mul] at h
  simpa using h

section
variable {s : SBeam} {M : SMats} {e : Eigs s.n} {ls : List SLoad} {T0 : ℝ}

theorem ana_cont (hr : Spec.Ready T0 s.veh) (h : Spec.Steady s.stat T0 ls) (i : ℕ) :
    Continuous (fun t => s.anaQ e ls T0 t i) ∧ Continuous (fun t => s.anaV e ls T0 t i) := by
  unfold SBeam.anaQ SBeam.anaV
  by_cases hi : i < s.n
  · simp only [dif_pos hi]
    exact ⟨Complex.continuous_re.comp (sol_continuous (fun i a b => loads_int hr h i a b) T0 _),
      Complex.continuous_re.comp (sol_continuous (fun i a b => loads_int hr h i a b) T0 _)⟩
  · simp only [dif_neg hi]
    exact ⟨continuous_const, continuous_const⟩

theorem ana_zero (i : ℕ) : s.anaQ e ls T0 T0 i = 0 ∧ s.anaV e ls T0 T0 i = 0 := by
  unfold SBeam.anaQ SBeam.anaV
  have h := sol_start (eigs := e.eigs) (v := e.v) (W := e.W) (θ := Spec.loads s ls) T0 T0 le_rfl (fun i τ h1 h2 => absurd (h1.trans h2) (lt_irrefl _))
  by_cases hi : i < s.n
  · simp [dif_pos hi, h]
  · simp [dif_neg hi]

theorem ana_ode (hm : Modal (M.gam s.n) (M.psi s.n) e.eigs e.v e.W) (hr : Spec.Ready T0 s.veh) (h : Spec.Steady s.stat T0 ls) (t : ℝ)
    (ht : ∀ i < s.n, ContinuousAt (fun τ => Spec.onMode s.veh (s.beta.getD i 0) τ + Spec.stillMode ls (s.beta.getD i 0) τ) t) :
    ∃ a : ℕ → ℝ, (∀ i < s.n, HasDerivAt (fun r => s.anaQ e ls T0 r i) (s.anaV e ls T0 t i) t ∧ HasDerivAt (fun r => s.anaV e ls T0 r i) (a i) t) ∧
      ∀ i < s.n, dotV s.n M.lam a i = dotV s.n M.psiq (s.anaQ e ls T0 t) i + dotV s.n M.psiqd (s.anaV e ls T0 t) i +
        (Spec.onMode s.veh (s.beta.getD i 0) t + Spec.stillMode ls (s.beta.getD i 0) t) := by
  obtain ⟨d, hd, he⟩ := sol_ode hm (fun i a b => loads_int hr h i a b) T0 t (fun i => by
    rcases i with i | i
    · exact continuousAt_const
    · exact ht i i.2)
  refine ⟨fun i => if hi : i < s.n then d (.inr ⟨i, hi⟩) else 0, fun i hi => ?_, fun i hi => ?_⟩
  · have h1 := hd (.inl ⟨i, hi⟩)
    have h2 := hd (.inr ⟨i, hi⟩)
    have h3 := he (.inl ⟨i, hi⟩)
    unfold SBeam.anaQ SBeam.anaV
    simp only [dif_pos hi]
    refine ⟨h1.congr_deriv ?_, h2⟩
    simp only [SMats.gam, SMats.psi, Fintype.sum_sum_type, Matrix.fromBlocks_apply₁₁, Matrix.fromBlocks_apply₁₂, Matrix.zero_apply, zero_mul,
      Finset.sum_const_zero, zero_add, add_zero, Spec.loads, Matrix.one_apply, Matrix.neg_apply, ite_mul, one_mul, neg_mul, Finset.sum_neg_distrib,
      Finset.sum_ite_eq, Finset.mem_univ, if_true] at h3
    linarith
  · have h3 := he (.inr ⟨i, hi⟩)
    simp only [SMats.gam, SMats.psi, Fintype.sum_sum_type, Matrix.fromBlocks_apply₂₁, Matrix.fromBlocks_apply₂₂, Matrix.zero_apply, zero_mul,
      Finset.sum_const_zero, zero_add, add_zero, Spec.loads, blk] at h3
    unfold dotV SBeam.anaQ SBeam.anaV
    simp only [Finset.sum_range, Fin.is_lt, dif_pos, Fin.eta]
    rw [← h3]
    simp only [mul_neg, mul_one, neg_mul, Finset.sum_neg_distrib]
    ring

theorem ana_table (hm : Modal (M.gam s.n) (M.psi s.n) e.eigs e.v e.W) (hr : Spec.Ready T0 s.veh) (ho : Spec.OffResonance s e)
    (h : Spec.Steady s.stat T0 ls) (xs ts : List ℝ) (hts : ∀ t ∈ ts, T0 ≤ t) :
    s.anaDefl e xs ts = .ok (xs.map fun x => ts.map fun t => ∑ k ∈ Finset.range s.n, s.anaQ e ls T0 t k * sin (π * ((k : ℝ) + 1) * x)) := by
  unfold SBeam.anaDefl
  rw [Smear.mapM_ok_map _ (fun t => fun k => sol e.eigs e.v e.W (Spec.loads s ls) T0 t k) _ (fun t ht => vE_ok hr ho h (hts t ht))]
  simp only [Bind.bind, Except.bind, List.map_map]
  have hz : ∀ t k, sol e.eigs e.v e.W (Spec.loads s ls) T0 t k = (((sol e.eigs e.v e.W (Spec.loads s ls) T0 t k).re : ℝ) : ℂ) := fun t k =>
    Complex.ext (by simp) (by simp [sol_real hm (fun i a b => loads_int hr h i a b)])
  have hrow : ∀ x t, (∑ k : Fin s.n, ((sin (x * s.beta.getD k 0) : ℝ) : ℂ) * sol e.eigs e.v e.W (Spec.loads s ls) T0 t (.inl k)) =
      ((∑ k ∈ Finset.range s.n, s.anaQ e ls T0 t k * sin (π * ((k : ℝ) + 1) * x) : ℝ) : ℂ) := fun x t => by
    rw [Finset.sum_range, Complex.ofReal_sum]
    refine Finset.sum_congr rfl fun k _ => ?_
    rw [hz, beta_getD s k.2, ← Complex.ofReal_mul]
    unfold SBeam.anaQ
    rw [dif_pos k.2, mul_comm x, mul_comm]
  unfold checkReal
  rw [if_pos]
  · congr 1
    rw [List.map_map]
    refine List.map_congr_left fun x _ => ?_
    simp only [Function.comp, List.map_map]
    refine List.map_congr_left fun t _ => ?_
    simp only [Function.comp]
    rw [hrow, Complex.ofReal_re]
  · intro r hr z hz
    obtain ⟨x, _, rfl⟩ := List.mem_map.1 hr
    obtain ⟨t, _, rfl⟩ := List.mem_map.1 hz
    simp only [Function.comp]
    rw [hrow, Complex.ofReal_im, abs_zero]
    positivity

end

/-- **C185.** With `use_analytical=True`, whatever `np.linalg.eig` returns (of the eigenvectors it may choose), as long as no
eigenvalue is zero or in resonance with a vehicle: the imaginary part left by the complex eigenvectors is exactly zero, so the
check never fires, and the table is that of coefficients that start at rest at `T0` and satisfy the equations of motion at
every time at which the loads are continuous.  Vehicles may start at any time, anywhere: the moving forces are those of the
documentation. -/
theorem C185_analytical_solves_motion {s : SBeam} {M : SMats} (hM : s.matrices = .ok M)
    {eig : Matrix (Fin s.n ⊕ Fin s.n) (Fin s.n ⊕ Fin s.n) ℝ → (Fin s.n ⊕ Fin s.n → ℂ) × Matrix (Fin s.n ⊕ Fin s.n) (Fin s.n ⊕ Fin s.n) ℂ}
    (heig : ∀ A, Spec.Eig A (eig A)) {e : Eigs s.n} (he : M.eigsAndV s.n eig = .ok e) {T0 : ℝ} {ls : List SLoad}
    (hr : Spec.Ready T0 s.veh) (hs : Spec.Steady s.stat T0 ls) (ho : Spec.OffResonance s e) :
    ∃ q v : ℝ → ℕ → ℝ,
      (∀ i < s.n, q T0 i = 0 ∧ v T0 i = 0 ∧ Continuous (fun t => q t i) ∧ Continuous (fun t => v t i)) ∧
      (∀ t, (∀ i < s.n, ContinuousAt (fun τ => Spec.onMode s.veh (π * ((i : ℝ) + 1)) τ + Spec.stillMode ls (π * ((i : ℝ) + 1)) τ) t) →
        ∃ a : ℕ → ℝ, (∀ i < s.n, HasDerivAt (fun r => q r i) (v t i) t ∧ HasDerivAt (fun r => v r i) (a i) t) ∧
          ∀ i < s.n, ∑ j ∈ Finset.range s.n, M.lam i j * a j =
            (∑ j ∈ Finset.range s.n, M.psiq i j * q t j) + (∑ j ∈ Finset.range s.n, M.psiqd i j * v t j) +
              (Spec.onMode s.veh (π * ((i : ℝ) + 1)) t + Spec.stillMode ls (π * ((i : ℝ) + 1)) t)) ∧
      ∀ xs ts, (∀ t ∈ ts, T0 ≤ t) → s.runAnalytical eig xs ts =
        .ok (xs.map fun x => ts.map fun t => ∑ k ∈ Finset.range s.n, q t k * sin (π * ((k : ℝ) + 1) * x)) := by
  obtain ⟨hm, hdet⟩ := modal_of heig he
  refine ⟨s.anaQ e ls T0, s.anaV e ls T0, fun i hi => ⟨(ana_zero i).1, (ana_zero i).2, (ana_cont hr hs i).1, (ana_cont hr hs i).2⟩, fun t ht => ?_, fun xs ts hts => ?_⟩
  · obtain ⟨a, h1, h2⟩ := ana_ode hm hr hs t (fun i hi => by rw [beta_getD s hi]; exact ht i hi)
    refine ⟨a, h1, fun i hi => ?_⟩
    have := h2 i hi
    rw [beta_getD s hi] at this
    exact this
  · unfold SBeam.runAnalytical
    simp only [hM, he, Bind.bind, Except.bind]
    exact ana_table hm hr ho hs xs ts hts

end Geotecha.Beam
