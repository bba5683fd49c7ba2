import Verif.Beam.SpecAnaAgree
import Verif.Beam.SpecEnergy

/-!
# The analytical solution of `SpecBeam`: the object, harmonic loads, stability
-/
set_option autoImplicit false
set_option linter.unusedVariables false

namespace Geotecha.Beam

open Real Geotecha.Speccon Geotecha.Piecewise Geotecha.Spec intervalIntegral MeasureTheory Ana

/-- The call `SpecBeam(BC="SS", E=…, …, use_analytical=True)` with physical values, `k3` left out (specbeam.py:325-380). -/
def SPhys.anaArgs (P : SPhys) (nq : Option ℕ) : SArgs :=
  ⟨"SS", some P.E, some P.I, some P.rho, some P.A, some P.L, some P.k1, none, some P.mu, none, none, none,
    none, nq, true⟩

/-- **C185.** `use_analytical=True` does not change the object: it is the one built for the numerical solution with `k3=0`, for
any loads and any profiles. -/
theorem C185_same_object (P : SPhys) (hk : P.k3 = 0) (n : ℕ) (nq : Option ℕ) (m : MArgs) (sa : StArgs) (B : Bars) (impl : Impl) :
    SBeam.init n (P.anaArgs nq) m sa B impl = SBeam.init n (P.args nq) m sa B impl := by
  have g1 : (P.anaArgs nq).gate = .ok () := by
    rw [C176_analytical_gate_partial _ rfl]
    exact fun _ => Or.inl ⟨rfl, rfl⟩
  have g2 : (P.args nq).gate = .ok () := by
    unfold SArgs.gate; rw [if_neg]; simp [SPhys.args]
  have k1 : (P.anaArgs nq).k3Of = .ok 0 := rfl
  have k2 : (P.args nq).k3Of = .ok 0 := by
    rw [(coef_ok P nq).2.2.2, hk]; simp
  unfold SBeam.init
  rw [g1, g2, k1, k2]
  rfl

theorem mapM_ok_mem {α β : Type} {f : α → Except PyErr β} : ∀ {l : List α} {r : List β}, l.mapM f = .ok r → ∀ x ∈ l, ∃ y, f x = .ok y
  | [], _, _ => fun x hx => absurd hx (by simp)
  | a :: l, r, h => by
    rw [List.mapM_cons] at h
    rcases e : f a with _ | v
    · rw [e] at h; exact absurd h (by simp [Bind.bind, Except.bind])
    · rcases e' : l.mapM f with _ | r'
      · rw [e, e'] at h; exact absurd h (by simp [Bind.bind, Except.bind])
      · intro x hx
        rcases List.mem_cons.1 hx with rfl | hx
        · exact ⟨v, e⟩
        · exact mapM_ok_mem e' x hx

/-- **C185.** A stationary load with a harmonic factor cannot be analysed with `use_analytical=True` (default implementation)
when an eigenvalue is not real, which is the case of every beam that is not heavily damped: no table comes out once a time
asked for is after the start of the load. -/
theorem C185_harmonic_fails {s : SBeam} {M : SMats} (hM : s.matrices = .ok M) (hi : s.impl = .vectorized)
    {eig : Matrix (Fin s.n ⊕ Fin s.n) (Fin s.n ⊕ Fin s.n) ℝ → (Fin s.n ⊕ Fin s.n → ℂ) × Matrix (Fin s.n ⊕ Fin s.n) (Fin s.n ⊕ Fin s.n) ℂ}
    {e : Eigs s.n} (he : M.eigsAndV s.n eig = .ok e) (hc : ∃ j, (e.eigs j).im ≠ 0) {x : ℝ} {p : PolyLine ℝ} {om : ℝ × ℝ}
    (hz : (x, p, some om) ∈ s.stat.x.zip (s.stat.vs.zip s.stat.op)) {pts : List (ℝ × ℝ)} (hp : p.getXY.1 = .ok pts)
    (hso : SortedLe (pts.map Prod.fst)) (hnr : NoRepeatedPoint (pts.map Prod.fst) (pts.map Prod.snd)) (hne : ∃ a ∈ pts, ∃ b ∈ pts, a.1 < b.1)
    (xs : List ℝ) {ts : List ℝ} (hl : ∃ t ∈ ts, ∃ a ∈ pts, a.1 < t) (d : List (List ℝ)) : s.runAnalytical eig xs ts ≠ .ok d := by
  obtain ⟨t, ht, a, ha, hat⟩ := hl
  obtain ⟨j, hj⟩ := hc
  intro h
  unfold SBeam.runAnalytical at h
  simp only [hM, he, Bind.bind, Except.bind] at h
  unfold SBeam.anaDefl at h
  rcases e1 : ts.mapM (s.vE e) with _ | qs
  · rw [e1] at h; exact absurd h (by simp [Bind.bind, Except.bind])
  obtain ⟨q, hq⟩ := mapM_ok_mem e1 t ht
  unfold SBeam.vE at hq
  rcases e2 : (Finset.univ : Finset (Fin s.n ⊕ Fin s.n)).toList.mapM (fun j => do
    let a ← s.mvpl e t j
    let b ← s.stat_E e t j
    pure (j, a + b)) with _ | l
  · rw [e2] at hq; exact absurd hq (by simp [Bind.bind, Except.bind])
  obtain ⟨y, hy⟩ := mapM_ok_mem e2 j (by simp)
  rcases e3 : s.mvpl e t j with _ | w
  · rw [e3] at hy; exact absurd hy (by simp [Bind.bind, Except.bind])
  rcases e4 : s.stat_E e t j with _ | w'
  · rw [e3, e4] at hy; exact absurd hy (by simp [Bind.bind, Except.bind])
  unfold SBeam.stat_E at e4
  rcases e5 : (s.stat.x.zip (s.stat.vs.zip s.stat.op)).mapM (s.stat_one e t j) with _ | l'
  · rw [e5] at e4; exact absurd e4 (by simp [Bind.bind, Except.bind])
  obtain ⟨y', hy'⟩ := mapM_ok_mem e5 _ hz
  obtain ⟨gx, gy⟩ := getX_of hp
  have hpos : 0 < (pts.map Prod.fst).length := by
    rw [List.length_map]; exact List.length_pos_of_mem ha
  have hle : ∀ c ∈ pts, (pts.map Prod.fst)[0] ≤ c.1 ∧ c.1 ≤ (pts.map Prod.fst)[(pts.map Prod.fst).length - 1]'(by omega) := by
    intro c hc
    obtain ⟨k, hk, rfl⟩ := List.mem_iff_getElem.1 hc
    have hk' : k < (pts.map Prod.fst).length := by simpa using hk
    have e0 : pts[k].1 = (pts.map Prod.fst)[k] := by simp
    rw [e0]
    constructor
    · rcases Nat.eq_zero_or_pos k with rfl | h0
      · exact le_rfl
      · exact List.pairwise_iff_getElem.1 hso 0 k hpos hk' h0
    · rcases Nat.lt_or_ge k ((pts.map Prod.fst).length - 1) with h1 | h1
      · exact List.pairwise_iff_getElem.1 hso k _ hk' (by omega) h1
      · have : k = (pts.map Prod.fst).length - 1 := by omega
        subst this; exact le_rfl
  have hfail : Cx.eloadCos .vectorized (pts.map Prod.fst) (pts.map Prod.snd) om.1 om.2 1 t (e.eigs j) = .error .typeError := by
    obtain ⟨b, hb, c, hc, hbc⟩ := hne
    exact Cx.C184_Eload_cos_complex_fails _ _ _ _ _ _ _ hpos (by simp) hso hnr
      (lt_of_le_of_lt (hle b hb).1 (lt_of_lt_of_le hbc (hle c hc).2)) (lt_of_le_of_lt (hle a ha).1 hat)
  unfold SBeam.stat_one at hy'
  simp only [gx, gy, Bind.bind, Except.bind, SBeam.timeE, SBeam.cosE] at hy'
  rw [if_neg (by intro h'; exact hj (h' j)), hi, hfail] at hy'
  exact absurd hy' (by simp)

/-! ## Stability -/

/-- Real and imaginary parts of a vector. -/
noncomputable def rePart {n : ℕ} (x : Fin n → ℂ) (i : ℕ) : ℝ := if h : i < n then (x ⟨i, h⟩).re else 0
/-- imaginary part -/
noncomputable def imPart {n : ℕ} (x : Fin n → ℂ) (i : ℕ) : ℝ := if h : i < n then (x ⟨i, h⟩).im else 0

theorem herm {n : ℕ} {a : ℕ → ℕ → ℝ} (h : ∀ i j, i < n → j < n → a i j = a j i) (x : Fin n → ℂ) :
    (∑ i : Fin n, ∑ j : Fin n, star (x i) * (a i j : ℂ) * x j) = ((form n a (rePart x) (rePart x) + form n a (imPart x) (imPart x) : ℝ) : ℂ) := by
  have e : ∀ u : ℕ → ℝ, ∀ w : ℕ → ℝ, form n a u w = ∑ i : Fin n, ∑ j : Fin n, u i * a i j * w j := fun u w => by
    unfold form; rw [Finset.sum_range]; exact Finset.sum_congr rfl fun i _ => by rw [Finset.sum_range]
  have er : ∀ i : Fin n, rePart x i = (x i).re := fun i => by simp [rePart]
  have ei : ∀ i : Fin n, imPart x i = (x i).im := fun i => by simp [imPart]
  rw [e, e]
  simp only [er, ei]
  apply Complex.ext
  · simp only [Complex.re_sum, Complex.ofReal_re, ← Finset.sum_add_distrib]
    refine Finset.sum_congr rfl fun i _ => Finset.sum_congr rfl fun j _ => ?_
    simp [Complex.mul_re, Complex.mul_im]
  · simp only [Complex.im_sum, Complex.ofReal_im]
    have e1 : ∀ i j : Fin n, (star (x i) * (a i j : ℂ) * x j).im = (x i).re * a i j * (x j).im - (x i).im * a i j * (x j).re := fun i j => by
      simp [Complex.mul_re, Complex.mul_im]; ring
    simp only [e1, Finset.sum_sub_distrib]
    rw [sub_eq_zero, Finset.sum_comm]
    refine Finset.sum_congr rfl fun i _ => Finset.sum_congr rfl fun j _ => ?_
    rw [h j i j.2 i.2]; ring

theorem herm_pos {n : ℕ} {a : ℕ → ℕ → ℝ} (h : SPD n a) {x : Fin n → ℂ} (hx : x ≠ 0) :
    0 < form n a (rePart x) (rePart x) + form n a (imPart x) (imPart x) := by
  have nn : ∀ c : ℕ → ℝ, 0 ≤ form n a c c := fun c => by
    by_cases hc : ∃ i, i < n ∧ c i ≠ 0
    · exact (h.pos c hc).le
    · push Not at hc
      unfold form
      refine le_of_eq (Finset.sum_eq_zero fun i hi => Finset.sum_eq_zero fun j _ => ?_).symm
      rw [hc i (Finset.mem_range.1 hi)]; simp
  obtain ⟨i, hi⟩ : ∃ i, x i ≠ 0 := by
    by_contra hc
    push Not at hc
    exact hx (funext hc)
  by_cases hr : (x i).re = 0
  · have hm : (x i).im ≠ 0 := fun h0 => hi (Complex.ext hr h0)
    exact add_pos_of_nonneg_of_pos (nn _) (h.pos _ ⟨i, i.2, by simpa [imPart] using hm⟩)
  · exact add_pos_of_pos_of_nonneg (h.pos _ ⟨i, i.2, by simpa [rePart] using hr⟩) (nn _)

/-- Roots of `m λ² - d λ + k` with positive coefficients lie to the right. -/
theorem root_right {m d k : ℝ} (hm : 0 < m) (hd : 0 < d) (hk : 0 < k) {z : ℂ} (h : z * z * (m : ℂ) - z * (d : ℂ) + (k : ℂ) = 0) : 0 < z.re := by
  have h1 := congrArg Complex.re h
  have h2 := congrArg Complex.im h
  simp only [Complex.add_re, Complex.sub_re, Complex.mul_re, Complex.mul_im, Complex.ofReal_re, Complex.ofReal_im, Complex.zero_re] at h1
  simp only [Complex.add_im, Complex.sub_im, Complex.mul_re, Complex.mul_im, Complex.ofReal_re, Complex.ofReal_im, Complex.zero_im] at h2
  by_cases hz : z.im = 0
  · rw [hz] at h1
    have : 0 < z.re * d := by nlinarith [mul_nonneg (mul_self_nonneg z.re) hm.le]
    exact pos_of_mul_pos_left this hd.le
  · have h3 : z.im * (2 * z.re * m - d) = 0 := by linarith
    rcases mul_eq_zero.1 h3 with h3 | h3
    · exact absurd h3 hz
    · have : 0 < z.re * m := by linarith
      exact pos_of_mul_pos_left this hm.le

theorem modal_right {M : SMats} {n : ℕ} {eigs : Fin n ⊕ Fin n → ℂ} {v W : Matrix (Fin n ⊕ Fin n) (Fin n ⊕ Fin n) ℂ}
    (hm : Modal (M.gam n) (M.psi n) eigs v W) (h1 : SPD n M.lam) (h2 : SPD n fun i j => -M.psiq i j) (h3 : SPD n fun i j => -M.psiqd i j)
    (j : Fin n ⊕ Fin n) : 0 < (eigs j).re := by
  set x : Fin n → ℂ := fun i => v (.inl i) j with hx
  set y : Fin n → ℂ := fun i => v (.inr i) j with hy
  set z := eigs j with hz
  have hE : ∀ k, ∑ i, (M.psi n k i : ℂ) * v i j = (∑ i, (M.gam n k i : ℂ) * v i j) * z := fun k => by
    have := congrFun (congrFun hm.eig k) j
    rw [Matrix.mul_diagonal, Matrix.mul_apply, Matrix.mul_apply] at this
    exact this
  have eA : ∀ i, y i = -(x i * z) := fun i => by
    have := hE (.inl i)
    simp only [SMats.gam, SMats.psi, Fintype.sum_sum_type, Matrix.fromBlocks_apply₁₁, Matrix.fromBlocks_apply₁₂, Matrix.zero_apply, zero_mul,
      Finset.sum_const_zero, zero_add, add_zero, Matrix.one_apply, Matrix.neg_apply, Complex.ofReal_zero, Complex.ofReal_neg, neg_mul,
      Finset.sum_neg_distrib, apply_ite Complex.ofReal, Complex.ofReal_one, ite_mul, one_mul, Finset.sum_ite_eq, Finset.mem_univ, if_true] at this
    rw [hx, hy]
    linear_combination -this
  have eB : ∀ i : Fin n, (∑ l : Fin n, (M.psiq i l : ℂ) * x l) * (-1) + (∑ l : Fin n, (M.psiqd i l : ℂ) * y l) * (-1) = (∑ l : Fin n, (M.lam i l : ℂ) * y l) * z := fun i => by
    have := hE (.inr i)
    simp only [SMats.gam, SMats.psi, Fintype.sum_sum_type, Matrix.fromBlocks_apply₂₁, Matrix.fromBlocks_apply₂₂, Matrix.zero_apply, zero_mul,
      Finset.sum_const_zero, zero_add, Complex.ofReal_zero, blk, mul_one, mul_neg, Complex.ofReal_neg, neg_mul, Finset.sum_neg_distrib] at this
    rw [← this]; ring
  have hx0 : x ≠ 0 := by
    intro h0
    have hv : ∀ i, v i j = 0 := by
      rintro (i | i)
      · exact congrFun h0 i
      · have := eA i
        rw [h0] at this
        simpa using this
    have hWv : W * (cm (M.gam n) * v) = 1 := mul_eq_one_comm.1 hm.left
    have := congrFun (congrFun hWv j) j
    rw [Matrix.one_apply_eq, ← Matrix.mul_assoc, Matrix.mul_apply] at this
    simp [hv] at this
  have p1 := herm_pos h1 hx0
  have p2 := herm_pos h2 hx0
  have p3 := herm_pos h3 hx0
  refine root_right p1 p3 p2 (z := z) ?_
  rw [← herm h1.symm, ← herm h2.symm, ← herm h3.symm]
  have eC : ∑ i : Fin n, star (x i) * ((∑ l : Fin n, (M.psiq i l : ℂ) * x l) * (-1) + (∑ l : Fin n, (M.psiqd i l : ℂ) * y l) * (-1) - (∑ l : Fin n, (M.lam i l : ℂ) * y l) * z) = 0 :=
    Finset.sum_eq_zero fun i _ => by rw [eB i]; simp
  rw [← eC, Finset.mul_sum, Finset.mul_sum, ← Finset.sum_sub_distrib, ← Finset.sum_add_distrib]
  refine Finset.sum_congr rfl fun i _ => ?_
  simp only [eA, Finset.mul_sum, Finset.sum_mul, mul_add, mul_sub]
  simp only [← Finset.sum_sub_distrib, ← Finset.sum_add_distrib]
  refine Finset.sum_congr rfl fun l _ => ?_
  push_cast
  ring

/-- A Gram matrix of a positive function. -/
theorem gal_spd {f : ℝ → ℝ} (hf : BddOn f 0 1) {μ : ℝ} (hμ : 0 < μ) (hlow : ∀ z, 0 < z → z < 1 → μ ≤ f z) (n : ℕ) (c : ℕ → ℝ)
    (hc : ∃ i, i < n ∧ c i ≠ 0) : 0 < form n (gal f) c c := by
  refine lt_of_lt_of_le ?_ (form_lower hf hlow n (fun i z => sin (π * ((i : ℝ) + 1) * z)) (fun i => by fun_prop) (fun i j => ?_) c)
  · obtain ⟨i, hi, hne⟩ := hc
    refine mul_pos hμ (mul_pos (by norm_num) (Finset.sum_pos' (fun k _ => sq_nonneg _) ⟨i, Finset.mem_range.2 hi, by positivity⟩))
  · have := gal_one i j
    unfold gal at this
    simpa using this

theorem gal_nn {f : ℝ → ℝ} (hf : BddOn f 0 1) (hlow : ∀ z, 0 < z → z < 1 → 0 ≤ f z) (n : ℕ) (c : ℕ → ℝ) : 0 ≤ form n (gal f) c c := by
  have := form_lower hf hlow n (fun i z => sin (π * ((i : ℝ) + 1) * z)) (fun i => by fun_prop) (fun i j => by
    have := gal_one i j
    unfold gal at this
    simpa using this) c
  rw [zero_mul] at this
  exact this

theorem form_scaled (n : ℕ) (w : ℕ → ℝ) (a : ℕ → ℕ → ℝ) (c : ℕ → ℝ) :
    form n (fun i j => w i * w j * a i j) c c = form n a (fun i => w i * c i) (fun i => w i * c i) := by
  unfold form
  exact Finset.sum_congr rfl fun i _ => Finset.sum_congr rfl fun j _ => by ring

/-- **C186.** A beam with mass, bending stiffness and damping everywhere positive (foundation stiffness may vanish) is stable:
every eigenvalue of the analytical solution has a positive real part, so nothing the solution is made of (`exp(-λ t)`) grows; and no
vehicle can be in resonance, whatever its speed, so the hypothesis of C185 always holds. -/
theorem C186_damped_beam_stable {s : SBeam} {M : SMats} (hM : s.matrices = .ok M)
    {S : Set ℝ} {fE fI frho fA fk1 fmu : ℝ → ℝ} (hc : Spec.Curves s.bars S fE fI frho fA fk1 fmu)
    (hkf : s.kf ≠ 0) (hk1 : 0 ≤ s.k1) (hmu : 0 < s.mu) {μ : ℝ} (hμ : 0 < μ)
    (l1 : ∀ z, 0 < z → z < 1 → μ ≤ frho z * fA z) (l2 : ∀ z, 0 < z → z < 1 → μ ≤ fE z * fI z)
    (l3 : ∀ z, 0 < z → z < 1 → 0 ≤ fk1 z) (l4 : ∀ z, 0 < z → z < 1 → μ ≤ fmu z)
    {eig : Matrix (Fin s.n ⊕ Fin s.n) (Fin s.n ⊕ Fin s.n) ℝ → (Fin s.n ⊕ Fin s.n → ℂ) × Matrix (Fin s.n ⊕ Fin s.n) (Fin s.n ⊕ Fin s.n) ℂ}
    (heig : ∀ A, Spec.Eig A (eig A)) {e : Eigs s.n} (he : M.eigsAndV s.n eig = .ok e) :
    (∀ j, 0 < (e.eigs j).re) ∧ Spec.OffResonance s e := by
  obtain ⟨hm, hdet⟩ := modal_of heig he
  have key : ∀ j, 0 < (e.eigs j).re := by
    obtain ⟨pts, hpts, _⟩ := hc.k1.ex
    rcases hq : s.quad with _ | _ | ⟨m, xj, Ij⟩
    · exfalso
      unfold SBeam.matrices at hM
      rw [hq] at hM
      simp only [Bind.bind, Except.bind] at hM
      repeat' split at hM
      all_goals exact absurd hM (by simp)
    · exfalso
      unfold SBeam.matrices at hM
      rw [hq] at hM
      simp only [Bind.bind, Except.bind] at hM
      repeat' split at hM
      all_goals exact absurd hM (by simp)
    · obtain ⟨lam, psiq, psiqd, hM', g1, g2, g3⟩ := matrices_ok s hc hq hpts
      rw [hM'] at hM
      obtain rfl := Except.ok.inj hM
      refine modal_right hm ⟨fun i j hi hj => ?_, fun c hcc => ?_⟩ ⟨fun i j hi hj => ?_, fun c hcc => ?_⟩ ⟨fun i j hi hj => ?_, fun c hcc => ?_⟩
      · show lam i j = lam j i
        rw [g1 i j hi hj, g1 j i hj hi, gal_symm]
      · show 0 < form s.n lam c c
        rw [form_congr g1]
        exact gal_spd ((Profile.bdd hc.rho).mul (Profile.bdd hc.A)) hμ l1 _ _ hcc
      · show -psiq i j = -psiq j i
        rw [g2 i j hi hj, g2 j i hj hi, gal_symm _ i j, gal_symm fk1 i j]; ring
      · show 0 < form s.n (fun i j => -psiq i j) c c
        rw [form_congr (b := fun i j => s.kf ^ 2 * ((π * ((i : ℝ) + 1)) ^ 2 * (π * ((j : ℝ) + 1)) ^ 2 * gal (fun z => fE z * fI z) i j) + s.k1 * gal fk1 i j)
          (fun i j hi hj => by rw [g2 i j hi hj]; ring), form_add, form_smul, form_smul, form_scaled s.n (fun i : ℕ => (π * ((i : ℝ) + 1)) ^ 2)]
        refine add_pos_of_pos_of_nonneg (mul_pos (by positivity) (gal_spd ((Profile.bdd hc.E).mul (Profile.bdd hc.I)) hμ l2 _ _ ?_))
          (mul_nonneg hk1 (gal_nn (Profile.bdd hc.k1) l3 _ _))
        obtain ⟨i, hi, hne⟩ := hcc
        exact ⟨i, hi, mul_ne_zero (by positivity) hne⟩
      · show -psiqd i j = -psiqd j i
        rw [g3 i j hi hj, g3 j i hj hi, gal_symm]
      · show 0 < form s.n (fun i j => -psiqd i j) c c
        rw [form_congr (b := fun i j => s.mu * gal fmu i j) (fun i j hi hj => by rw [g3 i j hi hj]; ring), form_smul]
        exact mul_pos hmu (gal_spd (Profile.bdd hc.mu) hμ l4 _ _ hcc)
  refine ⟨key, fun j => ⟨fun h => ?_, fun c hcv i hi h => ?_⟩⟩
  · have := key j
    rw [h] at this
    exact absurd this (by simp)
  · have hf : (e.eigs j - Complex.I * ((c.v * (π * ((i : ℝ) + 1)) : ℝ) : ℂ)) * (e.eigs j + Complex.I * ((c.v * (π * ((i : ℝ) + 1)) : ℝ) : ℂ)) = 0 := by
      rw [← h]
      ring_nf
      rw [Complex.I_sq]; ring
    have hk := key j
    rcases mul_eq_zero.1 hf with hf | hf
    · rw [sub_eq_zero.1 hf] at hk
      simp [Complex.mul_re] at hk
    · rw [eq_neg_of_add_eq_zero_left hf] at hk
      simp [Complex.mul_re] at hk

end Geotecha.Beam
