import Verif.Speccon.PropsVRW
import Verif.Speccon.PropsEigen

/-!
# Property C83: the drain matrix can be inverted, and the eigenvalue problem of speccon1d_vrw
-/

set_option linter.unusedVariables false
open Real intervalIntegral MeasureTheory Filter Topology
namespace Geotecha.Speccon
open Geotecha.Spec Geotecha.Piecewise

variable {x : VRW} {S : Set ℝ} {s tend : ℝ} {G : Ground} {W : Well}

theorem form_vec (n : ℕ) (a : ℕ → ℕ → ℝ) (c d : ℕ → ℝ) : form n a c d = ∑ i ∈ Finset.range n, c i * dotV n a d i := by
  unfold form dotV
  refine Finset.sum_congr rfl (fun i _ => ?_)
  rw [Finset.mul_sum]
  exact Finset.sum_congr rfl (fun j _ => by ring)

theorem form_symm {n : ℕ} {a : ℕ → ℕ → ℝ} (h : ∀ i j, i < n → j < n → a i j = a j i) (c d : ℕ → ℝ) : form n a c d = form n a d c := by
  unfold form
  rw [Finset.sum_comm]
  refine Finset.sum_congr rfl (fun i hi => Finset.sum_congr rfl (fun j hj => ?_))
  rw [h j i (Finset.mem_range.1 hj) (Finset.mem_range.1 hi)]
  ring

/-- `Ipsi_w psi_s c` -/
noncomputable def drainOf (n : ℕ) (I P : ℕ → ℕ → ℝ) (c : ℕ → ℝ) (k : ℕ) : ℝ := dotV n I (fun l => dotV n P c l) k

theorem drainOf_eq {n : ℕ} {P w I : ℕ → ℕ → ℝ} (hinv : ∀ i j, i < n → j < n → matMul n w I i j = if i = j then 1 else 0) (c : ℕ → ℝ) {k : ℕ}
    (hk : k < n) : dotV n w (drainOf n I P c) k = dotV n P c k := by
  unfold drainOf
  rw [← dot_matMul]
  unfold dotV
  rw [Finset.sum_congr rfl (fun l hl => by rw [hinv k l hk (Finset.mem_range.1 hl)])]
  simp [hk]

theorem schur_form {n : ℕ} {P w I : ℕ → ℕ → ℝ} (hP : ∀ i j, i < n → j < n → P i j = P j i)
    (hinv : ∀ i j, i < n → j < n → matMul n w I i j = if i = j then 1 else 0) (c d : ℕ → ℝ) :
    form n (matMul n (matMul n P I) P) c d = form n P c (drainOf n I P d) ∧
    form n (matMul n (matMul n P I) P) c d = form n w (drainOf n I P d) (drainOf n I P c) := by
  have e1 : form n (matMul n (matMul n P I) P) c d = form n P c (drainOf n I P d) := by
    rw [form_vec, form_vec]
    refine Finset.sum_congr rfl (fun i _ => ?_)
    rw [dot_matMul, dot_matMul]
    rfl
  refine ⟨e1, ?_⟩
  rw [e1, form_symm hP, form_vec, form_vec]
  exact Finset.sum_congr rfl (fun i hi => by rw [drainOf_eq hinv c (Finset.mem_range.1 hi)])

theorem form_unit (n : ℕ) (a : ℕ → ℕ → ℝ) {i j : ℕ} (hi : i < n) (hj : j < n) :
    form n a (fun k => if k = i then 1 else 0) (fun k => if k = j then 1 else 0) = a i j := by
  unfold form
  rw [Finset.sum_eq_single i]
  · rw [Finset.sum_eq_single j]
    · simp
    · intro l _ hl; simp [hl]
    · intro h; exact absurd (Finset.mem_range.2 hj) h
  · intro k _ hk; simp [hk]
  · intro h; exact absurd (Finset.mem_range.2 hi) h

theorem schur_symm {n : ℕ} {P w I : ℕ → ℕ → ℝ} (hP : ∀ i j, i < n → j < n → P i j = P j i) (hw : ∀ i j, i < n → j < n → w i j = w j i)
    (hinv : ∀ i j, i < n → j < n → matMul n w I i j = if i = j then 1 else 0) (i j : ℕ) (hi : i < n) (hj : j < n) :
    matMul n (matMul n P I) P i j = matMul n (matMul n P I) P j i := by
  rw [← form_unit n (matMul n (matMul n P I) P) hi hj, ← form_unit n (matMul n (matMul n P I) P) hj hi, (schur_form hP hinv _ _).2, (schur_form hP hinv _ _).2, form_symm hw]

theorem schur_nonneg {n : ℕ} {P w I : ℕ → ℕ → ℝ} (hP : ∀ i j, i < n → j < n → P i j = P j i)
    (hinv : ∀ i j, i < n → j < n → matMul n w I i j = if i = j then 1 else 0) (hP0 : ∀ c, 0 ≤ form n P c c) (hw0 : ∀ c, form n P c c ≤ form n w c c)
    (c : ℕ → ℝ) : form n (matMul n (matMul n P I) P) c c ≤ form n P c c := by
  obtain ⟨e1, e2⟩ := schur_form hP hinv c c
  set y := drainOf n I P c
  have h1 := hP0 (fun k => c k - y k)
  have h2 : form n P (fun k => c k - y k) (fun k => c k - y k) = form n P c c - form n P c y - form n P y c + form n P y y := by
    unfold form
    simp only [← Finset.sum_sub_distrib, ← Finset.sum_add_distrib]
    exact Finset.sum_congr rfl (fun i _ => Finset.sum_congr rfl (fun j _ => by ring))
  have h3 := hw0 y
  rw [form_symm hP y c] at h2
  linarith

theorem inv_exists {n : ℕ} {w : ℕ → ℕ → ℝ} (h : SPD n w) : ∃ I : ℕ → ℕ → ℝ, ∀ i j, i < n → j < n → matMul n w I i j = if i = j then 1 else 0 := by
  have hu : IsUnit (blk n w) := h.posDef.isUnit
  rw [Matrix.isUnit_iff_isUnit_det] at hu
  have e := Matrix.mul_nonsing_inv _ hu
  refine ⟨fun i j => if hi : i < n then if hj : j < n then (blk n w)⁻¹ ⟨i, hi⟩ ⟨j, hj⟩ else 0 else 0, fun i j hi hj => ?_⟩
  have := congrFun (congrFun e ⟨i, hi⟩) ⟨j, hj⟩
  rw [Matrix.one_apply] at this
  simp only [Matrix.mul_apply, blk, Fin.mk.injEq] at this
  rw [← this]
  unfold matMul
  rw [Finset.sum_range]
  refine Finset.sum_congr rfl (fun k _ => ?_)
  simp only [dif_pos k.2, dif_pos hj]

theorem radial_symm (G : Ground) (w w' : ℝ) : radial G w w' = radial G w' w := by
  unfold radial
  congr 1; funext z; ring

theorem form_smul (n : ℕ) (k : ℝ) (a : ℕ → ℕ → ℝ) (c d : ℕ → ℝ) : form n (fun i j => k * a i j) c d = k * form n a c d := by
  unfold form
  simp only [Finset.mul_sum]
  exact Finset.sum_congr rfl (fun i _ => Finset.sum_congr rfl (fun j _ => by ring))

theorem form_add (n : ℕ) (a b : ℕ → ℕ → ℝ) (c d : ℕ → ℝ) : form n (fun i j => a i j + b i j) c d = form n a c d + form n b c d := by
  unfold form
  simp only [← Finset.sum_add_distrib]
  exact Finset.sum_congr rfl (fun i _ => Finset.sum_congr rfl (fun j _ => by ring))

theorem radial_lower (h : VRWInput x S s tend G W) {m : List ℝ} (hm : x.base.m = .ok m) {p : ℕ → ℕ → ℝ}
    (hp : ∀ i j, i < m.length → j < m.length → x.base.dT * p i j = radial G (m.getD i 0) (m.getD j 0)) {η : ℝ}
    (hη : ∀ z, 0 < z → z < 1 → η ≤ G.horiz z) (c : ℕ → ℝ) :
    η / 2 * ∑ i ∈ Finset.range m.length, c i ^ 2 ≤ x.base.dT * form m.length p c c := by
  obtain ⟨hl, hget, hd, hne, hsc⟩ := m_ok h.base hm
  have hdr : G.drn = 0 ∨ G.drn = 1 := by rw [h.base.drnG]; exact h.base.drn
  have h3 := form_lower (horiz_bdd h.base) hη m.length (fun i z => sin (freq G.drn i * z)) (fun i => by fun_prop)
      (fun i j => (orthogonal hdr i j).1) c
  rw [← form_smul, form_congr (b := fun i j => ∫ z in (0:ℝ)..1, G.horiz z * sin (freq G.drn i * z) * sin (freq G.drn j * z)) (fun i j hi hj => by
    rw [hp i j hi hj, hget i (by omega), hget j (by omega)]; rfl)]
  linarith

/-- For a soil with positive compressibility and vertical permeability, and a drain or a radial permeability that is not zero, the
drain matrix has an inverse, the eigenvalue problem has a real solution, and all eigenvalues are positive in every solution. -/
theorem C83_eigensystem (h : VRWInput x S s tend G W) (hdT : 0 < x.base.dT) (μ ν η κ : ℝ) (hμ : ∀ z, 0 < z → z < 1 → μ ≤ G.mv z) (hν0 : 0 ≤ ν)
    (hν : ∀ z, 0 < z → z < 1 → ν ≤ G.vert z) (hη0 : 0 ≤ η) (hη : ∀ z, 0 < z → z < 1 → η ≤ G.horiz z) (hκ0 : 0 ≤ κ)
    (hκ : ∀ z, 0 < z → z < 1 → κ ≤ W.cond z) (hne0 : 0 < η + κ) (hf : ∀ f ∈ G.fixed, 0 ≤ f.2.1)
    (hn1 : 1 / 100000000 * x.base.neig < μ / 2) (hn2 : 1 / 100000000 * x.base.neig * x.base.dT < ν * (π / 2) ^ 2 / 2) :
    (∃ a : VRWArrays, a.Made x) ∧ ∀ a : VRWArrays, a.Made x → ∀ i, i < a.m.length → 0 < a.eigs i := by
  have hm0 : x.base.m = .ok (eigs x.base.neig x.base.drn) := (C32_distinct x.base.neig x.base.drn h.base.drn).1
  have key : ∀ (m : List ℝ) (ps pw I : ℕ → ℕ → ℝ), x.base.m = .ok m → x.psiS m = .ok ps → x.psiW m = .ok pw → 
      SPD m.length pw ∧ ((∀ i j, i < m.length → j < m.length → matMul m.length pw I i j = if i = j then 1 else 0) →
        ∃ gam psi, x.base.gam m = .ok gam ∧ x.psi m I = .ok psi ∧ SPD m.length gam ∧ SPD m.length psi) := by
    intro m ps pw I hm hps hpw
    obtain ⟨hl, hget, hd, hne, hsc⟩ := m_ok h.base hm
    obtain ⟨g, eg, hge⟩ := gam_ok h.base hd
    obtain ⟨ps', es, hs⟩ := psiS_ok h hd
    rw [hps] at es
    injection es with es
    subst es
    obtain ⟨pw', ew, hw⟩ := psiW_ok h hd hps
    rw [hpw] at ew
    injection ew with ew
    subst ew
    obtain ⟨p, ep, hpe⟩ := psi_vrw_ok h hd hps I
    have sS : ∀ i j, i < m.length → j < m.length → ps i j = ps j i := fun i j hi hj => mul_left_cancel₀ hdT.ne' (by
      rw [hs i j hi hj, hs j i hj hi, radial_symm])
    have sW : ∀ i j, i < m.length → j < m.length → pw i j = pw j i := fun i j hi hj => mul_left_cancel₀ hdT.ne' (by
      rw [hw i j hi hj, hw j i hj hi, psiForm_symm, sS i j hi hj])
    have lS := radial_lower h hm hs hη
    have lK : ∀ c, κ * (π / 2) ^ 2 / 2 * ∑ i ∈ Finset.range m.length, c i ^ 2 + x.base.dT * form m.length ps c c ≤ x.base.dT * form m.length pw c c := by
      intro c
      have e1 := psi_lower (well_input h) hm (p := fun i j => pw i j - ps i j) (fun i j hi hj => by
        show x.base.dT * _ = _
        rw [mul_sub, hw i j hi hj]; ring) hκ0 hκ (η := 0) (fun z _ _ => le_rfl) (by simp [wellG]) c
      have e2 : form m.length pw c c = form m.length (fun i j => pw i j - ps i j) c c + form m.length ps c c := by
        rw [← form_add]; exact form_congr (fun i j _ _ => by ring) c c
      have e3 : x.base.dT * form m.length (fun i j => pw i j - ps i j) c c = (wellIn x).dT * form m.length (fun i j => pw i j - ps i j) c c := rfl
      rw [e2, mul_add, e3]
      linarith
    have spd : SPD m.length pw := ⟨sW, fun c hc => by
      have e1 := lK c
      have e2 := lS c
      have e3 := sum_sq_pos hc
      have e4 : 0 < κ * (π / 2) ^ 2 / 2 + η / 2 := by
        have hp := pi_pos
        rcases hκ0.eq_or_lt with hk | hk
        · rw [← hk] at hne0 ⊢; linarith
        · positivity
      have : 0 < x.base.dT * form m.length pw c c := by nlinarith
      exact (pos_iff_pos_of_mul_pos this).1 hdT⟩
    refine ⟨spd, fun hinv => ⟨_, _, eg, ep, gam_spd h.base hm hge hμ hn1, ?_, ?_⟩⟩
    · refine chop_symm (fun i j hi hj => mul_left_cancel₀ hdT.ne' ?_)
      rw [hpe i j hi hj, hpe j i hj hi, psiForm_symm, sS i j hi hj, schur_symm sS sW hinv i j hi hj]
    · intro c hc
      have h1 := form_chop m.length p c
      have h2 := psi_lower (soil_input h.base) hm (p := fun i j => p i j - (ps i j - matMul m.length (matMul m.length ps I) ps i j)) (fun i j hi hj => by
        show x.base.dT * _ = _
        rw [mul_sub, mul_sub, hpe i j hi hj]; ring) hν0 hν (η := 0) (fun z _ _ => le_rfl) hf c
      have h2' : x.base.dT * form m.length (fun i j => p i j - (ps i j - matMul m.length (matMul m.length ps I) ps i j)) c c =
        (soilIn x.base).dT * form m.length (fun i j => p i j - (ps i j - matMul m.length (matMul m.length ps I) ps i j)) c c := rfl
      have h3 := schur_nonneg sS hinv (fun c => by
        have e1 := lS c
        have e2 : 0 ≤ η / 2 * ∑ i ∈ Finset.range m.length, c i ^ 2 := mul_nonneg (by linarith) (Finset.sum_nonneg (fun i _ => sq_nonneg _))
        exact nonneg_of_mul_nonneg_right (e2.trans e1) hdT) (fun c => by
        have e1 := lK c
        have e2 : 0 ≤ κ * (π / 2) ^ 2 / 2 * ∑ i ∈ Finset.range m.length, c i ^ 2 := mul_nonneg (by positivity) (Finset.sum_nonneg (fun i _ => sq_nonneg _))
        exact le_of_mul_le_mul_left (by linarith) hdT) c
      have h4 : form m.length p c c = form m.length (fun i j => p i j - (ps i j - matMul m.length (matMul m.length ps I) ps i j)) c c
          + form m.length ps c c - form m.length (matMul m.length (matMul m.length ps I) ps) c c := by
        unfold form
        simp only [← Finset.sum_sub_distrib, ← Finset.sum_add_distrib]
        exact Finset.sum_congr rfl (fun i _ => Finset.sum_congr rfl (fun j _ => by ring))
      have h6 := sum_sq_pos hc
      have h7 : x.base.dT * form m.length (fun i j => p i j - (ps i j - matMul m.length (matMul m.length ps I) ps i j)) c c ≤ x.base.dT * form m.length p c c :=
        mul_le_mul_of_nonneg_left (by linarith) hdT.le
      have h9 := mul_le_mul_of_nonneg_left h1 hdT.le
      rw [← h2'] at h2
      rw [hl] at h2 h6 h7 h9 ⊢
      have : 0 < x.base.dT * form x.base.neig (chop p) c c := by nlinarith
      exact (pos_iff_pos_of_mul_pos this).1 hdT
  constructor
  · obtain ⟨hl, hget, hd, hne, hsc⟩ := m_ok h.base hm0
    obtain ⟨ps, es, _⟩ := psiS_ok h hd
    obtain ⟨pw, ew, _⟩ := psiW_ok h hd es
    obtain ⟨I, hI⟩ := inv_exists (key _ ps pw ps hm0 es ew).1
    obtain ⟨gam, psi, e1, e2, s1, s2⟩ := (key _ ps pw I hm0 es ew).2 hI
    obtain ⟨ei, v, w, hE⟩ := eigen_exists s1 s2.symm
    exact ⟨⟨_, ps, I, ei, v, w⟩, hm0, es, ⟨pw, ew, hI⟩, gam, psi, e1, e2, hE⟩
  · intro a hM
    obtain ⟨pw, ew, hI⟩ := hM.inv
    obtain ⟨gam, psi, e1, e2, hE⟩ := hM.eig
    obtain ⟨gam', psi', f1, f2, s1, s2⟩ := (key _ a.psiS pw a.IpsiW hM.m hM.psiS ew).2 hI
    rw [e1] at f1
    rw [e2] at f2
    injection f1 with f1
    injection f2 with f2
    subst f1 f2
    exact eigs_pos s1 s2 hE

/-! ## The hypotheses are met -/

/-- The input of `Ex.input` without vacuum, the drain as permeable as the soil. -/
noncomputable def Ex.wellInput : VRW := ⟨{ Ex.input with vacuumDepth := none, vacuumTime := none }, 3, Ex.layers⟩

noncomputable def Ex.wellGround : Ground := { Ex.ground with drain := fun _ _ => 0 }

noncomputable def Ex.well : Well := ⟨fun z => 3 * Ex.layersF z, 3 * 2⟩

theorem Ex.well_ok : VRWInput Ex.wellInput {0, 1/2, 1} 0 5 Ex.wellGround Ex.well where
  base := { Ex.input_ok with drain := fun z t => rfl }
  noVac := rfl
  radial := ⟨rfl, rfl, rfl⟩
  well := by
    refine ⟨_, 2, Ex.layers_profile, ?_, fun z => rfl, rfl⟩
    refine tendsto_const_nhds.congr' ?_
    have : Set.Ioo (1/2:ℝ) 1 ∈ 𝓝[<] (1:ℝ) := Ioo_mem_nhdsLT (by norm_num)
    filter_upwards [this] with z hz
    exact (if_neg (by linarith [hz.1])).symm

theorem Ex.well_solvable : (∃ a : VRWArrays, a.Made Ex.wellInput) ∧ ∀ a : VRWArrays, a.Made Ex.wellInput → ∀ i, i < a.m.length → 0 < a.eigs i := by
  refine C83_eigensystem Ex.well_ok (by norm_num [Ex.wellInput, Ex.input]) 1 1 2 3 (fun z _ _ => Ex.layersF_ge z) zero_le_one
    (fun z _ _ => by simpa [Ex.wellGround, Ex.ground] using Ex.layersF_ge z) (by norm_num) (fun z _ _ => ?_) (by norm_num)
    (fun z _ _ => ?_) (by norm_num) (fun f hf => ?_) (by norm_num [Ex.wellInput, Ex.input]) ?_
  · have := Ex.layersF_ge z
    simp only [Ex.wellGround, Ex.ground]; nlinarith
  · have := Ex.layersF_ge z
    simp only [Ex.well]; linarith
  · simp only [Ex.wellGround, Ex.ground, List.mem_singleton] at hf
    rw [hf]; norm_num
  · have := two_le_pi
    norm_num [Ex.wellInput, Ex.input]; nlinarith

/-- C80 on this input. -/
example : ∃ (a : VRWArrays) (u w : ℝ → ℝ → ℝ), a.Made Ex.wellInput ∧
    (∀ z t, 0 ≤ z → z ≤ 1 → 0 ≤ t → t ≤ 5 → Ex.wellInput.por a z t = .ok (u z t)) ∧ ∀ t, u 0 t = 100 ∧ w 0 t = 100 := by
  obtain ⟨⟨a, hM⟩, hpos⟩ := Ex.well_solvable
  obtain ⟨A, C, u, uz, w, wz, h1, h2, h3, h4, h5, h6, h7⟩ := C80_weak_form Ex.well_ok hM (fun i hi => (hpos a hM i hi).ne')
  exact ⟨a, u, w, hM, h1, fun t => ⟨(h5 t).1, (h6 t).1⟩⟩

/-- C82 on this input. -/
example : ∃ (a : VRWArrays) (u : ℝ → ℝ), a.Made Ex.wellInput ∧
    Ex.wellInput.settle a (1/4) 1 2 = .ok (10 * (1/2) * ∫ z in (1/4 : ℝ)..1, Ex.layersF z * (Ex.layersF z * 100 - u z)) := by
  obtain ⟨⟨a, hM⟩, hpos⟩ := Ex.well_solvable
  obtain ⟨u, b, h1, h2, h3, h4⟩ := C82_outputs_agree Ex.well_ok hM (fun i hi => (hpos a hM i hi).ne') (1/4) 1 2
    (by norm_num) (by norm_num) (by norm_num) (by norm_num) (by norm_num) (fun l d h1 h2 => by cases h1; cases h2; exact ⟨rfl, rfl⟩)
    (fun h => by cases h)
  exact ⟨a, u, hM, h4⟩

end Geotecha.Speccon
