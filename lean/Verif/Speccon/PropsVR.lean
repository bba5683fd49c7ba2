import Verif.Speccon.VRWeak

/-!
# Property C77: speccon1d_vr solves the consolidation equations in the weak sense

`Verif/Speccon/SpecVR.lean` is the specification.  `np.linalg` is assumed to satisfy its contract: `EigenSystem`.
-/

set_option linter.unusedVariables false
open Real intervalIntegral MeasureTheory Filter Topology
namespace Geotecha.Speccon
open Geotecha.Spec Geotecha.Piecewise

variable {x : VR} {S : Set ℝ} {s tend : ℝ} {G : Ground}

/-- What `_make_eigs_and_v` (speccon1d_vr.py:789-817) gets from `np.linalg`: the columns of `v` are eigenvectors of
`inverse(gam) psi` with eigenvalues `eigs` (written `psi v = gam v diag(eigs)`), and `Igamv = inverse(gam v)`. -/
structure EigenSystem (n : ℕ) (gam psi : ℕ → ℕ → ℝ) (eigs : ℕ → ℝ) (v Igamv : ℕ → ℕ → ℝ) : Prop where
  eig : ∀ i j, i < n → j < n → ∑ k ∈ Finset.range n, psi i k * v k j = eigs j * ∑ k ∈ Finset.range n, gam i k * v k j
  inv : ∀ i j, i < n → j < n → ∑ k ∈ Finset.range n, (∑ l ∈ Finset.range n, gam i l * v l k) * Igamv k j = if i = j then 1 else 0

/-! ## Matrices -/

theorem chop_near (a : ℕ → ℕ → ℝ) (i j : ℕ) : |a i j - chop a i j| ≤ 1 / 100000000 := by
  unfold chop
  split_ifs with h
  · rw [sub_zero]; exact h.le
  · simp

theorem chop_exact (a : ℕ → ℕ → ℝ) (i j : ℕ) (h : a i j = 0 ∨ 1 / 100000000 ≤ |a i j|) : chop a i j = a i j := by
  unfold chop
  split_ifs with h'
  · rcases h with h | h
    · exact h.symm
    · exact absurd h' (not_lt.2 h)
  · rfl

theorem m_ok (h : VRInput x S s tend G) {m : List ℝ} (hm : x.m = .ok m) :
    m.length = x.neig ∧ (∀ j, j < x.neig → m.getD j 0 = π * ((j:ℝ) + 1 - G.drn / 2)) ∧ DistinctAbs m ∧ (∀ v ∈ m, v ≠ 0) ∧
    ∀ i j, i < x.neig → j < x.neig → sin (m.getD i 0) * cos (m.getD j 0) = 0 := by
  have hme := C32_distinct x.neig x.drn h.drn
  unfold VR.m at hm
  rw [hm] at hme
  obtain ⟨hme, hd⟩ := hme
  injection hme with hme
  have hget : ∀ j, j < x.neig → m.getD j 0 = π * ((j:ℝ) + 1 - G.drn/2) := by
    intro j hj; rw [hme, h.drnG]; simp [eigs, List.getD_eq_getElem?_getD, hj]
  rw [← hme] at hd
  refine ⟨by rw [hme]; simp [eigs], hget, hd, hd.1, ?_⟩
  intro i j hi hj
  rw [hget i hi, hget j hj, h.drnG]
  rcases h.drn with e | e <;> rw [e]
  · have : π * ((i:ℝ) + 1 - (0:ℤ) / 2) = ((i + 1 : ℕ) : ℝ) * π := by push_cast; ring
    rw [this, sin_nat_mul_pi, zero_mul]
  · have : π * ((j:ℝ) + 1 - (1:ℤ) / 2) = (j : ℝ) * π + π / 2 := by push_cast; ring
    rw [this, cos_add_pi_div_two, sin_nat_mul_pi, neg_zero, mul_zero]

/-- The matrix `gam` holds the storage integrals, entries below 1e-8 set to zero. -/
theorem gam_ok (h : VRInput x S s tend G) {m : List ℝ} (hm : DistinctAbs m) :
    ∃ g : ℕ → ℕ → ℝ, x.gam m = .ok (chop g) ∧ ∀ i j, i < m.length → j < m.length → g i j = gamma G (m.getD i 0) (m.getD j 0) := by
  obtain ⟨th, e, hth⟩ := pAf_ok x.impl h.mv hm
  refine ⟨th, by unfold VR.gam; rw [e]; rfl, hth⟩

/-- The vertical flow part of `psi`. -/
theorem psiV_ok (h : VRInput x S s tend G) {m : List ℝ} (hm : DistinctAbs m) :
    ∃ a, x.psiV m = .ok a ∧ ∀ i j, i < m.length → j < m.length → x.dT * a i j =
      ∫ z in (0:ℝ)..1, G.vert z * (m.getD i 0 * cos (m.getD i 0 * z)) * (m.getD j 0 * cos (m.getD j 0 * z)) := by
  have hd := h.dT
  have hh := h.vert
  unfold VR.psiV
  rcases e1 : x.kv with _ | kv <;> rcases e3 : x.dTv with _ | c <;> rw [e1, e3] at hh <;>
    try exact ⟨fun _ _ => 0, rfl, fun i j hi hj => by simp [hh.1]⟩
  obtain ⟨f, k, hf, hk, hfg, hke⟩ := hh
  obtain ⟨th, e, hth⟩ := pDaDf_ok x.impl hf hm
  refine ⟨fun i j => -(c / x.dT * th i j), by simp only [e]; rfl, fun i j hi hj => ?_⟩
  dsimp only
  rw [hth i j hi hj]
  have e4 : (fun z => G.vert z * (m.getD i 0 * cos (m.getD i 0 * z)) * (m.getD j 0 * cos (m.getD j 0 * z))) =
      fun z => (c * (m.getD i 0 * m.getD j 0)) * (f z * cos (m.getD i 0 * z) * cos (m.getD j 0 * z)) := by
    funext z; rw [hfg]; ring
  rw [e4, intervalIntegral.integral_const_mul]
  field_simp

/-- The radial flow part of `psi`. -/
theorem psiH_ok (h : VRInput x S s tend G) {m : List ℝ} (hm : DistinctAbs m) :
    ∃ a, x.psiH m = .ok a ∧ ∀ i j, i < m.length → j < m.length → x.dT * a i j =
      ∫ z in (0:ℝ)..1, G.horiz z * sin (m.getD i 0 * z) * sin (m.getD j 0 * z) := by
  have hd := h.dT
  have hh := h.horiz
  unfold VR.psiH
  rcases e1 : x.kh with _ | kh <;> rcases e2 : x.et with _ | et <;> rcases e3 : x.dTh with _ | c <;> rw [e1, e2, e3] at hh <;>
    try exact ⟨fun _ _ => 0, rfl, fun i j hi hj => by simp [hh]⟩
  obtain ⟨f, g, hf, hg, hfg⟩ := hh
  obtain ⟨th, e, hth⟩ := pAbf_ok h.sep x.impl hf hg hm
  obtain ⟨a', b', zt, zb, y1, y2, w1, w2, e5, _⟩ := common2 h.sep hf hg
  refine ⟨fun i j => c / x.dT * th i j, by simp only [e5, e]; rfl, fun i j hi hj => ?_⟩
  dsimp only
  rw [hth i j hi hj]
  have e4 : (fun z => G.horiz z * sin (m.getD i 0 * z) * sin (m.getD j 0 * z)) =
      fun z => c * (f z * g z * sin (m.getD i 0 * z) * sin (m.getD j 0 * z)) := by
    funext z; rw [hfg]; ring
  rw [e4, intervalIntegral.integral_const_mul, ← mul_assoc, mul_div_cancel₀ _ hd]

/-- The fixed pressure part of `psi`. -/
theorem psiF_ok (h : VRInput x S s tend G) (m : List ℝ) :
    ∀ i j, x.dT * x.psiF m i j = (G.fixed.map (fun f => f.2.1 * sin (m.getD i 0 * f.1) * sin (m.getD j 0 * f.1))).sum := by
  have hd := h.dT
  intro i j
  have hh := h.fixed
  unfold VR.psiF
  rcases e1 : x.fixedPpress with _ | l <;> rw [e1] at hh
  · simp [show G.fixed = [] from hh]
  · have e2 := fixed_list hh.1 hh.2
    have e3 : (l.map (fun q => q.2.1 / x.dT * sin (m.getD i 0 * q.1) * sin (m.getD j 0 * q.1))) =
        (l.map (fun q => (q.1, q.2.1))).map (fun zk => zk.2 / x.dT * sin (m.getD i 0 * zk.1) * sin (m.getD j 0 * zk.1)) := by
      rw [List.map_map]; rfl
    simp only [e3, e2, List.map_map, ← sum_mul_left]
    congr 2
    funext f
    simp only [Function.comp_apply]
    field_simp

/-- The matrix `psi` holds the flow integrals divided by `dT`, entries below 1e-8 set to zero. -/
theorem psi_ok (h : VRInput x S s tend G) {m : List ℝ} (hm : DistinctAbs m) :
    ∃ p : ℕ → ℕ → ℝ, x.psi m = .ok (chop p) ∧ ∀ i j, i < m.length → j < m.length → x.dT * p i j = psiForm G (m.getD i 0) (m.getD j 0) := by
  have hd := h.dT
  have a1 := psiV_ok h hm
  have a2 := psiH_ok h hm
  have a3 := psiF_ok h m
  obtain ⟨a, ea, ha⟩ := a1
  obtain ⟨b, eb, hb⟩ := a2
  refine ⟨fun i j => a i j + b i j + x.psiF m i j, by unfold VR.psi; rw [ea, eb]; rfl, fun i j hi hj => ?_⟩
  rw [mul_add, mul_add, ha i j hi hj, hb i j hi hj, a3]
  rfl

/-! ## The coefficients -/

theorem mapM_range_ok {n : ℕ} {f : ℕ → Except PyErr ℝ} {X : ℕ → ℝ} (h : ∀ i, i < n → f i = .ok (X i)) :
    (List.range n).mapM f = .ok ((List.range n).map X) := by
  have : ∀ l : List ℕ, (∀ i ∈ l, f i = .ok (X i)) → l.mapM f = .ok (l.map X) := by
    intro l
    induction l with
    | nil => intro _; rfl
    | cons a l ih =>
      intro hl
      rw [List.mapM_cons, hl a (by simp), ih (fun i hi => hl i (by simp [hi]))]
      rfl
  exact this _ (fun i hi => h i (List.mem_range.1 hi))

/-- The coefficients exist and solve the matrix equation integrated over time. -/
theorem coeffs_of {B : Basis} {E : ℕ → ℝ → Except PyErr ℝ} {Q : ℕ → ℝ → ℝ} (hs : Solves B s tend E Q) {gam psi v : ℕ → ℕ → ℝ}
    (hE : EigenSystem B.m.length gam psi B.eigs v B.Igamv) :
    ∃ A : ℕ → ℝ → ℝ, (∀ j, IntervalIntegrable (A j) volume s tend) ∧
      (∀ t, s ≤ t → t ≤ tend → ∃ c, (do
          let E ← (List.range B.m.length).mapM (fun i => E i t)
          pure (fun j => dotV B.m.length v (fun i => E.getD i 0) j) : Except PyErr (ℕ → ℝ)) = .ok c ∧ ∀ j, c j = A j t) ∧
      ∀ i, i < B.m.length → ∀ t, s ≤ t → t ≤ tend →
        (∑ j ∈ Finset.range B.m.length, gam i j * A j t) + B.dT * (∑ j ∈ Finset.range B.m.length, psi i j * ∫ r in s..t, A j r) =
          Q i t := by
  set n := B.m.length with hn
  choose! X hX using hs
  refine ⟨fun j t => ∑ i ∈ Finset.range n, v j i * X i t, ?_, ?_, ?_⟩
  · intro j
    have := IntervalIntegrable.sum (Finset.range n) (f := fun i t => v j i * X i t) (fun i hi =>
      ((hX i (Finset.mem_range.1 hi)).1).const_mul (v j i))
    have e : (∑ i ∈ Finset.range n, fun t => v j i * X i t) = fun t => ∑ i ∈ Finset.range n, v j i * X i t := by
      funext r; simp
    rw [e] at this
    exact this
  · intro t h1 h2
    refine ⟨_, by
      rw [mapM_range_ok (X := fun i => X i t) (fun i hi => ((hX i hi).2 t h1 h2).1)]
      rfl, fun j => ?_⟩
    refine Finset.sum_congr rfl (fun i hi => ?_)
    have hi' : i < n := Finset.mem_range.1 hi
    have : (List.map (fun i => X i t) (List.range B.m.length)).getD i 0 = X i t := by
      have hi2 : i < B.m.length := hi'
      simp [List.getD_eq_getElem?_getD, hi2]
    dsimp only
    rw [this]
  · intro i hi t h1 h2
    have hint : ∀ j, ∫ r in s..t, ∑ k ∈ Finset.range n, v j k * X k r = ∑ k ∈ Finset.range n, v j k * ∫ r in s..t, X k r := by
      intro j
      rw [intervalIntegral.integral_finsetSum (s := Finset.range n) (f := fun k r => v j k * X k r) (fun k hk => (int_sub (hX k (Finset.mem_range.1 hk)).1 h1 h2).const_mul _)]
      simp only [intervalIntegral.integral_const_mul]
    simp only [hint]
    have e1 : ∀ (M : ℕ → ℕ → ℝ) (Y : ℕ → ℝ), ∑ j ∈ Finset.range n, M i j * ∑ k ∈ Finset.range n, v j k * Y k =
        ∑ k ∈ Finset.range n, (∑ j ∈ Finset.range n, M i j * v j k) * Y k := by
      intro M Y
      simp only [Finset.mul_sum, Finset.sum_mul]
      rw [Finset.sum_comm]
      exact Finset.sum_congr rfl (fun k _ => Finset.sum_congr rfl (fun j _ => by ring))
    rw [e1, e1, Finset.mul_sum, ← Finset.sum_add_distrib]
    have e2 : ∀ k ∈ Finset.range n, (∑ j ∈ Finset.range n, gam i j * v j k) * X k t +
        B.dT * ((∑ j ∈ Finset.range n, psi i j * v j k) * ∫ r in s..t, X k r) =
        (∑ j ∈ Finset.range n, gam i j * v j k) * ∑ l ∈ Finset.range n, B.Igamv k l * Q l t := by
      intro k hk
      have hk' := Finset.mem_range.1 hk
      have e3 := ((hX k hk').2 t h1 h2).2
      have e4 : dotV B.m.length B.Igamv (fun j => Q j t) k =
        ∑ l ∈ Finset.range n, B.Igamv k l * Q l t := rfl
      rw [e4] at e3
      rw [hE.eig i k hi hk', ← e3]
      ring
    rw [Finset.sum_congr rfl e2]
    have e5 : ∑ k ∈ Finset.range n, (∑ j ∈ Finset.range n, gam i j * v j k) * ∑ l ∈ Finset.range n, B.Igamv k l * Q l t =
        ∑ l ∈ Finset.range n, (∑ k ∈ Finset.range n, (∑ j ∈ Finset.range n, gam i j * v j k) * B.Igamv k l) * Q l t := by
      simp only [Finset.mul_sum, Finset.sum_mul]
      rw [Finset.sum_comm]
      refine Finset.sum_congr rfl (fun l _ => ?_)
      refine Finset.sum_congr rfl (fun k _ => ?_)
      exact Finset.sum_congr rfl (fun j _ => by ring)
    rw [e5, Finset.sum_congr rfl (fun l hl => by rw [hE.inv i l hi (Finset.mem_range.1 hl)])]
    simp [hi]

/-- The coefficients exist and solve the matrix equation integrated over time. -/
theorem coefficients (h : VRInput x S s tend G) {m : List ℝ} (hm : x.m = .ok m) {gam psi : ℕ → ℕ → ℝ} {eigs : ℕ → ℝ} {v Igamv : ℕ → ℕ → ℝ}
    (hE : EigenSystem m.length gam psi eigs v Igamv) (h0 : ∀ i, i < m.length → eigs i ≠ 0) :
    ∃ A : ℕ → ℝ → ℝ, (∀ j, IntervalIntegrable (A j) volume s tend) ∧
      (∀ t, s ≤ t → t ≤ tend → ∃ c, x.vE (x.basis m eigs Igamv) v t = .ok c ∧ ∀ j, c j = A j t) ∧
      ∀ i, i < m.length → ∀ t, s ≤ t → t ≤ tend →
        (∑ j ∈ Finset.range m.length, gam i j * A j t) + x.dT * (∑ j ∈ Finset.range m.length, psi i j * ∫ r in s..t, A j r) =
          rhs G s (m.getD i 0) t := by
  obtain ⟨hl, hget, hd, hne, hsc⟩ := m_ok h hm
  have hB : ∀ i, i < (x.basis m eigs Igamv).m.length → (x.basis m eigs Igamv).dT * (x.basis m eigs Igamv).eigs i ≠ 0 :=
    fun i hi => mul_ne_zero h.dT (h0 i hi)
  exact coeffs_of (E_solves (B := x.basis m eigs Igamv) h hB hne) hE

/-- The program's output is the series with its boundary part. -/
theorem por_series (h : VRInput x S s tend G) {m : List ℝ} (hm : x.m = .ok m) {eigs : ℕ → ℝ} {v Igamv : ℕ → ℕ → ℝ} {A : ℕ → ℝ → ℝ} {t : ℝ}
    (h1 : s ≤ t) (h2 : t ≤ tend) {c : ℕ → ℝ} (hc : x.vE (x.basis m eigs Igamv) v t = .ok c) (hA : ∀ j, c j = A j t) (z : ℝ) (hz0 : 0 ≤ z)
    (hz1 : z ≤ 1) : x.por m eigs v Igamv z t = .ok (series G x.neig (fun j => m.getD j 0) A z t) := by
  obtain ⟨bot, tops, bots, e0, hb, ht1, ht2, hb1, hb2, hn⟩ := normBot_ok h
  unfold VR.por
  simp only [hc, e0, Bind.bind, Except.bind]
  rw [C74_value m c hb z t hz0 hz1 h1 h2, ht1, hb1, (m_ok h hm).1]
  have ebd : ((x.boundary bot).drn : ℝ) = (G.drn : ℝ) := by rw [h.drnG]; rfl
  rw [ebd]
  unfold series bTop
  simp only [hA]

theorem residual_bound (h : VRInput x S s tend G) {m : List ℝ} (hm : x.m = .ok m) {A : ℕ → ℝ → ℝ}
    (hA : ∀ j, IntervalIntegrable (A j) volume s tend) {g p : ℕ → ℕ → ℝ}
    (hg : ∀ i j, i < m.length → j < m.length → g i j = gamma G (m.getD i 0) (m.getD j 0))
    (hp : ∀ i j, i < m.length → j < m.length → x.dT * p i j = psiForm G (m.getD i 0) (m.getD j 0))
    (hsol : ∀ i, i < m.length → ∀ t, s ≤ t → t ≤ tend →
        (∑ j ∈ Finset.range m.length, chop g i j * A j t) + x.dT * (∑ j ∈ Finset.range m.length, chop p i j * ∫ r in s..t, A j r) =
          rhs G s (m.getD i 0) t) (i : ℕ) (hi : i < m.length) (t : ℝ) (h1 : s ≤ t) (h2 : t ≤ tend) :
    G.residual s (series G x.neig (fun j => m.getD j 0) A) (seriesZ G x.neig (fun j => m.getD j 0) A) (fun z => sin (m.getD i 0 * z))
      (fun z => m.getD i 0 * cos (m.getD i 0 * z)) t =
    (∑ j ∈ Finset.range m.length, (g i j - chop g i j) * A j t) +
      x.dT * ∑ j ∈ Finset.range m.length, (p i j - chop p i j) * ∫ r in s..t, A j r := by
  obtain ⟨hl, hget, hd, hne, hsc⟩ := m_ok h hm
  have e := residual_eq h x.neig (fun j => m.getD j 0) A (fun j _ => hA j) i (fun j hj => hsc i j (by omega) hj) t h1 h2
  rw [e, ← hsol i hi t h1 h2, ← hl]
  simp only [sub_mul, Finset.sum_sub_distrib, mul_sub]
  have e1 : ∑ j ∈ Finset.range m.length, gamma G (m.getD i 0) (m.getD j 0) * A j t = ∑ j ∈ Finset.range m.length, g i j * A j t :=
    Finset.sum_congr rfl (fun j hj => by rw [hg i j hi (Finset.mem_range.1 hj)])
  have e2 : ∑ j ∈ Finset.range m.length, psiForm G (m.getD i 0) (m.getD j 0) * ∫ r in s..t, A j r =
      x.dT * ∑ j ∈ Finset.range m.length, p i j * ∫ r in s..t, A j r := by
    rw [Finset.mul_sum]
    exact Finset.sum_congr rfl (fun j hj => by rw [← hp i j hi (Finset.mem_range.1 hj)]; ring)
  rw [e1, e2]
  ring

/-- The pore pressure computed by the program is a series in `sin(pi (j+1-drn/2) z)` plus the boundary part; it satisfies
the boundary conditions, and the weak form of the consolidation equation tested with each of these sines, up to the matrix
entries below 1e-8 that the program sets to zero. -/
theorem C77_weak_form (h : VRInput x S s tend G) (m : List ℝ) (hm : x.m = .ok m) (gam psi : ℕ → ℕ → ℝ) (hg : x.gam m = .ok gam)
    (hp : x.psi m = .ok psi) (eigs : ℕ → ℝ) (v Igamv : ℕ → ℕ → ℝ) (hE : EigenSystem m.length gam psi eigs v Igamv)
    (h0 : ∀ i, i < m.length → eigs i ≠ 0) :
    ∃ (A : ℕ → ℝ → ℝ) (u uz : ℝ → ℝ → ℝ),
      (∀ z t, 0 ≤ z → z ≤ 1 → s ≤ t → t ≤ tend → x.por m eigs v Igamv z t = .ok (u z t)) ∧
      (∀ z t, HasDerivAt (fun z => u z t) (uz z t) z) ∧
      (∀ z t, u z t = (∑ j ∈ Finset.range x.neig, A j t * sin (π * ((j:ℝ) + 1 - G.drn / 2) * z))
        + (1 - (1 - G.drn) * z) * G.top t + z * G.bot t) ∧
      (∀ t, u 0 t = G.top t ∧ (G.drn = 0 → u 1 t = G.bot t) ∧ (G.drn = 1 → uz 1 t = G.bot t)) ∧
      ∀ i, i < x.neig → ∀ t, s ≤ t → t ≤ tend →
        |G.residual s u uz (fun z => sin (π * ((i:ℝ) + 1 - G.drn / 2) * z))
          (fun z => π * ((i:ℝ) + 1 - G.drn / 2) * cos (π * ((i:ℝ) + 1 - G.drn / 2) * z)) t| ≤
        1 / 100000000 * ((∑ j ∈ Finset.range x.neig, |A j t|) + |x.dT| * ∑ j ∈ Finset.range x.neig, |∫ r in s..t, A j r|) := by
  obtain ⟨hl, hget, hd, hne, hsc⟩ := m_ok h hm
  obtain ⟨g, eg, hge⟩ := gam_ok h hd
  obtain ⟨p, ep, hpe⟩ := psi_ok h hd
  rw [hg] at eg
  rw [hp] at ep
  injection eg with eg
  injection ep with ep
  subst eg ep
  obtain ⟨A, hA, hc, hsol⟩ := coefficients h hm hE h0
  have hser : ∀ z t, series G x.neig (fun j => m.getD j 0) A z t = (∑ j ∈ Finset.range x.neig, A j t * sin (π * ((j:ℝ) + 1 - G.drn / 2) * z))
        + (1 - (1 - G.drn) * z) * G.top t + z * G.bot t := by
    intro z t
    unfold series bTop
    congr 2
    exact Finset.sum_congr rfl (fun j hj => by dsimp only; rw [hget j (Finset.mem_range.1 hj)])
  refine ⟨A, series G x.neig (fun j => m.getD j 0) A, seriesZ G x.neig (fun j => m.getD j 0) A, ?_, fun z t => series_deriv _ _ _ _ _ _,
    hser, ?_, ?_⟩
  · intro z t hz0 hz1 h1 h2
    obtain ⟨c, e, ec⟩ := hc t h1 h2
    exact por_series h hm h1 h2 e ec z hz0 hz1
  · intro t
    refine ⟨?_, ?_, ?_⟩
    · rw [hser]; simp
    · intro hd0
      rw [hser]
      have : ∑ j ∈ Finset.range x.neig, A j t * sin (π * ((j:ℝ) + 1 - G.drn / 2) * 1) = 0 := by
        refine Finset.sum_eq_zero (fun j _ => ?_)
        rw [hd0]
        have : π * ((j:ℝ) + 1 - (0:ℤ) / 2) * 1 = ((j + 1 : ℕ) : ℝ) * π := by push_cast; ring
        rw [this, sin_nat_mul_pi, mul_zero]
      rw [this, hd0]
      push_cast; ring
    · intro hd1
      unfold seriesZ
      have : ∑ j ∈ Finset.range x.neig, A j t * (m.getD j 0 * cos (m.getD j 0 * 1)) = 0 := by
        refine Finset.sum_eq_zero (fun j hj => ?_)
        rw [hget j (Finset.mem_range.1 hj), hd1]
        have : π * ((j:ℝ) + 1 - (1:ℤ) / 2) * 1 = (j : ℝ) * π + π / 2 := by push_cast; ring
        rw [this, cos_add_pi_div_two, sin_nat_mul_pi, neg_zero, mul_zero, mul_zero]
      rw [this, hd1]
      push_cast; ring
  · intro i hi t h1 h2
    have e := residual_bound h hm hA hge hpe hsol i (by omega) t h1 h2
    rw [hget i hi] at e
    rw [e, hl]
    refine (abs_add_le _ _).trans ?_
    rw [abs_mul, mul_add]
    refine add_le_add ?_ ?_
    · rw [Finset.mul_sum]
      refine (Finset.abs_sum_le_sum_abs _ _).trans (Finset.sum_le_sum (fun j _ => ?_))
      rw [abs_mul]
      exact mul_le_mul_of_nonneg_right (chop_near g i j) (abs_nonneg _)
    · rw [mul_left_comm]
      refine mul_le_mul_of_nonneg_left ?_ (abs_nonneg _)
      rw [Finset.mul_sum]
      refine (Finset.abs_sum_le_sum_abs _ _).trans (Finset.sum_le_sum (fun j _ => ?_))
      rw [abs_mul]
      exact mul_le_mul_of_nonneg_right (chop_near p i j) (abs_nonneg _)

/-- If every matrix entry is zero or at least 1e-8, the weak form holds exactly. -/
theorem C77_exact (h : VRInput x S s tend G) (m : List ℝ) (hm : x.m = .ok m) (gam psi : ℕ → ℕ → ℝ) (hg : x.gam m = .ok gam)
    (hp : x.psi m = .ok psi) (eigs : ℕ → ℝ) (v Igamv : ℕ → ℕ → ℝ) (hE : EigenSystem m.length gam psi eigs v Igamv)
    (h0 : ∀ i, i < m.length → eigs i ≠ 0)
    (hbig : ∀ i j, i < x.neig → j < x.neig → ∀ wi wj, wi = π * ((i:ℝ) + 1 - G.drn / 2) → wj = π * ((j:ℝ) + 1 - G.drn / 2) →
      (∀ a, a = ∫ z in (0:ℝ)..1, G.mv z * sin (wi * z) * sin (wj * z) → a = 0 ∨ 1 / 100000000 ≤ |a|) ∧
      (∀ a, x.dT * a = (∫ z in (0:ℝ)..1, G.vert z * (wi * cos (wi * z)) * (wj * cos (wj * z)))
          + (∫ z in (0:ℝ)..1, G.horiz z * sin (wi * z) * sin (wj * z))
          + (G.fixed.map (fun f => f.2.1 * sin (wi * f.1) * sin (wj * f.1))).sum → a = 0 ∨ 1 / 100000000 ≤ |a|)) :
    ∃ u uz : ℝ → ℝ → ℝ,
      (∀ z t, 0 ≤ z → z ≤ 1 → s ≤ t → t ≤ tend → x.por m eigs v Igamv z t = .ok (u z t)) ∧
      (∀ z t, HasDerivAt (fun z => u z t) (uz z t) z) ∧
      ∀ i, i < x.neig → ∀ t, s ≤ t → t ≤ tend →
        G.residual s u uz (fun z => sin (π * ((i:ℝ) + 1 - G.drn / 2) * z))
          (fun z => π * ((i:ℝ) + 1 - G.drn / 2) * cos (π * ((i:ℝ) + 1 - G.drn / 2) * z)) t = 0 := by
  obtain ⟨hl, hget, hd, hne, hsc⟩ := m_ok h hm
  obtain ⟨g, eg, hge⟩ := gam_ok h hd
  obtain ⟨p, ep, hpe⟩ := psi_ok h hd
  rw [hg] at eg
  rw [hp] at ep
  injection eg with eg
  injection ep with ep
  subst eg ep
  obtain ⟨A, hA, hc, hsol⟩ := coefficients h hm hE h0
  refine ⟨series G x.neig (fun j => m.getD j 0) A, seriesZ G x.neig (fun j => m.getD j 0) A, ?_, fun z t => series_deriv _ _ _ _ _ _, ?_⟩
  · intro z t hz0 hz1 h1 h2
    obtain ⟨c, e, ec⟩ := hc t h1 h2
    exact por_series h hm h1 h2 e ec z hz0 hz1
  · intro i hi t h1 h2
    have e := residual_bound h hm hA hge hpe hsol i (by omega) t h1 h2
    rw [hget i hi] at e
    rw [e]
    have k : ∀ j, j ∈ Finset.range m.length → chop g i j = g i j ∧ chop p i j = p i j := by
      intro j hj
      have hj' : j < x.neig := by rw [← hl]; exact Finset.mem_range.1 hj
      obtain ⟨b1, b2⟩ := hbig i j hi hj' _ _ (hget i hi) (hget j hj')
      exact ⟨chop_exact g i j (b1 _ (hge i j (by omega) (by omega))), chop_exact p i j (b2 _ (hpe i j (by omega) (by omega)))⟩
    rw [Finset.sum_eq_zero (fun j hj => by rw [(k j hj).1, sub_self, zero_mul]),
      Finset.sum_eq_zero (fun j hj => by rw [(k j hj).2, sub_self, zero_mul])]
    ring

theorem surcharge_sum (hS : TolSep S) {mv : PolyLine ℝ} {f : ℝ → ℝ} (hmv : Profile S mv f) {L : List (PolyLine ℝ × PolyLine ℝ × Om)}
    {hs : List ((ℝ → ℝ) × (ℝ → ℝ) × ℝ)} (h : List.Forall₂ (DepthLoad S s tend) L hs) {z1 z2 t : ℝ} (hz0 : 0 ≤ z1)
    (hz : z1 < z2) (hz1 : z2 ≤ 1) (ht0 : s ≤ t) (ht1 : t ≤ tend) :
    sumM (fun q : PolyLine ℝ × PolyLine ℝ × Om => do
      let v ← pintegrateMul q.1 q.2.1 mv t z1 z2
      pure (v * mult q.2.2 t)) L = .ok (∫ z in z1..z2, f z * (hs.map (fun h => h.1 z * h.2.1 t)).sum) ∧
    IntervalIntegrable (fun z => f z * (hs.map (fun h => h.1 z * h.2.1 t)).sum) volume z1 z2 := by
  have sub : ∀ {g : ℝ → ℝ}, BddOn g 0 1 → IntervalIntegrable g volume z1 z2 := fun hg => by
    refine (hg.int zero_le_one).mono_set ?_
    rw [Set.uIcc_of_le hz.le, Set.uIcc_of_le zero_le_one]
    exact Set.Icc_subset_Icc hz0 hz1
  induction h with
  | nil => simp [sumM]
  | @cons q y L hs h1 h2 ih =>
    obtain ⟨v, e1, e2⟩ := h1.2.solve.1 t ht0 ht1
    have i1 := sub (((Profile.bdd h1.1).mul (Profile.bdd hmv)).mul (BddOn.of_continuous (f := fun _ => y.2.1 t) continuous_const 0 1))
    have ex : (fun z => f z * ((y :: hs).map (fun h => h.1 z * h.2.1 t)).sum) = fun z => (y.1 z * f z * y.2.1 t) +
        f z * (hs.map (fun h => h.1 z * h.2.1 t)).sum := by
      funext z; simp only [List.map_cons, List.sum_cons]; ring
    rw [ex]
    refine ⟨?_, i1.add ih.2⟩
    rw [sumM, pintegrateMul_ok hS h1.1 hmv e1 hz0 hz hz1, ih.1, intervalIntegral.integral_add i1 ih.2,
      intervalIntegral.integral_mul_const, ← e2]
    simp only [Bind.bind, Except.bind, pure, Except.pure]
    congr 1
    ring

/-- The three output functions applied to one column of coefficients agree with each other. -/
theorem outputs_of (h : VRInput x S s tend G) (m : List ℝ) (hm : x.m = .ok m) (c : ℕ → ℝ) {bot : Option (List (PolyLine ℝ))}
    (hbot : x.normBot = .ok bot) (z1 z2 t : ℝ) (hz0 : 0 ≤ z1)
    (hz : z1 < z2) (hz1 : z2 ≤ 1) (ht0 : s ≤ t) (ht1 : t ≤ tend)
    (hlen : ∀ l d, x.surchargeTime = some l → x.surchargeDepth = some d → d.length = l.length ∧ OmLen l x.surchargeOm)
    (hnone : x.surchargeDepth = none → x.surchargeTime = none) :
    ∃ (u : ℝ → ℝ) (a w l : ℝ), (∀ z, 0 ≤ z → z ≤ 1 → dim1sinF m z t c (x.boundary bot) = .ok (u z)) ∧
      dim1sinAvgF m z1 z2 t c (x.boundary bot) = .ok a ∧ a * (z2 - z1) = (∫ z in z1..z2, u z) ∧
      dim1sinIntegrateAf m z1 z2 t c (x.boundary bot) x.mv = .ok w ∧ x.settleLoad z1 z2 t = .ok l ∧
      (-w + l) * (x.H * x.mvref) = x.H * x.mvref * ∫ z in z1..z2, G.mv z * (G.surcharge z t - u z) := by
  obtain ⟨hl, hget, hd, hne, hsc⟩ := m_ok h hm
  obtain ⟨bot', tops, bots, e0, hb, htt, _, hbb, _⟩ := normBot_ok h
  rw [hbot] at e0
  injection e0 with e0
  subst e0
  obtain ⟨u1, a, b1, b2, b3⟩ := C75_average m hne c hb z1 z2 t hz0 hz hz1 ht0 ht1
  obtain ⟨u2, c1, c2⟩ := C76_integrate S h.sep m hne c hb x.mv G.mv h.mv z1 z2 t hz0 hz hz1 ht0 ht1
  set u := fun z => (∑ j ∈ Finset.range m.length, c j * sin (m.getD j 0 * z)) + (1 - (1 - (x.boundary bot).drn) * z) * total tops t
      + z * total bots t with hu
  have hok : ∀ z, 0 ≤ z → z ≤ 1 → dim1sinF m z t c (x.boundary bot) = .ok (u z) := fun z h0 h1 => C74_value m c hb z t h0 h1 ht0 ht1
  have e1 : ∀ z, 0 ≤ z → z ≤ 1 → u1 z = u z := fun z h0 h1 => by
    have := b1 z h0 h1
    rw [hok z h0 h1] at this
    injection this with this
    exact this.symm
  have e2 : ∀ z, 0 ≤ z → z ≤ 1 → u2 z = u z := fun z h0 h1 => by
    have := c1 z h0 h1
    rw [hok z h0 h1] at this
    injection this with this
    exact this.symm
  have huc : Continuous u := by
    rw [hu]; fun_prop
  have i2 : ∫ z in z1..z2, G.mv z * u2 z = ∫ z in z1..z2, G.mv z * u z := by
    refine integral_congr_Ioo' hz.le (fun z ha hb => ?_)
    rw [e2 z (by linarith) (by linarith)]
  have hsur : x.settleLoad z1 z2 t = .ok (∫ z in z1..z2, G.mv z * G.surcharge z t) ∧
      IntervalIntegrable (fun z => G.mv z * G.surcharge z t) volume z1 z2 := by
    have hs := h.surcharge
    unfold VR.settleLoad
    cases hd' : x.surchargeDepth with
    | none =>
      rw [hd'] at hs
      rw [hnone hd']
      have : (fun z => G.mv z * G.surcharge z t) = fun _ => 0 := by funext z; rw [hs.1, mul_zero]
      rw [this]
      simp only [intervalIntegral.integral_zero]
      exact ⟨rfl, intervalIntegrable_const⟩
    | some d =>
      cases hl' : x.surchargeTime with
      | none =>
        rw [hd', hl'] at hs
        have : (fun z => G.mv z * G.surcharge z t) = fun _ => 0 := by funext z; rw [hs.1, mul_zero]
        rw [this]
        simp only [intervalIntegral.integral_zero]
        exact ⟨rfl, intervalIntegrable_const⟩
      | some l =>
        rw [hd', hl'] at hs
        obtain ⟨hs, a1, a2, a3⟩ := hs
        obtain ⟨l1, l2⟩ := hlen l d hl' hd'
        simp only [superIntegrate, if_neg (not_not.2 l1.symm), if_neg (not_not.2 l2.symm)]
        have : (fun z => G.mv z * G.surcharge z t) = fun z => G.mv z * (hs.map (fun h => h.1 z * h.2.1 t)).sum := by
          funext z; rw [a2]
        rw [this]
        exact surcharge_sum h.sep h.mv a1 hz0 hz hz1 ht0 ht1
  obtain ⟨hsur, isur⟩ := hsur
  refine ⟨u, a, _, _, hok, b2, ?_, c2, hsur, ?_⟩
  · rw [b3]
    exact integral_congr_Ioo' hz.le (fun z ha hb => e1 z (by linarith) (by linarith))
  · rw [i2]
    have iu : IntervalIntegrable (fun z => G.mv z * u z) volume z1 z2 := profile_reads h.mv hz0 hz.le hz1 huc
    have : (fun z => G.mv z * (G.surcharge z t - u z)) = fun z => G.mv z * G.surcharge z t - G.mv z * u z := by funext z; ring
    rw [this, intervalIntegral.integral_sub isur iu]
    ring

/-- The outputs of one run agree with each other: average pore pressure times the thickness is the integral of the pore
pressure, settlement is `H mvref` times the integral of `mv` times the effective stress `sigma - u`. -/
theorem C76_outputs_agree (h : VRInput x S s tend G) (m : List ℝ) (hm : x.m = .ok m) (gam psi : ℕ → ℕ → ℝ) (eigs : ℕ → ℝ) (v Igamv : ℕ → ℕ → ℝ)
    (hE : EigenSystem m.length gam psi eigs v Igamv) (h0 : ∀ i, i < m.length → eigs i ≠ 0) (z1 z2 t : ℝ) (hz0 : 0 ≤ z1)
    (hz : z1 < z2) (hz1 : z2 ≤ 1) (ht0 : s ≤ t) (ht1 : t ≤ tend)
    (hlen : ∀ l d, x.surchargeTime = some l → x.surchargeDepth = some d → d.length = l.length ∧ OmLen l x.surchargeOm)
    (hnone : x.surchargeDepth = none → x.surchargeTime = none) :
    ∃ (u : ℝ → ℝ) (a : ℝ), (∀ z, 0 ≤ z → z ≤ 1 → x.por m eigs v Igamv z t = .ok (u z)) ∧
      x.avp m eigs v Igamv z1 z2 t = .ok a ∧ a * (z2 - z1) = (∫ z in z1..z2, u z) ∧
      x.settle m eigs v Igamv z1 z2 t = .ok (x.H * x.mvref * ∫ z in z1..z2, G.mv z * (G.surcharge z t - u z)) := by
  obtain ⟨A, hA, hc, hsol⟩ := coefficients h hm hE h0
  obtain ⟨c, e, ec⟩ := hc t ht0 ht1
  obtain ⟨bot, _, _, e0, _⟩ := normBot_ok h
  obtain ⟨u, a, w, l, r1, r2, r3, r4, r5, r6⟩ := outputs_of h m hm c e0 z1 z2 t hz0 hz hz1 ht0 ht1 hlen hnone
  refine ⟨u, a, fun z h1 h2 => ?_, ?_, r3, ?_⟩
  · unfold VR.por
    simp only [e, e0, Bind.bind, Except.bind]
    exact r1 z h1 h2
  · unfold VR.avp
    simp only [e, e0, Bind.bind, Except.bind]
    exact r2
  · unfold VR.settle
    simp only [e, e0, r4, r5, Bind.bind, Except.bind, pure, Except.pure]
    rw [r6]

end Geotecha.Speccon
