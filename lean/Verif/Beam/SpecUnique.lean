import Verif.Beam.SpecDing
import Verif.Speccon.VRWEigen
import Mathlib.Analysis.ODE.Gronwall
import Mathlib.Analysis.Calculus.ContDiff.RCLike
import Mathlib.Analysis.Calculus.ContDiff.Operations

/-!
# Claim C183: the vector fields are total and the runs are unique
-/
set_option autoImplicit false
set_option linter.unusedVariables false

namespace Geotecha.Beam

open Real Geotecha.Speccon Geotecha.Piecewise Geotecha.Spec

/-- Extension of a finite vector by zeros. -/
def ext {m : ℕ} (Y : Fin m → ℝ) (k : ℕ) : ℝ := if h : k < m then Y ⟨k, h⟩ else 0

theorem ext_smooth {m : ℕ} (k : ℕ) : ContDiff ℝ 1 fun Y : Fin m → ℝ => ext Y k := by
  unfold ext
  by_cases h : k < m
  · simp only [h, dif_pos]; exact contDiff_apply ℝ ℝ _
  · simp only [h, dif_neg, not_false_eq_true]; exact contDiff_const

/-- Two solutions of `y' = G(y) + g(t)` on the open interval, continuous on the closed one, with the same start,
agree when `G` is continuously differentiable. -/
theorem unique_of_smooth {m : ℕ} {G : (Fin m → ℝ) → Fin m → ℝ} (hG : ContDiff ℝ 1 G) {g : ℝ → Fin m → ℝ} {a b : ℝ} {y z : ℝ → Fin m → ℝ}
    (hy : ContinuousOn y (Set.Icc a b)) (hz : ContinuousOn z (Set.Icc a b))
    (dy : ∀ t ∈ Set.Ioo a b, HasDerivAt y (G (y t) + g t) t) (dz : ∀ t ∈ Set.Ioo a b, HasDerivAt z (G (z t) + g t) t)
    (h0 : y a = z a) : Set.EqOn y z (Set.Icc a b) := by
  obtain ⟨R1, hR1⟩ := (isCompact_Icc.image_of_continuousOn hy).isBounded.subset_closedBall 0
  obtain ⟨R2, hR2⟩ := (isCompact_Icc.image_of_continuousOn hz).isBounded.subset_closedBall 0
  set s := Metric.closedBall (0 : Fin m → ℝ) (max R1 R2) with hs
  obtain ⟨K, hK⟩ := (hG.contDiffOn (s := s)).exists_lipschitzOnWith one_ne_zero (convex_closedBall _ _) (isCompact_closedBall _ _)
  have my : ∀ t ∈ Set.Icc a b, y t ∈ s := fun t ht =>
    Metric.closedBall_subset_closedBall (le_max_left _ _) (hR1 ⟨t, ht, rfl⟩)
  have mz : ∀ t ∈ Set.Icc a b, z t ∈ s := fun t ht =>
    Metric.closedBall_subset_closedBall (le_max_right _ _) (hR2 ⟨t, ht, rfl⟩)
  intro t ht
  rcases eq_or_lt_of_le ht.1 with rfl | hat
  · exact h0
  have key : ∀ u ∈ Set.Ioo a t, dist (y t) (z t) ≤ dist (y u) (z u) * exp (K * (t - u)) := fun u hu => by
    have sub : Set.Icc u t ⊆ Set.Icc a b := Set.Icc_subset_Icc hu.1.le ht.2
    have sub' : Set.Ico u t ⊆ Set.Ioo a b := fun v hv => ⟨hu.1.trans_le hv.1, hv.2.trans_le ht.2⟩
    refine dist_le_of_trajectories_ODE_of_mem (v := fun t Y => G Y + g t) (s := fun _ => s) (fun v _ => ?_) (hy.mono sub)
      (fun v hv => (dy v (sub' hv)).hasDerivWithinAt) (fun v hv => my v (sub ⟨hv.1, hv.2.le⟩)) (hz.mono sub)
      (fun v hv => (dz v (sub' hv)).hasDerivWithinAt) (fun v hv => mz v (sub ⟨hv.1, hv.2.le⟩)) le_rfl t ⟨hu.2.le, le_rfl⟩
    intro p hp q hq
    rw [edist_add_right]
    exact hK hp hq
  have hcont : ContinuousWithinAt (fun u => dist (y u) (z u) * exp (K * (t - u))) (Set.Ioi a) a := by
    have sub : Set.Icc a b ∈ nhdsWithin a (Set.Ioi a) := by
      refine Filter.mem_of_superset (Ioo_mem_nhdsGT (hat.trans_le ht.2)) Set.Ioo_subset_Icc_self
    have c1 := (hy a ⟨le_rfl, (hat.trans_le ht.2).le⟩).mono_of_mem_nhdsWithin sub
    have c2 := (hz a ⟨le_rfl, (hat.trans_le ht.2).le⟩).mono_of_mem_nhdsWithin sub
    exact (c1.dist c2).mul (Continuous.continuousWithinAt (by fun_prop))
  have lim : dist (y t) (z t) ≤ dist (y a) (z a) * exp (K * (t - a)) :=
    ge_of_tendsto hcont (Filter.mem_of_superset (Ioo_mem_nhdsGT hat) key)
  rw [h0, dist_self, zero_mul] at lim
  exact dist_le_zero.1 lim

/-- The part of `SpecBeam`'s accelerations that depends on the state. -/
noncomputable def SBeam.own (s : SBeam) (M : SMats) (y : ℕ → ℝ) (i : ℕ) : ℝ :=
  dotV s.n M.psiq y i + dotV s.n M.psiqd (fun k => y (s.n + k)) i
    - sbCoeff * s.k3 * M.cubic s.n (fun k => s.beta.getD k 0) y (s.beta.getD i 0)

noncomputable def SBeam.G (s : SBeam) (M : SMats) (Y : Fin (2 * s.n) → ℝ) (i : Fin (2 * s.n)) : ℝ :=
  if (i : ℕ) < s.n then ext Y (s.n + i) else
    if h : (i : ℕ) - s.n < s.n then ((blk s.n M.lam)⁻¹.mulVec fun j : Fin s.n => s.own M (ext Y) j) ⟨i - s.n, h⟩ else 0

noncomputable def SBeam.g (s : SBeam) (M : SMats) (st : ℕ → ℝ) (t : ℝ) (i : Fin (2 * s.n)) : ℝ :=
  if (i : ℕ) < s.n then 0 else
    if h : (i : ℕ) - s.n < s.n then ((blk s.n M.lam)⁻¹.mulVec fun j : Fin s.n => s.moving (s.beta.getD j 0) t + st j) ⟨i - s.n, h⟩ else 0

theorem SBeam.G_smooth (s : SBeam) (M : SMats) : ContDiff ℝ 1 (s.G M) := by
  rw [contDiff_pi]
  intro i
  unfold SBeam.G
  by_cases hi : (i : ℕ) < s.n
  · simp only [if_pos hi]; exact ext_smooth _
  · simp only [if_neg hi]
    by_cases h : (i : ℕ) - s.n < s.n
    · simp only [dif_pos h, Matrix.mulVec, dotProduct]
      refine ContDiff.sum fun j _ => contDiff_const.mul ?_
      unfold SBeam.own dotV SMats.cubic
      refine ContDiff.sub (ContDiff.add (ContDiff.sum fun k _ => ?_) (ContDiff.sum fun k _ => ?_)) (contDiff_const.mul (ContDiff.sum fun k _ => ?_))
      · exact contDiff_const.mul (ext_smooth _)
      · exact contDiff_const.mul (ext_smooth _)
      · refine ContDiff.mul (ContDiff.mul (contDiff_const.mul (ContDiff.pow (ContDiff.sum fun l _ => ?_) 3)) contDiff_const) contDiff_const
        exact (ext_smooth _).mul contDiff_const
    · simp only [dif_neg h]; exact contDiff_const

theorem own_congr (s : SBeam) (M : SMats) {y z : ℕ → ℝ} (h : ∀ i < 2 * s.n, y i = z i) (i : ℕ) : s.own M y i = s.own M z i := by
  unfold SBeam.own dotV SMats.cubic
  congr 1
  · congr 1
    · exact Finset.sum_congr rfl fun k hk => by rw [h k (by have := Finset.mem_range.1 hk; omega)]
    · exact Finset.sum_congr rfl fun k hk => by beta_reduce; rw [h (s.n + k) (by have := Finset.mem_range.1 hk; omega)]
  · congr 1
    refine Finset.sum_congr rfl fun j _ => ?_
    rw [Finset.sum_congr rfl fun k hk => by rw [h k (by have := Finset.mem_range.1 hk; omega)]]

theorem field_split {s : SBeam} {M : SMats} {y d : ℕ → ℝ} {t : ℝ} (h : s.field M y t = .ok d) :
    ∃ st, (List.range s.n).mapM (fun i => s.still (s.beta.getD i 0) t) = .ok st ∧
      ∀ i : Fin (2 * s.n), d i = s.G M (fun k : Fin (2 * s.n) => y k) i + s.g M (fun k => st.getD k 0) t i := by
  unfold SBeam.field at h
  rcases e : (List.range s.n).mapM (fun i => s.still (s.beta.getD i 0) t) with _ | st
  · rw [e] at h; exact absurd h (by simp [Bind.bind, Except.bind])
  · refine ⟨st, rfl, fun i => ?_⟩
    rcases e2 : solveN s.n M.lam (fun i => s.rhsR M y (fun k => y (s.n + k)) t (st.getD i 0) i) with _ | acc
    · simp only [e, e2, Bind.bind, Except.bind] at h; exact absurd h (by simp)
    · simp only [e, e2, Bind.bind, Except.bind, pure, Except.pure, Except.ok.injEq] at h
      subst h
      unfold SBeam.G SBeam.g
      have hext : ∀ k < 2 * s.n, ext (fun k : Fin (2 * s.n) => y k) k = y k := fun k hk => by simp [ext, hk]
      by_cases hi : (i : ℕ) < s.n
      · simp only [if_pos hi, add_zero]; rw [hext _ (by omega)]
      · have h' : (i : ℕ) - s.n < s.n := by have := i.2; omega
        simp only [if_neg hi, dif_pos h']
        unfold solveN at e2
        by_cases hd : (blk s.n M.lam).det = 0
        · rw [if_pos hd] at e2; exact absurd e2 (by simp)
        · rw [if_neg hd] at e2
          obtain rfl := Except.ok.inj e2
          simp only [dif_pos h']
          rw [← Pi.add_apply, ← Matrix.mulVec_add]
          congr 2
          funext j
          rw [Pi.add_apply, own_congr s M hext]
          unfold SBeam.rhsR SBeam.own
          ring

/-- **C183.** The results of the numerical solution are determined by the input: two exact runs over the same times agree, for
every beam, every loading and every profile. -/
theorem C183_run_unique {s : SBeam} {M : SMats} {T0 T1 : ℝ} {y z : ℝ → ℕ → ℝ} (hy : SRun s M T0 T1 y) (hz : SRun s M T0 T1 z) :
    ∀ t ∈ Set.Icc T0 T1, ∀ i < 2 * s.n, y t i = z t i := by
  have hst : ∀ t, ∃ st : List ℝ, ∀ st', (List.range s.n).mapM (fun i => s.still (s.beta.getD i 0) t) = .ok st' → st' = st := fun t => by
    rcases e : (List.range s.n).mapM (fun i => s.still (s.beta.getD i 0) t) with _ | st
    · exact ⟨[], fun st' h => absurd h (by simp)⟩
    · exact ⟨st, fun st' h => (Except.ok.inj h).symm⟩
  choose st hst using hst
  have key : ∀ {w : ℝ → ℕ → ℝ}, SRun s M T0 T1 w → ∀ t ∈ Set.Ioo T0 T1,
      HasDerivAt (fun t => fun k : Fin (2 * s.n) => w t k) (s.G M (fun k : Fin (2 * s.n) => w t k) + s.g M (fun k => (st t).getD k 0) t) t := by
    intro w hw t ht
    obtain ⟨d, h1, h2⟩ := hw.field t ht
    obtain ⟨st', e, hd⟩ := field_split h1
    rw [hasDerivAt_pi]
    intro i
    rw [Pi.add_apply, ← hst t _ e, ← hd i]
    exact h2 i i.2
  have := unique_of_smooth (G := s.G M) (s.G_smooth M) (g := fun t => s.g M (fun k => (st t).getD k 0) t)
    (continuousOn_pi.2 fun i => hy.cont i i.2) (continuousOn_pi.2 fun i => hz.cont i i.2) (key hy) (key hz)
    (by funext i; rw [hy.start i i.2, hz.start i i.2])
  intro t ht i hi
  exact congrFun (this ht) ⟨i, hi⟩

/-- **C183.** The same for `DingEtAl2012`, with any end conditions. -/
theorem C183_ding_run_unique {bc : BC} {c : Coef} {b : ℕ → ℝ} {n : ℕ} {R : Rule} {T0 T1 : ℝ} {y z : ℝ → ℕ → ℝ} (hy : Run bc c b n R T0 T1 y)
    (hz : Run bc c b n R T0 T1 z) : ∀ t ∈ Set.Icc T0 T1, ∀ i < 2 * n, y t i = z t i := by
  intro t ht i hi
  -- the rule is there as soon as there is a time inside
  by_cases hlt : T0 < T1
  swap
  · obtain rfl : T0 = t := le_antisymm ht.1 (ht.2.trans (not_lt.1 hlt))
    rw [hy.start i hi, hz.start i hi]
  rcases hR : R with _ | _ | ⟨m, x, I⟩
  · subst hR
    obtain ⟨d, h1, _⟩ := hy.field ((T0 + T1) / 2) ⟨by linarith, by linarith⟩ (n + (n - 1)) (by omega)
    unfold vectorfield at h1
    rw [if_neg (by omega)] at h1
    exact absurd h1 (by simp [acc])
  · subst hR
    obtain ⟨d, h1, _⟩ := hy.field ((T0 + T1) / 2) ⟨by linarith, by linarith⟩ (n + (n - 1)) (by omega)
    unfold vectorfield at h1
    rw [if_neg (by omega)] at h1
    exact absurd h1 (by simp [acc])
  · subst hR
    set G : (Fin (2 * n) → ℝ) → Fin (2 * n) → ℝ := fun Y i => if (i : ℕ) < n then ext Y (n + i) else
      - c.mu * ext Y (n + (i - n)) - (c.k1 + c.kf ^ 2 * b (i - n) ^ 4) * ext Y (i - n)
        - bcCoeff bc * c.k3 * ∑ j, I j * (wN bc b n (ext Y) (x j)) ^ 3 * phi bc (x j) (b (i - n)) with hG
    set g : ℝ → Fin (2 * n) → ℝ := fun t i => if (i : ℕ) < n then 0 else bcCoeff bc * c.F * phi bc (c.v * t) (b (i - n)) with hg
    have smooth : ContDiff ℝ 1 G := by
      rw [contDiff_pi]
      intro i
      rw [hG]
      by_cases hi : (i : ℕ) < n
      · simp only [if_pos hi]; exact ext_smooth _
      · simp only [if_neg hi]
        refine ContDiff.sub (ContDiff.sub (contDiff_const.mul (ext_smooth _)) (contDiff_const.mul (ext_smooth _)))
          (contDiff_const.mul (ContDiff.sum fun k _ => ?_))
        refine ContDiff.mul (contDiff_const.mul (ContDiff.pow (ContDiff.sum fun l _ => ?_) 3)) contDiff_const
        exact (ext_smooth _).mul contDiff_const
    have key : ∀ {w : ℝ → ℕ → ℝ}, Run bc c b n (.rule m x I) T0 T1 w → ∀ t ∈ Set.Ioo T0 T1,
        HasDerivAt (fun t => fun k : Fin (2 * n) => w t k) (G (fun k : Fin (2 * n) => w t k) + g t) t := by
      intro w hw t ht
      have hext : ∀ k < 2 * n, ext (fun k : Fin (2 * n) => w t k) k = w t k := fun k hk => by simp [ext, hk]
      rw [hasDerivAt_pi]
      intro i
      obtain ⟨d, h1, h2⟩ := hw.field t ht i i.2
      have hi2 := i.2
      refine h2.congr_deriv ?_
      rw [Pi.add_apply, hG, hg]
      unfold vectorfield at h1
      by_cases hi : (i : ℕ) < n
      · rw [if_pos hi] at h1
        simp only [if_pos hi, add_zero]
        rw [hext _ (by omega)]
        simpa using h1.symm
      · rw [if_neg hi] at h1
        simp only [if_neg hi]
        simp only [acc] at h1
        split_ifs at h1 with hnan
        · exact absurd h1 (by simp)
        · have := Option.some.inj (Except.ok.inj h1)
          rw [← this, hext _ (by omega), hext _ (by omega)]
          have hw' : ∀ x, wN bc b n (ext fun k : Fin (2 * n) => w t k) x = wN bc b n (w t) x := fun x => by
            unfold wN
            exact Finset.sum_congr rfl fun k hk => by rw [hext k (by have := Finset.mem_range.1 hk; omega)]
          simp only [hw']
          unfold accR
          ring
    have := unique_of_smooth smooth (g := g) (continuousOn_pi.2 fun i => hy.cont i i.2) (continuousOn_pi.2 fun i => hz.cont i i.2) (key hy) (key hz)
      (by funext i; rw [hy.start i i.2, hz.start i i.2])
    exact congrFun (this ht) ⟨i, hi⟩

/-- **C183.** Mass that is nowhere zero (`ρ A` profiles bounded below by a positive number) and proper loads: the
matrices can be built for every number of quadrature points but one, and the vector field succeeds for every state at every
time (`np.linalg.solve` never meets a singular matrix). -/
theorem C183_field_total {P : SPhys} {n nq : ℕ} (hq : nq ≠ 1) {m : MArgs} {sa : StArgs} {B : Bars} {impl : Impl}
    {vs : List Vehicle} {ls : List SLoad} (hm : Spec.Moving P.L m vs) (hs : Spec.Still sa ls) (hp : ∀ l ∈ ls, Spec.Proper l)
    {S : Set ℝ} {fE fI frho fA fk1 fmu : ℝ → ℝ} (hc : Spec.Curves B S fE fI frho fA fk1 fmu) {μ : ℝ} (hμ : 0 < μ)
    (hlow : ∀ z, 0 < z → z < 1 → μ ≤ frho z * fA z) :
    ∃ s M, SBeam.init n (P.args (some nq)) m sa B impl = .ok s ∧ s.matrices = .ok M ∧ ∀ y t, ∃ d, s.field M y t = .ok d := by
  obtain ⟨w, hR, _⟩ := C167_ding_quadrature_exact nq hq
  obtain ⟨c1, c2, c3, c4⟩ := coef_ok P (some nq)
  have hg : (P.args (some nq)).gate = .ok () := by
    unfold SArgs.gate; rw [if_neg]; simp [SPhys.args]
  have hv : vehicles (P.args (some nq)) m = .ok (vs.map P.scale) := by
    rcases hm with hm | ⟨rfl, h1, h2, h3, h4, h5, h6⟩
    · exact vehicles_raw P _ hm
    · unfold vehicles; rw [if_pos ⟨h4, h5, h6, h1, h2, h3⟩]; rfl
  have hst : ∃ st, stationary (P.args (some nq)) sa = .ok st := by
    rcases hs with hs | ⟨rfl, h1, h2, h3, h4, h5⟩
    · obtain ⟨st, h, _⟩ := still_ok P (some nq) hs hp; exact ⟨st, h⟩
    · exact ⟨⟨[], [], []⟩, by unfold stationary; rw [if_pos ⟨h3, h5, h4, h1, h2⟩]⟩
  obtain ⟨st, hst⟩ := hst
  have hinit : ∃ s, SBeam.init n (P.args (some nq)) m sa B impl = .ok s ∧ s.quad = .rule nq (nodesSS nq) w := by
    refine ⟨⟨n, some P.L, 1 / P.L * √(P.I / P.A), P.mu / P.A * √(P.L ^ 2 / (P.rho * P.E)), P.k1 * P.L ^ 2 / (P.E * P.A), P.k3 * P.L ^ 4 / (P.E * P.A),
      vs.map P.scale, st, .rule nq (nodesSS nq) w, B, impl⟩, ?_, rfl⟩
    unfold SBeam.init
    simp only [hg, c1, c2, c3, c4, hv, hst, Bind.bind, Except.bind]
    rw [if_pos (by rfl), show (P.args (some nq)).nquad = some nq from rfl, hR]
    rfl
  obtain ⟨s, hinit, hquad⟩ := hinit
  obtain ⟨e1, e2, e3, e4, e5, e6, e7, e8, e9, e10, e11⟩ := init_phys hm hs hp hinit
  subst e10
  obtain ⟨pts, hpts, _⟩ := hc.k1.ex
  obtain ⟨lam, psiq, psiqd, hM, l1, l2, l3⟩ := matrices_ok s hc hquad hpts
  refine ⟨s, _, hinit, hM, fun y t => ?_⟩
  have hdet : (blk s.n lam).det ≠ 0 := by
    have spd : SPD s.n lam := by
      refine ⟨fun i j hi hj => ?_, fun c hcc => ?_⟩
      · rw [l1 i j hi hj, l1 j i hj hi]; unfold gal; congr 1; funext z; ring
      · rw [form_congr l1]
        have b1 := (Profile.bdd hc.rho).mul (Profile.bdd hc.A)
        refine lt_of_lt_of_le ?_ (form_lower b1 hlow s.n (fun i z => sin (π * ((i : ℝ) + 1) * z)) (fun i => by fun_prop) (fun i j => ?_) c)
        · obtain ⟨i, hi, hne⟩ := hcc
          refine mul_pos hμ (mul_pos (by norm_num) (Finset.sum_pos' (fun k _ => sq_nonneg _) ⟨i, Finset.mem_range.2 hi, by positivity⟩))
        · have := gal_one i j
          unfold gal at this
          simpa using this
    exact (spd.posDef.det_pos).ne'
  obtain ⟨u, hu⟩ : ∃ u, tNorm P.E P.rho P.L u = t := ⟨t / (√(P.E / P.rho) / P.L), by
    rw [tNorm_mul, div_mul_cancel₀ _ (rate_pos P).ne']⟩
  have hstill : (List.range s.n).mapM (fun i => s.still (s.beta.getD i 0) t) = .ok ((List.range s.n).map fun i => _) :=
    mapM_all_ok (fun i => by rw [← hu]; exact e8 (s.beta.getD i 0) u) _
  unfold SBeam.field
  simp only [hstill, Bind.bind, Except.bind, solveN, if_neg hdet]
  exact ⟨_, rfl⟩

/-- **C183.** The documented special case `nquad=None` ("integration will be performed using scipy.integrate.quad") does not
work: the matrices cannot be built (`AttributeError`: there is no `xj`), whatever the beam, provided its profiles
are proper. -/
theorem C183_nquad_required {P : SPhys} {n : ℕ} {m : MArgs} {sa : StArgs} {B : Bars} {impl : Impl} {s : SBeam} {vs : List Vehicle}
    {ls : List SLoad} (hm : Spec.Moving P.L m vs) (hs : Spec.Still sa ls) (hp : ∀ l ∈ ls, Spec.Proper l)
    {S : Set ℝ} {fE fI frho fA fk1 fmu : ℝ → ℝ} (hc : Spec.Curves B S fE fI frho fA fk1 fmu)
    (hinit : SBeam.init n (P.args none) m sa B impl = .ok s) : s.matrices = .error .attributeError := by
  obtain ⟨e1, e2, e3, e4, e5, e6, e7, e8, e9, e10, e11⟩ := init_phys hm hs hp hinit
  subst e10
  have hd := beta_distinct s
  obtain ⟨lam, f1, _⟩ := pAbf_ok hc.sep s.impl hc.rho hc.A hd
  obtain ⟨d, f2, _⟩ := pDDabDDf_ok hc.sep s.impl hc.E hc.I hd
  obtain ⟨k, f3, _⟩ := pAf_ok s.impl hc.k1 hd
  obtain ⟨u, f4, _⟩ := pAf_ok s.impl hc.mu hd
  have : s.quad = .absent := by
    have : mkRule .ss none = .ok Rule.absent := rfl
    rw [this] at e9
    exact (Except.ok.inj e9).symm
  unfold SBeam.matrices
  simp only [f1, f2, f3, f4, Bind.bind, Except.bind, this]

end Geotecha.Beam
