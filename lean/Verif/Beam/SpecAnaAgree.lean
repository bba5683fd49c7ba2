import Verif.Beam.SpecAnaClaims

/-!
# The analytical and the numerical solution of `SpecBeam` agree
-/
set_option autoImplicit false
set_option linter.unusedVariables false

namespace Geotecha.Beam

open Real Geotecha.Speccon Geotecha.Piecewise Geotecha.Spec intervalIntegral MeasureTheory Ana

/-- Times that strictly increase. -/
def Spec.Increasing (pts : List (ℝ × ℝ)) : Prop := pts.Pairwise fun p q => p.1 < q.1

theorem polyLeft_first : ∀ (r : List (ℝ × ℝ)) (q : ℝ × ℝ), Spec.Increasing (q :: r) → polyLeft (q :: r) q.1 = q.2
  | [], q, _ => rfl
  | p :: r, q, h => by
    have hqp : q.1 < p.1 := (List.pairwise_cons.1 h).1 p (by simp)
    simp only [polyLeft]
    rw [if_neg (lt_irrefl _), if_pos ⟨hqp, hqp.le⟩]
    simp [line]

theorem polyLeft_continuous : ∀ pts : List (ℝ × ℝ), Spec.Increasing pts → Continuous (polyLeft pts)
  | [], _ => continuous_const
  | [p], _ => continuous_const
  | p :: q :: r, h => by
    have hpq : p.1 < q.1 := (List.pairwise_cons.1 h).1 q (by simp)
    have ih := polyLeft_continuous (q :: r) (List.pairwise_cons.1 h).2
    have e : polyLeft (p :: q :: r) = fun t => if t ≤ p.1 then p.2 else if t ≤ q.1 then line p q t else polyLeft (q :: r) t := by
      funext t
      simp only [polyLeft]
      by_cases h1 : t < p.1
      · rw [if_pos h1, if_pos h1.le]
      · rw [if_neg h1]
        by_cases h2 : t ≤ p.1
        · obtain rfl : t = p.1 := le_antisymm h2 (not_lt.1 h1)
          rw [if_pos h2, if_pos ⟨hpq, hpq.le⟩]
          simp [line]
        · rw [if_neg h2]
          by_cases h3 : t ≤ q.1
          · rw [if_pos ⟨hpq, h3⟩, if_pos h3]
          · rw [if_neg (fun h => h3 h.2), if_neg h3]
    rw [e]
    refine Continuous.if_le continuous_const ?_ continuous_id continuous_const ?_
    · refine Continuous.if_le ?_ ih continuous_id continuous_const ?_
      · unfold line; fun_prop
      · rintro t rfl
        rw [polyLeft_first r q (List.pairwise_cons.1 h).2]
        unfold line
        have : q.1 - p.1 ≠ 0 := (sub_pos.2 hpq).ne'
        field_simp
        ring
    · rintro t rfl
      rw [if_pos hpq.le]
      simp [line]

/-- A mode vanishes at both ends of the beam, so a force that enters or leaves does not jump. -/
theorem onMode_cont {vs : List Vehicle} (hv : ∀ c ∈ vs, c.x0 = 0 ∧ c.L = 1) (i : ℕ) : Continuous (Spec.onMode vs (π * ((i : ℝ) + 1))) := by
  unfold Spec.onMode
  refine continuous_list_sum _ fun c hc => continuous_list_sum _ fun a ha => ?_
  have e : (fun t => Spec.axleForce c a t * sin (π * ((i : ℝ) + 1) * Spec.axleAt c a t)) =
      fun t => a.2 * sin (π * ((i : ℝ) + 1) * max 0 (min 1 (Spec.axleAt c a t))) := by
    funext t
    unfold Spec.axleForce Spec.OnBeam
    rw [(hv c hc).1, (hv c hc).2, zero_add]
    by_cases h1 : 0 ≤ Spec.axleAt c a t
    · by_cases h2 : Spec.axleAt c a t ≤ 1
      · rw [if_pos ⟨h1, h2⟩, min_eq_right h2, max_eq_right h1]
      · rw [if_neg (fun h => h2 h.2), min_eq_left (not_le.1 h2).le, max_eq_right zero_le_one, mul_one]
        have : sin (π * ((i : ℝ) + 1)) = 0 := by
          have := sin_nat_mul_pi (i + 1)
          push_cast at this
          rw [mul_comm]; exact this
        rw [this]; simp
    · rw [if_neg (fun h => h1 h.1), min_eq_right ((not_le.1 h1).le.trans zero_le_one), max_eq_left (not_le.1 h1).le]
      simp
  rw [e]
  have := axleAt_cont c a
  fun_prop

theorem hist_eq {pts : List (ℝ × ℝ)} {T0 T1 : ℝ} (h0 : ∃ p ∈ pts, p.1 ≤ T0) (h1 : ∃ p ∈ pts, T1 ≤ p.1) {t : ℝ} (ht : t ∈ Set.Ioo T0 T1) :
    Spec.hist pts t = polyLeft pts t := by
  unfold Spec.hist
  obtain ⟨p, hp, hp'⟩ := h0
  obtain ⟨q, hq, hq'⟩ := h1
  rw [if_pos ⟨⟨p, hp, hp'.trans ht.1.le⟩, ⟨q, hq, ht.2.le.trans hq'⟩⟩]

/-- Each history is continuous and lasts from `T0` to `T1`. -/
def Spec.Lasting (T0 T1 : ℝ) (ls : List SLoad) : Prop :=
  ∀ l ∈ ls, Spec.Increasing l.pts ∧ (∃ p ∈ l.pts, p.1 ≤ T0) ∧ ∃ p ∈ l.pts, T1 ≤ p.1

theorem still_cont {ls : List SLoad} {T0 T1 : ℝ} (hl : Spec.Lasting T0 T1 ls) (b : ℝ) {t : ℝ} (ht : t ∈ Set.Ioo T0 T1) :
    ContinuousAt (Spec.stillMode ls b) t := by
  unfold Spec.stillMode
  have : (fun t => (ls.map fun l => Spec.hist l.pts t * sin (b * l.x)).sum) =ᶠ[nhds t] fun t => (ls.map fun l => polyLeft l.pts t * sin (b * l.x)).sum := by
    filter_upwards [isOpen_Ioo.mem_nhds ht] with r hr
    refine congrArg List.sum (List.map_congr_left fun l hl' => ?_)
    rw [hist_eq (hl l hl').2.1 (hl l hl').2.2 hr]
  refine ContinuousAt.congr ?_ this.symm
  exact (continuous_list_sum _ fun l hl' => (polyLeft_continuous _ (hl l hl').1).mul continuous_const).continuousAt

theorem still_run {s : SBeam} {ls : List SLoad} {T0 T1 : ℝ} (hs : Spec.Steady s.stat T0 ls) (hp : ∀ l ∈ ls, Spec.Proper l)
    (hl : Spec.Lasting T0 T1 ls) (b : ℝ) {t : ℝ} (ht : t ∈ Set.Ioo T0 T1) : s.still b t = .ok (Spec.stillMode ls b t) := by
  have hlen := hs.vs.length_eq
  unfold SBeam.still Spec.stillMode
  rw [hs.x, List.length_map]
  set G : SLoad → ℝ := fun l => Spec.hist l.pts t * sin (b * l.x) with hG
  rw [Consol.sum_map_getD ⟨0, [], none⟩, Consol.sumM_ok (g := fun j => G (ls.getD j ⟨0, [], none⟩))]
  · rw [← List.sum_toFinset _ List.nodup_range]; congr 2; ext x; simp
  · intro j hj
    have hj' : j < ls.length := by simpa using hj
    have hmem : ls[j] ∈ ls := List.getElem_mem hj'
    have hv := (List.forall₂_iff_get.1 hs.vs).2 j (by omega) hj'
    simp only [List.get_eq_getElem] at hv
    have e1 : getE (ls.map SLoad.x) j = .ok ls[j].x := by simp [getE, hj']
    have e2 : getE s.stat.vs j = .ok (s.stat.vs[j]'(by omega)) := by simp [getE, hlen, hj']
    have e3 : getE s.stat.op j = .ok none := by simp [getE, hs.op, hj', hs.plain _ hmem]
    rw [e1]
    simp only [Bind.bind, Except.bind]
    rw [e2]
    simp only [Bind.bind, Except.bind]
    rw [pinterpLeft_pts hv (hp _ hmem).1 (hp _ hmem).2]
    simp only [e3]
    have e4 : ls.getD j ⟨0, [], none⟩ = ls[j] := by simp [hj']
    rw [e4, hG]
    simp only
    rw [hist_eq (hl _ hmem).2.1 (hl _ hmem).2.2 ht, sbCoeff, one_mul, mul_comm b]

theorem moving_run {s : SBeam} (hv : ∀ c ∈ s.veh, c.v ≠ 0 ∧ c.t0 = 0 ∧ c.x0 = 0) (b t : ℝ) : s.moving b t = Spec.onMode s.veh b t := by
  unfold SBeam.moving Spec.onMode
  refine congrArg List.sum (List.map_congr_left fun c hc => ?_)
  rw [C174_point_loads_partial c (hv c hc).1 (hv c hc).2.1 (fun _ => (hv c hc).2.2) t, List.map_map]
  refine congrArg List.sum (List.map_congr_left fun a _ => ?_)
  simp only [Function.comp, sbCoeff, phiSS, one_mul, Spec.axleForce]

theorem solveN_unique {n : ℕ} {A : ℕ → ℕ → ℝ} {r a : ℕ → ℝ} (hd : (blk n A).det ≠ 0) (h : ∀ i < n, dotV n A a i = r i) :
    ∃ a', solveN n A r = .ok a' ∧ ∀ i < n, a' i = a i := by
  unfold solveN
  rw [if_neg hd]
  refine ⟨_, rfl, fun i hi => ?_⟩
  beta_reduce
  rw [dif_pos hi]
  have e : (fun j : Fin n => r j) = (blk n A).mulVec fun j : Fin n => a j := by
    funext j
    rw [← h j j.2]
    simp only [dotV, Matrix.mulVec, dotProduct, Finset.sum_range, blk]
  rw [e, Matrix.mulVec_mulVec, Matrix.nonsing_inv_mul _ (isUnit_iff_ne_zero.2 hd), Matrix.one_mulVec]

theorem ana_run {s : SBeam} {M : SMats} {e : Eigs s.n} {ls : List SLoad} {T0 T1 : ℝ} (hm : Modal (M.gam s.n) (M.psi s.n) e.eigs e.v e.W)
    (hdet : (M.gam s.n).det ≠ 0) (hr : Spec.Ready T0 s.veh) (hs : Spec.Steady s.stat T0 ls) (hk : s.k3 = 0)
    (hv : ∀ c ∈ s.veh, c.t0 = 0 ∧ c.x0 = 0 ∧ c.L = 1) (hp : ∀ l ∈ ls, Spec.Proper l) (hl : Spec.Lasting T0 T1 ls) :
    SRun s M T0 T1 (fun t i => if i < s.n then s.anaQ e ls T0 t i else s.anaV e ls T0 t (i - s.n)) := by
  refine ⟨fun i hi => ?_, fun i hi => ?_, fun t ht => ?_⟩
  · by_cases h : i < s.n
    · rw [if_pos h]; exact (ana_zero i).1
    · rw [if_neg h]; exact (ana_zero _).2
  · by_cases h : i < s.n
    · simp only [if_pos h]; exact (ana_cont hr hs i).1.continuousOn
    · simp only [if_neg h]; exact (ana_cont hr hs _).2.continuousOn
  · obtain ⟨a, h1, h2⟩ := ana_ode hm hr hs t (fun i hi => by
      refine ContinuousAt.add ?_ (still_cont hl _ ht)
      rw [beta_getD s hi]
      exact (onMode_cont (fun c hc => (hv c hc).2) i).continuousAt)
    set y : ℕ → ℝ := fun i => if i < s.n then s.anaQ e ls T0 t i else s.anaV e ls T0 t (i - s.n) with hy
    have hst : (List.range s.n).mapM (fun i => s.still (s.beta.getD i 0) t) = .ok ((List.range s.n).map fun i => Spec.stillMode ls (s.beta.getD i 0) t) :=
      Smear.mapM_ok_map _ _ _ fun i _ => still_run hs hp hl _ ht
    have q1 : ∀ A i, dotV s.n A y i = dotV s.n A (s.anaQ e ls T0 t) i := fun A i => by
      unfold dotV
      refine Finset.sum_congr rfl fun k hk => ?_
      rw [hy]; simp only [if_pos (Finset.mem_range.1 hk)]
    have q2 : ∀ A i, dotV s.n A (fun k => y (s.n + k)) i = dotV s.n A (s.anaV e ls T0 t) i := fun A i => by
      unfold dotV
      refine Finset.sum_congr rfl fun k hk => ?_
      rw [hy]; simp
    obtain ⟨a', ha, ha'⟩ := solveN_unique (r := fun i => s.rhsR M y (fun k => y (s.n + k)) t (((List.range s.n).map fun i => Spec.stillMode ls (s.beta.getD i 0) t).getD i 0) i)
      (a := a) (det_lam hdet) (fun i hi => by
        rw [h2 i hi]
        unfold SBeam.rhsR
        rw [hk, q1, q2, moving_run (fun c hc => ⟨(hr c hc).1, (hv c hc).1, (hv c hc).2.1⟩)]
        have : ((List.range s.n).map fun i => Spec.stillMode ls (s.beta.getD i 0) t).getD i 0 = Spec.stillMode ls (s.beta.getD i 0) t := by simp [hi]
        rw [this]
        ring)
    refine ⟨fun i => if i < s.n then y (s.n + i) else a' (i - s.n), ?_, fun i hi => ?_⟩
    · unfold SBeam.field
      rw [hst]
      simp only [Bind.bind, Except.bind, pure, Except.pure]
      rw [ha]
    · by_cases h : i < s.n
      · simp only [if_pos h]
        refine (h1 i h).1.congr_deriv ?_
        rw [hy]; simp
      · simp only [if_neg h]
        rw [ha' _ (by omega)]
        exact (h1 _ (by omega)).2

/-- **C185.** The analytical and the numerical solution agree: a linear beam (`k3 = 0`) under vehicles that start at time
zero at the end of the beam, and under stationary loads with continuous histories that last the whole run, has the same table
by both, at every position and every time of the run.  In particular the numerical method has a solution. -/
theorem C185_analytical_is_numerical {s : SBeam} {M : SMats} (hM : s.matrices = .ok M)
    {eig : Matrix (Fin s.n ⊕ Fin s.n) (Fin s.n ⊕ Fin s.n) ℝ → (Fin s.n ⊕ Fin s.n → ℂ) × Matrix (Fin s.n ⊕ Fin s.n) (Fin s.n ⊕ Fin s.n) ℂ}
    (heig : ∀ A, Spec.Eig A (eig A)) {e : Eigs s.n} (he : M.eigsAndV s.n eig = .ok e) {T0 T1 : ℝ} {ls : List SLoad}
    (hr : Spec.Ready T0 s.veh) (hs : Spec.Steady s.stat T0 ls) (ho : Spec.OffResonance s e) (hk : s.k3 = 0)
    (hv : ∀ c ∈ s.veh, c.t0 = 0 ∧ c.x0 = 0 ∧ c.L = 1) (hp : ∀ l ∈ ls, Spec.Proper l) (hl : Spec.Lasting T0 T1 ls) :
    (∃ y, SRun s M T0 T1 y) ∧
    ∀ y, SRun s M T0 T1 y → ∀ xs ts, (∀ t ∈ ts, t ∈ Set.Icc T0 T1) → ∃ d,
      s.runAnalytical eig xs ts = .ok d ∧ s.wofx (ts.map y) none (some xs) true = .ok (match d with
        | [r] => .row r
        | _ => .grid d) := by
  obtain ⟨hm, hdet⟩ := modal_of heig he
  have hrun := ana_run hm hdet hr hs hk hv hp hl
  refine ⟨⟨_, hrun⟩, fun y hy xs ts hts =>
    ⟨xs.map fun x => ts.map fun t => ∑ k ∈ Finset.range s.n, s.anaQ e ls T0 t k * sin (π * ((k : ℝ) + 1) * x), ?_, ?_⟩⟩
  · unfold SBeam.runAnalytical
    simp only [hM, he, Bind.bind, Except.bind]
    exact ana_table hm hr ho hs xs ts fun t ht => (hts t ht).1
  · unfold SBeam.wofx
    simp only [Bind.bind, Except.bind, pure, Except.pure]
    have ev : (xs.map fun xx => (ts.map y).map fun q => ∑ k ∈ Finset.range s.n, q k * phiSS xx (s.beta.getD k 0)) =
        xs.map fun x => ts.map fun t => ∑ k ∈ Finset.range s.n, s.anaQ e ls T0 t k * sin (π * ((k : ℝ) + 1) * x) := by
      refine List.map_congr_left fun x _ => ?_
      rw [List.map_map]
      refine List.map_congr_left fun t ht => Finset.sum_congr rfl fun k hk => ?_
      have hk' := Finset.mem_range.1 hk
      have := C183_run_unique hy hrun t (hts t ht) k (by omega)
      rw [if_pos hk'] at this
      rw [this, beta_getD s hk', phiSS]
    rw [ev]
    generalize (xs.map fun x => ts.map fun t => ∑ k ∈ Finset.range s.n, s.anaQ e ls T0 t k * sin (π * ((k : ℝ) + 1) * x)) = d
    rcases d with _ | ⟨r, _ | ⟨_, _⟩⟩ <;> rfl

end Geotecha.Beam
