import Verif.Beam.SpecAnaMore

/-!
# The analytical solution of `SpecBeam` in physical units
-/
set_option autoImplicit false
set_option linter.unusedVariables false

namespace Geotecha.Beam

open Real Geotecha.Speccon Geotecha.Piecewise Geotecha.Spec Ana

/-- A stationary load in normalised units. -/
noncomputable def SPhys.scaleLoad (P : SPhys) (l : SLoad) : SLoad := ⟨l.x / P.L, P.pts l.pts, none⟩

theorem line_pts (P : SPhys) (nq : Option ℕ) {p : PolyLine ℝ} {s : SLoad} (h : p.getXY.1 = .ok s.pts) (hp : Spec.Proper s) :
    ∃ p', (P.args nq).line p = .ok p' ∧ p'.getXY.1 = .ok (P.pts s.pts) := by
  obtain ⟨h1, h2⟩ := getX_of h
  have hlen := proper_len hp
  refine ⟨⟨some (P.pts s.pts), true, true, none⟩, ?_, rfl⟩
  unfold SArgs.line
  simp only [h1, h2, Bind.bind, Except.bind, mapM_all_ok (time_ok P nq), mapM_all_ok (perEA_ok P nq)]
  unfold PolyLine.ofX_Y
  simp only [List.length_map]
  rw [if_neg (by omega)]
  congr 3
  rw [List.map_map, List.map_map, List.zip_map']
  refine List.map_congr_left fun q _ => ?_
  simp only [Function.comp, tNorm_mul, mul_one_div]

theorem init_stat {n : ℕ} {a : SArgs} {m : MArgs} {sa : StArgs} {B : Bars} {impl : Impl} {s : SBeam} (hinit : SBeam.init n a m sa B impl = .ok s) :
    stationary a sa = .ok s.stat := by
  unfold SBeam.init at hinit
  rcases h : stationary a sa with _ | st
  · rw [h] at hinit
    simp only [Bind.bind, Except.bind] at hinit
    repeat' split at hinit
    all_goals exact absurd hinit (by simp)
  · rw [h] at hinit
    simp only [Bind.bind, Except.bind, pure, Except.pure] at hinit
    repeat' split at hinit
    all_goals first | (obtain rfl := Except.ok.inj hinit; rfl) | exact absurd hinit (by simp)

theorem pts_increasing (P : SPhys) {l : List (ℝ × ℝ)} (h : Spec.Increasing l) : Spec.Increasing (P.pts l) := by
  unfold Spec.Increasing SPhys.pts at *
  rw [List.pairwise_map]
  exact h.imp fun hab => mul_lt_mul_of_pos_right hab (rate_pos P)

theorem increasing_sorted {l : List (ℝ × ℝ)} (h : Spec.Increasing l) : SortedLe (l.map Prod.fst) := by
  unfold SortedLe
  rw [List.pairwise_map]
  exact List.Pairwise.imp (fun hab => le_of_lt hab) h

theorem increasing_norep {l : List (ℝ × ℝ)} (h : Spec.Increasing l) : NoRepeatedPoint (l.map Prod.fst) (l.map Prod.snd) := by
  intro k h1 h2 hc
  have := List.pairwise_iff_getElem.1 h k (k + 1) (by simpa using Nat.lt_of_succ_lt (by simpa using h1)) (by simpa using h1) (by omega)
  simp only [List.getElem_map] at hc
  exact absurd hc.1 (ne_of_lt this)

/-- Stationary loads with continuous histories from `T0` to `T1` or later, without harmonic factors. -/
structure Spec.Plain (T0 T1 : ℝ) (l : SLoad) : Prop where
  om : l.om = none
  inc : Spec.Increasing l.pts
  after : ∀ p ∈ l.pts, T0 ≤ p.1
  first : ∃ p ∈ l.pts, p.1 ≤ T0
  last : ∃ p ∈ l.pts, T1 ≤ p.1

theorem plain_proper {T0 T1 : ℝ} (hT : T0 < T1) {l : SLoad} (h : Spec.Plain T0 T1 l) : Spec.Proper l := by
  obtain ⟨p, hp, hp'⟩ := h.first
  obtain ⟨q, hq, hq'⟩ := h.last
  exact ⟨increasing_sorted h.inc, p, hp, q, hq, by linarith⟩

theorem steady_phys (P : SPhys) (nq : Option ℕ) {m : StArgs} {ls : List SLoad} (h : Spec.Still m ls) {T0 T1 : ℝ} (hT : T0 < T1)
    (hp : ∀ l ∈ ls, Spec.Plain T0 T1 l) : ∃ st, stationary (P.args nq) m = .ok st ∧ Spec.Steady st (tNorm P.E P.rho P.L T0) (ls.map P.scaleLoad) := by
  rcases h with h | ⟨rfl, h1, h2, h3, h4, h5⟩
  · obtain ⟨hx, ⟨l, hv, hl⟩, ho, n1, n2, n3⟩ := h
    obtain ⟨l', hl', hq⟩ := mapM_forall₂ (f := (P.args nq).line) (Q := fun p' s => p'.getXY.1 = .ok (P.scaleLoad s).pts) hl
      fun p s hs hps => line_pts P nq hps (plain_proper hT (hp s hs))
    obtain ⟨st, e1, e2, e3, e4⟩ := stationary_ok P nq ⟨hx, ⟨l, hv, hl⟩, ho, n1, n2, n3⟩ fun s hs => plain_proper hT (hp s hs)
    refine ⟨st, e1, ?_⟩
    have hvs : st.vs = l' := by
      have hop : ∃ o, m.opOf = some o := by
        unfold StArgs.opOf
        rcases ho with ho | ⟨ho, hn⟩
        · rw [ho]; exact ⟨_, rfl⟩
        · rw [ho, hx]; exact ⟨_, rfl⟩
      obtain ⟨o, hop⟩ := hop
      unfold stationary at e1
      rw [if_neg (by rw [hx]; simp)] at e1
      simp only [hop, n1, n2, n3, hx, hv, orMap, mapM_all_ok (perL_ok P nq), hl', Bind.bind, Except.bind, mapM_all_ok (omphase_ok P nq), pure, Except.pure] at e1
      rw [← Except.ok.inj e1]
    refine ⟨by rw [e2, List.map_map]; rfl, ?_, ?_, ?_, ?_, ?_, ?_, ?_⟩
    · rw [e3, List.map_map]
      refine List.map_congr_left fun s hs => ?_
      rw [(hp s hs).om]; rfl
    · rw [hvs, List.forall₂_map_right_iff]; exact hq
    all_goals
      intro l hl
      obtain ⟨s, hs, rfl⟩ := List.mem_map.1 hl
    · rfl
    · obtain ⟨q, hq, _⟩ := (hp s hs).first
      exact List.ne_nil_of_mem (List.mem_map_of_mem hq)
    · exact increasing_sorted (pts_increasing P (hp s hs).inc)
    · exact increasing_norep (pts_increasing P (hp s hs).inc)
    · intro p hp'
      obtain ⟨q, hq, rfl⟩ := List.mem_map.1 hp'
      rw [tNorm_mul]
      exact mul_le_mul_of_nonneg_right ((hp s hs).after q hq) (rate_pos P).le
  · refine ⟨⟨[], [], []⟩, by unfold stationary; rw [if_pos ⟨h3, h5, h4, h1, h2⟩], ?_⟩
    refine ⟨rfl, rfl, .nil, ?_, ?_, ?_, ?_, ?_⟩ <;> simp

/-- Vehicles that start at time zero at an end of the beam and do not enter before `T0`; every axle carries some force. -/
structure Spec.Starts (L T0 : ℝ) (c : Vehicle) : Prop where
  v : c.v ≠ 0
  t0 : c.t0 = 0
  x0 : c.x0 = 0
  L : c.L = L
  axles : ∀ a ∈ c.axles, a.2 ≠ 0 ∧ ∀ t, Spec.OnBeam c a t → T0 ≤ t

theorem ready_phys (P : SPhys) {vs : List Vehicle} {T0 : ℝ} (h : ∀ c ∈ vs, Spec.Starts P.L T0 c) :
    Spec.Ready (tNorm P.E P.rho P.L T0) (vs.map P.scale) := by
  intro c' hc'
  obtain ⟨c, hc, rfl⟩ := List.mem_map.1 hc'
  have hs := h c hc
  have hsq : 0 < √(P.rho / P.E) := sqrt_pos.2 (div_pos P.hrho P.hE)
  refine ⟨mul_ne_zero hs.v hsq.ne', div_pos (by rw [hs.L]; exact P.hL) P.hL, fun a' ha' => ?_⟩
  obtain ⟨a, ha, rfl⟩ := List.mem_map.1 ha'
  refine ⟨div_ne_zero (hs.axles a ha).1 (mul_pos P.hE P.hA).ne', fun t' ht' => ?_⟩
  obtain ⟨t, rfl⟩ : ∃ u, tNorm P.E P.rho P.L u = t' := ⟨t' / (√(P.E / P.rho) / P.L), by
    rw [tNorm_mul, div_mul_cancel₀ _ (rate_pos P).ne']⟩
  have key := scale_same P c
  unfold Spec.SameVehicle at key
  have h2 : ∀ a ∈ c.axles, ∀ t, Spec.OnBeam (P.scale c) (a.1 / P.L, a.2 / (P.E * P.A)) (tNorm P.E P.rho P.L t) ↔ Spec.OnBeam c a t := by
    rw [show (P.scale c).axles = c.axles.map fun a => (a.1 / P.L, a.2 / (P.E * P.A)) from rfl, List.forall₂_map_right_iff, List.forall₂_same] at key
    exact fun a ha t => ((key a ha).2 t).2
  rw [tNorm_mul, tNorm_mul]
  exact mul_le_mul_of_nonneg_right ((hs.axles a ha).2 t ((h2 a ha t).1 ht')) (rate_pos P).le

/-- **C185.** In physical units: for a simply supported linear beam built with `use_analytical=True`, any profiles, any vehicles that
start at time zero at an end of the beam, any stationary loads with continuous histories over the run, the table at positions
`xs` and times `ts` is the deflection (over `L`) of the run that solves the equation of motion (claim C179), which exists and
is unique. -/
theorem C185_physical {P : SPhys} (hk : P.k3 = 0) {n : ℕ} {nq : Option ℕ} {m : MArgs} {sa : StArgs} {B : Bars} {impl : Impl} {s : SBeam}
    {vs : List Vehicle} {ls : List SLoad} {T0 T1 : ℝ} (hT : T0 < T1) (hm : Spec.Moving P.L m vs) (hv : ∀ c ∈ vs, Spec.Starts P.L T0 c) (hs : Spec.Still sa ls)
    (hl : ∀ l ∈ ls, Spec.Plain T0 T1 l) (hinit : SBeam.init n (P.anaArgs nq) m sa B impl = .ok s) {M : SMats} (hM : s.matrices = .ok M)
    {eig : Matrix (Fin s.n ⊕ Fin s.n) (Fin s.n ⊕ Fin s.n) ℝ → (Fin s.n ⊕ Fin s.n → ℂ) × Matrix (Fin s.n ⊕ Fin s.n) (Fin s.n ⊕ Fin s.n) ℂ}
    (heig : ∀ A, Spec.Eig A (eig A)) {e : Eigs s.n} (he : M.eigsAndV s.n eig = .ok e) (ho : Spec.OffResonance s e) :
    SBeam.init n (P.args nq) m sa B impl = .ok s ∧
    (∃ y, SRun s M (tNorm P.E P.rho P.L T0) (tNorm P.E P.rho P.L T1) y) ∧
    ∀ y, SRun s M (tNorm P.E P.rho P.L T0) (tNorm P.E P.rho P.L T1) y → ∀ xs ts : List ℝ, (∀ t ∈ ts, T0 ≤ t ∧ t ≤ T1) →
      s.runAnalytical eig (xs.map (· / P.L)) (ts.map (tNorm P.E P.rho P.L)) =
        .ok (xs.map fun x => ts.map fun t => P.defl n y x t / P.L) := by
  rw [C185_same_object P hk] at hinit
  have hpr : ∀ l ∈ ls, Spec.Proper l := fun l h => plain_proper hT (hl l h)
  obtain ⟨e1, e2, e3, e4, e5, e6, e7, e8, e9, e10, e11⟩ := init_phys hm hs hpr hinit
  obtain ⟨st, hst, hsteady⟩ := steady_phys P nq hs hT hl
  rw [init_stat hinit] at hst
  obtain rfl := Except.ok.inj hst
  have hr : Spec.Ready (tNorm P.E P.rho P.L T0) s.veh := by rw [e7]; exact ready_phys P hv
  have hk0 : s.k3 = 0 := by rw [e6, hk]; simp
  have hT' : tNorm P.E P.rho P.L T0 < tNorm P.E P.rho P.L T1 := by
    rw [tNorm_mul, tNorm_mul]; exact mul_lt_mul_of_pos_right hT (rate_pos P)
  have hveh : ∀ c ∈ s.veh, c.t0 = 0 ∧ c.x0 = 0 ∧ c.L = 1 := by
    rw [e7]
    intro c' hc'
    obtain ⟨c, hc, rfl⟩ := List.mem_map.1 hc'
    refine ⟨?_, ?_, ?_⟩
    · show tNorm P.E P.rho P.L c.t0 = 0
      rw [(hv c hc).t0]; simp [tNorm]
    · show c.x0 / P.L = 0
      rw [(hv c hc).x0]; simp
    · show c.L / P.L = 1
      rw [(hv c hc).L]; exact div_self P.hL.ne'
  have hlast : Spec.Lasting (tNorm P.E P.rho P.L T0) (tNorm P.E P.rho P.L T1) (ls.map P.scaleLoad) := by
    intro l' hl'
    obtain ⟨l, hl0, rfl⟩ := List.mem_map.1 hl'
    obtain ⟨p, hp, hp'⟩ := (hl l hl0).first
    obtain ⟨q, hq, hq'⟩ := (hl l hl0).last
    refine ⟨pts_increasing P (hl l hl0).inc, ⟨_, List.mem_map_of_mem hp, ?_⟩, ⟨_, List.mem_map_of_mem hq, ?_⟩⟩
    · rw [tNorm_mul]; exact mul_le_mul_of_nonneg_right hp' (rate_pos P).le
    · rw [tNorm_mul]; exact mul_le_mul_of_nonneg_right hq' (rate_pos P).le
  have hprop : ∀ l ∈ ls.map P.scaleLoad, Spec.Proper l := by
    intro l hl'
    obtain ⟨h1, ⟨p, hp, hp'⟩, q, hq, hq'⟩ := hlast l hl'
    exact ⟨increasing_sorted h1, p, hp, q, hq, by linarith⟩
  obtain ⟨hm', hdet⟩ := modal_of heig he
  have hrun := ana_run hm' hdet hr hsteady hk0 hveh hprop hlast
  refine ⟨hinit, ⟨_, hrun⟩, fun y hy xs ts hts => ?_⟩
  have hts' : ∀ t ∈ ts.map (tNorm P.E P.rho P.L), t ∈ Set.Icc (tNorm P.E P.rho P.L T0) (tNorm P.E P.rho P.L T1) := by
    intro t' ht'
    obtain ⟨t, ht, rfl⟩ := List.mem_map.1 ht'
    simp only [tNorm_mul]
    exact ⟨mul_le_mul_of_nonneg_right (hts t ht).1 (rate_pos P).le, mul_le_mul_of_nonneg_right (hts t ht).2 (rate_pos P).le⟩
  unfold SBeam.runAnalytical
  simp only [hM, he, Bind.bind, Except.bind]
  rw [ana_table hm' hr ho hsteady _ _ fun t ht => (hts' t ht).1, List.map_map]
  congr 1
  refine List.map_congr_left fun x _ => ?_
  simp only [Function.comp, List.map_map]
  refine List.map_congr_left fun t ht => ?_
  simp only [Function.comp, SPhys.defl, Spec.shape]
  rw [← e1, mul_div_cancel_left₀ _ P.hL.ne']
  refine Finset.sum_congr rfl fun k hk => ?_
  have hk' := Finset.mem_range.1 hk
  have := C183_run_unique hy hrun _ (hts' _ (List.mem_map_of_mem ht)) k (by omega)
  rw [if_pos hk'] at this
  rw [this, ← mode_div P.hL]

end Geotecha.Beam
