import Verif.Speccon.Ortho
import Mathlib.Analysis.Calculus.MeanValue

/-!
# Properties C78 and C79: the eigenvalue problem of speccon1d_vr, and dissipation
-/

set_option linter.unusedVariables false
open Real intervalIntegral MeasureTheory Filter Topology
namespace Geotecha.Speccon
open Geotecha.Spec Geotecha.Piecewise

variable {x : VR} {S : Set ℝ} {s tend : ℝ} {G : Ground}

/-- For a soil with positive compressibility and permeability (bounds `mu`, `nu`, `eta` large against `neig` times 1e-8, the
limit below which the program drops matrix entries) all matrices are found, the eigenvalue problem `np.linalg` is asked to solve
has a real solution, and all eigenvalues are positive in every solution. -/
theorem C78_eigensystem (h : VRInput x S s tend G) (hdT : 0 < x.dT) (μ ν η : ℝ) (hμ : ∀ z, 0 < z → z < 1 → μ ≤ G.mv z) (hν0 : 0 ≤ ν)
    (hν : ∀ z, 0 < z → z < 1 → ν ≤ G.vert z) (hη : ∀ z, 0 < z → z < 1 → η ≤ G.horiz z) (hf : ∀ f ∈ G.fixed, 0 ≤ f.2.1)
    (hn1 : 1 / 100000000 * x.neig < μ / 2) (hn2 : 1 / 100000000 * x.neig * x.dT < (ν * (π / 2) ^ 2 + η) / 2) :
    ∃ m gam psi, x.m = .ok m ∧ x.gam m = .ok gam ∧ x.psi m = .ok psi ∧ (∃ eigs v Igamv, EigenSystem m.length gam psi eigs v Igamv) ∧
      ∀ eigs v Igamv, EigenSystem m.length gam psi eigs v Igamv → ∀ i, i < m.length → 0 < eigs i := by
  have hm : x.m = .ok (eigs x.neig x.drn) := (C32_distinct x.neig x.drn h.drn).1
  obtain ⟨hl, hget, hd, hne, hsc⟩ := m_ok h hm
  obtain ⟨g, eg, hge⟩ := gam_ok h hd
  obtain ⟨p, ep, hpe⟩ := psi_ok h hd
  have sg := gam_spd h hm hge hμ hn1
  have sp := psi_spd h hm hpe hdT hν0 hν hη hf hn2
  exact ⟨_, _, _, hm, eg, ep, eigen_exists sg sp.symm, fun e v w hE => eigs_pos sg sp hE⟩

theorem decays {X : ℝ → ℝ} {c K t1 : ℝ} (hi : IntervalIntegrable X volume s tend) (hs1 : s ≤ t1) (h1e : t1 ≤ tend)
    (h : ∀ t, t1 ≤ t → t ≤ tend → X t + c * (∫ r in s..t, X r) = K) (t : ℝ) (ht1 : t1 ≤ t) (ht2 : t ≤ tend) :
    X t = X t1 * exp (-(c * (t - t1))) := by
  rcases eq_or_lt_of_le ht1 with e | hlt
  · rw [← e]; simp
  have hX : ∀ r, t1 ≤ r → r ≤ tend → X r = K - c * ∫ q in s..r, X q := fun r a b => by linarith [h r a b]
  have hcont : ContinuousOn X (Set.Icc t1 tend) := by
    have hc : ContinuousOn (fun r => K - c * ∫ q in s..r, X q) (Set.Icc t1 tend) := by
      have := intervalIntegral.continuousOn_primitive_interval' (f := X) (b₁ := s) (b₂ := tend) (a := s) hi (by simp)
      rw [Set.uIcc_of_le (hs1.trans h1e)] at this
      exact (continuousOn_const.sub (continuousOn_const.mul (this.mono (Set.Icc_subset_Icc hs1 (le_refl _)))))
    exact hc.congr (fun r hr => hX r hr.1 hr.2)
  have hder : ∀ r ∈ Set.Ioo t1 tend, HasDerivAt X (-(c * X r)) r := by
    intro r hr
    have hnb : Set.Ioo t1 tend ∈ 𝓝 r := Ioo_mem_nhds hr.1 hr.2
    have hca : ContinuousAt X r := hcont.continuousAt (Icc_mem_nhds hr.1 hr.2)
    have hsm : StronglyMeasurableAtFilter X (𝓝 r) volume :=
      (hcont.mono Set.Ioo_subset_Icc_self).stronglyMeasurableAtFilter isOpen_Ioo r hr
    have h1 : HasDerivAt (fun u => ∫ q in s..u, X q) (X r) r :=
      intervalIntegral.integral_hasDerivAt_right (int_sub hi (by linarith [hr.1]) hr.2.le) hsm hca
    have h2 : HasDerivAt (fun u => K - c * ∫ q in s..u, X q) (-(c * X r)) r := (h1.const_mul c).const_sub K
    refine h2.congr_of_eventuallyEq ?_
    filter_upwards [hnb] with u hu
    exact hX u hu.1.le hu.2.le
  -- the product with the growing exponential is constant
  have hF : ContinuousOn (fun r => X r * exp (c * (r - t1))) (Set.Icc t1 t) :=
    (hcont.mono (Set.Icc_subset_Icc (le_refl _) ht2)).mul (by fun_prop)
  have hFd : ∀ r ∈ Set.Ioo t1 t, HasDerivAt (fun r => X r * exp (c * (r - t1))) 0 r := by
    intro r hr
    have a := hder r ⟨hr.1, by linarith [hr.2]⟩
    have b : HasDerivAt (fun r => exp (c * (r - t1))) (exp (c * (r - t1)) * (c * 1)) r :=
      (((hasDerivAt_id r).sub_const t1).const_mul c).exp
    exact (a.mul b).congr_deriv (by ring)
  obtain ⟨r, hr, e⟩ := exists_hasDerivAt_eq_slope (fun r => X r * exp (c * (r - t1))) (fun _ => 0) hlt hF hFd
  have hne : t - t1 ≠ 0 := by linarith
  rw [eq_comm, div_eq_zero_iff] at e
  rcases e with e | e
  · simp only [sub_self, mul_zero, exp_zero, mul_one] at e
    rw [← sub_eq_zero.1 e, mul_assoc, ← exp_add]
    simp
  · exact absurd e hne

/-- Nothing acts on the ground from `t1` on except a constant surcharge. -/
structure Quiet (G : Ground) (t1 tend : ℝ) : Prop where
  surcharge : ∀ z t, t1 ≤ t → t ≤ tend → G.surcharge z t = G.surcharge z t1
  drain : ∀ z t, t1 ≤ t → t ≤ tend → G.drain z t = 0
  top : ∀ t, t1 ≤ t → t ≤ tend → G.top t = 0
  bot : ∀ t, t1 ≤ t → t ≤ tend → G.bot t = 0
  fixed : ∀ f ∈ G.fixed, ∀ t, t1 ≤ t → t ≤ tend → f.2.2 t = 0
  pumps : ∀ p ∈ G.pumps, ∀ t, t1 ≤ t → t ≤ tend → p.2 t = 0

theorem int_quiet {f : ℝ → ℝ} {t1 t : ℝ} (h1 : t1 ≤ t) (h2 : t ≤ tend) (hs : s ≤ t1) (hi : IntervalIntegrable f volume s t)
    (hq : ∀ r, t1 ≤ r → r ≤ tend → f r = 0) : ∫ r in s..t, f r = ∫ r in s..t1, f r := by
  have hi1 := int_sub hi hs h1
  have hi2 : IntervalIntegrable f volume t1 t := hi1.symm.trans hi
  rw [← intervalIntegral.integral_add_adjacent_intervals hi1 hi2]
  have : ∫ r in t1..t, f r = ∫ r in t1..t, (0:ℝ) := by
    refine intervalIntegral.integral_congr (fun r hr => ?_)
    rw [Set.uIcc_of_le h1] at hr
    exact hq r hr.1 (hr.2.trans h2)
  rw [this, intervalIntegral.integral_zero, add_zero]

theorem rhs_quiet (h : VRInput x S s tend G) {t1 : ℝ} (hq : Quiet G t1 tend) (hs1 : s ≤ t1) (w t : ℝ) (h1 : t1 ≤ t) (h2 : t ≤ tend) :
    rhs G s w t = rhs G s w t1 := by
  have hst : s ≤ t := hs1.trans h1
  unfold rhs
  have e1 : (fun z => G.mv z * sin (w * z) * (G.surcharge z t - G.surcharge0 z)) =
      fun z => G.mv z * sin (w * z) * (G.surcharge z t1 - G.surcharge0 z) := by
    funext z; rw [hq.surcharge z t h1 h2]
  have e2 := int_quiet h1 h2 hs1 (drain_int h w t hst h2) (fun r a b => by
    have : (fun z => G.horiz z * sin (w * z) * G.drain z r) = fun _ => (0:ℝ) := by funext z; rw [hq.drain z r a b, mul_zero]
    rw [this]; simp)
  have e3 := int_quiet h1 h2 hs1 (top_int h hst h2).1 (fun r a b => hq.top r a b)
  have e4 := int_quiet h1 h2 hs1 (top_int h hst h2).2 (fun r a b => hq.bot r a b)
  have e5 : G.fixed.map (fun f => f.2.1 * sin (w * f.1) * ∫ r in s..t, f.2.2 r) = G.fixed.map (fun f => f.2.1 * sin (w * f.1) * ∫ r in s..t1, f.2.2 r) := by
    refine List.map_congr_left (fun f hf => ?_)
    rw [int_quiet h1 h2 hs1 (fixed_int h hst h2 f hf) (fun r a b => hq.fixed f hf r a b)]
  have e6 : G.pumps.map (fun p => sin (w * p.1) * ∫ r in s..t, p.2 r) = G.pumps.map (fun p => sin (w * p.1) * ∫ r in s..t1, p.2 r) := by
    refine List.map_congr_left (fun f hf => ?_)
    rw [int_quiet h1 h2 hs1 (pumps_int h hst h2 f hf) (fun r a b => hq.pumps f hf r a b)]
  have h3 := h1.trans h2
  rw [e1, e2, e3, e4, e5, e6, hq.top t h1 h2, hq.bot t h1 h2, hq.top t1 (le_refl _) h3, hq.bot t1 (le_refl _) h3]

/-- Once the surcharge is constant and everything else is off, the computed pore pressure is a sum of modes, each of which
decays exponentially with the rate `dT` times its eigenvalue (positive by C78). -/
theorem C79_dissipation (h : VRInput x S s tend G) (m : List ℝ) (hm : x.m = .ok m) (gam psi : ℕ → ℕ → ℝ) (eigs : ℕ → ℝ) (v Igamv : ℕ → ℕ → ℝ)
    (hE : EigenSystem m.length gam psi eigs v Igamv) (h0 : ∀ i, i < m.length → eigs i ≠ 0) (t1 : ℝ) (hs1 : s ≤ t1) (h1e : t1 ≤ tend)
    (hq : Quiet G t1 tend) :
    ∃ mode : ℕ → ℝ → ℝ, ∀ z t, 0 ≤ z → z ≤ 1 → t1 ≤ t → t ≤ tend →
      x.por m eigs v Igamv z t = .ok (∑ i ∈ Finset.range x.neig, mode i z * exp (-(x.dT * eigs i * (t - t1)))) := by
  obtain ⟨hl, hget, hd, hne, hsc⟩ := m_ok h hm
  have hB : ∀ i, i < (x.basis m eigs Igamv).m.length → (x.basis m eigs Igamv).dT * (x.basis m eigs Igamv).eigs i ≠ 0 :=
    fun i hi => mul_ne_zero h.dT (h0 i hi)
  have hs := E_solves (B := x.basis m eigs Igamv) h hB hne
  choose! X hX using hs
  have hXd : ∀ i, i < m.length → ∀ t, t1 ≤ t → t ≤ tend → X i t = X i t1 * exp (-(x.dT * eigs i * (t - t1))) := by
    intro i hi t a b
    refine decays (K := dotV m.length Igamv (fun j => rhs G s (m.getD j 0) t1) i) (hX i hi).1 hs1 h1e (fun t a b => ?_) t a b
    refine (((hX i hi).2 t (hs1.trans a) b).2).trans ?_
    unfold dotV
    refine Finset.sum_congr rfl (fun j _ => ?_)
    dsimp only
    rw [rhs_quiet h hq hs1 _ t a b]
    rfl
  refine ⟨fun i z => ∑ j ∈ Finset.range x.neig, v j i * X i t1 * sin (m.getD j 0 * z), fun z t hz0 hz1 a b => ?_⟩
  have hvE : x.vE (x.basis m eigs Igamv) v t = .ok (fun j => ∑ i ∈ Finset.range m.length, v j i * X i t) := by
    unfold VR.vE
    rw [mapM_range_ok (X := fun i => X i t) (fun i hi => ((hX i hi).2 t (hs1.trans a) b).1)]
    simp only [Bind.bind, Except.bind, pure, Except.pure]
    congr 1
    funext j
    refine Finset.sum_congr rfl (fun i hi => ?_)
    have hi2 : i < (x.basis m eigs Igamv).m.length := Finset.mem_range.1 hi
    have : (List.map (fun i => X i t) (List.range (x.basis m eigs Igamv).m.length)).getD i 0 = X i t := by
      simp [List.getD_eq_getElem?_getD, hi2]
    dsimp only
    rw [this]
  rw [por_series h hm (A := fun j t => ∑ i ∈ Finset.range m.length, v j i * X i t) (hs1.trans a) b hvE (fun j => rfl) z hz0 hz1]
  unfold series
  rw [hq.top t a b, hq.bot t a b, mul_zero, mul_zero, add_zero, add_zero, hl]
  congr 1
  simp only [Finset.sum_mul]
  rw [Finset.sum_comm]
  refine Finset.sum_congr rfl (fun i hi => Finset.sum_congr rfl (fun j _ => ?_))
  rw [hXd i (by rw [hl]; exact Finset.mem_range.1 hi) t a b]
  ring

/-! ## The hypotheses of C76-C79 are met -/

/-- Two layers, impervious bottom, vertical and radial drainage, surcharge, vacuum, top pressure, bottom gradient, one fixed
pressure, one pump; the vacuum oscillates; 3 terms. -/
noncomputable def Ex.input : VR where
  H := 10
  mvref := 1/2
  drn := 1
  dT := 1/5
  neig := 3
  dTv := some 1
  dTh := some 2
  mv := Ex.layers
  kv := some Ex.layers
  kh := some Ex.layers
  et := some Ex.layers
  surchargeDepth := some [Ex.layers]
  surchargeTime := some [Ex.load]
  surchargeOm := none
  vacuumDepth := some [Ex.layers]
  vacuumTime := some [Ex.load]
  vacuumOm := some [some (3, 1)]
  top := some [Ex.load]
  topOm := none
  bot := some [Ex.load]
  botOm := none
  fixedPpress := some [(1/3, 1000, some Ex.load)]
  fixedOm := none
  pumping := some [(2/3, Ex.load)]
  pumpingOm := none
  impl := .vectorized

/-- The problem it describes. -/
noncomputable def Ex.ground : Ground where
  mv := Ex.layersF
  vert := fun z => 1 * Ex.layersF z
  vertEnd := 1 * 2
  horiz := fun z => 2 * (Ex.layersF z * Ex.layersF z)
  drn := 1
  surcharge := fun z _ => Ex.layersF z * 100
  surcharge0 := fun _ => 0
  drain := fun z t => Ex.layersF z * (100 * cos (3 * t + 1))
  top := fun _ => 100
  top0 := 0
  bot := fun _ => 10 * 100
  bot0 := 0
  fixed := [(1/3, 1000, fun _ => 100)]
  pumps := [(2/3, fun _ => 20)]

theorem Ex.input_ok : VRInput Ex.input {0, 1/2, 1} 0 5 Ex.ground where
  sep := Ex.depths_sep
  drn := Or.inr rfl
  drnG := rfl
  H := by norm_num [Ex.input]
  mvref := by norm_num [Ex.input]
  dT := by norm_num [Ex.input]
  mv := Ex.layers_profile
  vert := by
    refine ⟨_, 2, Ex.layers_profile, ?_, fun z => rfl, rfl⟩
    refine tendsto_const_nhds.congr' ?_
    have : Set.Ioo (1/2:ℝ) 1 ∈ 𝓝[<] (1:ℝ) := Ioo_mem_nhdsLT (by norm_num)
    filter_upwards [this] with z hz
    exact (if_neg (by linarith [hz.1])).symm
  horiz := ⟨_, _, Ex.layers_profile, Ex.layers_profile, fun z => rfl⟩
  surcharge := ⟨[(Ex.layersF, fun t => 100 * mult none t, 0)], .cons ⟨Ex.layers_profile, Ex.load_history _⟩ .nil,
    fun z t => by simp [Ex.ground, mult], fun z => by simp [Ex.ground]⟩
  drain := ⟨[(Ex.layersF, fun t => 100 * mult (some (3, 1)) t, 0)], .cons ⟨Ex.layers_profile, Ex.load_history _⟩ .nil,
    fun z t => by simp [Ex.ground, mult]⟩
  top := ⟨[(fun t => 100 * mult none t, 0)], .cons (Ex.load_history _) .nil, fun t => by simp [Ex.ground, total, mult],
    by simp [Ex.ground, total0]⟩
  bot := ⟨fun l e => by cases e; rfl, [(fun t => 100 * mult none t, 0)], .cons (Ex.load_history _) .nil,
    fun t => by simp [Ex.ground, Ex.input, total, mult], by simp [Ex.ground, total0]⟩
  fixed := ⟨rfl, .cons ⟨rfl, rfl, 0, by simpa [mult] using Ex.load_history none⟩ .nil⟩
  pumps := ⟨rfl, .cons ⟨rfl, fun t => 100, 0, by simpa [mult] using Ex.load_history none, fun t => by
    simp [Ex.input]; norm_num⟩ .nil⟩

theorem Ex.layersF_ge (z : ℝ) : 1 ≤ Ex.layersF z := by
  unfold Ex.layersF; split_ifs <;> norm_num

/-- C78, and with it the hypotheses of C76-C79, on this input. -/
theorem Ex.solvable : ∃ m gam psi, Ex.input.m = .ok m ∧ Ex.input.gam m = .ok gam ∧ Ex.input.psi m = .ok psi ∧
    (∃ eigs v Igamv, EigenSystem m.length gam psi eigs v Igamv) ∧
    ∀ eigs v Igamv, EigenSystem m.length gam psi eigs v Igamv → ∀ i, i < m.length → 0 < eigs i := by
  refine C78_eigensystem Ex.input_ok (by norm_num [Ex.input]) 1 1 2 (fun z _ _ => Ex.layersF_ge z) zero_le_one
    (fun z _ _ => by simpa [Ex.ground] using Ex.layersF_ge z) (fun z _ _ => ?_) (fun f hf => ?_) (by norm_num [Ex.input]) ?_
  · have := Ex.layersF_ge z
    simp only [Ex.ground]; nlinarith
  · simp only [Ex.ground, List.mem_singleton] at hf
    rw [hf]; norm_num
  · have := sq_nonneg (π / 2)
    norm_num [Ex.input]; nlinarith

example : ∃ (m : List ℝ) (eigs : ℕ → ℝ) (v Igamv : ℕ → ℕ → ℝ) (u : ℝ → ℝ → ℝ), Ex.input.m = .ok m ∧
    (∀ z t, 0 ≤ z → z ≤ 1 → 0 ≤ t → t ≤ 5 → Ex.input.por m eigs v Igamv z t = .ok (u z t)) ∧ ∀ t, u 0 t = 100 := by
  obtain ⟨m, gam, psi, hm, hg, hp, ⟨e, v, w, hE⟩, hpos⟩ := Ex.solvable
  obtain ⟨A, u, uz, h1, h2, h3, h4, h5⟩ := C77_weak_form Ex.input_ok m hm gam psi hg hp e v w hE (fun i hi => (hpos e v w hE i hi).ne')
  exact ⟨m, e, v, w, u, hm, h1, fun t => (h4 t).1⟩

example : ∃ (m : List ℝ) (eigs : ℕ → ℝ) (v Igamv : ℕ → ℕ → ℝ) (u : ℝ → ℝ), Ex.input.m = .ok m ∧
    Ex.input.settle m eigs v Igamv (1/4) 1 2 = .ok (10 * (1/2) * ∫ z in (1/4 : ℝ)..1, Ex.layersF z * (Ex.layersF z * 100 - u z)) := by
  obtain ⟨m, gam, psi, hm, hg, hp, ⟨e, v, w, hE⟩, hpos⟩ := Ex.solvable
  obtain ⟨u, a, h1, h2, h3, h4⟩ := C76_outputs_agree Ex.input_ok m hm gam psi e v w hE (fun i hi => (hpos e v w hE i hi).ne') (1/4) 1 2
    (by norm_num) (by norm_num) (by norm_num) (by norm_num) (by norm_num) (fun l d h1 h2 => by cases h1; cases h2; exact ⟨rfl, rfl⟩)
    (fun h => by cases h)
  exact ⟨m, e, v, w, u, hm, h4⟩

/-- The same ground under the surcharge alone. -/
noncomputable def Ex.quietInput : VR := { Ex.input with vacuumDepth := none, vacuumTime := none, top := none, bot := none, fixedPpress := none, pumping := none }

noncomputable def Ex.quietGround : Ground := { Ex.ground with drain := fun _ _ => 0, top := fun _ => 0, bot := fun _ => 0, fixed := [], pumps := [] }

theorem Ex.quiet_ok : VRInput Ex.quietInput {0, 1/2, 1} 0 5 Ex.quietGround where
  sep := Ex.depths_sep
  drn := Or.inr rfl
  drnG := rfl
  H := Ex.input_ok.H
  mvref := Ex.input_ok.mvref
  dT := Ex.input_ok.dT
  mv := Ex.layers_profile
  vert := Ex.input_ok.vert
  horiz := Ex.input_ok.horiz
  surcharge := Ex.input_ok.surcharge
  drain := fun z t => rfl
  top := ⟨[], rfl, fun t => rfl, rfl⟩
  bot := ⟨fun l e => (by cases e), [], rfl, fun t => by simp [total, Ex.quietGround], by simp [Ex.quietGround, Ex.ground, total0]⟩
  fixed := rfl
  pumps := rfl

theorem Ex.quiet : Quiet Ex.quietGround 1 5 where
  surcharge := fun _ _ _ _ => rfl
  drain := fun _ _ _ _ => rfl
  top := fun _ _ _ => rfl
  bot := fun _ _ _ => rfl
  fixed := fun f hf => absurd hf (by simp [Ex.quietGround])
  pumps := fun f hf => absurd hf (by simp [Ex.quietGround])

/-- C79 on this input. -/
example : ∃ (m : List ℝ) (eigs : ℕ → ℝ) (v Igamv : ℕ → ℕ → ℝ) (mode : ℕ → ℝ → ℝ), Ex.quietInput.m = .ok m ∧
    ∀ z t, 0 ≤ z → z ≤ 1 → 1 ≤ t → t ≤ 5 → Ex.quietInput.por m eigs v Igamv z t =
      .ok (∑ i ∈ Finset.range 3, mode i z * exp (-(1/5 * eigs i * (t - 1)))) := by
  obtain ⟨m, gam, psi, hm, hg, hp, ⟨e, v, w, hE⟩, hpos⟩ := C78_eigensystem Ex.quiet_ok (by norm_num [Ex.quietInput, Ex.input]) 1 1 2
    (fun z _ _ => Ex.layersF_ge z) zero_le_one (fun z _ _ => by simpa [Ex.quietGround, Ex.ground] using Ex.layersF_ge z)
    (fun z _ _ => by have := Ex.layersF_ge z; simp only [Ex.quietGround, Ex.ground]; nlinarith)
    (fun f hf => absurd hf (by simp [Ex.quietGround])) (by norm_num [Ex.quietInput, Ex.input])
    (by have := sq_nonneg (π / 2); norm_num [Ex.quietInput, Ex.input]; nlinarith)
  obtain ⟨mode, h⟩ := C79_dissipation Ex.quiet_ok m hm gam psi e v w hE (fun i hi => (hpos e v w hE i hi).ne') 1 (by norm_num) (by norm_num) Ex.quiet
  exact ⟨m, e, v, w, mode, hm, h⟩

/-- With one term nothing is dropped and C77_exact applies. -/
example : ∃ (m : List ℝ) (eigs : ℕ → ℝ) (v Igamv : ℕ → ℕ → ℝ) (u uz : ℝ → ℝ → ℝ), { Ex.quietInput with neig := 1 }.m = .ok m ∧
    (∀ z t, 0 ≤ z → z ≤ 1 → 0 ≤ t → t ≤ 5 → { Ex.quietInput with neig := 1 }.por m eigs v Igamv z t = .ok (u z t)) ∧
    ∀ t, 0 ≤ t → t ≤ 5 → Ex.quietGround.residual 0 u uz (fun z => sin (π * ((0:ℕ) + 1 - (1:ℤ) / 2) * z))
      (fun z => π * ((0:ℕ) + 1 - (1:ℤ) / 2) * cos (π * ((0:ℕ) + 1 - (1:ℤ) / 2) * z)) t = 0 := by
  have hok : VRInput { Ex.quietInput with neig := 1 } {0, 1/2, 1} 0 5 Ex.quietGround :=
    ⟨Ex.quiet_ok.sep, Ex.quiet_ok.drn, Ex.quiet_ok.drnG, Ex.quiet_ok.H, Ex.quiet_ok.mvref, Ex.quiet_ok.dT, Ex.quiet_ok.mv, Ex.quiet_ok.vert,
      Ex.quiet_ok.horiz, Ex.quiet_ok.surcharge, Ex.quiet_ok.drain, Ex.quiet_ok.top, Ex.quiet_ok.bot, Ex.quiet_ok.fixed, Ex.quiet_ok.pumps⟩
  have hpi := sq_nonneg (π / 2)
  have hh : ∀ z, 0 < z → z < 1 → 2 ≤ Ex.quietGround.horiz z := fun z _ _ => by
    have := Ex.layersF_ge z; simp only [Ex.quietGround, Ex.ground]; nlinarith
  have hv : ∀ z, 0 < z → z < 1 → 0 ≤ Ex.quietGround.vert z := fun z _ _ => by
    have := Ex.layersF_ge z; simp only [Ex.quietGround, Ex.ground]; linarith
  obtain ⟨m, gam, psi, hm, hg, hp, ⟨e, v, w, hE⟩, hpos⟩ := C78_eigensystem hok (by norm_num [Ex.quietInput, Ex.input]) 1 0 2
    (fun z _ _ => Ex.layersF_ge z) (le_refl _) hv hh (fun f hf => absurd hf (by simp [Ex.quietGround])) (by norm_num)
    (by norm_num [Ex.quietInput, Ex.input])
  obtain ⟨u, uz, h1, h2, h3⟩ := C77_exact hok m hm gam psi hg hp e v w hE (fun i hi => (hpos e v w hE i hi).ne') (by
    intro i j hi hj wi wj ewi ewj
    have hi0 : i = 0 := by simpa using hi
    have hj0 : j = 0 := by simpa using hj
    subst hi0 hj0
    have f1 : wi = freq 1 0 := ewi
    have f2 : wj = freq 1 0 := ewj
    subst f1 f2
    have k1 := form_lower (Profile.bdd Ex.quiet_ok.mv) (μ := 1) (fun z _ _ => Ex.layersF_ge z) 1 (fun i z => sin (freq 1 i * z))
      (fun i => by fun_prop) (fun i j => (orthogonal (Or.inr rfl) i j).1) (fun _ => 1)
    have k2 := form_lower (vert_bdd Ex.quiet_ok) (μ := 0) hv 1 (fun i z => cos (freq 1 i * z))
      (fun i => by fun_prop) (fun i j => (orthogonal (Or.inr rfl) i j).2) (fun _ => 1)
    have k3 := form_lower (horiz_bdd Ex.quiet_ok) (μ := 2) hh 1 (fun i z => sin (freq 1 i * z))
      (fun i => by fun_prop) (fun i j => (orthogonal (Or.inr rfl) i j).1) (fun _ => 1)
    simp only [form, Finset.range_one, Finset.sum_singleton, one_pow, one_mul, mul_one, zero_mul] at k1 k2 k3
    refine ⟨fun a ha => Or.inr ?_, fun a ha => Or.inr ?_⟩
    · rw [ha]
      refine le_trans ?_ (le_abs_self _)
      linarith
    · have e1 : (∫ z in (0:ℝ)..1, Ex.quietGround.vert z * (freq 1 0 * cos (freq 1 0 * z)) * (freq 1 0 * cos (freq 1 0 * z))) =
          freq 1 0 ^ 2 * ∫ z in (0:ℝ)..1, Ex.quietGround.vert z * cos (freq 1 0 * z) * cos (freq 1 0 * z) := by
        rw [← intervalIntegral.integral_const_mul]
        congr 1; funext z; ring
      rw [e1] at ha
      have e2 : (Ex.quietGround.fixed.map (fun f => f.2.1 * sin (freq 1 0 * f.1) * sin (freq 1 0 * f.1))).sum = 0 := by simp [Ex.quietGround]
      rw [e2] at ha
      have e3 := mul_nonneg (sq_nonneg (freq 1 0)) k2
      refine le_trans ?_ (le_abs_self _)
      have e4 : ({ Ex.quietInput with neig := 1 } : VR).dT = 1/5 := rfl
      rw [e4] at ha
      linarith)
  exact ⟨m, e, v, w, u, uz, hm, h1, h3 0 (by simp)⟩

end Geotecha.Speccon
