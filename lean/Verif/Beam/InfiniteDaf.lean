import Verif.Beam.InfiniteStatic
import Mathlib.Analysis.Complex.RealDeriv

/-!
# Dynamic amplification factors of the infinite beam (C221)
-/
set_option autoImplicit false
set_option linter.unusedVariables false

namespace Geotecha.Beam

open Filter Topology Set

/-! ## The static case -/

theorem static_response : IsResponse 0 0 (fun s => ((shG 1 0 0 s : ℝ) : ℂ)) (fun s => ((shG 1 0 1 s : ℝ) : ℂ))
    (fun s => ((shG 1 0 2 s : ℝ) : ℂ)) (fun s => ((shG 1 0 3 s : ℝ) : ℂ)) := by
  have S := shG_static 1 0 one_pos
  refine ⟨fun s => (S.d1 s).ofReal_comp, fun s => (S.d2 s).ofReal_comp, Complex.continuous_ofReal.comp S.c2,
    fun s hs => (S.d3 s hs).ofReal_comp, fun s hs => (S.d4 s hs).ofReal_comp.congr_deriv ?_, ?_⟩
  · push_cast; ring
  · obtain ⟨l, l1, l2⟩ := S.jump
    refine ⟨(l : ℂ), (Complex.continuous_ofReal.tendsto _).comp l1, ?_⟩
    have := (Complex.continuous_ofReal.tendsto _).comp l2
    simpa [Function.comp_def] using this

theorem response_zero_speed {β : ℝ} {w w1 w2 w3 : ℝ → ℂ} (h : IsResponse 0 0 w w1 w2 w3) :
    IsResponse 0 β w w1 w2 w3 :=
  ⟨h.d1, h.d2, h.c2, h.d3, fun s hs => (h.d4 s hs).congr_deriv (by simp), h.jump⟩

theorem sh_bdd (k : ℕ) (hk : k < 4) (t : ℝ) (ht : 0 ≤ t) : |sh k t| ≤ 4 := by
  have e0 := Real.exp_pos (-t)
  have e1 : Real.exp (-t) ≤ 1 := Real.exp_le_one_iff.mpr (by linarith)
  have s := abs_le.mp (Real.abs_sin_le_one t)
  have c := abs_le.mp (Real.abs_cos_le_one t)
  interval_cases k <;> simp only [sh] <;> rw [abs_le] <;> constructor <;> nlinarith

theorem static_bdd : ∀ s, ‖((shG 1 0 0 s : ℝ) : ℂ)‖ ≤ 4 ∧ ‖((shG 1 0 1 s : ℝ) : ℂ)‖ ≤ 4
    ∧ ‖((shG 1 0 2 s : ℝ) : ℂ)‖ ≤ 4 ∧ ‖((shG 1 0 3 s : ℝ) : ℂ)‖ ≤ 4 := by
  have one : ∀ k, k < 4 → ∀ s, ‖((shG 1 0 k s : ℝ) : ℂ)‖ ≤ 4 := by
    intro k hk s
    rw [Complex.norm_real, Real.norm_eq_abs]
    unfold shG shR shL
    split_ifs with h
    · rw [one_pow, div_one]
      exact sh_bdd k hk _ (by simpa using h)
    · rw [one_pow, div_one, abs_mul, abs_pow, abs_neg, abs_one, one_pow, one_mul]
      exact sh_bdd k hk _ (by have := not_le.mp h; simp; linarith)
  exact fun s => ⟨one 0 (by omega) s, one 1 (by omega) s, one 2 (by omega) s, one 3 (by omega) s⟩

/-- **C221** At zero velocity (any damping), with the roots in the assumed order, the displacement is the
static deflection shape of characteristic length one. -/
theorem C221_static_limit (β : ℝ) (γ : Fin 4 → ℂ) (h : IsRoots 0 β γ) (hi : Function.Injective γ)
    (ho : ((γ 0).re < 0 ∧ (γ 1).re < 0) ∧ (0 < (γ 2).re ∧ 0 < (γ 3).re)) (slim : ℝ × ℝ) (npts : ℕ) :
    movingLoad γ slim npts = .ok (linspaceN slim.1 slim.2 npts,
      (linspaceN slim.1 slim.2 npts).map fun s => ((staticPointLoadShape s 1 : ℝ) : ℂ)) := by
  obtain ⟨w, w1, w2, w3, hw, _, _, _, hu⟩ := C219_real_unique_bounded 0 β γ h hi ho
  have e := hu _ _ _ _ (response_zero_speed static_response) ⟨4, static_bdd⟩
  rw [hw slim npts, ← e]
  congr 2
  refine List.map_congr_left fun s _ => ?_
  rw [(C220_static_shape 1 0 one_pos).2.2.2.2.2.2.2 s, ← shG_zero]

/-! ## `np.max` -/

theorem foldl_max (l : List ℂ) (z : ℂ) :
    ∃ m, l.foldl (fun m w => if m.re < w.re ∨ (m.re = w.re ∧ m.im < w.im) then w else m) z = m
      ∧ m ∈ z :: l ∧ ∀ w ∈ z :: l, w.re ≤ m.re := by
  induction l generalizing z with
  | nil => exact ⟨z, rfl, by simp, by simp⟩
  | cons a l ih =>
    rw [List.foldl_cons]
    split_ifs with hc
    · obtain ⟨m, h1, h2, h3⟩ := ih a
      refine ⟨m, h1, List.mem_cons_of_mem _ h2, fun w hw => ?_⟩
      rcases List.mem_cons.mp hw with rfl | hw
      · have := h3 a (by simp)
        rcases hc with hc | hc
        · linarith
        · rw [hc.1]; exact this
      · exact h3 w hw
    · obtain ⟨m, h1, h2, h3⟩ := ih z
      refine ⟨m, h1, ?_, fun w hw => ?_⟩
      · rcases List.mem_cons.mp h2 with rfl | h2
        · simp
        · simp [h2]
      · rcases List.mem_cons.mp hw with rfl | hw
        · exact h3 w (by simp)
        · rcases List.mem_cons.mp hw with rfl | hw
          · push Not at hc
            exact hc.1.trans (h3 z (by simp))
          · exact h3 w (by simp [hw])

theorem maxC_map (w : ℝ → ℂ) (l : List ℝ) (hl : l ≠ []) :
    ∃ s ∈ l, maxC (l.map w) = .ok (w s) ∧ ∀ s' ∈ l, (w s').re ≤ (w s).re := by
  cases l with
  | nil => exact absurd rfl hl
  | cons a l =>
    obtain ⟨m, h1, h2, h3⟩ := foldl_max (l.map w) (w a)
    have h2' : m ∈ (a :: l).map w := by simpa using h2
    obtain ⟨s, hs, rfl⟩ := List.mem_map.mp h2'
    refine ⟨s, hs, ?_, fun s' hs' => h3 _ ?_⟩
    · simp only [List.map_cons, maxC]; rw [h1]
    · have : w s' ∈ (a :: l).map w := List.mem_map_of_mem hs'
      simpa using this

theorem linspace_ne (a b : ℝ) : linspaceN a b 1001 ≠ [] := by
  intro h
  have := congrArg List.length h
  simp [linspaceN] at this

theorem linspace_mid (a : ℝ) : (0:ℝ) ∈ linspaceN (-a) a 1001 := by
  unfold linspaceN
  refine List.mem_map.mpr ⟨500, by simp, ?_⟩
  norm_num
  ring

theorem daf_step (l : List ℝ) (W : ℝ → ℂ) (z : ℂ) (κ : ℝ) (hm : maxC (l.map W) = .ok z) :
    (do let r ← (Except.ok (l, l.map W) : Except PyErr (List ℝ × List ℂ))
        let m ← maxC r.2
        return (m * (((1 / κ) ^ (0.75 : ℝ) : ℝ) : ℂ)).re) = .ok (z.re * (1 / κ) ^ (3 / 4 : ℝ)) := by
  show (maxC (l.map W) >>= _) = _
  rw [hm]
  show Except.ok _ = _
  rw [Complex.re_mul_ofReal]
  norm_num

/-- **C221** Both factors are the largest displacement (real part) over their own sample points (1001
points on `[-6, 6]` for `DAFinfinite`, on `[-8, 8]` for `DAFrelative`), scaled by `kratio^(-3/4)`; the point
under the load is among the samples. -/
theorem C221_daf_is_peak (α β κ : ℝ) (hκ : 0 < κ) (γ : Fin 4 → ℂ)
    (h : IsRoots (alpRel α κ) (betRel β κ) γ) (hi : Function.Injective γ) :
    ∃ w : ℝ → ℂ, (∀ slim npts, movingLoad γ slim npts
        = .ok (linspaceN slim.1 slim.2 npts, (linspaceN slim.1 slim.2 npts).map w))
    ∧ (∃ s ∈ linspaceN (-6) 6 1001, dafInfinite γ κ = .ok ((w s).re * (1 / κ) ^ (3 / 4 : ℝ))
        ∧ (∀ s' ∈ linspaceN (-6) 6 1001, (w s').re ≤ (w s).re) ∧ (w 0).re ≤ (w s).re)
    ∧ (∃ s ∈ linspaceN (-8) 8 1001, dafRelative γ κ = .ok ((w s).re * (1 / κ) ^ (3 / 4 : ℝ))
        ∧ (∀ s' ∈ linspaceN (-8) 8 1001, (w s').re ≤ (w s).re) ∧ (w 0).re ≤ (w s).re) := by
  refine ⟨mlW (alpRel α κ) (betRel β κ) γ 0, movingLoad_ok h hi, ?_, ?_⟩
  · obtain ⟨s, hs, hm, hmax⟩ := maxC_map (mlW (alpRel α κ) (betRel β κ) γ 0) _ (linspace_ne (-6) 6)
    refine ⟨s, hs, ?_, hmax, hmax 0 (linspace_mid 6)⟩
    unfold dafInfinite
    rw [movingLoad_ok h hi]
    generalize linspaceN (-6, 6).1 (-6, 6).2 1001 = l at hm
    exact daf_step l _ _ κ hm
  · obtain ⟨s, hs, hm, hmax⟩ := maxC_map (mlW (alpRel α κ) (betRel β κ) γ 0) _ (linspace_ne (-8) 8)
    refine ⟨s, hs, ?_, hmax, hmax 0 (linspace_mid 8)⟩
    unfold dafRelative
    rw [mlA_ok h hi]
    rw [← mlDisp_eq] at hm ⊢
    generalize linspaceN (-8) 8 1001 = l at hm
    exact daf_step l _ _ κ hm

/-- **C221** For a load at rest both factors are `kratio^(-3/4)` (one for the reference stiffness), for any
damping. -/
theorem C221_daf_static (β κ : ℝ) (hκ : 0 < κ) (γ : Fin 4 → ℂ)
    (h : IsRoots (alpRel 0 κ) (betRel β κ) γ) (hi : Function.Injective γ)
    (ho : ((γ 0).re < 0 ∧ (γ 1).re < 0) ∧ (0 < (γ 2).re ∧ 0 < (γ 3).re)) :
    dafInfinite γ κ = .ok ((1 / κ) ^ (3 / 4 : ℝ)) ∧ dafRelative γ κ = .ok ((1 / κ) ^ (3 / 4 : ℝ)) := by
  obtain ⟨w, hw, ⟨s, hs, h1, h2, h3⟩, ⟨s', hs', h1', h2', h3'⟩⟩ := C221_daf_is_peak 0 β κ hκ γ h hi
  have h0 : alpRel 0 κ = 0 := by unfold alpRel; simp
  rw [h0] at h
  have e : ∀ s, w s = ((staticPointLoadShape s 1 : ℝ) : ℂ) := by
    intro s
    have := C221_static_limit _ γ h hi ho (s, s) 1
    rw [hw] at this
    have e1 : linspaceN s s 1 = [s] := by simp [linspaceN]
    simp only [e1, List.map_cons, List.map_nil] at this
    injection this with this
    injection this with _ this
    injection this
  have st := C220_static_shape 1 0 one_pos
  have le1 : ∀ s, (w s).re ≤ 1 := by
    intro s
    rw [e, Complex.ofReal_re, st.2.2.2.2.2.2.2]
    by_cases hs : s = 0
    · rw [hs, st.2.1]
    · exact (le_abs_self _).trans (st.2.2.1 s hs).le
  have w0 : (w 0).re = 1 := by rw [e, Complex.ofReal_re, st.2.2.2.2.2.2.2, st.2.1]
  have a : (w s).re = 1 := le_antisymm (le1 s) (w0 ▸ h3)
  have b : (w s').re = 1 := le_antisymm (le1 s') (w0 ▸ h3')
  rw [h1, h1', a, b, one_mul]
  exact ⟨rfl, rfl⟩

/-! ## Physical meaning -/

/-- Specification: an Euler-Bernoulli beam on a Winkler foundation, with its characteristic wave number
`lam`, critical velocity `vcr = sqrt(2 sqrt(k EI) / (ρA))` and critical damping `ccr = 2 sqrt(ρA k)`. -/
structure WinklerBeam where
  /-- bending stiffness -/ EI : ℝ
  /-- mass per length -/ m : ℝ
  /-- foundation stiffness -/ k : ℝ
  /-- reciprocal of the characteristic length -/ lam : ℝ
  /-- critical velocity -/ vcr : ℝ
  /-- critical damping -/ ccr : ℝ
  hEI : 0 < EI
  hm : 0 < m
  hk : 0 < k
  hlam : 0 < lam
  hvcr : 0 < vcr
  hccr : 0 < ccr
  lam_eq : 4 * EI * lam ^ 4 = k
  vcr_eq : vcr ^ 2 = 2 * Real.sqrt (k * EI) / m
  ccr_eq : ccr = 2 * Real.sqrt (m * k)

/-- Largest static deflection under a point load `Q`. -/
noncomputable def WinklerBeam.static (B : WinklerBeam) (Q : ℝ) : ℝ := Q * B.lam / (2 * B.k)

theorem WinklerBeam.facts (B : WinklerBeam) : B.m * B.vcr ^ 2 = 4 * B.EI * B.lam ^ 2
    ∧ B.ccr * B.vcr = 8 * B.EI * B.lam ^ 3 ∧ ∀ Q, B.static Q = Q / (8 * B.EI * B.lam ^ 3) := by
  have hEI := B.hEI
  have hm := B.hm
  have hk := B.hk
  have hl := B.hlam
  have hv := B.hvcr
  have hc := B.hccr
  have e1 : Real.sqrt (B.k * B.EI) = 2 * B.EI * B.lam ^ 2 := by
    rw [← B.lam_eq, show 4 * B.EI * B.lam ^ 4 * B.EI = (2 * B.EI * B.lam ^ 2) ^ 2 by ring]
    exact Real.sqrt_sq (by positivity)
  have a : B.m * B.vcr ^ 2 = 4 * B.EI * B.lam ^ 2 := by
    rw [B.vcr_eq, e1]; field_simp; ring
  have hc2 : B.ccr ^ 2 = 4 * B.m * B.k := by
    rw [B.ccr_eq, mul_pow, Real.sq_sqrt (by positivity)]; ring
  refine ⟨a, ?_, fun Q => ?_⟩
  · have : (B.ccr * B.vcr) ^ 2 = (8 * B.EI * B.lam ^ 3) ^ 2 := by
      rw [mul_pow, hc2]
      have : 4 * B.m * B.k * B.vcr ^ 2 = 4 * B.k * (B.m * B.vcr ^ 2) := by ring
      rw [this, a, ← B.lam_eq]; ring
    exact (pow_left_inj₀ (by positivity) (by positivity) (by norm_num)).mp this
  · unfold WinklerBeam.static
    rw [← B.lam_eq]; field_simp; ring

/-- **C221** Physical meaning of the dimensionless response: for a beam with velocity `v = alp * vcr` and
damping `c = bet * ccr`, the deflection `static(Q) * w(lam (x - v t))` satisfies the equation of motion
`EI u'''' + m u_tt + c u_t + k u = 0` off the load `x = v t`, and its shear force `EI u'''` jumps by `Q` at the
load.  `U j` is the `j`-th space derivative. -/
theorem C221_physical_response (B : WinklerBeam) (Q α β : ℝ) (w w1 w2 w3 : ℝ → ℂ)
    (h : IsResponse α β w w1 w2 w3) :
    ∃ U0 U1 U2 U3 : ℝ → ℝ → ℂ,
      (∀ x t, U0 x t = (B.static Q : ℂ) * w (B.lam * (x - α * B.vcr * t)))
      ∧ (∀ x t, HasDerivAt (fun x => U0 x t) (U1 x t) x) ∧ (∀ x t, HasDerivAt (fun x => U1 x t) (U2 x t) x)
      ∧ (∀ x t, x ≠ α * B.vcr * t → HasDerivAt (fun x => U2 x t) (U3 x t) x)
      ∧ (∀ x t, ∃ ut : ℝ → ℂ, (∀ t, HasDerivAt (fun t => U0 x t) (ut t) t)
          ∧ ∃ utt : ℂ, HasDerivAt ut utt t
          ∧ (x ≠ α * B.vcr * t → ∃ u4, HasDerivAt (fun x => U3 x t) u4 x
            ∧ B.EI * u4 + B.m * utt + ((β * B.ccr : ℝ) : ℂ) * ut t + B.k * U0 x t = 0))
      ∧ ∀ t, ∃ l, Tendsto (fun x => B.EI * U3 x t) (𝓝[<] (α * B.vcr * t)) (𝓝 l)
          ∧ Tendsto (fun x => B.EI * U3 x t) (𝓝[>] (α * B.vcr * t)) (𝓝 (l + Q)) := by
  obtain ⟨f1, f2, f3⟩ := B.facts
  have hEI := B.hEI
  have hl := B.hlam
  set S : ℂ := (B.static Q : ℂ) with hS
  set v := α * B.vcr with hv
  have dx : ∀ x t : ℝ, HasDerivAt (fun x : ℝ => B.lam * (x - v * t)) B.lam x := fun x t => by
    exact (((hasDerivAt_id' x).sub_const (v * t)).const_mul B.lam).congr_deriv (by ring)
  have dt : ∀ x t : ℝ, HasDerivAt (fun t : ℝ => B.lam * (x - v * t)) (-(B.lam * v)) t := fun x t => by
    have : HasDerivAt (fun t : ℝ => x - v * t) (-v) t :=
      (HasDerivAt.const_sub x ((hasDerivAt_id' t).const_mul v)).congr_deriv (by ring)
    exact (this.const_mul B.lam).congr_deriv (by ring)
  have X : ∀ (f : ℝ → ℂ) (f' : ℂ) (C : ℂ) (x t : ℝ), HasDerivAt f f' (B.lam * (x - v * t)) →
      HasDerivAt (fun x => C * f (B.lam * (x - v * t))) (C * B.lam * f') x := by
    intro f f' C x t hf
    have := (HasDerivAt.scomp (g₁ := f) x hf (dx x t)).const_mul C
    refine this.congr_deriv ?_
    rw [Complex.real_smul]; ring
  have T : ∀ (f : ℝ → ℂ) (f' : ℂ) (C : ℂ) (x t : ℝ), HasDerivAt f f' (B.lam * (x - v * t)) →
      HasDerivAt (fun t => C * f (B.lam * (x - v * t))) (-(C * B.lam * v) * f') t := by
    intro f f' C x t hf
    have := (HasDerivAt.scomp (g₁ := f) t hf (dt x t)).const_mul C
    refine this.congr_deriv ?_
    rw [Complex.real_smul]; push_cast; ring
  have ne : ∀ x t, x ≠ v * t → B.lam * (x - v * t) ≠ 0 := fun x t hx =>
    mul_ne_zero hl.ne' (sub_ne_zero.mpr hx)
  have g1 : (B.m : ℂ) * B.vcr ^ 2 = 4 * B.EI * B.lam ^ 2 := by exact_mod_cast f1
  have g2 : (B.ccr : ℂ) * B.vcr = 8 * B.EI * B.lam ^ 3 := by exact_mod_cast f2
  have g3 : (4 : ℂ) * B.EI * B.lam ^ 4 = B.k := by exact_mod_cast B.lam_eq
  refine ⟨fun x t => S * w (B.lam * (x - v * t)), fun x t => S * B.lam * w1 (B.lam * (x - v * t)),
    fun x t => S * B.lam * B.lam * w2 (B.lam * (x - v * t)),
    fun x t => S * B.lam * B.lam * B.lam * w3 (B.lam * (x - v * t)), fun x t => rfl,
    fun x t => X w _ S x t (h.d1 _), fun x t => X w1 _ _ x t (h.d2 _),
    fun x t hx => X w2 _ _ x t (h.d3 _ (ne x t hx)), fun x t => ?_, fun t => ?_⟩
  · refine ⟨fun t => -(S * B.lam * v) * w1 (B.lam * (x - v * t)), fun t => T w _ S x t (h.d1 _), _,
      T w1 _ _ x t (h.d2 _), fun hx => ⟨_, X w3 _ _ x t (h.d4 _ (ne x t hx)), ?_⟩⟩
    have hvC : (v : ℂ) = α * B.vcr := by rw [hv]; push_cast; ring
    rw [hvC]
    push_cast
    set a := w (B.lam * (x - v * t))
    set b := w1 (B.lam * (x - v * t))
    set c := w2 (B.lam * (x - v * t))
    linear_combination (S * B.lam ^ 2 * α ^ 2 * c) * g1 - (S * B.lam * α * β * b) * g2 - S * a * g3
  · obtain ⟨l, l1, l2⟩ := h.jump
    have hK : (B.EI : ℂ) * (S * B.lam * B.lam * B.lam) * 8 = Q := by
      rw [hS, f3 Q]
      push_cast
      have : (B.EI : ℂ) ≠ 0 := by exact_mod_cast hEI.ne'
      have : (B.lam : ℂ) ≠ 0 := by exact_mod_cast hl.ne'
      field_simp
    have cont : Continuous fun x : ℝ => B.lam * (x - v * t) := by fun_prop
    have at0 : B.lam * (v * t - v * t) = 0 := by ring
    have tl : Tendsto (fun x : ℝ => B.lam * (x - v * t)) (𝓝[<] (v * t)) (𝓝[<] 0) := by
      refine tendsto_nhdsWithin_iff.mpr ⟨?_, ?_⟩
      · have := cont.tendsto (v * t); rw [at0] at this; exact this.mono_left nhdsWithin_le_nhds
      · filter_upwards [self_mem_nhdsWithin] with x hx
        exact mul_neg_of_pos_of_neg hl (sub_neg.mpr hx)
    have tr : Tendsto (fun x : ℝ => B.lam * (x - v * t)) (𝓝[>] (v * t)) (𝓝[>] 0) := by
      refine tendsto_nhdsWithin_iff.mpr ⟨?_, ?_⟩
      · have := cont.tendsto (v * t); rw [at0] at this; exact this.mono_left nhdsWithin_le_nhds
      · filter_upwards [self_mem_nhdsWithin] with x hx
        exact mul_pos hl (sub_pos.mpr hx)
    refine ⟨B.EI * ((S * B.lam * B.lam * B.lam) * l), ((l1.comp tl).const_mul _).const_mul _, ?_⟩
    have := ((l2.comp tr).const_mul (S * B.lam * B.lam * B.lam)).const_mul (B.EI : ℂ)
    refine this.trans_eq ?_ |> fun h => h
    rw [← hK]
    congr 1
    ring

/-- **C221** The changes of variable for a changed foundation stiffness: a beam `B2` that differs from the
reference `B1` only in foundation stiffness, `k2 = kratio * k1`, sees the same velocity and damping as ratios
`alp / kratio^0.25` and `bet * (1/kratio)^0.5` of its own critical values, and its static deflection is
`(1/kratio)^(3/4)` that of `B1`: so factor times static deflection of `B1` is the peak deflection of `B2`. -/
theorem C221_stiffness_ratio (B1 B2 : WinklerBeam) (κ α β Q : ℝ) (hκ : 0 < κ) (hE : B2.EI = B1.EI)
    (hm : B2.m = B1.m) (hk : B2.k = κ * B1.k) :
    α * B1.vcr = alpRel α κ * B2.vcr ∧ β * B1.ccr = betRel β κ * B2.ccr
    ∧ B2.static Q = (1 / κ) ^ (3 / 4 : ℝ) * B1.static Q := by
  set r := κ ^ (0.25 : ℝ) with hr
  have rp : 0 < r := Real.rpow_pos_of_pos hκ _
  have r4 : r ^ 4 = κ := by
    rw [hr, ← Real.rpow_natCast, ← Real.rpow_mul hκ.le]; norm_num
  have hl1 := B1.hlam
  have hl2 := B2.hlam
  have l2 : B2.lam = B1.lam * r := by
    have e : B2.lam ^ 4 = (B1.lam * r) ^ 4 := by
      have a := B1.lam_eq
      have b := B2.lam_eq
      rw [hE, hk, ← a] at b
      have := B1.hEI
      have h4 : (4 * B1.EI) * B2.lam ^ 4 = (4 * B1.EI) * (B1.lam * r) ^ 4 := by
        rw [mul_pow, r4]; linarith
      exact mul_left_cancel₀ (by positivity) h4
    exact (pow_left_inj₀ hl2.le (by positivity) (by norm_num)).mp e
  obtain ⟨a1, b1, c1⟩ := B1.facts
  obtain ⟨a2, b2, c2⟩ := B2.facts
  have v2 : B2.vcr = B1.vcr * r := by
    have e : B2.vcr ^ 2 = (B1.vcr * r) ^ 2 := by
      rw [hE, hm, l2] at a2
      have := B1.hm
      refine mul_left_cancel₀ this.ne' ?_
      rw [a2, mul_pow]
      linear_combination (-r ^ 2) * a1
    exact (pow_left_inj₀ B2.hvcr.le (mul_pos B1.hvcr rp).le (by norm_num)).mp e
  have c2' : B2.ccr = B1.ccr * r ^ 2 := by
    have hv := B1.hvcr
    rw [hE, l2, v2] at b2
    refine mul_right_cancel₀ (mul_pos hv rp).ne' ?_
    rw [b2]
    linear_combination (-r ^ 3) * b1
  have half : (1 / κ) ^ (0.5 : ℝ) = 1 / r ^ 2 := by
    rw [← r4, show (1:ℝ) / r ^ 4 = (1 / r ^ 2) ^ 2 by field_simp, ← Real.rpow_natCast (1 / r ^ 2) 2,
      ← Real.rpow_mul (by positivity)]
    norm_num
  have three : (1 / κ) ^ (3 / 4 : ℝ) = 1 / r ^ 3 := by
    rw [← r4, show (1:ℝ) / r ^ 4 = (1 / r) ^ 4 by field_simp, ← Real.rpow_natCast (1 / r) 4,
      ← Real.rpow_mul (by positivity), show ((4:ℕ):ℝ) * (3 / 4) = (3:ℕ) by norm_num, Real.rpow_natCast]
    field_simp
  refine ⟨?_, ?_, ?_⟩
  · unfold alpRel; rw [v2, ← hr]; field_simp
  · unfold betRel; rw [c2', half]; field_simp
  · rw [c2, c1, hE, l2, three]
    have := B1.hEI
    field_simp

/-! ## Non-vacuity -/

/-- The roots at zero velocity in the assumed order. -/
theorem roots_static (β : ℝ) : IsRoots 0 β ![-1 + Complex.I, -1 - Complex.I, 1 + Complex.I, 1 - Complex.I] := by
  intro z
  simp
  linear_combination (-(Complex.I ^ 2) + 2 * z ^ 2 + 3) * Complex.I_sq

theorem roots_static_inj :
    Function.Injective ![-1 + Complex.I, -1 - Complex.I, 1 + Complex.I, 1 - Complex.I] := by
  intro i j hij
  fin_cases i <;> fin_cases j <;> first
    | rfl
    | (exfalso
       have h1 := congrArg Complex.re hij
       norm_num at h1
       done)
    | (exfalso
       have h2 := congrArg Complex.im hij
       norm_num at h2
       done)

example : dafInfinite ![-1 + Complex.I, -1 - Complex.I, 1 + Complex.I, 1 - Complex.I] 16 = .ok (1 / 8) := by
  have h : alpRel 0 16 = 0 := by unfold alpRel; simp
  have := (C221_daf_static 0.3 16 (by norm_num) ![-1 + Complex.I, -1 - Complex.I, 1 + Complex.I, 1 - Complex.I]
    (by rw [h]; exact roots_static _) roots_static_inj (by simp)).1
  rw [this]
  congr 1
  rw [show (1:ℝ) / 16 = (1 / 2) ^ (4:ℝ) by norm_num, ← Real.rpow_mul (by norm_num)]
  norm_num

/-- A beam with `EI = 1`, `m = 4`, `k = 4`, for which `lam = 1`, `vcr = 1`, `ccr = 8`. -/
noncomputable example : WinklerBeam where
  EI := 1
  m := 4
  k := 4
  lam := 1
  vcr := 1
  ccr := 8
  hEI := by norm_num
  hm := by norm_num
  hk := by norm_num
  hlam := by norm_num
  hvcr := by norm_num
  hccr := by norm_num
  lam_eq := by norm_num
  vcr_eq := by
    rw [show (4:ℝ) * 1 = 2 ^ 2 by norm_num, Real.sqrt_sq (by norm_num)]; norm_num
  ccr_eq := by
    rw [show (4:ℝ) * 4 = 4 ^ 2 by norm_num, Real.sqrt_sq (by norm_num)]; norm_num

/-- A damped load at the critical velocity, `alp = 1`, `bet = 3/8`, satisfies the hypotheses of C218 and
C219: the quartic is `(z² + z + 4)(z² - z + 1)`. -/
theorem roots_damped : ∃ γ : Fin 4 → ℂ, IsRoots 1 (3 / 8) γ ∧ Function.Injective γ
    ∧ ((γ 0).re < 0 ∧ (γ 1).re < 0) ∧ (0 < (γ 2).re ∧ 0 < (γ 3).re) := by
  have h15 : ((Real.sqrt 15 : ℝ) : ℂ) ^ 2 = 15 := by
    rw [← Complex.ofReal_pow, Real.sq_sqrt (by norm_num)]; norm_num
  have h3 : ((Real.sqrt 3 : ℝ) : ℂ) ^ 2 = 3 := by
    rw [← Complex.ofReal_pow, Real.sq_sqrt (by norm_num)]; norm_num
  have p15 : 0 < Real.sqrt 15 := Real.sqrt_pos.mpr (by norm_num)
  have p3 : 0 < Real.sqrt 3 := Real.sqrt_pos.mpr (by norm_num)
  refine ⟨![⟨-1 / 2, Real.sqrt 15 / 2⟩, ⟨-1 / 2, -(Real.sqrt 15 / 2)⟩, ⟨1 / 2, Real.sqrt 3 / 2⟩,
    ⟨1 / 2, -(Real.sqrt 3 / 2)⟩], ?_, ?_, ?_⟩
  · have c : ∀ a b : ℝ, (⟨a, b⟩ : ℂ) = a + b * Complex.I := fun a b => Complex.mk_eq_add_mul_I a b
    have q1 : ∀ z : ℂ, (z - ⟨-1 / 2, Real.sqrt 15 / 2⟩) * (z - ⟨-1 / 2, -(Real.sqrt 15 / 2)⟩)
        = z ^ 2 + z + 4 := by
      intro z
      rw [c, c]
      push_cast
      linear_combination (-(15 : ℂ) / 4) * Complex.I_sq - (Complex.I ^ 2 / 4) * h15
    have q2 : ∀ z : ℂ, (z - ⟨1 / 2, Real.sqrt 3 / 2⟩) * (z - ⟨1 / 2, -(Real.sqrt 3 / 2)⟩)
        = z ^ 2 - z + 1 := by
      intro z
      rw [c, c]
      push_cast
      linear_combination (-(3 : ℂ) / 4) * Complex.I_sq - (Complex.I ^ 2 / 4) * h3
    intro z
    have e : ∀ a b c d : ℂ, (z - ![a, b, c, d] 0) * (z - ![a, b, c, d] 1) * (z - ![a, b, c, d] 2)
        * (z - ![a, b, c, d] 3) = ((z - a) * (z - b)) * ((z - c) * (z - d)) := by
      intro a b c d; simp; ring
    rw [e, q1, q2]
    push_cast
    ring
  · intro i j hij
    have h1 := congrArg Complex.re hij
    have h2 := congrArg Complex.im hij
    fin_cases i <;> fin_cases j <;> first
      | rfl
      | (exfalso; norm_num at h1; done)
      | (exfalso; simp at h2; linarith)
  · refine ⟨⟨?_, ?_⟩, ?_, ?_⟩
    · show (-1 / 2 : ℝ) < 0; norm_num
    · show (-1 / 2 : ℝ) < 0; norm_num
    · show (0:ℝ) < 1 / 2; norm_num
    · show (0:ℝ) < 1 / 2; norm_num

example : ∃ γ : Fin 4 → ℂ, IsRoots 1 (3 / 8) γ
    ∧ ∃ w w1 w2 w3 : ℝ → ℂ, IsResponse 1 (3 / 8) w w1 w2 w3 ∧ (∀ s, (w s).im = 0)
      ∧ ∀ slim npts, movingLoad γ slim npts
        = .ok (linspaceN slim.1 slim.2 npts, (linspaceN slim.1 slim.2 npts).map w) := by
  obtain ⟨γ, h, hi, ho⟩ := roots_damped
  obtain ⟨w, w1, w2, w3, a, b, _, d, _⟩ := C219_real_unique_bounded 1 (3 / 8) γ h hi ho
  exact ⟨γ, h, w, w1, w2, w3, b, d, a⟩

/-- Listed in the other order the same roots give a displacement that is not bounded. -/
example : ∃ γ : Fin 4 → ℂ, IsRoots 1 (3 / 8) γ ∧ ∃ w : ℝ → ℂ,
    (∀ slim npts, movingLoad γ slim npts
        = .ok (linspaceN slim.1 slim.2 npts, (linspaceN slim.1 slim.2 npts).map w))
    ∧ ¬ ∃ M : ℝ, ∀ s, ‖w s‖ ≤ M := by
  obtain ⟨γ, h, hi, ho⟩ := roots_damped
  have h' : IsRoots 1 (3 / 8) (γ ∘ Fin.rev) := by
    intro z
    rw [h z]
    show _ = (z - γ 3) * (z - γ 2) * (z - γ 1) * (z - γ 0)
    ring
  obtain ⟨w, a, _, c⟩ := C219_decay_iff_root_order_partial 1 (3 / 8) _ h' (hi.comp Fin.rev_injective)
  refine ⟨_, h', w, a, fun hb => ?_⟩
  have := (c.mp hb).1.1
  have e : (γ ∘ Fin.rev) 0 = γ 3 := rfl
  rw [e] at this
  linarith [ho.2.2]

end Geotecha.Beam
