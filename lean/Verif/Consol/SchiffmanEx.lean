import Verif.Consol.SchiffmanErr
import Verif.Roots.PropsFixed

/-! # Concrete cases for C131-C136: one layer, drained top, impervious bottom, one mode -/

set_option linter.unusedVariables false
set_option autoImplicit false
open Real Finset MeasureTheory
namespace Geotecha.Consol
open Geotecha (PyErr)
open Geotecha.Piecewise Geotecha.Speccon
open Geotecha.Spec (polyLeft polyRight line SortedLe)
namespace SS

/-- A load that steps to 1 at time 0. -/
theorem step0_history : ∃ p, PolyLine.ofX_Y [(0:ℝ), 0, 100] [0, 1, 1] = .ok p ∧
    LoadHistory p none 0 50 (fun t => polyRight (([(0:ℝ), 0, 100]).zip [0, 1, 1]) t) 0 := by
  refine ⟨⟨some ([(0:ℝ), 0, 100].zip [0, 1, 1]), true, true, none⟩, by simp [PolyLine.ofX_Y], ?_⟩
  refine ⟨[0, 0, 100], [0, 1, 1], rfl, rfl, rfl, by norm_num [SortedLe], ?_, 1, rfl, by norm_num, by norm_num, Or.inl (by norm_num),
    Or.inl (by norm_num), by simp, fun t _ _ => by simp [mult]⟩
  intro k hk hk'
  simp only [List.length_cons, List.length_nil] at hk
  have : k = 0 ∨ k = 1 := by omega
  rcases this with e | e <;> subst e <;> norm_num

theorem step0_right {t : ℝ} (h0 : 0 ≤ t) (h1 : t ≤ 50) : polyRight ([(0:ℝ), 0, 100].zip [0, 1, 1]) t = 1 := by
  have h : ¬(-t < -100) := by linarith
  simp [polyRight, Spec.mirror, polyLeft, line, h, h0]

theorem step0_left : polyLeft ([(0:ℝ), 0, 100].zip [0, 1, 1]) 0 = 1 := by
  simp [polyLeft, line]

/-- One layer of thickness `H`. -/
noncomputable def one (H : ℝ) (p : PolyLine ℝ) : SS := ⟨[H / 2], [0, 20], some [20], 1, [H], [1], [1], 0, 1, p⟩

variable {H : ℝ} {p : PolyLine ℝ}

theorem one_valid (hH : 0 < H) : (one H p).Valid := by
  constructor <;> simp [one, hH]

theorem one_z : (one H p).zlayer 0 = H := by simp [zlayer, one, hh]
theorem one_beta (b : ℝ) : (one H p).beta b 0 = b := rfl
theorem one_char (b : ℝ) : (one H p).charEqn (0, -1) (1, 0) b = b * cos (b * H) := by
  unfold charEqn
  have : (Matrix.of fun r c : Fin 2 => (one H p).bc (0, -1) (1, 0) b r c).det = b * cos (b * H) := by
    rw [Matrix.det_fin_two]
    have hn : (one H p).nl = 1 := rfl
    simp [bc, hn, one_z, one_beta]
  exact this

theorem cos_ne {x : ℝ} (h0 : 0 < x) (h : cos x = 0) : 1 < x := by
  by_contra hc
  have := cos_pos_of_mem_Ioo (x := x) ⟨by have := pi_gt_three; linarith, by have := pi_gt_three; linarith⟩
  linarith

theorem one_entries (hH : 0 < H) (hH1 : H ≤ 1) : (one H p).NoSmallEntries := by
  intro tp bt b htp hbt hb hdet r c hr hc
  have htp' : tp = (0, -1) := by
    have : (one H p).top = .ok (0, -1) := rfl
    rw [this] at htp; injection htp with h; exact h.symm
  have hbt' : bt = (1, 0) := by
    have : (one H p).bot = .ok (1, 0) := rfl
    rw [this] at hbt; injection hbt with h; exact h.symm
  subst htp' hbt'
  rw [one_char] at hdet
  have hcos : cos (b * H) = 0 := (mul_eq_zero.1 hdet).resolve_left hb.ne'
  have hbH := cos_ne (mul_pos hb hH) hcos
  have hb1 : 1 < b := by nlinarith
  have hn : (one H p).nl = 1 := rfl
  rw [hn] at hr hc
  obtain rfl | rfl : r = 0 ∨ r = 1 := by omega
  · obtain rfl | rfl : c = 0 ∨ c = 1 := by omega
    · right; simp [bc]; norm_num
    · left; simp [bc]
  · obtain rfl | rfl : c = 0 ∨ c = 1 := by omega
    · right
      have : (one H p).bc (0, -1) (1, 0) b 1 0 = -(b * sin (b * H)) := by simp [bc, hn, one_z, one_beta]
      rw [this, abs_neg, abs_mul]
      have hs : |sin (b * H)| = 1 := by
        have := sin_sq_add_cos_sq (b * H)
        rw [hcos] at this
        rw [← sqrt_sq_eq_abs, show sin (b * H) ^ 2 = 1 by linarith, sqrt_one]
      rw [hs, abs_of_pos hb]; norm_num; linarith
    · left; simp [bc, hn, one_z, one_beta, hcos]

theorem one_coeffs (b : ℝ) : (one H p).coeffs (0, -1) (1, 0) b = .ok fun j => if j < 1 then 0 else 1 := by
  unfold coeffs
  have ha : (Matrix.of fun r c : Fin 1 => clean ((one H p).bc (0, -1) (1, 0) b r c)) = 1 := by
    ext r c
    have := Fin.eq_zero r; have := Fin.eq_zero c
    subst r c
    simp [bc, clean]
    norm_num
  show (if (Matrix.of fun r c : Fin 1 => clean ((one H p).bc (0, -1) (1, 0) b r c)).det = 0 then _ else _) = _
  rw [ha, if_neg (by simp)]
  dsimp only
  congr 1
  funext j
  by_cases hj : j < 1
  · have : j < 2 * (one H p).nl - 1 := hj
    rw [dif_pos this, if_pos hj]
    change ((Matrix.of fun r c : Fin 1 => clean ((one H p).bc (0, -1) (1, 0) b r c))⁻¹.mulVec
      fun r => -clean ((one H p).bc (0, -1) (1, 0) b r 1)) ⟨j, hj⟩ = 0
    rw [ha, inv_one, Matrix.one_mulVec]
    have : j = 0 := by omega
    subst this
    simp [bc, clean]
  · have : ¬j < 2 * (one H p).nl - 1 := hj
    rw [dif_neg this, if_neg hj]

/-- The search meets no sign change in four steps and one in the fifth. -/
structure Hops (a : ℝ) : Prop where
  c0 : 0 < cos a
  c1 : 0 < cos (2 * a)
  c2 : 0 < cos (3.01 * a)
  c3 : 0 < cos (4.0301 * a)
  c4 : 0 < cos (5.060401 * a)
  c5 : cos (6.10100501 * a) ≤ 0

noncomputable def args (H : ℝ) (p : PolyLine ℝ) (solve : ℝ → ℝ → ℝ → ℝ) : Roots.Args := (one H p).rootArgs (0, -1) (1, 0) solve

noncomputable def stAt (H : ℝ) (j : ℕ) (d c : ℝ) : Roots.St :=
  { roots := [], iter := j, iterSame := none, x00 := 0.1 / H ^ 2, dx := d * (0.1 / H ^ 2), x0 := c * (0.1 / H ^ 2),
    y0 := c * (0.1 / H ^ 2) * cos (c * (0.1 / H)) }

theorem ang (hH : 0 < H) (c : ℝ) : c * (0.1 / H ^ 2) * H = c * (0.1 / H) := by field_simp

theorem arg_f (hH : 0 < H) (solve : ℝ → ℝ → ℝ → ℝ) (c : ℝ) : (args H p solve).f (c * (0.1 / H ^ 2)) = c * (0.1 / H ^ 2) * cos (c * (0.1 / H)) := by
  show (one H p).charEqn (0, -1) (1, 0) _ = _
  rw [one_char, ang hH]

theorem one_walk (hH : 0 < H) (solve : ℝ → ℝ → ℝ → ℝ) {j : ℕ} (hj : j < 5) {d c : ℝ} (hc : 0 < c) (hd : 0 < d) (h0 : 0 < cos (c * (0.1 / H)))
    (h1 : 0 < cos ((c + d) * (0.1 / H))) : Roots.step (args H p solve) (stAt H j d c) = .inl (stAt H (j + 1) (d * 1.01) (c + d)) := by
  have e : c * (0.1 / H ^ 2) + d * (0.1 / H ^ 2) = (c + d) * (0.1 / H ^ 2) := by ring
  have hf := arg_f (p := p) hH solve (c + d)
  have hk : (0:ℝ) < 0.1 / H ^ 2 := by positivity
  rw [Roots.step_walk (by simp [args, rootArgs, stAt, one]) (by simp [args, rootArgs, stAt]; omega) ?_]
  · simp only [stAt]
    rw [e, hf]
    simp only [args, rootArgs]
    congr 1
    simp only [Roots.St.mk.injEq, true_and, and_true]
    push_cast
    exact ⟨rfl, by ring⟩
  · simp only [stAt]
    rw [e, hf]
    have : 0 < c * (0.1 / H ^ 2) * cos (c * (0.1 / H)) * ((c + d) * (0.1 / H ^ 2) * cos ((c + d) * (0.1 / H))) := by positivity
    linarith

theorem one_start (hH : 0 < H) (solve : ℝ → ℝ → ℝ → ℝ) : Roots.start (args H p solve) = stAt H 0 1 1 := by
  have hz : (one H p).zlayer ((one H p).nl - 1) = H := one_z
  have := arg_f (p := p) hH solve 1
  simp only [one_mul] at this
  unfold Roots.start stAt
  have hx : (args H p solve).x0 = 0.1 / H ^ 2 := by simp only [args, rootArgs, hz]
  have hd : (args H p solve).dx = 0.1 / H ^ 2 := by simp only [args, rootArgs, hz]
  rw [hx, hd, this]
  simp

theorem one_roots (hH : 0 < H) (hH1 : H ≤ 1) (ha : Hops (0.1 / H)) {solve : ℝ → ℝ → ℝ → ℝ} (hs : (one H p).SolverOk solve) :
    ∃ b, 0 < b ∧ Roots.Ends (args H p solve) (.returned [b]) := by
  have hs' : Roots.Spec.Solves ((one H p).charEqn (0, -1) (1, 0)) solve := hs _ _ rfl rfl
  have hk : (0:ℝ) < 0.1 / H ^ 2 := by positivity
  have hk1 : (0.1:ℝ) ≤ 0.1 / H ^ 2 := by
    rw [le_div_iff₀ (by positivity)]; nlinarith
  have w0 := one_walk (p := p) hH solve (j := 0) (d := 1) (c := 1) (by norm_num) (by norm_num) (by norm_num) (by simpa using ha.c0) (by have := ha.c1; norm_num at this ⊢; exact this)
  have w1 := one_walk (p := p) hH solve (j := 1) (d := 1 * 1.01) (c := 1 + 1) (by norm_num) (by norm_num) (by norm_num) (by have := ha.c1; norm_num at this ⊢; exact this) (by have := ha.c2; norm_num at this ⊢; exact this)
  have w2 := one_walk (p := p) hH solve (j := 2) (d := 1 * 1.01 * 1.01) (c := 1 + 1 + 1 * 1.01) (by norm_num) (by norm_num) (by norm_num) (by have := ha.c2; norm_num at this ⊢; exact this) (by have := ha.c3; norm_num at this ⊢; exact this)
  have w3 := one_walk (p := p) hH solve (j := 3) (d := 1 * 1.01 * 1.01 * 1.01) (c := 1 + 1 + 1 * 1.01 + 1 * 1.01 * 1.01) (by norm_num) (by norm_num) (by norm_num) (by have := ha.c3; norm_num at this ⊢; exact this) (by have := ha.c4; norm_num at this ⊢; exact this)
  set s4 := stAt H 4 (1 * 1.01 * 1.01 * 1.01 * 1.01) (1 + 1 + 1 * 1.01 + 1 * 1.01 * 1.01 + 1 * 1.01 * 1.01 * 1.01) with hs4
  have e : s4.x0 + s4.dx = 6.10100501 * (0.1 / H ^ 2) := by rw [hs4]; simp only [stAt]; ring
  have x4 : s4.x0 = 5.060401 * (0.1 / H ^ 2) := by rw [hs4]; simp only [stAt]; ring
  have y4 : s4.y0 = 5.060401 * (0.1 / H ^ 2) * cos (5.060401 * (0.1 / H)) := by
    rw [hs4]; simp only [stAt]; norm_num
  have hf := arg_f (p := p) hH solve 6.10100501
  have hf4 := arg_f (p := p) hH solve 5.060401
  have hp4 := ha.c4
  have hn5 := ha.c5
  have hlo : 0 < (one H p).charEqn (0, -1) (1, 0) (5.060401 * (0.1 / H ^ 2)) := by
    have : (one H p).charEqn (0, -1) (1, 0) (5.060401 * (0.1 / H ^ 2)) = _ := hf4
    rw [this]; positivity
  have hhi : (one H p).charEqn (0, -1) (1, 0) (6.10100501 * (0.1 / H ^ 2)) ≤ 0 := by
    have : (one H p).charEqn (0, -1) (1, 0) (6.10100501 * (0.1 / H ^ 2)) = _ := hf
    rw [this]; exact mul_nonpos_of_nonneg_of_nonpos (by positivity) hn5
  have hsol := hs' (5.060401 * (0.1 / H ^ 2)) (6.10100501 * (0.1 / H ^ 2)) (5.060401 * (0.1 / H ^ 2)) (by nlinarith)
    hlo.ne' (mul_nonpos_of_nonneg_of_nonpos hlo.le hhi)
  obtain ⟨r1, r2, r3⟩ := hsol
  have hr : 0.1 < solve s4.x0 (s4.x0 + s4.dx) s4.x0 := by
    rw [e, x4]; linarith
  have h4 := Roots.step_first (a := args H p solve) (s := s4) (by simp [args, rootArgs, s4, stAt, one]) (by simp [args, rootArgs, s4, stAt])
    (by rw [e, hf, y4]; exact mul_nonpos_of_nonneg_of_nonpos (by positivity) (mul_nonpos_of_nonneg_of_nonpos (by positivity) hn5))
    (by simp [s4, stAt]) rfl (by
      unfold Roots.close
      have hr' : 0.1 < (args H p solve).solve s4.x0 (s4.x0 + s4.dx) s4.x0 := hr
      rw [sub_zero, abs_of_pos (by linarith)]
      simp only [args, rootArgs, abs_zero, mul_zero, add_zero, not_le]
      norm_num at hr ⊢; linarith)
  refine ⟨solve s4.x0 (s4.x0 + s4.dx) s4.x0, by linarith, 6, ?_⟩
  rw [one_start hH]
  simp only [zero_add] at w0
  simp only [Roots.run, w0, w1, w2, w3]
  simp only [← hs4, h4]
  rw [Roots.step_done (by simp [Roots.accept, s4, stAt, args, rootArgs, one])]
  rfl

theorem one_run (hH : 0 < H) (hH1 : H ≤ 1) (ha : Hops (0.1 / H)) {x y : List ℝ} (hp : PolyLine.ofX_Y x y = .ok p) {load : ℝ → ℝ} {load0 : ℝ}
    (hl : LoadHistory p none 0 50 load load0) {solve : ℝ → ℝ → ℝ → ℝ} (hs : (one H p).SolverOk solve) : ∃ r, (one H p).Ends solve (.ok r) := by
  obtain ⟨b, hb, hE⟩ := one_roots hH hH1 ha hs
  have h := one_valid (p := p) hH
  obtain ⟨D, hD⟩ := tm_ok (o := one H p) h hl
  have ho : ∃ r, (one H p).output (0, -1) (1, 0) [b] = .ok r := by
    unfold output
    rw [List.mapM_cons, one_coeffs]
    set co : ℝ → ℕ → ℝ := fun _ j => if j < 1 then 0 else 1 with hco
    have hsa : ((one H p).t.mapM fun t => (one H p).settleAvp ([b].map fun b => Term.mk b (co b)) t) = .ok ((one H p).t.map fun t =>
        ((one H p).column.total (fun i z => polyLeft (x.zip y) t - (one H p).usol [b] co D i z t), (one H p).column.mean fun i z => (one H p).usol [b] co D i z t)) :=
      mapM_mem_ok fun t htt => settleAvp_ok h (by simpa using hb) (pinterpLeft_ok hp hl t)
        fun b' hb' i hi => by
          rw [List.mem_singleton.1 hb']
          have : t = 0 ∨ t = 20 := by simpa [one] using htt
          exact (hD b hb).2.1 _ t i hi (by rcases this with rfl | rfl <;> norm_num) (by rcases this with rfl | rfl <;> norm_num)
    have hpo : ((one H p).z.mapM fun z => [(20:ℝ)].mapM fun t => (one H p).porAt ([b].map fun b => Term.mk b (co b)) z t) =
        .ok ((one H p).z.map fun z => [(20:ℝ)].map fun t => (one H p).usol [b] co D ((one H p).layerOf z) z t) := by
      refine mapM_mem_ok fun z hz => mapM_mem_ok fun t ht => ?_
      have hz' : z = H / 2 := by simpa [one] using hz
      have ht' : t = 20 := by simpa using ht
      have d1 : (one H p).column.depth (0 + 1) = H := by rw [← zlayer_eq]; exact one_z
      have hl0 : (one H p).layerOf z = 0 := layerOf_eq h (i := 0) h.nl (Or.inr ⟨rfl, by rw [hz']; linarith⟩) (by rw [d1, hz']; linarith)
      subst ht'
      refine porAt_ok h (by rw [hl0]; exact h.nl) fun b' hb' i hi => ?_
      rw [List.mem_singleton.1 hb']
      exact (hD b hb).2.1 _ _ i hi (by norm_num) (by norm_num)
    simp only [List.map_cons, List.map_nil] at hsa hpo
    have htp : (one H p).tpor = some [20] := rfl
    rw [htp]
    simp only [Bind.bind, Except.bind, List.mapM_nil, pure, Except.pure]
    rw [show (fun j => if j < 1 then (0:ℝ) else 1) = co b from rfl]
    simp only [hpo, hsa]
    exact ⟨_, rfl⟩
  obtain ⟨r, hr⟩ := ho
  exact ⟨r, by
    show (∃ e, _) ∨ ∃ b, _
    exact Or.inr ⟨[b], hE, hr.symm⟩⟩

theorem hops_third : Hops (0.1 / (1 / 3)) := by
  have := pi_gt_d2; have := pi_lt_d2
  constructor
  · exact cos_pos_of_mem_Ioo ⟨by norm_num; linarith, by norm_num; linarith⟩
  · exact cos_pos_of_mem_Ioo ⟨by norm_num; linarith, by norm_num; linarith⟩
  · exact cos_pos_of_mem_Ioo ⟨by norm_num; linarith, by norm_num; linarith⟩
  · exact cos_pos_of_mem_Ioo ⟨by norm_num; linarith, by norm_num; linarith⟩
  · exact cos_pos_of_mem_Ioo ⟨by norm_num; linarith, by norm_num; linarith⟩
  · exact cos_nonpos_of_pi_div_two_le_of_le (by norm_num; linarith) (by norm_num; linarith)

/-- The thickness `5/296`: the search hops over the first ten roots. -/
theorem hops_thin : Hops (0.1 / (5 / 296)) := by
  have h1 := pi_gt_d4; have h2 := pi_lt_d4
  have per : ∀ (k : ℤ) {x : ℝ}, -(π / 2) < x - k * (2 * π) → x - k * (2 * π) < π / 2 → 0 < cos x := fun k x ha hb => by
    rw [← cos_sub_int_mul_two_pi x k]
    exact cos_pos_of_mem_Ioo ⟨ha, hb⟩
  constructor
  · exact per 1 (by norm_num; linarith) (by norm_num; linarith)
  · exact per 2 (by norm_num; linarith) (by norm_num; linarith)
  · exact per 3 (by norm_num; linarith) (by norm_num; linarith)
  · exact per 4 (by norm_num; linarith) (by norm_num; linarith)
  · exact per 5 (by norm_num; linarith) (by norm_num; linarith)
  · rw [← cos_sub_int_mul_two_pi _ 5]
    exact cos_nonpos_of_pi_div_two_le_of_le (by norm_num; linarith) (by norm_num; linarith)

/-- C131-C133, C136: a column that meets the hypotheses; whatever solver meets its contract, there is a result. -/
example (solve : ℝ → ℝ → ℝ → ℝ) : ∃ (o : SS), o.Valid ∧ o.NoSmallEntries ∧ PolyLine.ofX_Y [(0:ℝ), 0, 100] [0, 1, 1] = .ok o.load ∧
    LoadHistory o.load none 0 50 (fun t => polyRight ([(0:ℝ), 0, 100].zip [0, 1, 1]) t) 0 ∧ (∀ t ∈ o.t, 0 ≤ t ∧ t ≤ 50) ∧
    (∀ ts, o.tpor = some ts → ∀ t ∈ ts, 0 ≤ t ∧ t ≤ 50) ∧ (∀ z ∈ o.z, 0 ≤ z ∧ z ≤ o.column.depth o.column.N) ∧
    (o.SolverOk solve → ∃ r, o.Ends solve (.ok r)) ∧
    (∀ a b : ℝ, 0 ≤ a → a ≤ b → b ≤ 50 → (0:ℝ) ≤ polyRight ([(0:ℝ), 0, 100].zip [0, 1, 1]) a ∧
      polyRight ([(0:ℝ), 0, 100].zip [0, 1, 1]) a ≤ polyRight ([(0:ℝ), 0, 100].zip [0, 1, 1]) b) := by
  obtain ⟨p, hp, hl⟩ := step0_history
  refine ⟨one (1/3) p, one_valid (by norm_num), one_entries (by norm_num) (by norm_num), hp, hl, ?_, ?_, ?_,
    fun hs => one_run (by norm_num) (by norm_num) hops_third hp hl hs, ?_⟩
  · intro t ht
    have : t = 0 ∨ t = 20 := by simpa [one] using ht
    rcases this with rfl | rfl <;> norm_num
  · intro ts hts t ht
    have : ts = [20] := by simpa [one] using hts.symm
    rw [this] at ht
    rw [List.mem_singleton.1 ht]; norm_num
  · intro z hz
    have d1 : (one (1/3) p).column.depth (0 + 1) = 1/3 := by rw [← zlayer_eq]; exact one_z
    have hN : (one (1/3) p).column.depth (one (1/3) p).column.N = 1/3 := d1
    have : z = 1/3/2 := by simpa [one] using hz
    rw [hN, this]; norm_num
  · intro a b h1 h2 h3
    rw [step0_right h1 (by linarith), step0_right (by linarith) h3]; norm_num

/-- **C136**, what is missing: in the case above the settlements handed over for saving are not the settlements. -/
theorem C136_negation : ∃ (o : SS), o.Valid ∧ ∀ solve, o.SolverOk solve → ∃ r, o.Ends solve (.ok r) ∧ r.dataSet ≠ r.set := by
  obtain ⟨p, hp, hl⟩ := step0_history
  have hv : (one (1/3) p).Valid := one_valid (by norm_num)
  have hN : (one (1/3) p).column.depth (one (1/3) p).column.N = 1/3 := by
    have d1 : (one (1/3) p).column.depth (0 + 1) = 1/3 := by rw [← zlayer_eq]; exact one_z
    exact d1
  refine ⟨one (1/3) p, hv, fun solve hs => ?_⟩
  obtain ⟨r, hE⟩ := one_run (by norm_num) (by norm_num) hops_third hp hl hs
  refine ⟨r, hE, ?_⟩
  have hT : (one (1/3) p).NoSmallEntries := one_entries (by norm_num) (by norm_num)
  obtain ⟨rs, co, tp, bt, D, R, hD, hpor, havp, hset⟩ := core hv hs hT hp hl (s := 0) (tend := 50) (fun t ht => by
    have : t = 0 ∨ t = 20 := by simpa [one] using ht
    rcases this with rfl | rfl <;> norm_num) (fun ts hts t ht => by
    have : ts = [20] := by simpa [one] using hts.symm
    rw [this] at ht
    rw [List.mem_singleton.1 ht]; norm_num) (fun z hz => by
    have : z = 1/3/2 := by simpa [one] using hz
    rw [hN, this]; norm_num) hE
  rw [(C136_saved_partial _ solve r hE).2]
  intro heq
  obtain ⟨b, rfl⟩ := List.length_eq_one_iff.1 (show rs.length = 1 from R.len)
  have hb := R.pos b (by simp)
  have htp' : tp = (0, -1) := by
    have htp := R.top
    have : (one (1/3) p).top = .ok (0, -1) := rfl
    rw [this] at htp; injection htp with h; exact h.symm
  have hbt' : bt = (1, 0) := by
    have hbt := R.bot
    have : (one (1/3) p).bot = .ok (1, 0) := rfl
    rw [this] at hbt; injection hbt with h; exact h.symm
  subst htp' hbt'
  have hz := R.zero b (by simp)
  rw [one_char] at hz
  have hcos : cos (b * (1/3)) = 0 := (mul_eq_zero.1 hz).resolve_left hb.ne'
  have hco := R.coeff b (by simp)
  rw [one_coeffs] at hco
  injection hco with hco
  have hD0 : D b 0 = 1 := by
    have := (hD b hb).2 0 le_rfl (by norm_num)
    rw [step0_right le_rfl (by norm_num)] at this
    simpa using this
  have z1 : (one (1/3) p).zint ⟨b, co b⟩ 0 = 1 / b := by
    have h1 : (one (1/3) p).zlayer 0 = 1/3 := one_z
    have h2 : (one (1/3) p).hh 0 = 1/3 := by simp [hh, one]
    unfold zint
    simp only [h1, h2, one_beta, Term.B, Term.C, ← hco, hcos]
    norm_num
  have z2 : (one (1/3) p).z2int ⟨b, co b⟩ 0 = 1 / 6 := by
    have h1 : (one (1/3) p).zlayer 0 = 1/3 := one_z
    have h2 : (one (1/3) p).hh 0 = 1/3 := by simp [hh, one]
    have hs2 := sin_sq_add_cos_sq (b * (1/3))
    rw [hcos] at hs2
    have hs2 : sin (b * (1/3)) ^ 2 = 1 := by linarith
    unfold z2int
    simp only [h1, h2, one_beta, Term.B, Term.C, ← hco, hcos, hs2]
    norm_num
  have ham : (one (1/3) p).am ⟨b, co b⟩ = 6 / b := by
    have hn : (one (1/3) p).nl = 1 := rfl
    have hm : (one (1/3) p).m 0 = 1 := by simp [m, one]
    unfold am
    rw [hn]
    simp only [range_one, sum_singleton, hm, z1, z2]
    field_simp
  have hu : ∀ i z, (one (1/3) p).usol [b] co D i z 0 = 6 / b * (one (1/3) p).zf ⟨b, co b⟩ i z := fun i z => by
    unfold usol
    simp only [List.length_singleton, range_one, sum_singleton, tq, List.getD_cons_zero, ham, hD0, mul_one]
  have hI : ∫ z in (one (1/3) p).column.depth 0..(one (1/3) p).column.depth (0 + 1), (one (1/3) p).usol [b] co D 0 z 0 = 6 / b ^ 2 := by
    simp only [hu]
    rw [intervalIntegral.integral_const_mul, ← zint_eq _ _ 0 (by rw [one_beta]; exact hb.ne'), z1]
    field_simp
  have ht : (one (1/3) p).t = [0, 20] := rfl
  rw [havp, hset, ht] at heq
  simp only [List.map_cons, List.cons.injEq] at heq
  have h0 := heq.1
  rw [step0_left, Spec.Column.total_sub (f := fun _ _ => (1:ℝ)) (g := fun i z => (one (1/3) p).usol [b] co D i z 0) (fun i _ => continuous_const)
    (fun i _ => usol_cont _ _ co D i 0), Spec.Column.total_const] at h0
  have hNN : (one (1/3) p).column.N = 1 := rfl
  have hm : (one (1/3) p).column.mv 0 = 1 := by simp [column, m, one]
  have hh0 : (one (1/3) p).column.h 0 = 1/3 := by simp [column, hh, one]
  unfold Spec.Column.mean Spec.Column.total at h0
  rw [hN, hNN] at h0
  simp only [range_one, sum_singleton, hI, hm, hh0] at h0
  have hb2 : b ^ 2 = 72 := by
    field_simp at h0
    linarith
  have hlo : 8 < b := by nlinarith
  have hhi : b < 9 := by nlinarith
  have := cos_neg_of_pi_div_two_lt_of_lt (x := b * (1/3)) (by have := pi_lt_d2; linarith) (by have := pi_gt_three; linarith)
  linarith

/-- C134: a thin layer of which the slowest mode is missed; whatever solver meets its contract, there is a result. -/
example (solve : ℝ → ℝ → ℝ → ℝ) : ∃ (o : SS) (lam : ℝ) (Y Yd : ℕ → ℝ → ℝ), o.Valid ∧ o.NoSmallEntries ∧
    PolyLine.ofX_Y [(0:ℝ), 0, 100] [0, 1, 1] = .ok o.load ∧
    LoadHistory o.load none 0 50 (fun t => polyRight ([(0:ℝ), 0, 100].zip [0, 1, 1]) t) 0 ∧ (o.SolverOk solve → ∃ r, o.Ends solve (.ok r)) ∧
    o.column.Mode lam Y Yd ∧ 0 < o.column.total (fun i z => Y i z ^ 2) ∧
    lam ≤ o.column.kv 0 / o.column.mv 0 * (0.1 / o.column.depth o.column.N ^ 2) ^ 2 := by
  obtain ⟨p, hp, hl⟩ := step0_history
  have d1 : (one (5/296) p).column.depth 1 = 5/296 := by
    have d1 : (one (5/296) p).column.depth (0 + 1) = 5/296 := by rw [← zlayer_eq]; exact one_z
    exact d1
  have hN : (one (5/296) p).column.N = 1 := rfl
  have d0 : (one (5/296) p).column.depth 0 = 0 := by simp [Spec.Column.depth]
  have k0 : (one (5/296) p).column.kv 0 = 1 := by simp [column, one, k]
  have m0 : (one (5/296) p).column.mv 0 = 1 := by simp [column, one, m]
  set w : ℝ := π / 2 / (5/296) with hw
  have hlin : ∀ z, HasDerivAt (fun z => w * z) w z := fun z => by simpa using (hasDerivAt_id z).const_mul w
  refine ⟨one (5/296) p, w ^ 2, fun _ z => sin (w * z), fun _ z => w * cos (w * z), one_valid (by norm_num), one_entries (by norm_num) (by norm_num),
    hp, hl, fun hs => one_run (by norm_num) (by norm_num) hops_thin hp hl hs, ⟨fun i hi z => ?_, fun i hi z => ?_, ⟨fun i hi => ?_, fun i hi => ?_,
    ⟨fun _ => by simp, fun hne => absurd rfl hne⟩, ⟨fun hd => ?_, fun _ => ?_⟩⟩⟩, ?_, ?_⟩
  · exact (hlin z).sin.congr_deriv (by ring)
  · rw [hN] at hi
    obtain rfl : i = 0 := by omega
    rw [k0, m0]
    exact (((hlin z).cos.const_mul w).const_mul 1).congr_deriv (by ring)
  · exact absurd hi (by rw [hN]; omega)
  · exact absurd hi (by rw [hN]; omega)
  · exact absurd hd (by simp [column, one])
  · rw [hN, d1, hw, div_mul_cancel₀ _ (by norm_num), cos_pi_div_two, mul_zero]
  · unfold Spec.Column.total
    rw [hN]
    simp only [range_one, sum_singleton, m0, one_mul, zero_add, d0, d1]
    refine intervalIntegral.intervalIntegral_pos_of_pos_on (Continuous.intervalIntegrable (by fun_prop) _ _) (fun z hz => ?_) (by norm_num)
    have hwp : 0 < w := by positivity
    have : 0 < sin (w * z) := sin_pos_of_pos_of_lt_pi (mul_pos hwp hz.1) (by
      have h1 : w * z < w * (5/296) := mul_lt_mul_of_pos_left hz.2 hwp
      rw [hw, div_mul_cancel₀ _ (by norm_num)] at h1
      rw [hw]; have := pi_pos; linarith)
    positivity
  · rw [k0, m0, hN, d1, hw]
    have := pi_lt_d2; have := pi_pos
    norm_num
    nlinarith

/-- C135: such a column. -/
example (p : PolyLine ℝ) : ∃ o : SS, o.Valid ∧ o.Uniform ∧ o.bctop = 1 ∧ 0 < o.n ∧ o.nl = 2 := by
  refine ⟨⟨[], [], none, 1, [1, 2], [3, 3], [4, 4], 1, 0, p⟩, ?_, ?_, rfl, by norm_num, rfl⟩
  · constructor <;> simp
  · intro i hi
    have hi : i < 2 := hi
    obtain rfl | rfl : i = 0 ∨ i = 1 := by omega
    · exact ⟨rfl, rfl⟩
    · simp [k, m]

/-- Such a solver exists. -/
example (H : ℝ) (p : PolyLine ℝ) : ∃ solve, (one H p).SolverOk solve := by
  have hc : Continuous ((one H p).charEqn (0, -1) (1, 0)) := by
    have : (one H p).charEqn (0, -1) (1, 0) = fun b => b * cos (b * H) := by funext b; exact one_char b
    rw [this]; fun_prop
  obtain ⟨f, hf⟩ := Roots.Spec.exists_solver hc
  refine ⟨f, fun tp bt htp hbt => ?_⟩
  have htp' : tp = (0, -1) := by
    have : (one H p).top = .ok (0, -1) := rfl
    rw [this] at htp; injection htp with h; exact h.symm
  have hbt' : bt = (1, 0) := by
    have : (one H p).bot = .ok (1, 0) := rfl
    rw [this] at hbt; injection hbt with h; exact h.symm
  subst htp' hbt'
  exact hf

end SS
end Geotecha.Consol
