import Verif.Consol.Series
import Verif.Consol.Tang
import Verif.Consol.SpecTang
import Verif.Smear.PropsTol
import Verif.Smear.PropsU
import Verif.Speccon.PropsVRWell

/-!
# Properties of geotecha/consolidation/tangandonitsuka2000.py (C88, C89)
-/

open Real intervalIntegral Finset Filter Topology MeasureTheory
namespace Geotecha.Consol
open Geotecha.Smear Geotecha.Speccon Geotecha.Piecewise Geotecha.Spec

/-- Sensible arguments. -/
structure TangArgs.Valid (a : TangArgs) : Prop where
  kv : 0 < a.kv
  kh : 0 < a.kh
  ks : 0 < a.ks
  kw : 0 < a.kw
  mv : 0 < a.mv
  gamw : 0 < a.gamw
  rw : 0 < a.rw
  rs : a.rw ≤ a.rs
  rsre : a.rs ≤ a.re
  re : a.rw < a.re
  H : 0 < a.H

/-- The drain that the arguments describe: the smear zone is undisturbed beyond `rs` and has `kh/ks` times less permeability within. -/
noncomputable def TangArgs.drain (a : TangArgs) : Spec.Drain :=
  ⟨a.kv, a.kh, a.kw, a.mv, a.gamw, a.rw, a.re, a.H, muSpec (a.re / a.rw) (fun x => if x < a.rs / a.rw then a.kh / a.ks else 1), a.drn = 0⟩

variable {a : TangArgs}

theorem tangF_eq (h : a.Valid) : a.F = a.drain.mu ∧ 0 < a.drain.mu := by
  have hn : 1 < a.re / a.rw := by rw [one_lt_div h.rw]; exact h.re
  have hs : 1 ≤ a.rs / a.rw := by rw [one_le_div h.rw]; exact h.rs
  have hsn : a.rs / a.rw ≤ a.re / a.rw := div_le_div_of_nonneg_right h.rsre h.rw.le
  have hk : 0 < a.kh / a.ks := div_pos h.kh h.ks
  constructor
  · have e : a.F = muConstantF (a.re / a.rw) (a.rs / a.rw) (a.kh / a.ks) := by
      unfold TangArgs.F tangF muConstantF
      generalize a.re / a.rw = n at *
      generalize a.rs / a.rw = s at *
      generalize a.kh / a.ks = kap at *
      have h1 : n ^ 2 - 1 ≠ 0 := by nlinarith
      have h2 : n ≠ 0 := by linarith
      dsimp only
      field_simp
      ring
    rw [e, muConstantF_eq hn hs hsn]; rfl
  · refine mu_pos hn (isProfile_constant (kap := a.kh / a.ks) hs hsn) (min (a.kh / a.ks) 1) (lt_min hk one_pos) fun x _ _ => ?_
    show _ ≤ ite _ _ _
    split_ifs
    · exact min_le_left _ _
    · exact min_le_right _ _

theorem Hd_pos (h : a.Valid) : 0 < a.Hd := by
  unfold TangArgs.Hd; have := h.H; split_ifs <;> linarith

theorem Dm_pos (h : a.Valid) (k : ℕ) : 0 < a.Dm k := by
  have hn : 1 < a.re / a.rw := by rw [one_lt_div h.rw]; exact h.re
  have h1 : 0 < (a.re / a.rw) ^ 2 - 1 := by nlinarith
  have := bigM_pos k
  have := Hd_pos h
  obtain ⟨h1, h2, h3, h4, h5, h6, h7, h8, h9, h10, h11⟩ := h
  unfold TangArgs.Dm TangArgs.G
  positivity

theorem b_pos (h : a.Valid) (k : ℕ) : 0 < a.b k := by
  have hF : 0 < a.F := by rw [(tangF_eq h).1]; exact (tangF_eq h).2
  have := Dm_pos h k
  have := bigM_pos k
  have := Hd_pos h
  obtain ⟨h1, h2, h3, h4, h5, h6, h7, h8, h9, h10, h11⟩ := h
  have : 0 < a.re := by linarith
  unfold TangArgs.b
  positivity

theorem tangTm_eq (alp t : ℝ) (p : PolyLine ℝ) {T P : List ℝ} (hx : p.getX.1 = .ok T) (hy : p.getY.1 = .ok P) :
    tangTm alp t p = pEDload .scalar p none 1 (alp ^ 2) t := by
  unfold tangTm pEDload edloadLinear
  rw [hx, hy]
  simp only [Bind.bind, Except.bind]
  cases loadSegments T P t with
  | error e => rfl
  | ok g =>
    simp only [pure, Except.pure]
    congr 1
    congr 1
    · congr 1
      · congr 2; funext k; unfold EDl_sl_s; rw [mul_comm]
      · congr 2; funext k; unfold EDl_rc_s
        rw [show -1 * alp ^ 2 = -alp ^ 2 * 1 by ring, show -T.getD k 0 + T.getD (k+1) 0 = T.getD (k+1) 0 - T.getD k 0 by ring]
        generalize exp _ = E
        simp only [div_eq_mul_inv, mul_inv]; ring
    · congr 2; funext k; unfold EDl_rl_s
      rw [show -1 * alp ^ 2 = -alp ^ 2 * 1 by ring, show -T.getD k 0 + T.getD (k+1) 0 = T.getD (k+1) 0 - T.getD k 0 by ring]
      generalize exp (-alp ^ 2 * 1 * (t - T.getD k 0)) = E
      generalize exp _ = E'
      simp only [div_eq_mul_inv, mul_inv]; ring

/-- The time functions of the terms. -/
theorem Tm_ok (h : a.Valid) {p : PolyLine ℝ} {s tend : ℝ} {load : ℝ → ℝ} {load0 : ℝ} (hl : LoadHistory p none s tend load load0) :
    ∃ D : ℕ → ℝ → ℝ, (∀ k x y, IntervalIntegrable (D k) volume x y) ∧ (∀ k t, s ≤ t → t ≤ tend → a.Tm p t k = .ok (D k t)) ∧
      ∀ k t, s ≤ t → t ≤ tend → D k t + a.b k * ∫ r in s..t, D k r = load t - load0 := by
  have key : ∀ k, ∃ D : ℝ → ℝ, (∀ x y, IntervalIntegrable D volume x y) ∧ (∀ t, s ≤ t → t ≤ tend → a.Tm p t k = .ok (D t)) ∧
      ∀ t, s ≤ t → t ≤ tend → D t + a.b k * ∫ r in s..t, D r = load t - load0 := fun k => by
    have hb := b_pos h k
    obtain ⟨D, h1, h2, h3⟩ := hl.solve.2.2.2 1 (a.b k) (by rw [one_mul]; exact hb.ne')
    refine ⟨D, h1, fun t ht1 ht2 => ?_, fun t ht1 ht2 => ?_⟩
    · unfold TangArgs.Tm
      rw [if_neg (not_lt.2 hb.le)]
      obtain ⟨T, P, hx, hy, _⟩ := hl.ex
      rw [tangTm_eq _ _ _ hx hy, sq_sqrt hb.le, h2 .scalar t ht1 ht2]
    · have := h3 t ht1 ht2
      rwa [one_mul] at this
  choose D h1 h2 h3 using key
  exact ⟨D, h1, h2, h3⟩

theorem mapM_ok {f : ℕ → Except PyErr ℝ} {g : ℕ → ℝ} (h : ∀ k, f k = .ok (g k)) (l : List ℕ) : l.mapM f = .ok (l.map g) := by
  induction l with
  | nil => rfl
  | cons x l ih => rw [List.mapM_cons, h, ih]; rfl

theorem getD_map_range (g : ℕ → ℝ) {n k : ℕ} (hk : k < n) : ((List.range n).map g).getD k 0 = g k := by
  simp [List.getD, hk]

/-- Mirroring does not change the sines. -/
theorem sin_mirror (h : a.Valid) (k : ℕ) (z : ℝ) : sin (bigM k * a.zz z / a.Hd) = sin (bigM k * (z / a.Hd)) := by
  unfold TangArgs.zz
  have hd := Hd_pos h
  by_cases hc : a.drn = 0 ∧ z > a.Hd
  · rw [if_pos hc]
    have hH : a.H = 2 * a.Hd := by unfold TangArgs.Hd; rw [if_pos hc.1]; ring
    have e : bigM k * (a.H - z) / a.Hd = 2 * bigM k - bigM k * (z / a.Hd) := by rw [hH]; field_simp
    rw [e, sin_sub, sin_two_mul, cos_two_mul, cos_bigM]; simp
  · rw [if_neg hc, mul_div_assoc]

theorem por_ok (h : a.Valid) {p : PolyLine ℝ} {t : ℝ} {D : ℕ → ℝ} (hD : ∀ k, a.Tm p t k = .ok (D k)) (n : ℕ) (z : ℝ) :
    a.por p n z t = .ok (sinSer n a.Hd (fun k => 2 / bigM k * D k) z) := by
  unfold TangArgs.por
  rw [mapM_ok hD]
  simp only [Bind.bind, Except.bind, pure, Except.pure]
  congr 1
  unfold sinSer
  refine sum_congr rfl fun k hk => ?_
  rw [getD_map_range _ (mem_range.1 hk), sin_mirror h]; ring

theorem avp_ok {p : PolyLine ℝ} {t : ℝ} {D : ℕ → ℝ} (hD : ∀ k, a.Tm p t k = .ok (D k)) (n : ℕ) :
    a.avp p n t = .ok (∑ k ∈ range n, 2 / bigM k * D k / bigM k) := by
  unfold TangArgs.avp
  rw [mapM_ok hD]
  simp only [Bind.bind, Except.bind, pure, Except.pure]
  congr 1
  refine sum_congr rfl fun k hk => ?_
  have := bigM_ne k
  rw [getD_map_range _ (mem_range.1 hk)]; field_simp

theorem integral_sinSer_two (n : ℕ) {H : ℝ} (hH : H ≠ 0) (c : ℕ → ℝ) :
    ∫ z in (0:ℝ)..(2 * H), sinSer n H c z = 2 * H * ∑ k ∈ range n, c k / bigM k := by
  have hF : ∀ z ∈ Set.uIcc 0 (2 * H), HasDerivAt (cosSer n H (fun k => -(c k * (H / bigM k)))) (sinSer n H c z) z := fun z _ => by
    refine (hasDerivAt_cosSer n H _ z).congr_deriv ?_
    unfold sinSer
    refine sum_congr rfl fun k _ => ?_
    have := bigM_ne k
    field_simp
  rw [integral_eq_sub_of_hasDerivAt hF ((continuous_sinSer n H c).intervalIntegrable _ _), cosSer_zero]
  unfold cosSer
  rw [← sum_sub_distrib, mul_sum]
  refine sum_congr rfl fun k _ => ?_
  have e : bigM k * (2 * H / H) = 2 * bigM k := by field_simp
  rw [e, cos_two_mul, cos_bigM]; ring

theorem integral_layer (h : a.Valid) (n : ℕ) (c : ℕ → ℝ) : ∫ z in (0:ℝ)..a.H, sinSer n a.Hd c z = a.H * ∑ k ∈ range n, c k / bigM k := by
  have hd := Hd_pos h
  by_cases hc : a.drn = 0
  · have hH : a.H = 2 * a.Hd := by unfold TangArgs.Hd; rw [if_pos hc]; ring
    rw [hH, integral_sinSer_two n hd.ne']
  · have hH : a.H = a.Hd := by unfold TangArgs.Hd; rw [if_neg hc]
    rw [hH, integral_sinSer n hd.ne']

theorem mode_algebra {kv kh kw mv g rw re Hd F M b Dm : ℝ} (hkh : 0 < kh) (hkw : 0 < kw) (hmv : 0 < mv) (hg : 0 < g) (hrw : 0 < rw)
    (hre : 0 < re) (hH : 0 < Hd) (hM : 0 < M) (hF : 0 < F) (hDp : 0 < Dm)
    (hD : Dm = 8 / M ^ 2 * ((re / rw) ^ 2 - 1) / (re / rw) ^ 2 * (kh / kw * (Hd / 2 / rw) ^ 2))
    (hb : b = kv / mv / g * M ^ 2 / Hd ^ 2 + kh / mv / g * 2 / re ^ 2 / (F + Dm)) :
    mv * b = kv / g * (M / Hd) ^ 2 + 2 * kh / (g * re ^ 2 * (F + Dm)) ∧
      kw / g * rw ^ 2 * (Dm / (F + Dm) * (M / Hd) ^ 2) = (re ^ 2 - rw ^ 2) * (2 * kh / (g * re ^ 2 * (F + Dm))) ∧
      1 - Dm / (F + Dm) = g * re ^ 2 * F / (2 * kh) * (2 * kh / (g * re ^ 2 * (F + Dm))) := by
  have hFD : 0 < F + Dm := by positivity
  refine ⟨?_, ?_, ?_⟩
  · rw [hb]
    generalize F + Dm = Q at *
    field_simp
  · have hD' : Dm * (kw * M ^ 2 * re ^ 2 * rw ^ 2) = 2 * kh * (re ^ 2 - rw ^ 2) * Hd ^ 2 := by
      rw [hD]; field_simp; ring
    generalize F + Dm = Q at *
    field_simp
    linear_combination hD'
  · have : 1 - Dm / (F + Dm) = F / (F + Dm) := by field_simp; ring
    rw [this]
    generalize F + Dm = Q at *
    field_simp

theorem mapM_mem_ok {α β : Type} {f : α → Except PyErr β} {g : α → β} {l : List α} (h : ∀ x ∈ l, f x = .ok (g x)) : l.mapM f = .ok (l.map g) := by
  induction l with
  | nil => rfl
  | cons x l ih => rw [List.mapM_cons, h x (by simp), ih fun y hy => h y (by simp [hy])]; rfl

theorem getX_ofX_Y {x y : List ℝ} {p : PolyLine ℝ} (hp : PolyLine.ofX_Y x y = .ok p) : p.getX.1 = .ok x ∧ p.getY.1 = .ok y := by
  unfold PolyLine.ofX_Y at hp
  by_cases hc : x.length ≠ y.length ∨ x.length < 2 ∨ y.length < 2
  · rw [if_pos hc] at hp; cases hp
  · rw [if_neg hc] at hp
    push Not at hc
    cases hp
    constructor
    · unfold PolyLine.getX PolyLine.getXY; simp [List.map_fst_zip hc.1.le]
    · unfold PolyLine.getY PolyLine.getXY; simp [List.map_snd_zip hc.1.ge]

theorem pinterpLeft_ok {x y : List ℝ} {p : PolyLine ℝ} (hp : PolyLine.ofX_Y x y = .ok p) {s tend : ℝ} {load : ℝ → ℝ} {load0 : ℝ}
    (hl : LoadHistory p none s tend load load0) (t : ℝ) : pinterpLeft p t = .ok (polyLeft (x.zip y) t) := by
  obtain ⟨hx, hy⟩ := getX_ofX_Y hp
  obtain ⟨T, P, hx', hy', hlen, hs, hr, m, hn', hspan, _⟩ := hl.ex
  rw [hx] at hx'; rw [hy] at hy'
  cases hx'; cases hy'
  have hne : nth x 0 < nth x (x.length - 1) := by
    have e1 : x.length - 1 = m + 1 := by omega
    rw [e1, nth_eq_getElem (by omega), nth_eq_getElem (by omega)]
    exact hspan
  unfold pinterpLeft
  simp only [hx, hy, Bind.bind, Except.bind]
  rw [interpXY_left hs hlen.symm hne]

/-- The depth distribution of the load in a solution with `n` terms. -/
noncomputable def TangArgs.S (a : TangArgs) (n : ℕ) (z : ℝ) : ℝ := sinSer n a.Hd (fun k => 2 / bigM k) z

theorem sin_end (n : ℕ) {H : ℝ} (hH : H ≠ 0) (c : ℕ → ℝ) : sinSer n H c (2 * H) = 0 := by
  unfold sinSer
  refine sum_eq_zero fun k _ => ?_
  have e : bigM k * (2 * H / H) = 2 * bigM k := by field_simp
  rw [e, sin_two_mul, cos_bigM]; simp

theorem tang_solves (h : a.Valid) {s tend : ℝ} {load : ℝ → ℝ} {load0 : ℝ} {D : ℕ → ℝ → ℝ} (hi : ∀ k x y, IntervalIntegrable (D k) volume x y)
    (hD : ∀ k t, s ≤ t → t ≤ tend → D k t + a.b k * ∫ r in s..t, D k r = load t - load0) (n : ℕ) :
    a.drain.Solves (a.S n) load load0 s tend (fun z t => sinSer n a.Hd (fun k => 2 / bigM k * D k t) z)
      (fun z t => sinSer n a.Hd (fun k => 2 / bigM k * D k t * (a.Dm k / (a.F + a.Dm k))) z)
      (fun z t => sinSer n a.Hd (fun k => 2 / bigM k * D k t * (2 * a.kh / (a.gamw * a.re ^ 2 * (a.F + a.Dm k)))) z) := by
  have hd := Hd_pos h
  have hF : 0 < a.F := by rw [(tangF_eq h).1]; exact (tangF_eq h).2
  have hre : 0 < a.re := by have := h.rw; have := h.re; linarith
  have alg := fun k => mode_algebra (kv := a.kv) h.kh h.kw h.mv h.gamw h.rw hre hd (bigM_pos k) hF (Dm_pos h k) (Dm := a.Dm k) (b := a.b k) rfl rfl
  refine ⟨fun t => ⟨sinSer_zero _ _ _, sinSer_zero _ _ _⟩, ?_, fun z t => ?_⟩
  · refine ⟨_, _, _, _, fun z t => ⟨hasDerivAt_sinSer n a.Hd _ z, hasDerivAt_sinSer n a.Hd _ z, hasDerivAt_cosSer n a.Hd _ z,
      hasDerivAt_cosSer n a.Hd _ z⟩, fun hb t => ?_, fun hb t => ?_, fun z t h1 h2 => ?_, fun z t => ?_⟩
    · have hb' : a.drn = 0 := hb
      have hH : a.H = 2 * a.Hd := by unfold TangArgs.Hd; rw [if_pos hb']; ring
      show sinSer n a.Hd _ a.H = 0 ∧ sinSer n a.Hd _ a.H = 0
      rw [hH]
      exact ⟨sin_end n hd.ne' _, sin_end n hd.ne' _⟩
    · have hb' : ¬a.drn = 0 := hb
      have hH : a.H = a.Hd := by unfold TangArgs.Hd; rw [if_neg hb']
      show cosSer n a.Hd _ a.H = 0 ∧ cosSer n a.Hd _ a.H = 0
      rw [hH]
      exact ⟨cosSer_end n hd.ne' _, cosSer_end n hd.ne' _⟩
    · show IntervalIntegrable (fun τ => a.kv / a.gamw * sinSer n a.Hd (fun k => -(2 / bigM k * D k τ * (bigM k / a.Hd) * (bigM k / a.Hd))) z -
          sinSer n a.Hd (fun k => 2 / bigM k * D k τ * (2 * a.kh / (a.gamw * a.re ^ 2 * (a.F + a.Dm k)))) z) volume s t ∧
        a.mv * (sinSer n a.Hd (fun k => 2 / bigM k * D k t) z - (load t - load0) * a.S n z) =
        ∫ τ in s..t, a.kv / a.gamw * sinSer n a.Hd (fun k => -(2 / bigM k * D k τ * (bigM k / a.Hd) * (bigM k / a.Hd))) z -
          sinSer n a.Hd (fun k => 2 / bigM k * D k τ * (2 * a.kh / (a.gamw * a.re ^ 2 * (a.F + a.Dm k)))) z
      have e : (fun τ => a.kv / a.gamw * sinSer n a.Hd (fun k => -(2 / bigM k * D k τ * (bigM k / a.Hd) * (bigM k / a.Hd))) z -
          sinSer n a.Hd (fun k => 2 / bigM k * D k τ * (2 * a.kh / (a.gamw * a.re ^ 2 * (a.F + a.Dm k)))) z) =
          fun τ => ∑ k ∈ range n, (-(2 / bigM k * sin (bigM k * (z / a.Hd)) * (a.mv * a.b k))) * D k τ := by
        funext τ
        unfold sinSer
        rw [mul_sum, ← sum_sub_distrib]
        refine sum_congr rfl fun k _ => ?_
        rw [(alg k).1]; ring
      rw [e]
      have hii : ∀ k ∈ range n, IntervalIntegrable (fun τ => (-(2 / bigM k * sin (bigM k * (z / a.Hd)) * (a.mv * a.b k))) * D k τ) volume s t :=
        fun k _ => (hi k s t).const_mul _
      constructor
      · have := IntervalIntegrable.sum (range n) hii
        have e2 : (∑ k ∈ range n, fun τ => (-(2 / bigM k * sin (bigM k * (z / a.Hd)) * (a.mv * a.b k))) * D k τ) =
            fun τ => ∑ k ∈ range n, (-(2 / bigM k * sin (bigM k * (z / a.Hd)) * (a.mv * a.b k))) * D k τ := by
          funext r; simp
        rwa [e2] at this
      · rw [intervalIntegral.integral_finsetSum hii]
        simp only [intervalIntegral.integral_const_mul]
        unfold TangArgs.S sinSer
        rw [mul_sum, ← sum_sub_distrib, mul_sum]
        refine sum_congr rfl fun k _ => ?_
        rw [← hD k t h1 h2]; ring
    · show a.kw / a.gamw * a.rw ^ 2 * sinSer n a.Hd _ z + (a.re ^ 2 - a.rw ^ 2) * sinSer n a.Hd _ z = 0
      unfold sinSer
      rw [mul_sum, mul_sum, ← sum_add_distrib]
      refine sum_eq_zero fun k _ => ?_
      linear_combination -(2 / bigM k * D k t * sin (bigM k * (z / a.Hd))) * (alg k).2.1
  · show _ = a.gamw * a.re ^ 2 * a.drain.mu / (2 * a.kh) * _
    rw [← (tangF_eq h).1]
    unfold sinSer
    rw [mul_sum, ← sum_sub_distrib]
    refine sum_congr rfl fun k _ => ?_
    linear_combination 2 / bigM k * D k t * sin (bigM k * (z / a.Hd)) * (alg k).2.2

/-- **C88**: for sensible arguments and a load history `load` (given by the points of `surcharge_vs_time`; `load0` just before its start
`s`), the pore pressures computed with `n` terms are those of a solution of the drain equations in which the load is distributed over the
depth as `S n`, whether or not `tpor` is given; `avp` is the mean of the pore pressure over the layer; `settle` is `H mv` times the load just
before `t` less that mean.  As `n` grows `S n` tends to the uniform distribution (mean square over the drainage length). -/
theorem C88_solves (a : TangArgs) (h : a.Valid) (x y : List ℝ) (p : PolyLine ℝ) (hp : PolyLine.ofX_Y x y = .ok p) (s tend : ℝ)
    (load : ℝ → ℝ) (load0 : ℝ) (hl : LoadHistory p none s tend load load0) :
    ∃ S : ℕ → ℝ → ℝ,
      (∀ n, ∃ u uw q, a.drain.Solves (S n) load load0 s tend u uw q ∧
        ∀ zs ts tpor, (∀ t ∈ ts, s ≤ t ∧ t ≤ tend) → (∀ o, tpor = some o → ∀ t ∈ o, s ≤ t ∧ t ≤ tend) →
          tang zs ts a (x, y) tpor n = .ok (zs.map (fun z => (tpor.getD ts).map (u z)), ts.map (fun t => Spec.mean a.H fun z => u z t),
            ts.map fun t => a.H * a.mv * (polyLeft (x.zip y) t - Spec.mean a.H fun z => u z t))) ∧
      Tendsto (fun n => ∫ z in (0:ℝ)..(if a.drn = 0 then a.H / 2 else a.H), (1 - S n z) ^ 2) atTop (𝓝 0) := by
  obtain ⟨D, hi, hDm, hD⟩ := Tm_ok h hl
  have hH := h.H
  obtain ⟨hx, hy⟩ := getX_ofX_Y hp
  refine ⟨a.S, fun n => ⟨_, _, _, tang_solves h hi hD n, fun zs ts tpor h1 h2 => ?_⟩, ?_⟩
  · have hpor : ∀ z t, s ≤ t → t ≤ tend → a.por p n z t = .ok (sinSer n a.Hd (fun k => 2 / bigM k * D k t) z) := fun z t a1 a2 =>
      por_ok h (D := fun k => D k t) (fun k => hDm k t a1 a2) n z
    have havp : ∀ t, s ≤ t → t ≤ tend → a.avp p n t = .ok (Spec.mean a.H fun z => sinSer n a.Hd (fun k => 2 / bigM k * D k t) z) :=
      fun t a1 a2 => by
        rw [avp_ok (D := fun k => D k t) (fun k => hDm k t a1 a2) n]
        unfold Spec.mean
        rw [integral_layer h, mul_div_cancel_left₀ _ hH.ne']
    have hset : ∀ t, s ≤ t → t ≤ tend → a.settle p n t =
        .ok (a.H * a.mv * (polyLeft (x.zip y) t - Spec.mean a.H fun z => sinSer n a.Hd (fun k => 2 / bigM k * D k t) z)) := fun t a1 a2 => by
      unfold TangArgs.settle
      rw [havp t a1 a2]
      rw [pinterpLeft_ok hp hl]
      rfl
    have hin : ∀ t ∈ tpor.getD ts, s ≤ t ∧ t ≤ tend := by
      cases tpor with
      | none => exact h1
      | some o => exact h2 o rfl
    unfold tang
    rw [hp]
    simp only [Bind.bind, Except.bind]
    have e1 : (zs.mapM fun z => (tpor.getD ts).mapM fun t => a.por p n z t) =
        .ok (zs.map fun z => (tpor.getD ts).map fun t => sinSer n a.Hd (fun k => 2 / bigM k * D k t) z) :=
      mapM_mem_ok fun z _ => mapM_mem_ok fun t ht => hpor z t (hin t ht).1 (hin t ht).2
    have e2 := mapM_mem_ok (l := ts) (f := fun t => a.avp p n t) fun t ht => havp t (h1 t ht).1 (h1 t ht).2
    have e3 := mapM_mem_ok (l := ts) (f := fun t => a.settle p n t) fun t ht => hset t (h1 t ht).1 (h1 t ht).2
    rw [e1]
    dsimp only
    rw [e2]
    dsimp only
    rw [e3]
    rfl
  · have hd := Hd_pos h
    have hc : ∀ k, ∫ z in (0:ℝ)..a.Hd, (fun _ => (1:ℝ)) z * sin (bigM k * (z / a.Hd)) = a.Hd / 2 * (2 / bigM k) := fun k => by
      simp only [one_mul]
      rw [integral_one_sin a.Hd hd.ne']; ring
    have e : ∀ n, ∫ z in (0:ℝ)..a.Hd, (1 - a.S n z) ^ 2 = a.Hd * (1 - ∑ k ∈ range n, 2 / bigM k ^ 2) := fun n => by
      unfold TangArgs.S
      rw [integral_sub_sinSer_sq n hd.ne' _ (fun _ => (1:ℝ)) continuous_const fun k _ => hc k]
      have : ∑ k ∈ range n, (2 / bigM k) ^ 2 = 2 * ∑ k ∈ range n, 2 / bigM k ^ 2 := by
        rw [mul_sum]; exact sum_congr rfl fun k _ => by ring
      rw [this]; simp; ring
    show Tendsto (fun n => ∫ z in (0:ℝ)..a.Hd, (1 - a.S n z) ^ 2) atTop (𝓝 0)
    simp only [e]
    have := (tendsto_const_nhds (x := (1:ℝ))).sub hasSum_two_div_sq.tendsto_sum_nat
    simpa using this.const_mul a.Hd

/-- **C89**: at a time at which the load has no step, the settlement is the compression of the soil under the load less the pore
pressure, summed over the depth. -/
theorem C89_settlement_partial (a : TangArgs) (h : a.Valid) (x y : List ℝ) (p : PolyLine ℝ) (hp : PolyLine.ofX_Y x y = .ok p) (s tend : ℝ)
    (load : ℝ → ℝ) (load0 : ℝ) (hl : LoadHistory p none s tend load load0) (n : ℕ) (t : ℝ) (h1 : s ≤ t) (h2 : t ≤ tend)
    (hst : polyLeft (x.zip y) t = polyRight (x.zip y) t) :
    ∃ u : ℝ → ℝ, ∃ av st, (∀ zs, tang zs [t] a (x, y) none n = .ok (zs.map (fun z => [u z]), [av], [st])) ∧
      st = ∫ z in (0:ℝ)..a.H, a.mv * (load t - u z) := by
  obtain ⟨D, hi, hDm, hD⟩ := Tm_ok h hl
  obtain ⟨S, hS, -⟩ := C88_solves a h x y p hp s tend load load0 hl
  obtain ⟨u, uw, q, hsol, hout⟩ := hS n
  refine ⟨fun z => u z t, _, _, fun zs => hout zs [t] none (by simpa using ⟨h1, h2⟩) (by simp), ?_⟩
  have hload : load t = polyLeft (x.zip y) t := by
    obtain ⟨hx, hy⟩ := getX_ofX_Y hp
    obtain ⟨T, P, hx', hy', hlen, hs, hr, m, hn', hspan, _, _, _, _, hh⟩ := hl.ex
    rw [hx] at hx'; rw [hy] at hy'
    cases hx'; cases hy'
    rw [hh t h1 h2, hst]; simp [mult]
  obtain ⟨uz, wz, uzz, wzz, hder, _⟩ := hsol.flow
  have hc : Continuous fun z => u z t := continuous_iff_continuousAt.2 fun z => (hder z t).1.continuousAt
  rw [intervalIntegral.integral_const_mul, intervalIntegral.integral_sub (by simp) (hc.intervalIntegrable _ _)]
  show a.H * a.mv * (polyLeft (x.zip y) t - Spec.mean a.H fun z => u z t) = _
  rw [← hload]
  have := h.H.ne'
  unfold Spec.mean
  simp
  field_simp

/-- Points of a load that is zero until time 10 and then steps up to 1. -/
theorem step_history : ∃ p, PolyLine.ofX_Y [(0:ℝ), 10, 10, 100] [0, 0, 1, 1] = .ok p ∧
    LoadHistory p none 0 50 (fun t => polyRight (([(0:ℝ), 10, 10, 100]).zip [0, 0, 1, 1]) t) 0 := by
  refine ⟨⟨some ([(0:ℝ), 10, 10, 100].zip [0, 0, 1, 1]), true, true, none⟩, by simp [PolyLine.ofX_Y], ?_⟩
  refine ⟨[0, 10, 10, 100], [0, 0, 1, 1], rfl, rfl, rfl, by norm_num [SortedLe], ?_, 2, rfl, by norm_num, by norm_num, Or.inl (by norm_num),
    Or.inl (by norm_num), by simp, fun t _ _ => by simp [mult]⟩
  intro k hk hk'
  simp only [List.length_cons, List.length_nil] at hk
  have : k = 0 ∨ k = 1 ∨ k = 2 := by omega
  rcases this with e | e | e <;> subst e <;> norm_num

/-- What is missing in C89: at the moment of a step `settle` uses the load before the step and the pore pressure after it.  Of a load that
steps from 0 to 1 at time 10, the settlement reported for time 10 is negative. -/
theorem C89_negation (a : TangArgs) (h : a.Valid) (n : ℕ) (hn : 0 < n) :
    ∃ por av st, tang [] [10] a ([0, 10, 10, 100], [0, 0, 1, 1]) none n = .ok (por, [av], [st]) ∧ st < 0 := by
  obtain ⟨p, hp, hl⟩ := step_history
  obtain ⟨hx, hy⟩ := getX_ofX_Y hp
  have hTm : ∀ k, a.Tm p 10 k = .ok 1 := fun k => by
    have hb := b_pos h k
    unfold TangArgs.Tm
    rw [if_neg (not_lt.2 hb.le), tangTm_eq _ _ _ hx hy, sq_sqrt hb.le]
    unfold pEDload
    rw [hx, hy]
    simp only [Bind.bind, Except.bind]
    have hrate : LoadRate (fun _ => 0) [(0:ℝ), 10, 10, 100] [0, 0, 1, 1] := ⟨rfl, by
      intro k hk τ h1 h2
      simp only [List.length_cons, List.length_nil] at hk
      have : k = 0 ∨ k = 1 ∨ k = 2 := by omega
      rcases this with e | e | e <;> subst e <;> norm_num at h1 h2 ⊢, fun _ _ _ => rfl⟩
    rw [C30_EDload_partial .scalar _ _ 1 (a.b k) 0 10 (fun _ => 0) (by simp) (by norm_num [SortedLe]) hrate ?_ (by rw [one_mul]; exact hb.ne')
      (by simp) (by norm_num)]
    · congr 1
      simp [List.range_succ, List.filter]
    · intro k hk hk'
      simp only [List.length_cons, List.length_nil] at hk
      have : k = 0 ∨ k = 1 ∨ k = 2 := by omega
      rcases this with e | e | e <;> subst e <;> norm_num
  have havp := avp_ok (D := fun _ => 1) hTm n
  have hleft : polyLeft ([(0:ℝ), 10, 10, 100].zip [0, 0, 1, 1]) 10 = 0 := by
    simp only [List.zip_cons_cons, List.zip_nil_right, polyLeft]
    rw [if_neg (by norm_num), if_pos (by norm_num)]
    simp [line]
  have hset : a.settle p n 10 = .ok (a.H * a.mv * (0 - ∑ k ∈ range n, 2 / bigM k * 1 / bigM k)) := by
    unfold TangArgs.settle
    rw [havp, pinterpLeft_ok hp hl, hleft]; rfl
  refine ⟨[], ∑ k ∈ range n, 2 / bigM k * 1 / bigM k, a.H * a.mv * (0 - ∑ k ∈ range n, 2 / bigM k * 1 / bigM k), ?_, ?_⟩
  · unfold tang
    rw [hp]
    have e0 : (([] : List ℝ).mapM fun z => ((none : Option (List ℝ)).getD [10]).mapM fun t => a.por p n z t) = .ok [] := rfl
    have e1 : ([(10:ℝ)].mapM fun t => a.avp p n t) = .ok [∑ k ∈ range n, 2 / bigM k * 1 / bigM k] :=
      mapM_mem_ok (g := fun _ => ∑ k ∈ range n, 2 / bigM k * 1 / bigM k) (by intro t ht; rw [List.mem_singleton.1 ht]; exact havp)
    have e2 : ([(10:ℝ)].mapM fun t => a.settle p n t) = .ok [a.H * a.mv * (0 - ∑ k ∈ range n, 2 / bigM k * 1 / bigM k)] :=
      mapM_mem_ok (g := fun _ => a.H * a.mv * (0 - ∑ k ∈ range n, 2 / bigM k * 1 / bigM k)) (by intro t ht; rw [List.mem_singleton.1 ht]; exact hset)
    simp only [Bind.bind, Except.bind]
    rw [e0]; dsimp only
    rw [e1]; dsimp only
    rw [e2]; rfl
  · have h1 : 0 < ∑ k ∈ range n, 2 / bigM k * 1 / bigM k :=
      sum_pos (fun k _ => by have := bigM_pos k; positivity) ⟨0, mem_range.2 hn⟩
    have h2 : 0 < a.H * a.mv := mul_pos h.H h.mv
    nlinarith

/-- The example at the end of the code file has sensible arguments. -/
example : TangArgs.Valid ⟨10, 10, 10, 1, 1, 10, 3/100, 3/100, 1/2, 1, 1⟩ := by constructor <;> norm_num

end Geotecha.Consol
