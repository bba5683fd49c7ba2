import Verif.Consol.SchiffmanProps

/-! # schiffmanandstein1970: the output (C131 - C133) -/

set_option linter.unusedVariables false
open Real Finset MeasureTheory
namespace Geotecha.Consol
open Geotecha (PyErr)
open Geotecha.Piecewise Geotecha.Speccon
namespace SS
variable {o : SS}

instance : Inhabited (ℕ → ℝ) := ⟨fun _ => 0⟩

/-- Roots and coefficients behind a result. -/
structure Run (o : SS) (r : Output) (rs : List ℝ) (co : ℝ → ℕ → ℝ) (tp bt : ℝ × ℝ) : Prop where
  top : o.top = .ok tp
  bot : o.bot = .ok bt
  len : rs.length = o.n
  sorted : rs.Pairwise (· < ·)
  zero : ∀ b ∈ rs, o.charEqn tp bt b = 0
  start : ∀ b ∈ rs, 0.1 / o.zlayer (o.nl - 1) ^ 2 < b
  pos : ∀ b ∈ rs, 0 < b
  coeff : ∀ b ∈ rs, o.coeffs tp bt b = .ok (co b)
  out : (do
    let por ← match o.tpor with
      | none => pure none
      | some ts => do
        let r ← o.z.mapM fun z => ts.mapM fun t => o.porAt (rs.map fun b => Term.mk b (co b)) z t
        pure (some r)
    let sa ← o.t.mapM fun t => o.settleAvp (rs.map fun b => Term.mk b (co b)) t
    (pure ⟨por, sa.map Prod.fst, sa.map Prod.snd, sa.map Prod.snd, sa.map Prod.snd⟩ : Except PyErr Output)) = .ok r

/-- `fsolve` does its job on the characteristic equation. -/
def SolverOk (o : SS) (solve : ℝ → ℝ → ℝ → ℝ) : Prop := ∀ tp bt, o.top = .ok tp → o.bot = .ok bt → Roots.Spec.Solves (o.charEqn tp bt) solve

theorem zend_pos (h : o.Valid) : 0 < o.zlayer (o.nl - 1) := by
  have hn : 0 < o.nl := h.nl
  rw [zlayer_eq]
  have := depth_lt h (i := 0) (j := o.nl - 1 + 1) (by omega) (by omega)
  simpa [Spec.Column.depth] using this

theorem unpack (h : o.Valid) {solve : ℝ → ℝ → ℝ → ℝ} (hs : o.SolverOk solve) {r : Output} (hE : o.Ends solve (.ok r)) :
    ∃ rs co tp bt, Run o r rs co tp bt := by
  unfold Ends at hE
  cases ht : o.top with
  | error e => rw [ht] at hE; cases hE
  | ok tp =>
  cases hb : o.bot with
  | error e => rw [ht, hb] at hE; cases hE
  | ok bt =>
  rw [ht, hb] at hE
  rcases hE with ⟨e, _, he⟩ | ⟨rs, hrs, hout⟩
  · cases he
  have hH := zend_pos h
  have hx0 : (0:ℝ) < 0.1 / o.zlayer (o.nl - 1) ^ 2 := by positivity
  obtain ⟨h1, h2, h3⟩ := Roots.C103_sound (o.rootArgs tp bt solve) (hs tp bt ht hb) hx0 (by norm_num [rootArgs]) rs hrs
  unfold output at hout
  cases hq : (rs.mapM fun b => do pure (Term.mk b (← o.coeffs tp bt b)) : Except PyErr (List Term)) with
  | error e => rw [hq] at hout; cases hout
  | ok qs =>
  rw [hq] at hout
  have : Inhabited Term := ⟨⟨0, fun _ => 0⟩⟩
  obtain ⟨g, hg, rfl⟩ := mapM_choose hq
  have hco : ∀ b ∈ rs, o.coeffs tp bt b = .ok (g b).co ∧ g b = ⟨b, (g b).co⟩ := fun b hb => by
    have := hg b hb
    cases hc : o.coeffs tp bt b with
    | error e => rw [hc] at this; cases this
    | ok c =>
      rw [hc] at this
      simp only [Bind.bind, Except.bind, pure, Except.pure] at this
      injection this with this
      rw [← this]
      exact ⟨rfl, rfl⟩
  have hmap : rs.map g = rs.map fun b => Term.mk b (g b).co := List.map_congr_left fun b hb => (hco b hb).2
  refine ⟨rs, fun b => (g b).co, tp, bt, rfl.trans ht, hb, h1, h2, fun b hb => (h3 b hb).1, fun b hb => (h3 b hb).2,
    fun b hb => hx0.trans (h3 b hb).2, fun b hb => (hco b hb).1, ?_⟩
  rw [← hmap]
  exact hout.symm

/-- The `m`-th term of a run. -/
noncomputable def tq (rs : List ℝ) (co : ℝ → ℕ → ℝ) (m : ℕ) : Term := ⟨rs.getD m 0, co (rs.getD m 0)⟩

/-- Pore pressure of a run. -/
noncomputable def usol (o : SS) (rs : List ℝ) (co : ℝ → ℕ → ℝ) (D : ℝ → ℝ → ℝ) (i : ℕ) (z t : ℝ) : ℝ :=
  ∑ m ∈ range rs.length, o.am (tq rs co m) * o.zf (tq rs co m) i z * D (rs.getD m 0) t

theorem getD_mem {rs : List ℝ} {m : ℕ} (hm : m < rs.length) : rs.getD m 0 ∈ rs := by
  have : rs.getD m 0 = rs[m] := by simp [List.getD, hm]
  rw [this]; exact List.getElem_mem hm

theorem sum_terms (rs : List ℝ) (co : ℝ → ℕ → ℝ) (g : Term → ℝ) :
    ((rs.map fun b => Term.mk b (co b)).map g).sum = ∑ m ∈ range rs.length, g (tq rs co m) := by
  rw [List.map_map, sum_map_getD 0]
  rfl

section
variable {r : Output} {rs : List ℝ} {co : ℝ → ℕ → ℝ} {tp bt : ℝ × ℝ}

theorem Run.lt (R : Run o r rs co tp bt) {m j : ℕ} (hmj : m < j) (hj : j < rs.length) : rs.getD m 0 < rs.getD j 0 := by
  have h1 : rs.getD m 0 = rs[m] := by simp [List.getD, show m < rs.length by omega]
  have h2 : rs.getD j 0 = rs[j] := by simp [List.getD, hj]
  rw [h1, h2]
  exact List.pairwise_iff_getElem.1 R.sorted m j _ _ hmj

theorem Run.mode (R : Run o r rs co tp bt) (h : o.Valid) (hT : ∀ b ∈ rs, o.NoTiny tp bt b) {m : ℕ} (hm : m < rs.length) :
    o.column.Mode (o.cv 0 * rs.getD m 0 ^ 2) (o.zf (tq rs co m)) (o.zd (tq rs co m)) := by
  have hb := getD_mem hm
  exact SS.mode h R.top R.bot (R.pos _ hb) (hT _ hb) (R.zero _ hb) (R.coeff _ hb)

theorem Run.sq_pos (R : Run o r rs co tp bt) (h : o.Valid) (hT : ∀ b ∈ rs, o.NoTiny tp bt b) {m : ℕ} (hm : m < rs.length) :
    0 < o.column.total (fun i z => o.zf (tq rs co m) i z ^ 2) := by
  have hb := getD_mem hm
  refine total_sq_pos h _ (R.pos _ hb) ?_
  have hn : 0 < o.nl := h.nl
  have := (coeffs_null hn (hT _ hb) (R.zero _ hb) (R.coeff _ hb)).1
  unfold Term.C
  rw [show 2 * (o.nl - 1) + 1 = 2 * o.nl - 1 by omega]
  exact this

theorem Run.rate_lt (R : Run o r rs co tp bt) (h : o.Valid) {m j : ℕ} (hmj : m < j) (hj : j < rs.length) :
    o.cv 0 * rs.getD m 0 ^ 2 < o.cv 0 * rs.getD j 0 ^ 2 := by
  have hc := cv_pos h (i := 0) h.nl
  have := R.pos _ (getD_mem (m := m) (rs := rs) (by omega))
  have := R.lt hmj hj
  have : rs.getD m 0 ^ 2 < rs.getD j 0 ^ 2 := by nlinarith
  nlinarith

theorem Run.rate_ne (R : Run o r rs co tp bt) (h : o.Valid) : ∀ m < rs.length, ∀ j < rs.length, m ≠ j →
    o.cv 0 * rs.getD m 0 ^ 2 ≠ o.cv 0 * rs.getD j 0 ^ 2 := fun m hm j hj hne => by
  rcases Nat.lt_or_gt_of_ne hne with hlt | hlt
  · exact (R.rate_lt h hlt hj).ne
  · exact (R.rate_lt h hlt hm).ne'

theorem am_tq (h : o.Valid) (R : Run o r rs co tp bt) {m : ℕ} (hm : m < rs.length) :
    o.am (tq rs co m) = o.column.total (o.zf (tq rs co m)) / o.column.total (fun i z => o.zf (tq rs co m) i z ^ 2) :=
  am_eq h _ (R.pos _ (getD_mem hm))

theorem usol_cont (o : SS) (rs : List ℝ) (co : ℝ → ℕ → ℝ) (D : ℝ → ℝ → ℝ) (i : ℕ) (t : ℝ) : Continuous fun z => o.usol rs co D i z t := by
  unfold usol
  exact continuous_finsetSum _ fun m _ => ((o.zf_cont _ i).const_mul _).mul_const _

theorem Run.fits (R : Run o r rs co tp bt) (h : o.Valid) (hT : ∀ b ∈ rs, o.NoTiny tp bt b) (D : ℝ → ℝ → ℝ) (t : ℝ) :
    o.column.Fits (fun i z => o.usol rs co D i z t)
      (fun i z => ∑ m ∈ range rs.length, o.am (tq rs co m) * o.zd (tq rs co m) i z * D (rs.getD m 0) t) := by
  have M := fun m (hm : m ∈ range rs.length) => (R.mode h hT (mem_range.1 hm)).fits
  unfold usol
  refine ⟨fun i hi => sum_congr rfl fun m hm => ?_, fun i hi => ?_, ⟨fun ht => ?_, fun ht => ?_⟩, ⟨fun ht => ?_, fun ht => ?_⟩⟩
  · rw [(M m hm).pressure i hi]
  · rw [mul_sum, mul_sum]
    exact sum_congr rfl fun m hm => by
      have := (M m hm).flow i hi
      linear_combination o.am (tq rs co m) * D (rs.getD m 0) t * this
  · exact sum_eq_zero fun m hm => by rw [(M m hm).top.1 ht]; ring
  · exact sum_eq_zero fun m hm => by rw [(M m hm).top.2 ht]; ring
  · exact sum_eq_zero fun m hm => by rw [(M m hm).bot.1 ht]; ring
  · exact sum_eq_zero fun m hm => by rw [(M m hm).bot.2 ht]; ring

theorem Run.solves (R : Run o r rs co tp bt) (h : o.Valid) (hT : ∀ b ∈ rs, o.NoTiny tp bt b) {D : ℝ → ℝ → ℝ} {s tend load0 : ℝ} {load : ℝ → ℝ}
    (hD : ∀ b, 0 < b → (∀ x y, IntervalIntegrable (D b) volume x y) ∧
      ∀ t, s ≤ t → t ≤ tend → D b t + o.cv 0 * b ^ 2 * ∫ r in s..t, D b r = load t - load0) :
    o.column.Solves (fun i z => ∑ m ∈ range rs.length, o.am (tq rs co m) * o.zf (tq rs co m) i z) load load0 s tend (o.usol rs co D) := by
  refine ⟨fun i z t => ∑ m ∈ range rs.length, o.am (tq rs co m) * o.zd (tq rs co m) i z * D (rs.getD m 0) t,
    fun i z t => ∑ m ∈ range rs.length, o.am (tq rs co m) * (-(o.beta (rs.getD m 0) i ^ 2 * o.zf (tq rs co m) i z)) * D (rs.getD m 0) t,
    fun i hi z t => ⟨?_, ?_⟩, fun t => R.fits h hT D t, fun i hi z t h1 h2 => ?_⟩
  · exact HasDerivAt.fun_sum fun m _ => ((o.zf_deriv _ i z).const_mul _).mul_const _
  · exact HasDerivAt.fun_sum fun m _ => ((o.zd_deriv _ i z).const_mul _).mul_const _
  · have hi' : i < o.nl := hi
    have hint : ∀ m ∈ range rs.length, IntervalIntegrable (fun τ => o.column.kv i * (o.am (tq rs co m) *
        (-(o.beta (rs.getD m 0) i ^ 2 * o.zf (tq rs co m) i z)) * D (rs.getD m 0) τ)) volume s t := fun m hm =>
      (((hD _ (R.pos _ (getD_mem (mem_range.1 hm)))).1 s t).const_mul _).const_mul _
    have e : (fun τ => o.column.kv i * ∑ m ∈ range rs.length, o.am (tq rs co m) * (-(o.beta (rs.getD m 0) i ^ 2 * o.zf (tq rs co m) i z)) *
        D (rs.getD m 0) τ) = fun τ => ∑ m ∈ range rs.length, o.column.kv i * (o.am (tq rs co m) *
        (-(o.beta (rs.getD m 0) i ^ 2 * o.zf (tq rs co m) i z)) * D (rs.getD m 0) τ) := by
      funext τ; rw [mul_sum]
    refine ⟨?_, ?_⟩
    · rw [e]
      have := IntervalIntegrable.sum (μ := volume) (a := s) (b := t) (range rs.length) hint
      refine this.congr ?_
      intro τ hτ
      simp
    · rw [e, intervalIntegral.integral_finsetSum hint]
      unfold usol
      rw [mul_sum, ← sum_sub_distrib, mul_sum]
      refine sum_congr rfl fun m hm => ?_
      have hb := R.pos _ (getD_mem (mem_range.1 hm))
      rw [intervalIntegral.integral_const_mul, intervalIntegral.integral_const_mul]
      have hd := (hD _ hb).2 t h1 h2
      have hr := beta_rate h hb hi'
      have hm0 := (m_pos h hi').ne'
      show o.m i * _ = o.k i * _
      have hk : o.k i = o.cv i * o.m i := by unfold cv; field_simp
      rw [hk]
      generalize (∫ r in s..t, D (rs.getD m 0) r) = I at *
      linear_combination o.m i * o.am (tq rs co m) * o.zf (tq rs co m) i z * hd + o.m i * o.am (tq rs co m) * o.zf (tq rs co m) i z * I * hr
end

/-- What is computed at one depth. -/
theorem porAt_ok (h : o.Valid) {rs : List ℝ} {co : ℝ → ℕ → ℝ} {D : ℝ → ℝ → ℝ} {z t : ℝ} (hi : o.layerOf z < o.nl)
    (hD : ∀ b ∈ rs, ∀ i < o.nl, o.tm t i ⟨b, co b⟩ = .ok (D b t)) :
    o.porAt (rs.map fun b => Term.mk b (co b)) z t = .ok (o.usol rs co D (o.layerOf z) z t) := by
  unfold porAt
  rw [sumM_ok (g := fun q => o.am q * o.zf q (o.layerOf z) z * D q.b0 t)]
  · rw [sum_terms]; rfl
  · intro q hq
    obtain ⟨b, hb, rfl⟩ := List.mem_map.1 hq
    dsimp only
    rw [if_neg (not_le.2 hi), hD b hb _ hi]
    rfl

theorem settleAvp_ok (h : o.Valid) {rs : List ℝ} {co : ℝ → ℕ → ℝ} (hpos : ∀ b ∈ rs, 0 < b) {D : ℝ → ℝ → ℝ} {t q0 : ℝ}
    (hq0 : pinterpLeft o.load t = .ok q0) (hD : ∀ b ∈ rs, ∀ i < o.nl, o.tm t i ⟨b, co b⟩ = .ok (D b t)) :
    o.settleAvp (rs.map fun b => Term.mk b (co b)) t =
      .ok (o.column.total (fun i z => q0 - o.usol rs co D i z t), o.column.mean fun i z => o.usol rs co D i z t) := by
  have hn : 0 < o.nl := h.nl
  unfold settleAvp
  rw [hq0]
  have h1 : sumM (fun i => sumM (fun q => do
      let T ← o.tm t i q
      pure (o.m i * o.zint q i * T * o.am q)) (rs.map fun b => Term.mk b (co b))) (List.range o.nl) =
      .ok ((List.range o.nl).map fun i => ∑ m ∈ range rs.length, o.m i * o.zint (tq rs co m) i * D (rs.getD m 0) t * o.am (tq rs co m)).sum := by
    refine sumM_ok fun i hi => ?_
    rw [sumM_ok (g := fun q => o.m i * o.zint q i * D q.b0 t * o.am q)]
    · rw [sum_terms]; rfl
    · intro q hq
      obtain ⟨b, hb, rfl⟩ := List.mem_map.1 hq
      rw [hD b hb i (List.mem_range.1 hi)]
      rfl
  have h2 : sumM (fun i => sumM (fun q => do
      let T ← o.tm t i q
      pure (o.zint q i * T * o.am q)) (rs.map fun b => Term.mk b (co b))) (List.range o.nl) =
      .ok ((List.range o.nl).map fun i => ∑ m ∈ range rs.length, o.zint (tq rs co m) i * D (rs.getD m 0) t * o.am (tq rs co m)).sum := by
    refine sumM_ok fun i hi => ?_
    rw [sumM_ok (g := fun q => o.zint q i * D q.b0 t * o.am q)]
    · rw [sum_terms]; rfl
    · intro q hq
      obtain ⟨b, hb, rfl⟩ := List.mem_map.1 hq
      rw [hD b hb i (List.mem_range.1 hi)]
      rfl
  simp only [Bind.bind, Except.bind] at h1 h2 ⊢
  rw [h1, h2]
  simp only [pure, Except.pure]
  have hI : ∀ i < o.nl, ∫ z in o.column.depth i..o.column.depth (i + 1), o.usol rs co D i z t =
      ∑ m ∈ range rs.length, o.zint (tq rs co m) i * D (rs.getD m 0) t * o.am (tq rs co m) := fun i hi => by
    unfold usol
    rw [intervalIntegral.integral_finsetSum fun m _ => (((o.zf_cont _ i).const_mul _).mul_const _).intervalIntegrable _ _]
    refine sum_congr rfl fun m hm => ?_
    rw [intervalIntegral.integral_mul_const, intervalIntegral.integral_const_mul,
      o.zint_eq _ i (beta_pos h (hpos _ (getD_mem (mem_range.1 hm))) hi).ne']
    ring
  have hL : ∀ f : ℕ → ℝ, ((List.range o.nl).map f).sum = ∑ i ∈ range o.nl, f i := fun f => by
    rw [sum_map_getD 0]
    simp only [List.length_range]
    exact sum_congr rfl fun i hi => by simp [mem_range.1 hi]
  congr 2
  · rw [Spec.Column.total_sub (f := fun _ _ => q0) (g := fun i z => o.usol rs co D i z t) (fun i _ => continuous_const) (fun i _ => usol_cont o rs co D i t),
      Spec.Column.total_const, hL]
    congr 1
    · rw [mul_comm]; rfl
    · unfold Spec.Column.total
      refine sum_congr rfl fun i hi => ?_
      rw [hI i (mem_range.1 hi), mul_sum]
      exact sum_congr rfl fun m _ => by show _ = o.m i * _; ring
  · unfold Spec.Column.mean
    rw [hL]
    congr 1
    · exact sum_congr rfl fun i hi => (hI i (mem_range.1 hi)).symm
    · rw [zlayer_eq]; congr 1; show o.nl - 1 + 1 = o.nl; omega

end SS
end Geotecha.Consol
