import Verif.Consol.SchiffmanOut
import Verif.Roots.PropsFixed

/-! # C131 - C134: schiffmanandstein1970 -/

set_option linter.unusedVariables false
open Real Finset MeasureTheory
namespace Geotecha.Consol
open Geotecha (PyErr)
open Geotecha.Piecewise Geotecha.Speccon
open Geotecha.Spec (polyLeft polyRight)
set_option autoImplicit false

/-! ## Bounds from the integral equation of a decaying term -/

theorem no_cross {f : ℝ → ℝ} {s T c : ℝ} (hf : Continuous f) (hsT : s ≤ T) (h0 : f s ≤ c)
    (h : ∀ a, s ≤ a → a ≤ T → f a ≤ c → (∀ x, a < x → x ≤ T → c < f x) → f T ≤ f a) : f T ≤ c := by
  set A : Set ℝ := {x | x ∈ Set.Icc s T ∧ f x ≤ c} with hA
  have hAc : IsCompact A := by
    have : A = Set.Icc s T ∩ {x | f x ≤ c} := rfl
    rw [this]
    exact isCompact_Icc.inter_right (isClosed_le hf continuous_const)
  have hne : A.Nonempty := ⟨s, ⟨le_refl _, hsT⟩, h0⟩
  have hm := hAc.sSup_mem hne
  refine (h (sSup A) hm.1.1 hm.1.2 hm.2 fun x hx hxT => ?_).trans hm.2
  by_contra hc
  exact absurd (le_csSup hAc.bddAbove (show x ∈ A from ⟨⟨hm.1.1.trans hx.le, hxT⟩, not_lt.1 hc⟩)) (not_le.2 hx)

theorem decay_bounds {D L : ℝ → ℝ} {s tend lam : ℝ} (hlam : 0 < lam) (hi : ∀ x y, IntervalIntegrable D volume x y)
    (heq : ∀ t, s ≤ t → t ≤ tend → D t + lam * ∫ r in s..t, D r = L t) (hL : ∀ a b, s ≤ a → a ≤ b → b ≤ tend → L a ≤ L b)
    (h0 : s ≤ tend → 0 ≤ L s) : (∀ t, s ≤ t → t ≤ tend → 0 ≤ D t ∧ D t ≤ L t) ∧ ∀ a b, s ≤ a → a ≤ b → b ≤ tend → D b - D a ≤ L b - L a := by
  have hc : Continuous fun t => ∫ r in s..t, D r := intervalIntegral.continuous_primitive hi s
  have hadd : ∀ a b, (∫ r in s..b, D r) - ∫ r in s..a, D r = ∫ r in a..b, D r := fun a b => by
    rw [sub_eq_iff_eq_add, add_comm, intervalIntegral.integral_add_adjacent_intervals (hi _ _) (hi _ _)]
  have hpos : ∀ t, s ≤ t → t ≤ tend → 0 ≤ D t := fun t h1 h2 => by
    have key := no_cross (f := fun t => lam * ∫ r in s..t, D r) (s := s) (T := t) (c := L t) (by fun_prop) h1
      (by simp; exact (h0 (h1.trans h2)).trans (hL s t le_rfl h1 h2)) fun a ha1 ha2 hac hx => by
        have : ∫ r in a..t, D r ≤ ∫ r in a..t, (0:ℝ) := by
          refine intervalIntegral.integral_mono_on_of_le_Ioo ha2 (hi _ _) (by simp) fun x hx' => ?_
          have e1 := heq x (ha1.trans hx'.1.le) (hx'.2.le.trans h2)
          have e2 := hx x hx'.1 hx'.2.le
          have e3 := hL x t (ha1.trans hx'.1.le) hx'.2.le h2
          linarith
        rw [intervalIntegral.integral_zero, ← hadd] at this
        nlinarith
    have := heq t h1 h2
    linarith
  refine ⟨fun t h1 h2 => ⟨hpos t h1 h2, ?_⟩, fun a b h1 h2 h3 => ?_⟩
  · have : 0 ≤ ∫ r in s..t, D r := intervalIntegral.integral_nonneg h1 fun x hx => hpos x hx.1 (hx.2.trans h2)
    have e := heq t h1 h2
    nlinarith
  · have : 0 ≤ ∫ r in a..b, D r := intervalIntegral.integral_nonneg h2 fun x hx => hpos x (h1.trans hx.1) (hx.2.trans h3)
    have ea := heq a h1 (h2.trans h3)
    have eb := heq b (h1.trans h2) h3
    rw [← hadd] at this
    nlinarith

namespace SS
variable {o : SS}

/-- At the roots of the characteristic equation the matrix has no entry that is small (below `1e-10`) without being zero. -/
def NoSmallEntries (o : SS) : Prop :=
  ∀ tp bt b, o.top = .ok tp → o.bot = .ok bt → 0 < b → o.charEqn tp bt b = 0 → o.NoTiny tp bt b

theorem Run.noTiny {r : Output} {rs : List ℝ} {co : ℝ → ℕ → ℝ} {tp bt : ℝ × ℝ} (R : Run o r rs co tp bt) (hT : o.NoSmallEntries) :
    ∀ b ∈ rs, o.NoTiny tp bt b := fun b hb => hT tp bt b R.top R.bot (R.pos b hb) (R.zero b hb)

/-- Everything about a result. -/
theorem core (h : o.Valid) {solve : ℝ → ℝ → ℝ → ℝ} (hs : o.SolverOk solve) (hT : o.NoSmallEntries) {x y : List ℝ}
    (hp : PolyLine.ofX_Y x y = .ok o.load) {s tend load0 : ℝ} {load : ℝ → ℝ} (hl : LoadHistory o.load none s tend load load0)
    (ht : ∀ t ∈ o.t, s ≤ t ∧ t ≤ tend) (htp : ∀ ts, o.tpor = some ts → ∀ t ∈ ts, s ≤ t ∧ t ≤ tend)
    (hz : ∀ z ∈ o.z, 0 ≤ z ∧ z ≤ o.column.depth o.column.N) {r : Output} (hE : o.Ends solve (.ok r)) :
    ∃ rs co tp bt D, Run o r rs co tp bt ∧
      (∀ b, 0 < b → (∀ x y, IntervalIntegrable (D b) volume x y) ∧
        ∀ t, s ≤ t → t ≤ tend → D b t + o.cv 0 * b ^ 2 * ∫ r in s..t, D b r = load t - load0) ∧
      r.por = o.tpor.map (fun ts => o.z.map fun z => ts.map fun t => o.usol rs co D (o.layerOf z) z t) ∧
      r.avp = o.t.map (fun t => o.column.mean fun i z => o.usol rs co D i z t) ∧
      r.set = o.t.map fun t => o.column.total fun i z => polyLeft (x.zip y) t - o.usol rs co D i z t := by
  obtain ⟨rs, co, tp, bt, R⟩ := unpack h hs hE
  obtain ⟨D, hD⟩ := tm_ok h hl
  refine ⟨rs, co, tp, bt, D, R, fun b hb => ⟨(hD b hb).1, (hD b hb).2.2⟩, ?_⟩
  have hout := R.out
  have hsa : (o.t.mapM fun t => o.settleAvp (rs.map fun b => Term.mk b (co b)) t) = .ok (o.t.map fun t =>
      (o.column.total (fun i z => polyLeft (x.zip y) t - o.usol rs co D i z t), o.column.mean fun i z => o.usol rs co D i z t)) :=
    mapM_mem_ok fun t htt => settleAvp_ok h R.pos (pinterpLeft_ok hp hl t)
      fun b hb i hi => (hD b (R.pos b hb)).2.1 _ t i hi (ht t htt).1 (ht t htt).2
  rw [hsa] at hout
  cases htpor : o.tpor with
  | none =>
    rw [htpor] at hout
    simp only [Bind.bind, Except.bind, pure, Except.pure, Except.ok.injEq] at hout
    rw [← hout]
    simp [List.map_map, Function.comp_def]
  | some ts =>
    have : (o.z.mapM fun z => ts.mapM fun t => o.porAt (rs.map fun b => Term.mk b (co b)) z t) =
        .ok (o.z.map fun z => ts.map fun t => o.usol rs co D (o.layerOf z) z t) := by
      refine mapM_mem_ok fun z hzz => mapM_mem_ok fun t htt => ?_
      obtain ⟨i, hi, h1, h2⟩ := layer_ex h (hz z hzz).1 (hz z hzz).2
      refine porAt_ok h ?_ fun b hb i hi => (hD b (R.pos b hb)).2.1 _ t i hi (htp ts htpor t htt).1 (htp ts htpor t htt).2
      rw [layerOf_eq h hi h1 h2]; exact hi
    rw [htpor] at hout
    simp only [Bind.bind, Except.bind] at hout
    rw [this] at hout
    simp only [pure, Except.pure, Except.ok.injEq] at hout
    rw [← hout]
    simp [List.map_map, Function.comp_def]

/-- At an interface both layers give the same. -/
theorem layer_any (h : o.Valid) {u uz : ℕ → ℝ → ℝ} (hf : o.column.Fits u uz) {z : ℝ} {i : ℕ} (hi : o.column.InLayer z i) :
    u (o.layerOf z) z = u i z := by
  obtain ⟨hi, h1, h2⟩ := hi
  have hi : i < o.nl := hi
  rcases h1.lt_or_eq with hlt | heq
  · rw [layerOf_eq h hi (Or.inl hlt) h2]
  · rcases Nat.eq_zero_or_pos i with rfl | hpos
    · have h0 : o.column.depth 0 = 0 := by simp [Spec.Column.depth]
      rw [layerOf_eq h hi (Or.inr ⟨rfl, by rw [← heq, h0]⟩) h2]
    · obtain ⟨j, rfl⟩ : ∃ j, i = j + 1 := ⟨i - 1, by omega⟩
      have hlt := depth_lt h (i := j) (j := j + 1) (by omega) (by omega)
      rw [layerOf_eq h (i := j) (by omega) (Or.inl (by rw [← heq]; exact hlt)) heq.symm.le, ← heq]
      exact hf.pressure j hi

/-- **C131**: `Z 0, Z 1, ...` are the modes that belong to the roots found, slowest first.  The pore pressures returned are those of a solution
`u` of the equations of the layered soil in which the part `S` of the load goes into the pore water; `S` is the best approximation of 1 by the
modes (what is missing is orthogonal to each of them). -/
theorem C131_solution_partial (o : SS) (h : o.Valid) (solve : ℝ → ℝ → ℝ → ℝ) (hs : o.SolverOk solve) (hT : o.NoSmallEntries) (x y : List ℝ)
    (hp : PolyLine.ofX_Y x y = .ok o.load) (s tend load0 : ℝ) (load : ℝ → ℝ) (hl : LoadHistory o.load none s tend load load0)
    (ht : ∀ t ∈ o.t, s ≤ t ∧ t ≤ tend) (htp : ∀ ts, o.tpor = some ts → ∀ t ∈ ts, s ≤ t ∧ t ≤ tend)
    (hz : ∀ z ∈ o.z, 0 ≤ z ∧ z ≤ o.column.depth o.column.N) (r : Output) (hE : o.Ends solve (.ok r)) :
    ∃ (lam : ℕ → ℝ) (Z Zd : ℕ → ℕ → ℝ → ℝ) (c : ℕ → ℝ) (S : ℕ → ℝ → ℝ) (u : ℕ → ℝ → ℝ → ℝ) (w : ℝ → ℝ → ℝ),
      (∀ m < o.n, 0 < lam m ∧ o.column.Mode (lam m) (Z m) (Zd m) ∧ ∀ j < m, lam j < lam m) ∧
      (∀ i z, S i z = ∑ m ∈ range o.n, c m * Z m i z) ∧ (∀ j < o.n, o.column.total (fun i z => (1 - S i z) * Z j i z) = 0) ∧
      o.column.Solves S load load0 s tend u ∧ (∀ z i t, o.column.InLayer z i → w z t = u i z t) ∧
      r.por = o.tpor.map fun ts => o.z.map fun z => ts.map fun t => w z t := by
  obtain ⟨rs, co, tp, bt, D, R, hD, hpor, havp, hset⟩ := core h hs hT hp hl ht htp hz hE
  have hT' := R.noTiny hT
  have hc := cv_pos h (i := 0) h.nl
  refine ⟨fun m => o.cv 0 * rs.getD m 0 ^ 2, fun m => o.zf (tq rs co m), fun m => o.zd (tq rs co m), fun m => o.am (tq rs co m),
    fun i z => ∑ m ∈ range rs.length, o.am (tq rs co m) * o.zf (tq rs co m) i z, o.usol rs co D,
    fun z t => o.usol rs co D (o.layerOf z) z t, ?_, ?_, ?_, R.solves h hT' hD, ?_, hpor⟩
  · intro m hm
    rw [← R.len] at hm
    have := R.pos _ (getD_mem hm)
    exact ⟨by positivity, R.mode h hT' hm, fun j hj => R.rate_lt h hj hm⟩
  · intro i z; rw [R.len]
  · intro j hj
    rw [← R.len] at hj
    have := Spec.Column.proj_orth (V := o.column) (n := rs.length) h.nl (fun m hm => R.mode h hT' hm) (R.rate_ne h) (fun m hm => R.sq_pos h hT' hm) hj
    rw [← this]
    refine Spec.Column.total_congr fun i _ z => ?_
    congr 2
    unfold Spec.Column.proj
    exact sum_congr rfl fun m hm => by rw [am_tq h R (mem_range.1 hm)]
  · intro z i t hi
    exact layer_any h (R.fits h hT' D t) hi

/-- **C132**: `avp` is the mean of the pore pressure of C131 over the depth, `set` the compression of the layers under the load just before `t`
less that pore pressure; both are what `por` would show. -/
theorem C132_average_settlement (o : SS) (h : o.Valid) (solve : ℝ → ℝ → ℝ → ℝ) (hs : o.SolverOk solve) (hT : o.NoSmallEntries) (x y : List ℝ)
    (hp : PolyLine.ofX_Y x y = .ok o.load) (s tend load0 : ℝ) (load : ℝ → ℝ) (hl : LoadHistory o.load none s tend load load0)
    (ht : ∀ t ∈ o.t, s ≤ t ∧ t ≤ tend) (htp : ∀ ts, o.tpor = some ts → ∀ t ∈ ts, s ≤ t ∧ t ≤ tend)
    (hz : ∀ z ∈ o.z, 0 ≤ z ∧ z ≤ o.column.depth o.column.N) (r : Output) (hE : o.Ends solve (.ok r)) :
    ∃ (u : ℕ → ℝ → ℝ → ℝ) (S : ℕ → ℝ → ℝ) (w : ℝ → ℝ → ℝ), o.column.Solves S load load0 s tend u ∧
      (∀ z i t, o.column.InLayer z i → w z t = u i z t) ∧ (r.por = o.tpor.map fun ts => o.z.map fun z => ts.map fun t => w z t) ∧
      r.avp = o.t.map (fun t => o.column.mean fun i z => u i z t) ∧
      r.set = o.t.map fun t => o.column.total fun i z => polyLeft (x.zip y) t - u i z t := by
  obtain ⟨rs, co, tp, bt, D, R, hD, hpor, havp, hset⟩ := core h hs hT hp hl ht htp hz hE
  have hT' := R.noTiny hT
  exact ⟨o.usol rs co D, _, _, R.solves h hT' hD, fun z i t hi => layer_any h (R.fits h hT' D t) hi, hpor, havp, hset⟩

theorem load_left {p : PolyLine ℝ} {x y : List ℝ} (hp : PolyLine.ofX_Y x y = .ok p) {s tend load0 : ℝ} {load : ℝ → ℝ}
    (hl : LoadHistory p none s tend load load0) {t : ℝ} (h1 : s ≤ t) (h2 : t ≤ tend) (hst : polyLeft (x.zip y) t = polyRight (x.zip y) t) :
    polyLeft (x.zip y) t = load t := by
  obtain ⟨hx, hy⟩ := getX_ofX_Y hp
  obtain ⟨T, P, hx', hy', hlen, hs, hr, m, hn', hspan, _, _, _, _, hh⟩ := hl.ex
  rw [hx] at hx'; rw [hy] at hy'
  cases hx'; cases hy'
  rw [hh t h1 h2, hst]; simp [mult]

/-- Settlement as a sum over the modes. -/
theorem settle_sum (h : o.Valid) {r : Output} {rs : List ℝ} {co : ℝ → ℕ → ℝ} {tp bt : ℝ × ℝ} (R : Run o r rs co tp bt) (D : ℝ → ℝ → ℝ) (q t : ℝ) :
    o.column.total (fun i z => q - o.usol rs co D i z t) = q * (∑ i ∈ range o.column.N, o.column.mv i * o.column.h i) -
      ∑ m ∈ range rs.length, o.column.total (o.zf (tq rs co m)) ^ 2 / o.column.total (fun i z => o.zf (tq rs co m) i z ^ 2) * D (rs.getD m 0) t := by
  rw [Spec.Column.total_sub (f := fun _ _ => q) (g := fun i z => o.usol rs co D i z t) (fun i _ => continuous_const)
    (fun i _ => usol_cont o rs co D i t), Spec.Column.total_const]
  congr 1
  unfold usol
  rw [Spec.Column.total_sum fun m _ i _ => ((o.zf_cont _ i).const_mul _).mul_const _]
  refine sum_congr rfl fun m hm => ?_
  have e : o.column.total (fun i z => o.am (tq rs co m) * o.zf (tq rs co m) i z * D (rs.getD m 0) t) =
      o.column.total (fun i z => (o.am (tq rs co m) * D (rs.getD m 0) t) * o.zf (tq rs co m) i z) :=
    Spec.Column.total_congr fun i _ z => by ring
  have e2 := am_tq h R (mem_range.1 hm)
  rw [e, Spec.Column.total_mul, e2]
  ring

/-- **C133**: under a load that never decreases the settlement never decreases and lies between that of the load before the start and that of the
load of the moment without any pore pressure (`set` at times at which the load does not jump). -/
theorem C133_settlement_monotone (o : SS) (h : o.Valid) (solve : ℝ → ℝ → ℝ → ℝ) (hs : o.SolverOk solve) (hT : o.NoSmallEntries) (x y : List ℝ)
    (hp : PolyLine.ofX_Y x y = .ok o.load) (s tend load0 : ℝ) (load : ℝ → ℝ) (hl : LoadHistory o.load none s tend load load0)
    (ht : ∀ t ∈ o.t, s ≤ t ∧ t ≤ tend) (htp : ∀ ts, o.tpor = some ts → ∀ t ∈ ts, s ≤ t ∧ t ≤ tend)
    (hz : ∀ z ∈ o.z, 0 ≤ z ∧ z ≤ o.column.depth o.column.N) (r : Output) (hE : o.Ends solve (.ok r))
    (hmono : ∀ a b, s ≤ a → a ≤ b → b ≤ tend → load0 ≤ load a ∧ load a ≤ load b) (W : ℝ)
    (hW : W = ∑ i ∈ range o.column.N, o.column.mv i * o.column.h i) :
    ∃ f : ℝ → ℝ, r.set = o.t.map f ∧ ∀ t1 t2, s ≤ t1 → t1 ≤ t2 → t2 ≤ tend →
      polyLeft (x.zip y) t1 = polyRight (x.zip y) t1 → polyLeft (x.zip y) t2 = polyRight (x.zip y) t2 →
      W * load0 ≤ f t1 ∧ f t1 ≤ f t2 ∧ f t2 ≤ W * load t2 := by
  obtain ⟨rs, co, tp, bt, D, R, hD, hpor, havp, hset⟩ := core h hs hT hp hl ht htp hz hE
  have hT' := R.noTiny hT
  refine ⟨_, hset, fun t1 t2 h1 h12 h2 hs1 hs2 => ?_⟩
  have hb := Spec.Column.bessel (V := o.column) (n := rs.length) h.nl (fun m hm => R.mode h hT' hm) (R.rate_ne h) (fun m hm => R.sq_pos h hT' hm)
    (fun i hi => (m_pos h hi).le) (fun i hi => (hh_pos h hi).le)
  rw [← hW] at hb
  have hc : ∀ m ∈ range rs.length, 0 ≤ o.column.total (o.zf (tq rs co m)) ^ 2 / o.column.total (fun i z => o.zf (tq rs co m) i z ^ 2) :=
    fun m hm => div_nonneg (sq_nonneg _) (R.sq_pos h hT' (mem_range.1 hm)).le
  have hcv := cv_pos h (i := 0) h.nl
  have hB := fun m (hm : m ∈ range rs.length) => by
    have hbp := R.pos _ (getD_mem (mem_range.1 hm))
    exact decay_bounds (s := s) (tend := tend) (show 0 < o.cv 0 * rs.getD m 0 ^ 2 by positivity) (hD _ hbp).1 (hD _ hbp).2
      (fun a b g1 g2 g3 => by linarith [(hmono a b g1 g2 g3).2]) (fun g => by linarith [(hmono s s le_rfl le_rfl g).1])
  rw [settle_sum h R, settle_sum h R, load_left hp hl h1 (h12.trans h2) hs1, load_left hp hl (h1.trans h12) h2 hs2, ← hW]
  set c : ℕ → ℝ := fun m => o.column.total (o.zf (tq rs co m)) ^ 2 / o.column.total (fun i z => o.zf (tq rs co m) i z ^ 2) with hcdef
  have hm1 := hmono t1 t2 h1 h12 h2
  refine ⟨?_, ?_, ?_⟩
  · have e : ∑ m ∈ range rs.length, c m * D (rs.getD m 0) t1 ≤ ∑ m ∈ range rs.length, c m * (load t1 - load0) :=
      sum_le_sum fun m hm => mul_le_mul_of_nonneg_left ((hB m hm).1 t1 h1 (h12.trans h2)).2 (hc m hm)
    rw [← sum_mul] at e
    have : (∑ m ∈ range rs.length, c m) * (load t1 - load0) ≤ W * (load t1 - load0) :=
      mul_le_mul_of_nonneg_right hb (by linarith [hm1.1])
    linarith
  · have e : ∑ m ∈ range rs.length, c m * (D (rs.getD m 0) t2 - D (rs.getD m 0) t1) ≤ ∑ m ∈ range rs.length, c m * (load t2 - load t1) :=
      sum_le_sum fun m hm => mul_le_mul_of_nonneg_left (by linarith [(hB m hm).2 t1 t2 h1 h12 h2]) (hc m hm)
    rw [← sum_mul] at e
    simp only [mul_sub, sum_sub_distrib] at e
    have : (∑ m ∈ range rs.length, c m) * (load t2 - load t1) ≤ W * (load t2 - load t1) :=
      mul_le_mul_of_nonneg_right hb (by linarith [hm1.2])
    linarith
  · have e : 0 ≤ ∑ m ∈ range rs.length, c m * D (rs.getD m 0) t2 :=
      sum_nonneg fun m hm => mul_nonneg (hc m hm) ((hB m hm).1 t2 (h1.trans h12) h2).1
    linarith

/-- **C134**: a mode of the soil that decays slower than `cv (0.1/H^2)^2` is never found.  Its share of the settlement appears at once, as soon as
the load comes, instead of with time. -/
theorem C134_missed (o : SS) (h : o.Valid) (solve : ℝ → ℝ → ℝ → ℝ) (hs : o.SolverOk solve) (hT : o.NoSmallEntries) (x y : List ℝ)
    (hp : PolyLine.ofX_Y x y = .ok o.load) (s tend load0 : ℝ) (load : ℝ → ℝ) (hl : LoadHistory o.load none s tend load load0)
    (ht : ∀ t ∈ o.t, s ≤ t ∧ t ≤ tend) (htp : ∀ ts, o.tpor = some ts → ∀ t ∈ ts, s ≤ t ∧ t ≤ tend)
    (hz : ∀ z ∈ o.z, 0 ≤ z ∧ z ≤ o.column.depth o.column.N) (r : Output) (hE : o.Ends solve (.ok r))
    (hmono : ∀ a b, s ≤ a → a ≤ b → b ≤ tend → load0 ≤ load a ∧ load a ≤ load b) (W : ℝ)
    (hW : W = ∑ i ∈ range o.column.N, o.column.mv i * o.column.h i)
    (lam : ℝ) (Y Yd : ℕ → ℝ → ℝ) (hY : o.column.Mode lam Y Yd) (hYp : 0 < o.column.total fun i z => Y i z ^ 2)
    (hlam : lam ≤ o.column.kv 0 / o.column.mv 0 * (0.1 / o.column.depth o.column.N ^ 2) ^ 2) :
    ∃ f : ℝ → ℝ, r.set = o.t.map f ∧ ∀ t, s ≤ t → t ≤ tend → polyLeft (x.zip y) t = polyRight (x.zip y) t →
      W * load0 + o.column.total Y ^ 2 / (o.column.total fun i z => Y i z ^ 2) * (load t - load0) ≤ f t := by
  obtain ⟨rs, co, tp, bt, D, R, hD, hpor, havp, hset⟩ := core h hs hT hp hl ht htp hz hE
  have hT' := R.noTiny hT
  refine ⟨_, hset, fun t1 h1 h2 hs1 => ?_⟩
  have hcv := cv_pos h (i := 0) h.nl
  have hH := zend_pos h
  have hdep : o.column.depth o.column.N = o.zlayer (o.nl - 1) := by
    have hn : 0 < o.nl := h.nl
    rw [zlayer_eq]; congr 1; show o.nl = _; omega
  have hlt : ∀ m < rs.length, lam < o.cv 0 * rs.getD m 0 ^ 2 := fun m hm => by
    have h1 := R.start _ (getD_mem hm)
    refine hlam.trans_lt ?_
    rw [hdep]
    show o.cv 0 * _ < _
    refine mul_lt_mul_of_pos_left ?_ hcv
    exact pow_lt_pow_left₀ h1 (by positivity) two_ne_zero
  have hb := Spec.Column.bessel (V := o.column) (n := rs.length + 1) (Z := fun m => if m = 0 then Y else o.zf (tq rs co (m - 1)))
    (Zd := fun m => if m = 0 then Yd else o.zd (tq rs co (m - 1))) (lam := fun m => if m = 0 then lam else o.cv 0 * rs.getD (m - 1) 0 ^ 2) h.nl
    (fun m hm => by
      by_cases h0 : m = 0
      · simp only [if_pos h0]; exact hY
      · simp only [if_neg h0]; exact R.mode h hT' (by omega))
    (fun m hm j hj hne => by
      by_cases h0 : m = 0
      · have hj0 : j ≠ 0 := by omega
        simp only [if_pos h0, if_neg hj0]
        exact (hlt _ (by omega)).ne
      · by_cases hj0 : j = 0
        · simp only [if_pos hj0, if_neg h0]
          exact (hlt _ (by omega)).ne'
        · simp only [if_neg h0, if_neg hj0]
          exact R.rate_ne h _ (by omega) _ (by omega) (by omega))
    (fun m hm => by
      by_cases h0 : m = 0
      · simp only [if_pos h0]; exact hYp
      · simp only [if_neg h0]; exact R.sq_pos h hT' (by omega))
    (fun i hi => (m_pos h hi).le) (fun i hi => (hh_pos h hi).le)
  rw [← hW, sum_range_succ'] at hb
  simp only [Nat.add_eq_zero_iff, one_ne_zero, and_false, if_false, Nat.add_sub_cancel, if_true] at hb
  have hc : ∀ m ∈ range rs.length, 0 ≤ o.column.total (o.zf (tq rs co m)) ^ 2 / o.column.total (fun i z => o.zf (tq rs co m) i z ^ 2) :=
    fun m hm => div_nonneg (sq_nonneg _) (R.sq_pos h hT' (mem_range.1 hm)).le
  have hB := fun m (hm : m ∈ range rs.length) => by
    have hbp := R.pos _ (getD_mem (mem_range.1 hm))
    exact decay_bounds (s := s) (tend := tend) (show 0 < o.cv 0 * rs.getD m 0 ^ 2 by positivity) (hD _ hbp).1 (hD _ hbp).2
      (fun a b g1 g2 g3 => by linarith [(hmono a b g1 g2 g3).2]) (fun g => by linarith [(hmono s s le_rfl le_rfl g).1])
  rw [settle_sum h R, load_left hp hl h1 h2 hs1, ← hW]
  set c : ℕ → ℝ := fun m => o.column.total (o.zf (tq rs co m)) ^ 2 / o.column.total (fun i z => o.zf (tq rs co m) i z ^ 2) with hcdef
  have hm1 := hmono t1 t1 h1 le_rfl h2
  have e : ∑ m ∈ range rs.length, c m * D (rs.getD m 0) t1 ≤ ∑ m ∈ range rs.length, c m * (load t1 - load0) :=
    sum_le_sum fun m hm => mul_le_mul_of_nonneg_left ((hB m hm).1 t1 h1 h2).2 (hc m hm)
  rw [← sum_mul] at e
  generalize o.column.total Y ^ 2 / (o.column.total fun i z => Y i z ^ 2) = cY at *
  have : (∑ m ∈ range rs.length, c m + cY) * (load t1 - load0) ≤ W * (load t1 - load0) :=
    mul_le_mul_of_nonneg_right hb (by linarith [hm1.1])
  linarith

end SS
end Geotecha.Consol
