import Verif.Speccon.OutLemmas
import Verif.Speccon.ExampleLoads

/-!
# Properties C74-C76: outputs of the sine series programs

`m` are the frequencies, `c j` the coefficient of `sin(m_j z)` at time `t`, `tops`/`bots` the boundary values as functions
of time (`BoundaryLoads`: the PolyLines and optional cosine factors handed in are these functions on `[s, tend]`).
-/

set_option linter.unusedVariables false
open Real intervalIntegral MeasureTheory Filter Topology
namespace Geotecha.Speccon
open Geotecha.Spec Geotecha.Piecewise

variable {s tend : ℝ} {b : Boundary} {tops bots : List ((ℝ → ℝ) × ℝ)}

/-! ## C74 dim1sin_f -/

/-- The output is the series plus the boundary values interpolated linearly over the depth. -/
theorem C74_value (m : List ℝ) (c : ℕ → ℝ) (hb : BoundaryLoads b s tend tops bots) (z t : ℝ) (hz0 : 0 ≤ z) (hz1 : z ≤ 1) (ht0 : s ≤ t)
    (ht1 : t ≤ tend) :
    dim1sinF m z t c b = .ok ((∑ j ∈ Finset.range m.length, c j * sin (m.getD j 0 * z)) + (1 - (1 - b.drn) * z) * total tops t
      + z * total bots t) := by
  unfold dim1sinF
  have e1 : outLoop (fun p => if b.drn = 1 then pinterp p t else pinterpMul p 1 0 t z) b.top b.topOm t =
      .ok ((1 - (1 - b.drn) * z) * total tops t) := by
    refine outLoop_ok hb.top ht0 ht1 (fun p v hv => ?_)
    rcases hb.drn with h | h
    · rw [if_neg (by omega), pinterpMul_ok hv hz0 hz1, h]
      congr 1; push_cast; ring
    · rw [if_pos h, hv, h]
      congr 1; push_cast; ring
  have e2 : outLoop (fun p => pinterpMul p 0 1 t z) b.bot b.botOm t = .ok (z * total bots t) := by
    refine outLoop_ok hb.bot ht0 ht1 (fun p v hv => ?_)
    rw [pinterpMul_ok hv hz0 hz1]
    congr 1; ring
  rw [e1, e2]
  simp only [Bind.bind, Except.bind, pure, Except.pure]
  congr 3
  refine Finset.sum_congr rfl (fun j _ => ?_)
  simp only [dim1sin, List.getD_cons_zero]
  ring_nf

/-- At the top the output is the prescribed boundary value, whatever the coefficients. -/
theorem C74_top (m : List ℝ) (c : ℕ → ℝ) (hb : BoundaryLoads b s tend tops bots) (t : ℝ) (ht0 : s ≤ t) (ht1 : t ≤ tend) :
    dim1sinF m 0 t c b = .ok (total tops t) := by
  rw [C74_value m c hb 0 t (le_refl _) zero_le_one ht0 ht1]
  simp

/-- At a pervious bottom (`drn = 0`) it is the prescribed bottom value; at an impervious one (`drn = 1`) its gradient
with depth is. -/
theorem C74_bottom (n : ℕ) (c : ℕ → ℝ) (m : List ℝ) (hm : (List.range n).mapM (fun i => mFromSinMx i b.drn) = .ok m)
    (hb : BoundaryLoads b s tend tops bots) (t : ℝ) (ht0 : s ≤ t) (ht1 : t ≤ tend) :
    (b.drn = 0 → dim1sinF m 1 t c b = .ok (total bots t)) ∧
    (b.drn = 1 → ∃ u : ℝ → ℝ, (∀ z, 0 ≤ z → z ≤ 1 → dim1sinF m z t c b = .ok (u z)) ∧ HasDerivAt u (total bots t) 1) := by
  have hme := (C32_distinct n b.drn hb.drn).1
  rw [hm] at hme
  injection hme with hme
  have hget : ∀ j, j < n → m.getD j 0 = π * ((j:ℝ) + 1 - b.drn/2) := by
    intro j hj; rw [hme]; simp [eigs, List.getD_eq_getElem?_getD, hj]
  have hlen : m.length = n := by rw [hme]; simp [eigs]
  constructor
  · intro h
    rw [C74_value m c hb 1 t zero_le_one (le_refl _) ht0 ht1, h]
    have : ∑ j ∈ Finset.range m.length, c j * sin (m.getD j 0 * 1) = 0 := by
      refine Finset.sum_eq_zero (fun j hj => ?_)
      rw [hget j (by rw [← hlen]; exact Finset.mem_range.1 hj), h]
      have : π * ((j:ℝ) + 1 - (0:ℤ) / 2) * 1 = ((j + 1 : ℕ) : ℝ) * π := by push_cast; ring
      rw [this, sin_nat_mul_pi, mul_zero]
    rw [this]
    congr 1; push_cast; ring
  · intro h
    refine ⟨_, fun z h0 h1 => C74_value m c hb z t h0 h1 ht0 ht1, ?_⟩
    have hd : HasDerivAt (fun z => (∑ j ∈ Finset.range m.length, c j * sin (m.getD j 0 * z)) + (1 - (1 - b.drn) * z) * total tops t
        + z * total bots t) ((∑ j ∈ Finset.range m.length, c j * (cos (m.getD j 0 * 1) * (m.getD j 0 * 1))) +
        (-((1 - b.drn) * 1)) * total tops t + 1 * total bots t) (1:ℝ) := by
      refine (HasDerivAt.add (HasDerivAt.add ?_ ?_) ?_)
      · exact HasDerivAt.fun_sum (fun j _ => (((hasDerivAt_id (1:ℝ)).const_mul (m.getD j 0)).sin).const_mul (c j))
      · exact (((hasDerivAt_id (1:ℝ)).const_mul (1 - (b.drn:ℝ))).const_sub 1).mul_const _
      · exact (hasDerivAt_id (1:ℝ)).mul_const _
    refine hd.congr_deriv ?_
    have : ∑ j ∈ Finset.range m.length, c j * (cos (m.getD j 0 * 1) * (m.getD j 0 * 1)) = 0 := by
      refine Finset.sum_eq_zero (fun j hj => ?_)
      rw [hget j (by rw [← hlen]; exact Finset.mem_range.1 hj), h]
      have : π * ((j:ℝ) + 1 - (1:ℤ) / 2) * 1 = (j : ℝ) * π + π / 2 := by push_cast; ring
      rw [this, cos_add_pi_div_two, sin_nat_mul_pi]
      ring
    rw [this, h]
    push_cast; ring

/-! ## C75 dim1sin_avgf -/

/-- The average between two depths times their distance is the integral of the pointwise output. -/
theorem C75_average (m : List ℝ) (hm : ∀ v ∈ m, v ≠ 0) (c : ℕ → ℝ) (hb : BoundaryLoads b s tend tops bots) (z1 z2 t : ℝ) (hz0 : 0 ≤ z1)
    (hz : z1 < z2) (hz1 : z2 ≤ 1) (ht0 : s ≤ t) (ht1 : t ≤ tend) :
    ∃ (u : ℝ → ℝ) (a : ℝ), (∀ z, 0 ≤ z → z ≤ 1 → dim1sinF m z t c b = .ok (u z)) ∧ dim1sinAvgF m z1 z2 t c b = .ok a ∧
      a * (z2 - z1) = ∫ z in z1..z2, u z := by
  refine ⟨_, (∑ j ∈ Finset.range m.length, dim1sinAvgBetween m [(z1, z2)] 0 j * c j)
    + (∫ z in z1..z2, (1 + (b.drn - 1 : ℝ) * z)) / (z2 - z1) * total tops t + (∫ z in z1..z2, z) / (z2 - z1) * total bots t,
    fun z h0 h1 => C74_value m c hb z t h0 h1 ht0 ht1, ?_, ?_⟩
  · unfold dim1sinAvgF
    have e1 : outLoop (fun p => if b.drn = 1 then pinterp p t else pavgMul p 1 0 t z1 z2) b.top b.topOm t =
        .ok ((∫ z in z1..z2, (1 + (b.drn - 1 : ℝ) * z)) / (z2 - z1) * total tops t) := by
      refine outLoop_ok hb.top ht0 ht1 (fun p v hv => ?_)
      rcases hb.drn with h | h
      · rw [if_neg (by omega), pavgMul_ok hv hz0 hz hz1, h]
        norm_num
      · rw [if_pos h, hv, h]
        have : ∫ z in z1..z2, (1 + ((1:ℤ) - 1 : ℝ) * z) = z2 - z1 := by norm_num
        rw [this, div_self (by linarith), one_mul]
    have e2 : outLoop (fun p => pavgMul p 0 1 t z1 z2) b.bot b.botOm t = .ok ((∫ z in z1..z2, z) / (z2 - z1) * total bots t) := by
      refine outLoop_ok hb.bot ht0 ht1 (fun p v hv => ?_)
      rw [pavgMul_ok hv hz0 hz hz1]
      norm_num
    rw [e1, e2]
    rfl
  · have hd : z2 - z1 ≠ 0 := by linarith
    have hs : ∀ j, j < m.length → dim1sinAvgBetween m [(z1, z2)] 0 j = (∫ x in z1..z2, sin (m.getD j 0 * x)) / (z2 - z1) := by
      intro j hj
      rw [C46_avg_between m [(z1, z2)] 0 j (by simp) hj (hm _ (List.getElem_mem _)), getD_m hj]
      rfl
    rw [Finset.sum_congr rfl (fun j hj => by rw [hs j (Finset.mem_range.1 hj)])]
    have i1 : ∀ j, IntervalIntegrable (fun z => c j * sin (m.getD j 0 * z)) volume z1 z2 := fun j =>
      Continuous.intervalIntegrable (by fun_prop) _ _
    have ei : ∫ z in z1..z2, ((∑ j ∈ Finset.range m.length, c j * sin (m.getD j 0 * z)) + (1 - (1 - b.drn : ℝ) * z) * total tops t
        + z * total bots t) = (∑ j ∈ Finset.range m.length, c j * ∫ z in z1..z2, sin (m.getD j 0 * z)) +
        (∫ z in z1..z2, (1 - (1 - b.drn : ℝ) * z)) * total tops t + (∫ z in z1..z2, z) * total bots t := by
      have j1 : Continuous (fun z : ℝ => ∑ j ∈ Finset.range m.length, c j * sin (m.getD j 0 * z)) := by fun_prop
      have j2 : Continuous (fun z : ℝ => (1 - (1 - b.drn : ℝ) * z) * total tops t) := by fun_prop
      have j3 : Continuous (fun z : ℝ => z * total bots t) := by fun_prop
      have j12 : Continuous (fun z : ℝ => (∑ j ∈ Finset.range m.length, c j * sin (m.getD j 0 * z)) +
        (1 - (1 - b.drn : ℝ) * z) * total tops t) := by fun_prop
      rw [intervalIntegral.integral_add (j12.intervalIntegrable _ _) (j3.intervalIntegrable _ _),
        intervalIntegral.integral_add (j1.intervalIntegrable _ _) (j2.intervalIntegrable _ _),
        intervalIntegral.integral_mul_const, intervalIntegral.integral_mul_const, intervalIntegral.integral_finsetSum (fun j _ => i1 j)]
      simp only [intervalIntegral.integral_const_mul]
    rw [ei, add_mul, add_mul, Finset.sum_mul]
    congr 1
    · congr 1
      · refine Finset.sum_congr rfl (fun j _ => ?_)
        field_simp
      · have : ∫ z in z1..z2, (1 + (b.drn - 1 : ℝ) * z) = ∫ z in z1..z2, (1 - (1 - b.drn : ℝ) * z) := by
          congr 1; funext z; ring
        rw [this]
        field_simp
    · field_simp

/-! ## C76 dim1sin_integrate_af and settlement -/

theorem profile_reads {S : Set ℝ} {a : PolyLine ℝ} {f : ℝ → ℝ} (ha : Profile S a f) {z1 z2 : ℝ} (h0 : 0 ≤ z1) (h12 : z1 ≤ z2) (h1 : z2 ≤ 1)
    {g : ℝ → ℝ} (hg : Continuous g) : IntervalIntegrable (fun z => f z * g z) volume z1 z2 := by
  have := ((Profile.bdd ha).mul (BddOn.of_continuous hg 0 1)).int zero_le_one
  refine this.mono_set ?_
  rw [Set.uIcc_of_le h12, Set.uIcc_of_le zero_le_one]
  exact Set.Icc_subset_Icc h0 h1

/-- The integral output is the integral of `a` times the pointwise output. -/
theorem C76_integrate (S : Set ℝ) (hS : TolSep S) (m : List ℝ) (hm : ∀ v ∈ m, v ≠ 0) (c : ℕ → ℝ) (hb : BoundaryLoads b s tend tops bots)
    (a : PolyLine ℝ) (f : ℝ → ℝ) (ha : Profile S a f) (z1 z2 t : ℝ) (hz0 : 0 ≤ z1)
    (hz : z1 < z2) (hz1 : z2 ≤ 1) (ht0 : s ≤ t) (ht1 : t ≤ tend) :
    ∃ u : ℝ → ℝ, (∀ z, 0 ≤ z → z ≤ 1 → dim1sinF m z t c b = .ok (u z)) ∧
      dim1sinIntegrateAf m z1 z2 t c b a = .ok (∫ z in z1..z2, f z * u z) := by
  refine ⟨_, fun z h0 h1 => C74_value m c hb z t h0 h1 ht0 ht1, ?_⟩
  obtain ⟨sg, hs, hl1, hl2, _, hl4⟩ := profile_line ha
  obtain ⟨q1, r1, p1⟩ := hl4 (fun _ => 1) 1 0 (fun x => by ring)
  obtain ⟨q0, r0, p0⟩ := hl4 (fun x => 1 - x) 1 (-1) (fun x => by ring)
  obtain ⟨qb, rb, pb⟩ := hl4 (fun x => x) 0 1 (fun x => by ring)
  unfold dim1sinIntegrateAf
  rw [hs]
  dsimp only [Bind.bind, Except.bind]
  have key : ∀ (F1 F2 : PolyLine ℝ → Except PyErr ℝ) (w1 w2 X : ℝ), outLoop F1 b.top b.topOm t = .ok w1 → outLoop F2 b.bot b.botOm t = .ok w2 →
      X + w1 + w2 = X + w1 + w2 → ((outLoop F1 b.top b.topOm t).bind fun x => (outLoop F2 b.bot b.botOm t).bind fun y =>
        Except.ok (X + x + y)) = (.ok (X + w1 + w2) : Except PyErr ℝ) := by
    intro F1 F2 w1 w2 X h1 h2 _; rw [h1, h2]; rfl
  refine (key _ _ ((∫ z in z1..z2, f z * (1 - (1 - b.drn : ℝ) * z)) * total tops t) ((∫ z in z1..z2, f z * z) * total bots t) _ ?_ ?_ rfl).trans ?_
  · refine outLoop_ok hb.top ht0 ht1 (fun p v hv => ?_)
    rcases hb.drn with h | h
    · rw [if_neg (by omega), r0, h]
      dsimp only
      rw [pintegrateMul_ok hS ha p0 hv hz0 hz hz1]
      norm_num
    · rw [if_pos h, r1, h]
      dsimp only
      rw [pintegrateMul_ok hS ha p1 hv hz0 hz hz1]
      norm_num
  · refine outLoop_ok hb.bot ht0 ht1 (fun p v hv => ?_)
    rw [rb]
    dsimp only
    rw [pintegrateMul_ok hS ha pb hv hz0 hz hz1]
  congr 1
  have hs : ∀ j, j < m.length → dim1sinALinearBetween m sg.y1 sg.y2 sg.x1 sg.x2 [(z1, z2)] 0 j = ∫ x in z1..z2, f x * sin (m.getD j 0 * x) := by
    intro j hj
    rw [C46_a_linear_between m _ _ _ _ [(z1, z2)] f hl1 hl2 0 j (by simp) hj (hm _ (List.getElem_mem _)) hz0 hz hz1, getD_m hj]
    rfl
  rw [Finset.sum_congr rfl (fun j hj => by rw [hs j (Finset.mem_range.1 hj)])]
  have ex : (fun z => f z * ((∑ j ∈ Finset.range m.length, c j * sin (m.getD j 0 * z)) + (1 - (1 - b.drn) * z) * total tops t
      + z * total bots t)) = fun z => (∑ j ∈ Finset.range m.length, (f z * sin (m.getD j 0 * z)) * c j)
        + (f z * (1 - (1 - b.drn) * z)) * total tops t + (f z * z) * total bots t := by
    funext z
    rw [mul_add, mul_add, Finset.mul_sum]
    congr 1
    · congr 1
      · exact Finset.sum_congr rfl (fun j _ => by ring)
      · ring
    · ring
  rw [ex]
  have i1 : ∀ j, IntervalIntegrable (fun z => (f z * sin (m.getD j 0 * z)) * c j) volume z1 z2 := fun j =>
    (profile_reads ha hz0 hz.le hz1 (by fun_prop)).mul_const _
  have i2 : IntervalIntegrable (fun z => (f z * (1 - (1 - b.drn : ℝ) * z)) * total tops t) volume z1 z2 :=
    (profile_reads ha hz0 hz.le hz1 (by fun_prop)).mul_const _
  have i3 : IntervalIntegrable (fun z => (f z * z) * total bots t) volume z1 z2 :=
    (profile_reads ha hz0 hz.le hz1 (by fun_prop)).mul_const _
  have i0 := IntervalIntegrable.sum (Finset.range m.length) (f := fun j z => (f z * sin (m.getD j 0 * z)) * c j) (fun j _ => i1 j)
  have i0' : IntervalIntegrable (fun z => ∑ j ∈ Finset.range m.length, (f z * sin (m.getD j 0 * z)) * c j) volume z1 z2 := by
    have e : (∑ j ∈ Finset.range m.length, fun z => (f z * sin (m.getD j 0 * z)) * c j) =
        fun z => ∑ j ∈ Finset.range m.length, (f z * sin (m.getD j 0 * z)) * c j := by
      funext z; simp
    rw [e] at i0
    exact i0
  rw [intervalIntegral.integral_add (i0'.add i2) i3, intervalIntegral.integral_add i0' i2, intervalIntegral.integral_finsetSum (fun j _ => i1 j)]
  simp only [intervalIntegral.integral_mul_const]

/-! ## The hypotheses are met -/

/-- Boundary values: at the top a constant and an oscillating one, at the impervious bottom a gradient. -/
noncomputable def Ex.boundary : Boundary := ⟨1, some [Ex.load, Ex.load], some [Ex.load], some [none, some (3, 1)], none⟩

theorem Ex.boundary_loads : BoundaryLoads Ex.boundary 0 5
    [(fun t => 100 * mult none t, 0), (fun t => 100 * mult (some (3, 1)) t, 0)] [(fun t => 100 * mult none t, 0)] :=
  ⟨Or.inr rfl, .cons (Ex.load_history _) (.cons (Ex.load_history _) .nil), .cons (Ex.load_history _) .nil⟩

/-- At the top the output is `100 + 100 cos(3 t + 1)`. -/
example (c : ℕ → ℝ) : dim1sinF [π / 2, 3 * π / 2] 0 2 c Ex.boundary = .ok (100 + 100 * cos (3 * 2 + 1)) := by
  rw [C74_top _ c Ex.boundary_loads 2 (by norm_num) (by norm_num)]
  norm_num [total, mult]

example (c : ℕ → ℝ) : ∃ m, (List.range 2).mapM (fun i => mFromSinMx i Ex.boundary.drn) = .ok m ∧
    ∃ u : ℝ → ℝ, (∀ z, 0 ≤ z → z ≤ 1 → dim1sinF m z 2 c Ex.boundary = .ok (u z)) ∧ HasDerivAt u 100 1 := by
  refine ⟨_, (C32_distinct 2 Ex.boundary.drn (Or.inr rfl)).1, ?_⟩
  have := (C74_bottom 2 c _ (C32_distinct 2 Ex.boundary.drn (Or.inr rfl)).1 Ex.boundary_loads 2 (by norm_num) (by norm_num)).2 rfl
  simpa [total, mult] using this

example (c : ℕ → ℝ) : ∃ (u : ℝ → ℝ) (a : ℝ), (∀ z, 0 ≤ z → z ≤ 1 → dim1sinF [π / 2, 3 * π / 2] z 2 c Ex.boundary = .ok (u z)) ∧
    dim1sinAvgF [π / 2, 3 * π / 2] (1/4) 1 2 c Ex.boundary = .ok a ∧ a * (1 - 1/4) = ∫ z in (1/4 : ℝ)..1, u z :=
  C75_average _ (by simp [pi_ne_zero]) c Ex.boundary_loads _ _ _ (by norm_num) (by norm_num) (by norm_num) (by norm_num) (by norm_num)

example (c : ℕ → ℝ) : ∃ u : ℝ → ℝ, (∀ z, 0 ≤ z → z ≤ 1 → dim1sinF [π / 2, 3 * π / 2] z 2 c Ex.boundary = .ok (u z)) ∧
    dim1sinIntegrateAf [π / 2, 3 * π / 2] (1/4) 1 2 c Ex.boundary Ex.layers = .ok (∫ z in (1/4 : ℝ)..1, Ex.layersF z * u z) :=
  C76_integrate _ Ex.depths_sep _ (by simp [pi_ne_zero]) c Ex.boundary_loads _ _ Ex.layers_profile _ _ _ (by norm_num) (by norm_num)
    (by norm_num) (by norm_num) (by norm_num)

end Geotecha.Speccon
