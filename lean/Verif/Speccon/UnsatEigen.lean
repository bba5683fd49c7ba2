import Verif.Speccon.PropsUnsatOut

/-!
# Property C97: the eigenvalues of speccon1d_unsat; the hypotheses of C94-C97 are met; C94 and C96 fail in general
-/

set_option linter.unusedVariables false
open Real intervalIntegral MeasureTheory Filter Topology
namespace Geotecha.Speccon
open Geotecha.Spec Geotecha.Piecewise

variable {x : UnsatIn} {S : Set ℝ} {s tend : ℝ} {U : Unsat} {a : UnsatArrays}

/-- If water and air can flow at all depths, no eigenvalue is zero: no mode stays in the soil for ever. -/
theorem C97_eigenvalues (h : UnsatInput x S s tend U) (hM : a.Made x) (ν : ℝ) (hν : 0 < ν) (hw : ∀ z, 0 < z → z < 1 → ν ≤ U.water.cond z)
    (ha : ∀ z, 0 < z → z < 1 → ν ≤ U.air.cond z) : ∀ i, i < 2 * x.neig → a.eigs i ≠ 0 := by
  intro i hi hzero
  obtain ⟨hl, hget, hd, hne, hsc⟩ := unsat_m h hM.m
  obtain ⟨gam, psi, eg, ep, hE⟩ := hM.eig
  obtain ⟨p, ep', hp⟩ := unsat_psi h hd hl
  rw [ep'] at ep
  injection ep with ep
  subst ep
  have hl2 : (a.m ++ a.m).length = x.neig + x.neig := by rw [List.length_append, hl]
  rw [hl2] at hE
  have hi2 : i < x.neig + x.neig := by omega
  have key : ∀ (F : Fluid) (q : ℕ → ℕ → ℝ) (c : ℕ → ℝ) (pl kv : PolyLine ℝ) (k : ℝ) (P : PhaseIn), PhaseInput x P s tend F →
      (∃ f e, Profile S kv f ∧ Tendsto f (𝓝[<] 1) (𝓝 e) ∧ (∀ z, F.cond z = k * f z) ∧ F.condEnd = k * e) →
      (∀ z, 0 < z → z < 1 → ν ≤ F.cond z) →
      (∀ i j, i < x.neig → j < x.neig → x.dT * q i j = -psiForm (phG U F) (a.m.getD i 0) (a.m.getD j 0)) →
      (∀ r, r < x.neig → ∑ j ∈ Finset.range x.neig, q r j * c j = 0) → ∀ r, r < x.neig → c r = 0 := by
    intro F q c pl kv k P hP hk hF hq h0 r hr
    have hm0 : Profile S x.m2w U.m2w := h.m2w
    have lo := psi_lower (G := auxG U F U.m2w) (aux_input h hP h.m2w hk) (m := a.m) hM.m (p := fun i j => -q i j) (fun i j h1 h2 => by
      have := hq i j (by omega) (by omega)
      show x.dT * -q i j = _
      rw [mul_neg, this, neg_neg]; rfl) hν.le hF (η := 0) (fun z _ _ => le_rfl) (by simp [auxG]) c
    have hz : form a.m.length (fun i j => -q i j) c c = 0 := by
      unfold form
      refine Finset.sum_eq_zero fun i hi => ?_
      have := h0 i (by rw [← hl]; exact Finset.mem_range.1 hi)
      rw [hl]
      calc ∑ j ∈ Finset.range x.neig, c i * -q i j * c j = -c i * ∑ j ∈ Finset.range x.neig, q i j * c j := by
            rw [Finset.mul_sum]; exact Finset.sum_congr rfl fun j _ => by ring
        _ = 0 := by rw [this, mul_zero]
    rw [hz, mul_zero, add_zero] at lo
    have hpos : 0 < ν * (π / 2) ^ 2 / 2 := by have := pi_pos; positivity
    have s0 : ∑ i ∈ Finset.range a.m.length, c i ^ 2 ≤ 0 := by
      by_contra hc
      push Not at hc
      have := mul_pos hpos hc
      linarith
    have := Finset.single_le_sum (f := fun i => c i ^ 2) (fun i _ => sq_nonneg _) (Finset.mem_range.2 (show r < a.m.length by omega))
    have h2 : c r ^ 2 = 0 := le_antisymm (this.trans s0) (sq_nonneg _)
    exact pow_eq_zero_iff (two_ne_zero) |>.1 h2
  have rowsE : ∀ r, r < x.neig + x.neig → (∑ k ∈ Finset.range x.neig, p r k * a.v k i) + ∑ k ∈ Finset.range x.neig, p r (x.neig + k) * a.v (x.neig + k) i = 0 := by
    intro r hr
    have := hE.eig r i hr hi2
    rw [hzero, zero_mul, sum2] at this
    exact this
  have vW := key U.water p (fun k => a.v k i) x.m2w x.kw x.dTw x.water h.water h.kw hw (fun i j h1 h2 => (hp i j h1 h2).1) (fun r hr => by
    have := rowsE r (by omega)
    rw [Finset.sum_eq_zero (s := Finset.range x.neig) (f := fun k => p r (x.neig + k) * a.v (x.neig + k) i)
      (fun k hk => by rw [(hp r k hr (Finset.mem_range.1 hk)).2.1, zero_mul]), add_zero] at this
    exact this)
  have vA := key U.air (fun i j => p (x.neig + i) (x.neig + j)) (fun k => a.v (x.neig + k) i) x.m2w x.Da x.dTa x.air h.air h.Da ha
    (fun i j h1 h2 => (hp i j h1 h2).2.2.2) (fun r hr => by
    have := rowsE (x.neig + r) (by omega)
    rw [Finset.sum_eq_zero (s := Finset.range x.neig) (f := fun k => p (x.neig + r) k * a.v k i)
      (fun k hk => by rw [(hp r k hr (Finset.mem_range.1 hk)).2.2.1, zero_mul]), zero_add] at this
    exact this)
  obtain ⟨k, hk, hvk⟩ := hE.ne_zero hi2
  by_cases hkn : k < x.neig
  · exact hvk (vW k hkn)
  · have := vA (k - x.neig) (by omega)
    rw [show x.neig + (k - x.neig) = k from by omega] at this
    exact hvk this

/-! ## The hypotheses are met -/

/-- The value `c` at all depths. -/
noncomputable def Ex.const (c : ℝ) : PolyLine ℝ := ⟨some [(0, c), (1, c)], false, false, none⟩

theorem Ex.const_profile (c : ℝ) : Profile {0, 1/2, 1} (Ex.const c) (fun _ => c) := by
  refine ⟨_, rfl, ?_, ?_, ⟨by simp, by norm_num, by norm_num⟩, ?_, ?_, ?_⟩
  · simp only [PolyLine.getSegs, Ex.const, PolyLine.getX, PolyLine.getY, PolyLine.getXY, convertToSegs, pieces, toSegs4]
    have e : segs [(0:ℝ), 1] = [0] := rfl
    simp only [List.map_cons, List.map_nil, e]
    norm_num [List.filter, nth]
  · norm_num [SortedLe]
  · intro q hq; simp at hq; rcases hq with h | h <;> subst h <;> simp
  · intro q hq
    simp only [List.mem_cons, List.not_mem_nil, or_false] at hq
    rcases hq with h | h <;> subst h <;> simp [RealStep, firstAt, lastAt, List.find?]
  · intro z h0 h1 hz
    have b0 : ¬ z < 0 := by linarith
    simp only [polyLeft]
    rw [if_neg b0, if_pos ⟨by norm_num, h1.le⟩]; simp [line]

/-- One mode, `m1kw = 3`, `m2w = 2`, `m1ka = 4`, `m2a = 1`, half saturated, two layers of conductivity; a surcharge and a water pressure at the top. -/
noncomputable def Ex.unsatInput : UnsatIn where
  H := 10
  mvref := 1/2
  ua_ := 1
  drn := 0
  dT := 1
  neig := 1
  dTw := 1
  dTa := 2
  m1kw := Ex.const 3
  m1ka := Ex.const 4
  m2w := Ex.const 2
  m2a := Ex.const 1
  kw := Ex.layers
  Da := Ex.layers
  S := Ex.const (1/2)
  n := Ex.const 1
  surchargeDepth := some [Ex.layers]
  surchargeTime := some [Ex.load]
  surchargeOm := none
  water := ⟨some [Ex.load], none, none, none⟩
  air := ⟨none, none, none, none⟩
  impl := .vectorized

noncomputable def Ex.unsat : Unsat where
  drn := 0
  m1kw := fun _ => 3
  m2w := fun _ => 2
  m1ka := fun _ => 4
  m2a := fun _ => 1
  n := fun _ => 1
  S := fun _ => 1/2
  airRef := 1 * (1/2)
  surcharge := fun z _ => Ex.layersF z * 100
  surcharge0 := fun _ => 0
  water := ⟨fun z => 1 * Ex.layersF z, 1 * 2, fun _ => 100, 0, fun _ => 0, 0⟩
  air := ⟨fun z => 2 * Ex.layersF z, 2 * 2, fun _ => 0, 0, fun _ => 0, 0⟩

theorem Ex.layers_end : Tendsto Ex.layersF (𝓝[<] 1) (𝓝 2) := by
  refine tendsto_const_nhds.congr' ?_
  have : Set.Ioo (1/2:ℝ) 1 ∈ 𝓝[<] (1:ℝ) := Ioo_mem_nhdsLT (by norm_num)
  filter_upwards [this] with z hz
  exact (if_neg (by linarith [hz.1])).symm

theorem Ex.unsat_ok : UnsatInput Ex.unsatInput {0, 1/2, 1} 0 5 Ex.unsat where
  sep := Ex.depths_sep
  drn := Or.inl rfl
  drnU := rfl
  H := by norm_num [Ex.unsatInput]
  dT := one_ne_zero
  mvref := by norm_num [Ex.unsatInput]
  ua := one_ne_zero
  ref := rfl
  m1kw := Ex.const_profile 3
  m2w := Ex.const_profile 2
  m1ka := Ex.const_profile 4
  m2a := Ex.const_profile 1
  n := Ex.const_profile 1
  sat := Ex.const_profile (1/2)
  kw := ⟨_, 2, Ex.layers_profile, Ex.layers_end, fun z => rfl, rfl⟩
  Da := ⟨_, 2, Ex.layers_profile, Ex.layers_end, fun z => rfl, rfl⟩
  surcharge := ⟨[(Ex.layersF, fun t => 100 * mult none t, 0)], .cons ⟨Ex.layers_profile, Ex.load_history _⟩ .nil,
    fun z t => by simp [Ex.unsat, mult], fun z => by simp [Ex.unsat]⟩
  water := ⟨⟨[(fun t => 100 * mult none t, 0)], .cons (Ex.load_history _) .nil, fun t => by simp [Ex.unsat, total, mult], by simp [Ex.unsat, total0]⟩,
    (fun l e => by cases e), [], rfl, fun t => by simp [Ex.unsat, total], by simp [Ex.unsat, total0]⟩
  air := ⟨⟨[], rfl, fun t => by simp [Ex.unsat, total], by simp [Ex.unsat, total0]⟩,
    (fun l e => by cases e), [], rfl, fun t => by simp [Ex.unsat, total], by simp [Ex.unsat, total0]⟩

theorem gm_const (c : ℝ) : gm (fun _ => c) π π = c / 2 := by
  have e : gm (fun _ => c) π π = c * ∫ z in (0:ℝ)..1, sin (π * z) * sin (π * z) := by
    unfold gm
    rw [← intervalIntegral.integral_const_mul]
    congr 1; funext z; ring
  have := (orthogonal (Or.inl (rfl : (0:ℤ) = 0)) 0 0).1
  have f : freq 0 0 = π := by simp [freq]
  rw [f, if_pos rfl] at this
  rw [e, this]; ring

/-- Any input with these four coefficients and one mode. -/
theorem Ex.unsat_made {x : UnsatIn} {U : Unsat} (h : UnsatInput x S s tend U) (hn : x.neig = 1) (hdrn : U.drn = 0) (h1 : U.m1kw = fun _ => 3)
    (h2 : U.m2w = fun _ => 2) (h3 : U.m1ka = fun _ => 4) (h4 : U.m2a = fun _ => 1) (h5 : U.n = fun _ => 1) (h6 : U.S = fun _ => 1/2)
    (h7 : U.airRef = 1/2) : ∃ a : UnsatArrays, a.Made x := by
  have hm : x.m = .ok (eigs x.neig x.drn) := (C32_distinct x.neig x.drn h.drn).1
  obtain ⟨hl, hget, hd, hne, hsc⟩ := unsat_m h hm
  obtain ⟨g, eg, hg⟩ := unsat_gam h hd hl
  obtain ⟨p, ep, hp⟩ := unsat_psi h hd hl
  have w0 : (eigs x.neig x.drn).getD 0 0 = π := by rw [hget 0 (by omega), hdrn]; simp
  obtain ⟨g00, g01, g10, g11⟩ := hg 0 0 (by omega) (by omega)
  obtain ⟨p00, p01, p10, p11⟩ := hp 0 0 (by omega) (by omega)
  rw [w0] at g00 g01 g10 g11
  rw [hn] at g01 g10 g11 p01 p10 p11
  rw [h2, gm_const] at g00
  rw [h1, h2, gm_const, gm_const] at g01
  rw [h4, gm_const] at g10
  rw [h3, h4, h5, h6, h7, gm_const, gm_const, gm_const] at g11
  have q01 : p 0 1 = 0 := p01
  have q10 : p 1 0 = 0 := p10
  have k01 : g 0 1 = 3/2 - 2/2 := g01
  have k10 : g 1 0 = 1/2 := g10
  have k11 : g 1 1 = 4/2 - 1/2 - 1/2/(1/2) + (1/2 * 1)/2/(1/2) := g11
  have hgam : SPD 2 (chop g) := by
    have c00 : chop g 0 0 = 1 := by unfold chop; rw [g00]; norm_num
    have c01 : chop g 0 1 = 1/2 := by unfold chop; rw [k01]; norm_num
    have c10 : chop g 1 0 = 1/2 := by unfold chop; rw [k10]; norm_num
    have c11 : chop g 1 1 = 1 := by unfold chop; rw [k11]; norm_num
    constructor
    · intro i j hi hj
      interval_cases i <;> interval_cases j <;> simp [c01, c10]
    · rintro c ⟨i, hi, hc⟩
      simp only [form, Finset.sum_range_succ, Finset.sum_range_zero, c00, c01, c10, c11]
      have : 0 < c 0 ^ 2 + c 1 ^ 2 := by
        interval_cases i
        · have := sq_pos_of_ne_zero hc; positivity
        · have := sq_pos_of_ne_zero hc; positivity
      nlinarith [sq_nonneg (c 0 + c 1)]
  have hpsi : ∀ i j, i < 2 → j < 2 → p i j = p j i := by
    intro i j hi hj
    interval_cases i <;> interval_cases j <;> simp [q01, q10]
  obtain ⟨e, v, w, hE⟩ := eigen_exists hgam hpsi
  refine ⟨⟨_, e, v, w⟩, hm, chop g, p, eg, ep, ?_⟩
  have hl2 : (eigs x.neig x.drn ++ eigs x.neig x.drn).length = 2 := by rw [List.length_append, hl, hn]
  have hE' := hE
  rw [← hl2] at hE'
  exact hE'

theorem Ex.const_sub (c d : ℝ) : lineSub (Ex.const c) (Ex.const d) = .ok (Ex.const (c - d)) := by
  have hP : ∀ c : ℝ, ProperLine (([0, 1], [c, c]) : List ℝ × List ℝ) := fun c => ⟨rfl, 0, by simp, 1, by simp, one_pos⟩
  have hA : ∀ c : ℝ, Ascending (([0, 1], [c, c]) : List ℝ × List ℝ) ([0, 1], [c, c]) := fun c => Or.inl ⟨by simp, rfl⟩
  obtain ⟨oa, ma, sa, _⟩ := orient_eq (hP c) (hA c)
  obtain ⟨ob, mb, sb, _⟩ := orient_eq (hP d) (hA d)
  have hsep : Separated [(([0, 1], [c, c]) : List ℝ × List ℝ), ([0, 1], [d, d])] := by
    intro l hl m hm u hu v hv huv
    have hu' : u = 0 ∨ u = 1 := by
      simp only [List.mem_cons, List.not_mem_nil, or_false] at hl
      rcases hl with e | e <;> subst e <;> simpa using hu
    have hv' : v = 0 ∨ v = 1 := by
      simp only [List.mem_cons, List.not_mem_nil, or_false] at hm
      rcases hm with e | e <;> subst e <;> simpa using hv
    rcases hu' with e | e <;> rcases hv' with e' | e' <;> subst e e' <;> first | (exact absurd rfl huv) | norm_num
  obtain ⟨xs, hv, hxp, hxm⟩ := visit_all hsep
  have hxs : xs = [0, 1] := by
    have hmem : ∀ v, v ∈ xs ↔ v = 0 ∨ v = 1 := by intro v; rw [hxm]; simp
    match xs, hxp, hmem with
    | [], _, hm => exact absurd ((hm 0).2 (Or.inl rfl)) (by simp)
    | [u], _, hm =>
      have h0 := (hm 0).2 (Or.inl rfl)
      have h1 := (hm 1).2 (Or.inr rfl)
      simp at h0 h1
      rw [← h0] at h1; norm_num at h1
    | u :: v :: r, hp, hm =>
      have hu := (hm u).1 (by simp)
      have hvv := (hm v).1 (by simp)
      have huv : u < v := (List.pairwise_cons.1 hp).1 v (by simp)
      rcases hu with rfl | rfl <;> rcases hvv with rfl | rfl
      · exact absurd huv (lt_irrefl _)
      · cases r with
        | nil => rfl
        | cons w r =>
          have hw := (hm w).1 (by simp)
          have h1w : (1:ℝ) < w := (List.pairwise_cons.1 (List.pairwise_cons.1 hp).2).1 w (by simp)
          rcases hw with rfl | rfl <;> norm_num at h1w
      · norm_num at huv
      · exact absurd huv (lt_irrefl _)
  subst hxs
  have g1 : ∀ v : ℝ, v = 0 ∨ v = 1 → groupVals (sortRows (dataOf [(([0, 1], [c, c]) : List ℝ × List ℝ), ([0, 1], [d, d])])) 0 ([0, 1], [c, c]) v = .ok (c, c) := by
    intro v hv
    have e := groupVals_eq hsep (k := 0) (by simp) (v := v) ((hxm v).1 (by simpa using hv)) rfl sa (by simp)
    simp only [List.getElem_cons_zero] at e
    rw [e]
    rcases hv with rfl | rfl <;> simp [firstAt, lastAt]
  have g2 : ∀ v : ℝ, v = 0 ∨ v = 1 → groupVals (sortRows (dataOf [(([0, 1], [c, c]) : List ℝ × List ℝ), ([0, 1], [d, d])])) 1 ([0, 1], [d, d]) v = .ok (d, d) := by
    intro v hv
    have e := groupVals_eq hsep (k := 1) (by simp) (v := v) ((hxm v).1 (by simpa using hv)) rfl sb (by simp)
    simp only [List.getElem_cons_zero, List.getElem_cons_succ] at e
    rw [e]
    rcases hv with rfl | rfl <;> simp [firstAt, lastAt]
  have cl : ∀ c : ℝ, removeSuperfluous [(0:ℝ), 1] [c, c] (1/100000000) = .ok ([0, 1], [c, c]) := fun c => by simp [removeSuperfluous]
  have em : ∀ v : ℝ, emit v (c - d) (c - d) = [(v, c - d)] := by
    intro v
    unfold emit
    rw [if_neg]
    rw [sub_self, abs_zero]
    unfold polyAtol polyRtol
    have := abs_nonneg (c - d)
    push Not
    positivity
  simp only [lineSub, Ex.const, PolyLine.getXY, Bind.bind, Except.bind, List.map_cons, List.map_nil]
  unfold addSub
  simp only [ma, mb, and_self, not_true_eq_false, if_false, oa, ob, cl, Bind.bind, Except.bind, hv]
  simp [g1 0 (Or.inl rfl), g1 1 (Or.inr rfl), g2 0 (Or.inl rfl), g2 1 (Or.inr rfl), em, pure, Except.pure, PolyLine.ofXY, List.mapM_cons, Bind.bind, Except.bind]

theorem Ex.unsat_solved : ∃ a : UnsatArrays, a.Made Ex.unsatInput ∧ ∀ i, i < 2 * Ex.unsatInput.neig → a.eigs i ≠ 0 := by
  obtain ⟨a, hM⟩ := Ex.unsat_made Ex.unsat_ok rfl rfl rfl rfl rfl rfl rfl rfl (by norm_num [Ex.unsat])
  exact ⟨a, hM, C97_eigenvalues Ex.unsat_ok hM 1 one_pos (fun z _ _ => by simpa [Ex.unsat] using Ex.layersF_ge z)
    (fun z _ _ => by have := Ex.layersF_ge z; simp only [Ex.unsat]; linarith)⟩

/-- C94 on this input. -/
example : ∃ (a : UnsatArrays) (uw ua : ℝ → ℝ → ℝ), a.Made Ex.unsatInput ∧
    (∀ z t, 0 ≤ z → z ≤ 1 → 0 ≤ t → t ≤ 5 → Ex.unsatInput.porw a z t = .ok (uw z t) ∧ Ex.unsatInput.pora a z t = .ok (ua z t)) ∧
    ∀ t, uw 0 t = 100 ∧ ua 0 t = 0 ∧ ua 1 t = 0 := by
  obtain ⟨a, hM, h0⟩ := Ex.unsat_solved
  obtain ⟨A, C, uw, uwz, ua, uaz, p1, p2, p3, p4, p5, p6, p7⟩ := C94_weak_form_partial Ex.unsat_ok hM h0 (Or.inl rfl) (Or.inl one_ne_zero)
  exact ⟨a, uw, ua, hM, p1, fun t => ⟨(p5 t).1, (p6 t).1, (p6 t).2.1 rfl⟩⟩

/-- C95, C96 on this input. -/
example : ∃ (a : UnsatArrays) (uw ua : ℝ → ℝ), a.Made Ex.unsatInput ∧
    Ex.unsatInput.settle a (1/4) 1 2 = .ok (10 * (1/2) * ∫ z in (1/4 : ℝ)..1, ((3 * (Ex.layersF z * 100 - ua z) + 2 * (ua z - uw z))
      + (4 * (Ex.layersF z * 100 - ua z) + 1 * (ua z - uw z)))) := by
  obtain ⟨a, hM, h0⟩ := Ex.unsat_solved
  obtain ⟨uw, ua, mw, ma, r1, r2, r3, r4, r5, r6⟩ := C95_outputs_agree Ex.unsat_ok hM h0 _ _ (Ex.const_sub 2 3) (Ex.const_profile _) (Ex.const_sub 1 4)
    (Ex.const_profile _) (1/4) 1 2 (by norm_num) (by norm_num) (by norm_num) (by norm_num) (by norm_num)
    (fun l d h1 h2 => by cases h1; cases h2; exact ⟨rfl, rfl⟩) (fun h => by cases h)
  exact ⟨a, uw, ua, hM, r6⟩

/-! ## Where the code fails -/

/-- The same soil without surcharge, all four boundary pressures raised by 100. -/
noncomputable def Ex.unsatAll : UnsatIn :=
  { Ex.unsatInput with surchargeDepth := none, surchargeTime := none, water := ⟨some [Ex.load], none, some [Ex.load], none⟩,
                       air := ⟨some [Ex.load], none, some [Ex.load], none⟩ }

noncomputable def Ex.unsatAllU : Unsat :=
  { Ex.unsat with surcharge := fun _ _ => 0, surcharge0 := fun _ => 0,
                  water := ⟨fun z => 1 * Ex.layersF z, 1 * 2, fun _ => 100, 0, fun _ => 100, 0⟩,
                  air := ⟨fun z => 2 * Ex.layersF z, 2 * 2, fun _ => 100, 0, fun _ => 100, 0⟩ }

theorem Ex.unsatAll_ok : UnsatInput Ex.unsatAll {0, 1/2, 1} 0 5 Ex.unsatAllU where
  sep := Ex.depths_sep
  drn := Or.inl rfl
  drnU := rfl
  H := by norm_num [Ex.unsatAll, Ex.unsatInput]
  dT := one_ne_zero
  mvref := by norm_num [Ex.unsatAll, Ex.unsatInput]
  ua := one_ne_zero
  ref := rfl
  m1kw := Ex.const_profile 3
  m2w := Ex.const_profile 2
  m1ka := Ex.const_profile 4
  m2a := Ex.const_profile 1
  n := Ex.const_profile 1
  sat := Ex.const_profile (1/2)
  kw := ⟨_, 2, Ex.layers_profile, Ex.layers_end, fun z => rfl, rfl⟩
  Da := ⟨_, 2, Ex.layers_profile, Ex.layers_end, fun z => rfl, rfl⟩
  surcharge := ⟨fun z t => rfl, fun z => rfl⟩
  water := ⟨⟨[(fun t => 100 * mult none t, 0)], .cons (Ex.load_history _) .nil, fun t => by simp [Ex.unsatAllU, total, mult], by simp [Ex.unsatAllU, total0]⟩,
    (fun l e => by cases e; rfl), [(fun t => 100 * mult none t, 0)], .cons (Ex.load_history _) .nil,
    fun t => by simp [Ex.unsatAllU, Ex.unsatAll, Ex.unsatInput, total, mult], by simp [Ex.unsatAllU, total0]⟩
  air := ⟨⟨[(fun t => 100 * mult none t, 0)], .cons (Ex.load_history _) .nil, fun t => by simp [Ex.unsatAllU, total, mult], by simp [Ex.unsatAllU, total0]⟩,
    (fun l e => by cases e; rfl), [(fun t => 100 * mult none t, 0)], .cons (Ex.load_history _) .nil,
    fun t => by simp [Ex.unsatAllU, Ex.unsatAll, Ex.unsatInput, total, mult], by simp [Ex.unsatAllU, total0]⟩

theorem Ex.unsatAll_por {a : UnsatArrays} (hM : a.Made Ex.unsatAll) : ∀ z t, 0 ≤ z → z ≤ 1 → 0 ≤ t → t ≤ 5 →
    Ex.unsatAll.porw a z t = .ok 100 ∧ Ex.unsatAll.pora a z t = .ok 100 := by
    intro z t hz0 hz1 ht0 ht1
    have hE : ∀ i, Ex.unsatAll.E (Ex.unsatAll.basis a) i t = .ok 0 := by
      intro i
      have c2 : ¬ (Ex.unsatAll.air.top.isNone = true ∨ Ex.unsatAll.air.bot.isNone = true ∨ Ex.unsatAll.water.top.isNone = true
          ∨ Ex.unsatAll.water.bot.isNone = true) := by simp [Ex.unsatAll]
      unfold UnsatIn.E
      rw [if_neg c2]
      simp [UnsatIn.eSurcharge, aDmagDt, Ex.unsatAll, Bind.bind, Except.bind, pure, Except.pure]
    have hcol : Ex.unsatAll.column a t = .ok (fun _ => 0) := by
      unfold UnsatIn.column
      rw [mapM_range_ok (X := fun _ => 0) (fun i _ => hE i)]
      simp only [Bind.bind, Except.bind, pure, Except.pure]
      congr 1
      funext j
      unfold dotV
      refine Finset.sum_eq_zero fun k hk => ?_
      have hk' : k < (a.m ++ a.m).length := Finset.mem_range.1 hk
      have e0 : ∀ n k, (List.map (fun _ => (0:ℝ)) (List.range n)).getD k 0 = 0 := by
        intro n k
        rw [List.getD_eq_getElem?_getD]
        by_cases hk : k < n
        · simp [hk]
        · simp [hk]
      have e1 := e0 (a.m ++ a.m).length k
      exact (congrArg (a.v j k * ·) e1).trans (mul_zero _)
    have r := unsat_por Ex.unsatAll_ok hM (A := fun _ _ => 0) (C := fun _ _ => 0) ht0 ht1 hcol (fun j => rfl) (fun j => rfl) z hz0 hz1
    have e : ∀ F : Fluid, F.top t = 100 → F.bot t = 100 → series (phG Ex.unsatAllU F) Ex.unsatAll.neig (fun j => a.m.getD j 0) (fun _ _ => 0) z t = 100 := by
      intro F h1 h2
      simp [series, bTop, auxG, h1, h2, Ex.unsatAllU, Ex.unsat]
      ring
    rw [e _ rfl rfl, e _ rfl rfl] at r
    exact r

/-- All four boundary pressures given: at once the program reports the boundary pressure in the whole soil, although this needs a flow of water
out of or into the soil; the water balance is off by `600 / pi` (out of a volume change of `600 / pi`). -/
theorem C94_negation : ∃ (x : UnsatIn) (S : Set ℝ) (U : Unsat) (a : UnsatArrays), UnsatInput x S 0 5 U ∧ a.Made x ∧ (∀ i, i < 2 * x.neig → a.eigs i ≠ 0) ∧
    x.neig = 1 ∧ U.drn = 0 ∧ (∀ z t, 0 ≤ z → z ≤ 1 → 0 ≤ t → t ≤ 5 → x.porw a z t = .ok 100 ∧ x.pora a z t = .ok 100) ∧
    ∀ t, U.residualW 0 (fun _ _ => 100) (fun _ _ => 0) (fun _ _ => 100) (fun z => sin (π * z)) (fun z => π * cos (π * z)) t = 600 / π := by
  obtain ⟨a, hM⟩ := Ex.unsat_made Ex.unsatAll_ok rfl rfl rfl rfl rfl rfl rfl rfl (by norm_num [Ex.unsatAllU, Ex.unsat])
  have h0 := C97_eigenvalues Ex.unsatAll_ok hM 1 one_pos (fun z _ _ => by simpa [Ex.unsatAllU] using Ex.layersF_ge z)
    (fun z _ _ => by have := Ex.layersF_ge z; simp only [Ex.unsatAllU]; linarith)
  refine ⟨Ex.unsatAll, _, Ex.unsatAllU, a, Ex.unsatAll_ok, hM, h0, rfl, rfl, ?_, ?_⟩
  · exact Ex.unsatAll_por hM
  · intro t
    unfold Unsat.residualW
    have f : ∀ r, vflow Ex.unsatAllU.water.cond Ex.unsatAllU.water.condEnd (fun _ _ => 0) (fun z => sin (π * z)) (fun z => π * cos (π * z)) r = 0 := by
      intro r; simp [vflow]
    simp only [f, intervalIntegral.integral_zero, sub_zero]
    have e : (fun z => sin (π * z) * (Ex.unsatAllU.strainW (Ex.unsatAllU.surcharge0 z) (Ex.unsatAllU.water.initial Ex.unsatAllU.drn z)
        (Ex.unsatAllU.air.initial Ex.unsatAllU.drn z) z - Ex.unsatAllU.strainW (Ex.unsatAllU.surcharge z t) 100 100 z)) = fun z => 300 * sin (π * z) := by
      funext z
      simp [Unsat.strainW, Fluid.initial, Ex.unsatAllU, Ex.unsat]
      ring
    rw [e, intervalIntegral.integral_const_mul, intervalIntegral.integral_comp_mul_left (fun z => sin z) pi_ne_zero, integral_sin]
    simp
    field_simp
    norm_num

/-- `C94_all_given` on this input. -/
example : ∃ (a : UnsatArrays) (vw va : ℝ → ℝ → ℝ), a.Made Ex.unsatAll ∧ ∀ z t, 0 ≤ z → z ≤ 1 → 0 ≤ t → t ≤ 5 →
    Ex.unsatAll.porw a z t = .ok (vw z t + (1 - (1 - (0:ℤ)) * z) * 100 + z * 100) := by
  obtain ⟨a, hM⟩ := Ex.unsat_made Ex.unsatAll_ok rfl rfl rfl rfl rfl rfl rfl rfl (by norm_num [Ex.unsatAllU, Ex.unsat])
  have h0 := C97_eigenvalues Ex.unsatAll_ok hM 1 one_pos (fun z _ _ => by simpa [Ex.unsatAllU] using Ex.layersF_ge z)
    (fun z _ _ => by have := Ex.layersF_ge z; simp only [Ex.unsatAllU]; linarith)
  obtain ⟨A, C, vw, vwz, va, vaz, p1, p2, p3⟩ := C94_all_given Ex.unsatAll_ok hM h0 ⟨by simp [Ex.unsatAll], by simp [Ex.unsatAll], by simp [Ex.unsatAll],
    by simp [Ex.unsatAll]⟩ _ rfl
  exact ⟨a, vw, va, hM, fun z t h1 h2 h3 h4 => (p1 z t h1 h2 h3 h4).1⟩

/-- With the input of `C94_negation` and `m2a = 1` at all depths the two parts of the settlement are not the volume changes of water and air:
the reported pressures are 100, the strain of the water is `-300`, of the air `-400`, but `H mvref = 5` times `-400` and `-300` are reported. -/
theorem C96_negation : ∃ (x : UnsatIn) (S : Set ℝ) (U : Unsat) (a : UnsatArrays), UnsatInput x S 0 5 U ∧ a.Made x ∧ x.H * x.mvref = 5 ∧
    (∀ z t, 0 ≤ z → z ≤ 1 → 0 ≤ t → t ≤ 5 → x.porw a z t = .ok 100 ∧ x.pora a z t = .ok 100) ∧
    (∀ z t, U.strainW (U.surcharge z t) 100 100 z = -300 ∧ U.strainA (U.surcharge z t) 100 100 z = -400) ∧
    ∀ t, 0 ≤ t → t ≤ 5 → x.setw a 0 1 t = .ok (5 * (-400)) ∧ x.seta a 0 1 t = .ok (5 * (-300)) := by
  obtain ⟨a, hM⟩ := Ex.unsat_made Ex.unsatAll_ok rfl rfl rfl rfl rfl rfl rfl rfl (by norm_num [Ex.unsatAllU, Ex.unsat])
  have h0 := C97_eigenvalues Ex.unsatAll_ok hM 1 one_pos (fun z _ _ => by simpa [Ex.unsatAllU] using Ex.layersF_ge z)
    (fun z _ _ => by have := Ex.layersF_ge z; simp only [Ex.unsatAllU]; linarith)
  have st : ∀ z t, Ex.unsatAllU.strainW (Ex.unsatAllU.surcharge z t) 100 100 z = -300 ∧ Ex.unsatAllU.strainA (Ex.unsatAllU.surcharge z t) 100 100 z = -400 := by
    intro z t
    constructor
    · simp [Unsat.strainW, Ex.unsatAllU, Ex.unsat]; norm_num
    · simp [Unsat.strainA, Ex.unsatAllU, Ex.unsat]; norm_num
  have hH : Ex.unsatAll.H * Ex.unsatAll.mvref = 5 := by norm_num [Ex.unsatAll, Ex.unsatInput]
  refine ⟨Ex.unsatAll, _, Ex.unsatAllU, a, Ex.unsatAll_ok, hM, hH, Ex.unsatAll_por hM, st, fun t ht0 ht1 => ?_⟩
  obtain ⟨uw, ua, r1, r2, r3⟩ := C96_error Ex.unsatAll_ok hM h0 _ _ (Ex.const_sub 2 3) (Ex.const_profile _) (Ex.const_sub 1 4)
    (Ex.const_profile _) 0 1 t le_rfl one_pos le_rfl ht0 ht1 (fun l d h1 h2 => by cases h1) (fun h => rfl)
  have e : ∀ z, 0 ≤ z → z ≤ 1 → uw z = 100 ∧ ua z = 100 := by
    intro z h1 h2
    obtain ⟨a1, a2⟩ := r1 z h1 h2
    obtain ⟨b1, b2⟩ := Ex.unsatAll_por hM z t h1 h2 ht0 ht1
    rw [b1] at a1
    rw [b2] at a2
    injection a1 with a1
    injection a2 with a2
    exact ⟨a1.symm, a2.symm⟩
  have i1 : ∫ z in (0:ℝ)..1, Ex.unsatAllU.strainW (Ex.unsatAllU.surcharge z t) (uw z) (ua z) z = -300 := by
    have : ∫ z in (0:ℝ)..1, Ex.unsatAllU.strainW (Ex.unsatAllU.surcharge z t) (uw z) (ua z) z = ∫ z in (0:ℝ)..1, (-300:ℝ) :=
      integral_congr_Ioo' zero_le_one (fun z ha hb => by rw [(e z ha.le hb.le).1, (e z ha.le hb.le).2, (st z t).1])
    rw [this]; simp
  have i2 : ∫ z in (0:ℝ)..1, Ex.unsatAllU.strainA (Ex.unsatAllU.surcharge z t) (uw z) (ua z) z = -400 := by
    have : ∫ z in (0:ℝ)..1, Ex.unsatAllU.strainA (Ex.unsatAllU.surcharge z t) (uw z) (ua z) z = ∫ z in (0:ℝ)..1, (-400:ℝ) :=
      integral_congr_Ioo' zero_le_one (fun z ha hb => by rw [(e z ha.le hb.le).1, (e z ha.le hb.le).2, (st z t).2])
    rw [this]; simp
  have i3 : ∫ z in (0:ℝ)..1, Ex.unsatAllU.m2a z * uw z = 100 := by
    have : ∫ z in (0:ℝ)..1, Ex.unsatAllU.m2a z * uw z = ∫ z in (0:ℝ)..1, (100:ℝ) :=
      integral_congr_Ioo' zero_le_one (fun z ha hb => by rw [(e z ha.le hb.le).1]; simp [Ex.unsatAllU, Ex.unsat])
    rw [this]; simp
  rw [hH, i1, i3] at r2
  rw [hH, i2, i3] at r3
  rw [r2, r3]
  norm_num

end Geotecha.Speccon
