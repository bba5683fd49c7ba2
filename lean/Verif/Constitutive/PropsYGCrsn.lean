import Verif.Constitutive.PropsYG2
import Verif.Constitutive.PropsYGSim

/-! # C215: constant rate of strain; and cases that meet the hypotheses of C209-C215 -/

set_option autoImplicit false
set_option linter.unusedVariables false

namespace Geotecha.YG
open Geotecha.Spec Geotecha.Piecewise

/-- The stress is positive, and void ratio, stress and creep integral `I` satisfy the integrated equation of the soil. -/
def OnSurface (p : YGSoil) (e0 s0 e s I : ℝ) : Prop :=
  0 < s ∧ e = e0 - p.kap * Real.log (s / s0) - p.psi * Real.log (1 + I)

theorem sSteps_surface (p : Par) (h : p.soil.Good) (i : Init) (hi : i.Good p) (steps : List (ℝ × ℝ)) :
    ∀ (o o' : Obj) (ss : List ℝ), o.par = p → o.init = some i → 0 ≤ o.igral → 0 < o.estress → (∀ q ∈ steps, 0 < q.2) →
      sSteps o steps = .ok (ss, o') →
      ∃ Is : List ℝ, Is.length = steps.length ∧ ss.length = steps.length ∧ (o.igral :: Is).Pairwise (· < ·) ∧
        (∀ k (hk : k < steps.length), ∃ s I, ss[k]? = some s ∧ Is[k]? = some I ∧ OnSurface p.soil i.e0 i.s0 steps[k].1 s I) ∧
        (o.estress :: ss).getLast? = some o'.estress ∧ (o.igral :: Is).getLast? = some o'.igral := by
  induction steps with
  | nil =>
    intro o o' ss hp hin hI hes hpos hs
    cases hs
    exact ⟨[], rfl, rfl, by simp, by simp, rfl, rfl⟩
  | cons a r ih =>
    obtain ⟨e, dt⟩ := a
    intro o o' ss hp hin hI hes hpos hs
    have hdt : 0 < dt := hpos (e, dt) (by simp)
    simp only [sSteps] at hs
    cases h1 : stressFromE o e dt with
    | error er => rw [h1] at hs; cases hs
    | ok v =>
      obtain ⟨ret, o1⟩ := v
      rw [h1] at hs
      change (do let (ss, o2) ← sSteps o1 r; return (ret.read o1 :: ss, o2)) = _ at hs
      obtain ⟨c1, c2, c3, c4, c5, x, c6, c7, -⟩ := C211_state p h i hi o hp hin hI hes e dt hdt ret o1 h1
      have hinc := incOf_pos h hi hes c6 hdt
      cases h2 : sSteps o1 r with
      | error er => rw [h2] at hs; cases hs
      | ok v =>
        obtain ⟨ss1, o2⟩ := v
        rw [h2] at hs
        cases hs
        obtain ⟨Is, d1, d2, d3, d4, d5, d6⟩ := ih o1 o' ss1 c5 c4 (by rw [c7]; linarith) c2
          (fun q hq => hpos q (List.mem_cons_of_mem _ hq)) h2
        refine ⟨o1.igral :: Is, by simp [d1], by simp [d2], ?_, ?_, ?_, ?_⟩
        · rw [List.pairwise_cons]
          refine ⟨?_, d3⟩
          intro b hb
          have h3 : o.igral < o1.igral := by rw [c7]; linarith
          rcases List.mem_cons.1 hb with rfl | hb
          · exact h3
          · exact h3.trans ((List.pairwise_cons.1 d3).1 b hb)
        · intro k hk
          cases k with
          | zero =>
            refine ⟨ret.read o1, o1.igral, rfl, rfl, ?_⟩
            rw [c1]
            refine ⟨c2, ?_⟩
            simp only [List.getElem_cons_zero]
            rw [← c3, voidRatio, add_comm o1.igral 1]; rfl
          | succ k => exact d4 k (by simpa using hk)
        · rw [List.getLast?_cons_cons, c1]; exact d5
        · rw [List.getLast?_cons_cons]; exact d6

/-- What a simulation at a constant rate of strain does, in terms of the steps taken. -/
theorem crsn_eq (o : Obj) (i : Init) (hinit : o.init = some i) (tvals rates : List ℝ) (dx : Option ℝ) (minSeg : Option ℕ)
    (h2 : 2 ≤ tvals.length) (hl : tvals.length = rates.length) (hx : tvals.Pairwise (· < ·)) (r : ℝ) (hr : ∀ x ∈ rates, x = r)
    (hdx : ∀ d, dx = some d → d ≠ 0) (hm : ∀ m, minSeg = some m → 1 ≤ m) :
    ∃ a g l, tvals.head? = some a ∧ tvals.getLast? = some l ∧ (a :: g).getLast? = some l ∧ (a :: g).Pairwise (· < ·) ∧
      minSeg.getD 50 ≤ g.length ∧
      crsn o tvals rates dx minSeg = (do
        let (ss, o') ← sSteps o (rateSteps r i.e0 (a :: g))
        return (⟨a :: g, i.s0 :: ss, (a :: g).map fun t => i.e0 + r * (t - a),
          (a :: g).map fun t => Const.npInterp t (tvals.zip rates)⟩, restore o o')) := by
  obtain ⟨a, ha⟩ : ∃ a, tvals.head? = some a := by
    cases tvals with
    | nil => simp at h2
    | cons a r => exact ⟨a, rfl⟩
  obtain ⟨l, hll⟩ : ∃ a, tvals.getLast? = some a := by
    cases h : tvals.getLast? with
    | none => rw [List.getLast?_eq_none_iff] at h; subst h; simp at h2
    | some v => exact ⟨v, rfl⟩
  have hal : a < l := by
    cases tvals with
    | nil => simp at h2
    | cons c t =>
      cases t with
      | nil => simp at h2
      | cons b t =>
        simp at ha; subst ha
        rw [List.getLast?_cons_cons] at hll
        exact (List.pairwise_cons.1 hx).1 l (List.mem_of_getLast? hll)
  have hd : dx.getD ((l - a) / 200) ≠ 0 := by
    cases dx with
    | none => simp only [Option.getD_none]; exact (div_pos (sub_pos.2 hal) (by norm_num)).ne'
    | some d => exact hdx d rfl
  have hmm : 1 ≤ minSeg.getD 50 := by
    cases minSeg with
    | none => simp
    | some m => exact hm m rfl
  obtain ⟨grid, hg1, hg2, hg3, hg4, hg5⟩ := grid_props tvals h2 hx _ hd _ hmm
  have hz : tvals.zip rates ≠ [] := by
    cases tvals with
    | nil => simp at h2
    | cons c t =>
      cases rates with
      | nil => simp at hl
      | cons d u => simp
  cases grid with
  | nil => simp at hg5
  | cons c g =>
    rw [ha] at hg3
    simp only [List.head?_cons, Option.some.injEq] at hg3
    subst hg3
    refine ⟨c, g, l, ha, hll, by rw [hg4, hll], hg2, by simpa using hg5, ?_⟩
    simp only [crsn, ha, hll, Option.elim_some, hinit]
    change (do let grid ← subdivideX tvals _ _ none; _) = _
    rw [hg1]
    change (do let (ss, o') ← sSteps o _; return (Sim.mk _ _ _ _, restore o o')) = _
    rw [increments_const r tvals rates _ hz hr, rateSteps_eq, cumFrom_rate]

theorem rateSteps_dt (r : ℝ) (g : List ℝ) : ∀ s a, (a :: g).Pairwise (· < ·) → ∀ q ∈ rateSteps r s (a :: g), 0 < q.2 := by
  induction g with
  | nil => intro s a _ q hq; simp [rateSteps] at hq
  | cons b g ih =>
    intro s a hp q hq
    rw [List.pairwise_cons] at hp
    rw [rateSteps, List.mem_cons] at hq
    rcases hq with rfl | hq
    · have := hp.1 b (by simp); simp only; linarith
    · exact ih _ _ hp.2 q hq

theorem rateSteps_fst (r : ℝ) (g : List ℝ) : ∀ s a, (rateSteps r s (a :: g)).map Prod.fst = g.map fun t => s + r * (t - a) := by
  induction g with
  | nil => intro s a; rfl
  | cons b g ih =>
    intro s a
    rw [rateSteps, List.map_cons, ih, List.map_cons]
    congr 1
    exact List.map_congr_left fun t _ => by ring

/-- **C215, constant rate of strain.** On a new object, for times increasing from 0 and a constant rate `r` of the void ratio,
if `CRSN` by steps returns, the void ratios are `e0 + r t`, and there are creep integrals, starting from 0 and strictly
increasing, which with the returned stresses, all positive, satisfy the integrated equation of the soil at every time of
the grid.  The creep integral of the object is zero again afterwards; its stress is the last one returned. -/
theorem C215_constant_rate_of_strain (p : Par) (h : p.soil.Good) (i : Init) (hi : i.Good p) (o : Obj) (hp : o.par = p)
    (hinit : o.init = some i) (hI : o.igral = 0) (hA : o.igralArr = false) (hes : o.estress = i.s0) (tvals rates : List ℝ)
    (dx : Option ℝ) (minSeg : Option ℕ) (h2 : 2 ≤ tvals.length) (hl : tvals.length = rates.length) (hx : tvals.Pairwise (· < ·))
    (h0 : tvals.head? = some 0) (T : ℝ) (hT : tvals.getLast? = some T) (r : ℝ) (hr : ∀ x ∈ rates, x = r)
    (hdx : ∀ d, dx = some d → d ≠ 0) (hm : ∀ m, minSeg = some m → 1 ≤ m) (sim : Sim) (o' : Obj)
    (hc : crsn o tvals rates dx minSeg = .ok (sim, o')) :
    sim.t.head? = some 0 ∧ sim.t.getLast? = some T ∧ minSeg.getD 50 + 1 ≤ sim.t.length ∧ sim.t.Pairwise (· < ·) ∧
      sim.e = sim.t.map (fun t => i.e0 + r * t) ∧ sim.estress.head? = some i.s0 ∧ sim.estress.length = sim.t.length ∧
      (∃ Is : List ℝ, Is.length = sim.t.length ∧ Is.head? = some 0 ∧ Is.Pairwise (· < ·) ∧
        ∀ k < sim.t.length, ∃ e s I, sim.e[k]? = some e ∧ sim.estress[k]? = some s ∧ Is[k]? = some I ∧
          OnSurface p.soil i.e0 i.s0 e s I) ∧
      o'.igral = 0 ∧ sim.estress.getLast? = some o'.estress := by
  obtain ⟨a, g, l, ha, hl1, hl2, hpw, hlen, hcr⟩ := crsn_eq o i hinit tvals rates dx minSeg h2 hl hx r hr hdx hm
  rw [h0] at ha
  cases ha
  rw [hT] at hl1
  cases hl1
  rw [hc] at hcr
  cases he : sSteps o (rateSteps r i.e0 (0 :: g)) with
  | error e => rw [he] at hcr; cases hcr
  | ok v =>
    obtain ⟨ss, o1⟩ := v
    rw [he] at hcr
    cases hcr
    obtain ⟨Is, d1, d2, d3, d4, d5, d6⟩ := sSteps_surface p h i hi _ o o1 ss hp hinit hI.ge (by rw [hes]; exact hi.s0)
      (rateSteps_dt r g _ _ hpw) he
    have hrl : (rateSteps r i.e0 (0 :: g)).length = g.length := by
      rw [← List.length_map (f := Prod.fst), rateSteps_fst, List.length_map]
    rw [hI] at d3
    rw [hes] at d5
    refine ⟨rfl, hl2, by simpa using hlen, hpw, by simp, rfl, by simp [d2, hrl], ⟨0 :: Is, by simp [d1, hrl], rfl, d3, ?_⟩, ?_, ?_⟩
    · intro k hk
      cases k with
      | zero =>
        refine ⟨i.e0 + r * (0 - 0), i.s0, 0, rfl, rfl, rfl, hi.s0, ?_⟩
        rw [div_self hi.s0.ne']; simp
      | succ k =>
        simp only [List.length_cons, Nat.add_lt_add_iff_right] at hk
        obtain ⟨s, I, e1, e2, e3⟩ := d4 k (by rw [hrl]; exact hk)
        refine ⟨_, s, I, ?_, by simpa using e1, by simpa using e2, e3⟩
        have hf := congrArg (fun l => l[k]?) (rateSteps_fst r g i.e0 0)
        simp only [List.getElem?_map] at hf
        rw [List.getElem?_eq_getElem (by rw [hrl]; exact hk)] at hf
        simp only [List.map_cons, List.getElem?_cons_succ, List.getElem?_map]
        exact hf.symm
    · simp only [restore, hA, hI]; rfl
    · simp only [restore, hA]; exact d5

/-- **C215, one law behind both solvers.** The differential equations given to `odeint` by `CRSS` and by `CRSN` are the same
law: at a moment where stress and void ratio have derivatives, the void ratio rate is the one of `CRSS` for the stress
rate exactly if the stress rate is the one of `CRSN` for the void ratio rate. -/
theorem C215_same_law (p : Par) (h : p.soil.Good) (s e s' e' : ℝ) (hs : 0 < s) :
    e' = crssRhs p s' s e ↔ s' = crsnRhs p e' e s := by
  have hk : p.kap ≠ 0 := ne_of_gt h.kap
  unfold crssRhs crsnRhs
  constructor
  · intro he
    rw [he]
    field_simp
    ring
  · intro hs'
    rw [hs']
    field_simp
    ring

/-! ### Cases that meet the hypotheses -/

theorem cyc_steps : Steps cycInit.s0 [(2, 1), (3, 1/2), (3/2, 1)] := by
  simp only [Steps, cycInit]; norm_num

example : ∃ es o', eSteps cycObj [(2, 1), (3, 1/2), (3/2, 1)] = .ok (es, o') ∧
    (∃ E, Follows cycSoil.soil cycInit.s0 [(2, 1), (3, 1/2), (3/2, 1)] cycInit.e0 E) := by
  obtain ⟨es, o', h1, h2, -⟩ := C209_exact_solution cycSoil cycSoil_good cycInit cycInit_good cycObj rfl rfl rfl rfl _ cyc_steps
  exact ⟨es, o', h1, h2⟩

example : ∃ e1 o1 e o2 o3, eFromStress cycObj (cycObj.estress + 1 * ((3 - cycObj.estress) / 4)) (some 1) none = .ok (e1, o1) ∧
    eFromStress o1 3 (some (4 - 1)) none = .ok (e, o2) ∧ eFromStress cycObj 3 (some 4) none = .ok (e, o3) := by
  obtain ⟨e1, o1, e, o2, o3, a, b, c, -⟩ := C209_subdivision cycSoil cycSoil_good cycInit cycInit_good cycObj rfl rfl 3 4 1
    (by norm_num) (by norm_num [cycObj]) (by norm_num [cycObj]) (by norm_num) (by norm_num) (by norm_num)
  exact ⟨e1, o1, e, o2, o3, a, b, c⟩

example : ∃ e o1 e' o2, eFromStress cycObj 3 (some 4) none = .ok (e, o1) ∧ eFromStress cycObj 3 (some 5) none = .ok (e', o2) ∧ e' < e :=
  C209_longer_is_denser cycSoil cycSoil_good cycInit cycInit_good cycObj rfl rfl le_rfl 3 4 5 (by norm_num) (by norm_num [cycObj])
    (by norm_num [cycObj]) (by norm_num) (by norm_num)

/-- Three calls at the present stress, one of them with a time increment of zero. -/
example : ∃ es o', eSteps cycObj ([0, 1, 1000].map fun d => (cycObj.estress, d)) = .ok (es, o') ∧ o'.igral = 3 := by
  obtain ⟨es, o', h1, h2, -⟩ := C210_hold_counts_calls cycObj cycInit rfl [0, 1, 1000]
  refine ⟨es, o', h1, ?_⟩
  rw [h2]; norm_num [cycObj, cycInit]

/-- Holding the initial stress for the time 5 should give `10 - log 6`; the value returned is larger. -/
example : ∃ e o', eFromStress cycObj 1 (some 5) none = .ok (e, o') ∧ e ≠ 10 - Real.log (1 + 5) ∧ ¬ e < 10 - Real.log (1 + 5) := by
  obtain ⟨e, o', h1, h2, h3⟩ := C210_hold_wrong cycSoil cycSoil_good cycInit cycInit_good cycObj rfl rfl le_rfl
    (by norm_num [cycObj]) 5 (by norm_num) (fun t => 10 - Real.log (1 + t))
    (by simp [voidRatio, cycObj, cycInit, cycSoil])
    (by
      refine ContinuousOn.sub continuousOn_const (ContinuousOn.log (by fun_prop) ?_)
      intro t ht; have := ht.1; positivity)
    (by
      intro t ht
      have h1 : (0:ℝ) < 1 + t := by linarith [ht.1]
      refine ⟨0, hasDerivAt_const _ _, ?_⟩
      refine ((((hasDerivAt_id t).const_add 1).log h1.ne').const_sub 10).congr_deriv ?_
      simp only [Par.soil, cycSoil, cycObj]
      norm_num
      rw [Real.exp_neg, Real.exp_log h1])
  refine ⟨e, o', h1, ?_, ?_⟩
  · rw [Ne, h2]; simp only [cycObj, cycInit]; norm_num
  · rw [h3]; simp only [cycObj, cycInit]; norm_num

/-- The state of C211_false_answer meets the hypotheses of the other theorems on `stress_from_e`. -/
theorem cyc_call : ∃ r o', stressFromE cycObj (10 - Real.log 4) (3/7) = .ok (r, o') ∧ 0 < o'.estress := by
  have i1 : incOf cycSoil cycInit 1 1 (3/7) = 1 := by rw [incOf, if_pos rfl]; simp [cycInit]
  have i2 : incOf cycSoil cycInit 1 2 (3/7) = 1 := by rw [cyc_inc 2 (by norm_num)]; norm_num
  have hf : ∀ x, incOf cycSoil cycInit 1 x (3/7) = 1 → fpFun cycObj cycInit (10 - Real.log 4) (3/7) x = 2 := by
    intro x hx
    simp only [fpFun, cycObj, add_zero, hx]
    simp only [cycSoil, cycInit]
    rw [show ((-(1 * Real.log (1 + 1)) + 10 - (10 - Real.log 4)) / 1 : ℝ) = Real.log 4 - Real.log (1 + 1) by ring, Real.exp_sub,
      Real.exp_log (by norm_num), Real.exp_log (by norm_num)]
    norm_num
  have f1 := hf 1 i1
  have f2 := hf 2 i2
  have hfix : fixedPoint (fpFun cycObj cycInit (10 - Real.log 4) (3/7)) 500 cycObj.estress = some 2 := by
    have he : cycObj.estress = 1 := rfl
    rw [he, fixedPoint]
    simp only [f1, f2]
    rw [if_neg (by norm_num), fixedPoint]
    simp only [f2]
    rw [if_pos (by norm_num)]
  have hs : ∃ r o', stressFromE cycObj (10 - Real.log 4) (3/7) = .ok (r, o') := by
    have hin : cycObj.init = some cycInit := rfl
    simp only [stressFromE, hin, hfix]
    exact ⟨_, _, rfl⟩
  obtain ⟨r, o', hr⟩ := hs
  exact ⟨r, o', hr, (C211_state cycSoil cycSoil_good cycInit cycInit_good cycObj rfl rfl le_rfl (by norm_num [cycObj]) _ _
    (by norm_num) r o' hr).2.1⟩

/-- A loading simulation. -/
example : ∃ sim o', crss cycObj [0, 2] [3, 3] none none = .ok (sim, o') ∧ sim.t.getLast? = some 2 ∧ 51 ≤ sim.t.length ∧
    sim.estress = sim.t.map (fun t => 1 + 3 * t) := by
  obtain ⟨sim, o', h1, h2, h3, h4, h5, -⟩ := C212_constant_rate cycSoil cycSoil_good cycInit cycInit_good cycObj rfl rfl rfl rfl [0, 2] [3, 3]
    none none (by simp) rfl (by simp) rfl 2 rfl 3 (by norm_num) (by simp) (by norm_num [cycInit]) (by simp) (by simp)
  exact ⟨sim, o', h1, h3, by simpa using h4, h5⟩

/-- Loading, and the slope at the start of it. -/
example : ∃ av, avFromStress cycObj 1 (some 1) = .ok av ∧ av = 2 := by
  refine ⟨_, rfl, ?_⟩
  have ha : cycSoil.alpha = 2 := by simp only [Par.alpha, cycSoil]; norm_num
  simp only [cycObj, cycInit, ha]
  simp only [cycSoil]
  norm_num

example : ∃ av av0, ∃ creep : ℝ, avFromStress cycObj 1 (some 1) = .ok av ∧ avFromStress cycObj 1 none = .ok av0 ∧ 0 < creep ∧ av0 ≤ av := by
  obtain ⟨av, av0, creep, h1, h2, h3, -, -, h4⟩ := C213_slope cycSoil cycSoil_good cycInit cycInit_good cycObj rfl rfl le_rfl
    (fun u => 1 + u) (fun u => 10 - 2 * u) 0 1 (by norm_num) (((hasDerivAt_id (0:ℝ)).const_add 1))
    (by simp [voidRatio, cycInit, cycObj])
    ⟨1, (hasDerivAt_id (0:ℝ)).const_add 1, (((hasDerivAt_id (0:ℝ)).const_mul 2).const_sub 10).congr_deriv (by
      simp only [Par.soil, cycSoil]; norm_num)⟩
  simp only [add_zero] at h1 h2
  exact ⟨av, av0, creep, h1, h2, h3, h4⟩

theorem eSteps_total (i : Init) (steps : List (ℝ × ℝ)) : ∀ o : Obj, o.init = some i → ∃ es o', eSteps o steps = .ok (es, o') := by
  induction steps with
  | nil => intro o _; exact ⟨[], o, rfl⟩
  | cons a r ih =>
    obtain ⟨s, dt⟩ := a
    intro o hi
    obtain ⟨es, o', h⟩ := ih (o.advance (incOf o.par i o.estress s dt) s) hi
    refine ⟨voidRatio o.par i (o.igral + incOf o.par i o.estress s dt) s :: es, o', ?_⟩
    simp only [eSteps, eFromStress_ok o i hi]
    change (do let (es, o2) ← eSteps (o.advance _ s) r; return (_ :: es, o2)) = _
    rw [h]; rfl

/-- Two runs of the same loading simulation. -/
example : ∃ sim1 o1 sim2 o2, crss cycObj [0, 2] [3, 3] none none = .ok (sim1, o1) ∧ crss o1 [0, 2] [3, 3] none none = .ok (sim2, o2) ∧
    sim1.e ≠ sim2.e := by
  obtain ⟨sim1, o1, h1, -⟩ := C212_constant_rate cycSoil cycSoil_good cycInit cycInit_good cycObj rfl rfl rfl rfl [0, 2] [3, 3]
    none none (by simp) rfl (by simp) rfl 2 rfl 3 (by norm_num) (by simp) (by norm_num [cycInit]) (by simp) (by simp)
  obtain ⟨-, b2, -⟩ := C212_left_behind cycObj o1 cycInit rfl [0, 2] [3, 3] none none (by simp) rfl (by simp) 3 (by simp) (by simp) (by simp)
    sim1 h1
  obtain ⟨a, g, l, -, -, -, -, -, hcr⟩ := crss_eq o1 cycInit b2 [0, 2] [3, 3] none none (by simp) rfl (by simp) 3 (by simp) (by simp) (by simp)
  obtain ⟨es, o', he⟩ := eSteps_total cycInit (rateSteps 3 cycInit.s0 (a :: g)) o1 b2
  rw [he] at hcr
  refine ⟨sim1, o1, _, _, h1, hcr, ?_⟩
  obtain ⟨-, -, -, x, y, hx, hy, hlt⟩ := C212_rerun_differs cycSoil cycSoil_good cycInit cycInit_good cycObj rfl rfl rfl rfl rfl [0, 2] [3, 3]
    none none (by simp) rfl (by simp) 3 (by norm_num) (by simp) (by simp) (by simp) sim1 _ o1 _ h1 hcr
  intro hc
  rw [hc, hy] at hx
  cases hx
  exact lt_irrefl _ hlt

/-- A compression test in one step. -/
example : ∃ sim o', crsn cycObj [0, 3/7] [-(Real.log 4) * (7/3), -(Real.log 4) * (7/3)] (some 10) (some 1) = .ok (sim, o') ∧
    2 ≤ sim.t.length ∧ o'.igral = 0 := by
  obtain ⟨r, o', hr, -⟩ := cyc_call
  have hg : subdivideX [(0:ℝ), 3/7] (some 10) 1 none = .ok [0, 3/7] := by
    have hn : numSegs (0:ℝ) (3/7) 10 1 = 1 := by
      have : ⌊((3/7 - 0)/10 : ℝ)⌋ = 0 := by rw [Int.floor_eq_zero_iff]; norm_num
      simp only [numSegs, this]; rfl
    simp [subdivideX, nth, hn, linspaceOpen, List.range_succ]
  have hc : ∃ sim o', crsn cycObj [0, 3/7] [-(Real.log 4) * (7/3), -(Real.log 4) * (7/3)] (some 10) (some 1) = .ok (sim, o') := by
    have hin : cycObj.init = some cycInit := rfl
    simp only [crsn, List.head?_cons, List.getLast?_cons_cons, List.getLast?_singleton, Option.elim_some, Option.getD_some, hin]
    have hL : (cumFrom cycInit.e0 (increments [0, 3/7] [-(Real.log 4) * (7/3), -(Real.log 4) * (7/3)] [0, 3/7])).tail.zip
        (diff [(0:ℝ), 3/7]) = [(10 - Real.log 4, 3/7)] := by
      rw [increments_const (-(Real.log 4) * (7/3)) _ _ _ (by simp) (by simp)]
      simp only [diff, List.map_cons, List.map_nil, cumFrom, List.tail_cons, List.zip_cons_cons, List.zip_nil_right]
      have e1 : cycInit.e0 + -(Real.log 4) * (7/3) * (3/7 - 0) = 10 - Real.log 4 := by simp only [cycInit]; ring
      rw [e1, sub_zero]
    have hs : sSteps cycObj [(10 - Real.log 4, 3/7)] = .ok ([r.read o'], o') := by
      simp only [sSteps, hr]; rfl
    rw [hg]
    refine ⟨?_, ?_, ?_⟩
    rotate_left 2
    · change (sSteps cycObj _ >>= _) = _
      rw [hL, hs]
      rfl
  obtain ⟨sim, o'', h⟩ := hc
  obtain ⟨-, -, h3, -, -, -, -, -, h4, -⟩ := C215_constant_rate_of_strain cycSoil cycSoil_good cycInit cycInit_good cycObj rfl rfl rfl rfl rfl
    _ _ _ _ (by simp) (by simp) (by simp) rfl (3/7) rfl (-(Real.log 4) * (7/3)) (by simp) (by simp) (by simp) sim o'' h
  exact ⟨sim, o'', h, by simpa using h3, h4⟩

/-- An object that has crept (integral 3) is initialised again. -/
example : ∃ e0 o1 e o2 o3 e' o4, eFromStress (cycObj.advance 3 2) 5 none (some 6) = .ok (e0, o1) ∧ eFromStress o1 7 (some 1) none = .ok (e, o2) ∧
    construct cycSoil none (some 5) (some 6) none = .ok o3 ∧ o3.init = o1.init ∧ eFromStress o3 7 (some 1) none = .ok (e', o4) ∧ e < e' :=
  C214_reinit_keeps_creep cycSoil cycSoil_good (cycObj.advance 3 2) rfl (by norm_num [Obj.advance, cycObj]) 5 6 (by norm_num) (by norm_num)
    7 1 (by norm_num) (by norm_num)

example : ∃ e o', eFromStress cycObj 8 none (some 4) = .ok (e, o') := by
  obtain ⟨e, o', h, -⟩ := C214_initial_void_ratio cycSoil cycSoil_good cycObj rfl 8 4 (by norm_num) (by norm_num)
  exact ⟨e, o', h⟩

/-- The crept object is reset and stepped. -/
example : ∃ o', (cycObj.advance 3 2).reset = .ok o' ∧
    (eSteps o' [(2, 1), (3, 1)]).map Prod.fst = (eSteps cycObj [(2, 1), (3, 1)]).map Prod.fst :=
  C214_reset cycSoil (by norm_num [cycSoil]) none (some 1) (some 1) none cycObj (cycObj.advance 3 2) cycInit cyc_construct rfl rfl rfl _

example : (1 : ℝ) = crsnRhs cycSoil (crssRhs cycSoil 1 2 9) 9 2 :=
  (C215_same_law cycSoil cycSoil_good 2 9 1 _ (by norm_num)).1 rfl

end Geotecha.YG
