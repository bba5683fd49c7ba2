import Verif.Speccon.PropsUnsat

/-!
# Properties C95, C96: averages and settlement reported by speccon1d_unsat
-/

set_option linter.unusedVariables false
open Real intervalIntegral MeasureTheory Filter Topology
namespace Geotecha.Speccon
open Geotecha.Spec Geotecha.Piecewise

variable {x : UnsatIn} {S : Set ℝ} {s tend : ℝ} {U : Unsat} {a : UnsatArrays}

/-- The output functions applied to the coefficients `c` of one phase. -/
theorem phase_outputs (h : UnsatInput x S s tend U) (hm : x.m = .ok a.m) {p : PhaseIn} {F : Fluid} (hp : PhaseInput x p s tend F) {kv : PolyLine ℝ} {k : ℝ}
    (hk : ∃ f e, Profile S kv f ∧ Tendsto f (𝓝[<] 1) (𝓝 e) ∧ (∀ z, F.cond z = k * f z) ∧ F.condEnd = k * e)
    (c : ℕ → ℝ) {bot : Option (List (PolyLine ℝ))} (hbot : x.normBot p = .ok bot) (z1 z2 t : ℝ) (hz0 : 0 ≤ z1) (hz : z1 < z2) (hz1 : z2 ≤ 1)
    (ht0 : s ≤ t) (ht1 : t ≤ tend) :
    ∃ (u : ℝ → ℝ) (m : ℝ), Continuous u ∧ (∀ z, 0 ≤ z → z ≤ 1 → dim1sinF a.m z t c (x.boundary p bot) = .ok (u z)) ∧
      dim1sinAvgF a.m z1 z2 t c (x.boundary p bot) = .ok m ∧ m * (z2 - z1) = (∫ z in z1..z2, u z) ∧
      ∀ d f, Profile S d f → dim1sinIntegrateAf a.m z1 z2 t c (x.boundary p bot) d = .ok (∫ z in z1..z2, f z * u z) := by
  have hx := aux_input h hp h.m2w hk
  obtain ⟨hl, hget, hd, hne, hsc⟩ := m_ok hx hm
  obtain ⟨bot', tops, bots, e0, hb, htt, _, hbb, _⟩ := normBot_ok hx
  have hbot' : (auxIn x p x.m2w kv k).normBot = .ok bot := hbot
  rw [hbot'] at e0
  injection e0 with e0
  subst e0
  set u := fun z => (∑ j ∈ Finset.range a.m.length, c j * sin (a.m.getD j 0 * z)) + (1 - (1 - (x.boundary p bot).drn) * z) * total tops t
      + z * total bots t with hu
  have hok : ∀ z, 0 ≤ z → z ≤ 1 → dim1sinF a.m z t c (x.boundary p bot) = .ok (u z) := fun z h0 h1 => C74_value a.m c hb z t h0 h1 ht0 ht1
  have same : ∀ u' : ℝ → ℝ, (∀ z, 0 ≤ z → z ≤ 1 → dim1sinF a.m z t c (x.boundary p bot) = .ok (u' z)) → ∀ z, 0 ≤ z → z ≤ 1 → u' z = u z := by
    intro u' hu' z h0 h1
    have := hu' z h0 h1
    rw [hok z h0 h1] at this
    injection this with this
    exact this.symm
  obtain ⟨u1, m, b1, b2, b3⟩ := C75_average a.m hne c hb z1 z2 t hz0 hz hz1 ht0 ht1
  refine ⟨u, m, by rw [hu]; fun_prop, hok, b2, ?_, fun d f hdf => ?_⟩
  · rw [b3]
    exact integral_congr_Ioo' hz.le (fun z ha hb => same u1 b1 z (by linarith) (by linarith))
  · obtain ⟨u2, c1, c2⟩ := C76_integrate S h.sep a.m hne c hb d f hdf z1 z2 t hz0 hz hz1 ht0 ht1
    refine Eq.trans c2 ?_
    congr 1
    exact integral_congr_Ioo' hz.le (fun z ha hb => by rw [same u2 c1 z (by linarith) (by linarith)])

/-- The surcharge parts of the settlement. -/
theorem unsat_settleLoad (h : UnsatInput x S s tend U) {mv : PolyLine ℝ} {f : ℝ → ℝ} (hmv : Profile S mv f) (z1 z2 t : ℝ) (hz0 : 0 ≤ z1) (hz : z1 < z2)
    (hz1 : z2 ≤ 1) (ht0 : s ≤ t) (ht1 : t ≤ tend)
    (hlen : ∀ l d, x.surchargeTime = some l → x.surchargeDepth = some d → d.length = l.length ∧ OmLen l x.surchargeOm)
    (hnone : x.surchargeDepth = none → x.surchargeTime = none) :
    x.settleLoad mv z1 z2 t = .ok (∫ z in z1..z2, f z * U.surcharge z t) ∧ IntervalIntegrable (fun z => f z * U.surcharge z t) volume z1 z2 := by
  have hs := h.surcharge
  unfold UnsatIn.settleLoad
  cases hd' : x.surchargeDepth with
  | none =>
    rw [hd'] at hs
    rw [hnone hd']
    have : (fun z => f z * U.surcharge z t) = fun _ => 0 := by funext z; rw [hs.1, mul_zero]
    rw [this]
    simp only [intervalIntegral.integral_zero]
    exact ⟨rfl, intervalIntegrable_const⟩
  | some d =>
    cases hl' : x.surchargeTime with
    | none =>
      rw [hd', hl'] at hs
      have : (fun z => f z * U.surcharge z t) = fun _ => 0 := by funext z; rw [hs.1, mul_zero]
      rw [this]
      simp only [intervalIntegral.integral_zero]
      exact ⟨rfl, intervalIntegrable_const⟩
    | some l =>
      rw [hd', hl'] at hs
      obtain ⟨hs, a1, a2, a3⟩ := hs
      obtain ⟨l1, l2⟩ := hlen l d hl' hd'
      simp only [superIntegrate, if_neg (not_not.2 l1.symm), if_neg (not_not.2 l2.symm)]
      have : (fun z => f z * U.surcharge z t) = fun z => f z * (hs.map (fun h => h.1 z * h.2.1 t)).sum := by
        funext z; rw [a2]
      rw [this]
      exact surcharge_sum h.sep hmv a1 hz0 hz hz1 ht0 ht1

/-- Averages and all three settlements in terms of the reported pressures. -/
theorem unsat_outputs (h : UnsatInput x S s tend U) (hM : a.Made x) (h0 : ∀ i, i < 2 * x.neig → a.eigs i ≠ 0) (d1 d2 : PolyLine ℝ)
    (e1 : lineSub x.m2w x.m1kw = .ok d1) (p1 : Profile S d1 (fun z => U.m2w z - U.m1kw z))
    (e2 : lineSub x.m2a x.m1ka = .ok d2) (p2 : Profile S d2 (fun z => U.m2a z - U.m1ka z))
    (z1 z2 t : ℝ) (hz0 : 0 ≤ z1) (hz : z1 < z2) (hz1 : z2 ≤ 1) (ht0 : s ≤ t) (ht1 : t ≤ tend)
    (hlen : ∀ l d, x.surchargeTime = some l → x.surchargeDepth = some d → d.length = l.length ∧ OmLen l x.surchargeOm)
    (hnone : x.surchargeDepth = none → x.surchargeTime = none) :
    ∃ (uw ua : ℝ → ℝ) (mw ma : ℝ), (∀ z, 0 ≤ z → z ≤ 1 → x.porw a z t = .ok (uw z) ∧ x.pora a z t = .ok (ua z)) ∧
      x.avpw a z1 z2 t = .ok mw ∧ mw * (z2 - z1) = (∫ z in z1..z2, uw z) ∧
      x.avpa a z1 z2 t = .ok ma ∧ ma * (z2 - z1) = (∫ z in z1..z2, ua z) ∧
      x.settle a z1 z2 t = .ok (x.H * x.mvref * ∫ z in z1..z2, (U.strainW (U.surcharge z t) (uw z) (ua z) z + U.strainA (U.surcharge z t) (uw z) (ua z) z)) ∧
      x.setw a z1 z2 t = .ok (x.H * x.mvref * ((∫ z in z1..z2, U.strainW (U.surcharge z t) (uw z) (ua z) z) - ∫ z in z1..z2, U.m2a z * uw z)) ∧
      x.seta a z1 z2 t = .ok (x.H * x.mvref * ((∫ z in z1..z2, U.strainA (U.surcharge z t) (uw z) (ua z) z) + ∫ z in z1..z2, U.m2a z * uw z)) := by
  obtain ⟨A, C, hcol, hres⟩ := unsat_core h hM h0
  obtain ⟨c, e, _, _⟩ := hcol t ht0 ht1
  obtain ⟨wb, ew, _⟩ := phase_solves h h.water h.kw
  obtain ⟨ab, ea, _⟩ := phase_solves h h.air h.Da
  obtain ⟨uw, mw, cw, w1, w2, w3, w4⟩ := phase_outputs (a := a) h hM.m h.water h.kw c ew z1 z2 t hz0 hz hz1 ht0 ht1
  obtain ⟨ua, ma, ca, b1, b2, b3, b4⟩ := phase_outputs (a := a) h hM.m h.air h.Da (fun j => c (x.neig + j)) ea z1 z2 t hz0 hz hz1 ht0 ht1
  obtain ⟨l1, j1⟩ := unsat_settleLoad h h.m1kw z1 z2 t hz0 hz hz1 ht0 ht1 hlen hnone
  obtain ⟨l2, j2⟩ := unsat_settleLoad h h.m1ka z1 z2 t hz0 hz hz1 ht0 ht1 hlen hnone
  have i1 : IntervalIntegrable (fun z => (U.m2w z - U.m1kw z) * ua z) volume z1 z2 := profile_reads p1 hz0 hz.le hz1 ca
  have i2 : IntervalIntegrable (fun z => U.m2w z * uw z) volume z1 z2 := profile_reads h.m2w hz0 hz.le hz1 cw
  have i3 : IntervalIntegrable (fun z => (U.m2a z - U.m1ka z) * ua z) volume z1 z2 := profile_reads p2 hz0 hz.le hz1 ca
  have i4 : IntervalIntegrable (fun z => U.m2a z * uw z) volume z1 z2 := profile_reads h.m2a hz0 hz.le hz1 cw
  have eW : (fun z => U.strainW (U.surcharge z t) (uw z) (ua z) z) =
      fun z => ((U.m2w z - U.m1kw z) * ua z - U.m2w z * uw z) + U.m1kw z * U.surcharge z t := by
    funext z; unfold Unsat.strainW; ring
  have eA : (fun z => U.strainA (U.surcharge z t) (uw z) (ua z) z) =
      fun z => ((U.m2a z - U.m1ka z) * ua z - U.m2a z * uw z) + U.m1ka z * U.surcharge z t := by
    funext z; unfold Unsat.strainA; ring
  have kW : IntervalIntegrable (fun z => U.strainW (U.surcharge z t) (uw z) (ua z) z) volume z1 z2 := by rw [eW]; exact (i1.sub i2).add j1
  have kA : IntervalIntegrable (fun z => U.strainA (U.surcharge z t) (uw z) (ua z) z) volume z1 z2 := by rw [eA]; exact (i3.sub i4).add j2
  have vW : ∫ z in z1..z2, U.strainW (U.surcharge z t) (uw z) (ua z) z =
      (∫ z in z1..z2, (U.m2w z - U.m1kw z) * ua z) - (∫ z in z1..z2, U.m2w z * uw z) + ∫ z in z1..z2, U.m1kw z * U.surcharge z t := by
    rw [eW, intervalIntegral.integral_add (i1.sub i2) j1, intervalIntegral.integral_sub i1 i2]
  have vA : ∫ z in z1..z2, U.strainA (U.surcharge z t) (uw z) (ua z) z =
      (∫ z in z1..z2, (U.m2a z - U.m1ka z) * ua z) - (∫ z in z1..z2, U.m2a z * uw z) + ∫ z in z1..z2, U.m1ka z * U.surcharge z t := by
    rw [eA, intervalIntegral.integral_add (i3.sub i4) j2, intervalIntegral.integral_sub i3 i4]
  have hset : x.settle2 a z1 z2 t = .ok (x.H * x.mvref * ((∫ z in z1..z2, U.strainW (U.surcharge z t) (uw z) (ua z) z) - ∫ z in z1..z2, U.m2a z * uw z),
      x.H * x.mvref * ((∫ z in z1..z2, U.strainA (U.surcharge z t) (uw z) (ua z) z) + ∫ z in z1..z2, U.m2a z * uw z)) := by
    unfold UnsatIn.settle2
    simp only [e, ew, ea, e1, e2, b4 _ _ p1, b4 _ _ p2, w4 _ _ h.m2w, w4 _ _ h.m2a, l1, l2, Bind.bind, Except.bind, pure, Except.pure]
    rw [vW, vA]
    congr 2 <;> ring
  refine ⟨uw, ua, mw, ma, fun z hz hz' => ⟨?_, ?_⟩, ?_, w3, ?_, b3, ?_, ?_, ?_⟩
  · unfold UnsatIn.porw
    simp only [e, ew, Bind.bind, Except.bind]
    exact w1 z hz hz'
  · unfold UnsatIn.pora
    simp only [e, ea, Bind.bind, Except.bind]
    exact b1 z hz hz'
  · unfold UnsatIn.avpw
    simp only [e, ew, Bind.bind, Except.bind]
    exact w2
  · unfold UnsatIn.avpa
    simp only [e, ea, Bind.bind, Except.bind]
    exact b2
  · unfold UnsatIn.settle
    simp only [hset, Bind.bind, Except.bind, pure, Except.pure]
    rw [intervalIntegral.integral_add kW kA]
    congr 1; ring
  · unfold UnsatIn.setw
    simp only [hset, Bind.bind, Except.bind, pure, Except.pure]
  · unfold UnsatIn.seta
    simp only [hset, Bind.bind, Except.bind, pure, Except.pure]

/-- Average pressure times thickness is the integral of the reported pressure, for water and for air, and the reported total settlement is
`H mvref` times the integral of both strains for the reported pressures. -/
theorem C95_outputs_agree (h : UnsatInput x S s tend U) (hM : a.Made x) (h0 : ∀ i, i < 2 * x.neig → a.eigs i ≠ 0) (d1 d2 : PolyLine ℝ)
    (e1 : lineSub x.m2w x.m1kw = .ok d1) (p1 : Profile S d1 (fun z => U.m2w z - U.m1kw z))
    (e2 : lineSub x.m2a x.m1ka = .ok d2) (p2 : Profile S d2 (fun z => U.m2a z - U.m1ka z))
    (z1 z2 t : ℝ) (hz0 : 0 ≤ z1) (hz : z1 < z2) (hz1 : z2 ≤ 1) (ht0 : s ≤ t) (ht1 : t ≤ tend)
    (hlen : ∀ l d, x.surchargeTime = some l → x.surchargeDepth = some d → d.length = l.length ∧ OmLen l x.surchargeOm)
    (hnone : x.surchargeDepth = none → x.surchargeTime = none) :
    ∃ (uw ua : ℝ → ℝ) (mw ma : ℝ), (∀ z, 0 ≤ z → z ≤ 1 → x.porw a z t = .ok (uw z) ∧ x.pora a z t = .ok (ua z)) ∧
      x.avpw a z1 z2 t = .ok mw ∧ mw * (z2 - z1) = (∫ z in z1..z2, uw z) ∧
      x.avpa a z1 z2 t = .ok ma ∧ ma * (z2 - z1) = (∫ z in z1..z2, ua z) ∧
      x.settle a z1 z2 t = .ok (x.H * x.mvref *
        ∫ z in z1..z2, (U.strainW (U.surcharge z t) (uw z) (ua z) z + U.strainA (U.surcharge z t) (uw z) (ua z) z)) := by
  obtain ⟨uw, ua, mw, ma, r1, r2, r3, r4, r5, r6, _⟩ := unsat_outputs h hM h0 d1 d2 e1 p1 e2 p2 z1 z2 t hz0 hz hz1 ht0 ht1 hlen hnone
  exact ⟨uw, ua, mw, ma, r1, r2, r3, r4, r5, r6⟩

/-- The two parts: the volume change `m2a uw` of the air is counted in the part of the water. -/
theorem C96_error (h : UnsatInput x S s tend U) (hM : a.Made x) (h0 : ∀ i, i < 2 * x.neig → a.eigs i ≠ 0) (d1 d2 : PolyLine ℝ)
    (e1 : lineSub x.m2w x.m1kw = .ok d1) (p1 : Profile S d1 (fun z => U.m2w z - U.m1kw z))
    (e2 : lineSub x.m2a x.m1ka = .ok d2) (p2 : Profile S d2 (fun z => U.m2a z - U.m1ka z))
    (z1 z2 t : ℝ) (hz0 : 0 ≤ z1) (hz : z1 < z2) (hz1 : z2 ≤ 1) (ht0 : s ≤ t) (ht1 : t ≤ tend)
    (hlen : ∀ l d, x.surchargeTime = some l → x.surchargeDepth = some d → d.length = l.length ∧ OmLen l x.surchargeOm)
    (hnone : x.surchargeDepth = none → x.surchargeTime = none) :
    ∃ uw ua : ℝ → ℝ, (∀ z, 0 ≤ z → z ≤ 1 → x.porw a z t = .ok (uw z) ∧ x.pora a z t = .ok (ua z)) ∧
      x.setw a z1 z2 t = .ok (x.H * x.mvref * ((∫ z in z1..z2, U.strainW (U.surcharge z t) (uw z) (ua z) z) - ∫ z in z1..z2, U.m2a z * uw z)) ∧
      x.seta a z1 z2 t = .ok (x.H * x.mvref * ((∫ z in z1..z2, U.strainA (U.surcharge z t) (uw z) (ua z) z) + ∫ z in z1..z2, U.m2a z * uw z)) := by
  obtain ⟨uw, ua, mw, ma, r1, r2, r3, r4, r5, r6, r7, r8⟩ := unsat_outputs h hM h0 d1 d2 e1 p1 e2 p2 z1 z2 t hz0 hz hz1 ht0 ht1 hlen hnone
  exact ⟨uw, ua, r1, r7, r8⟩

/-- The parts are the volume changes of water and air if the air does not respond to suction (`m2a = 0`). -/
theorem C96_parts_partial (h : UnsatInput x S s tend U) (hM : a.Made x) (h0 : ∀ i, i < 2 * x.neig → a.eigs i ≠ 0) (d1 d2 : PolyLine ℝ)
    (e1 : lineSub x.m2w x.m1kw = .ok d1) (p1 : Profile S d1 (fun z => U.m2w z - U.m1kw z))
    (e2 : lineSub x.m2a x.m1ka = .ok d2) (p2 : Profile S d2 (fun z => U.m2a z - U.m1ka z))
    (z1 z2 t : ℝ) (hz0 : 0 ≤ z1) (hz : z1 < z2) (hz1 : z2 ≤ 1) (ht0 : s ≤ t) (ht1 : t ≤ tend)
    (hlen : ∀ l d, x.surchargeTime = some l → x.surchargeDepth = some d → d.length = l.length ∧ OmLen l x.surchargeOm)
    (hnone : x.surchargeDepth = none → x.surchargeTime = none) (hm2a : ∀ z, 0 < z → z < 1 → U.m2a z = 0) :
    ∃ uw ua : ℝ → ℝ, (∀ z, 0 ≤ z → z ≤ 1 → x.porw a z t = .ok (uw z) ∧ x.pora a z t = .ok (ua z)) ∧
      x.setw a z1 z2 t = .ok (x.H * x.mvref * ∫ z in z1..z2, U.strainW (U.surcharge z t) (uw z) (ua z) z) ∧
      x.seta a z1 z2 t = .ok (x.H * x.mvref * ∫ z in z1..z2, U.strainA (U.surcharge z t) (uw z) (ua z) z) := by
  obtain ⟨uw, ua, r1, r2, r3⟩ := C96_error h hM h0 d1 d2 e1 p1 e2 p2 z1 z2 t hz0 hz hz1 ht0 ht1 hlen hnone
  have : ∫ z in z1..z2, U.m2a z * uw z = 0 := by
    have e : ∫ z in z1..z2, U.m2a z * uw z = ∫ z in z1..z2, (0:ℝ) :=
      integral_congr_Ioo' hz.le (fun z ha hb => by rw [hm2a z (by linarith) (by linarith), zero_mul])
    rw [e]; simp
  rw [this, sub_zero] at r2
  rw [this, add_zero] at r3
  exact ⟨uw, ua, r1, r2, r3⟩

end Geotecha.Speccon
