import Verif.Speccon.LoadLemmas

set_option linter.unusedVariables false
open Real intervalIntegral MeasureTheory
namespace Geotecha.Speccon
open Geotecha.Spec Geotecha.Piecewise

/-! # C30, C31: convolution of piecewise linear loads with the decay -/

/-- `load` is the load history through the points `(T[k], P[k])`: between consecutive times the straight line,
and zero before the first and after the last time. -/
structure LoadCurve (load : ℝ → ℝ) (T P : List ℝ) : Prop where
  len : P.length = T.length
  seg : ∀ k (h : k + 1 < T.length) τ, T[k] < τ → τ < T[k+1] → load τ = line (T[k], P[k]) (T[k+1], P[k+1]) τ
  out : ∀ (h : 0 < T.length) τ, τ < T[0] ∨ T[T.length - 1] < τ → load τ = 0

/-- `rate` is the rate of loading away from the steps: the slope between consecutive times, zero outside. -/
structure LoadRate (rate : ℝ → ℝ) (T P : List ℝ) : Prop where
  len : P.length = T.length
  seg : ∀ k (h : k + 1 < T.length) τ, T[k] < τ → τ < T[k+1] → rate τ = (P[k+1] - P[k]) / (T[k+1] - T[k])
  out : ∀ (h : 0 < T.length) τ, τ < T[0] ∨ T[T.length - 1] < τ → rate τ = 0

/-- No two consecutive points coincide. -/
def NoRepeatedPoint (T P : List ℝ) : Prop :=
  ∀ k (h : k + 1 < T.length) (h' : k + 1 < P.length), ¬ (T[k] = T[k+1] ∧ P[k] = P[k+1])

theorem noRepeat_of {T P : List ℝ} (hl : P.length = T.length) (h : NoRepeatedPoint T P) : NoRepeat T P := by
  intro k hk
  rw [nth_eq_getElem (show k < T.length by omega), nth_eq_getElem hk, nth_eq_getElem (show k < P.length by omega),
    nth_eq_getElem (show k + 1 < P.length by omega)]
  exact h k hk (by omega)

/-- `Eload_linear`: the convolution of the load with the decay, up to time `t`. -/
theorem C31_Eload_partial (impl : Impl) (T P : List ℝ) (dT eig s t : ℝ) (load : ℝ → ℝ) (hT : 0 < T.length) (hs : SortedLe T)
    (hl : LoadCurve load T P) (hr : NoRepeatedPoint T P) (hc : dT * eig ≠ 0) (hs0 : s ≤ T[0]) (hst : s ≤ t) :
    eloadLinear impl T P dT eig t = .ok (∫ τ in s..t, load τ * exp (-(dT * eig) * (t - τ))) := by
  have hlen := hl.len
  have eT : ∀ k (hk : k < T.length), T[k] = nth T k := fun k hk => (nth_eq_getElem hk).symm
  have eP : ∀ k (hk : k < P.length), P[k] = nth P k := fun k hk => (nth_eq_getElem hk).symm
  unfold eloadLinear
  rw [loadSegments_eq (noRepeat_of hlen hr)]
  simp only [bind, Except.bind, pure, Except.pure]
  congr 1
  refine load_engine hs hT (noRepeat_of hlen hr)
    (G := fun k τ => (nth P k + (nth P (k+1) - nth P k)/(nth T (k+1) - nth T k)*(τ - nth T k)) * exp (-(dT*eig)*(t - τ)))
    (fun k => by fun_prop) ?_ ?_ (by rw [← eT 0 hT]; exact hs0) hst _ _ _ _ ?_ ?_ ?_ ?_
  · intro k hk z h1 h2
    have := hl.seg k hk z (by rw [eT]; exact h1) (by rw [eT]; exact h2)
    rw [this]
    simp only [line, eT, eP]
  · intro z hz
    rw [hl.out hT z (by rw [eT, eT]; exact hz), zero_mul]
  · intro k hk hlt hP
    have := (El_forms (P0 := nth P k) (P1 := nth P k) (t := t) hc hlt.ne).2.2.1
    rw [← hP]
    cases impl <;> exact this
  · intro k hk hlt hP
    have := (El_forms (P0 := nth P k) (P1 := nth P k) (t := t) hc hlt.ne).2.2.2
    rw [← hP]
    cases impl <;> exact this
  · intro k hk hlt hP
    have := (El_forms (P0 := nth P k) (P1 := nth P (k+1)) (t := t) hc hlt.ne).1
    cases impl <;> exact this
  · intro k hk hlt hP
    have := (El_forms (P0 := nth P k) (P1 := nth P (k+1)) (t := t) hc hlt.ne).2.1
    cases impl <;> exact this

/-- `EDload_linear`: every step up to and including `t` contributes its decayed jump, the ramps the convolution
of the rate of loading with the decay. -/
theorem C30_EDload_partial (impl : Impl) (T P : List ℝ) (dT eig s t : ℝ) (rate : ℝ → ℝ) (hT : 0 < T.length) (hs : SortedLe T)
    (hl : LoadRate rate T P) (hr : NoRepeatedPoint T P) (hc : dT * eig ≠ 0) (hs0 : s ≤ T[0]) (hst : s ≤ t) :
    edloadLinear impl T P dT eig t = .ok (
      (((List.range (T.length - 1)).filter (fun k => decide (T.getD k 0 = T.getD (k+1) 0 ∧ T.getD k 0 ≤ t))).map
        (fun k => (P.getD (k+1) 0 - P.getD k 0) * exp (-(dT * eig) * (t - T.getD k 0)))).sum
      + ∫ τ in s..t, rate τ * exp (-(dT * eig) * (t - τ))) := by
  classical
  have hlen := hl.len
  have eT : ∀ k (hk : k < T.length), T[k] = nth T k := fun k hk => (nth_eq_getElem hk).symm
  have eP : ∀ k (hk : k < P.length), P[k] = nth P k := fun k hk => (nth_eq_getElem hk).symm
  have key := load_engine (F := fun τ => rate τ * exp (-(dT * eig) * (t - τ))) hs hT (noRepeat_of hlen hr)
    (G := fun k τ => (nth P (k+1) - nth P k)/(nth T (k+1) - nth T k) * exp (-(dT*eig)*(t - τ)))
    (fun k => by fun_prop)
    (fun k hk z h1 h2 => by
      have := hl.seg k hk z (by rw [eT]; exact h1) (by rw [eT]; exact h2)
      simp only [this, eT, eP])
    (fun z hz => by rw [hl.out hT z (by rw [eT, eT]; exact hz), zero_mul]) (by rw [← eT 0 hT]; exact hs0) hst
    (fun _ => 0) (fun _ => 0)
    (fun k => EDl_rc_s (nth T k) (nth T (k+1)) (nth P k) (nth P (k+1)) eig t dT)
    (fun k => EDl_rl_s (nth T k) (nth T (k+1)) (nth P k) (nth P (k+1)) eig t dT)
    (fun k hk hlt hP => by simp only [hP, sub_self, zero_div, zero_mul, intervalIntegral.integral_zero]) (fun k hk hlt hP => by simp only [hP, sub_self, zero_div, zero_mul, intervalIntegral.integral_zero])
    (fun k hk hlt hP => (EDl_forms hc hlt.ne).1) (fun k hk hlt hP => (EDl_forms hc hlt.ne).2)
  have z0 : ∀ l : List ℕ, (l.map (fun _ => (0:ℝ))).sum = 0 := fun l => by
    induction l with
    | nil => rfl
    | cons a l ih => rw [List.map_cons, List.sum_cons, ih, zero_add]
  rw [z0, z0, zero_add, zero_add] at key
  unfold edloadLinear
  rw [loadSegments_eq (noRepeat_of hlen hr)]
  simp only [bind, Except.bind, pure, Except.pure]
  rw [← key]
  congr 1
  rw [add_assoc]
  congr 1
  · have hstep : segmentsLessThan T t ((segs T).filter (fun i => decide (nth T (i+1) - nth T i = 0))) true =
        (List.range (T.length - 1)).filter (fun k => decide (T.getD k 0 = T.getD (k+1) 0 ∧ T.getD k 0 ≤ t)) := by
      unfold segmentsLessThan segs
      rw [List.filter_filter]
      apply List.filter_congr
      intro k hk
      simp only [if_true]
      rw [← Bool.decide_and]
      apply decide_eq_decide.2
      rw [sub_eq_zero]
      constructor
      · rintro ⟨h1, h2⟩; exact ⟨h2.symm, le_trans (le_of_eq h2.symm) h1⟩
      · rintro ⟨h1, h2⟩; exact ⟨le_trans (le_of_eq h1.symm) h2, h1.symm⟩
    rw [hstep]
    congr 1
    apply List.map_congr_left
    intro k hk
    cases impl
    · simp only [EDl_sl_s]; rw [mul_comm, neg_mul]
    · simp only [EDl_sl_v]; rw [mul_comm, neg_mul]
  · cases impl <;> rfl

/-- False of the code with a repeated point: the load 0→1 on [0,1], held to 2, with the last point given twice, makes
both functions fail (`np.delete` removes by position). -/
theorem C30_negation (impl : Impl) (dT eig t : ℝ) :
    edloadLinear impl [0, 1, 2, 2] [0, 1, 1, 1] dT eig t = .error .indexError ∧
    eloadLinear impl [0, 1, 2, 2] [0, 1, 1, 1] dT eig t = .error .indexError := by
  have h : loadSegments [0, 1, 2, 2] [0, 1, 1, 1] t = .error .indexError := by
    unfold loadSegments segmentContainingAlsoLess
    have : startIndexOfConstants [(0:ℝ), 1, 2, 2] [0, 1, 1, 1] = .error .indexError := by
      simp [startIndexOfConstants, degenerateSegs, segs, List.range_succ, npDelete]
    rw [this]; rfl
  unfold edloadLinear eloadLinear
  rw [h]
  exact ⟨rfl, rfl⟩

/-! Non-vacuity: a step, a ramp, a constant, then unloading by a step. -/

example : (0 < [(0:ℝ), 0, 1, 3, 3].length) ∧ SortedLe [(0:ℝ), 0, 1, 3, 3] ∧ NoRepeatedPoint [0, 0, 1, 3, 3] [0, 1, 4, 4, 2] ∧
    ∃ load rate, LoadCurve load [0, 0, 1, 3, 3] [0, 1, 4, 4, 2] ∧ LoadRate rate [0, 0, 1, 3, 3] [0, 1, 4, 4, 2] := by
  refine ⟨by simp, by simp [SortedLe], ?_, fun τ => if τ < 0 then 0 else if τ < 1 then 1 + 3*τ else if τ ≤ 3 then 4 else 0,
    fun τ => if τ < 0 then 0 else if τ < 1 then 3 else 0, ⟨rfl, ?_, ?_⟩, ⟨rfl, ?_, ?_⟩⟩
  · intro k h h'
    rcases k with _ | _ | _ | _ | k
    any_goals simp at *
    exact absurd h (by simp)
  · intro k h τ h1 h2
    rcases k with _ | _ | _ | _ | k
    any_goals simp at *
    any_goals simp [line]
    · linarith
    · rw [if_neg (by linarith), if_pos h2]; ring
    · rw [if_neg (by linarith), if_neg (by linarith), if_pos (by linarith)]
    · linarith
    · exact absurd h (by simp)
  · intro h τ h1
    simp at h1
    rcases h1 with h1 | h1
    · simp [h1]
    · rw [if_neg (by linarith), if_neg (by linarith), if_neg (by linarith)]
  · intro k h τ h1 h2
    rcases k with _ | _ | _ | _ | k
    any_goals simp at *
    · linarith
    · rw [if_neg (by linarith), if_pos h2]; norm_num
    · intro; linarith
    · linarith
    · exact absurd h (by simp)
  · intro h τ h1
    simp at h1
    rcases h1 with h1 | h1
    · simp [h1]
    · rw [if_neg (by linarith), if_neg (by linarith)]

end Geotecha.Speccon
