import Verif.Speccon.HarmForms2
import Verif.Speccon.PropsLoad

/-!
# Model of geotecha/speccon/integrals.py: loads with a harmonic factor, and their properties (C48 - C50)

Same structure and simplifications as `ModelLoad`.
-/

set_option linter.unusedVariables false
open Real intervalIntegral MeasureTheory
namespace Geotecha.Speccon
open Geotecha.Spec Geotecha.Piecewise

/-- `Eload_coslinear`, integrals.py:3101-4323, one entry. -/
noncomputable def eloadCos (impl : Impl) (T P : List ℝ) (omega phase dT eig t : ℝ) : Except PyErr ℝ := do
  let g ← loadSegments T P t
  let a (l : List ℝ) (k : ℕ) : ℝ := l.getD k 0
  pure (
    (g.constantsContaining.map (fun k => (match impl with | .scalar => Ec_cc_s | .vectorized => Ec_cc_v)
      (a T k) (a P k) omega phase eig t dT)).sum +
    (g.constantsLess.map (fun k => (match impl with | .scalar => Ec_cl_s | .vectorized => Ec_cl_v)
      (a T k) (a T (k+1)) (a P k) omega phase eig t dT)).sum +
    (g.rampsContaining.map (fun k => (match impl with | .scalar => Ec_rc_s | .vectorized => Ec_rc_v)
      (a T k) (a T (k+1)) (a P k) (a P (k+1)) omega phase eig t dT)).sum +
    (g.rampsLess.map (fun k => (match impl with | .scalar => Ec_rl_s | .vectorized => Ec_rl_v)
      (a T k) (a T (k+1)) (a P k) (a P (k+1)) omega phase eig t dT)).sum)

/-- `Eload_sinlinear`, integrals.py:5569-6694, one entry. -/
noncomputable def eloadSin (impl : Impl) (T P : List ℝ) (omega phase dT eig t : ℝ) : Except PyErr ℝ := do
  let g ← loadSegments T P t
  let a (l : List ℝ) (k : ℕ) : ℝ := l.getD k 0
  pure (
    (g.constantsContaining.map (fun k => (match impl with | .scalar => Es_cc_s | .vectorized => Es_cc_v)
      (a T k) (a P k) omega phase eig t dT)).sum +
    (g.constantsLess.map (fun k => (match impl with | .scalar => Es_cl_s | .vectorized => Es_cl_v)
      (a T k) (a T (k+1)) (a P k) omega phase eig t dT)).sum +
    (g.rampsContaining.map (fun k => (match impl with | .scalar => Es_rc_s | .vectorized => Es_rc_v)
      (a T k) (a T (k+1)) (a P k) (a P (k+1)) omega phase eig t dT)).sum +
    (g.rampsLess.map (fun k => (match impl with | .scalar => Es_rl_s | .vectorized => Es_rl_v)
      (a T k) (a T (k+1)) (a P k) (a P (k+1)) omega phase eig t dT)).sum)

/-- `EDload_coslinear`, integrals.py:4326-5566, one entry. -/
noncomputable def edloadCos (impl : Impl) (T P : List ℝ) (omega phase dT eig t : ℝ) : Except PyErr ℝ := do
  let g ← loadSegments T P t
  let a (l : List ℝ) (k : ℕ) : ℝ := l.getD k 0
  pure (
    (g.stepsLess.map (fun k => (match impl with | .scalar => EDc_sl_s | .vectorized => EDc_sl_v)
      (a T k) (a P k) (a P (k+1)) omega phase eig t dT)).sum +
    (g.rampsContaining.map (fun k => (match impl with | .scalar => EDc_rc_s | .vectorized => EDc_rc_v)
      (a T k) (a T (k+1)) (a P k) (a P (k+1)) omega phase eig t dT)).sum +
    (g.rampsLess.map (fun k => (match impl with | .scalar => EDc_rl_s | .vectorized => EDc_rl_v)
      (a T k) (a T (k+1)) (a P k) (a P (k+1)) omega phase eig t dT)).sum +
    (g.constantsContaining.map (fun k => (match impl with | .scalar => EDc_cc_s | .vectorized => EDc_cc_v)
      (a T k) (a P k) omega phase eig t dT)).sum +
    (g.constantsLess.map (fun k => (match impl with | .scalar => EDc_cl_s | .vectorized => EDc_cl_v)
      (a T k) (a T (k+1)) (a P k) omega phase eig t dT)).sum)

/-- The convolution of `load(τ) cos(ω τ + φ)` with the decay. -/
theorem C48_Eload_cos (impl : Impl) (T P : List ℝ) (omega phase dT eig s t : ℝ) (load : ℝ → ℝ) (hT : 0 < T.length) (hs : SortedLe T)
    (hl : LoadCurve load T P) (hr : NoRepeatedPoint T P) (hc : dT * eig ≠ 0) (hs0 : s ≤ T[0]) (hst : s ≤ t) :
    eloadCos impl T P omega phase dT eig t = .ok (∫ τ in s..t, load τ * cos (omega * τ + phase) * exp (-(dT * eig) * (t - τ))) := by
  have hlen := hl.len
  have eT : ∀ k (hk : k < T.length), T[k] = nth T k := fun k hk => (nth_eq_getElem hk).symm
  have eP : ∀ k (hk : k < P.length), P[k] = nth P k := fun k hk => (nth_eq_getElem hk).symm
  unfold eloadCos
  rw [loadSegments_eq (noRepeat_of hlen hr)]
  simp only [bind, Except.bind, pure, Except.pure]
  congr 1
  refine load_engine hs hT (noRepeat_of hlen hr)
    (G := fun k τ => (nth P k + (nth P (k+1) - nth P k)/(nth T (k+1) - nth T k)*(τ - nth T k)) * cos (omega * τ + phase) * exp (-(dT*eig)*(t - τ)))
    (fun k => by fun_prop) ?_ ?_ (by rw [← eT 0 hT]; exact hs0) hst _ _ _ _ ?_ ?_ ?_ ?_
  · intro k hk z h1 h2
    have := hl.seg k hk z (by rw [eT]; exact h1) (by rw [eT]; exact h2)
    rw [this]
    simp only [line, eT, eP]
  · intro z hz
    rw [hl.out hT z (by rw [eT, eT]; exact hz), zero_mul, zero_mul]
  · intro k hk hlt hP
    have := Ec_cc (P0 := nth P k) (P1 := nth P k) (t := t) (omega := omega) (phase := phase) hc hlt.ne
    rw [← hP]
    cases impl <;> exact this
  · intro k hk hlt hP
    have := Ec_cl (P0 := nth P k) (P1 := nth P k) (t := t) (omega := omega) (phase := phase) hc hlt.ne
    rw [← hP]
    cases impl <;> exact this
  · intro k hk hlt hP
    have := Ec_rc (P0 := nth P k) (P1 := nth P (k+1)) (t := t) (omega := omega) (phase := phase) hc hlt.ne
    cases impl <;> exact this
  · intro k hk hlt hP
    have := Ec_rl (P0 := nth P k) (P1 := nth P (k+1)) (t := t) (omega := omega) (phase := phase) hc hlt.ne
    cases impl <;> exact this

/-- The convolution of `load(τ) sin(ω τ + φ)` with the decay. -/
theorem C50_Eload_sin (impl : Impl) (T P : List ℝ) (omega phase dT eig s t : ℝ) (load : ℝ → ℝ) (hT : 0 < T.length) (hs : SortedLe T)
    (hl : LoadCurve load T P) (hr : NoRepeatedPoint T P) (hc : dT * eig ≠ 0) (hs0 : s ≤ T[0]) (hst : s ≤ t) :
    eloadSin impl T P omega phase dT eig t = .ok (∫ τ in s..t, load τ * sin (omega * τ + phase) * exp (-(dT * eig) * (t - τ))) := by
  have hlen := hl.len
  have eT : ∀ k (hk : k < T.length), T[k] = nth T k := fun k hk => (nth_eq_getElem hk).symm
  have eP : ∀ k (hk : k < P.length), P[k] = nth P k := fun k hk => (nth_eq_getElem hk).symm
  unfold eloadSin
  rw [loadSegments_eq (noRepeat_of hlen hr)]
  simp only [bind, Except.bind, pure, Except.pure]
  congr 1
  refine load_engine hs hT (noRepeat_of hlen hr)
    (G := fun k τ => (nth P k + (nth P (k+1) - nth P k)/(nth T (k+1) - nth T k)*(τ - nth T k)) * sin (omega * τ + phase) * exp (-(dT*eig)*(t - τ)))
    (fun k => by fun_prop) ?_ ?_ (by rw [← eT 0 hT]; exact hs0) hst _ _ _ _ ?_ ?_ ?_ ?_
  · intro k hk z h1 h2
    have := hl.seg k hk z (by rw [eT]; exact h1) (by rw [eT]; exact h2)
    rw [this]
    simp only [line, eT, eP]
  · intro z hz
    rw [hl.out hT z (by rw [eT, eT]; exact hz), zero_mul, zero_mul]
  · intro k hk hlt hP
    have := Es_cc (P0 := nth P k) (P1 := nth P k) (t := t) (omega := omega) (phase := phase) hc hlt.ne
    rw [← hP]
    cases impl <;> exact this
  · intro k hk hlt hP
    have := Es_cl (P0 := nth P k) (P1 := nth P k) (t := t) (omega := omega) (phase := phase) hc hlt.ne
    rw [← hP]
    cases impl <;> exact this
  · intro k hk hlt hP
    have := Es_rc (P0 := nth P k) (P1 := nth P (k+1)) (t := t) (omega := omega) (phase := phase) hc hlt.ne
    cases impl <;> exact this
  · intro k hk hlt hP
    have := Es_rl (P0 := nth P k) (P1 := nth P (k+1)) (t := t) (omega := omega) (phase := phase) hc hlt.ne
    cases impl <;> exact this

/-- `EDload_coslinear`: the convolution of the rate of change of `load(τ) cos(ω τ + φ)` with the decay; each step
up to and including `t` contributes its decayed jump. -/
theorem C49_EDload_cos (impl : Impl) (T P : List ℝ) (omega phase dT eig s t : ℝ) (load rate : ℝ → ℝ) (hT : 0 < T.length)
    (hs : SortedLe T) (hl : LoadCurve load T P) (hl' : LoadRate rate T P) (hr : NoRepeatedPoint T P) (hc : dT * eig ≠ 0)
    (hs0 : s ≤ T[0]) (hst : s ≤ t) :
    edloadCos impl T P omega phase dT eig t = .ok (
      (((List.range (T.length - 1)).filter (fun k => decide (T.getD k 0 = T.getD (k+1) 0 ∧ T.getD k 0 ≤ t))).map
        (fun k => (P.getD (k+1) 0 - P.getD k 0) * cos (omega * T.getD k 0 + phase) * exp (-(dT * eig) * (t - T.getD k 0)))).sum
      + ∫ τ in s..t, (rate τ * cos (omega * τ + phase) - load τ * (omega * sin (omega * τ + phase))) * exp (-(dT * eig) * (t - τ))) := by
  classical
  have hlen := hl.len
  have eT : ∀ k (hk : k < T.length), T[k] = nth T k := fun k hk => (nth_eq_getElem hk).symm
  have eP : ∀ k (hk : k < P.length), P[k] = nth P k := fun k hk => (nth_eq_getElem hk).symm
  have key := load_engine
    (F := fun τ => (rate τ * cos (omega * τ + phase) - load τ * (omega * sin (omega * τ + phase))) * exp (-(dT * eig) * (t - τ)))
    hs hT (noRepeat_of hlen hr)
    (G := fun k τ => ((nth P (k+1) - nth P k)/(nth T (k+1) - nth T k) * cos (omega * τ + phase) -
      (nth P k + (nth P (k+1) - nth P k)/(nth T (k+1) - nth T k)*(τ - nth T k)) * (omega * sin (omega * τ + phase))) * exp (-(dT*eig)*(t - τ)))
    (fun k => by fun_prop)
    (fun k hk z h1 h2 => by
      have := hl'.seg k hk z (by rw [eT]; exact h1) (by rw [eT]; exact h2)
      have h' := hl.seg k hk z (by rw [eT]; exact h1) (by rw [eT]; exact h2)
      simp only [this, h', line, eT, eP])
    (fun z hz => by
      rw [hl'.out hT z (by rw [eT, eT]; exact hz), hl.out hT z (by rw [eT, eT]; exact hz), zero_mul, zero_mul, sub_zero, zero_mul])
    (by rw [← eT 0 hT]; exact hs0) hst
    (fun k => EDc_cc_s (nth T k) (nth P k) omega phase eig t dT)
    (fun k => EDc_cl_s (nth T k) (nth T (k+1)) (nth P k) omega phase eig t dT)
    (fun k => EDc_rc_s (nth T k) (nth T (k+1)) (nth P k) (nth P (k+1)) omega phase eig t dT)
    (fun k => EDc_rl_s (nth T k) (nth T (k+1)) (nth P k) (nth P (k+1)) omega phase eig t dT)
    (fun k hk hlt hP => by rw [← hP]; exact EDc_cc (P1 := nth P k) hc hlt.ne)
    (fun k hk hlt hP => by rw [← hP]; exact EDc_cl (P1 := nth P k) hc hlt.ne)
    (fun k hk hlt hP => EDc_rc hc hlt.ne) (fun k hk hlt hP => EDc_rl hc hlt.ne)
  unfold edloadCos
  rw [loadSegments_eq (noRepeat_of hlen hr)]
  simp only [bind, Except.bind, pure, Except.pure]
  rw [← key]
  congr 1
  have hstep : segmentsLessThan T t ((segs T).filter (fun i => decide (nth T (i+1) - nth T i = 0))) true =
      (List.range (T.length - 1)).filter (fun k => decide (T.getD k 0 = T.getD (k+1) 0 ∧ T.getD k 0 ≤ t)) := by
    unfold segmentsLessThan segs
    rw [List.filter_filter]
    apply List.filter_congr
    intro k hk
    simp only [if_true]
    rw [← Bool.decide_and]
    apply decide_eq_decide.2
    rw [sub_eq_zero]
    constructor
    · rintro ⟨h1, h2⟩; exact ⟨h2.symm, le_trans (le_of_eq h2.symm) h1⟩
    · rintro ⟨h1, h2⟩; exact ⟨le_trans (le_of_eq h1.symm) h2, h1.symm⟩
  have hsl : (fun k => (P.getD (k+1) 0 - P.getD k 0) * cos (omega * T.getD k 0 + phase) * exp (-(dT * eig) * (t - T.getD k 0))) =
      fun k => EDc_sl_s (T.getD k 0) (P.getD k 0) (P.getD (k+1) 0) omega phase eig t dT := by
    funext k
    simp only [EDc_sl_s, neg_mul]
    ring
  rw [hstep, hsl]
  cases impl
  · dsimp only; ring
  · dsimp only
    rw [EDc_sv.1, EDc_sv.2.1, EDc_sv.2.2.1, EDc_sv.2.2.2.1, EDc_sv.2.2.2.2]
    ring

end Geotecha.Speccon
