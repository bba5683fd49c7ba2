import Verif.Speccon.Duhamel
import Verif.Piecewise.ModelPoly

/-!
# Time histories of loads: PolyLine with an optional cosine factor
-/

set_option linter.unusedVariables false
open Real intervalIntegral MeasureTheory
namespace Geotecha.Speccon
open Geotecha.Spec Geotecha.Piecewise

/-- The factor `mult`: `cos(omega * t + phase)` if `omega_phase` is given, else 1 (speccon1d.py:157-161 and the same
lines of the other functions). -/
noncomputable def mult (om : Option (ℝ × ℝ)) (t : ℝ) : ℝ :=
  match om with
  | none => 1
  | some (w, ph) => cos (w * t + ph)

/-- `pEload_linear` (integrals.py:564-660) or `pEload_coslinear` (integrals.py:764-863), as selected by `om_ph is None`
(e.g. speccon1d.py:828-833); one entry. -/
noncomputable def pEload (impl : Impl) (p : PolyLine ℝ) (om : Option (ℝ × ℝ)) (dT eig t : ℝ) : Except PyErr ℝ := do
  let x ← p.getX.1
  let y ← p.getY.1
  match om with
  | none => eloadLinear impl x y dT eig t
  | some (w, ph) => eloadCos impl x y w ph dT eig t

/-- `pEDload_linear` (integrals.py:464-561) or `pEDload_coslinear` (integrals.py:663-761), as selected by
`om_ph is None` (e.g. speccon1d.py:606-610); one entry. -/
noncomputable def pEDload (impl : Impl) (p : PolyLine ℝ) (om : Option (ℝ × ℝ)) (dT eig t : ℝ) : Except PyErr ℝ := do
  let x ← p.getX.1
  let y ← p.getY.1
  match om with
  | none => edloadLinear impl x y dT eig t
  | some (w, ph) => edloadCos impl x y w ph dT eig t

/-- `pinterp_x_y(mag_vs_time, t, choose_max=True)`, piecewise_linear_1d.py:1059-1084. -/
noncomputable def pinterp (p : PolyLine ℝ) (t : ℝ) : Except PyErr ℝ := do
  let x ← p.getX.1
  let y ← p.getY.1
  interpXY x y t true

/-- From time `s` to time `tend` the load given by the points of `p` and the optional cosine factor `om` is `h`; just
before `s` it is `h0`.  The points cover the period: either they start at `s`, or later and from zero; they end at
`tend` (without a final step) or later. -/
structure LoadHistory (p : PolyLine ℝ) (om : Option (ℝ × ℝ)) (s tend : ℝ) (h : ℝ → ℝ) (h0 : ℝ) : Prop where
  ex : ∃ T P : List ℝ, p.getX.1 = .ok T ∧ p.getY.1 = .ok P ∧ P.length = T.length ∧ SortedLe T ∧ NoRepeatedPoint T P ∧
    ∃ n, ∃ hn : T.length = n + 2, T[0] < T[n+1] ∧ s ≤ T[0] ∧ (T[0] = s ∨ P.getD 0 0 = 0) ∧
      (tend < T[n+1] ∨ (tend = T[n+1] ∧ T[n] < T[n+1])) ∧
      h0 = P.getD 0 0 * mult om s ∧ ∀ t, s ≤ t → t ≤ tend → h t = polyRight (T.zip P) t * mult om t

/-! ## Consequences -/

/-- derivative of the factor -/
noncomputable def dmult (om : Option (ℝ × ℝ)) (t : ℝ) : ℝ :=
  match om with
  | none => 0
  | some (w, ph) => -(w * sin (w * t + ph))

theorem mult_deriv (om : Option (ℝ × ℝ)) (t : ℝ) : HasDerivAt (mult om) (dmult om t) t := by
  cases om with
  | none => exact hasDerivAt_const t 1
  | some q =>
    have h : HasDerivAt (fun t : ℝ => q.1 * t + q.2) (q.1 * 1) t := ((hasDerivAt_id t).const_mul q.1).add_const _
    exact h.cos.congr_deriv (by simp only [dmult]; ring)

theorem mult_cont (om : Option (ℝ × ℝ)) : Continuous (mult om) := by
  cases om with
  | none => exact continuous_const
  | some q => unfold mult; fun_prop

theorem dmult_cont (om : Option (ℝ × ℝ)) : Continuous (dmult om) := by
  cases om with
  | none => exact continuous_const
  | some q => unfold dmult; fun_prop

/-- the line of segment `k` -/
noncomputable def segLine (T P : List ℝ) (k : ℕ) (τ : ℝ) : ℝ :=
  nth P k + (nth P (k+1) - nth P k)/(nth T (k+1) - nth T k)*(τ - nth T k)

/-- its slope -/
noncomputable def segSlope (T P : List ℝ) (k : ℕ) (τ : ℝ) : ℝ := (nth P (k+1) - nth P k)/(nth T (k+1) - nth T k)

theorem loadCurve_pw {T P : List ℝ} (hs : SortedLe T) (hl : P.length = T.length) : LoadCurve (pw T (segLine T P)) T P where
  len := hl
  seg := by
    intro k hk τ h1 h2
    rw [← nth_eq_getElem (show k < T.length by omega)] at h1
    rw [← nth_eq_getElem hk] at h2
    rw [pw_in hs hk h1 h2]
    simp only [segLine, line, nth_eq_getElem hk, nth_eq_getElem (show k < T.length by omega),
      nth_eq_getElem (show k < P.length by omega), nth_eq_getElem (show k+1 < P.length by omega)]
  out := by
    intro h τ hτ
    rw [← nth_eq_getElem h, ← nth_eq_getElem (show T.length - 1 < T.length by omega)] at hτ
    exact pw_out hs (hτ.imp le_of_lt le_of_lt)

theorem loadRate_pw {T P : List ℝ} (hs : SortedLe T) (hl : P.length = T.length) : LoadRate (pw T (segSlope T P)) T P where
  len := hl
  seg := by
    intro k hk τ h1 h2
    rw [← nth_eq_getElem (show k < T.length by omega)] at h1
    rw [← nth_eq_getElem hk] at h2
    rw [pw_in hs hk h1 h2]
    simp only [segSlope, nth_eq_getElem hk, nth_eq_getElem (show k < T.length by omega),
      nth_eq_getElem (show k < P.length by omega), nth_eq_getElem (show k+1 < P.length by omega)]
  out := by
    intro h τ hτ
    rw [← nth_eq_getElem h, ← nth_eq_getElem (show T.length - 1 < T.length by omega)] at hτ
    exact pw_out hs (hτ.imp le_of_lt le_of_lt)

/-- integrand of the load terms -/
noncomputable def gE (T P : List ℝ) (om : Option (ℝ × ℝ)) (τ : ℝ) : ℝ := pw T (segLine T P) τ * mult om τ

/-- integrand of the rate of load terms -/
noncomputable def gD (T P : List ℝ) (om : Option (ℝ × ℝ)) (τ : ℝ) : ℝ :=
  pw T (segSlope T P) τ * mult om τ + pw T (segLine T P) τ * dmult om τ

theorem gE_cont (T P : List ℝ) (om : Option (ℝ × ℝ)) : PCont (gE T P om) :=
  (pw_cont T (fun k => by unfold segLine; fun_prop)).mul (mult_cont om)

theorem gD_cont (T P : List ℝ) (om : Option (ℝ × ℝ)) : PCont (gD T P om) :=
  ((pw_cont T (fun k => by unfold segSlope; fun_prop)).mul (mult_cont om)).add
    ((pw_cont T (fun k => by unfold segLine; fun_prop)).mul (dmult_cont om))

open Classical in
/-- the steps -/
noncomputable def stepsD (T P : List ℝ) (om : Option (ℝ × ℝ)) (c t : ℝ) : ℝ :=
  ∑ k ∈ Finset.range (T.length - 1), if nth T k = nth T (k+1) then jump ((nth P (k+1) - nth P k) * mult om (nth T k)) (nth T k) c t else 0

theorem pEload_eq {impl : Impl} {p : PolyLine ℝ} {om : Option (ℝ × ℝ)} {T P : List ℝ} (hx : p.getX.1 = .ok T) (hy : p.getY.1 = .ok P)
    (hl : P.length = T.length) (hs : SortedLe T) (hr : NoRepeatedPoint T P) (hT : 0 < T.length) {s t dT eig : ℝ} (hs0 : s ≤ T[0])
    (hc : dT * eig ≠ 0) (hst : s ≤ t) : pEload impl p om dT eig t = .ok (decay (gE T P om) (dT * eig) s t) := by
  unfold pEload
  rw [hx, hy]
  cases om with
  | none =>
    refine (C31_Eload_partial impl T P dT eig s t _ hT hs (loadCurve_pw hs hl) hr hc hs0 hst).trans ?_
    simp only [decay, gE, mult, mul_one]
  | some q =>
    exact (C48_Eload_cos impl T P q.1 q.2 dT eig s t _ hT hs (loadCurve_pw hs hl) hr hc hs0 hst)

theorem pEDload_eq {impl : Impl} {p : PolyLine ℝ} {om : Option (ℝ × ℝ)} {T P : List ℝ} (hx : p.getX.1 = .ok T) (hy : p.getY.1 = .ok P)
    (hl : P.length = T.length) (hs : SortedLe T) (hr : NoRepeatedPoint T P) (hT : 0 < T.length) {s t dT eig : ℝ} (hs0 : s ≤ T[0])
    (hc : dT * eig ≠ 0) (hst : s ≤ t) :
    pEDload impl p om dT eig t = .ok (stepsD T P om (dT * eig) t + decay (gD T P om) (dT * eig) s t) := by
  classical
  have key : ∀ f : ℕ → ℝ, (((List.range (T.length - 1)).filter (fun k => decide (T.getD k 0 = T.getD (k+1) 0 ∧ T.getD k 0 ≤ t))).map f).sum
      = ∑ k ∈ Finset.range (T.length - 1), if nth T k = nth T (k+1) then (if nth T k ≤ t then f k else 0) else 0 := by
    intro f
    rw [sum_filter_range]
    refine Finset.sum_congr rfl (fun k _ => ?_)
    simp only [decide_eq_true_iff]
    by_cases h1 : nth T k = nth T (k+1)
    · by_cases h2 : nth T k ≤ t
      · rw [if_pos ⟨h1, h2⟩, if_pos h1, if_pos h2]
      · rw [if_neg (fun h => h2 h.2), if_pos h1, if_neg h2]
    · rw [if_neg (fun h => h1 h.1), if_neg h1]
  unfold pEDload
  rw [hx, hy]
  cases om with
  | none =>
    refine (C30_EDload_partial impl T P dT eig s t _ hT hs (loadRate_pw hs hl) hr hc hs0 hst).trans ?_
    rw [key]
    simp only [decay, gD, stepsD, jump, mult, dmult, mul_one, mul_zero, add_zero]
  | some q =>
    refine (C49_EDload_cos impl T P q.1 q.2 dT eig s t _ _ hT hs (loadCurve_pw hs hl) (loadRate_pw hs hl) hr hc hs0 hst).trans ?_
    rw [key]
    simp only [decay, gD, stepsD, jump, mult, dmult, mul_neg, sub_eq_add_neg]

theorem stepsD_int (T P : List ℝ) (om : Option (ℝ × ℝ)) (c a b : ℝ) : IntervalIntegrable (stepsD T P om c) volume a b := by
  classical
  unfold stepsD
  have : ∀ k ∈ Finset.range (T.length - 1), IntervalIntegrable (fun t => if nth T k = nth T (k+1) then
      jump ((nth P (k+1) - nth P k) * mult om (nth T k)) (nth T k) c t else 0) volume a b := by
    intro k _
    by_cases h : nth T k = nth T (k+1)
    · simp only [h, if_true]; exact jump_int _ _ _ _ _
    · simp only [h, if_false]; exact intervalIntegrable_const
  have h2 := IntervalIntegrable.sum (Finset.range (T.length - 1)) this
  refine h2.congr (fun t _ => ?_)
  simp only [Finset.sum_apply]

theorem stepsD_ode {T P : List ℝ} (hs : SortedLe T) (om : Option (ℝ × ℝ)) (c s t : ℝ) (hs0 : s ≤ nth T 0) (hst : s ≤ t) :
    stepsD T P om c t + c * ∫ r in s..t, stepsD T P om c r = ∑ k ∈ Finset.range (T.length - 1),
      if nth T k = nth T (k+1) then (if nth T k ≤ t then (nth P (k+1) - nth P k) * mult om (nth T k) else 0) else 0 := by
  classical
  unfold stepsD
  rw [intervalIntegral.integral_finsetSum, Finset.mul_sum, ← Finset.sum_add_distrib]
  · refine Finset.sum_congr rfl (fun k hk => ?_)
    have hk := Finset.mem_range.1 hk
    by_cases h : nth T k = nth T (k+1)
    · simp only [h, if_true]
      refine jump_ode _ _ c s t ?_ hst
      exact hs0.trans (nth_mono hs (Nat.zero_le _) (by omega))
    · simp only [h, if_false]; simp
  · intro k _
    by_cases h : nth T k = nth T (k+1)
    · simp only [h, if_true]; exact jump_int _ _ _ _ _
    · simp only [h, if_false]; exact intervalIntegrable_const

/-- Adding up the steps and the ramps gives the change of the load. -/
theorem telescope {T P : List ℝ} (hl : P.length = T.length) (hs : SortedLe T) (om : Option (ℝ × ℝ)) {s t : ℝ} {n : ℕ} (hn : T.length = n + 2)
    (hs0 : s ≤ nth T 0) (h0 : nth T 0 = s ∨ nth P 0 = 0) (hst : s ≤ t)
    (hend : t < nth T (n+1) ∨ (t = nth T (n+1) ∧ nth T n < nth T (n+1))) :
    (∑ k ∈ Finset.range (T.length - 1),
      if nth T k = nth T (k+1) then (if nth T k ≤ t then (nth P (k+1) - nth P k) * mult om (nth T k) else 0) else 0)
    + ∫ r in s..t, gD T P om r = polyRight (T.zip P) t * mult om t - nth P 0 * mult om s := by
  classical
  set c := mult om
  set V := polyRight (T.zip P) t * c t with hV
  have hgD : gD T P om = fun τ => pw T (fun k z => segSlope T P k z * c z + segLine T P k z * dmult om z) τ := by
    funext τ
    unfold gD pw
    rw [Finset.sum_mul, Finset.sum_mul, ← Finset.sum_add_distrib]
    refine Finset.sum_congr rfl (fun k _ => ?_)
    split_ifs
    · rfl
    · simp
  have hGc : ∀ k, Continuous (fun z => segSlope T P k z * c z + segLine T P k z * dmult om z) := fun k => by
    have h1 := mult_cont om
    have h2 := dmult_cont om
    unfold segSlope segLine
    fun_prop
  have hFTC : ∀ k a b, ∫ z in a..b, (segSlope T P k z * c z + segLine T P k z * dmult om z) =
      segLine T P k b * c b - segLine T P k a * c a := by
    intro k a b
    refine integral_eq_sub_of_hasDerivAt (f := fun z => segLine T P k z * c z) (fun x _ => ?_) ((hGc k).intervalIntegrable _ _)
    have h1 : HasDerivAt (segLine T P k) (segSlope T P k x * 1) x :=
      (((hasDerivAt_id x).sub_const (nth T k)).const_mul _).const_add _
    exact (h1.mul (mult_deriv om x)).congr_deriv (by rw [mul_one])
  have hL0 : ∀ k, segLine T P k (nth T k) = nth P k := fun k => by simp [segLine]
  have hL1 : ∀ k, nth T k < nth T (k+1) → segLine T P k (nth T (k+1)) = nth P (k+1) := fun k h => by
    unfold segLine
    rw [div_mul_cancel₀ _ (by linarith)]; ring
  have hVk : ∀ k, k + 1 < T.length → nth T k ≤ t → t < nth T (k+1) → V = segLine T P k t * c t := by
    intro k hk h1 h2
    rw [hV, polyRight_eq_line hs hl.symm hk (lt_of_le_of_lt h1 h2) h1 h2.le (fun i hi hi2 hlt =>
      lt_of_lt_of_le h2 (nth_mono hs (by omega) (by omega)))]
    rfl
  rw [hgD, pw_integral hs (by omega) hGc hs0 hst, ← Finset.sum_add_distrib]
  have hterm : ∀ k ∈ Finset.range (T.length - 1),
      ((if nth T k = nth T (k+1) then (if nth T k ≤ t then (nth P (k+1) - nth P k) * c (nth T k) else 0) else 0)
      + ∫ z in (min (nth T k) t)..(min (nth T (k+1)) t), (segSlope T P k z * c z + segLine T P k z * dmult om z)) =
      (fun k => if nth T k ≤ t then nth P k * c (nth T k) else V) (k+1) -
      (fun k => if nth T k ≤ t then nth P k * c (nth T k) else V) k := by
    intro k hk
    have hk := Finset.mem_range.1 hk
    have hm : nth T k ≤ nth T (k+1) := nth_mono hs (by omega) (by omega)
    simp only
    rcases hm.eq_or_lt with he | hlt
    · rw [if_pos he, ← he, integral_same, add_zero]
      split_ifs
      · ring
      · ring
    · rw [if_neg hlt.ne, zero_add, hFTC]
      rcases le_or_gt (nth T (k+1)) t with h | h
      · rw [min_eq_left h, min_eq_left (hlt.le.trans h), if_pos h, if_pos (hlt.le.trans h), hL0, hL1 k hlt]
      · rw [min_eq_right h.le, if_neg (not_le.2 h)]
        rcases le_or_gt (nth T k) t with h' | h'
        · rw [min_eq_left h', if_pos h', hL0, ← hVk k (by omega) h' h]
        · rw [min_eq_right h'.le, if_neg (not_le.2 h')]; ring
  rw [Finset.sum_congr rfl hterm,
    Finset.sum_range_sub (fun k => if nth T k ≤ t then nth P k * c (nth T k) else V) (T.length - 1)]
  rw [show T.length - 1 = n + 1 by omega]
  have hlast : (if nth T (n+1) ≤ t then nth P (n+1) * c (nth T (n+1)) else V) = V := by
    rcases hend with h | ⟨h, h'⟩
    · rw [if_neg (not_le.2 h)]
    · rw [if_pos h.ge, hV, polyRight_eq_line hs hl.symm (show n + 1 < T.length by omega) h' (by rw [h]; exact h'.le) h.le
        (fun i hi hi2 => by omega)]
      rw [h]
      congr 1
      exact (hL1 n h').symm
  rw [hlast]
  congr 1
  rcases h0 with h0 | h0
  · rw [h0, if_pos hst]
  · rw [h0, zero_mul, zero_mul]
    split_ifs with h
    · rfl
    · rw [hV, polyRight_below hs hl.symm (by omega) (not_le.1 h), h0, zero_mul]

/-- What the solution needs to know of a load. -/
theorem LoadHistory.solve {p : PolyLine ℝ} {om : Option (ℝ × ℝ)} {s tend : ℝ} {h : ℝ → ℝ} {h0 : ℝ} (H : LoadHistory p om s tend h h0) :
    (∀ t, s ≤ t → t ≤ tend → ∃ v, pinterp p t = .ok v ∧ v * mult om t = h t) ∧
    (∀ t, s ≤ t → t ≤ tend → IntervalIntegrable h volume s t) ∧
    (∀ dT eig, dT * eig ≠ 0 → ∃ F : ℝ → ℝ, Continuous F ∧
      (∀ impl t, s ≤ t → t ≤ tend → pEload impl p om dT eig t = .ok (F t)) ∧
      ∀ t, s ≤ t → t ≤ tend → F t + dT * eig * ∫ r in s..t, F r = ∫ r in s..t, h r) ∧
    (∀ dT eig, dT * eig ≠ 0 → ∃ D : ℝ → ℝ, (∀ a b, IntervalIntegrable D volume a b) ∧
      (∀ impl t, s ≤ t → t ≤ tend → pEDload impl p om dT eig t = .ok (D t)) ∧
      ∀ t, s ≤ t → t ≤ tend → D t + dT * eig * ∫ r in s..t, D r = h t - h0) := by
  obtain ⟨T, P, hx, hy, hl, hs, hr, n, hn, hspan, hs0, hz, hend, hh0, hh⟩ := H.ex
  have hT : 0 < T.length := by omega
  have e0 : nth T 0 = T[0] := nth_eq_getElem hT
  have e1 : nth T (n+1) = T[n+1] := nth_eq_getElem (by omega)
  have e2 : nth T n = T[n] := nth_eq_getElem (by omega)
  have hend' : ∀ t, t ≤ tend → t < nth T (n+1) ∨ (t = nth T (n+1) ∧ nth T n < nth T (n+1)) := by
    intro t ht
    rw [e1, e2]
    rcases hend with h | ⟨h, h'⟩
    · exact Or.inl (lt_of_le_of_lt ht h)
    · rcases ht.lt_or_eq with g | g
      · exact Or.inl (by linarith)
      · exact Or.inr ⟨g.trans h, h'⟩
  have hin : ∀ t, interpXY T P t true = .ok (polyRight (T.zip P) t) := fun t =>
    interpXY_right hs hl.symm (by rw [show T.length - 1 = n + 1 by omega, e0, e1]; exact hspan) t
  have hnodes : ∃ C : Set ℝ, C.Countable ∧ ∀ r, s < r → r < tend → r ∉ C → h r = gE T P om r := by
    refine ⟨{v | v ∈ T}, (List.finite_toSet T).countable, ?_⟩
    intro r h1 h2 h3
    rw [hh r h1.le h2.le]
    unfold gE
    congr 1
    rcases lt_or_ge r (nth T 0) with hb | hb
    · rw [polyRight_below hs hl.symm hT hb, pw_out hs (Or.inl hb.le)]
      rcases hz with hz | hz
      · rw [e0, hz] at hb; linarith
      · exact hz
    · have hlt : r < nth T (n+1) := by
        rcases hend' r h2.le with h | ⟨h, _⟩
        · exact h
        · exact absurd (by rw [h]; exact nth_mem (by omega)) h3
      obtain ⟨j, hj⟩ := segmentContaining_in hs (by rw [show T.length - 1 = n + 1 by omega, e0, e1]; exact hspan) true hb
        (by rw [show T.length - 1 = n + 1 by omega]; exact hlt.le)
      obtain ⟨hj1, hj2, hj3⟩ := segmentContaining_true_some hj
      obtain ⟨g1, g2, g3⟩ := (segTest_iff hs hj1 r).1 hj2
      have g2' : nth T j < r := lt_of_le_of_ne g2 (fun e => h3 (by rw [← e]; exact nth_mem (by omega)))
      have g3' : r < nth T (j+1) := lt_of_le_of_ne g3 (fun e => h3 (by rw [e]; exact nth_mem (by omega)))
      rw [pw_in hs hj1 g2' g3', polyRight_eq_line hs hl.symm hj1 g1 g2 g3 (fun i hi hi2 hlt' =>
        lt_of_lt_of_le g3' (nth_mono hs (by omega) (by omega)))]
      rfl
  obtain ⟨C, hC, hCe⟩ := hnodes
  have hae : ∀ t, s ≤ t → t ≤ tend → ∀ᵐ r ∂volume, r ∈ Set.uIoc s t → h r = gE T P om r := by
    intro t h1 h2
    have : ∀ᵐ r ∂volume, r ∉ insert t C := (hC.insert t).ae_notMem volume
    filter_upwards [this] with r hr hrm
    rw [Set.uIoc_of_le h1] at hrm
    refine hCe r hrm.1 (lt_of_lt_of_le (lt_of_le_of_ne hrm.2 (fun e => hr (by simp [e]))) h2) (fun e => hr (by simp [e]))
  refine ⟨?_, ?_, ?_, ?_⟩
  · intro t h1 h2
    refine ⟨_, ?_, (hh t h1 h2).symm⟩
    unfold pinterp
    rw [hx, hy]
    exact hin t
  · intro t h1 h2
    refine ((gE_cont T P om).int s t).congr_ae ?_
    exact (ae_restrict_iff' measurableSet_uIoc).2 ((hae t h1 h2).mono (fun r hr hm => (hr hm).symm))
  · intro dT eig hc
    refine ⟨decay (gE T P om) (dT*eig) s, decay_continuous (gE_cont T P om) _ _, fun impl t h1 h2 => pEload_eq hx hy hl hs hr hT hs0 hc h1, ?_⟩
    intro t h1 h2
    rw [decay_ode (gE_cont T P om)]
    exact (intervalIntegral.integral_congr_ae (hae t h1 h2)).symm
  · intro dT eig hc
    refine ⟨fun t => stepsD T P om (dT * eig) t + decay (gD T P om) (dT * eig) s t, fun a b => (stepsD_int T P om _ a b).add
      ((decay_continuous (gD_cont T P om) _ _).intervalIntegrable a b), fun impl t h1 h2 => pEDload_eq hx hy hl hs hr hT hs0 hc h1, ?_⟩
    intro t h1 h2
    rw [intervalIntegral.integral_add (stepsD_int T P om _ s t) ((decay_continuous (gD_cont T P om) _ _).intervalIntegrable s t),
      mul_add]
    have a1 := stepsD_ode (P := P) hs om (dT*eig) s t (by rw [e0]; exact hs0) h1
    have a2 := decay_ode (gD_cont T P om) (dT*eig) s t
    have a3 := telescope hl hs om hn (s := s) (t := t) (by rw [e0]; exact hs0) (hz.imp (fun h => e0.trans h) id) h1 (hend' t h2)
    have a4 : h t = polyRight (T.zip P) t * mult om t := hh t h1 h2
    have a5 : nth P 0 * mult om s = h0 := hh0.symm
    linarith
end Geotecha.Speccon
