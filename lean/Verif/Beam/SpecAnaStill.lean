import Verif.Beam.SpecAnaLoads

/-!
# Stationary loads of the analytical solution, and the whole column
-/
set_option autoImplicit false
set_option linter.unusedVariables false

namespace Geotecha.Beam

open Real Geotecha.Speccon Geotecha.Piecewise Geotecha.Spec intervalIntegral MeasureTheory

/-- The stationary loads stored in the object are the loads `ls` (normalised): one history each, times in order, no point repeated,
none before `T0`; no harmonic factors. -/
structure Spec.Steady (st : Stationary) (T0 : ℝ) (ls : List SLoad) : Prop where
  x : st.x = ls.map SLoad.x
  op : st.op = ls.map SLoad.om
  vs : List.Forall₂ (fun (p : PolyLine ℝ) (l : SLoad) => p.getXY.1 = .ok l.pts) st.vs ls
  plain : ∀ l ∈ ls, l.om = none
  some' : ∀ l ∈ ls, l.pts ≠ []
  sorted : ∀ l ∈ ls, SortedLe (l.pts.map Prod.fst)
  norep : ∀ l ∈ ls, NoRepeatedPoint (l.pts.map Prod.fst) (l.pts.map Prod.snd)
  after : ∀ l ∈ ls, ∀ p ∈ l.pts, T0 ≤ p.1

theorem hist_curve {pts : List (ℝ × ℝ)} (hs : SortedLe (pts.map Prod.fst)) :
    LoadCurve (Spec.hist pts) (pts.map Prod.fst) (pts.map Prod.snd) := by
  have hz : (pts.map Prod.fst).zip (pts.map Prod.snd) = pts := by
    rw [← List.unzip_fst, ← List.unzip_snd]; exact List.zip_unzip pts
  refine ⟨by simp, fun k hk τ h1 h2 => ?_, fun h0 τ hτ => ?_⟩
  · have hk' : k + 1 < pts.length := by simpa using hk
    unfold Spec.hist
    rw [if_pos]
    · have := polyLeft_eq_line (x := pts.map Prod.fst) (y := pts.map Prod.snd) hs (by simp) (j := k) hk (v := τ)
        (by rw [nth_eq_getElem, nth_eq_getElem hk]; exact h1.trans h2) (by rw [nth_eq_getElem]; exact h1.le) (by rw [nth_eq_getElem hk]; exact h2.le)
        (fun i hi hlt => lt_of_le_of_lt (nth_mono hs (show i + 1 ≤ k by omega) (by omega)) (by rw [nth_eq_getElem]; exact h1))
      rw [hz] at this
      rw [this, nth_eq_getElem (by omega), nth_eq_getElem hk, nth_eq_getElem (by simp; omega), nth_eq_getElem (by simpa using hk')]
    · refine ⟨⟨pts[k], List.getElem_mem _, ?_⟩, ⟨pts[k+1], List.getElem_mem _, ?_⟩⟩
      · simpa using h1.le
      · simpa using h2.le
  · unfold Spec.hist
    rw [if_neg]
    rintro ⟨⟨p, hp, hp'⟩, ⟨q, hq, hq'⟩⟩
    obtain ⟨i, hi, rfl⟩ := List.getElem_of_mem hp
    obtain ⟨m, hm, rfl⟩ := List.getElem_of_mem hq
    rcases hτ with hτ | hτ
    · have := nth_mono hs (Nat.zero_le i) (show i < _ by simpa using hi)
      rw [nth_eq_getElem h0, nth_eq_getElem (by simpa using hi)] at this
      rw [List.getElem_map] at this
      rw [List.getElem_map] at this hτ
      linarith
    · have := nth_mono hs (show m ≤ (pts.map Prod.fst).length - 1 by simp; omega) (by omega)
      rw [nth_eq_getElem (by simpa using hm), nth_eq_getElem (by omega)] at this
      rw [List.getElem_map] at this
      linarith

theorem still_int {st : Stationary} {T0 : ℝ} {ls : List SLoad} (h : Spec.Steady st T0 ls) (b p q : ℝ) :
    IntervalIntegrable (Spec.stillMode ls b) volume p q := by
  unfold Spec.stillMode
  refine list_int ls (fun l hl p q => ?_) p q
  exact (curve_int (h.sorted l hl) (by simpa using List.length_pos_iff.2 (h.some' l hl)) (hist_curve (h.sorted l hl)) p q).mul_const _

open Ana in
/-- The stationary loads as the code evaluates them. -/
theorem stat_ok {s : SBeam} {e : Eigs s.n} {T0 : ℝ} {ls : List SLoad} (h : Spec.Steady s.stat T0 ls) (ho : ∀ j, e.eigs j ≠ 0) {t : ℝ} (ht : T0 ≤ t)
    (j : Fin s.n ⊕ Fin s.n) :
    s.stat_E e t j = .ok (∑ i : Fin s.n, cdecay (fun τ => ((Spec.stillMode ls (s.beta.getD i 0) τ : ℝ) : ℂ)) (e.eigs j) T0 t * e.W j (.inr i)) := by
  obtain ⟨hx, hop, hvs, hpl, hne, hso, hnr, haf⟩ := h
  unfold SBeam.stat_E
  rw [hx, hop]
  have key : ∀ (vs : List (PolyLine ℝ)) (ls : List SLoad), List.Forall₂ (fun (p : PolyLine ℝ) (l : SLoad) => p.getXY.1 = .ok l.pts) vs ls →
      (∀ l ∈ ls, l.om = none) → (∀ l ∈ ls, l.pts ≠ []) → (∀ l ∈ ls, SortedLe (l.pts.map Prod.fst)) →
      (∀ l ∈ ls, NoRepeatedPoint (l.pts.map Prod.fst) (l.pts.map Prod.snd)) → (∀ l ∈ ls, ∀ p ∈ l.pts, T0 ≤ p.1) →
      ((ls.map SLoad.x).zip (vs.zip (ls.map SLoad.om))).mapM (s.stat_one e t j) =
        .ok (ls.map fun l => ∑ i : Fin s.n, cdecay (fun τ => ((Spec.hist l.pts τ * sin (s.beta.getD i 0 * l.x) : ℝ) : ℂ)) (e.eigs j) T0 t * e.W j (.inr i)) := by
    intro vs ls hvs
    induction hvs with
    | nil => intros; rfl
    | @cons p l vs ls hpl' _ ih =>
      intro a1 a2 a3 a4 a5
      simp only [List.map_cons, List.zip_cons_cons, List.mapM_cons]
      rw [ih (fun l hl => a1 l (by simp [hl])) (fun l hl => a2 l (by simp [hl])) (fun l hl => a3 l (by simp [hl])) (fun l hl => a4 l (by simp [hl]))
        (fun l hl => a5 l (by simp [hl]))]
      have hfl : s.stat_one e t j (l.x, p, l.om) = .ok (∑ i : Fin s.n, cdecay (fun τ => ((Spec.hist l.pts τ * sin (s.beta.getD i 0 * l.x) : ℝ) : ℂ)) (e.eigs j) T0 t * e.W j (.inr i)) := by
        obtain ⟨g1, g2⟩ := getX_of hpl'
        have hlen : 0 < (l.pts.map Prod.fst).length := by simpa using List.length_pos_iff.2 (a2 l (by simp))
        have hE := Cx.C184_Eload_linear_complex s.impl (l.pts.map Prod.fst) (l.pts.map Prod.snd) 1 T0 t (e.eigs j) (Spec.hist l.pts) hlen
          (a3 l (by simp)) (hist_curve (a3 l (by simp))) (a4 l (by simp)) (by simpa using ho j)
          (by rw [List.getElem_map]; exact a5 l (by simp) _ (List.getElem_mem _)) ht
        unfold SBeam.stat_one SBeam.timeE
        simp only [g1, g2, a1 l (by simp), hE, Bind.bind, Except.bind, pure, Except.pure]
        congr 1
        rw [← List.ofFn_eq_map, List.sum_ofFn, Finset.mul_sum]
        refine Finset.sum_congr rfl fun i _ => ?_
        have : cdecay (fun τ => ((Spec.hist l.pts τ * sin (s.beta.getD i 0 * l.x) : ℝ) : ℂ)) (e.eigs j) T0 t =
            ((sin (s.beta.getD i 0 * l.x) : ℝ) : ℂ) * cdecay (fun τ => ((Spec.hist l.pts τ : ℝ) : ℂ)) (e.eigs j) T0 t := by
          rw [← cdecay_mul]
          congr 1
          funext τ
          push_cast
          ring
        rw [this, one_mul, mul_comm l.x]
        unfold cdecay
        simp only [Complex.ofReal_one, one_mul]
        ring
      rw [hfl]
      rfl
  rw [key s.stat.vs ls hvs hpl hne hso hnr haf]
  simp only [Bind.bind, Except.bind, pure, Except.pure]
  congr 1
  have hint : ∀ b : ℝ, ∀ l ∈ ls, ∀ p q, IntervalIntegrable (fun τ => Spec.hist l.pts τ * sin (b * l.x)) volume p q := fun b l hl p q =>
    (curve_int (hso l hl) (by simpa using List.length_pos_iff.2 (hne l hl)) (hist_curve (hso l hl)) p q).mul_const _
  unfold Spec.stillMode
  rw [Finset.sum_congr rfl fun i _ => by
    rw [cdecay_list ls (g := fun l τ => Spec.hist l.pts τ * sin (s.beta.getD (↑i) 0 * l.x)) (hint _)]]
  clear key hvs hx hop
  induction ls with
  | nil => simp
  | cons l ls ih =>
    simp only [List.map_cons, List.sum_cons, add_mul, Finset.sum_add_distrib]
    rw [ih (fun l hl => hpl l (by simp [hl])) (fun l hl => hne l (by simp [hl])) (fun l hl => hso l (by simp [hl]))
      (fun l hl => hnr l (by simp [hl])) (fun l hl => haf l (by simp [hl])) (fun b l hl => hint b l (by simp [hl]))]

/-- All loads on the equations: none on the first `n` (they define the rates). -/
noncomputable def Spec.loads (s : SBeam) (ls : List SLoad) : Fin s.n ⊕ Fin s.n → ℝ → ℝ
  | .inl _ => fun _ => 0
  | .inr i => fun t => Spec.onMode s.veh (s.beta.getD i 0) t + Spec.stillMode ls (s.beta.getD i 0) t

theorem loads_int {s : SBeam} {T0 : ℝ} {ls : List SLoad} (hr : Spec.Ready T0 s.veh) (h : Spec.Steady s.stat T0 ls) (i : Fin s.n ⊕ Fin s.n) (p q : ℝ) :
    IntervalIntegrable (Spec.loads s ls i) volume p q := by
  rcases i with i | i
  · show IntervalIntegrable (fun _ => (0:ℝ)) volume p q
    simp
  · exact (onMode_int hr _ p q).add (still_int h _ p q)

open Ana in
/-- One column of `v E (Γ v)⁻¹ θ`. -/
theorem vE_ok {s : SBeam} {e : Eigs s.n} {T0 : ℝ} {ls : List SLoad} (hr : Spec.Ready T0 s.veh) (ho : Spec.OffResonance s e)
    (h : Spec.Steady s.stat T0 ls) {t : ℝ} (ht : T0 ≤ t) :
    s.vE e t = .ok (fun k => sol e.eigs e.v e.W (Spec.loads s ls) T0 t k) := by
  unfold SBeam.vE
  rw [Smear.mapM_ok_map _ (fun j : Fin s.n ⊕ Fin s.n => (j, cdecay (fun τ => ∑ i, e.W j i * ((Spec.loads s ls i τ : ℝ) : ℂ)) (e.eigs j) T0 t))]
  · simp only [Bind.bind, Except.bind, pure, Except.pure, List.map_map]
    congr 1
    funext k
    unfold sol
    rw [← Finset.sum_map_toList]
    rfl
  · intro j _
    rw [mvpl_ok hr ho ht, stat_ok h (fun j => (ho j).1) ht]
    simp only [Bind.bind, Except.bind, pure, Except.pure]
    congr 2
    rw [cdecay_finset _ (fun i _ p q => (int_c (loads_int hr h i p q)).const_mul _), Fintype.sum_sum_type, ← Finset.sum_add_distrib]
    have z : ∑ i : Fin s.n, cdecay (fun τ => e.W j (.inl i) * ((Spec.loads s ls (.inl i) τ : ℝ) : ℂ)) (e.eigs j) T0 t = 0 := by
      refine Finset.sum_eq_zero fun i _ => ?_
      rw [cdecay_mul]
      unfold cdecay Spec.loads
      simp
    rw [z, zero_add]
    refine Finset.sum_congr rfl fun i _ => ?_
    rw [cdecay_mul, ← add_mul, mul_comm]
    congr 1
    rw [← cdecay_add (fun p q => int_c (onMode_int hr _ p q)) (fun p q => int_c (still_int h _ p q))]
    congr 1
    funext τ
    simp [Spec.loads]

end Geotecha.Beam
