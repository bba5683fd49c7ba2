import Verif.Speccon.PropsHarm
import Mathlib.MeasureTheory.Integral.DivergenceTheorem

/-!
# Convolution with a decaying exponential solves `F' + c F = g` (helpers for C77)
-/

set_option linter.unusedVariables false
open Real intervalIntegral MeasureTheory
namespace Geotecha.Speccon
open Geotecha.Spec Geotecha.Piecewise

/-- Integrable on every interval and continuous off a countable set. -/
structure PCont (g : ℝ → ℝ) : Prop where
  int : ∀ a b, IntervalIntegrable g volume a b
  ex : ∃ C : Set ℝ, C.Countable ∧ ∀ x ∉ C, ContinuousAt g x

theorem PCont.mul {g c : ℝ → ℝ} (h : PCont g) (hc : Continuous c) : PCont (fun x => g x * c x) := by
  obtain ⟨C, h1, h2⟩ := h.ex
  exact ⟨fun a b => (h.int a b).mul_continuousOn hc.continuousOn, C, h1, fun x hx => (h2 x hx).mul hc.continuousAt⟩

theorem PCont.add {g c : ℝ → ℝ} (h : PCont g) (hc : PCont c) : PCont (fun x => g x + c x) := by
  obtain ⟨C, h1, h2⟩ := h.ex
  obtain ⟨D, h3, h4⟩ := hc.ex
  exact ⟨fun a b => (h.int a b).add (hc.int a b), C ∪ D, h1.union h3, fun x hx =>
    (h2 x (fun h => hx (Or.inl h))).add (h4 x (fun h => hx (Or.inr h)))⟩

theorem PCont.of_continuous {g : ℝ → ℝ} (h : Continuous g) : PCont g :=
  ⟨fun a b => h.intervalIntegrable a b, ∅, Set.countable_empty, fun x _ => h.continuousAt⟩

theorem PCont.sum {ι : Type} {s : Finset ι} {g : ι → ℝ → ℝ} (h : ∀ i ∈ s, PCont (g i)) : PCont (fun x => ∑ i ∈ s, g i x) := by
  classical
  induction s using Finset.induction_on with
  | empty => simpa using PCont.of_continuous continuous_const
  | insert a s ha ih =>
    simp only [Finset.sum_insert ha]
    exact (h a (by simp)).add (ih (fun i hi => h i (by simp [hi])))

/-- The convolution with the decay, as a function of time. -/
noncomputable def decay (g : ℝ → ℝ) (c s r : ℝ) : ℝ := ∫ τ in s..r, g τ * exp (-c * (r - τ))

theorem decay_eq (g : ℝ → ℝ) (c s r : ℝ) : decay g c s r = exp (-(c * r)) * ∫ τ in s..r, g τ * exp (c * τ) := by
  unfold decay
  rw [← intervalIntegral.integral_const_mul]
  congr 1
  funext τ
  rw [show -c * (r - τ) = -(c*r) + c * τ by ring, exp_add]
  ring

theorem decay_continuous {g : ℝ → ℝ} (hg : PCont g) (c s : ℝ) : Continuous (decay g c s) := by
  have h : decay g c s = fun r => exp (-(c * r)) * ∫ τ in s..r, g τ * exp (c * τ) := funext (decay_eq g c s)
  rw [h]
  have h1 : PCont (fun τ => g τ * exp (c * τ)) := hg.mul (by fun_prop)
  exact Continuous.mul (by fun_prop) (continuous_primitive h1.int s)

/-- `F + c ∫ F = ∫ g` for the convolution `F` of `g` with the decay. -/
theorem decay_ode {g : ℝ → ℝ} (hg : PCont g) (c s t : ℝ) : decay g c s t + c * ∫ r in s..t, decay g c s r = ∫ r in s..t, g r := by
  have h1 : PCont (fun τ => g τ * exp (c * τ)) := hg.mul (by fun_prop)
  obtain ⟨C, hC, hcont⟩ := h1.ex
  have hcd := decay_continuous hg c s
  have key := MeasureTheory.integral_eq_of_hasDerivAt_off_countable (decay g c s) (fun r => g r - c * decay g c s r) (a := s) (b := t)
    hC hcd.continuousOn (fun x hx => ?_) ((hg.int s t).sub ((hcd.const_mul c).intervalIntegrable s t))
  · rw [intervalIntegral.integral_sub (hg.int s t) ((hcd.const_mul c).intervalIntegrable s t),
      intervalIntegral.integral_const_mul] at key
    have h0 : decay g c s s = 0 := by unfold decay; simp
    rw [h0] at key
    linarith
  · have hd : HasDerivAt (fun r => ∫ τ in s..r, g τ * exp (c * τ)) (g x * exp (c * x)) x := by
      refine integral_hasDerivAt_right (h1.int s x) ?_ (hcont x hx.2)
      have h2 := (h1.int (x - 1) (x + 1)).1
      exact ⟨Set.Ioc (x-1) (x+1), Ioc_mem_nhds (by linarith) (by linarith), h2.aestronglyMeasurable⟩
    have he : HasDerivAt (fun r => exp (-(c * r))) (exp (-(c * x)) * -(c * 1)) x :=
      (((hasDerivAt_id x).const_mul c).neg).exp
    have := he.mul hd
    have hfun : (fun r => exp (-(c * r))) * (fun r => ∫ τ in s..r, g τ * exp (c * τ)) = decay g c s := by
      funext r; rw [decay_eq]; rfl
    rw [hfun] at this
    refine this.congr_deriv ?_
    rw [decay_eq, mul_left_comm, ← exp_add]
    simp only [neg_add_cancel, exp_zero]
    ring

/-! ## A decayed jump -/

/-- The decayed jump of size `J` at time `T`. -/
noncomputable def jump (J T c r : ℝ) : ℝ := if T ≤ r then J * exp (-c * (r - T)) else 0

theorem jump_int (J T c a b : ℝ) : IntervalIntegrable (jump J T c) volume a b := by
  have : jump J T c = (Set.Ici T).indicator (fun r => J * exp (-c * (r - T))) := by
    funext r; simp only [jump, Set.indicator, Set.mem_Ici]
  rw [this]
  have hc : Continuous (fun r => J * exp (-c * (r - T))) := by fun_prop
  have := hc.intervalIntegrable (μ := volume) a b
  exact ⟨this.1.indicator measurableSet_Ici, this.2.indicator measurableSet_Ici⟩

theorem jump_ode (J T c s t : ℝ) (hs : s ≤ T) (hst : s ≤ t) :
    jump J T c t + c * ∫ r in s..t, jump J T c r = if T ≤ t then J else 0 := by
  rcases le_or_gt T t with h | h
  · have h1 : ∫ r in s..T, jump J T c r = 0 := by
      rw [integral_congr_Ioo' (g := fun _ => 0) hs (fun z h1 h2 => by simp [jump, not_le.2 h2])]
      simp
    have h2 : ∫ r in T..t, jump J T c r = ∫ r in T..t, J * exp (-c * (r - T)) :=
      integral_congr_Ioo' h (fun z h1 h2 => by simp [jump, h1.le])
    rw [← integral_add_adjacent_intervals (jump_int J T c s T) (jump_int J T c T t), h1, h2, zero_add,
      if_pos h, jump, if_pos h]
    have h3 : ∫ r in T..t, -c * (J * exp (-c * (r - T))) = J * exp (-c * (t - T)) - J * exp (-c * (T - T)) := by
      refine integral_eq_sub_of_hasDerivAt (f := fun r => J * exp (-c * (r - T))) (fun x _ => ?_)
        (Continuous.intervalIntegrable (by fun_prop) _ _)
      have : HasDerivAt (fun r => -c * (r - T)) (-c * 1) x := ((hasDerivAt_id x).sub_const T).const_mul (-c)
      exact (this.exp.const_mul J).congr_deriv (by ring)
    rw [intervalIntegral.integral_const_mul, sub_self, mul_zero, exp_zero] at h3
    linarith
  · have h1 : ∫ r in s..t, jump J T c r = 0 := by
      rw [integral_congr_Ioo' (g := fun _ => 0) hst (fun z h1 h2 => by simp [jump, not_le.2 (h2.trans h)])]
      simp
    rw [h1, if_neg (not_le.2 h), jump, if_neg (not_le.2 h)]
    ring

/-! ## Piecewise functions on the segments of a list of times -/

open Classical in
/-- `G k` inside the `k`-th segment, zero elsewhere. -/
noncomputable def pw (T : List ℝ) (G : ℕ → ℝ → ℝ) (z : ℝ) : ℝ :=
  ∑ k ∈ Finset.range (T.length - 1), if nth T k < z ∧ z < nth T (k+1) then G k z else 0

theorem pw_in {T : List ℝ} (hs : SortedLe T) {G : ℕ → ℝ → ℝ} {k : ℕ} (hk : k + 1 < T.length) {z : ℝ} (h1 : nth T k < z)
    (h2 : z < nth T (k+1)) : pw T G z = G k z := by
  classical
  unfold pw
  rw [Finset.sum_eq_single k, if_pos ⟨h1, h2⟩]
  · intro j hj hne
    have hj := Finset.mem_range.1 hj
    rw [if_neg]
    rintro ⟨g1, g2⟩
    rcases lt_or_gt_of_ne hne with h | h
    · have := nth_mono hs (show j + 1 ≤ k by omega) (by omega)
      linarith
    · have := nth_mono hs (show k + 1 ≤ j by omega) (by omega)
      linarith
  · intro h; exact absurd (Finset.mem_range.2 (by omega)) h

theorem pw_out {T : List ℝ} (hs : SortedLe T) {G : ℕ → ℝ → ℝ} {z : ℝ}
    (h : z ≤ nth T 0 ∨ nth T (T.length - 1) ≤ z) : pw T G z = 0 := by
  classical
  unfold pw
  apply Finset.sum_eq_zero
  intro k hk
  have hk := Finset.mem_range.1 hk
  rw [if_neg]
  rintro ⟨h1, h2⟩
  rcases h with h | h
  · have := nth_mono hs (Nat.zero_le k) (show k < T.length by omega); linarith
  · have := nth_mono hs (show k + 1 ≤ T.length - 1 by omega) (by omega); linarith

open Classical in
theorem pw_piece {a b : ℝ} {g : ℝ → ℝ} (hg : Continuous g) : PCont (fun z => if a < z ∧ z < b then g z else 0) := by
  have e : (fun z => if a < z ∧ z < b then g z else 0) = (Set.Ioo a b).indicator g := by
    funext z; simp only [Set.indicator, Set.mem_Ioo]
  rw [e]
  refine ⟨fun p q => ?_, {a, b}, (Set.toFinite _).countable, fun x hx => ?_⟩
  · have := hg.intervalIntegrable (μ := volume) p q
    exact ⟨this.1.indicator measurableSet_Ioo, this.2.indicator measurableSet_Ioo⟩
  · simp only [Set.mem_insert_iff, Set.mem_singleton_iff, not_or] at hx
    by_cases h : x ∈ Set.Ioo a b
    · refine (hg.continuousAt (x := x)).congr ?_
      filter_upwards [isOpen_Ioo.mem_nhds h] with y hy
      rw [Set.indicator_of_mem hy]
    · have : x ∉ Set.Icc a b := fun h' => h ⟨lt_of_le_of_ne h'.1 (Ne.symm hx.1), lt_of_le_of_ne h'.2 hx.2⟩
      refine (continuousAt_const (y := (0:ℝ))).congr ?_
      filter_upwards [isClosed_Icc.isOpen_compl.mem_nhds this] with y hy
      rw [Set.indicator_of_notMem (fun h' => hy ⟨h'.1.le, h'.2.le⟩)]

theorem pw_cont (T : List ℝ) {G : ℕ → ℝ → ℝ} (hG : ∀ k, Continuous (G k)) : PCont (pw T G) := by
  classical
  unfold pw
  exact PCont.sum (fun k _ => pw_piece (hG k))

theorem pw_integral {T : List ℝ} (hs : SortedLe T) (hT : 0 < T.length) {G : ℕ → ℝ → ℝ} (hG : ∀ k, Continuous (G k)) {s t : ℝ}
    (hs0 : s ≤ nth T 0) (hst : s ≤ t) :
    ∫ z in s..t, pw T G z = ∑ k ∈ Finset.range (T.length - 1), ∫ z in (min (nth T k) t)..(min (nth T (k+1)) t), G k z := by
  classical
  unfold pw
  rw [intervalIntegral.integral_finsetSum (fun k _ => (pw_piece (hG k)).int s t)]
  refine Finset.sum_congr rfl (fun k hk => ?_)
  have hk := Finset.mem_range.1 hk
  have h1 : s ≤ nth T k := hs0.trans (nth_mono hs (Nat.zero_le k) (by omega))
  have h2 : nth T k ≤ nth T (k+1) := nth_mono hs (by omega) (by omega)
  set a := nth T k
  set b := nth T (k+1)
  have hp := pw_piece (a := a) (b := b) (hG k)
  have m1 : s ≤ min a t := le_min h1 hst
  have m2 : min a t ≤ min b t := min_le_min_right t h2
  have m3 : min b t ≤ t := min_le_right _ _
  rw [← integral_add_adjacent_intervals (hp.int s (min a t)) (hp.int _ t),
    ← integral_add_adjacent_intervals (hp.int (min a t) (min b t)) (hp.int _ t),
    integral_congr_Ioo' (g := fun _ => 0) m1 (fun z g1 g2 => by
      rw [if_neg]; rintro ⟨g3, _⟩; linarith [min_le_left a t]),
    integral_congr_Ioo' (g := G k) m2 (fun z g1 g2 => by
      rw [if_pos]
      rcases le_or_gt a t with h | h
      · rw [min_eq_left h] at g1; exact ⟨g1, lt_of_lt_of_le g2 (min_le_left _ _)⟩
      · rw [min_eq_right h.le] at g1; linarith [min_le_right b t]),
    integral_congr_Ioo' (f := fun z => if a < z ∧ z < b then G k z else 0) (g := fun _ => 0) m3 (fun z g1 g2 => by
      rw [if_neg]; rintro ⟨_, g3⟩
      rcases le_or_gt b t with h | h
      · rw [min_eq_left h] at g1; linarith
      · rw [min_eq_right h.le] at g1; linarith)]
  simp

end Geotecha.Speccon
