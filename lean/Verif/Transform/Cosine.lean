import Verif.Transform.ModelCosine
import Verif.Transform.Hankel
import Mathlib.Analysis.SpecialFunctions.Integrals.Basic
import Mathlib.MeasureTheory.Integral.IntervalIntegral.IntegrationByParts
import Mathlib.Analysis.SpecialFunctions.Trigonometric.Complex

set_option autoImplicit false
set_option linter.unusedVariables false

/-!
# C233, C234: the cosine transforms
-/

namespace Geotecha.Transform
open Geotecha (PyErr)
open Geotecha.Quad MeasureTheory

namespace Spec

/-- The ends of the segments: `0` and the positive zeros of the cosine. -/
noncomputable def cosZero : ℕ → ℝ
  | 0 => 0
  | j + 1 => (2 * (j : ℝ) + 1) * Real.pi / 2

/-- `∫ f(x) cos(sx) dx` from `0` to `hi`. -/
noncomputable def cosInt (f : ℝ → ℝ) (s hi : ℝ) : ℝ := ∫ x in (0 : ℝ)..hi, f x * Real.cos (s * x)

end Spec

theorem cosZeros_eq (m : ℕ) : cosZeros m = (List.range (m + 1)).map Spec.cosZero := by
  rw [List.range_succ_eq_map, List.map_cons, List.map_map]
  rfl

theorem cosZeros_dropLast (m : ℕ) : (cosZeros m).dropLast = (List.range m).map Spec.cosZero := by
  rw [cosZeros_eq, List.range_succ, List.map_append]
  simp

theorem cosZeros_drop (m : ℕ) : (cosZeros m).drop 1 = (List.range m).map fun j => Spec.cosZero (j + 1) := by
  rw [cosZeros_eq, List.range_succ_eq_map, List.map_cons, List.map_map]
  rfl

theorem cosZero_lt (j : ℕ) : Spec.cosZero j < Spec.cosZero (j + 1) := by
  have := Real.pi_pos
  cases j with
  | zero => simp only [Spec.cosZero]; positivity
  | succ j => simp only [Spec.cosZero]; push_cast; nlinarith

theorem cosZero_nonneg (j : ℕ) : 0 ≤ Spec.cosZero j := by
  have := Real.pi_pos
  cases j with
  | zero => exact le_rfl
  | succ j => simp only [Spec.cosZero]; positivity

theorem cosSegs_ok (f : ℝ → ℝ) (m ng : ℕ) (s : ℝ) (rule : List (ℝ × ℝ)) (h : glRule ng = .ok rule) :
    cosSegs f m ng s = .ok ((List.range m).map fun j =>
      panel rule (fun x => f x * Real.cos (s * x)) (Spec.cosZero j / s) (Spec.cosZero (j + 1) / s)) := by
  unfold cosSegs glQuad
  rw [h, cosZeros_dropLast, cosZeros_drop]
  simp only [bind, Except.bind, pure, Except.pure, List.length_map, ne_eq, not_true_eq_false, if_false, List.map_map]
  rw [List.zipWith_map]
  congr 1
  generalize List.range m = l
  induction l with
  | nil => rfl
  | cons a l ih => rw [List.zipWith_cons_cons, ih, List.map_cons]; rfl

theorem gl_single (f : ℝ → ℝ) (p q : ℝ) (ng : ℕ) (rule : List (ℝ × ℝ)) (h : glRule ng = .ok rule) :
    glQuad f [p] [q] ng = .ok [panel rule f p q] := by
  unfold glQuad
  rw [h]
  rfl

theorem glRule_of (f : ℝ → ℝ) (p q v : ℝ) (ng : ℕ) (h : glQuad f [p] [q] ng = .ok [v]) : ∃ rule, glRule ng = .ok rule ∧ v = panel rule f p q := by
  unfold glQuad at h
  cases hg : glRule ng with
  | ok rule =>
    rw [hg] at h
    refine ⟨rule, rfl, ?_⟩
    have := Except.ok.inj h
    simp at this
    exact this.symm
  | error e => rw [hg] at h; simp [bind, Except.bind] at h

theorem mapM_segs (f : ℝ → ℝ) (m ng : ℕ) (rule : List (ℝ × ℝ)) (h : glRule ng = .ok rule) (ss : List ℝ) :
    ss.mapM (cosSegs f m ng) = .ok (ss.map fun s => (List.range m).map fun j =>
      panel rule (fun x => f x * Real.cos (s * x)) (Spec.cosZero j / s) (Spec.cosZero (j + 1) / s)) := by
  induction ss with
  | nil => rfl
  | cons s ss ih => rw [List.mapM_cons, cosSegs_ok f m ng s rule h, ih]; rfl

/-- The segments end at the positive zeros of the cosine, all of them, in order. -/
theorem C233_zeros : (∀ x : ℝ, 0 < x → (Real.cos x = 0 ↔ ∃ j : ℕ, x = Spec.cosZero (j + 1))) ∧ StrictMono Spec.cosZero ∧
    ∀ m, cosZeros m = (List.range (m + 1)).map Spec.cosZero := by
  refine ⟨fun x hx => ?_, strictMono_nat_of_lt_succ cosZero_lt, cosZeros_eq⟩
  have hπ := Real.pi_pos
  rw [Real.cos_eq_zero_iff]
  constructor
  · rintro ⟨k, rfl⟩
    have hk : 0 ≤ k := by
      by_contra hk
      have : (k : ℝ) ≤ -1 := by exact_mod_cast (by omega : k ≤ -1)
      nlinarith
    refine ⟨k.toNat, ?_⟩
    have : ((k.toNat : ℕ) : ℝ) = (k : ℝ) := by exact_mod_cast Int.toNat_of_nonneg hk
    simp only [Spec.cosZero, this]
  · rintro ⟨j, rfl⟩
    exact ⟨j, by simp [Spec.cosZero]⟩

theorem segs_sum (g : ℝ → ℝ) (s : ℝ) (hs : 0 < s) (rule : List (ℝ × ℝ)) (e : ℕ → ℝ) (m : ℕ)
    (hint : IntervalIntegrable g volume 0 (Spec.cosZero m / s))
    (he : ∀ j, j < m → |panel rule g (Spec.cosZero j / s) (Spec.cosZero (j + 1) / s) - ∫ x in (Spec.cosZero j / s)..(Spec.cosZero (j + 1) / s), g x| ≤ e j) :
    |((List.range m).map fun j => panel rule g (Spec.cosZero j / s) (Spec.cosZero (j + 1) / s)).sum - ∫ x in (0 : ℝ)..(Spec.cosZero m / s), g x| ≤
      ∑ j ∈ Finset.range m, e j := by
  have hlt : ∀ j, Spec.cosZero j / s < Spec.cosZero (j + 1) / s := fun j => div_lt_div_of_pos_right (cosZero_lt j) hs
  have h0 : ∀ j, 0 ≤ Spec.cosZero j / s := fun j => div_nonneg (cosZero_nonneg j) hs.le
  induction m with
  | zero => simp [Spec.cosZero]
  | succ m ih =>
    have hi1 : IntervalIntegrable g volume 0 (Spec.cosZero m / s) := by
      refine hint.mono_set ?_
      rw [Set.uIcc_of_le (h0 _), Set.uIcc_of_le (h0 _)]
      exact Set.Icc_subset_Icc le_rfl (hlt m).le
    have hi2 : IntervalIntegrable g volume (Spec.cosZero m / s) (Spec.cosZero (m + 1) / s) := by
      refine hint.mono_set ?_
      rw [Set.uIcc_of_le (hlt m).le, Set.uIcc_of_le (h0 _)]
      exact Set.Icc_subset_Icc (h0 m) le_rfl
    have h1 := ih hi1 fun j hj => he j (by omega)
    have h2 := he m (by omega)
    rw [List.range_succ, List.map_append, List.sum_append, List.map_singleton, List.sum_singleton, Finset.sum_range_succ,
      ← intervalIntegral.integral_add_adjacent_intervals hi1 hi2]
    rw [abs_le] at h1 h2 ⊢
    constructor <;> linarith [h1.1, h1.2, h2.1, h2.2]

/-- Without extrapolation, for positive `s`: the integral of `f(x) cos(sx)` from `0` to the `m`-th zero, up to the sum of the errors of
`gl_quad` on the `m` segments. -/
theorem C233_value (f : ℝ → ℝ) (m ng : ℕ) (hm : 0 < m) (ss : List ℝ) (hs : ∀ s ∈ ss, 0 < s) (hne : ss ≠ []) (e : ℝ → ℕ → ℝ)
    (hacc : ∀ s ∈ ss, ∀ j < m, ∃ v, glQuad (fun x => f x * Real.cos (s * x)) [Spec.cosZero j / s] [Spec.cosZero (j + 1) / s] ng = .ok [v] ∧
      |v - ∫ x in (Spec.cosZero j / s)..(Spec.cosZero (j + 1) / s), f x * Real.cos (s * x)| ≤ e s j)
    (hint : ∀ s ∈ ss, IntervalIntegrable (fun x => f x * Real.cos (s * x)) volume 0 (Spec.cosZero m / s)) :
    ∃ vs, vcosine f m ng none ss = .ok vs ∧
      List.Forall₂ (fun s v => |v - Spec.cosInt f s (Spec.cosZero m / s)| ≤ ∑ j ∈ Finset.range m, e s j) ss vs := by
  obtain ⟨s0, h0⟩ := List.exists_mem_of_ne_nil ss hne
  obtain ⟨v0, hv0, _⟩ := hacc s0 h0 0 hm
  obtain ⟨rule, hr, _⟩ := glRule_of _ _ _ _ _ hv0
  refine ⟨_, by unfold vcosine; rw [mapM_segs f m ng rule hr]; rfl, ?_⟩
  rw [List.map_map]
  refine List.forall₂_map_right_iff.2 (List.forall₂_same.2 fun s h => ?_)
  refine segs_sum _ s (hs s h) rule (e s) m (hint s h) fun j hj => ?_
  obtain ⟨v, hv, hb⟩ := hacc s h j hj
  rw [gl_single _ _ _ _ rule hr] at hv
  have := Except.ok.inj hv
  simp at this
  rw [this]
  exact hb

/-- What is cut off: for a non-negative, decreasing, continuously differentiable `f` the integral from the last zero on changes the
answer by at most `2 f(R) / s`, however far it is taken. -/
theorem C233_tail (f f' : ℝ → ℝ) (s R Y : ℝ) (hs : 0 < s) (hRY : R ≤ Y) (hd : ∀ x ∈ Set.Icc R Y, HasDerivAt f (f' x) x)
    (hc : ContinuousOn f' (Set.Icc R Y)) (hneg : ∀ x ∈ Set.Icc R Y, f' x ≤ 0) (hpos : 0 ≤ f Y) 
    (hint : IntervalIntegrable (fun x => f x * Real.cos (s * x)) volume 0 R) :
    |Spec.cosInt f s Y - Spec.cosInt f s R| ≤ 2 * f R / s := by
  have hu : Set.uIcc R Y = Set.Icc R Y := Set.uIcc_of_le hRY
  have hcf : ContinuousOn f (Set.uIcc R Y) := by
    rw [hu]; exact fun x hx => (hd x hx).continuousAt.continuousWithinAt
  have hci : IntervalIntegrable (fun x => f x * Real.cos (s * x)) volume R Y :=
    (hcf.mul (by fun_prop)).intervalIntegrable
  have hfi : IntervalIntegrable f' volume R Y := (by rw [hu]; exact hc : ContinuousOn f' (Set.uIcc R Y)).intervalIntegrable
  unfold Spec.cosInt
  rw [intervalIntegral.integral_interval_sub_left (hint.trans hci) hint]
  have hsin : ∀ x : ℝ, HasDerivAt (fun x => Real.sin (s * x) / s) (Real.cos (s * x)) x := by
    intro x
    have h1 : HasDerivAt (fun x : ℝ => s * x) s x := by simpa using (hasDerivAt_id x).const_mul s
    have := (h1.sin).div_const s
    exact this.congr_deriv (by field_simp)
  have hcos : IntervalIntegrable (fun x => Real.cos (s * x)) volume R Y := (by fun_prop : Continuous fun x => Real.cos (s * x)).intervalIntegrable _ _
  have hparts := intervalIntegral.integral_mul_deriv_eq_deriv_mul (u := f) (v := fun x => Real.sin (s * x) / s) (u' := f')
    (v' := fun x => Real.cos (s * x)) (a := R) (b := Y) (fun x hx => hd x (hu ▸ hx)) (fun x _ => hsin x) hfi hcos
  rw [hparts]
  have hf : ∫ x in R..Y, f' x = f Y - f R := intervalIntegral.integral_eq_sub_of_hasDerivAt (fun x hx => hd x (hu ▸ hx)) hfi
  have hfR : f Y ≤ f R := by
    have : ∫ x in R..Y, f' x ≤ ∫ x in R..Y, (0 : ℝ) := by
      refine intervalIntegral.integral_mono_on hRY hfi intervalIntegrable_const fun x hx => hneg x hx
    rw [hf] at this
    simp at this
    linarith
  have hI : |∫ x in R..Y, f' x * (Real.sin (s * x) / s)| ≤ (f R - f Y) / s := by
    have h1 := intervalIntegral.norm_integral_le_of_norm_le (f := fun x => f' x * (Real.sin (s * x) / s)) (g := fun x => -f' x / s) (μ := volume) hRY
      (Filter.Eventually.of_forall fun x hx => by
        rw [Real.norm_eq_abs, abs_mul, abs_div, abs_of_pos hs, abs_of_nonpos (hneg x ⟨hx.1.le, hx.2⟩), ← mul_div_assoc]
        refine div_le_div_of_nonneg_right ?_ hs.le
        have := hneg x ⟨hx.1.le, hx.2⟩
        exact mul_le_of_le_one_right (by linarith) (Real.abs_sin_le_one _)) (hfi.neg.div_const s)
    rw [Real.norm_eq_abs, intervalIntegral.integral_div, intervalIntegral.integral_neg, hf] at h1
    convert h1 using 2
    ring
  have b1 : |f Y * (Real.sin (s * Y) / s)| ≤ f Y / s := by
    rw [abs_mul, abs_of_nonneg hpos, abs_div, abs_of_pos hs, ← mul_div_assoc]
    exact div_le_div_of_nonneg_right (mul_le_of_le_one_right hpos (Real.abs_sin_le_one _)) hs.le
  have b2 : |f R * (Real.sin (s * R) / s)| ≤ f R / s := by
    rw [abs_mul, abs_of_nonneg (hpos.trans hfR), abs_div, abs_of_pos hs, ← mul_div_assoc]
    exact div_le_div_of_nonneg_right (mul_le_of_le_one_right (hpos.trans hfR) (Real.abs_sin_le_one _)) hs.le
  have e1 : 2 * f R / s = f Y / s + f R / s + (f R - f Y) / s := by ring
  rw [e1]
  rw [abs_le] at b1 b2 hI ⊢
  constructor <;> linarith [b1.1, b1.2, b2.1, b2.2, hI.1, hI.2]

theorem panel_neg (rule : List (ℝ × ℝ)) (g : ℝ → ℝ) (a b : ℝ) : panel rule g (-a) (-b) = -panel rule (fun x => g (-x)) a b := by
  unfold panel
  dsimp only
  induction rule with
  | nil => simp
  | cons p rule ih =>
    rw [List.map_cons, List.map_cons, List.sum_cons, List.sum_cons, ih, show (-b - -a) / 2 * p.1 + (-a + -b) / 2 = -((b - a) / 2 * p.1 + (a + b) / 2) by ring]
    ring

theorem segs_neg (f : ℝ → ℝ) (m : ℕ) (rule : List (ℝ × ℝ)) (s : ℝ) :
    ((List.range m).map fun j => panel rule (fun x => f x * Real.cos (-s * x)) (Spec.cosZero j / -s) (Spec.cosZero (j + 1) / -s)) =
      ((List.range m).map fun j => panel rule (fun x => f (-x) * Real.cos (s * x)) (Spec.cosZero j / s) (Spec.cosZero (j + 1) / s)).map (-·) := by
  rw [List.map_map]
  refine List.map_congr_left fun j _ => ?_
  rw [div_neg, div_neg, panel_neg, Function.comp_apply]
  simp only [neg_mul_neg]

/-- Negative `s`: minus the answer for `-s` and the mirrored function. -/
theorem C233_negative (f : ℝ → ℝ) (m ng : ℕ) (ss vs : List ℝ) (h : vcosine (fun x => f (-x)) m ng none ss = .ok vs) :
    vcosine f m ng none (ss.map (-·)) = .ok (vs.map (-·)) := by
  by_cases hss : ss = []
  · subst hss
    unfold vcosine at h ⊢
    cases h
    rfl
  · have : ∃ rule, glRule ng = .ok rule := by
      cases hg : glRule ng with
      | ok rule => exact ⟨rule, rfl⟩
      | error er =>
        exfalso
        obtain ⟨s, ss, rfl⟩ := List.exists_cons_of_ne_nil hss
        unfold vcosine at h
        rw [List.mapM_cons] at h
        have : cosSegs (fun x => f (-x)) m ng s = .error er := by
          unfold cosSegs glQuad
          rw [hg]; rfl
        rw [this] at h
        cases h
    obtain ⟨rule, hr⟩ := this
    unfold vcosine at h ⊢
    rw [mapM_segs _ m ng rule hr] at h ⊢
    cases h
    refine congrArg Except.ok ?_
    rw [List.map_map, List.map_map, List.map_map, List.map_map]
    refine List.map_congr_left fun s _ => ?_
    simp only [Function.comp_apply]
    rw [segs_neg]
    exact (List.sum_neg _).symm

/-- So for an even `f` the answer changes its sign with `s`, while the cosine transform does not. -/
theorem C233_odd (f : ℝ → ℝ) (hf : ∀ x, f (-x) = f x) (m ng : ℕ) (s v : ℝ) (h : vcosine f m ng none [s] = .ok [v]) :
    vcosine f m ng none [-s] = .ok [-v] ∧ ∀ R, Spec.cosInt f (-s) R = Spec.cosInt f s R := by
  constructor
  · exact C233_negative f m ng [s] [v] (by rw [show (fun x => f (-x)) = f from funext hf]; exact h)
  · intro R
    unfold Spec.cosInt
    simp only [neg_mul, Real.cos_neg]

/-- With extrapolation, one `s`: if the integrals over the segments form a geometric sequence, the sum of the whole series. -/
theorem C233_shanks (f : ℝ → ℝ) (m ng : ℕ) (s c q : ℝ) (ind : ℤ)
    (hseg : glQuad (fun x => f x * Real.cos (s * x)) ((List.range m).map fun j => Spec.cosZero j / s) ((List.range m).map fun j => Spec.cosZero (j + 1) / s) ng =
      .ok ((List.range m).map fun k => c * q ^ k)) (hq : q ≠ 1) (hind : 0 ≤ ind) (hm : ind + 3 ≤ m) :
    vcosine f m ng (some ind) [s] = .ok [c / (1 - q)] := by
  unfold vcosine
  have h1 : cosSegs f m ng s = .ok ((List.range m).map fun k => c * q ^ k) := by
    unfold cosSegs
    dsimp only
    rw [cosZeros_dropLast, cosZeros_drop, List.map_map, List.map_map]
    exact hseg
  rw [List.mapM_cons, h1]
  show (if m = 0 then Except.error PyErr.indexError else .ok (shanks2 m [cumsumFrom 0 ((List.range m).map fun k => c * q ^ k)] (some ind))) = _
  rw [if_neg (by omega)]
  have h2 := cumsum_geo c q hq m 0
  rw [← List.range_eq_range', pow_zero, mul_one, add_neg_cancel] at h2
  rw [h2]
  have h3 := C232_single ((List.range m).map fun k => c / (1 - q) + (-(c * q / (1 - q))) * q ^ k) (some ind)
  rw [List.length_map, List.length_range, C22_geometric _ _ _ hq m ind (.inl ⟨hind, hm⟩)] at h3
  rw [h3]

/-! ## The two-dimensional transform -/

theorem cumsumFrom_length (s : ℝ) (l : List ℝ) : (cumsumFrom s l).length = l.length := by
  induction l generalizing s with
  | nil => rfl
  | cons x l ih => rw [cumsumFrom, List.length_cons, ih, List.length_cons]

theorem cumsumFrom_mul (c s : ℝ) (l : List ℝ) : cumsumFrom (c * s) (l.map (c * ·)) = (cumsumFrom s l).map (c * ·) := by
  induction l generalizing s with
  | nil => rfl
  | cons x l ih => rw [List.map_cons, cumsumFrom, cumsumFrom, List.map_cons, ← mul_add, ih]

theorem collect_mul (ind : Option ℤ) (c : ℝ) (l : List ℝ) (hl : l ≠ []) : collect ind (l.map (c * ·)) = c * collect ind l := by
  cases ind with
  | none =>
    have := List.sum_map_mul_left (l := l) (f := id) (r := c)
    rw [List.map_id] at this
    exact this
  | some i =>
    unfold collect
    dsimp only
    have h1 := cumsumFrom_mul c 0 l
    rw [mul_zero] at h1
    have hne : cumsumFrom 0 l ≠ [] := by
      intro h
      have := cumsumFrom_length 0 l
      rw [h] at this
      exact hl (List.length_eq_zero_iff.1 this.symm)
    rw [h1]
    by_cases hc : c = 0
    · subst hc
      rw [zero_mul]
      have : (cumsumFrom 0 l).map (0 * ·) = List.replicate (cumsumFrom 0 l).length 0 := by
        rw [← List.map_const']
        exact List.map_congr_left fun x _ => zero_mul x
      rw [this]
      generalize (cumsumFrom 0 l).length = n
      have hl0 : ∀ k, (List.replicate k (0 : ℝ)).getLastD 0 = 0 := by
        intro k
        cases k with
        | zero => rfl
        | succ k => rw [List.replicate_succ']; simp [List.getLastD_eq_getLast?]
      unfold shanks
      simp only [List.length_replicate, List.drop_replicate]
      generalize (max (if i < 0 then (n : ℤ) + i else i) 0).toNat = j
      split_ifs with h
      · exact hl0 n
      · exact loop_const _ _ (by omega)
    · have := C22_affine c 0 hc (cumsumFrom 0 l) hne (some i)
      simpa using this

theorem vcosine_single (f : ℝ → ℝ) (m ng : ℕ) (ind : Option ℤ) (hm : 0 < m) (s : ℝ) (rule : List (ℝ × ℝ)) (h : glRule ng = .ok rule) :
    vcosine f m ng ind [s] = .ok [collect ind ((List.range m).map fun j =>
      panel rule (fun x => f x * Real.cos (s * x)) (Spec.cosZero j / s) (Spec.cosZero (j + 1) / s))] := by
  unfold vcosine
  rw [mapM_segs f m ng rule h]
  cases ind with
  | none => rfl
  | some i =>
    show (if m = 0 then Except.error PyErr.indexError else .ok (shanks2 m [cumsumFrom 0 _] (some i))) = _
    rw [if_neg (by omega)]
    have h3 := C232_single (cumsumFrom 0 ((List.range m).map fun j =>
      panel rule (fun x => f x * Real.cos (s * x)) (Spec.cosZero j / s) (Spec.cosZero (j + 1) / s))) (some i)
    rw [cumsumFrom_length, List.length_map, List.length_range] at h3
    rw [h3]
    rfl

theorem zip_range (F : ℝ → ℝ → ℝ) (m : ℕ) (s : ℝ) : List.zipWith F ((cosZeros m).dropLast.map (· / s)) (((cosZeros m).drop 1).map (· / s)) =
    (List.range m).map fun j => F (Spec.cosZero j / s) (Spec.cosZero (j + 1) / s) := by
  rw [cosZeros_dropLast, cosZeros_drop, List.map_map, List.map_map, List.zipWith_map]
  generalize List.range m = l
  induction l with
  | nil => rfl
  | cons a l ih => rw [List.zipWith_cons_cons, ih, List.map_cons]; rfl

/-- Every element of the grid, with or without extrapolation, is the transform of the transform: in `y` at `s2`, then in `x` at `s1`. -/
theorem C234_nested (f : ℝ → ℝ → ℝ) (m ng : ℕ) (ind : Option ℤ) (hm : 0 < m) (hng : ∃ rule, glRule ng = .ok rule) (s1 s2 : List ℝ)
    (h1 : ∀ s ∈ s1, s ≠ 0) (h2 : ∀ s ∈ s2, s ≠ 0) :
    ∃ out, v2dcosine f m ng ind s1 s2 = .ok out ∧ List.Forall₂ (fun s row => List.Forall₂ (fun t v =>
      ∃ G : ℝ → ℝ, (∀ x, vcosine (f x) m ng ind [t] = .ok [G x]) ∧ vcosine G m ng ind [s] = .ok [v]) s2 row) s1 out := by
  obtain ⟨rule, hr⟩ := hng
  refine ⟨_, by unfold v2dcosine; rw [hr]; show (if _ then _ else _) = _; rw [if_neg (by omega)], ?_⟩
  refine List.forall₂_map_right_iff.2 (List.forall₂_same.2 fun s _ => List.forall₂_map_right_iff.2 (List.forall₂_same.2 fun t _ => ?_))
  refine ⟨_, fun x => vcosine_single (f x) m ng ind hm t rule hr, ?_⟩
  rw [vcosine_single _ m ng ind hm s rule hr]
  congr 2
  unfold cos2
  dsimp only
  rw [zip_range]
  congr 1
  refine List.map_congr_left fun j _ => ?_
  unfold panel
  dsimp only
  refine congrArg List.sum (List.map_congr_left fun p _ => ?_)
  rw [zip_range]
  set X := (Spec.cosZero (j + 1) / s - Spec.cosZero j / s) / 2 * p.1 + (Spec.cosZero j / s + Spec.cosZero (j + 1) / s) / 2 with hX
  have key := collect_mul ind ((Spec.cosZero (j + 1) / s - Spec.cosZero j / s) / 2 * Real.cos (s * X) * p.2) ((List.range m).map fun l =>
    (rule.map fun p => (Spec.cosZero (l + 1) / t - Spec.cosZero l / t) / 2 * (f X ((Spec.cosZero (l + 1) / t - Spec.cosZero l / t) / 2 * p.1 + (Spec.cosZero l / t + Spec.cosZero (l + 1) / t) / 2) *
      Real.cos (t * ((Spec.cosZero (l + 1) / t - Spec.cosZero l / t) / 2 * p.1 + (Spec.cosZero l / t + Spec.cosZero (l + 1) / t) / 2))) * p.2).sum)
    (by simp; omega)
  have e2 : ∀ A B C D : ℝ, A * (B * C) * D = (A * C * D) * B := by intros; ring
  rw [e2, ← key, List.map_map]
  congr 1
  refine List.map_congr_left fun l _ => ?_
  rw [Function.comp_apply, ← List.sum_map_mul_left]
  refine congrArg List.sum (List.map_congr_left fun q _ => ?_)
  ring

/-- A product `f(x) g(y)` has the product of the transforms. -/
theorem C234_product (f g : ℝ → ℝ) (m ng : ℕ) (ind : Option ℤ) (hm : 0 < m) (s t F G : ℝ) (hs : s ≠ 0) (ht : t ≠ 0)
    (hF : vcosine f m ng ind [s] = .ok [F]) (hG : vcosine g m ng ind [t] = .ok [G]) :
    v2dcosine (fun x y => f x * g y) m ng ind [s] [t] = .ok [[F * G]] := by
  have hng : ∃ rule, glRule ng = .ok rule := by
    cases hg : glRule ng with
    | ok rule => exact ⟨rule, rfl⟩
    | error er =>
      exfalso
      unfold vcosine at hF
      have : cosSegs f m ng s = .error er := by
        unfold cosSegs glQuad
        rw [hg]; rfl
      rw [List.mapM_cons, this] at hF
      cases hF
  obtain ⟨out, ho, hn⟩ := C234_nested (fun x y => f x * g y) m ng ind hm hng [s] [t] (by simpa) (by simpa)
  obtain ⟨rule, hr⟩ := hng
  rw [ho]
  match out, hn with
  | [[v]], .cons (.cons ⟨H, h1, h2⟩ .nil) .nil =>
    have hne : ∀ φ : ℕ → ℝ, (List.range m).map φ ≠ [] := by intro φ; simp; omega
    have hmul : ∀ (c : ℝ) (φ : ℝ → ℝ) (s : ℝ), collect ind ((List.range m).map fun j =>
        panel rule (fun x => c * φ x * Real.cos (s * x)) (Spec.cosZero j / s) (Spec.cosZero (j + 1) / s)) =
        c * collect ind ((List.range m).map fun j => panel rule (fun x => φ x * Real.cos (s * x)) (Spec.cosZero j / s) (Spec.cosZero (j + 1) / s)) := by
      intro c φ s
      rw [← collect_mul ind c _ (hne _), List.map_map]
      congr 1
      refine List.map_congr_left fun j _ => ?_
      unfold panel
      rw [Function.comp_apply, ← List.sum_map_mul_left]
      refine congrArg List.sum (List.map_congr_left fun q _ => ?_)
      ring
    rw [vcosine_single _ m ng ind hm _ rule hr] at hF hG
    have hF' := (List.cons.inj (Except.ok.inj hF)).1
    have hG' := (List.cons.inj (Except.ok.inj hG)).1
    have hH : ∀ x, H x = G * f x := by
      intro x
      have := h1 x
      rw [vcosine_single _ m ng ind hm t rule hr] at this
      rw [← (List.cons.inj (Except.ok.inj this)).1, hmul, hG', mul_comm]
    rw [show H = fun x => G * f x from funext hH, vcosine_single _ m ng ind hm s rule hr, hmul, hF'] at h2
    rw [← (List.cons.inj (Except.ok.inj h2)).1, mul_comm]

/-- A case that meets the hypotheses of `C233_value`: with the constant `1` every segment has some error. -/
example : ∃ e : ℝ → ℕ → ℝ, (∀ s ∈ [(1 : ℝ), 2], ∀ j < 3, ∃ v,
      glQuad (fun x => 1 * Real.cos (s * x)) [Spec.cosZero j / s] [Spec.cosZero (j + 1) / s] 4 = .ok [v] ∧
      |v - ∫ x in (Spec.cosZero j / s)..(Spec.cosZero (j + 1) / s), 1 * Real.cos (s * x)| ≤ e s j) ∧
    ∀ s ∈ [(1 : ℝ), 2], IntervalIntegrable (fun x => 1 * Real.cos (s * x)) volume 0 (Spec.cosZero 3 / s) := by
  obtain ⟨rule, hr⟩ : ∃ rule, glRule 4 = .ok rule := by
    unfold glRule
    rw [if_pos (by decide)]
    exact ⟨_, rfl⟩
  exact ⟨fun s j => |panel rule (fun x => 1 * Real.cos (s * x)) (Spec.cosZero j / s) (Spec.cosZero (j + 1) / s) -
      ∫ x in (Spec.cosZero j / s)..(Spec.cosZero (j + 1) / s), 1 * Real.cos (s * x)|,
    fun s _ j _ => ⟨_, gl_single _ _ _ _ rule hr, le_rfl⟩, fun s _ => (by fun_prop : Continuous fun x => 1 * Real.cos (s * x)).intervalIntegrable _ _⟩

/-- A case that meets the hypotheses of `C233_tail`: `1 / x` beyond `1`. -/
example (Y : ℝ) (hY : 1 ≤ Y) : (∀ x ∈ Set.Icc 1 Y, HasDerivAt (fun x : ℝ => x⁻¹) (-(x ^ 2)⁻¹) x) ∧
    ContinuousOn (fun x : ℝ => -(x ^ 2)⁻¹) (Set.Icc 1 Y) ∧ (∀ x ∈ Set.Icc 1 Y, -(x ^ 2)⁻¹ ≤ (0 : ℝ)) ∧ 0 ≤ Y⁻¹ := by
  refine ⟨fun x hx => hasDerivAt_inv (by linarith [hx.1]), ?_, fun x _ => neg_nonpos.2 (by positivity), inv_nonneg.2 (by linarith)⟩
  refine ((continuousOn_id.pow 2).inv₀ fun x hx => ?_).neg
  have : (0 : ℝ) < x := by linarith [hx.1]
  exact (pow_pos this 2).ne'

/-- A case that meets the hypotheses of `C234_nested`. -/
example : ∃ rule, glRule 20 = .ok rule := by
  unfold glRule
  rw [if_pos (by decide)]
  exact ⟨_, rfl⟩

end Geotecha.Transform
