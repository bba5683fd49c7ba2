import Verif.Consol.Cosenza
import Verif.Consol.SpecCosenza
import Verif.Transform.Talbot
import Mathlib.Analysis.SpecialFunctions.Integrals.Basic

/-! # C137-C140: cosenzaandkorosak2014 -/

set_option linter.unusedVariables false
set_option autoImplicit false
open Real Finset MeasureTheory
namespace Geotecha.Consol
open Geotecha (PyErr)
open Geotecha.Transform
namespace CK

/-- **C137**: `tpor` has no effect: the pore pressures are at the times `t` of the degree of consolidation, whatever `tpor` is. -/
theorem C137_tpor_partial (o : CK) (z t : List ℝ) (tpor : Option (List ℝ)) : o.call z t tpor = o.call z t none := by
  have : times t tpor = times t none := by cases tpor <;> rfl
  unfold call
  rw [this]

/-- **C138**: permeability, compressibility and unit weight have no effect, and the thickness acts only through `z/L`: the result of any soil is
that of the default soil at the depths `z/L`. -/
theorem C138_soil_partial (o : CK) (hL : o.L ≠ 0) (hm : o.mv ≠ 0) (hg : o.gamw ≠ 0) (z t : List ℝ) (tpor : Option (List ℝ)) :
    o.call z t tpor = ({ o with L := 1, kv := 1, mv := 0.1, gamw := 10 } : CK).call (z.map (· / o.L)) t tpor := by
  unfold call
  rw [if_neg (by simp [hL, hm, hg]), if_neg (by norm_num)]
  simp only [List.map_map, Function.comp_def, div_one]
  rfl

theorem times_eq (t : List ℝ) (tpor : Option (List ℝ)) : times t tpor = t := by cases tpor <;> rfl

theorem M_pos (j : ℕ) : 0 < M j := by unfold M; positivity

theorem col_eq (o : CK) {ts : List ℝ} (h : (0 : ℝ) ∉ ts) (j : ℕ) : o.col ts j = .ok (ts.map fun t => (Spec.rule 24 0 (o.F (M j)) t).re) := by
  obtain ⟨N, h1, h2, h3, h4, h5⟩ := Talbot.C122_value (⟨o.F (M j), 24, 0, true⟩ : Talbot) (by norm_num) ts h
  have hN : N = 24 := by simp only at h2 h3; omega
  subst hN
  unfold col
  dsimp only
  by_cases hl : ts.length = 1
  · obtain ⟨t, rfl⟩ := List.length_eq_one_iff.1 hl
    rw [h4 t rfl]; rfl
  · rw [h5 hl]; rfl

theorem mapM_range_ok {f : ℕ → Except PyErr (List ℝ)} {g : ℕ → List ℝ} (h : ∀ j, f j = .ok (g j)) (n : ℕ) :
    (List.range n).mapM f = .ok ((List.range n).map g) := by
  have : f = fun j => .ok (g j) := funext h
  subst this
  generalize List.range n = l
  induction l with
  | nil => rfl
  | cons a l ih => rw [List.mapM_cons, ih]; rfl

/-- The pore pressure as a function of depth and time. -/
noncomputable def pore (o : CK) (z t : ℝ) : ℝ :=
  (∑ j ∈ range o.nterms, 2 / M j * sin (M j * (z / o.L)) * (Spec.rule 24 0 (o.F (M j)) t).re) * o.ui

/-- The degree of consolidation as a function of time. -/
noncomputable def degree (o : CK) (t : ℝ) : ℝ := 1 - ∑ j ∈ range o.nterms, 2 * 2 ^ 2 / M j ^ 2 * (Spec.rule 24 0 (o.F (M j)) t).re

theorem range_map (f : ℝ → ℝ) (t : List ℝ) : ((List.range t.length).map fun i => f (t.getD i 0)) = t.map f := by
  refine List.ext_getElem (by simp) fun i h1 h2 => ?_
  simp only [List.length_map] at h2
  simp [h2]

theorem call_eq (o : CK) (hL : o.L ≠ 0) (hm : o.mv ≠ 0) (hg : o.gamw ≠ 0) (z : List ℝ) {t : List ℝ} (ht : (0 : ℝ) ∉ t) (tpor : Option (List ℝ)) :
    o.call z t tpor = .ok (z.map fun z => t.map fun t => o.pore z t, t.map o.degree) := by
  unfold call
  rw [if_neg (by simp [hL, hm, hg]), times_eq]
  dsimp only
  rw [mapM_range_ok (fun j => o.col_eq ht j)]
  simp only [Bind.bind, Except.bind, pure, Except.pure]
  have hb : ∀ i < t.length, ∀ j ∈ range o.nterms,
      (((List.range o.nterms).map fun j => t.map fun t => (Spec.rule 24 0 (o.F (M j)) t).re).getD j []).getD i 0 =
      (Spec.rule 24 0 (o.F (M j)) (t.getD i 0)).re := fun i hi j hj => by
    have hj := mem_range.1 hj
    simp [hi, hj]
  congr 2
  · refine List.map_congr_left fun z _ => ?_
    rw [← range_map]
    refine List.map_congr_left fun i hi => ?_
    unfold pore
    congr 1
    exact sum_congr rfl fun j hj => by rw [hb i (List.mem_range.1 hi) j hj]
  · rw [← range_map]
    refine List.map_congr_left fun i hi => ?_
    unfold degree
    congr 1
    exact sum_congr rfl fun j hj => by rw [hb i (List.mem_range.1 hi) j hj]

theorem M_sin (j : ℕ) (x : ℝ) : sin (M j * (1 - x)) = sin (M j * x) := by
  have e : M j * (1 - x) = π - M j * x + (j : ℕ) * (2 * π) := by unfold M; push_cast; ring
  rw [e, sin_add_nat_mul_two_pi, sin_pi_sub]

theorem M_sin_zero (j : ℕ) : sin (M j) = 0 := by
  have := M_sin j 0
  simpa using this

theorem M_cos (j : ℕ) : cos (M j) = -1 := by
  have e : M j = π + (j : ℕ) * (2 * π) := by unfold M; push_cast; ring
  rw [e, cos_add_nat_mul_two_pi, cos_pi]

/-- **C139**: both ends drain, and the pore pressure is symmetric about the middle; at no time 0 there is a result. -/
theorem C139_ends (o : CK) (hL : o.L ≠ 0) (hm : o.mv ≠ 0) (hg : o.gamw ≠ 0) (t : List ℝ) (tpor : Option (List ℝ)) (ht : (0 : ℝ) ∉ t) :
    ∃ (g : ℝ → ℝ → ℝ) (d : ℝ → ℝ), (∀ z, o.call z t tpor = .ok (z.map fun z => t.map fun t => g z t, t.map d)) ∧
      ∀ t, g 0 t = 0 ∧ g o.L t = 0 ∧ ∀ z, g (o.L - z) t = g z t := by
  refine ⟨o.pore, o.degree, fun z => call_eq o hL hm hg z ht tpor, fun t => ⟨?_, ?_, fun z => ?_⟩⟩
  · simp [pore]
  · unfold pore
    simp [div_self hL, M_sin_zero]
  · unfold pore
    congr 1
    exact sum_congr rfl fun j _ => by
      rw [show (o.L - z) / o.L = 1 - z / o.L by field_simp, M_sin]

theorem pore_mean (o : CK) (hL : o.L ≠ 0) (t : ℝ) : (∫ z in (0:ℝ)..o.L, o.pore z t) / o.L = o.ui * (1 - o.degree t) / 2 := by
  unfold pore
  have hc : ∀ j ∈ range o.nterms, IntervalIntegrable (fun z => 2 / M j * sin (M j * (z / o.L)) * (Spec.rule 24 0 (o.F (M j)) t).re) volume 0 o.L :=
    fun j _ => Continuous.intervalIntegrable (by fun_prop) _ _
  rw [intervalIntegral.integral_mul_const, intervalIntegral.integral_finsetSum hc]
  have hI : ∀ j, ∫ z in (0:ℝ)..o.L, 2 / M j * sin (M j * (z / o.L)) * (Spec.rule 24 0 (o.F (M j)) t).re =
      o.L * (4 / M j ^ 2 * (Spec.rule 24 0 (o.F (M j)) t).re) := fun j => by
    have hM := (M_pos j).ne'
    rw [intervalIntegral.integral_mul_const, intervalIntegral.integral_const_mul]
    have e : (fun z => sin (M j * (z / o.L))) = fun z => sin (M j / o.L * z) := by funext z; congr 1; ring
    rw [e, intervalIntegral.integral_comp_mul_left _ (div_ne_zero hM hL), integral_sin, mul_zero, cos_zero, div_mul_cancel₀ _ hL, M_cos,
      smul_eq_mul]
    field_simp
    norm_num
    ring
  simp only [hI, ← mul_sum]
  unfold degree
  have e : ∑ j ∈ range o.nterms, 2 * 2 ^ 2 / M j ^ 2 * (Spec.rule 24 0 (o.F (M j)) t).re =
      2 * ∑ j ∈ range o.nterms, 4 / M j ^ 2 * (Spec.rule 24 0 (o.F (M j)) t).re := by
    rw [mul_sum]
    exact sum_congr rfl fun j _ => by ring
  rw [e]
  generalize ∑ j ∈ range o.nterms, 4 / M j ^ 2 * (Spec.rule 24 0 (o.F (M j)) t).re = S
  field_simp
  ring

/-- **C140**: the average of the reported pore pressures over the layer is half of what the reported degree of consolidation says. -/
theorem C140_average_partial (o : CK) (hL : o.L ≠ 0) (hm : o.mv ≠ 0) (hg : o.gamw ≠ 0) (t : List ℝ) (tpor : Option (List ℝ)) (ht : (0 : ℝ) ∉ t) :
    ∃ (g : ℝ → ℝ → ℝ) (d : ℝ → ℝ), (∀ z, o.call z t tpor = .ok (z.map fun z => t.map fun t => g z t, t.map d)) ∧
      ∀ t, (∫ z in (0:ℝ)..o.L, g z t) / o.L = o.ui * (1 - d t) / 2 :=
  ⟨o.pore, o.degree, fun z => call_eq o hL hm hg z ht tpor, fun t => pore_mean o hL t⟩

theorem fold_eq (l : List (ℝ × ℝ)) (s : ℂ) : ∀ a b : ℂ,
    l.foldl (fun (nd : ℂ × ℂ) (p : ℝ × ℝ) => (nd.1 + p.2 * s ^ ((p.1 : ℂ) - 1), nd.2 + p.2 * s ^ (p.1 : ℂ))) (a, b) =
      (a + (l.map fun p => (p.2 : ℂ) * s ^ ((p.1 : ℂ) - 1)).sum, b + (l.map fun p => (p.2 : ℂ) * s ^ (p.1 : ℂ)).sum) := by
  induction l with
  | nil => intro a b; simp
  | cons p l ih =>
    intro a b
    rw [List.foldl_cons, ih]
    simp only [List.map_cons, List.sum_cons, add_assoc]

/-- **C140**, degree of consolidation: it is `1 - sum 8/M^2 B` with the numerical inverse transforms of the solutions of the relaxation equation
with rate `M = (2j+1) pi` (Terzaghi's equation has the rate `M^2 kv / (mv gamw L^2)`), wherever that equation determines its transform. -/
theorem C140_degree_partial (o : CK) (hL : o.L ≠ 0) (hm : o.mv ≠ 0) (hg : o.gamw ≠ 0) (z t : List ℝ) (tpor : Option (List ℝ)) (ht : (0 : ℝ) ∉ t) :
    ∃ (U : ℕ → ℂ → ℂ) (por : List (List ℝ)),
      (∀ (j : ℕ) (s : ℂ), s + ((2 * j + 1) * π : ℝ) + ((o.v.zip o.theta).map fun p => (p.2 : ℂ) * s ^ (p.1 : ℂ)).sum ≠ 0 →
        Spec.Relaxes (o.v.zip o.theta) ((2 * j + 1) * π) s (U j s)) ∧
      o.call z t tpor = .ok (por, t.map fun t => 1 - ∑ j ∈ range o.nterms, 8 / ((2 * j + 1) * π) ^ 2 * (Transform.Spec.rule 24 0 (U j) t).re) := by
  refine ⟨fun j => o.F (M j), z.map fun z => t.map fun t => o.pore z t, fun j s hs => ?_, (call_eq o hL hm hg z ht tpor).trans ?_⟩
  · have hF : o.F (M j) s = (1 + ((o.v.zip o.theta).map fun p => (p.2 : ℂ) * s ^ ((p.1 : ℂ) - 1)).sum) /
        (s + (M j : ℝ) + ((o.v.zip o.theta).map fun p => (p.2 : ℂ) * s ^ (p.1 : ℂ)).sum) := by
      unfold F
      rw [fold_eq]
    show Spec.Relaxes _ _ s (o.F (M j) s)
    rw [hF]
    unfold Spec.Relaxes
    have e : ((o.v.zip o.theta).map fun p => (p.2 : ℂ) * (s ^ (p.1 : ℂ) * ((1 + ((o.v.zip o.theta).map fun p => (p.2 : ℂ) * s ^ ((p.1 : ℂ) - 1)).sum) /
        (s + (M j : ℝ) + ((o.v.zip o.theta).map fun p => (p.2 : ℂ) * s ^ (p.1 : ℂ)).sum)) - s ^ ((p.1 : ℂ) - 1))).sum =
        ((o.v.zip o.theta).map fun p => (p.2 : ℂ) * s ^ (p.1 : ℂ)).sum * ((1 + ((o.v.zip o.theta).map fun p => (p.2 : ℂ) * s ^ ((p.1 : ℂ) - 1)).sum) /
        (s + (M j : ℝ) + ((o.v.zip o.theta).map fun p => (p.2 : ℂ) * s ^ (p.1 : ℂ)).sum)) - ((o.v.zip o.theta).map fun p => (p.2 : ℂ) * s ^ ((p.1 : ℂ) - 1)).sum := by
      generalize ((1 + ((o.v.zip o.theta).map fun p => (p.2 : ℂ) * s ^ ((p.1 : ℂ) - 1)).sum) /
        (s + (M j : ℝ) + ((o.v.zip o.theta).map fun p => (p.2 : ℂ) * s ^ (p.1 : ℂ)).sum)) = W
      generalize o.v.zip o.theta = l
      induction l with
      | nil => simp
      | cons p l ih => simp only [List.map_cons, List.sum_cons, ih]; ring
    rw [e]
    have hM : ((M j : ℝ) : ℂ) = ((2 * j + 1) * π : ℝ) := rfl
    rw [hM]
    generalize ((o.v.zip o.theta).map fun p => (p.2 : ℂ) * s ^ (p.1 : ℂ)).sum = A at *
    generalize ((o.v.zip o.theta).map fun p => (p.2 : ℂ) * s ^ ((p.1 : ℂ) - 1)).sum = B at *
    generalize (((2 * j + 1) * π : ℝ) : ℂ) = lam at *
    field_simp
    ring
  · congr 2
    refine List.map_congr_left fun t _ => ?_
    unfold degree
    congr 1
    exact sum_congr rfl fun j _ => by norm_num [M]

/-- No result without a nonzero time. -/
theorem C139_zero_time (o : CK) (hL : o.L ≠ 0) (hm : o.mv ≠ 0) (hg : o.gamw ≠ 0) (hn : 0 < o.nterms) (z t : List ℝ) (tpor : Option (List ℝ)) :
    (0 : ℝ) ∈ t ↔ o.call z t tpor = .error .valueError := by
  constructor
  · intro h
    unfold call
    rw [if_neg (by simp [hL, hm, hg]), times_eq]
    dsimp only
    obtain ⟨k, hk⟩ : ∃ k, o.nterms = k + 1 := ⟨o.nterms - 1, by omega⟩
    have h0 : o.col t 0 = .error .valueError := by
      unfold col
      have := (Talbot.C122_zero_time (⟨o.F (M 0), 24, 0, true⟩ : Talbot) t (by norm_num)).1.2 h
      simp only [this]; rfl
    rw [hk, List.range_succ_eq_map, List.mapM_cons, h0]
    rfl
  · intro h
    by_contra hc
    rw [call_eq o hL hm hg z hc tpor] at h
    cases h

/-- A soil of zero thickness, compressibility or unit weight of water is a division by zero, and nothing else is. -/
theorem C139_zero_division (o : CK) (z t : List ℝ) (tpor : Option (List ℝ)) :
    o.call z t tpor = .error .zeroDivision ↔ o.L = 0 ∨ o.mv = 0 ∨ o.gamw = 0 := by
  constructor
  · intro h
    by_contra hc
    push Not at hc
    obtain ⟨hL, hm, hg⟩ := hc
    by_cases hn : 0 < o.nterms
    · by_cases ht : (0:ℝ) ∈ t
      · rw [(C139_zero_time o hL hm hg hn z t tpor).1 ht] at h; cases h
      · rw [call_eq o hL hm hg z ht tpor] at h; cases h
    · have : o.nterms = 0 := by omega
      unfold call at h
      rw [if_neg (by simp [hL, hm, hg])] at h
      simp [this] at h
      cases h
  · intro h
    unfold call
    rw [if_pos h]

/-- C137-C140: arguments that meet the hypotheses; the pore pressures asked for at `tpor = [1, 2, 3]` come at the one time 5. -/
example : ∃ (o : CK), o.L ≠ 0 ∧ o.mv ≠ 0 ∧ o.gamw ≠ 0 ∧ 0 < o.nterms ∧ (0:ℝ) ∉ [(5:ℝ)] ∧
    ∃ a b, o.call [1/2] [5] (some [1, 2, 3]) = .ok ([[a]], [b]) := by
  refine ⟨⟨[1], [1/2], 1, 1, 1, 1, 1, 3⟩, by norm_num, by norm_num, by norm_num, by norm_num, by norm_num,
    pore ⟨[1], [1/2], 1, 1, 1, 1, 1, 3⟩ (1/2) 5, degree ⟨[1], [1/2], 1, 1, 1, 1, 1, 3⟩ 5, ?_⟩
  rw [call_eq _ (by norm_num) (by norm_num) (by norm_num) _ (by norm_num)]
  rfl

end CK
end Geotecha.Consol
