import Verif.Beam.DingClaims
import Verif.Beam.DingQuad
import Mathlib.Analysis.Real.Pi.Bounds

/-!
# Claims C170, C171 and a concrete run
-/
set_option autoImplicit false
set_option linter.unusedVariables false

namespace Geotecha.Beam

open Real

/-- **C170 (partial: the flag `normalise_w` does not do what it says).**  For simply supported ends `wofx`
called with raw positions, and `normalise_w=True` (the default) or `False` alike, returns the raw
deflection: one row per position, one entry per time; a single position gives a single row instead of a
table.  Only `normalise_w=None` returns the normalised deflection, i.e. the same numbers divided by `L`. -/
theorem C170_ding_wofx_partial (P : Phys) (rt : ℕ → ℝ) (n : ℕ) (y : ℝ → ℕ → ℝ) (ts : List ℝ) (xs : List ℝ)
    (hx : xs.length ≠ 1) :
    let qs := ts.map fun t => y (tNorm P.E P.rho P.L t)
    let raw := xs.map fun x => ts.map fun t => P.defl n y x t
    wofx .ss (beta .ss rt) n (some P.L) qs (some xs) none .isTrue = .ok (.grid raw) ∧
    wofx .ss (beta .ss rt) n (some P.L) qs (some xs) none .isFalse = .ok (.grid raw) ∧
    wofx .ss (beta .ss rt) n (some P.L) qs (some xs) none .isNone =
      .ok (.grid (raw.map fun r => r.map (· / P.L))) := by
  intro qs raw
  have hL := P.hL.ne'
  have e : ∀ x t, wN .ss (beta .ss rt) n (y (tNorm P.E P.rho P.L t)) (x / P.L) = P.defl n y x t / P.L := fun x t => by
    rw [eq_div_iff hL, mul_comm, wN_ss P.L P.hL rt]
    unfold Phys.defl
    congr 1; field_simp
  have s : ∀ v : List (List ℝ), v.length ≠ 1 → (match v with | [r] => (Except.ok (Table.row r) : Except PyErr Table) | _ => .ok (.grid v)) = .ok (.grid v) := by
    intro v hv
    match v, hv with
    | [], _ => rfl
    | [_], h => exact absurd rfl h
    | _ :: _ :: _, _ => rfl
  refine ⟨?_, ?_, ?_⟩
  all_goals
    simp only [wofx, Bind.bind, Except.bind]
    refine (s _ (by simpa using hx)).trans ?_
    congr 2
    simp only [raw, qs, List.map_map]
    refine List.map_congr_left fun x _ => ?_
    simp only [Function.comp_apply, List.map_map]
    refine List.map_congr_left fun t _ => ?_
    simp only [Function.comp_apply, e]
  · field_simp
  · field_simp

/-- **C170.** A single position: one row, with the same values. -/
theorem C170_ding_wofx_single (P : Phys) (rt : ℕ → ℝ) (n : ℕ) (y : ℝ → ℕ → ℝ) (ts : List ℝ) (x : ℝ) (nw : NormaliseW)
    (h : nw ≠ .isNone) :
    wofx .ss (beta .ss rt) n (some P.L) (ts.map fun t => y (tNorm P.E P.rho P.L t)) (some [x]) none nw =
      .ok (.row (ts.map fun t => P.defl n y x t)) := by
  have hL := P.hL.ne'
  have e : ∀ t, wN .ss (beta .ss rt) n (y (tNorm P.E P.rho P.L t)) (x / P.L) * P.L = P.defl n y x t := fun t => by
    rw [mul_comm, wN_ss P.L P.hL rt]
    unfold Phys.defl
    congr 1; field_simp
  cases nw with
  | isNone => exact absurd rfl h
  | isTrue =>
    simp only [wofx, Bind.bind, Except.bind, List.map_cons, List.map_nil, List.map_map, Function.comp_def, e]
  | isFalse =>
    simp only [wofx, Bind.bind, Except.bind, List.map_cons, List.map_nil, List.map_map, Function.comp_def, e]

/-- **C170.** A beam given by normalised parameters only (no `L`) cannot be read off with the default flag:
the multiplication by `None` fails, for positions given in normalised form too. -/
theorem C170_ding_wofx_no_length (bc : BC) (b : ℕ → ℝ) (n : ℕ) (qs : List (ℕ → ℝ)) (x xN : Option (List ℝ))
    (nw : NormaliseW) (h : nw ≠ .isNone) : wofx bc b n none qs x xN nw = .error .typeError := by
  cases nw with
  | isNone => exact absurd rfl h
  | isTrue => cases xN <;> cases x <;> rfl
  | isFalse => cases xN <;> cases x <;> rfl

/-- **C171 (partial: only while the load is on the beam).** The generalised force of the run at time `t` is
that of the force `F` at `v t`; with `0 ≤ v t ≤ L` this is a force on the beam, applied at the position
reached since time zero — even if the first requested time is later than zero. -/
theorem C171_ding_load_partial (P : Phys) (rt : ℕ → ℝ) {c : Coef} (hc : norm P.args = .ok c) (n : ℕ) {m : ℕ}
    (xj Ij : Fin m → ℝ) (t : ℝ) (i : ℕ) (q qd : ℕ → ℝ) :
    P.E * P.A / 2 * (accR .ss c (beta .ss rt) n xj Ij q qd (tNorm P.E P.rho P.L t) i
      - accR .ss { c with F := 0 } (beta .ss rt) n xj Ij q qd (tNorm P.E P.rho P.L t) i) =
      P.F * Spec.mode P.L i (P.v * t) := by
  rw [norm_phys] at hc
  obtain rfl := Except.ok.inj hc
  obtain ⟨s1, s2, s3, s4⟩ := sqrt_facts P
  have hE := P.hE
  have hA := P.hA
  have hL := P.hL
  simp only [accR, bcCoeff]
  have load : phi .ss (P.v * √(P.rho / P.E) * tNorm P.E P.rho P.L t) (beta .ss rt i) = Spec.mode P.L i (P.v * t) := by
    rw [phi_ss P.L hL]
    congr 1
    unfold tNorm
    calc P.L * (P.v * √(P.rho / P.E) * (t / P.L * √(P.E / P.rho)))
        = P.v * t * (√(P.rho / P.E) * √(P.E / P.rho)) := by field_simp
      _ = _ := by rw [s2, mul_one]
  rw [load]
  field_simp
  ring

/-- **C171.** After the load has left the beam (`v t > L`) it does not stop acting: the force in every mode
is that of a force `-F` running back from the far end, at `2L - v t`; and after `2L` it enters again. -/
theorem C171_ding_ghost_load (P : Phys) (t : ℝ) (i : ℕ) :
    P.F * Spec.mode P.L i (P.v * t) = -P.F * Spec.mode P.L i (2 * P.L - P.v * t) ∧
    P.F * Spec.mode P.L i (P.v * t + 2 * P.L) = P.F * Spec.mode P.L i (P.v * t) := by
  have hL := P.hL.ne'
  constructor
  · unfold Spec.mode
    rw [show ((i:ℝ) + 1) * π * (2 * P.L - P.v * t) / P.L = ((i + 1 : ℕ) : ℝ) * (2 * π) - ((i:ℝ) + 1) * π * (P.v * t) / P.L by
      push_cast; field_simp, sin_nat_mul_two_pi_sub]
    ring
  · unfold Spec.mode
    rw [show ((i:ℝ) + 1) * π * (P.v * t + 2 * P.L) / P.L = ((i:ℝ) + 1) * π * (P.v * t) / P.L + ((i + 1 : ℕ) : ℝ) * (2 * π) by
      push_cast; field_simp, sin_add_nat_mul_two_pi]

/-- **C171.** So a load that left the beam still moves it: with a positive force and speed there is a time
at which the load is beyond the end and the first mode is pushed with the full force, upwards. -/
theorem C171_ding_ghost_load_nonzero (P : Phys) (hv : 0 < P.v) :
    ∃ t, P.L < P.v * t ∧ P.F * Spec.mode P.L 0 (P.v * t) = -P.F := by
  have hL := P.hL
  refine ⟨3 / 2 * P.L / P.v, ?_, ?_⟩
  · rw [mul_div_cancel₀ _ hv.ne']; linarith
  · rw [mul_div_cancel₀ _ hv.ne']
    unfold Spec.mode
    rw [show ((0 : ℕ) : ℝ) = 0 by norm_num, show (0 + 1) * π * (3 / 2 * P.L) / P.L = π / 2 + π by field_simp; ring, sin_add_pi,
      sin_pi_div_two]
    ring

/-- A beam with all constants one and no foundation. -/
def unit : Phys := ⟨1, 1, 1, 1, 1, 0, 0, 0, 1, 1, one_pos, one_pos, one_pos, one_pos, one_pos⟩

/-- Its one-term response: forced and free vibration. -/
noncomputable def unitY (t : ℝ) (i : ℕ) : ℝ :=
  if i = 0 then 2 / (π ^ 4 - π ^ 2) * (sin (π * t) - sin (π ^ 2 * t) / π)
  else 2 / (π ^ 4 - π ^ 2) * (π * cos (π * t) - π * cos (π ^ 2 * t))

theorem unit_norm : norm unit.args = .ok ⟨1, 1, 1, 0, 0, 0⟩ := by
  rw [norm_phys]; simp [unit]

theorem unit_run (T1 : ℝ) (w : Fin 3 → ℝ) :
    Run .ss ⟨1, 1, 1, 0, 0, 0⟩ (beta .ss fun _ => 0) 1 (.rule 3 (nodesSS 3) w) 0 T1 unitY := by
  have hp := pi_pos
  have d1 : ∀ a t : ℝ, HasDerivAt (fun t => a * t) a t := fun a t => by simpa using (hasDerivAt_id t).const_mul a
  have h0 : ∀ t, HasDerivAt (fun s => unitY s 0) (unitY t 1) t := fun t => by
    simp only [unitY, if_pos, one_ne_zero, if_false]
    exact (((d1 π t).sin.fun_sub ((d1 (π ^ 2) t).sin.div_const π)).const_mul _).congr_deriv (by field_simp)
  have hn : π ^ 4 - π ^ 2 ≠ 0 := by
    have : 3 < π := pi_gt_three
    have : π ^ 4 - π ^ 2 = π ^ 2 * (π ^ 2 - 1) := by ring
    rw [this]
    have : (0:ℝ) < π ^ 2 - 1 := by nlinarith
    positivity
  have h1 : ∀ t, HasDerivAt (fun s => unitY s 1) (-(π ^ 4) * unitY t 0 + 2 * sin (π * t)) t := fun t => by
    simp only [unitY, if_pos, one_ne_zero, if_false]
    refine ((((d1 π t).cos.const_mul π).fun_sub ((d1 (π ^ 2) t).cos.const_mul π)).const_mul _).congr_deriv ?_
    have hB : 2 / (π ^ 4 - π ^ 2) * (π ^ 4 - π ^ 2) = 2 := div_mul_cancel₀ _ hn
    generalize 2 / (π ^ 4 - π ^ 2) = B at hB
    have e : π ^ 4 * (sin (π ^ 2 * t) / π) = π ^ 3 * sin (π ^ 2 * t) := by field_simp
    linear_combination (sin (π * t)) * hB + (-B) * e
  refine ⟨fun i hi => ?_, fun i hi => ?_, fun t _ i hi => ?_⟩
  · rcases (by omega : i = 0 ∨ i = 1) with rfl | rfl <;> simp [unitY]
  · rcases (by omega : i = 0 ∨ i = 1) with rfl | rfl
    · exact fun t _ => (h0 t).continuousAt.continuousWithinAt
    · exact fun t _ => (h1 t).continuousAt.continuousWithinAt
  · rcases (by omega : i = 0 ∨ i = 1) with rfl | rfl
    · exact ⟨_, by simp [vectorfield], h0 t⟩
    · refine ⟨_, ?_, h1 t⟩
      simp only [vectorfield, acc, phiNan, and_false, exists_const, or_self, if_false, accR, beta, bcCoeff, phi, phiSS]
      norm_num

/-- C165 and C166 are not vacuous: the run above, with Simpson's rule as built by the constructor, is a
run of the physical beam `unit`; its deflection satisfies the equation of motion, and at midspan at time
1 it is not zero. -/
example : ∃ w, mkRule .ss (some 3) = .ok (.rule 3 (nodesSS 3) w) ∧
    Run .ss ⟨1, 1, 1, 0, 0, 0⟩ (beta .ss fun _ => 0) 1 (.rule 3 (nodesSS 3) w) 0 5 unitY ∧
    unit.defl 1 unitY (1 / 2) 1 ≠ 0 := by
  obtain ⟨w, h, _⟩ := C167_ding_quadrature_exact 3 (by norm_num)
  refine ⟨w, h, unit_run 5 w, ?_⟩
  have hp := pi_gt_three
  have hq : π < 3.15 := pi_lt_d2
  have hn : π ^ 4 - π ^ 2 ≠ 0 := by
    have : π ^ 4 - π ^ 2 = π ^ 2 * (π ^ 2 - 1) := by ring
    rw [this]
    have : (0:ℝ) < π ^ 2 - 1 := by nlinarith
    positivity
  have hs : sin (π ^ 2) < 0 := by
    rw [← sin_sub_two_pi]
    rw [← neg_pos, ← sin_neg, neg_sub, show 2 * π - π ^ 2 = -(π ^ 2 - 2 * π) by ring, sin_neg, neg_pos, ← neg_pos, ← sin_sub_pi]
    exact sin_pos_of_pos_of_lt_pi (by nlinarith) (by nlinarith)
  have e : unit.defl 1 unitY (1 / 2) 1 = 2 / (π ^ 4 - π ^ 2) * (-(sin (π ^ 2) / π)) := by
    simp [Phys.defl, Spec.shape, Spec.mode, unit, tNorm, unitY]
    rw [show π * 2⁻¹ = π / 2 by ring, sin_pi_div_two, mul_one]
  rw [e]
  have : sin (π ^ 2) / π ≠ 0 := div_ne_zero hs.ne (by positivity)
  exact mul_ne_zero (div_ne_zero two_ne_zero hn) (neg_ne_zero.2 this)

end Geotecha.Beam
