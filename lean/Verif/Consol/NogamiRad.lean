import Verif.Consol.NogamiErr
import Verif.Consol.BesselZero
import Verif.Roots.Hop

/-! # The radial search of nogamiandli2003 finds something: for the cases beside C158 - C164 -/

set_option autoImplicit false
set_option linter.unusedVariables false
open Real Finset MeasureTheory
namespace Geotecha.Consol

/-- The first place where a continuous function stops being positive. -/
theorem first_zero {f : ℝ → ℝ} {a b : ℝ} (hab : a ≤ b) (hf : ContinuousOn f (Set.Icc a b)) (ha : 0 < f a) (hb : f b ≤ 0) :
    ∃ c, a < c ∧ c ≤ b ∧ f c = 0 ∧ ∀ x, a ≤ x → x < c → 0 < f x := by
  set K := Set.Icc a b ∩ f ⁻¹' Set.Iic 0 with hK
  have hcl : IsClosed K := hf.preimage_isClosed_of_isClosed isClosed_Icc isClosed_Iic
  have hne : K.Nonempty := ⟨b, ⟨hab, le_rfl⟩, hb⟩
  have hbd : BddBelow K := ⟨a, fun x hx => hx.1.1⟩
  obtain ⟨⟨c1, c2⟩, c3⟩ := hcl.csInf_mem hne hbd
  have hpos : ∀ x, a ≤ x → x < sInf K → 0 < f x := fun x h1 h2 => by
    by_contra hc
    exact absurd (csInf_le hbd (⟨⟨h1, by linarith⟩, not_lt.1 hc⟩ : x ∈ K)) (not_le.2 h2)
  have c3 : f (sInf K) ≤ 0 := c3
  have hac : a < sInf K := lt_of_le_of_ne c1 fun h => by rw [← h] at c3; linarith
  refine ⟨sInf K, hac, c2, le_antisymm c3 ?_, hpos⟩
  have hct : ContinuousWithinAt f (Set.Ico a (sInf K)) (sInf K) := (hf _ ⟨c1, c2⟩).mono fun x hx => ⟨hx.1, by linarith [hx.2]⟩
  have hcl : sInf K ∈ closure (Set.Ico a (sInf K)) := by
    rw [closure_Ico hac.ne]; exact ⟨c1, le_rfl⟩
  have := hct.mem_closure_image hcl
  have h2 : closure (f '' Set.Ico a (sInf K)) ⊆ Set.Ici 0 := closure_minimal (by
    rintro _ ⟨x, hx, rfl⟩; exact (hpos x hx.1 hx.2).le) isClosed_Ici
  exact h2 this

namespace NL

/-- A drain of radius 1 in soil up to the radius `R`. -/
def dr (R : ℝ) : NLDrain := ⟨[1], 1, R, 1⟩

section
variable {B : BesselFns} (hB : Spec.IsBessel B.J B.Y 0) {s t : ℝ} (hs : 0 < s) (ht : 0 < t)

/-- The functions of the radius (they do not depend on the outer radius). -/
noncomputable def U (B : BesselFns) (s r : ℝ) : ℝ := -un (dr 2) B r s 0
noncomputable def V (B : BesselFns) (s r : ℝ) : ℝ := un (dr 2) B r s 1

include hB hs

theorem U_deriv {r : ℝ} (hr : 0 < r) : HasDerivAt (U B s) (s * V B s r) r := by
  refine ((un_deriv (d := dr 2) one_pos hB hs hr).fun_neg).congr_deriv ?_
  unfold V dr; simp

theorem V_deriv {r : ℝ} (hr : 0 < r) : HasDerivAt (fun r => r * V B s r) (-(s * r * U B s r)) r := by
  refine ((hasDerivAt_id r).mul (un1_deriv (d := dr 2) one_pos hB hs hr)).congr_deriv ?_
  unfold U dr
  simp only [id]
  field_simp; ring

theorem V_one : 0 < V B s 1 := by
  have := hB.wr s hs
  unfold V un dr
  simp only [div_self one_ne_zero, one_mul]
  rw [zero_add] at this
  rw [this]
  have := pi_pos
  positivity

omit hB hs in
theorem U_one : U B s 1 = 0 := by unfold U un dr; simp

theorem rV_cont : ContinuousOn (fun r => r * V B s r) (Set.Ici 1) := fun r hr =>
  (V_deriv hB hs (lt_of_lt_of_le one_pos hr)).continuousAt.continuousWithinAt

theorem U_pos {b : ℝ} (hV : ∀ r, 1 ≤ r → r < b → 0 < V B s r) : ∀ r, 1 < r → r ≤ b → 0 < U B s r := by
  intro r h1 h2
  have hmono : StrictMonoOn (U B s) (Set.Icc 1 r) := by
    refine strictMonoOn_of_deriv_pos (convex_Icc 1 r) (fun x hx => (U_deriv hB hs (lt_of_lt_of_le one_pos hx.1)).continuousAt.continuousWithinAt) ?_
    intro x hx
    rw [interior_Icc] at hx
    rw [(U_deriv hB hs (by linarith [hx.1])).deriv]
    exact mul_pos hs (hV x hx.1.le (by linarith [hx.2]))
  have := hmono ⟨le_rfl, h1.le⟩ ⟨h1.le, le_rfl⟩ h1
  rwa [U_one] at this

/-- The slope does not stay positive. -/
theorem oscillates : ∃ r, 1 < r ∧ V B s r ≤ 0 := by
  by_contra hc
  push Not at hc
  have hV : ∀ r, 1 ≤ r → 0 < V B s r := fun r h => by
    rcases h.lt_or_eq with h | h
    · exact hc r h
    · rw [← h]; exact V_one hB hs
  have hU : ∀ r, 1 < r → 0 < U B s r := fun r h => U_pos hB hs (b := r) (fun x h1 _ => hV x h1) r h le_rfl
  have hU2 : ∀ r, 2 ≤ r → U B s 2 ≤ U B s r := fun r h => by
    have hmono : MonotoneOn (U B s) (Set.Icc 2 r) := by
      refine monotoneOn_of_deriv_nonneg (convex_Icc 2 r) (fun x hx => (U_deriv hB hs (by linarith [hx.1])).continuousAt.continuousWithinAt)
        (fun x hx => ?_) ?_
      · rw [interior_Icc] at hx; exact (U_deriv hB hs (by linarith [hx.1])).differentiableAt.differentiableWithinAt
      intro x hx
      rw [interior_Icc] at hx
      rw [(U_deriv hB hs (by linarith [hx.1])).deriv]
      exact (mul_pos hs (hV x (by linarith [hx.1]))).le
    exact hmono ⟨le_rfl, h⟩ ⟨h, le_rfl⟩ h
  set c := s * U B s 2 with hcdef
  have hcpos : 0 < c := mul_pos hs (hU 2 (by norm_num))
  have hdec : ∀ r, 2 ≤ r → r * V B s r + c * r ≤ 2 * V B s 2 + c * 2 := fun r h => by
    have hanti : AntitoneOn (fun r => r * V B s r + c * r) (Set.Icc 2 r) := by
      have hd : ∀ x, 0 < x → HasDerivAt (fun r => r * V B s r + c * r) (-(s * x * U B s x) + c) x := fun x hx => by
        exact ((V_deriv hB hs hx).add ((hasDerivAt_id x).const_mul c)).congr_deriv (by ring)
      refine antitoneOn_of_deriv_nonpos (convex_Icc 2 r) (fun x hx => (hd x (by linarith [hx.1])).continuousAt.continuousWithinAt)
        (fun x hx => ?_) ?_
      · rw [interior_Icc] at hx; exact (hd x (by linarith [hx.1])).differentiableAt.differentiableWithinAt
      intro x hx
      rw [interior_Icc] at hx
      rw [(hd x (by linarith [hx.1])).deriv]
      have h1 := hU2 x hx.1.le
      have h2 := hU 2 (by norm_num)
      have : U B s 2 ≤ x * U B s x := by nlinarith [hx.1]
      nlinarith
    exact hanti ⟨le_rfl, h⟩ ⟨h, le_rfl⟩ h
  set r := 2 + 2 * V B s 2 / c with hr
  have h2 := hV 2 (by norm_num)
  have hr2 : 2 ≤ r := by rw [hr]; have : 0 ≤ 2 * V B s 2 / c := by positivity
                         linarith
  have h3 := hdec r hr2
  have h4 : c * r = c * 2 + 2 * V B s 2 := by rw [hr]; field_simp
  have h5 := hV r (by linarith)
  have : 0 < r * V B s r := mul_pos (by linarith) h5
  linarith

end

/-- There is an outer radius for which the curve is positive at 1 and zero at 2. -/
theorem radius_ex {B : BesselFns} (hB : Spec.IsBessel B.J B.Y 0) : ∃ R, 1 < R ∧ 0 < V B 1 R ∧ V B 2 R = 0 := by
  have hs1 : (0:ℝ) < 1 := one_pos
  have hs2 : (0:ℝ) < 2 := two_pos
  obtain ⟨b, hb1, hb2⟩ := oscillates hB hs2
  obtain ⟨c, h1, h2, h3, h4⟩ := first_zero (f := fun r => r * V B 2 r) hb1.le ((rV_cont hB hs2).mono fun x hx => hx.1)
    (by rw [one_mul]; exact V_one hB hs2) (mul_nonpos_of_nonneg_of_nonpos (by linarith) hb2)
  have hc0 : c ≠ 0 := by linarith
  have hV2 : ∀ r, 1 ≤ r → r < c → 0 < V B 2 r := fun r g1 g2 => by
    have := h4 r g1 g2
    exact (pos_iff_pos_of_mul_pos this).1 (by linarith)
  refine ⟨c, h1, ?_, (mul_eq_zero.1 h3).resolve_left hc0⟩
  by_contra hc
  obtain ⟨b, g1, g2, g3, g4⟩ := first_zero (f := fun r => r * V B 1 r) h1.le ((rV_cont hB hs1).mono fun x hx => hx.1)
    (by rw [one_mul]; exact V_one hB hs1) (mul_nonpos_of_nonneg_of_nonpos (by linarith) (not_lt.1 hc))
  have hb0 : b ≠ 0 := by linarith
  have hV1 : ∀ r, 1 ≤ r → r < b → 0 < V B 1 r := fun r a1 a2 => by
    have := g4 r a1 a2
    exact (pos_iff_pos_of_mul_pos this).1 (by linarith)
  have g3 : V B 1 b = 0 := (mul_eq_zero.1 g3).resolve_left hb0
  have u1 := U_pos hB hs1 hV1
  have u2 := U_pos hB hs2 (b := b) (fun r a1 a2 => hV2 r a1 (by linarith))
  set E : ℝ → ℝ := fun r => r * V B 1 r * U B 2 r - 2 * (U B 1 r * (r * V B 2 r)) with hE
  have hEd : ∀ r, 0 < r → HasDerivAt E (3 * r * (U B 1 r * U B 2 r)) r := fun r hr => by
    refine (((V_deriv hB hs1 hr).mul (U_deriv hB hs2 hr)).sub (((U_deriv hB hs1 hr).mul (V_deriv hB hs2 hr)).const_mul 2)).congr_deriv ?_
    ring
  have hmono : StrictMonoOn E (Set.Icc 1 b) := by
    refine strictMonoOn_of_deriv_pos (convex_Icc 1 b) (fun x hx => (hEd x (by linarith [hx.1])).continuousAt.continuousWithinAt) ?_
    intro x hx
    rw [interior_Icc] at hx
    rw [(hEd x (by linarith [hx.1])).deriv]
    have := u1 x hx.1 hx.2.le
    have := u2 x hx.1 hx.2.le
    have : 0 < x := by linarith [hx.1]
    positivity
  have := hmono ⟨le_rfl, g1.le⟩ ⟨g1.le, le_rfl⟩ g1
  have e1 : E 1 = 0 := by rw [hE]; simp only [U_one]; ring
  have e2 : E b = -(2 * (U B 1 b * (b * V B 2 b))) := by rw [hE]; simp only [g3]; ring
  have v2 : 0 ≤ V B 2 b := by
    rcases g2.lt_or_eq with h | h
    · exact (hV2 b g1.le h).le
    · rw [h, (mul_eq_zero.1 h3).resolve_left hc0]
  have : 0 ≤ U B 1 b * (b * V B 2 b) := mul_nonneg (u1 b g1 le_rfl).le (mul_nonneg (by linarith) v2)
  linarith

theorem curve_V (B : BesselFns) (R s : ℝ) : radialCurve (dr R) B s = V B s R := by
  unfold radialCurve V un dr; simp

theorem curve_cont {R : ℝ} (hR : 0 < R) {s : ℝ} (hs : 0 < s) : ContinuousAt (radialCurve (dr R) Bes.fns) s := by
  have hB := Bes.isBessel
  have hRs : 0 < R * s := by positivity
  unfold radialCurve un dr
  simp only [div_one]
  have c1 : ContinuousAt (Bes.fns.J 0) s := (hB.dJ s hs).continuousAt
  have c2 : ContinuousAt (Bes.fns.Y 0) s := (hB.dY s hs).continuousAt
  have d1 := (hB.dJ' (R * s) hRs).continuousAt
  have d2 := (hB.dY' (R * s) hRs).continuousAt
  rw [zero_add] at d1 d2
  have l : ContinuousAt (fun s : ℝ => R * s) s := by fun_prop
  have c3 : ContinuousAt (fun s => Bes.fns.J 1 (R * s)) s := ContinuousAt.comp (f := fun s : ℝ => R * s) d1 l
  have c4 : ContinuousAt (fun s => Bes.fns.Y 1 (R * s)) s := ContinuousAt.comp (f := fun s : ℝ => R * s) d2 l
  exact (c3.mul c2).sub (c1.mul c4)

theorem fns_neg {x nu : ℝ} (hx : x ≤ 0) : Bes.fns.J nu x = 0 ∧ Bes.fns.Y nu x = 0 := by simp [Bes.fns, hx]

/-- A function that is zero up to 0 and continuous after has a solver. -/
theorem solver_pos {f : ℝ → ℝ} (h0 : ∀ x, x ≤ 0 → f x = 0) (hc : ∀ x, 0 < x → ContinuousAt f x) : ∃ solve, Roots.Spec.Solves f solve := by
  have : ∀ x0 x1 : ℝ, ∃ z, x0 < x1 → f x0 ≠ 0 → f x0 * f x1 ≤ 0 → x0 ≤ z ∧ z ≤ x1 ∧ f z = 0 := fun x0 x1 => by
    by_cases h : x0 < x1 ∧ f x0 ≠ 0 ∧ f x0 * f x1 ≤ 0
    · obtain ⟨h1, h2, h3⟩ := h
      have hx0 : 0 < x0 := by
        by_contra hn
        exact h2 (h0 x0 (not_lt.1 hn))
      have hct : ContinuousOn f (Set.Icc x0 x1) := fun x hx => (hc x (by linarith [hx.1])).continuousWithinAt
      rcases lt_or_gt_of_ne h2 with g | g
      · obtain ⟨c, g1, g2, g3, _⟩ := first_zero (f := fun x => -f x) h1.le hct.neg (by simpa using g) (by
          have : 0 ≤ f x1 := by by_contra hn; have := mul_pos_of_neg_of_neg g (not_le.1 hn); linarith
          linarith)
        exact ⟨c, fun _ _ _ => ⟨g1.le, g2, by linarith⟩⟩
      · obtain ⟨c, g1, g2, g3, _⟩ := first_zero h1.le hct g (by by_contra hn; have := mul_pos g (not_le.1 hn); linarith)
        exact ⟨c, fun _ _ _ => ⟨g1.le, g2, g3⟩⟩
    · exact ⟨0, fun a b c => absurd ⟨a, b, c⟩ h⟩
  choose z hz using this
  exact ⟨fun x0 x1 _ => z x0 x1, fun x0 x1 _ h1 h2 h3 => hz x0 x1 h1 h2 h3⟩

theorem radial_solver {R : ℝ} (hR : 0 < R) : ∃ solve, Roots.Spec.Solves (radialCurve (dr R) Bes.fns) solve := by
  refine solver_pos (fun x hx => ?_) fun x hx => curve_cont hR hx
  unfold radialCurve un
  rw [(fns_neg hx).1, (fns_neg hx).2]; ring

/-- A solver for whatever has one. -/
theorem solver_all : ∃ solve : (ℝ → ℝ) → ℝ → ℝ → ℝ → ℝ, ∀ f, (∃ sv, Roots.Spec.Solves f sv) → Roots.Spec.Solves f (solve f) := by
  have : ∀ f : ℝ → ℝ, ∃ sv : ℝ → ℝ → ℝ → ℝ, (∃ sv, Roots.Spec.Solves f sv) → Roots.Spec.Solves f sv := fun f => by
    by_cases h : ∃ sv, Roots.Spec.Solves f sv
    · obtain ⟨sv, hsv⟩ := h; exact ⟨sv, fun _ => hsv⟩
    · exact ⟨fun _ _ _ => 0, fun h' => absurd h' h⟩
  choose s hs using this
  exact ⟨s, hs⟩

end NL
end Geotecha.Consol
