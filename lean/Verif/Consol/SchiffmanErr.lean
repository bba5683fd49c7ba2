import Verif.Consol.SchiffmanClaims
import Mathlib.Analysis.Real.Pi.Bounds

/-! # C131 (negation), C135, C136 and concrete cases: schiffmanandstein1970 -/

set_option linter.unusedVariables false
set_option autoImplicit false
open Real Finset MeasureTheory
namespace Geotecha.Consol
open Geotecha (PyErr)
open Geotecha.Piecewise Geotecha.Speccon
open Geotecha.Spec (polyLeft polyRight)
namespace SS

theorem coeffs_err {o : SS} {tp bt : ℝ × ℝ} {b : ℝ} (h : (Matrix.of fun r c : Fin (2 * o.nl - 1) => clean (o.bc tp bt b r c)).det = 0) :
    o.coeffs tp bt b = .error .other := by
  unfold coeffs
  simp only
  rw [if_pos h]

theorem output_err {o : SS} {tp bt : ℝ × ℝ} {b : ℝ} (h : o.coeffs tp bt b = .error .other) : ∀ {rs : List ℝ}, b ∈ rs →
    o.output tp bt rs = .error .other := by
  intro rs hb
  have : (rs.mapM fun b => do pure (Term.mk b (← o.coeffs tp bt b)) : Except PyErr (List Term)) = .error .other := by
    have hall : ∀ b' e, o.coeffs tp bt b' = .error e → e = .other := fun b' e he => by
      unfold coeffs at he
      simp only at he
      split at he
      · injection he with he; exact he.symm
      · cases he
    induction rs with
    | nil => cases hb
    | cons a l ih =>
      rw [List.mapM_cons]
      cases ha : o.coeffs tp bt a with
      | error e => rw [hall a e ha]; rfl
      | ok c =>
        rcases List.mem_cons.1 hb with rfl | hb
        · rw [h] at ha; cases ha
        · rw [ih hb]; rfl
  unfold output
  rw [this]
  rfl

theorem clean_zero : clean 0 = 0 := by unfold clean; simp
theorem clean_neg (x : ℝ) : clean (-x) = -clean x := by unfold clean; rw [abs_neg]; split_ifs <;> simp

/-- Uniform soil: all layers have the properties of the first. -/
def Uniform (o : SS) : Prop := ∀ i < o.nl, o.k i = o.k 0 ∧ o.m i = o.m 0

theorem beta_uniform {o : SS} (h : o.Valid) (hu : o.Uniform) {b : ℝ} (hb : 0 < b) : ∀ {i : ℕ}, i < o.nl → o.beta b i = b
  | 0, _ => rfl
  | i + 1, hi => by
    have h1 := beta_uniform h hu hb (i := i) (by omega)
    unfold beta
    have hc : o.cv i = o.cv (i + 1) := by
      unfold cv; rw [(hu i (by omega)).1, (hu i (by omega)).2, (hu _ hi).1, (hu _ hi).2]
    rw [h1, hc, div_self (cv_pos h hi).ne', one_mul, sqrt_sq hb.le]

theorem uniform_singular {o : SS} (h : o.Valid) (hu : o.Uniform) {bt : ℝ × ℝ} {b : ℝ} (hb : 0 < b) :
    (Matrix.of fun r c : Fin (2 * o.nl - 1) => clean (o.bc (1, 0) bt b r c)).det = 0 := by
  have hn : 0 < o.nl := h.nl
  refine Matrix.exists_mulVec_eq_zero_iff.1 ⟨fun j => if (j : ℕ) % 2 = 0 then 1 else 0, ?_, ?_⟩
  · intro h0
    have := congrFun h0 ⟨0, by omega⟩
    simp at this
  · funext r
    have hr := r.isLt
    rw [Matrix.mulVec, dotProduct]
    simp only [Matrix.of_apply]
    set v : ℕ → ℝ := fun j => if j % 2 = 0 then 1 else 0 with hv
    have e : ∀ f : ℕ → ℝ, ∑ c : Fin (2 * o.nl - 1), f c * v c = ∑ c ∈ range (2 * o.nl), f c * v c := fun f => by
      rw [Fin.sum_univ_eq_sum_range (fun c => f c * v c)]
      conv_rhs => rw [show 2 * o.nl = 2 * o.nl - 1 + 1 by omega, sum_range_succ]
      rw [show v (2 * o.nl - 1) = 0 by rw [hv]; simp only; rw [if_neg (by omega)], mul_zero, add_zero]
    show ∑ c : Fin (2 * o.nl - 1), clean (o.bc (1, 0) bt b r c) * v c = 0
    rw [e fun c => clean (o.bc (1, 0) bt b r c)]
    generalize (r : ℕ) = r at *
    have hv0 : ∀ j, v (2 * j) = 1 := fun j => by rw [hv]; simp
    have hv1 : ∀ j, v (2 * j + 1) = 0 := fun j => by rw [hv]; simp only; rw [if_neg (by omega)]
    unfold bc
    by_cases h0 : r = 0
    · simp only [h0, if_true, apply_ite clean, clean_zero]
      have := sum_two (2 * o.nl) 0 (by omega) (clean (0 * -1)) (clean (1 * o.beta b 0)) v
      simp only [zero_add] at this
      rw [this, show v 1 = 0 from hv1 0, zero_mul, clean_zero]
      ring
    · have hne : ¬ r = 2 * o.nl - 1 := by omega
      simp only [if_neg h0, if_neg hne]
      rcases Nat.mod_two_eq_zero_or_one r with hr0 | hr1
      · obtain ⟨i, rfl⟩ : ∃ i, r = 2 * i + 2 := ⟨(r - 2) / 2, by omega⟩
        simp only [show (2 * i + 2 - 1) / 2 = i by omega, if_neg (show ¬((2 * i + 2) % 2 = 1) by omega), apply_ite clean, clean_zero]
        rw [sum_four _ _ (by omega), hv0, hv1, show 2 * i + 2 = 2 * (i + 1) by ring, hv0, show 2 * i + 3 = 2 * (i + 1) + 1 by ring, hv1,
          beta_uniform h hu hb (i := i) (by omega), beta_uniform h hu hb (i := i + 1) (by omega)]
        have ha : o.alpha i = 1 := by
          unfold alpha
          rw [(hu i (by omega)).1, (hu (i + 1) (by omega)).1, div_self (k_pos h h.nl).ne']
        rw [ha, show -1 * b * sin (b * o.zlayer i) = -(b * sin (b * o.zlayer i)) by ring, clean_neg]
        ring
      · obtain ⟨i, rfl⟩ : ∃ i, r = 2 * i + 1 := ⟨r / 2, by omega⟩
        simp only [show (2 * i + 1 - 1) / 2 = i by omega, hr1, if_true, apply_ite clean, clean_zero]
        rw [sum_four _ _ (by omega), hv0, hv1, show 2 * i + 2 = 2 * (i + 1) by ring, hv0, show 2 * i + 3 = 2 * (i + 1) + 1 by ring, hv1,
          beta_uniform h hu hb (i := i) (by omega), beta_uniform h hu hb (i := i + 1) (by omega), clean_neg]
        ring

/-- **C135**: what is documented for the boundaries and does not work.  Whatever the root finder does, an impervious top over a uniform soil
(in however many layers) never gives a result. -/
theorem C135_impervious_top_partial (o : SS) (h : o.Valid) (hu : o.Uniform) (htop : o.bctop = 1) (hn : 0 < o.n) (solve : ℝ → ℝ → ℝ → ℝ)
    (hs : o.SolverOk solve) (r : Except PyErr Output) (hE : o.Ends solve r) : ∃ e, r = .error e := by
  cases r with
  | error e => exact ⟨e, rfl⟩
  | ok r =>
    exfalso
    obtain ⟨rs, co, tp, bt, R⟩ := unpack h hs hE
    have htp : tp = (1, 0) := by
      rcases top_cases R.top with ⟨h0, _⟩ | ⟨_, h1⟩
      · rw [h0] at htop; norm_num at htop
      · exact h1
    have hlen := R.len
    obtain ⟨b, hb⟩ : ∃ b, b ∈ rs := List.exists_mem_of_length_pos (by omega)
    have := R.coeff b hb
    rw [htp, coeffs_err (uniform_singular h hu (R.pos b hb))] at this
    cases this

/-- The impeded boundaries (`3`) of the documentation and unknown values end in an error before anything is computed; only one of them is the
`ValueError` that was meant. -/
theorem C135_boundary_partial (o : SS) (solve : ℝ → ℝ → ℝ → ℝ) (r : Except PyErr Output) (hE : o.Ends solve r) :
    (o.bctop = 3 → r = .error .other) ∧ (o.bctop ≠ 0 → o.bctop ≠ 1 → o.bctop ≠ 3 → r = .error .attributeError) ∧
    ((o.bctop = 0 ∨ o.bctop = 1) → o.bcbot = 3 → r = .error .other) ∧
    ((o.bctop = 0 ∨ o.bctop = 1) → o.bcbot ≠ 0 → o.bcbot ≠ 1 → o.bcbot ≠ 3 → r = .error .valueError) := by
  unfold Ends top bot at hE
  refine ⟨fun h => ?_, fun h0 h1 h3 => ?_, fun ht h => ?_, fun ht h0 h1 h3 => ?_⟩
  · rw [h] at hE; simpa using hE
  · rw [if_neg h0, if_neg h1, if_neg h3] at hE; simpa using hE
  · rw [h] at hE
    rcases ht with ht | ht <;> rw [ht] at hE <;> simpa using hE
  · rw [if_neg h0, if_neg h1, if_neg h3] at hE
    rcases ht with ht | ht <;> rw [ht] at hE <;> simpa using hE

/-- **C136**: what is handed over for saving.  Under the name of the average pore pressure it is the average pore pressure; under the name of the
settlement it is the average pore pressure again. -/
theorem C136_saved_partial (o : SS) (solve : ℝ → ℝ → ℝ → ℝ) (r : Output) (hE : o.Ends solve (.ok r)) : r.dataAvp = r.avp ∧ r.dataSet = r.avp := by
  have key : ∀ tp bt b, .ok r = o.output tp bt b → r.dataAvp = r.avp ∧ r.dataSet = r.avp := fun tp bt b ho => by
    unfold output at ho
    simp only [Bind.bind, Except.bind] at ho
    split at ho
    · cases ho
    have fin : ∀ (x : Option (List (List ℝ))) (a : Except PyErr (List (ℝ × ℝ))) (f : List (ℝ × ℝ) → Output),
        (∀ l, (f l).dataAvp = (f l).avp ∧ (f l).dataSet = (f l).avp) → .ok r = a.bind (fun l => .ok (f l)) → r.dataAvp = r.avp ∧ r.dataSet = r.avp := by
      intro x a f hf h
      cases a with
      | error e => cases h
      | ok l => injection h with h; rw [h]; exact hf l
    split at ho <;> split at ho
    · cases ho
    · exact fin none _ _ (fun l => ⟨rfl, rfl⟩) ho
    · cases ho
    · split at ho
      · cases ho
      · exact fin none _ _ (fun l => ⟨rfl, rfl⟩) ho
  unfold Ends at hE
  split at hE
  · cases hE
  · cases hE
  · rcases hE with ⟨e, _, he⟩ | ⟨b, _, ho⟩
    · cases he
    · exact key _ _ _ ho

/-! ## Small entries -/

/-- Two layers, the upper one very tight; both drain. -/
noncomputable def tight (n : ℕ) (p : PolyLine ℝ) : SS := ⟨[], [], none, n, [1, 1], [1e-12, 1], [1e-12, 1], 0, 0, p⟩

theorem tight_valid (n : ℕ) (p : PolyLine ℝ) : (tight n p).Valid := by
  constructor <;> simp [tight] <;> norm_num

theorem tight_beta (n : ℕ) (p : PolyLine ℝ) : (tight n p).beta π 1 = π := by
  have := beta_rate (tight_valid n p) (b := π) pi_pos (i := 1) (by simp [tight, nl])
  have h0 := beta_pos (tight_valid n p) (b := π) pi_pos (i := 1) (by simp [tight, nl])
  have c0 : (tight n p).cv 0 = 1 := by norm_num [tight, cv, k, m]
  have c1 : (tight n p).cv 1 = 1 := by simp [tight, cv, k, m]
  rw [c0, c1, one_mul, one_mul] at this
  exact (pow_left_inj₀ h0.le pi_pos.le two_ne_zero).1 this

/-- **C131**, what is missing: the clean-up of small entries.  Of these two layers the function with slope `1e12` times larger in the upper one
is a mode, and `π` is a root of the characteristic equation, but no coefficients are found for it: with `π` among the roots there is no result. -/
theorem C131_negation (n : ℕ) (p : PolyLine ℝ) : (tight n p).Valid ∧
    (tight n p).column.Mode (π ^ 2) (fun i z => if i = 0 then 1e12 * sin (π * z) else sin (π * z))
      (fun i z => if i = 0 then 1e12 * (π * cos (π * z)) else π * cos (π * z)) ∧
    ∀ tp bt, (tight n p).top = .ok tp → (tight n p).bot = .ok bt → (tight n p).charEqn tp bt π = 0 ∧
      ∀ rs, π ∈ rs → (tight n p).output tp bt rs = .error .other := by
  refine ⟨tight_valid n p, ?_, ?_⟩
  · have hs : ∀ z, HasDerivAt (fun z => sin (π * z)) (π * cos (π * z)) z := fun z => by
      have hb : HasDerivAt (fun z => π * z) π z := by simpa using (hasDerivAt_id z).const_mul π
      exact hb.sin.congr_deriv (by ring)
    have hc : ∀ z, HasDerivAt (fun z => π * cos (π * z)) (-(π ^ 2 * sin (π * z))) z := fun z => by
      have hb : HasDerivAt (fun z => π * z) π z := by simpa using (hasDerivAt_id z).const_mul π
      exact (hb.cos.const_mul π).congr_deriv (by ring)
    have d1 : (tight n p).column.depth 1 = 1 := by simp [Spec.Column.depth, column, tight, hh]
    have d2 : (tight n p).column.depth 2 = 2 := by simp [Spec.Column.depth, column, tight, hh, sum_range_succ]; norm_num
    have hN : (tight n p).column.N = 2 := rfl
    have k0 : (tight n p).column.kv 0 = 1e-12 := by simp [column, tight, k]
    have k1 : (tight n p).column.kv 1 = 1 := by simp [column, tight, k]
    have m0 : (tight n p).column.mv 0 = 1e-12 := by simp [column, tight, m]
    have m1 : (tight n p).column.mv 1 = 1 := by simp [column, tight, m]
    refine ⟨fun i hi z => ?_, fun i hi z => ?_, ⟨fun i hi => ?_, fun i hi => ?_, ⟨fun _ => by simp, fun hne => absurd rfl hne⟩,
      ⟨fun _ => ?_, fun hne => absurd rfl hne⟩⟩⟩
    · rw [hN] at hi
      obtain rfl | rfl : i = 0 ∨ i = 1 := by omega
      · simpa using (hs z).const_mul 1e12
      · simpa using hs z
    · rw [hN] at hi
      obtain rfl | rfl : i = 0 ∨ i = 1 := by omega
      · simp only [if_true, k0, m0]
        exact (((hc z).const_mul 1e12).const_mul 1e-12).congr_deriv (by ring)
      · simp only [one_ne_zero, if_false, k1, m1]
        exact ((hc z).const_mul 1).congr_deriv (by ring)
    · rw [hN] at hi
      obtain rfl : i = 0 := by omega
      rw [d1]; simp
    · rw [hN] at hi
      obtain rfl : i = 0 := by omega
      rw [d1, k0, k1]; simp only [if_true, zero_add, one_ne_zero, if_false, mul_one, cos_pi]; norm_num; ring
    · rw [hN, d2]
      simp [mul_comm π 2]
  · intro tp bt ht hb
    have htp : tp = (0, -1) := by
      have : (tight n p).top = .ok (0, -1) := rfl
      rw [this] at ht; injection ht with ht; exact ht.symm
    have hbt : bt = (0, 1) := by
      have : (tight n p).bot = .ok (0, 1) := rfl
      rw [this] at hb; injection hb with hb; exact hb.symm
    subst htp hbt
    have b0 : (tight n p).beta π 0 = π := rfl
    have b1 := tight_beta n p
    have z0 : (tight n p).zlayer 0 = 1 := by simp [zlayer, tight, hh]
    have z1 : (tight n p).zlayer 1 = 2 := by simp [zlayer, tight, hh, sum_range_succ]; norm_num
    have hnl : (tight n p).nl = 2 := rfl
    have ha : (tight n p).alpha 0 = 1e-12 := by simp [alpha, tight, k]
    have s2 : sin (π * 2) = 0 := by rw [mul_comm]; exact sin_two_pi
    constructor
    · unfold charEqn
      refine Matrix.exists_mulVec_eq_zero_iff.1 ⟨fun j : Fin 4 => ![0, 1e12, 0, 1] j, ?_, ?_⟩
      · intro h0
        have : (1:ℝ) = 0 := congrFun h0 (3 : Fin 4)
        norm_num at this
      · funext r
        show ∑ c : Fin 4, (tight n p).bc (0, -1) (0, 1) π r c * ![0, 1e12, 0, 1] c = 0
        have hr : r = (0 : Fin 4) ∨ r = (1 : Fin 4) ∨ r = (2 : Fin 4) ∨ r = (3 : Fin 4) := by
          revert r
          exact (by decide : ∀ r : Fin 4, r = 0 ∨ r = 1 ∨ r = 2 ∨ r = 3)
        rcases hr with rfl | rfl | rfl | rfl <;>
          simp [Fin.sum_univ_four, bc, hnl, b0, b1, z0, z1, ha, s2] <;> norm_num <;> ring
    · intro rs hrs
      refine output_err (coeffs_err ?_) hrs
      refine Matrix.det_eq_zero_of_column_eq_zero (1 : Fin 3) fun r => ?_
      show clean ((tight n p).bc (0, -1) (0, 1) π r 1) = 0
      have hr : r = (0 : Fin 3) ∨ r = (1 : Fin 3) ∨ r = (2 : Fin 3) := by
        revert r
        exact (by decide : ∀ r : Fin 3, r = 0 ∨ r = 1 ∨ r = 2)
      rcases hr with rfl | rfl | rfl
      · simp [bc, clean_zero]
      · simp [bc, hnl, b0, z0, clean_zero]
      · have : (tight n p).bc (0, -1) (0, 1) π 2 1 = -(1e-12 * π) := by simp [bc, hnl, b0, z0, ha]
        show clean ((tight n p).bc (0, -1) (0, 1) π 2 1) = 0
        rw [this]
        unfold clean
        rw [if_pos]
        rw [abs_neg, abs_of_pos (by positivity)]
        have := pi_lt_four
        norm_num
        linarith

end SS
end Geotecha.Consol
