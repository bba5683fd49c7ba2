import Verif.Consol.Schiffman
import Verif.Consol.LayerModes
import Mathlib.LinearAlgebra.Matrix.ToLinearEquiv
import Mathlib.Analysis.SpecialFunctions.Trigonometric.Deriv

/-! # schiffmanandstein1970: the coefficients of a root of the characteristic equation are those of a mode -/

set_option linter.unusedVariables false
open Real Finset
namespace Geotecha.Consol

/-- A null vector of a singular matrix from its leading minor. -/
theorem null_of_minor {M : ℕ} (A : Matrix (Fin (M + 1)) (Fin (M + 1)) ℝ) (hA : A.det = 0) (a : Matrix (Fin M) (Fin M) ℝ)
    (ha : ∀ r c, a r c = A r.castSucc c.castSucc) (hdet : a.det ≠ 0) :
    A.mulVec (Fin.snoc (α := fun _ => ℝ) (a⁻¹.mulVec fun r => -A r.castSucc (Fin.last M)) 1) = 0 := by
  obtain ⟨w, hw0, hw⟩ := Matrix.exists_mulVec_eq_zero_iff.2 hA
  have hrow : ∀ r : Fin (M + 1), ∑ c : Fin M, A r c.castSucc * w c.castSucc + A r (Fin.last M) * w (Fin.last M) = 0 := fun r => by
    have := congrFun hw r
    rwa [Matrix.mulVec, dotProduct, Fin.sum_univ_castSucc] at this
  have hu : IsUnit a.det := isUnit_iff_ne_zero.2 hdet
  have hmul : a.mulVec (fun c => w c.castSucc) = fun r : Fin M => -A r.castSucc (Fin.last M) * w (Fin.last M) := by
    funext r
    have := hrow r.castSucc
    rw [Matrix.mulVec, dotProduct, sum_congr rfl fun c _ => by rw [ha r c]]
    linarith
  have hlast : w (Fin.last M) ≠ 0 := fun h0 => by
    apply hw0
    have : a.mulVec (fun c => w c.castSucc) = 0 := by rw [hmul, h0]; funext r; simp
    have hz := Matrix.eq_zero_of_mulVec_eq_zero hdet this
    funext j
    refine Fin.lastCases h0 (fun i => congrFun hz i) j
  have hsol : a⁻¹.mulVec (fun r => -A r.castSucc (Fin.last M)) = fun c => w c.castSucc / w (Fin.last M) := by
    have e : (fun r : Fin M => -A r.castSucc (Fin.last M)) = a.mulVec (fun c => w c.castSucc / w (Fin.last M)) := by
      funext r
      have h1 := congrFun hmul r
      rw [Matrix.mulVec, dotProduct] at h1 ⊢
      have h2 : ∑ c, a r c * (w c.castSucc / w (Fin.last M)) = (∑ c, a r c * w c.castSucc) / w (Fin.last M) := by
        rw [sum_div]; exact sum_congr rfl fun c _ => by ring
      rw [h2, h1]; field_simp
    rw [e, Matrix.mulVec_mulVec, Matrix.nonsing_inv_mul a hu, Matrix.one_mulVec]
  have hv : Fin.snoc (α := fun _ => ℝ) (a⁻¹.mulVec fun r => -A r.castSucc (Fin.last M)) 1 = (w (Fin.last M))⁻¹ • w := by
    rw [hsol]
    funext j
    refine Fin.lastCases ?_ (fun i => ?_) j
    · simp [hlast]
    · simp [div_eq_inv_mul]
  rw [hv, Matrix.mulVec_smul, hw, smul_zero]

theorem sum_two (n a : ℕ) (ha : a + 1 < n) (x0 x1 : ℝ) (v : ℕ → ℝ) :
    ∑ c ∈ range n, (if c = a then x0 else if c = a + 1 then x1 else 0) * v c = x0 * v a + x1 * v (a + 1) := by
  rw [← sum_subset (s₁ := {a, a + 1})]
  · rw [sum_pair (by omega)]
    simp
  · intro c hc; simp at hc ⊢; omega
  · intro c _ hc
    simp only [mem_insert, mem_singleton, not_or] at hc
    rw [if_neg hc.1, if_neg hc.2, zero_mul]

theorem sum_four (n a : ℕ) (ha : a + 3 < n) (x0 x1 x2 x3 : ℝ) (v : ℕ → ℝ) :
    ∑ c ∈ range n, (if c = a then x0 else if c = a + 1 then x1 else if c = a + 2 then x2 else if c = a + 3 then x3 else 0) * v c =
      x0 * v a + x1 * v (a + 1) + x2 * v (a + 2) + x3 * v (a + 3) := by
  have e : ∀ c, (if c = a then x0 else if c = a + 1 then x1 else if c = a + 2 then x2 else if c = a + 3 then x3 else 0) * v c =
      (if c = a then x0 else if c = a + 1 then x1 else 0) * v c + (if c = a + 2 then x2 else if c = a + 2 + 1 then x3 else 0) * v c := fun c => by
    by_cases h0 : c = a
    · rw [if_pos h0, if_pos h0, if_neg (by omega), if_neg (by omega), zero_mul, add_zero]
    by_cases h1 : c = a + 1
    · rw [if_neg h0, if_pos h1, if_neg h0, if_pos h1, if_neg (by omega), if_neg (by omega), zero_mul, add_zero]
    · rw [if_neg h0, if_neg h1, if_neg h0, if_neg h1, zero_mul, zero_add]
  rw [sum_congr rfl fun c _ => e c, sum_add_distrib, sum_two n a (by omega), sum_two n (a + 2) (by omega)]
  ring

namespace SS

/-- The soil column described by the input. -/
def column (o : SS) : Spec.Column := ⟨o.nl, o.k, o.m, o.hh, o.bctop = 0, o.bcbot = 0⟩

/-- Sensible layers: same number of thicknesses, permeabilities, compressibilities, at least one, all positive. -/
structure Valid (o : SS) : Prop where
  nl : 0 < o.kv.length
  hlen : o.h.length = o.kv.length
  mlen : o.mv.length = o.kv.length
  h : ∀ x ∈ o.h, 0 < x
  kv : ∀ x ∈ o.kv, 0 < x
  mv : ∀ x ∈ o.mv, 0 < x

theorem getD_pos {l : List ℝ} (h : ∀ x ∈ l, 0 < x) {i : ℕ} (hi : i < l.length) : 0 < l.getD i 0 := by
  have : l.getD i 0 = l[i] := by simp [List.getD, hi]
  rw [this]; exact h _ (List.getElem_mem hi)

variable {o : SS}

theorem hh_pos (h : o.Valid) {i : ℕ} (hi : i < o.nl) : 0 < o.hh i := getD_pos h.h (by rw [h.hlen]; exact hi)
theorem k_pos (h : o.Valid) {i : ℕ} (hi : i < o.nl) : 0 < o.k i := getD_pos h.kv hi
theorem m_pos (h : o.Valid) {i : ℕ} (hi : i < o.nl) : 0 < o.m i := getD_pos h.mv (by rw [h.mlen]; exact hi)
theorem cv_pos (h : o.Valid) {i : ℕ} (hi : i < o.nl) : 0 < o.cv i := div_pos (k_pos h hi) (m_pos h hi)

theorem beta_pos (h : o.Valid) {b : ℝ} (hb : 0 < b) : ∀ {i : ℕ}, i < o.nl → 0 < o.beta b i
  | 0, _ => hb
  | i + 1, hi => by
    have := beta_pos h hb (i := i) (by omega)
    have := cv_pos h hi; have := cv_pos h (i := i) (by omega)
    unfold beta
    positivity

/-- All layers decay at the same rate. -/
theorem beta_rate (h : o.Valid) {b : ℝ} (hb : 0 < b) : ∀ {i : ℕ}, i < o.nl → o.cv i * o.beta b i ^ 2 = o.cv 0 * b ^ 2
  | 0, _ => rfl
  | i + 1, hi => by
    have h1 := cv_pos h hi; have h2 := cv_pos h (i := i) (by omega)
    rw [← beta_rate h hb (i := i) (by omega)]
    conv_lhs => unfold beta
    rw [sq_sqrt (by positivity)]
    field_simp

/-- The function of one term. -/
noncomputable def zf (o : SS) (q : Term) (i : ℕ) (z : ℝ) : ℝ := q.B i * cos (o.beta q.b0 i * z) + q.C i * sin (o.beta q.b0 i * z)
/-- Its slope. -/
noncomputable def zd (o : SS) (q : Term) (i : ℕ) (z : ℝ) : ℝ :=
  -q.B i * o.beta q.b0 i * sin (o.beta q.b0 i * z) + q.C i * o.beta q.b0 i * cos (o.beta q.b0 i * z)

theorem zlayer_eq (o : SS) (i : ℕ) : o.zlayer i = o.column.depth (i + 1) := rfl

theorem zf_deriv (o : SS) (q : Term) (i : ℕ) (z : ℝ) : HasDerivAt (o.zf q i) (o.zd q i z) z := by
  have hb : HasDerivAt (fun z => o.beta q.b0 i * z) (o.beta q.b0 i) z := by simpa using (hasDerivAt_id z).const_mul (o.beta q.b0 i)
  refine ((hb.cos.const_mul (q.B i)).add (hb.sin.const_mul (q.C i))).congr_deriv ?_
  unfold zd; ring

theorem zd_deriv (o : SS) (q : Term) (i : ℕ) (z : ℝ) : HasDerivAt (o.zd q i) (-(o.beta q.b0 i ^ 2 * o.zf q i z)) z := by
  have hb : HasDerivAt (fun z => o.beta q.b0 i * z) (o.beta q.b0 i) z := by simpa using (hasDerivAt_id z).const_mul (o.beta q.b0 i)
  refine ((hb.sin.const_mul (-q.B i * o.beta q.b0 i)).add (hb.cos.const_mul (q.C i * o.beta q.b0 i))).congr_deriv ?_
  unfold zf; ring

/-- No entry of the matrix is small without being zero, so that the code's clean-up changes nothing. -/
def NoTiny (o : SS) (tp bt : ℝ × ℝ) (b0 : ℝ) : Prop :=
  ∀ r c, r < 2 * o.nl → c < 2 * o.nl → o.bc tp bt b0 r c = 0 ∨ 1e-10 ≤ |o.bc tp bt b0 r c|

theorem clean_eq {x : ℝ} (h : x = 0 ∨ 1e-10 ≤ |x|) : clean x = x := by
  unfold clean
  rcases h with h | h
  · rw [h]; simp
  · rw [if_neg (not_lt.2 h)]

/-- All rows of the matrix vanish on the coefficients. -/
theorem coeffs_null (hn : 0 < o.nl) {tp bt : ℝ × ℝ} {b0 : ℝ} (hT : o.NoTiny tp bt b0) (hdet : o.charEqn tp bt b0 = 0) {co : ℕ → ℝ}
    (hco : o.coeffs tp bt b0 = .ok co) :
    co (2 * o.nl - 1) = 1 ∧ ∀ r < 2 * o.nl, ∑ c ∈ range (2 * o.nl), o.bc tp bt b0 r c * co c = 0 := by
  unfold coeffs at hco
  simp only at hco
  split at hco
  · cases hco
  rename_i ha
  injection hco with hco
  have hlast : co (2 * o.nl - 1) = 1 := by rw [← hco]; simp
  refine ⟨hlast, ?_⟩
  obtain ⟨M, hM⟩ : ∃ M, 2 * o.nl = M + 1 := ⟨2 * o.nl - 1, by omega⟩
  have hM1 : 2 * o.nl - 1 = M := by omega
  unfold charEqn at hdet
  -- pass to `M`
  have hT' : ∀ r c, r < M + 1 → c < M + 1 → clean (o.bc tp bt b0 r c) = o.bc tp bt b0 r c := fun r c hr hc =>
    clean_eq (hT r c (by omega) (by omega))
  generalize o.bc tp bt b0 = f at *
  rw [hM] at hdet ⊢
  clear hM hT hn
  subst hM1
  generalize hMM : 2 * o.nl - 1 = M at *
  have key := null_of_minor (Matrix.of fun r c : Fin (M + 1) => f r c) hdet (Matrix.of fun r c : Fin M => clean (f r c))
    (fun r c => by
      simp only [Matrix.of_apply, Fin.val_castSucc]
      exact hT' _ _ (by omega) (by omega)) ha
  intro r hr
  have hrow := congrFun key ⟨r, hr⟩
  rw [Matrix.mulVec, dotProduct, Fin.sum_univ_castSucc] at hrow
  rw [sum_range_succ, ← Fin.sum_univ_eq_sum_range (fun c => f r c * co c)]
  have e : ∀ c : Fin M, co c = Fin.snoc (α := fun _ => ℝ) ((Matrix.of fun r c : Fin M => clean (f r c))⁻¹.mulVec fun r => -f r M) 1 c.castSucc :=
    fun c => by
      rw [← hco]
      simp only [c.isLt, dif_pos, Fin.snoc_castSucc]
      congr 1
      funext r
      rw [hT' _ _ (by omega) (by omega)]
  rw [hlast]
  simp only [Matrix.of_apply, Fin.snoc_last, Fin.val_last, Pi.zero_apply, Fin.val_castSucc] at hrow
  rw [sum_congr rfl fun c _ => by rw [e c]]
  exact hrow

/-- Values of the two boundary conditions. -/
theorem top_cases {tp : ℝ × ℝ} (h : o.top = .ok tp) : (o.bctop = 0 ∧ tp = (0, -1)) ∨ (o.bctop = 1 ∧ tp = (1, 0)) := by
  unfold top at h
  split_ifs at h with h0 h1 h2 <;> cases h
  · exact Or.inl ⟨h0, rfl⟩
  · exact Or.inr ⟨h1, rfl⟩

theorem bot_cases {bt : ℝ × ℝ} (h : o.bot = .ok bt) : (o.bcbot = 0 ∧ bt = (0, 1)) ∨ (o.bcbot = 1 ∧ bt = (1, 0)) := by
  unfold bot at h
  split_ifs at h with h0 h1 h2 <;> cases h
  · exact Or.inl ⟨h0, rfl⟩
  · exact Or.inr ⟨h1, rfl⟩

/-- The function of a term is a mode of the column. -/
theorem mode (h : o.Valid) {tp bt : ℝ × ℝ} (ht : o.top = .ok tp) (hb : o.bot = .ok bt) {b0 : ℝ} (hb0 : 0 < b0) (hT : o.NoTiny tp bt b0)
    (hdet : o.charEqn tp bt b0 = 0) {co : ℕ → ℝ} (hco : o.coeffs tp bt b0 = .ok co) :
    o.column.Mode (o.cv 0 * b0 ^ 2) (o.zf ⟨b0, co⟩) (o.zd ⟨b0, co⟩) := by
  have hn : 0 < o.nl := h.nl
  obtain ⟨_, hrows⟩ := coeffs_null hn hT hdet hco
  refine ⟨fun i _ z => o.zf_deriv _ i z, fun i hi z => ?_, ⟨fun i hi => ?_, fun i hi => ?_, ?_, ?_⟩⟩
  · refine ((o.zd_deriv ⟨b0, co⟩ i z).const_mul (o.column.kv i)).congr_deriv ?_
    rw [← beta_rate h hb0 hi]
    have := (m_pos h hi).ne'
    show o.k i * -(o.beta b0 i ^ 2 * _) = -(o.k i / o.m i * o.beta b0 i ^ 2 * o.m i * _)
    field_simp
  · have hi' : i + 1 < o.nl := hi
    have hr := hrows (2 * i + 1) (by omega)
    unfold bc at hr
    simp only [if_neg (show ¬(2 * i + 1 = 0) by omega), if_neg (show ¬(2 * i + 1 = 2 * o.nl - 1) by omega),
      show (2 * i + 1 - 1) / 2 = i by omega, show (2 * i + 1) % 2 = 1 by omega, if_true] at hr
    rw [sum_four _ _ (by omega)] at hr
    unfold zf Term.B Term.C
    rw [← zlayer_eq, show 2 * (i + 1) = 2 * i + 2 by ring, show 2 * i + 2 + 1 = 2 * i + 3 by ring]
    dsimp only
    linarith
  · have hi' : i + 1 < o.nl := hi
    have hr := hrows (2 * i + 2) (by omega)
    unfold bc at hr
    simp only [if_neg (show ¬(2 * i + 2 = 0) by omega), if_neg (show ¬(2 * i + 2 = 2 * o.nl - 1) by omega),
      show (2 * i + 2 - 1) / 2 = i by omega, if_neg (show ¬((2 * i + 2) % 2 = 1) by omega)] at hr
    rw [sum_four _ _ (by omega)] at hr
    have hk := (k_pos h hi').ne'
    unfold zd Term.B Term.C
    rw [← zlayer_eq, show 2 * (i + 1) = 2 * i + 2 by ring, show 2 * i + 2 + 1 = 2 * i + 3 by ring]
    show o.k i * _ = o.k (i + 1) * _
    have ha : o.k i = o.k (i + 1) * o.alpha i := by unfold alpha; field_simp
    rw [ha]
    dsimp only
    linear_combination o.k (i + 1) * hr
  · have hr := hrows 0 (by omega)
    unfold bc at hr
    simp only [if_true] at hr
    have := sum_two (2 * o.nl) 0 (by omega) (tp.2 * -1) (tp.1 * o.beta b0 0) co
    simp only [zero_add] at this
    rw [this] at hr
    unfold zf zd Term.B Term.C
    simp only [mul_zero, cos_zero, sin_zero, mul_one, add_zero, zero_add]
    rcases top_cases ht with ⟨h0, rfl⟩ | ⟨h0, rfl⟩
    · refine ⟨fun _ => by simpa using hr, fun hne => absurd h0 hne⟩
    · refine ⟨fun he => absurd (he.symm.trans h0) (by norm_num), fun _ => ?_⟩
      linear_combination hr
  · have hr := hrows (2 * o.nl - 1) (by omega)
    unfold bc at hr
    simp only [if_neg (show ¬(2 * o.nl - 1 = 0) by omega), if_true] at hr
    rw [show 2 * o.nl - 1 = 2 * o.nl - 2 + 1 by omega] at hr
    rw [sum_two (2 * o.nl) (2 * o.nl - 2) (by omega)] at hr
    have e1 : 2 * (o.nl - 1) = 2 * o.nl - 2 := by omega
    have e2 : o.column.depth o.column.N = o.zlayer (o.nl - 1) := by
      rw [zlayer_eq]; congr 1; show o.nl = _; omega
    rw [e2, show o.column.N = o.nl from rfl]
    unfold zf zd Term.B Term.C
    rw [e1]
    dsimp only at hr ⊢
    rcases bot_cases hb with ⟨h0, rfl⟩ | ⟨h0, rfl⟩
    · refine ⟨fun _ => by linear_combination hr, fun hne => absurd h0 hne⟩
    · refine ⟨fun he => absurd (he.symm.trans h0) (by norm_num), fun _ => ?_⟩
      linear_combination hr

end SS
end Geotecha.Consol
