import Verif.Consol.NogamiTrig
import Verif.Consol.CellModes
import Verif.Consol.SchiffmanClaims

/-! # nogamiandli2003: the functions that belong to a pair of eigenvalues are those of a mode -/

set_option autoImplicit false
set_option linter.unusedVariables false
open Real Finset MeasureTheory
namespace Geotecha.Consol

/-- A function that is not flat at the left end is not zero everywhere. -/
theorem exists_ne {f : ℝ → ℝ} {f' a b : ℝ} (hab : a < b) (hd : HasDerivAt f f' a) (h : f a ≠ 0 ∨ f' ≠ 0) : ∃ c ∈ Set.Icc a b, f c ≠ 0 := by
  by_contra hno
  push Not at hno
  rcases h with h | h
  · exact h (hno a ⟨le_rfl, hab.le⟩)
  · have hd0 : HasDerivWithinAt f 0 (Set.Icc a b) a :=
      (hasDerivWithinAt_const a (Set.Icc a b) (0:ℝ)).congr hno (hno a ⟨le_rfl, hab.le⟩)
    exact h ((uniqueDiffOn_Icc hab a ⟨le_rfl, hab.le⟩).eq_deriv _ (hd.hasDerivWithinAt (s := Set.Icc a b)) hd0)

namespace NL

/-- The soil column described by the input. -/
def column (o : NL) : Spec.Column := ⟨o.nl, o.k, o.m, o.hh, o.bctop = 0, o.bcbot = 0⟩

/-- The soil around the drain. -/
def cell (o : NL) (d : NLDrain) : Spec.Cell := ⟨o.column, fun i => d.kh.getD i 0, d.r0, d.r1⟩

/-- Sensible layers: same number of thicknesses, permeabilities, compressibilities, at least one, all positive. -/
structure Valid (o : NL) : Prop where
  nl : 0 < o.kv.length
  hlen : o.h.length = o.kv.length
  mlen : o.mv.length = o.kv.length
  h : ∀ x ∈ o.h, 0 < x
  kv : ∀ x ∈ o.kv, 0 < x
  mv : ∀ x ∈ o.mv, 0 < x

variable {o : NL}

theorem hh_pos (h : o.Valid) {i : ℕ} (hi : i < o.nl) : 0 < o.hh i := SS.getD_pos h.h (by rw [h.hlen]; exact hi)
theorem k_pos (h : o.Valid) {i : ℕ} (hi : i < o.nl) : 0 < o.k i := SS.getD_pos h.kv hi
theorem m_pos (h : o.Valid) {i : ℕ} (hi : i < o.nl) : 0 < o.m i := SS.getD_pos h.mv (by rw [h.mlen]; exact hi)

theorem zlayer_eq (o : NL) (i : ℕ) : o.zlayer i = o.column.depth (i + 1) := rfl

theorem zlayer_sub (o : NL) (i : ℕ) : o.zlayer i - o.hh i = o.column.depth i := by
  rw [zlayer_eq, Spec.Column.depth_succ]; exact add_sub_cancel_right _ _

/-- Constant of the radial part. -/
noncomputable def kap (o : NL) (s : ℝ) : ℝ := (s / match o.drain with | none => 1 | some d => d.r0) ^ 2
/-- Horizontal permeability, zero without drain. -/
noncomputable def khh (o : NL) (i : ℕ) : ℝ := match o.drain with | none => 0 | some d => d.kh.getD i 0

theorem beta2_eq (h : o.Valid) (alp s : ℝ) {i : ℕ} (hi : i < o.nl) : o.k i * o.beta2 alp s i = alp ^ 2 * o.m i - o.khh i * o.kap s := by
  have hk := (k_pos h hi).ne'
  have hm := (m_pos h hi).ne'
  unfold beta2 cv ch khh kap
  cases o.drain with
  | none => simp only; field_simp; ring
  | some d =>
    simp only [div_pow]
    rw [mul_div_assoc _ (s ^ 2)]
    generalize s ^ 2 / d.r0 ^ 2 = x at *
    field_simp

/-- No layer of the term has `beta = 0`. -/
def Regular (o : NL) (alp s : ℝ) : Prop := ∀ i < o.nl, o.beta2 alp s i ≠ 0

/-- Depth part of a term and its slope. -/
noncomputable def zf (o : NL) (p0 : ℝ × ℝ) (alp s : ℝ) (i : ℕ) (z : ℝ) : ℝ :=
  lf (o.beta2 alp s i) (o.phiA p0 alp s i) (o.phiD p0 alp s i) (z - o.column.depth i)
noncomputable def zd (o : NL) (p0 : ℝ × ℝ) (alp s : ℝ) (i : ℕ) (z : ℝ) : ℝ :=
  ld (o.beta2 alp s i) (o.phiA p0 alp s i) (o.phiD p0 alp s i) (z - o.column.depth i)

variable {p0 : ℝ × ℝ} {alp s : ℝ}

theorem phi_real (hr : o.Regular alp s) : ∀ {i : ℕ}, i < o.nl → o.phi p0 alp s i = ((o.phiA p0 alp s i : ℂ), (o.phiD p0 alp s i : ℂ))
  | 0, _ => by simp [phiA, phiD, phi]
  | i + 1, hi => by
    have h1 := phi_real hr (i := i) (by omega)
    have h2 : o.phi p0 alp s (i + 1) = ((lf (o.beta2 alp s i) (o.phiA p0 alp s i) (o.phiD p0 alp s i) (o.hh i) : ℂ),
        ((ld (o.beta2 alp s i) (o.phiA p0 alp s i) (o.phiD p0 alp s i) (o.hh i) * o.k i / o.k (i + 1) : ℝ) : ℂ)) := by
      rw [phi, h1]
      unfold beta
      rw [transfer_eq (hr i (by omega))]
      push_cast; rfl
    unfold phiA phiD
    rw [h2]
    simp only [Complex.ofReal_re]

theorem bottom (hr : o.Regular alp s) {i : ℕ} (hi : i < o.nl) : transfer (o.beta alp s i) (o.hh i) (o.phi p0 alp s i) =
    ((o.zf p0 alp s i (o.column.depth (i + 1)) : ℂ), (o.zd p0 alp s i (o.column.depth (i + 1)) : ℂ)) := by
  have e : o.column.depth (i + 1) - o.column.depth i = o.hh i := by rw [Spec.Column.depth_succ]; exact add_sub_cancel_left _ _
  rw [phi_real hr hi]
  unfold beta zf zd
  rw [transfer_eq (hr i hi), e]

theorem next (hr : o.Regular alp s) {i : ℕ} (hi : i + 1 < o.nl) :
    o.phiA p0 alp s (i + 1) = o.zf p0 alp s i (o.column.depth (i + 1)) ∧
      o.phiD p0 alp s (i + 1) = o.zd p0 alp s i (o.column.depth (i + 1)) * o.k i / o.k (i + 1) := by
  unfold phiA phiD
  rw [phi, bottom hr (by omega)]
  dsimp only
  rw [← Complex.ofReal_mul, ← Complex.ofReal_div]
  exact ⟨Complex.ofReal_re _, Complex.ofReal_re _⟩

theorem zf_top (o : NL) (p0 : ℝ × ℝ) (alp s : ℝ) (i : ℕ) : o.zf p0 alp s i (o.column.depth i) = o.phiA p0 alp s i := by
  unfold zf; rw [sub_self, lf_zero]
theorem zd_top (o : NL) (p0 : ℝ × ℝ) (alp s : ℝ) (i : ℕ) : o.zd p0 alp s i (o.column.depth i) = o.phiD p0 alp s i := by
  unfold zd; rw [sub_self, ld_zero]

theorem zf_deriv (hr : o.Regular alp s) {i : ℕ} (hi : i < o.nl) (z : ℝ) : HasDerivAt (o.zf p0 alp s i) (o.zd p0 alp s i z) z := by
  have hs : HasDerivAt (fun z => z - o.column.depth i) 1 z := by simpa using (hasDerivAt_id z).sub_const (o.column.depth i)
  exact ((lf_deriv (hr i hi) _ _ _).comp z hs).congr_deriv (mul_one _)

theorem zd_deriv (hr : o.Regular alp s) {i : ℕ} (hi : i < o.nl) (z : ℝ) :
    HasDerivAt (o.zd p0 alp s i) (-(o.beta2 alp s i * o.zf p0 alp s i z)) z := by
  have hs : HasDerivAt (fun z => z - o.column.depth i) 1 z := by simpa using (hasDerivAt_id z).sub_const (o.column.depth i)
  refine ((ld_deriv (hr i hi) _ _ _).comp z hs).congr_deriv ?_
  rw [mul_one, neg_mul]; rfl

theorem zf_cont (hr : o.Regular alp s) {i : ℕ} (hi : i < o.nl) : Continuous (o.zf p0 alp s i) :=
  continuous_iff_continuousAt.2 fun z => (zf_deriv hr hi z).continuousAt

theorem phia0_cases (h : o.phia0 = some p0) : (o.bctop = 0 ∧ p0 = (0, 1)) ∨ (o.bctop = 1 ∧ p0 = (1, 0)) := by
  unfold phia0 at h
  split_ifs at h with h0 h1 <;> cases h
  · exact Or.inl ⟨h0, rfl⟩
  · exact Or.inr ⟨h1, rfl⟩

theorem check_cases {chk : Bool} (h : o.check = some chk) : (o.bcbot = 0 ∧ chk = false) ∨ (o.bcbot = 1 ∧ chk = true) := by
  unfold check at h
  split_ifs at h with h0 h1 <;> cases h
  · exact Or.inl ⟨h0, rfl⟩
  · exact Or.inr ⟨h1, rfl⟩

/-- A root of the vertical characteristic curve gives a depth part. -/
theorem zmode (h : o.Valid) (hp : o.phia0 = some p0) {chk : Bool} (hc : o.check = some chk) (hr : o.Regular alp s)
    (h0 : o.curve p0 chk s alp = 0) : Spec.ZMode o.column (o.beta2 alp s) (o.zf p0 alp s) (o.zd p0 alp s) := by
  have hn : 0 < o.nl := h.nl
  refine ⟨fun i hi z => zf_deriv hr hi z, fun i hi z => zd_deriv hr hi z, ⟨fun i hi => ?_, fun i hi => ?_, ?_, ?_⟩⟩
  · rw [zf_top, (next hr hi).1]
  · rw [zd_top, (next hr hi).2]
    have : o.column.kv (i + 1) ≠ 0 := (k_pos h hi).ne'
    show o.k i * _ = o.k (i + 1) * _
    have hk := (k_pos h hi).ne'
    field_simp
  · have e : o.column.depth 0 = 0 := by simp [Spec.Column.depth]
    have e1 := o.zf_top p0 alp s 0
    have e2 := o.zd_top p0 alp s 0
    rw [e] at e1 e2
    rw [e1, e2]
    have e3 : o.phiA p0 alp s 0 = p0.1 ∧ o.phiD p0 alp s 0 = p0.2 := by simp [phiA, phiD, phi]
    rw [e3.1, e3.2]
    rcases phia0_cases hp with ⟨hb, rfl⟩ | ⟨hb, rfl⟩
    · exact ⟨fun _ => rfl, fun hne => absurd hb hne⟩
    · exact ⟨fun he => absurd (he.symm.trans hb) (by norm_num), fun _ => rfl⟩
  · unfold curve at h0
    dsimp only at h0
    rw [bottom hr (by omega), show o.nl - 1 + 1 = o.nl by omega] at h0
    show (o.bcbot = 0 → o.zf p0 alp s (o.nl - 1) (o.column.depth o.nl) = 0) ∧ (¬o.bcbot = 0 → o.zd p0 alp s (o.nl - 1) (o.column.depth o.nl) = 0)
    rcases check_cases hc with ⟨hb, rfl⟩ | ⟨hb, rfl⟩
    · refine ⟨fun _ => ?_, fun hne => absurd hb hne⟩
      simpa using h0
    · refine ⟨fun he => absurd (he.symm.trans hb) (by norm_num), fun _ => ?_⟩
      simpa using h0

theorem depth_lt (h : o.Valid) {i j : ℕ} (hij : i < j) (hj : j ≤ o.nl) : o.column.depth i < o.column.depth j := by
  induction j with
  | zero => omega
  | succ j ih =>
    have e := o.column.depth_succ j
    have hp := hh_pos h (i := j) (by omega)
    have : o.column.h j = o.hh j := rfl
    rcases Nat.lt_succ_iff_lt_or_eq.1 hij with hlt | rfl
    · have := ih hlt (by omega); rw [e]; linarith
    · rw [e]; linarith

theorem sq_pos (h : o.Valid) (hp : o.phia0 = some p0) (hr : o.Regular alp s) : 0 < o.column.total (fun i z => o.zf p0 alp s i z ^ 2) := by
  have hn : 0 < o.nl := h.nl
  unfold Spec.Column.total
  refine sum_pos' (fun i hi => ?_) ⟨0, mem_range.2 hn, ?_⟩
  · have hi : i < o.nl := mem_range.1 hi
    exact mul_nonneg (m_pos h hi).le (intervalIntegral.integral_nonneg (depth_lt h (by omega) (by omega)).le fun z _ => _root_.sq_nonneg _)
  · refine mul_pos (m_pos h hn) ?_
    have hlt := depth_lt h (i := 0) (j := 0 + 1) (by omega) (by omega)
    refine intervalIntegral.integral_pos hlt ((zf_cont hr hn).pow 2).continuousOn (fun z _ => _root_.sq_nonneg _) ?_
    obtain ⟨c, hc, hne⟩ := exists_ne hlt (zf_deriv (p0 := p0) hr hn (o.column.depth 0)) (by
      rw [zf_top, zd_top]
      have e3 : o.phiA p0 alp s 0 = p0.1 ∧ o.phiD p0 alp s 0 = p0.2 := by simp [phiA, phiD, phi]
      rw [e3.1, e3.2]
      rcases phia0_cases hp with ⟨_, rfl⟩ | ⟨_, rfl⟩ <;> simp)
    exact ⟨c, hc, by positivity⟩

theorem int_layer (o : NL) (i : ℕ) (f : ℝ → ℝ) : ∫ z in o.column.depth i..o.column.depth (i + 1), f (z - o.column.depth i) = ∫ x in (0:ℝ)..o.hh i, f x := by
  rw [intervalIntegral.integral_comp_sub_right, sub_self, Spec.Column.depth_succ, add_sub_cancel_left]
  rfl

theorem cm_eq (hr : o.Regular alp s) : o.cm p0 alp s =
    ((o.column.total (o.zf p0 alp s) / o.column.total (fun i z => o.zf p0 alp s i z ^ 2) : ℝ) : ℂ) := by
  unfold cm Spec.Column.total
  push_cast
  congr 1
  · refine sum_congr rfl fun i hi => ?_
    unfold beta
    rw [amn_eq (hr i (mem_range.1 hi))]
    unfold zf
    rw [int_layer o i (lf _ _ _)]
    rfl
  · refine sum_congr rfl fun i hi => ?_
    unfold beta
    rw [bmn_eq (hr i (mem_range.1 hi))]
    unfold zf
    rw [int_layer o i (fun x => lf _ _ _ x ^ 2)]
    rfl

theorem cmn_eq (hr : o.Regular alp s) (B : BesselFns) : o.cmn B p0 alp s =
    o.cn B s * (o.column.total (o.zf p0 alp s) / o.column.total (fun i z => o.zf p0 alp s i z ^ 2)) := by
  unfold cmn
  rw [cm_eq hr, ← Complex.ofReal_mul, Complex.ofReal_re, mul_comm]

theorem phint_eq (hr : o.Regular alp s) {i : ℕ} (hi : i < o.nl) :
    o.phint p0 ⟨s, alp⟩ i = some (∫ z in o.column.depth i..o.column.depth (i + 1), o.zf p0 alp s i z) := by
  unfold phint
  dsimp only
  have hb : o.beta alp s i ≠ 0 := fun h => hr i hi (csqrt_zero.1 h)
  rw [if_neg hb]
  unfold beta zf
  rw [int_layer o i (lf _ _ _), lf_int (hr i hi), sinb_eq, cos_eq, csqrt_sq]
  congr 1
  rw [← Complex.ofReal_one, ← Complex.ofReal_sub, ← Complex.ofReal_div, ← Complex.ofReal_mul, ← Complex.ofReal_mul, ← Complex.ofReal_add,
    Complex.ofReal_re]
  ring

theorem phi_at (hr : o.Regular alp s) {i : ℕ} (hi : i < o.nl) (z : ℝ) :
    (Complex.cos (o.beta alp s i * ((z - (o.zlayer i - o.hh i) : ℝ) : ℂ)) * o.phiA p0 alp s i +
      Complex.sin (o.beta alp s i * ((z - (o.zlayer i - o.hh i) : ℝ) : ℂ)) / o.beta alp s i * o.phiD p0 alp s i).re = o.zf p0 alp s i z := by
  unfold beta zf
  rw [sinb_eq, cos_eq, ← Complex.ofReal_mul, ← Complex.ofReal_mul, ← Complex.ofReal_add, Complex.ofReal_re, zlayer_sub]
  unfold lf; ring

/-! ## The radial part -/

section
variable {d : NLDrain} {B : BesselFns} (h0 : 0 < d.r0) (h1 : d.r0 < d.r1) (hB : Spec.IsBessel B.J B.Y 0) (hs : 0 < s)
include h0 hB hs

theorem dJ0 {x : ℝ} (hx : 0 < x) : HasDerivAt (B.J 0) (-B.J 1 x) x := by
  have := hB.rJ x hx
  have h := hB.dJ x hx
  rw [zero_add] at this h
  refine h.congr_deriv ?_
  have e : 2 * (0:ℝ) / x * B.J 0 x = 0 := by ring
  rw [e] at this
  generalize B.J (0 - 1) x = a at *
  linarith

theorem dY0 {x : ℝ} (hx : 0 < x) : HasDerivAt (B.Y 0) (-B.Y 1 x) x := by
  have := hB.rY x hx
  have h := hB.dY x hx
  rw [zero_add] at this h
  refine h.congr_deriv ?_
  have e : 2 * (0:ℝ) / x * B.Y 0 x = 0 := by ring
  rw [e] at this
  generalize B.Y (0 - 1) x = a at *
  linarith

theorem dJ1 {x : ℝ} (hx : 0 < x) : HasDerivAt (B.J 1) (B.J 0 x - B.J 1 x / x) x := by
  have := hB.dJ' x hx
  rw [zero_add] at this
  exact this.congr_deriv (by ring)

theorem dY1 {x : ℝ} (hx : 0 < x) : HasDerivAt (B.Y 1) (B.Y 0 x - B.Y 1 x / x) x := by
  have := hB.dY' x hx
  rw [zero_add] at this
  exact this.congr_deriv (by ring)

theorem un_deriv {r : ℝ} (hr : 0 < r) : HasDerivAt (fun r => un d B r s 0) (-(s / d.r0) * un d B r s 1) r := by
  have hx : 0 < r / d.r0 * s := by positivity
  have hl : HasDerivAt (fun r => r / d.r0 * s) (s / d.r0) r := (((hasDerivAt_id r).div_const d.r0).mul_const s).congr_deriv (by ring)
  unfold un
  refine (((dJ0 h0 hB hs hx).comp r hl).mul_const _ |>.sub (((dY0 h0 hB hs hx).comp r hl).const_mul _)).congr_deriv ?_
  ring

theorem un1_deriv {r : ℝ} (hr : 0 < r) : HasDerivAt (fun r => un d B r s 1) (s / d.r0 * un d B r s 0 - un d B r s 1 / r) r := by
  have hx : 0 < r / d.r0 * s := by positivity
  have hl : HasDerivAt (fun r => r / d.r0 * s) (s / d.r0) r := (((hasDerivAt_id r).div_const d.r0).mul_const s).congr_deriv (by ring)
  unfold un
  refine (((dJ1 h0 hB hs hx).comp r hl).mul_const _ |>.sub (((dY1 h0 hB hs hx).comp r hl).const_mul _)).congr_deriv ?_
  field_simp
  ring

theorem un_r0 : un d B d.r0 s 0 = 0 := by unfold un; rw [div_self h0.ne', one_mul]; ring

theorem un1_r0 : un d B d.r0 s 1 ≠ 0 := by
  have := hB.wr s hs
  unfold un; rw [div_self h0.ne', one_mul]
  rw [zero_add] at this
  rw [this]
  have := pi_pos
  positivity

include h1

/-- A root of the radial characteristic curve gives a radius part. -/
theorem rmode (hz : radialCurve d B s = 0) :
    Spec.RMode d.r0 d.r1 ((s / d.r0) ^ 2) (fun r => un d B r s 0) (fun r => -(s / d.r0) * un d B r s 1) := by
  refine ⟨fun r g0 g1 => un_deriv h0 hB hs (h0.trans_le g0), fun r g0 g1 => ?_, un_r0 h0 hB hs, ?_⟩
  · have hr := h0.trans_le g0
    refine ((un1_deriv h0 hB hs hr).const_mul _).congr_deriv ?_
    field_simp; ring
  · show -(s / d.r0) * radialCurve d B s = 0
    rw [hz, mul_zero]

theorem rint_un (hz : radialCurve d B s = 0) : Spec.rint d.r0 d.r1 (fun r => un d B r s 0) = -d.r0 ^ 2 / s * un d B d.r0 s 1 := by
  have hder : ∀ r ∈ Set.uIcc d.r0 d.r1, HasDerivAt (fun r => d.r0 / s * (r * un d B r s 1)) (r * un d B r s 0) r := fun r hr => by
    rw [Set.uIcc_of_le h1.le] at hr
    have hr0 := h0.trans_le hr.1
    refine (((hasDerivAt_id r).mul (un1_deriv h0 hB hs hr0)).const_mul _).congr_deriv ?_
    simp only [id]
    field_simp; ring
  unfold Spec.rint
  rw [intervalIntegral.integral_eq_sub_of_hasDerivAt hder]
  · have : un d B d.r1 s 1 = 0 := hz
    rw [this]
    field_simp; ring
  · refine ContinuousOn.intervalIntegrable ?_
    rw [Set.uIcc_of_le h1.le]
    exact continuousOn_id.mul (rmode h0 h1 hB hs hz).cont

theorem rint_un_sq (hz : radialCurve d B s = 0) : Spec.rint d.r0 d.r1 (fun r => un d B r s 0 ^ 2) =
    d.r0 ^ 2 / 2 * (d.r1 ^ 2 / d.r0 ^ 2 * un d B d.r1 s 0 ^ 2 - un d B d.r0 s 1 ^ 2) := by
  have hder : ∀ r ∈ Set.uIcc d.r0 d.r1, HasDerivAt (fun r => 1 / 2 * (r ^ 2 * (un d B r s 0 ^ 2 + un d B r s 1 ^ 2))) (r * un d B r s 0 ^ 2) r := fun r hr => by
    rw [Set.uIcc_of_le h1.le] at hr
    have hr0 := h0.trans_le hr.1
    refine (((hasDerivAt_pow 2 r).mul (((un_deriv h0 hB hs hr0).pow 2).add ((un1_deriv h0 hB hs hr0).pow 2))).const_mul _).congr_deriv ?_
    simp only [Nat.cast_ofNat, Nat.add_one_sub_one, pow_one, Pi.add_apply, Pi.pow_apply]
    field_simp; ring
  unfold Spec.rint
  rw [intervalIntegral.integral_eq_sub_of_hasDerivAt hder]
  · have : un d B d.r1 s 1 = 0 := hz
    rw [this, un_r0 h0 hB hs]
    field_simp; ring
  · refine ContinuousOn.intervalIntegrable ?_
    rw [Set.uIcc_of_le h1.le]
    exact continuousOn_id.mul ((rmode h0 h1 hB hs hz).cont.pow 2)

theorem rint_un_pos (hz : radialCurve d B s = 0) : 0 < Spec.rint d.r0 d.r1 (fun r => un d B r s 0 ^ 2) := by
  unfold Spec.rint
  refine intervalIntegral.integral_pos h1 (continuousOn_id.mul ((rmode h0 h1 hB hs hz).cont.pow 2))
    (fun r hr => mul_nonneg (h0.trans hr.1).le (_root_.sq_nonneg _)) ?_
  obtain ⟨c, hc, hne⟩ := exists_ne h1 (un_deriv h0 hB hs h0) (Or.inr (mul_ne_zero (neg_ne_zero.2 (by positivity)) (un1_r0 h0 hB hs)))
  have := h0.trans_le hc.1
  exact ⟨c, hc, by positivity⟩

theorem cn_eq (hd : o.drain = some d) (hz : radialCurve d B s = 0) :
    o.cn B s = Spec.rint d.r0 d.r1 (fun r => un d B r s 0) / Spec.rint d.r0 d.r1 (fun r => un d B r s 0 ^ 2) := by
  unfold cn
  rw [hd, rint_un h0 h1 hB hs hz, rint_un_sq h0 h1 hB hs hz]

theorem unAverage_eq (hz : radialCurve d B s = 0) : unAverage d B s = Spec.rint d.r0 d.r1 (fun r => un d B r s 0) / ((d.r1 ^ 2 - d.r0 ^ 2) / 2) := by
  rw [rint_un h0 h1 hB hs hz]
  unfold unAverage
  have : d.r1 ^ 2 - d.r0 ^ 2 ≠ 0 := by nlinarith
  have h2 : (d.r1 / d.r0) ^ 2 - 1 = (d.r1 ^ 2 - d.r0 ^ 2) / d.r0 ^ 2 := by field_simp
  rw [h2]
  field_simp
end

end NL
end Geotecha.Consol
