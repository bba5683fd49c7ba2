import Verif.Transform.SpecFourier
import Mathlib.Analysis.Fourier.Inversion
import Mathlib.Analysis.SpecialFunctions.Gaussian.FourierTransform

/-!
# Properties of geotecha/mathematics/fourier.py: `FourierTransform`

C119: the cases in which the documented transform is returned; C120: the cases in which it is not; C121: inversion.
-/

open Real MeasureTheory
namespace Geotecha.Transform
open Geotecha (PyErr)
set_option linter.unusedVariables false

/-! ## Integrals over a symmetric region -/

/-- The part of the region with positive numbers. -/
def dom (a : ℝ) (b : Option ℝ) : Set ℝ :=
  match b with
  | none => Set.Ioi a
  | some B => Set.Ioc a B

theorem measurable_dom (a : ℝ) (b : Option ℝ) : MeasurableSet (dom a b) := by
  cases b
  · exact measurableSet_Ioi
  · exact measurableSet_Ioc

theorem dom_pos {a : ℝ} (ha : 0 ≤ a) {b : Option ℝ} {x : ℝ} (hx : x ∈ dom a b) : 0 < x := by
  cases b
  · exact lt_of_le_of_lt ha hx
  · exact lt_of_le_of_lt ha hx.1

theorem quad_eq (g : ℝ → ℝ) {a : ℝ} {b : Option ℝ} (h : ∀ B, b = some B → a ≤ B) : Fourier.quad g a b = ∫ x in dom a b, g x := by
  cases b with
  | none => rfl
  | some B => exact intervalIntegral.integral_of_le (h B rfl)

theorem region_eq {a : ℝ} (ha : 0 ≤ a) (b : Option ℝ) : Spec.region a b = dom a b ∪ Neg.neg ⁻¹' dom a b := by
  ext x
  cases b with
  | none =>
    simp only [Spec.region, dom, Set.mem_setOf_eq, reduceCtorEq, false_implies, implies_true, and_true, Set.mem_union, Set.mem_Ioi,
      Set.mem_preimage]
    exact lt_abs
  | some B =>
    simp only [Spec.region, dom, Set.mem_setOf_eq, Option.some.injEq, forall_eq', Set.mem_union, Set.mem_Ioc, Set.mem_preimage]
    constructor
    · rintro ⟨h1, h2⟩
      rcases le_or_gt 0 x with h | h
      · rw [abs_of_nonneg h] at h1 h2; exact Or.inl ⟨h1, h2⟩
      · rw [abs_of_neg h] at h1 h2; exact Or.inr ⟨h1, h2⟩
    · rintro (⟨h1, h2⟩ | ⟨h1, h2⟩)
      · rw [abs_of_pos (lt_of_le_of_lt ha h1)]; exact ⟨h1, h2⟩
      · rw [abs_of_neg (by linarith)]; exact ⟨h1, h2⟩

theorem neg_emb : MeasurableEmbedding (fun x : ℝ => -x) := (Homeomorph.neg ℝ).measurableEmbedding

theorem setIntegral_neg {E : Type*} [NormedAddCommGroup E] [NormedSpace ℝ E] (D : Set ℝ) (h : ℝ → E) :
    ∫ x in Neg.neg ⁻¹' D, h x = ∫ x in D, h (-x) := by
  have := (Measure.measurePreserving_neg (volume : Measure ℝ)).setIntegral_preimage_emb neg_emb (fun x => h (-x)) D
  simp only [neg_neg] at this
  exact this

theorem integrableOn_neg (D : Set ℝ) {E : Type*} [NormedAddCommGroup E] (h : ℝ → E) :
    IntegrableOn h (Neg.neg ⁻¹' D) ↔ IntegrableOn (fun x => h (-x)) D := by
  have := (Measure.measurePreserving_neg (volume : Measure ℝ)).integrableOn_comp_preimage neg_emb (f := fun x => h (-x)) (s := D)
  rw [← this]
  have e : (fun x => h (-x)) ∘ (Neg.neg : ℝ → ℝ) = h := by funext x; simp
  rw [e]

theorem bdd {D : Set ℝ} {g : ℝ → ℝ} (hg : IntegrableOn g D) (w : ℝ → ℝ) (hw : Continuous w) (hb : ∀ x, |w x| ≤ 1) :
    IntegrableOn (fun x => g x * w x) D :=
  Integrable.mul_bdd (c := 1) hg hw.aestronglyMeasurable (Filter.Eventually.of_forall hb)

theorem cont_cos (t : ℝ) : Continuous fun x : ℝ => cos (t * x) := by fun_prop
theorem cont_sin (t : ℝ) : Continuous fun x : ℝ => sin (t * x) := by fun_prop

theorem half (D : Set ℝ) (f : ℝ → ℂ) (t : ℝ) (hf : IntegrableOn f D) :
    ∫ x in D, f x * Complex.exp (-(Complex.I * t * x)) =
      (((∫ x in D, (f x).re * cos (t * x)) + ∫ x in D, (f x).im * sin (t * x) : ℝ) : ℂ) +
      (((∫ x in D, (f x).im * cos (t * x)) - ∫ x in D, (f x).re * sin (t * x) : ℝ) : ℂ) * Complex.I := by
  have hre : IntegrableOn (fun x => (f x).re) D := hf.re
  have him : IntegrableOn (fun x => (f x).im) D := hf.im
  have e : ∀ x : ℝ, Complex.exp (-(Complex.I * t * x)) = (cos (t * x) : ℂ) - (sin (t * x) : ℂ) * Complex.I := fun x => by
    have : -(Complex.I * t * x) = ((-(t * x) : ℝ) : ℂ) * Complex.I := by push_cast; ring
    rw [this, Complex.exp_mul_I, ← Complex.ofReal_cos, ← Complex.ofReal_sin, cos_neg, sin_neg]
    push_cast; ring
  have c1 : ∀ x, |cos (t * x)| ≤ 1 := fun x => abs_cos_le_one _
  have c2 : ∀ x, |sin (t * x)| ≤ 1 := fun x => abs_sin_le_one _
  have hint : IntegrableOn (fun x => f x * Complex.exp (-(Complex.I * t * x))) D := by
    refine Integrable.mul_bdd (c := 1) hf (by fun_prop) (Filter.Eventually.of_forall fun x => ?_)
    have : -(Complex.I * t * x) = ((-(t * x) : ℝ) : ℂ) * Complex.I := by push_cast; ring
    rw [this, Complex.norm_exp_ofReal_mul_I]
  rw [← integral_re_add_im hint]
  have r1 : ∀ x : ℝ, RCLike.re (f x * Complex.exp (-(Complex.I * t * x))) = (f x).re * cos (t * x) + (f x).im * sin (t * x) := fun x => by
    rw [e x]; simp [-Complex.ofReal_cos, -Complex.ofReal_sin]
  have r2 : ∀ x : ℝ, RCLike.im (f x * Complex.exp (-(Complex.I * t * x))) = (f x).im * cos (t * x) - (f x).re * sin (t * x) := fun x => by
    rw [e x]; simp [-Complex.ofReal_cos, -Complex.ofReal_sin]; ring
  simp only [r1, r2]
  rw [integral_add (bdd hre _ (cont_cos t) c1) (bdd him _ (cont_sin t) c2),
    integral_sub (bdd him _ (cont_cos t) c1) (bdd hre _ (cont_sin t) c2)]
  rfl

theorem whole {a : ℝ} (ha : 0 ≤ a) (b : Option ℝ) (f : ℝ → ℂ) (t : ℝ) (hf : IntegrableOn f (Spec.region a b)) :
    ∫ x in Spec.region a b, f x * Complex.exp (-(Complex.I * t * x)) =
      (((∫ x in dom a b, (f x).re * cos (t * x)) + (∫ x in dom a b, (f (-x)).re * cos (t * x)) +
        (∫ x in dom a b, (f x).im * sin (t * x)) - ∫ x in dom a b, (f (-x)).im * sin (t * x) : ℝ) : ℂ) +
      (((∫ x in dom a b, (f x).im * cos (t * x)) + (∫ x in dom a b, (f (-x)).im * cos (t * x)) -
        (∫ x in dom a b, (f x).re * sin (t * x)) + ∫ x in dom a b, (f (-x)).re * sin (t * x) : ℝ) : ℂ) * Complex.I := by
  rw [region_eq ha] at hf ⊢
  have hD := measurable_dom a b
  have hd : Disjoint (dom a b) (Neg.neg ⁻¹' dom a b) := by
    rw [Set.disjoint_left]
    intro x hx hx'
    have h1 := dom_pos ha hx
    have h2 := dom_pos ha (Set.mem_preimage.1 hx')
    linarith
  have h1 : IntegrableOn f (dom a b) := hf.mono_set Set.subset_union_left
  have h2 : IntegrableOn f (Neg.neg ⁻¹' dom a b) := hf.mono_set Set.subset_union_right
  have h2' : IntegrableOn (fun x => f (-x)) (dom a b) := (integrableOn_neg _ _).1 h2
  have hexp : ∀ (D : Set ℝ), IntegrableOn f D → IntegrableOn (fun x : ℝ => f x * Complex.exp (-(Complex.I * t * x))) D := fun D hD => by
    refine Integrable.mul_bdd (c := 1) hD (by fun_prop) (Filter.Eventually.of_forall fun x => ?_)
    have : -(Complex.I * t * x) = ((-(t * x) : ℝ) : ℂ) * Complex.I := by push_cast; ring
    rw [this, Complex.norm_exp_ofReal_mul_I]
  rw [setIntegral_union hd (measurable_neg hD) (hexp _ h1) (hexp _ h2), setIntegral_neg, half _ f t h1]
  have e : ∀ x : ℝ, f (-x) * Complex.exp (-(Complex.I * t * ((-x : ℝ) : ℂ))) = f (-x) * Complex.exp (-(Complex.I * ((-t : ℝ) : ℂ) * x)) :=
    fun x => by congr 2; push_cast; ring
  simp only [e]
  rw [half _ (fun x => f (-x)) (-t) h2']
  simp only [neg_mul, cos_neg, sin_neg, mul_neg, integral_neg]
  push_cast; ring

/-- The exact transform in terms of the four kinds of integrals that the class uses. -/
theorem spec_eq {a : ℝ} (ha : 0 ≤ a) (b : Option ℝ) (inv : Bool) (f : ℝ → ℂ) (s : ℝ) (hf : IntegrableOn f (Spec.region a b)) :
    Spec.fourierOn (Spec.region a b) inv f s = ((if inv then (2 * π)⁻¹ else 1 : ℝ) : ℂ) *
      ((((∫ x in dom a b, (f x).re * cos (s * x)) + (∫ x in dom a b, (f (-x)).re * cos (s * x)) +
        (if inv then -1 else 1) * ((∫ x in dom a b, (f x).im * sin (s * x)) - ∫ x in dom a b, (f (-x)).im * sin (s * x)) : ℝ) : ℂ) +
      (((∫ x in dom a b, (f x).im * cos (s * x)) + (∫ x in dom a b, (f (-x)).im * cos (s * x)) -
        (if inv then -1 else 1) * ((∫ x in dom a b, (f x).re * sin (s * x)) - ∫ x in dom a b, (f (-x)).re * sin (s * x)) : ℝ) : ℂ) * Complex.I) := by
  unfold Spec.fourierOn
  cases inv with
  | false =>
    simp only [Bool.false_eq_true, if_false]
    rw [whole ha b f s hf]
    push_cast; ring
  | true =>
    simp only [if_true]
    have e : ∀ x : ℝ, f x * Complex.exp (Complex.I * s * x) = f x * Complex.exp (-(Complex.I * ((-s : ℝ) : ℂ) * x)) := fun x => by
      congr 2; push_cast; ring
    simp only [e]
    rw [whole ha b f (-s) hf]
    simp only [neg_mul, cos_neg, sin_neg, mul_neg, integral_neg]
    push_cast; ring

section
variable {o : Fourier} (h : Spec.Truthful o)
include h

theorem cosT_eq (g : ℝ → ℝ) (s : ℝ) : o.cosT g s = ∫ x in dom o.a o.b, g x * cos (s * x) := quad_eq _ h.ordered
theorem sinT_eq (g : ℝ → ℝ) (s : ℝ) : o.sinT g s = ∫ x in dom o.a o.b, g x * sin (s * x) := quad_eq _ h.ordered
end

theorem neg_int (D : Set ℝ) (g w : ℝ → ℝ) : ∫ x in D, -g x * w x = -∫ x in D, g x * w x := by
  rw [← integral_neg]; congr 1; funext x; ring

theorem zero_int {D : Set ℝ} {g : ℝ → ℝ} (w : ℝ → ℝ) (h : ∀ x, g x = 0) : ∫ x in D, g x * w x = 0 := by
  simp [h]

/-! ## C119 -/

/-- **C119**: a function declared real (with or without a symmetry): the value is the Fourier transform (or its inverse) over the region. -/
theorem C119_real (o : Fourier) (h : Spec.Truthful o) (hr : o.isReal = true) (s : ℝ) :
    o.call s = .ok (Spec.fourierOn (Spec.region o.a o.b) o.inv (Spec.meant o) s) := by
  have hm : Spec.meant o = o.f := by funext x; simp [Spec.meant, hr]
  have hty := h.returnsReal (Or.inl hr)
  have him := h.realValues hty
  have hne : ¬o.ty = .pyComplex := by rw [hty]; decide
  have he := h.realEven; have ho := h.realOdd
  rw [hm] at he ho
  rw [hm, spec_eq h.nonneg _ _ _ _ h.integrable]
  simp only [zero_int (g := fun x => (o.f x).im) _ him, zero_int (g := fun x => (o.f (-x)).im) _ (fun x => him (-x))]
  unfold Fourier.call Fourier.callReal Fourier.cosTF Fourier.sinTF Fourier.mfe Fourier.mfo
  rw [if_pos hr]
  simp only [if_neg hne, Bind.bind, Except.bind, cosT_eq h, sinT_eq h, Complex.neg_re, neg_int, Fourier.invConst, Fourier.invSign]
  by_cases h1 : o.realEven = true
  · simp only [h1, if_true, he h1]
    congr 1; push_cast; ring
  · by_cases h2 : o.realOdd = true
    · simp only [h1, h2, if_true, if_false, ho h2, neg_int]
      congr 1; push_cast; ring
    · simp only [h1, h2, if_false]
      generalize (∫ x in dom o.a o.b, (o.f x).re * cos (s * x)) = A
      generalize (∫ x in dom o.a o.b, (o.f (-x)).re * cos (s * x)) = B
      generalize (∫ x in dom o.a o.b, (o.f x).re * sin (s * x)) = C
      generalize (∫ x in dom o.a o.b, (o.f (-x)).re * sin (s * x)) = D
      congr 1; push_cast; ring

/-- **C119**: a function declared imaginary and even or odd. -/
theorem C119_imag (o : Fourier) (h : Spec.Truthful o) (hr : o.isReal = false) (hi : o.isImag = true)
    (hs : o.imagEven = true ∨ o.imagOdd = true) (s : ℝ) :
    o.call s = .ok (Spec.fourierOn (Spec.region o.a o.b) o.inv (Spec.meant o) s) := by
  have hm : Spec.meant o = fun x => Complex.I * o.f x := by funext x; simp [Spec.meant, hr, hi]
  have hty := h.returnsReal (Or.inr hi)
  have him := h.realValues hty
  have hne : ¬o.ty = .pyComplex := by rw [hty]; decide
  have he := h.imagEven; have ho := h.imagOdd
  rw [hm] at he ho
  have hint : IntegrableOn (fun x => Complex.I * o.f x) (Spec.region o.a o.b) := h.integrable.const_mul _
  rw [hm, spec_eq h.nonneg _ _ _ _ hint]
  simp only [Complex.I_mul_re, Complex.I_mul_im] at he ho ⊢
  simp only [zero_int (g := fun x => -(o.f x).im) _ (fun x => by rw [him, neg_zero]),
    zero_int (g := fun x => -(o.f (-x)).im) _ (fun x => by rw [him, neg_zero])]
  unfold Fourier.call Fourier.callImag Fourier.cosTF Fourier.sinTF Fourier.mfe Fourier.mfo
  rw [if_neg (by simp [hr]), if_pos hi]
  simp only [if_neg hne, Bind.bind, Except.bind, cosT_eq h, sinT_eq h, Complex.neg_re, neg_int, Fourier.invConst, Fourier.invSign]
  by_cases h1 : o.imagEven = true
  · simp only [h1, if_true, he h1]
    congr 1; push_cast; ring
  · have h2 := hs.resolve_left h1
    simp only [h1, h2, if_true, if_false, ho h2, neg_int]
    congr 1; push_cast; ring

/-- **C119**: a complex function, unless its imaginary part is declared even or its real part odd. -/
theorem C119_complex (o : Fourier) (h : Spec.Truthful o) (hr : o.isReal = false) (hi : o.isImag = false)
    (h1 : o.imagEven = false) (h2 : o.realOdd = false) (s : ℝ) :
    o.call s = .ok (Spec.fourierOn (Spec.region o.a o.b) o.inv (Spec.meant o) s) := by
  have hm : Spec.meant o = o.f := by funext x; simp [Spec.meant, hi]
  have he := h.realEven
  rw [hm] at he
  rw [hm, spec_eq h.nonneg _ _ _ _ h.integrable]
  unfold Fourier.call Fourier.callComplex Fourier.callComplexRe Fourier.mfre Fourier.mfro Fourier.mfie Fourier.mfio Fourier.realFunc Fourier.imagFunc
    Fourier.mfe Fourier.mfo
  simp only [hr, hi, h1, h2, Bool.false_eq_true, if_false, cosT_eq h, sinT_eq h, Complex.neg_re, Complex.neg_im, neg_int,
    Fourier.invConst, Fourier.invSign]
  by_cases h3 : o.realEven = true
  · simp only [h3, if_true, he h3]
    congr 1; push_cast; ring
  · simp only [h3, if_false]
    congr 1; push_cast; ring

/-- **C119**: with the default limits the region is everything: the value is the ordinary Fourier transform. -/
theorem C119_default (inv : Bool) (f : ℝ → ℂ) (s : ℝ) : Spec.fourierOn (Spec.region 0 none) inv f s =
    if inv then 1 / (2 * π) * ∫ x : ℝ, f x * Complex.exp (Complex.I * s * x) else ∫ x : ℝ, f x * Complex.exp (-(Complex.I * s * x)) := by
  have : Spec.region 0 none =ᵐ[volume] (Set.univ : Set ℝ) := by
    have e : Spec.region 0 none = {0}ᶜ := by
      ext x; simp [Spec.region]
    rw [e, ae_eq_univ, compl_compl]
    exact Real.volume_singleton
  unfold Spec.fourierOn
  simp only [setIntegral_congr_set this, setIntegral_univ]

/-! ## C120 -/

/-- **C120**: a function declared imaginary without a symmetry: what is returned is minus the complex conjugate of the transform, that is its
real part has the wrong sign; it is right exactly when the real part of the transform is zero. -/
theorem C120_imag_partial (o : Fourier) (h : Spec.Truthful o) (hr : o.isReal = false) (hi : o.isImag = true)
    (h1 : o.imagEven = false) (h2 : o.imagOdd = false) (s : ℝ) :
    o.call s = .ok (-(starRingEnd ℂ) (Spec.fourierOn (Spec.region o.a o.b) o.inv (Spec.meant o) s)) ∧
    (o.call s = .ok (Spec.fourierOn (Spec.region o.a o.b) o.inv (Spec.meant o) s) ↔
      (Spec.fourierOn (Spec.region o.a o.b) o.inv (Spec.meant o) s).re = 0) := by
  have key : o.call s = .ok (-(starRingEnd ℂ) (Spec.fourierOn (Spec.region o.a o.b) o.inv (Spec.meant o) s)) := by
    have hm : Spec.meant o = fun x => Complex.I * o.f x := by funext x; simp [Spec.meant, hr, hi]
    have hty := h.returnsReal (Or.inr hi)
    have him := h.realValues hty
    have hne : ¬o.ty = .pyComplex := by rw [hty]; decide
    have hint : IntegrableOn (fun x => Complex.I * o.f x) (Spec.region o.a o.b) := h.integrable.const_mul _
    rw [hm, spec_eq h.nonneg _ _ _ _ hint]
    simp only [Complex.I_mul_re, Complex.I_mul_im]
    simp only [zero_int (g := fun x => -(o.f x).im) _ (fun x => by rw [him, neg_zero]),
      zero_int (g := fun x => -(o.f (-x)).im) _ (fun x => by rw [him, neg_zero])]
    unfold Fourier.call Fourier.callImag Fourier.cosTF Fourier.sinTF Fourier.mfe Fourier.mfo
    rw [if_neg (by simp [hr]), if_pos hi]
    simp only [h1, h2, Bool.false_eq_true, if_false]
    simp only [if_neg hne, Bind.bind, Except.bind, cosT_eq h, sinT_eq h, Complex.neg_re, neg_int, Fourier.invConst, Fourier.invSign]
    congr 1
    rw [map_mul, map_add, map_mul, Complex.conj_ofReal, Complex.conj_ofReal, Complex.conj_ofReal, Complex.conj_I]
    push_cast; ring
  refine ⟨key, ?_⟩
  rw [key]
  simp only [Except.ok.injEq]
  generalize Spec.fourierOn (Spec.region o.a o.b) o.inv (Spec.meant o) s = z
  constructor
  · intro e
    have := congrArg Complex.re e
    simp at this; linarith
  · intro e
    apply Complex.ext <;> simp [e]

/-- **C120**: a complex function whose imaginary part is declared even, or whose real part is declared odd: if it returns Python complex
numbers the call always raises; if it returns numpy ones, the imaginary part of the function has no influence on the result (two functions
with the same real part have the same "transform"). -/
theorem C120_complex_partial (o : Fourier) (hr : o.isReal = false) (hi : o.isImag = false) (h1 : o.imagEven = true ∨ o.realOdd = true) (s : ℝ) :
    (o.ty = .pyComplex → o.call s = .error .typeError) ∧
    ∀ f' : ℝ → ℂ, (∀ x, (f' x).re = (o.f x).re) → o.call s = { o with f := f' }.call s := by
  unfold Fourier.call
  simp only [hr, hi, Bool.false_eq_true, if_false]
  constructor
  · intro ht
    unfold Fourier.callComplex Fourier.cosTF Fourier.sinTF
    simp only [ht, if_true, Bind.bind, Except.bind]
    by_cases c : o.imagEven = true
    · simp [c]
    · simp [c, h1.resolve_left c]
  · intro f' hf
    have e : ∀ x, (o.f x).re = (f' x).re := fun x => (hf x).symm
    unfold Fourier.callComplex
    have r2 : (o.callComplexRe s).2 = (({ o with f := f' } : Fourier).callComplexRe s).2 := by
      unfold Fourier.callComplexRe Fourier.realFunc
      simp only [e]
      by_cases c1 : o.realEven = true
      · simp only [c1, if_true]; rfl
      · by_cases c2 : o.realOdd = true
        · simp only [c1, c2, if_true, if_false]; rfl
        · simp only [c1, c2, if_false]; rfl
    by_cases c : o.imagEven = true
    · simp only [c, if_true, r2]
      unfold Fourier.cosTF
      simp only [e]
      rfl
    · have h2 := h1.resolve_left c
      simp only [c, h2, if_true, if_false, r2]
      unfold Fourier.sinTF
      simp only [e]
      rfl

/-- The constant `i` on `[-1, 1]`, declared as complex with even imaginary part, values numpy complex numbers. -/
noncomputable def exEven : Fourier :=
  { f := fun _ => Complex.I, ty := .numpyComplex, inv := false, isReal := false, isImag := false, realEven := true, realOdd := false,
    imagEven := true, imagOdd := false, a := 0, b := some 1 }

theorem region_one : Spec.region 0 (some 1) ⊆ Set.Icc (-1) 1 := by
  rintro x ⟨_, h⟩
  exact abs_le.1 (h 1 rfl)

theorem region_lt_top : volume (Spec.region 0 (some 1)) ≠ ⊤ :=
  ((measure_mono region_one).trans_lt (by simp)).ne

theorem exEven_truthful : Spec.Truthful exEven := by
  refine ⟨le_refl _, fun B hB => ?_, by simp [exEven], by simp [exEven], by simp [exEven, Spec.meant], by simp [exEven], by simp [exEven, Spec.meant],
    by simp [exEven], ?_⟩
  · simp [exEven] at hB; subst hB; simp [exEven]
  · exact integrableOn_const region_lt_top

/-- **C120**: everything declared is true, and the value at 0 is `0` where the transform is `2 i`. -/
theorem C120_even_wrong : Spec.Truthful exEven ∧ exEven.call 0 = .ok 0 ∧
    Spec.fourierOn (Spec.region exEven.a exEven.b) exEven.inv (Spec.meant exEven) 0 = 2 * Complex.I := by
  refine ⟨exEven_truthful, ?_, ?_⟩
  · unfold Fourier.call Fourier.callComplex Fourier.callComplexRe Fourier.cosTF Fourier.realFunc
    simp [exEven, Fourier.cosT, Fourier.quad, Bind.bind, Except.bind]
  · have hm : Spec.meant exEven = exEven.f := by funext x; simp [Spec.meant, exEven]
    rw [hm, spec_eq exEven_truthful.nonneg _ _ _ _ exEven_truthful.integrable]
    simp [exEven, dom]
    ring

/-- The indicator-like example for the imaginary case: `func(x) = x + 1` on `[-1, 1]`, declared imaginary, no symmetry. -/
noncomputable def exImag : Fourier :=
  { f := fun x => ((x + 1 : ℝ) : ℂ), ty := .real, inv := false, isReal := false, isImag := true, realEven := false, realOdd := false,
    imagEven := false, imagOdd := false, a := 0, b := some 1 }

theorem exImag_truthful : Spec.Truthful exImag := by
  refine ⟨le_refl _, fun B hB => ?_, by simp [exImag], ?_, by simp [exImag], by simp [exImag], by simp [exImag], by simp [exImag], ?_⟩
  · simp [exImag] at hB; subst hB; simp [exImag]
  · intro _ x; simp [exImag]
  · have hc : Continuous exImag.f := by unfold exImag; fun_prop
    exact (hc.integrableOn_Icc (a := -1) (b := 1)).mono_set region_one

example (s : ℝ) : exImag.call s = .ok (-(starRingEnd ℂ) (Spec.fourierOn (Spec.region 0 (some 1)) false (Spec.meant exImag) s)) :=
  (C120_imag_partial exImag exImag_truthful rfl rfl rfl rfl s).1

/-- The same function declared real. -/
noncomputable def exReal : Fourier := { exImag with isImag := false, isReal := true }

theorem exReal_truthful : Spec.Truthful exReal :=
  ⟨exImag_truthful.nonneg, exImag_truthful.ordered, fun _ => rfl, exImag_truthful.realValues, by simp [exReal, exImag], by simp [exReal, exImag],
    by simp [exReal, exImag], by simp [exReal, exImag], exImag_truthful.integrable⟩

example (s : ℝ) : exReal.call s = .ok (Spec.fourierOn (Spec.region 0 (some 1)) false (Spec.meant exReal) s) :=
  C119_real exReal exReal_truthful rfl s

/-! ## C121 -/

open FourierTransform in
/-- The transform in mathlib's normalisation. -/
theorem fourier_eq (f : ℝ → ℂ) (s : ℝ) : ∫ x : ℝ, f x * Complex.exp (-(Complex.I * s * x)) = 𝓕 f (s / (2 * π)) := by
  rw [Real.fourier_real_eq_integral_exp_smul]
  congr 1; funext x
  rw [smul_eq_mul, mul_comm]
  congr 2
  have : (π : ℂ) ≠ 0 := by exact_mod_cast pi_ne_zero
  push_cast; field_simp

open FourierTransform in
/-- **C121**: transforming a continuous integrable function with integrable transform, and transforming the result back with `inv=True`, gives the
function (complex functions, no symmetry declared, default limits). -/
theorem C121_roundtrip (f : ℝ → ℂ) (hc : Continuous f) (hf : Integrable f) (hF : Integrable (𝓕 f)) (ty ty' : ValTy) (hty : ty ≠ .real) (hty' : ty' ≠ .real)
    (F : ℝ → ℂ)
    (hcall : ∀ s, Fourier.call ⟨f, ty, false, false, false, false, false, false, false, 0, none⟩ s = .ok (F s)) (x : ℝ) :
    Fourier.call ⟨F, ty', true, false, false, false, false, false, false, 0, none⟩ x = .ok (f x) := by
  have t1 : Spec.Truthful ⟨f, ty, false, false, false, false, false, false, false, 0, none⟩ :=
    ⟨le_refl _, by simp, by simp, fun h => absurd h hty, by simp, by simp, by simp, by simp, hf.integrableOn⟩
  have m1 : Spec.meant ⟨f, ty, false, false, false, false, false, false, false, 0, none⟩ = f := by funext x; simp [Spec.meant]
  have hF' : F = fun s => 𝓕 f (s / (2 * π)) := by
    funext s
    have := C119_complex _ t1 rfl rfl rfl rfl s
    rw [hcall, m1] at this
    simp only [Except.ok.injEq] at this
    rw [this, C119_default]
    simp only [Bool.false_eq_true, if_false]
    exact fourier_eq f s
  have hpi : (2 * π) ≠ 0 := by positivity
  have hFi : Integrable F := by
    rw [hF']
    exact hF.comp_div hpi
  have t2 : Spec.Truthful ⟨F, ty', true, false, false, false, false, false, false, 0, none⟩ :=
    ⟨le_refl _, by simp, by simp, fun h => absurd h hty', by simp, by simp, by simp, by simp, hFi.integrableOn⟩
  have m2 : Spec.meant ⟨F, ty', true, false, false, false, false, false, false, 0, none⟩ = F := by funext x; simp [Spec.meant]
  rw [C119_complex _ t2 rfl rfl rfl rfl x, m2, C119_default]
  simp only [if_true, Except.ok.injEq]
  have inv := congrFun (hc.fourierInv_fourier_eq hf hF) x
  rw [← inv, Real.fourierInv_eq_fourier_neg, Real.fourier_real_eq_integral_exp_smul, hF']
  have e : ∀ s : ℝ, 𝓕 f (s / (2 * π)) * Complex.exp (Complex.I * x * s) =
      (fun w : ℝ => Complex.exp (↑(-2 * π * w * -x) * Complex.I) • 𝓕 f w) (s / (2 * π)) := fun s => by
    simp only [smul_eq_mul]
    rw [mul_comm]
    congr 2
    have : (π : ℂ) ≠ 0 := by exact_mod_cast pi_ne_zero
    push_cast; field_simp
  rw [integral_congr_ae (Filter.Eventually.of_forall e)]
  rw [Measure.integral_comp_div (fun w : ℝ => Complex.exp (↑(-2 * π * w * -x) * Complex.I) • 𝓕 f w), abs_of_pos (by positivity)]
  rw [Complex.real_smul]
  have : (π : ℂ) ≠ 0 := by exact_mod_cast pi_ne_zero
  generalize (∫ y : ℝ, Complex.exp (↑(-2 * π * y * -x) * Complex.I) • 𝓕 f y) = J
  push_cast
  field_simp

open FourierTransform in
/-- The Gaussian `exp(-π x²)` meets the conditions: it comes back. -/
example (x : ℝ) : ∃ F : ℝ → ℂ,
    (∀ s, Fourier.call ⟨fun x => Complex.exp (-π * (1:ℂ) * x ^ 2), .numpyComplex, false, false, false, false, false, false, false, 0, none⟩ s = .ok (F s)) ∧
    Fourier.call ⟨F, .numpyComplex, true, false, false, false, false, false, false, 0, none⟩ x = .ok (Complex.exp (-π * (1:ℂ) * x ^ 2)) := by
  have hi : Integrable fun x : ℝ => Complex.exp (-π * (1:ℂ) * x ^ 2) := by
    have := integrable_cexp_neg_mul_sq (b := (π : ℂ)) (by simpa using pi_pos)
    simpa using this
  have hF : 𝓕 (fun x : ℝ => Complex.exp (-π * (1:ℂ) * x ^ 2)) = fun x : ℝ => Complex.exp (-π * (1:ℂ) * x ^ 2) := by
    have := fourier_gaussian_pi (b := 1) (by simp)
    rw [this]; funext t; simp
  have t1 : Spec.Truthful ⟨fun x : ℝ => Complex.exp (-π * (1:ℂ) * x ^ 2), .numpyComplex, false, false, false, false, false, false, false, 0, none⟩ :=
    ⟨le_refl _, by simp, by simp, by simp, by simp, by simp, by simp, by simp, hi.integrableOn⟩
  refine ⟨_, fun s => C119_complex _ t1 rfl rfl rfl rfl s, ?_⟩
  exact C121_roundtrip _ (by fun_prop) hi (by rw [hF]; exact hi) .numpyComplex .numpyComplex (by decide) (by decide) _
    (fun s => C119_complex _ t1 rfl rfl rfl rfl s) x

/-- `func(x) = x` on `[-1, 1]`, declared imaginary and odd. -/
example (s : ℝ) : ∃ o : Fourier, o.imagOdd = true ∧ o.isImag = true ∧ (∀ x, o.f x = x) ∧
    o.call s = .ok (Spec.fourierOn (Spec.region 0 (some 1)) false (fun x => Complex.I * x) s) := by
  refine ⟨⟨fun x => x, .real, false, false, true, false, false, false, true, 0, some 1⟩, rfl, rfl, fun _ => rfl, ?_⟩
  have t : Spec.Truthful ⟨fun x => x, .real, false, false, true, false, false, false, true, 0, some 1⟩ := by
    refine ⟨le_refl _, by simp, by simp, by simp, by simp, by simp, by simp, by simp [Spec.meant], ?_⟩
    have hc : Continuous fun x : ℝ => (x : ℂ) := by fun_prop
    exact (hc.integrableOn_Icc (a := -1) (b := 1)).mono_set region_one
  rw [C119_imag _ t rfl rfl (Or.inr rfl) s]
  refine congrArg (fun f => Except.ok (Spec.fourierOn (Spec.region 0 (some 1)) false f s)) ?_
  funext x; simp [Spec.meant]

end Geotecha.Transform
