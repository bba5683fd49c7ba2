import Verif.Constitutive.ModelYG
import Verif.Constitutive.SpecYG

/-! # C208: initial conditions of the Yin and Graham model -/

set_option autoImplicit false
set_option linter.unusedVariables false

namespace Geotecha.YG
open Geotecha.Spec

/-- The material parameters as the constants of the specification. -/
def Par.soil (p : Par) : YGSoil := ⟨p.lam, p.kap, p.psi, p.siga, p.ea, p.ta⟩

theorem alpha_pos {p : Par} (h : p.soil.Good) : 0 < p.alpha :=
  div_pos (sub_pos.2 h.lam) h.psi

theorem state_time {p : Par} (h : p.soil.Good) {e0 s0 p0 t0 : ℝ} (hs : 0 < s0) (hp : 0 < p0) (ht : 0 < t0)
    (hS : YGState p.soil e0 s0 p0 t0) : t0 = (p0 / s0) ^ p.alpha * p.ta := by
  have h2 := hS.2
  simp only [Par.soil] at h2
  have hta : 0 < p.ta := h.ta
  have hpsi : p.psi ≠ 0 := ne_of_gt h.psi
  have : Real.log (t0 / p.ta) = p.alpha * Real.log (p0 / s0) := by
    unfold Par.alpha; field_simp; linarith
  have h3 : t0 / p.ta = (p0 / s0) ^ p.alpha := by
    rw [Real.rpow_def_of_pos (div_pos hp hs), ← Real.exp_log (div_pos ht hta), this]
    ring_nf
  rw [← h3]; field_simp

theorem state_ocr {p : Par} (h : p.soil.Good) {e0 s0 p0 t0 : ℝ} (hs : 0 < s0) (hp : 0 < p0) (ht : 0 < t0)
    (hS : YGState p.soil e0 s0 p0 t0) : (t0 / p.ta) ^ (1 / p.alpha) = p0 / s0 := by
  have h1 := state_time h hs hp ht hS
  have hta : p.ta ≠ 0 := ne_of_gt h.ta
  have ha := alpha_pos h
  have : t0 / p.ta = (p0 / s0) ^ p.alpha := by rw [h1]; field_simp
  rw [this, ← Real.rpow_mul (le_of_lt (div_pos hp hs)), mul_one_div_cancel (ne_of_gt ha), Real.rpow_one]

/-- **C208, any two of the four.** If `e0, estress0, pstress0, t0` describe one state of the soil, then giving any two of
them makes `initial_conditions` return exactly these four. -/
theorem C208_two_of_four (p : Par) (h : p.soil.Good) (e0 s0 p0 t0 : ℝ) (hs : 0 < s0) (hp : 0 < p0) (ht : 0 < t0)
    (hS : YGState p.soil e0 s0 p0 t0) :
    initialConditions p (some e0) (some s0) none none = .ok (some ⟨e0, s0, p0, t0⟩) ∧
    initialConditions p (some e0) none (some p0) none = .ok (some ⟨e0, s0, p0, t0⟩) ∧
    initialConditions p (some e0) none none (some t0) = .ok (some ⟨e0, s0, p0, t0⟩) ∧
    initialConditions p none (some s0) (some p0) none = .ok (some ⟨e0, s0, p0, t0⟩) ∧
    initialConditions p none (some s0) none (some t0) = .ok (some ⟨e0, s0, p0, t0⟩) ∧
    initialConditions p none none (some p0) (some t0) = .ok (some ⟨e0, s0, p0, t0⟩) := by
  have ht' := state_time h hs hp ht hS
  have ho := state_ocr h hs hp ht hS
  have h1 := hS.1
  simp only [Par.soil] at h1
  have hk : p.kap ≠ 0 := ne_of_gt h.kap
  have hlk : p.lam - p.kap ≠ 0 := ne_of_gt (sub_pos.2 h.lam)
  have hl : p.lam ≠ 0 := ne_of_gt (h.kap.trans h.lam)
  have hsg : 0 < p.siga := h.siga
  have l1 : Real.log (p0 / s0) = Real.log p0 - Real.log s0 := Real.log_div hp.ne' hs.ne'
  have l2 : Real.log (p0 / p.siga) = Real.log p0 - Real.log p.siga := Real.log_div hp.ne' hsg.ne'
  rw [l1, l2] at h1
  have hd : p0 / (p0 / s0) = s0 := by field_simp
  have hm : p0 / s0 * s0 = p0 := by field_simp
  have he : p.ea - p.lam * Real.log (p0 / p.siga) + p.kap * Real.log (p0 / s0) = e0 := by rw [l1, l2]; linarith
  refine ⟨?_, ?_, ?_, ?_, ?_, ?_⟩
  · have a : Real.exp ((p.ea - e0 - p.kap * Real.log s0 + p.lam * Real.log p.siga) / (p.lam - p.kap)) = p0 := by
      rw [show (p.ea - e0 - p.kap * Real.log s0 + p.lam * Real.log p.siga) / (p.lam - p.kap) = Real.log p0 by
        rw [div_eq_iff hlk]; linarith, Real.exp_log hp]
    simp only [initialConditions, a, ← ht']
  · have a : Real.exp ((p.ea - e0 - (p.lam - p.kap) * Real.log p0 + p.lam * Real.log p.siga) / p.kap) = s0 := by
      rw [show (p.ea - e0 - (p.lam - p.kap) * Real.log p0 + p.lam * Real.log p.siga) / p.kap = Real.log s0 by
        rw [div_eq_iff hk]; linarith, Real.exp_log hs]
    simp only [initialConditions, a, ← ht']
  · have a : Real.exp ((p.ea - e0 + p.lam * Real.log p.siga + p.kap * Real.log (p0 / s0)) / p.lam) = p0 := by
      rw [show (p.ea - e0 + p.lam * Real.log p.siga + p.kap * Real.log (p0 / s0)) / p.lam = Real.log p0 by
        rw [div_eq_iff hl, l1]; linarith, Real.exp_log hp]
    simp only [initialConditions, ho, a, hd]
  · simp only [initialConditions, he, ← ht']
  · simp only [initialConditions, ho, hm, he]
  · simp only [initialConditions, ho, hd, he]

/-- What was given, and what the values have to satisfy to be admissible. -/
def Given (x : Option ℝ) (v : ℝ) : Prop := ∀ y, x = some y → y = v

theorem state_of_time {p : Par} (h : p.soil.Good) {s0 p0 : ℝ} (hs : 0 < s0) (hp : 0 < p0) :
    (p.lam - p.kap) * Real.log (p0 / s0) = p.psi * Real.log ((p0 / s0) ^ p.alpha * p.ta / p.ta) := by
  have hta : p.ta ≠ 0 := ne_of_gt h.ta
  have hpsi : p.psi ≠ 0 := ne_of_gt h.psi
  rw [mul_div_assoc, div_self hta, mul_one, Real.log_rpow (div_pos hp hs)]
  unfold Par.alpha; field_simp

theorem state_of_ocr {p : Par} (h : p.soil.Good) {t0 : ℝ} (ht : 0 < t0) :
    (p.lam - p.kap) * Real.log ((t0 / p.ta) ^ (1 / p.alpha)) = p.psi * Real.log (t0 / p.ta) := by
  have hpsi : p.psi ≠ 0 := ne_of_gt h.psi
  have hlk : p.lam - p.kap ≠ 0 := ne_of_gt (sub_pos.2 h.lam)
  have hta : 0 < p.ta := h.ta
  rw [Real.log_rpow (div_pos ht hta)]
  unfold Par.alpha; field_simp

/-- **C208, two values determine the state.** Whatever two values are given (stresses and times positive), the four values
returned are positive where they have to be, contain the given ones, and describe one state of the soil. -/
theorem C208_consistent (p : Par) (h : p.soil.Good) (e0 s0 p0 t0 : Option ℝ) (i : Init)
    (hs : ∀ v, s0 = some v → 0 < v) (hp : ∀ v, p0 = some v → 0 < v) (ht : ∀ v, t0 = some v → 0 < v)
    (hi : initialConditions p e0 s0 p0 t0 = .ok (some i)) :
    0 < i.s0 ∧ 0 < i.p0 ∧ 0 < i.t0 ∧ Given e0 i.e0 ∧ Given s0 i.s0 ∧ Given p0 i.p0 ∧ Given t0 i.t0 ∧
    YGState p.soil i.e0 i.s0 i.p0 i.t0 := by
  have hk : p.kap ≠ 0 := ne_of_gt h.kap
  have hlk : p.lam - p.kap ≠ 0 := ne_of_gt (sub_pos.2 h.lam)
  have hl : p.lam ≠ 0 := ne_of_gt (h.kap.trans h.lam)
  have hsg : 0 < p.siga := h.siga
  have hta : 0 < p.ta := h.ta
  unfold initialConditions at hi
  split at hi
  · cases hi
  · rename_i e s
    cases hi
    have hs := hs _ rfl
    refine ⟨hs, Real.exp_pos _, mul_pos (Real.rpow_pos_of_pos (div_pos (Real.exp_pos _) hs) _) hta,
      by rintro _ ⟨⟩; rfl, by rintro _ ⟨⟩; rfl, by rintro _ ⟨⟩, by rintro _ ⟨⟩, ?_, state_of_time h hs (Real.exp_pos _)⟩
    simp only [Par.soil]
    rw [Real.log_div (Real.exp_pos _).ne' hs.ne', Real.log_div (Real.exp_pos _).ne' hsg.ne', Real.log_exp]
    field_simp; ring
  · rename_i e p0'
    cases hi
    have hp := hp _ rfl
    refine ⟨Real.exp_pos _, hp, mul_pos (Real.rpow_pos_of_pos (div_pos hp (Real.exp_pos _)) _) hta,
      by rintro _ ⟨⟩; rfl, by rintro _ ⟨⟩, by rintro _ ⟨⟩; rfl, by rintro _ ⟨⟩, ?_, state_of_time h (Real.exp_pos _) hp⟩
    simp only [Par.soil]
    rw [Real.log_div hp.ne' (Real.exp_pos _).ne', Real.log_div hp.ne' hsg.ne', Real.log_exp]
    field_simp; ring
  · rename_i e t
    cases hi
    have ht := ht _ rfl
    have ho : 0 < (t / p.ta) ^ (1 / p.alpha) := Real.rpow_pos_of_pos (div_pos ht hta) _
    have hd : ∀ x : ℝ, 0 < x → x / (x / (t / p.ta) ^ (1 / p.alpha)) = (t / p.ta) ^ (1 / p.alpha) := by
      intro x hx; field_simp
    refine ⟨div_pos (Real.exp_pos _) ho, Real.exp_pos _, ht,
      by rintro _ ⟨⟩; rfl, by rintro _ ⟨⟩, by rintro _ ⟨⟩, by rintro _ ⟨⟩; rfl, ?_, ?_⟩
    · simp only [Par.soil]
      rw [hd _ (Real.exp_pos _), Real.log_div (Real.exp_pos _).ne' hsg.ne', Real.log_exp]
      field_simp; ring
    · simp only [Par.soil]
      rw [hd _ (Real.exp_pos _)]; exact state_of_ocr h ht
  · rename_i s p0'
    cases hi
    have hs := hs _ rfl
    have hp := hp _ rfl
    refine ⟨hs, hp, mul_pos (Real.rpow_pos_of_pos (div_pos hp hs) _) hta,
      by rintro _ ⟨⟩, by rintro _ ⟨⟩; rfl, by rintro _ ⟨⟩; rfl, by rintro _ ⟨⟩, ?_, state_of_time h hs hp⟩
    simp only [Par.soil]; ring
  · rename_i s t
    cases hi
    have hs := hs _ rfl
    have ht := ht _ rfl
    have ho : 0 < (t / p.ta) ^ (1 / p.alpha) := Real.rpow_pos_of_pos (div_pos ht hta) _
    have hd : (t / p.ta) ^ (1 / p.alpha) * s / s = (t / p.ta) ^ (1 / p.alpha) := by field_simp
    refine ⟨hs, mul_pos ho hs, ht,
      by rintro _ ⟨⟩, by rintro _ ⟨⟩; rfl, by rintro _ ⟨⟩, by rintro _ ⟨⟩; rfl, ?_, ?_⟩
    · simp only [Par.soil]; rw [hd]; ring
    · simp only [Par.soil]; rw [hd]; exact state_of_ocr h ht
  · rename_i p0' t
    cases hi
    have hp := hp _ rfl
    have ht := ht _ rfl
    have ho : 0 < (t / p.ta) ^ (1 / p.alpha) := Real.rpow_pos_of_pos (div_pos ht hta) _
    have hd : p0' / (p0' / (t / p.ta) ^ (1 / p.alpha)) = (t / p.ta) ^ (1 / p.alpha) := by field_simp
    refine ⟨div_pos hp ho, hp, ht,
      by rintro _ ⟨⟩, by rintro _ ⟨⟩, by rintro _ ⟨⟩; rfl, by rintro _ ⟨⟩; rfl, ?_, ?_⟩
    · simp only [Par.soil]; rw [hd]; ring
    · simp only [Par.soil]; rw [hd]; exact state_of_ocr h ht
  · cases hi

/-- **C208, how many.** Nothing given means no initial conditions; one, three or four given is a ValueError. -/
theorem C208_how_many (p : Par) (e0 s0 p0 t0 : Option ℝ) :
    (initialConditions p e0 s0 p0 t0 = .ok none ↔ [e0, s0, p0, t0].countP Option.isSome = 0) ∧
    (initialConditions p e0 s0 p0 t0 = .error .valueError ↔ [e0, s0, p0, t0].countP Option.isSome ∉ [0, 2]) ∧
    ((∃ i, initialConditions p e0 s0 p0 t0 = .ok (some i)) ↔ [e0, s0, p0, t0].countP Option.isSome = 2) := by
  rcases e0 with _ | e0 <;> rcases s0 with _ | s0 <;> rcases p0 with _ | p0 <;> rcases t0 with _ | t0 <;>
    simp [initialConditions, List.countP_cons]

/-- The soil of the documentation. -/
noncomputable def docSoil : Par := ⟨1/5, 1/25, 1/100, 20, 1, 1⟩

theorem docSoil_good : docSoil.soil.Good := by
  constructor <;> simp only [docSoil, Par.soil] <;> norm_num

example : ∃ i, initialConditions docSoil (some (19/20)) (some 18) none none = .ok (some i) ∧
    0 < i.p0 ∧ initialConditions docSoil none none (some i.p0) (some i.t0) = .ok (some i) := by
  obtain ⟨i, hi⟩ := (C208_how_many docSoil (some (19/20)) (some 18) none none).2.2.2 (by simp [List.countP_cons])
  obtain ⟨h1, h2, h3, g1, g2, -, -, hS⟩ := C208_consistent docSoil docSoil_good _ _ _ _ i
    (by rintro _ ⟨⟩; norm_num) (by rintro _ ⟨⟩) (by rintro _ ⟨⟩) hi
  refine ⟨i, hi, h2, ?_⟩
  have := (C208_two_of_four docSoil docSoil_good i.e0 i.s0 i.p0 i.t0 h1 h2 h3 hS).2.2.2.2.2
  exact this

end Geotecha.YG
