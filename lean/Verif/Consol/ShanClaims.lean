import Verif.Consol.ShanUnique

/-! # Claims about shanetal2012 -/

set_option autoImplicit false
set_option linter.unusedVariables false
open Real MeasureTheory Filter Topology
namespace Geotecha.Consol
open Geotecha (PyErr)
open Spec.Unsat (IsEig Problem)

/-- What a load dictionary means: no load, `q0 * (1 - exp (-b t))`, or `q0 * sin (omega t)`. -/
inductive Describes : Option LoadDict → (ℝ → ℝ) → Prop
  | none : Describes .none (fun _ => 0)
  | exp (d : LoadDict) (q0 b : ℝ) : d.type = some "exp" → d.par "q0" = some q0 → d.par "b" = some b →
      Describes (some d) (fun t => q0 * (1 - Real.exp (-b * t)))
  | sin (d : LoadDict) (q0 w : ℝ) : d.type = some "sin" → d.par "q0" = some q0 → d.par "omega" = some w →
      Describes (some d) (fun t => q0 * Real.sin (w * t))

/-- A load that varies at the rate of one of the first `n` modes: an exponential load with the decay rate of a
mode, or a sine of zero frequency in a soil with a zero eigenvalue. -/
def Resonant (P : Problem) (n : ℕ) (eigs : Fin 2 → ℝ) (d : LoadDict) : Prop :=
  ∃ k < n, ∃ p, (d.type = some "exp" ∧ ∃ b, d.par "b" = some b ∧ b = -(eigs p * (P.freq k / P.H) ^ 2)) ∨
    (d.type = some "sin" ∧ d.par "omega" = some 0 ∧ eigs p = 0)

/-- The problem the arguments of `shanetal2012` describe, given what the five load dictionaries mean. -/
noncomputable def ShanArgs.problem (a : ShanArgs) (q : ℝ → ℝ) (top bot : Fin 2 → ℝ → ℝ) : Problem where
  H := a.H
  Cw := a.Cw
  Cvw := a.Cvw
  Ca := a.Ca
  Cva := a.Cva
  Csw := a.Csw
  Csa := a.Csa
  impervious := a.drn = 1
  q := q
  top := top
  bot := bot
  init := fun l z => if l = 0 then a.uwi.1 + (a.uwi.2 - a.uwi.1) * z / a.H else a.uai.1 + (a.uai.2 - a.uai.1) * z / a.H

namespace ShanArgs

/-- The five load dictionaries mean `q`, `top` (water, air) and `bot` (water, air). -/
structure Loaded (a : ShanArgs) (q : ℝ → ℝ) (top bot : Fin 2 → ℝ → ℝ) : Prop where
  f : Describes a.f q
  f1 : Describes a.f1 (top 0)
  f2 : Describes a.f2 (top 1)
  f3 : Describes a.f3 (bot 0)
  f4 : Describes a.f4 (bot 1)

theorem parse_of {d : Option LoadDict} {q : ℝ → ℝ} (h : Describes d q) :
    ∃ L, parseLoad d = .ok L ∧ lval L = q ∧ ∀ (a : ShanArgs) (r : EigRes) (P : Problem) (n : ℕ) (hP : P.H = a.H)
      (hf : ∀ k, P.freq k = a.M k), (∀ d', d = some d' → ¬ Resonant P n r.eigs d') → a.H ≠ 0 → ∀ k < n, a.Reg r L (a.M k) := by
  cases h with
  | none =>
    exact ⟨none, rfl, by funext t; rfl, fun a r P n hP hf hr hH k hk L' h => by cases h⟩
  | exp d q0 b h1 h2 h3 =>
    refine ⟨some (.exp q0 b), ?_, by funext t; rfl, ?_⟩
    · simp only [parseLoad, LoadDict.parse, h1, h2, h3]
      rfl
    · intro a r P n hP hf hr hH k hk L' h p
      cases h
      change b + r.eigs p * (a.M k / a.H) ^ 2 ≠ 0
      intro hc
      refine hr d rfl ⟨k, hk, p, Or.inl ⟨h1, b, h3, ?_⟩⟩
      rw [hf, hP]; linarith
  | sin d q0 w h1 h2 h3 =>
    refine ⟨some (.sin q0 w), ?_, by funext t; rfl, ?_⟩
    · simp only [parseLoad, LoadDict.parse, h1, h2, h3]
      rfl
    · intro a r P n hP hf hr hH k hk L' h p
      cases h
      change r.eigs p ^ 2 * (a.M k / a.H) ^ 4 + w ^ 2 ≠ 0
      intro hc
      have hm : a.M k / a.H ≠ 0 := div_ne_zero (M_pos a k).ne' hH
      have hw : w = 0 := by nlinarith [sq_nonneg (r.eigs p * (a.M k / a.H) ^ 2), sq_nonneg w]
      subst hw
      have : r.eigs p ^ 2 * (a.M k / a.H) ^ 4 = 0 := by linarith
      rcases mul_eq_zero.1 this with h | h
      · exact hr d rfl ⟨k, hk, p, Or.inr ⟨h1, h3, by simpa using h⟩⟩
      · exact absurd h (pow_ne_zero 4 hm)

/-- the loads of the arguments -/
theorem loads_of (a : ShanArgs) {q : ℝ → ℝ} {top bot : Fin 2 → ℝ → ℝ} (h : a.Loaded q top bot) :
    ∃ L, a.loads = .ok L ∧ a.prob L = a.problem q top bot ∧
      ∀ r : EigRes, a.H ≠ 0 → (∀ d, (d = a.f ∨ d = a.f1 ∨ d = a.f2 ∨ d = a.f3 ∨ d = a.f4) → ∀ d', d = some d' →
        ¬ Resonant (a.problem q top bot) a.nterms r.eigs d') → ∀ k < a.nterms, a.RegAll r L (a.M k) := by
  obtain ⟨Lf, pf, vf, rf⟩ := parse_of h.f
  obtain ⟨L1, p1, v1, r1⟩ := parse_of h.f1
  obtain ⟨L2, p2, v2, r2⟩ := parse_of h.f2
  obtain ⟨L3, p3, v3, r3⟩ := parse_of h.f3
  obtain ⟨L4, p4, v4, r4⟩ := parse_of h.f4
  have hp : a.prob ⟨Lf, L1, L2, L3, L4⟩ = a.problem q top bot := by
    unfold prob problem
    congr 1
    · funext l
      fin_cases l
      · exact v1
      · exact v2
    · funext l
      fin_cases l
      · exact v3
      · exact v4
  refine ⟨⟨Lf, L1, L2, L3, L4⟩, ?_, hp, ?_⟩
  · unfold loads
    rw [pf, p1, p2, p3, p4]; rfl
  · intro r hH hr k hk
    have hfr : ∀ k, (a.problem q top bot).freq k = a.M k := fun k => by rw [← hp, freq_eq]
    exact ⟨rf a r _ _ rfl hfr (hr _ (by simp)) hH k hk, r1 a r _ _ rfl hfr (hr _ (by simp)) hH k hk,
      r2 a r _ _ rfl hfr (hr _ (by simp)) hH k hk, r3 a r _ _ rfl hfr (hr _ (by simp)) hH k hk,
      r4 a r _ _ rfl hfr (hr _ (by simp)) hH k hk⟩

/-- the result on good arguments -/
theorem call_eq (eig : Mat2 → EigRes) (a : ShanArgs) {L : ShanLoads} (hL : a.loads = .ok L) (hH : a.H ≠ 0)
    (hd : a.drn = 0 ∨ a.drn = 1) (hC : a.Cw * a.Ca ≠ 1) (hr : (eig a.Nmat).v.det ≠ 0) (z t : List ℝ) :
    shanetal2012 eig z t a = .ok (z.map (fun z => t.map (fun t => a.u (eig a.Nmat) L z t 0)),
      z.map (fun z => t.map (fun t => a.u (eig a.Nmat) L z t 1))) := by
  have hdet : a.Cmat.det ≠ 0 := by rw [Cmat_det]; intro h; exact hC (by linarith)
  unfold shanetal2012
  rw [hL]
  simp only [Bind.bind, Except.bind]
  rw [if_neg hdet, if_neg hH, if_neg (by omega), if_neg hr]

/-- **C147**: the pore pressures returned are, at every depth and time asked for, the spectral Galerkin solution
with `nterms` terms of the coupled consolidation problem that the arguments describe. -/
theorem C147_galerkin (eig : Mat2 → EigRes) (a : ShanArgs) (q : ℝ → ℝ) (top bot : Fin 2 → ℝ → ℝ)
    (hload : a.Loaded q top bot) (hH : a.H ≠ 0) (hd : a.drn = 0 ∨ a.drn = 1) (hC : a.Cw * a.Ca ≠ 1)
    (hr : IsEig (!![1, a.Cw; a.Ca, 1]⁻¹ * !![a.Cvw, 0; 0, a.Cva]) (eig (!![1, a.Cw; a.Ca, 1]⁻¹ * !![a.Cvw, 0; 0, a.Cva])).eigs
      (eig (!![1, a.Cw; a.Ca, 1]⁻¹ * !![a.Cvw, 0; 0, a.Cva])).v)
    (hres : ∀ d ∈ [a.f, a.f1, a.f2, a.f3, a.f4], ∀ d', d = some d' →
      ¬ Resonant (a.problem q top bot) a.nterms (eig (!![1, a.Cw; a.Ca, 1]⁻¹ * !![a.Cvw, 0; 0, a.Cva])).eigs d') :
    ∃ u : Fin 2 → ℝ → ℝ → ℝ, (a.problem q top bot).Galerkin a.nterms u ∧
      ∀ z t : List ℝ, shanetal2012 eig z t a =
        .ok (z.map (fun z => t.map (fun t => u 0 z t)), z.map (fun z => t.map (fun t => u 1 z t))) := by
  have hN : (!![1, a.Cw; a.Ca, 1]⁻¹ * !![a.Cvw, 0; 0, a.Cva] : Mat2) = a.Nmat := rfl
  rw [hN] at hr hres
  obtain ⟨L, hL, hp, hreg⟩ := a.loads_of hload
  have hdet : a.Cmat.det ≠ 0 := by rw [Cmat_det]; intro h; exact hC (by linarith)
  refine ⟨fun l z t => a.u (eig a.Nmat) L z t l, ?_, fun z t => call_eq eig a hL hH hd hC hr.1 z t⟩
  rw [← hp]
  exact galerkin a _ L hH hd hdet hr (hreg _ hH fun d hd' => hres d (by simpa using hd'))

/-- There is only one such solution, so the result is determined by the English description. -/
theorem C147_unique (P : Problem) (hH : P.H ≠ 0) (hC : P.Cw * P.Ca ≠ 1) (hi : ∀ l, Continuous (P.init l)) (n : ℕ)
    (u w : Fin 2 → ℝ → ℝ → ℝ) (hu : P.Galerkin n u) (hw : P.Galerkin n w) : u = w :=
  Problem.Galerkin.unique P hH hC hi n hu hw

theorem init_cont (a : ShanArgs) (q : ℝ → ℝ) (top bot : Fin 2 → ℝ → ℝ) (l : Fin 2) : Continuous ((a.problem q top bot).init l) := by
  unfold problem
  fin_cases l
  · simp; fun_prop
  · simp; fun_prop

/-- **C148**: the result does not depend on how the eigenvalue routine orders and scales its eigenvectors. -/
theorem C148_any_eig (eig eig' : Mat2 → EigRes) (a : ShanArgs) (q : ℝ → ℝ) (top bot : Fin 2 → ℝ → ℝ)
    (hload : a.Loaded q top bot) (hH : a.H ≠ 0) (hd : a.drn = 0 ∨ a.drn = 1) (hC : a.Cw * a.Ca ≠ 1)
    (hr : ∀ e ∈ [eig, eig'], IsEig (!![1, a.Cw; a.Ca, 1]⁻¹ * !![a.Cvw, 0; 0, a.Cva]) (e (!![1, a.Cw; a.Ca, 1]⁻¹ * !![a.Cvw, 0; 0, a.Cva])).eigs
      (e (!![1, a.Cw; a.Ca, 1]⁻¹ * !![a.Cvw, 0; 0, a.Cva])).v)
    (hres : ∀ e ∈ [eig, eig'], ∀ d ∈ [a.f, a.f1, a.f2, a.f3, a.f4], ∀ d', d = some d' →
      ¬ Resonant (a.problem q top bot) a.nterms (e (!![1, a.Cw; a.Ca, 1]⁻¹ * !![a.Cvw, 0; 0, a.Cva])).eigs d') (z t : List ℝ) :
    shanetal2012 eig z t a = shanetal2012 eig' z t a := by
  obtain ⟨u, hu, e⟩ := C147_galerkin eig a q top bot hload hH hd hC (hr eig (by simp)) (hres eig (by simp))
  obtain ⟨w, hw, e'⟩ := C147_galerkin eig' a q top bot hload hH hd hC (hr eig' (by simp)) (hres eig' (by simp))
  have := C147_unique _ hH hC (init_cont a q top bot) _ u w hu hw
  rw [e, e', this]

/-- A load dictionary of an unknown type or without one of its parameters. -/
def Bad (d : LoadDict) : Prop :=
  ∃ ty, d.type = some ty ∧ (ty = "exp" → d.par "q0" = none ∨ d.par "b" = none) ∧
    (ty = "sin" → d.par "q0" = none ∨ d.par "omega" = none)

theorem parse_cases (d : LoadDict) (h : d.type ≠ none) :
    (Bad d ∧ d.parse = .error .valueError) ∨ (¬ Bad d ∧ ∃ L, d.parse = .ok L) := by
  unfold LoadDict.parse
  cases ht : d.type with
  | none => exact absurd ht h
  | some ty =>
    simp only
    by_cases h1 : ty = "exp"
    · rw [if_pos h1]
      subst h1
      cases hq : d.par "q0" with
      | none => exact Or.inl ⟨⟨"exp", ht, fun _ => Or.inl hq, fun h => absurd h (by decide)⟩, rfl⟩
      | some q0 =>
        cases hb : d.par "b" with
        | none => exact Or.inl ⟨⟨"exp", ht, fun _ => Or.inr hb, fun h => absurd h (by decide)⟩, rfl⟩
        | some b =>
          refine Or.inr ⟨?_, _, rfl⟩
          rintro ⟨ty, h2, h3, h4⟩
          rw [ht] at h2
          cases h2
          rcases h3 rfl with h | h
          · rw [hq] at h; cases h
          · rw [hb] at h; cases h
    · rw [if_neg h1]
      by_cases h2 : ty = "sin"
      · rw [if_pos h2]
        subst h2
        cases hq : d.par "q0" with
        | none => exact Or.inl ⟨⟨"sin", ht, fun h => absurd h (by decide), fun _ => Or.inl hq⟩, rfl⟩
        | some q0 =>
          cases hb : d.par "omega" with
          | none => exact Or.inl ⟨⟨"sin", ht, fun h => absurd h (by decide), fun _ => Or.inr hb⟩, rfl⟩
          | some b =>
            refine Or.inr ⟨?_, _, rfl⟩
            rintro ⟨ty, h2, h3, h4⟩
            rw [ht] at h2
            cases h2
            rcases h4 rfl with h | h
            · rw [hq] at h; cases h
            · rw [hb] at h; cases h
      · rw [if_neg h2]
        exact Or.inl ⟨⟨ty, ht, fun h => absurd h h1, fun h => absurd h h2⟩, rfl⟩

theorem parseLoad_cases (d : Option LoadDict) (h : ∀ d', d = some d' → d'.type ≠ none) :
    ((∃ d', d = some d' ∧ Bad d') ∧ parseLoad d = .error .valueError) ∨ ((¬ ∃ d', d = some d' ∧ Bad d') ∧ ∃ L, parseLoad d = .ok L) := by
  cases d with
  | none => exact Or.inr ⟨(by rintro ⟨d', h, -⟩; cases h), none, rfl⟩
  | some d =>
    rcases parse_cases d (h d rfl) with ⟨h1, h2⟩ | ⟨h1, L, h2⟩
    · exact Or.inl ⟨⟨d, rfl, h1⟩, by simp [parseLoad, h2, Except.map]⟩
    · refine Or.inr ⟨?_, some L, by simp [parseLoad, h2, Except.map]⟩
      rintro ⟨d', h, hb⟩
      cases h
      exact h1 hb

theorem loads_cases (a : ShanArgs) (h : ∀ d ∈ [a.f, a.f1, a.f2, a.f3, a.f4], ∀ d', d = some d' → d'.type ≠ none) :
    ((∃ d ∈ [a.f, a.f1, a.f2, a.f3, a.f4], ∃ d', d = some d' ∧ Bad d') ∧ a.loads = .error .valueError) ∨
    ((¬ ∃ d ∈ [a.f, a.f1, a.f2, a.f3, a.f4], ∃ d', d = some d' ∧ Bad d') ∧ ∃ L, a.loads = .ok L) := by
  unfold loads
  rcases parseLoad_cases a.f (h _ (by simp)) with ⟨h1, e⟩ | ⟨b0, L0, e⟩
  · exact Or.inl ⟨⟨a.f, by simp, h1⟩, by rw [e]; rfl⟩
  rcases parseLoad_cases a.f1 (h _ (by simp)) with ⟨h1, e1⟩ | ⟨b1, L1, e1⟩
  · exact Or.inl ⟨⟨a.f1, by simp, h1⟩, by rw [e, e1]; rfl⟩
  rcases parseLoad_cases a.f2 (h _ (by simp)) with ⟨h1, e2⟩ | ⟨b2, L2, e2⟩
  · exact Or.inl ⟨⟨a.f2, by simp, h1⟩, by rw [e, e1, e2]; rfl⟩
  rcases parseLoad_cases a.f3 (h _ (by simp)) with ⟨h1, e3⟩ | ⟨b3, L3, e3⟩
  · exact Or.inl ⟨⟨a.f3, by simp, h1⟩, by rw [e, e1, e2, e3]; rfl⟩
  rcases parseLoad_cases a.f4 (h _ (by simp)) with ⟨h1, e4⟩ | ⟨b4, L4, e4⟩
  · exact Or.inl ⟨⟨a.f4, by simp, h1⟩, by rw [e, e1, e2, e3, e4]; rfl⟩
  refine Or.inr ⟨?_, ⟨L0, L1, L2, L3, L4⟩, by rw [e, e1, e2, e3, e4]; rfl⟩
  rintro ⟨d, hd, hb⟩
  simp only [List.mem_cons, List.not_mem_nil, or_false] at hd
  rcases hd with rfl | rfl | rfl | rfl | rfl
  · exact b0 hb
  · exact b1 hb
  · exact b2 hb
  · exact b3 hb
  · exact b4 hb

/-- **C146**: a `ValueError` is raised exactly if some load dictionary has an unknown type or lacks a parameter of
its type (whatever the other arguments are); otherwise coupling coefficients with `Cw * Ca = 1` make
`numpy.linalg.inv` fail, a zero `H` is a division by zero, and a `drn` other than 0 and 1 is an
`UnboundLocalError`; otherwise there is a result with one row per depth and one column per time. -/
theorem C146_checks (eig : Mat2 → EigRes) (a : ShanArgs) (z t : List ℝ)
    (htype : ∀ d ∈ [a.f, a.f1, a.f2, a.f3, a.f4], ∀ d', d = some d' → d'.type ≠ none)
    (hr : ∀ N, (eig N).v.det ≠ 0) :
    ((∃ d ∈ [a.f, a.f1, a.f2, a.f3, a.f4], ∃ d', d = some d' ∧ Bad d') ↔ shanetal2012 eig z t a = .error .valueError) ∧
    ((¬ ∃ d ∈ [a.f, a.f1, a.f2, a.f3, a.f4], ∃ d', d = some d' ∧ Bad d') →
      (a.Cw * a.Ca = 1 → shanetal2012 eig z t a = .error .other) ∧
      (a.Cw * a.Ca ≠ 1 → a.H = 0 → shanetal2012 eig z t a = .error .zeroDivision) ∧
      (a.Cw * a.Ca ≠ 1 → a.H ≠ 0 → a.drn ≠ 0 → a.drn ≠ 1 → shanetal2012 eig z t a = .error .unboundLocal) ∧
      (a.Cw * a.Ca ≠ 1 → a.H ≠ 0 → a.drn = 0 ∨ a.drn = 1 →
        ∃ uw ua, shanetal2012 eig z t a = .ok (uw, ua) ∧ uw.length = z.length ∧ ua.length = z.length ∧
          (∀ row ∈ uw, row.length = t.length) ∧ (∀ row ∈ ua, row.length = t.length))) := by
  have hdet : a.Cmat.det = 0 ↔ a.Cw * a.Ca = 1 := by
    rw [Cmat_det]; constructor <;> intro h <;> linarith
  rcases a.loads_cases htype with ⟨hb, e⟩ | ⟨hb, L, e⟩
  · refine ⟨⟨fun _ => ?_, fun _ => hb⟩, fun h => absurd hb h⟩
    unfold shanetal2012
    rw [e]; rfl
  · have h1 : a.Cw * a.Ca = 1 → shanetal2012 eig z t a = .error .other := fun h => by
      unfold shanetal2012
      rw [e]
      simp only [Bind.bind, Except.bind]
      rw [if_pos (hdet.2 h)]
    have h2 : a.Cw * a.Ca ≠ 1 → a.H = 0 → shanetal2012 eig z t a = .error .zeroDivision := fun h h' => by
      unfold shanetal2012
      rw [e]
      simp only [Bind.bind, Except.bind]
      rw [if_neg (fun c => h (hdet.1 c)), if_pos h']
    have h3 : a.Cw * a.Ca ≠ 1 → a.H ≠ 0 → a.drn ≠ 0 → a.drn ≠ 1 → shanetal2012 eig z t a = .error .unboundLocal := fun h h' d0 d1 => by
      unfold shanetal2012
      rw [e]
      simp only [Bind.bind, Except.bind]
      rw [if_neg (fun c => h (hdet.1 c)), if_neg h', if_pos ⟨d1, d0⟩]
    refine ⟨⟨fun h => absurd h hb, fun h => ?_⟩, fun _ => ⟨h1, h2, h3, fun h h' hd => ?_⟩⟩
    · exfalso
      by_cases c1 : a.Cw * a.Ca = 1
      · rw [h1 c1] at h; cases h
      by_cases c2 : a.H = 0
      · rw [h2 c1 c2] at h; cases h
      by_cases c3 : a.drn = 0 ∨ a.drn = 1
      · rw [call_eq eig a e c2 c3 c1 (hr _)] at h; cases h
      · push Not at c3
        rw [h3 c1 c2 c3.1 c3.2] at h; cases h
    · refine ⟨_, _, call_eq eig a e h' hd h (hr _) z t, by simp, by simp, ?_, ?_⟩ <;>
      · intro row hrow
        simp only [List.mem_map] at hrow
        obtain ⟨x, -, rfl⟩ := hrow
        simp

/-- A dictionary without the key `'type'` as the first load is a `KeyError`. -/
theorem C146_no_type (eig : Mat2 → EigRes) (a : ShanArgs) (z t : List ℝ) (d : LoadDict) (hf : a.f = some d) (ht : d.type = none) :
    shanetal2012 eig z t a = .error .other := by
  unfold shanetal2012 loads
  rw [hf]
  simp only [parseLoad, LoadDict.parse, ht]
  rfl

end ShanArgs
end Geotecha.Consol
