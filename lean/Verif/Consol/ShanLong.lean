import Verif.Consol.ShanClaims

/-! # shanetal2012: the documented load, long times, closed-form eigenvalues, an example -/

set_option autoImplicit false
set_option linter.unusedVariables false
open Real MeasureTheory Filter Topology
namespace Geotecha.Consol
open Geotecha (PyErr)
open Spec.Unsat (IsEig Problem)
namespace ShanArgs

/-- **C149** (the documented meaning is false): the documentation says that `{'type': 'exp', 'q0': q0, 'b': b}` is
`q0 * exp (-b t)`; the water pressure returned at the top for such an `f1` is `q0 * (1 - exp (-b t))` at every
time, which is the documented one only at the time when both are `q0 / 2`. -/
theorem C149_documented_load_partial (eig : Mat2 → EigRes) (a : ShanArgs) (q : ℝ → ℝ) (top bot : Fin 2 → ℝ → ℝ)
    (hload : a.Loaded q top bot) (hH : a.H ≠ 0) (hd : a.drn = 0 ∨ a.drn = 1) (hC : a.Cw * a.Ca ≠ 1)
    (hr : IsEig (!![1, a.Cw; a.Ca, 1]⁻¹ * !![a.Cvw, 0; 0, a.Cva]) (eig (!![1, a.Cw; a.Ca, 1]⁻¹ * !![a.Cvw, 0; 0, a.Cva])).eigs
      (eig (!![1, a.Cw; a.Ca, 1]⁻¹ * !![a.Cvw, 0; 0, a.Cva])).v)
    (hres : ∀ d ∈ [a.f, a.f1, a.f2, a.f3, a.f4], ∀ d', d = some d' →
      ¬ Resonant (a.problem q top bot) a.nterms (eig (!![1, a.Cw; a.Ca, 1]⁻¹ * !![a.Cvw, 0; 0, a.Cva])).eigs d')
    (d : LoadDict) (q0 b : ℝ) (hf : a.f1 = some d) (h1 : d.type = some "exp") (h2 : d.par "q0" = some q0) (h3 : d.par "b" = some b)
    (t : ℝ) :
    ∃ ua, shanetal2012 eig [0] [t] a = .ok ([[q0 * (1 - exp (-b * t))]], ua) ∧
      (q0 * (1 - exp (-b * t)) = q0 * exp (-b * t) ↔ q0 = 0 ∨ exp (-b * t) = 1 / 2) := by
  obtain ⟨u, hu, e⟩ := C147_galerkin eig a q top bot hload hH hd hC hr hres
  have ht : top 0 = fun t => q0 * (1 - exp (-b * t)) := by
    have := hload.f1
    rw [hf] at this
    generalize top 0 = g at this
    cases this with
    | exp _ q0' b' g1 g2 g3 => rw [h2] at g2; rw [h3] at g3; cases g2; cases g3; rfl
    | sin _ q0' b' g1 g2 g3 => rw [h1] at g1; exact absurd g1 (by decide)
  have h0 : u 0 0 t = q0 * (1 - exp (-b * t)) := by
    rw [hu.top 0 t]; change top 0 t = _; rw [ht]
  refine ⟨[[u 1 0 t]], by rw [e]; simp only [List.map_cons, List.map_nil, h0], ?_⟩
  constructor
  · intro h
    by_cases hq : q0 = 0
    · exact Or.inl hq
    · right
      have := mul_left_cancel₀ hq h
      linarith
  · rintro (h | h)
    · rw [h]; simp
    · rw [h]; norm_num

/-- A load that settles: none, or `q0 (1 - exp (-b t))` with positive `b`, whose final value is `q0`. -/
inductive Settles : Option LoadDict → ℝ → Prop
  | none : Settles .none 0
  | exp (d : LoadDict) (q0 b : ℝ) : d.type = some "exp" → d.par "q0" = some q0 → d.par "b" = some b → 0 < b → Settles (some d) q0

theorem tendsto_expm {c : ℝ} (hc : c < 0) : Tendsto (fun t : ℝ => exp (c * t)) atTop (𝓝 0) := by
  refine tendsto_exp_atBot.comp ?_
  exact tendsto_id.const_mul_atTop_of_neg hc

theorem settles_parse {d : Option LoadDict} {q0 : ℝ} (h : Settles d q0) :
    ∃ L, parseLoad d = .ok L ∧ Tendsto (lval L) atTop (𝓝 q0) ∧
      ∀ L', L = some L' → ∀ e m : ℝ, e < 0 → m ≠ 0 → Tendsto (fun t => L'.Edt t m e) atTop (𝓝 0) := by
  cases h with
  | none => exact ⟨none, rfl, tendsto_const_nhds, fun L' h => by cases h⟩
  | exp d q0 b h1 h2 h3 hb =>
    refine ⟨some (.exp q0 b), ?_, ?_, ?_⟩
    · simp only [parseLoad, LoadDict.parse, h1, h2, h3]; rfl
    · have : Tendsto (fun t => q0 * (1 - exp (-b * t))) atTop (𝓝 (q0 * (1 - 0))) :=
        ((tendsto_expm (by linarith : -b < 0)).const_sub 1).const_mul q0
      rw [sub_zero, mul_one] at this
      exact this
    · intro L' h e m he hm
      cases h
      have hem : e * m ^ 2 < 0 := mul_neg_of_neg_of_pos he (by positivity)
      have : Tendsto (fun t => -(b * q0 * (exp (-b * t) - exp (e * m ^ 2 * t))) / (b + e * m ^ 2)) atTop
          (𝓝 (-(b * q0 * (0 - 0)) / (b + e * m ^ 2))) :=
        ((((tendsto_expm (by linarith : -b < 0)).sub (tendsto_expm hem)).const_mul (b * q0)).neg).div_const _
      rw [sub_zero, mul_zero, neg_zero, zero_div] at this
      exact this

theorem tendsto_evolve (r : EigRes) (E : ℝ → Vec2) (X : Vec2) (h : ∀ p, Tendsto (fun t => E t p) atTop (𝓝 0)) (l : Fin 2) :
    Tendsto (fun t => evolve r (E t) X l) atTop (𝓝 0) := by
  unfold evolve Matrix.mulVec dotProduct
  have : Tendsto (fun t => ∑ i, r.v l i * (E t i * ∑ j, r.v⁻¹ i j * X j)) atTop (𝓝 (∑ i, r.v l i * (0 * ∑ j, r.v⁻¹ i j * X j))) :=
    tendsto_finsetSum _ fun i _ => ((h i).mul_const _).const_mul _
  simpa using this

theorem tendsto_loadMode (a : ShanArgs) (r : EigRes) (c : Vec2) (ig : ℝ → ℝ) (L : Option ShanLoad) (M : ℝ) (hM : M / a.H ≠ 0)
    (he : ∀ p, r.eigs p < 0)
    (h : ∀ L', L = some L' → ∀ e m : ℝ, e < 0 → m ≠ 0 → Tendsto (fun t => L'.Edt t m e) atTop (𝓝 0)) (l : Fin 2) :
    Tendsto (fun t => a.loadMode r c ig L M t l) atTop (𝓝 0) := by
  cases L with
  | none => exact tendsto_const_nhds
  | some L => exact tendsto_evolve r _ _ (fun p => h L rfl _ _ (he p) hM) l

/-- in a physical soil both eigenvalues are negative -/
theorem eigs_neg {Cw Cvw Ca Cva : ℝ} (hw : Cvw < 0) (ha : Cva < 0) (hC : Cw * Ca < 1) {eigs : Fin 2 → ℝ} {v : Mat2}
    (h : IsEig (!![1, Cw; Ca, 1]⁻¹ * !![Cvw, 0; 0, Cva]) eigs v) (p : Fin 2) : eigs p < 0 := by
  have hd : (!![1, Cw; Ca, 1] : Mat2).det = 1 - Cw * Ca := by simp [Matrix.det_fin_two]
  have hd0 : (!![1, Cw; Ca, 1] : Mat2).det ≠ 0 := by rw [hd]; linarith
  have hpos : 0 < 1 - Cw * Ca := by linarith
  set N : Mat2 := !![1, Cw; Ca, 1]⁻¹ * !![Cvw, 0; 0, Cva] with hN
  have hNv : N = v * Matrix.diagonal eigs * v⁻¹ := by
    rw [← h.2, Matrix.mul_nonsing_inv_cancel_right _ _ (Ne.isUnit h.1)]
  have hdet : N.det = eigs 0 * eigs 1 := by
    have e : (N * v).det = (v * Matrix.diagonal eigs).det := by rw [h.2]
    clear_value N
    rw [Matrix.det_mul, Matrix.det_mul, Matrix.det_diagonal, Fin.prod_univ_two, mul_comm] at e
    exact mul_left_cancel₀ h.1 e
  have htr : N.trace = eigs 0 + eigs 1 := by
    rw [hNv, Matrix.trace_mul_comm, ← Matrix.mul_assoc, Matrix.nonsing_inv_mul _ (Ne.isUnit h.1), Matrix.one_mul, Matrix.trace_diagonal,
      Fin.sum_univ_two]
  have hinv : (!![1, Cw; Ca, 1] : Mat2)⁻¹ = (1 - Cw * Ca)⁻¹ • !![1, -Cw; -Ca, 1] := by
    rw [Matrix.inv_def, hd, Matrix.adjugate_fin_two]
    simp
  have hNN : N = (1 - Cw * Ca)⁻¹ • !![Cvw, -Cw * Cva; -Ca * Cvw, Cva] := by
    rw [hN, hinv, Matrix.smul_mul]
    congr 1
    ext i j
    fin_cases i <;> fin_cases j <;> simp [Matrix.mul_apply, Fin.sum_univ_two]
  have d1 : (1 - Cw * Ca) * (eigs 0 * eigs 1) = Cvw * Cva := by
    rw [← hdet, hNN]
    simp [Matrix.det_fin_two]
    field_simp
  have t1 : (1 - Cw * Ca) * (eigs 0 + eigs 1) = Cvw + Cva := by
    rw [← htr, hNN]
    simp [Matrix.trace, Fin.sum_univ_two]
    field_simp
  have hp : 0 < eigs 0 * eigs 1 := by
    have : 0 < Cvw * Cva := mul_pos_of_neg_of_neg hw ha
    rw [← d1] at this
    exact (mul_pos_iff_of_pos_left hpos).1 this
  have hs : eigs 0 + eigs 1 < 0 := by
    by_contra hc
    push Not at hc
    have := mul_nonneg hpos.le hc
    linarith
  fin_cases p
  · simp only [Fin.zero_eta]
    by_contra hc
    push Not at hc
    have h0 : 0 < eigs 0 := lt_of_le_of_ne hc (fun e => by rw [← e] at hp; simp at hp)
    have h1 : 0 < eigs 1 := (mul_pos_iff_of_pos_left h0).1 hp
    linarith
  · simp only [Fin.mk_one]
    by_contra hc
    push Not at hc
    have h0 : 0 < eigs 1 := lt_of_le_of_ne hc (fun e => by rw [← e] at hp; simp at hp)
    have h1 : 0 < eigs 0 := (mul_pos_iff_of_pos_right h0).1 hp
    linarith

/-- **C150**: in a physical soil (`Cvw`, `Cva` negative, `Cw Ca < 1`), when every load settles, all initial pressures
and the effect of the total stress dissipate: at every depth both pressures tend to the straight line set by the
final boundary values. -/
theorem C150_dissipation (eig : Mat2 → EigRes) (a : ShanArgs) (hH : a.H ≠ 0) (hd : a.drn = 0 ∨ a.drn = 1)
    (hw : a.Cvw < 0) (ha : a.Cva < 0) (hC : a.Cw * a.Ca < 1)
    (hr : IsEig (!![1, a.Cw; a.Ca, 1]⁻¹ * !![a.Cvw, 0; 0, a.Cva]) (eig (!![1, a.Cw; a.Ca, 1]⁻¹ * !![a.Cvw, 0; 0, a.Cva])).eigs
      (eig (!![1, a.Cw; a.Ca, 1]⁻¹ * !![a.Cvw, 0; 0, a.Cva])).v)
    (q w1 a1 w2 a2 : ℝ) (s0 : Settles a.f q) (s1 : Settles a.f1 w1) (s2 : Settles a.f2 a1) (s3 : Settles a.f3 w2) (s4 : Settles a.f4 a2) (z : ℝ) :
    ∃ uw ua : ℝ → ℝ, (∀ t, shanetal2012 eig [z] [t] a = .ok ([[uw t]], [[ua t]])) ∧
      (a.drn = 0 → Tendsto uw atTop (𝓝 (w1 + (w2 - w1) * z / a.H)) ∧ Tendsto ua atTop (𝓝 (a1 + (a2 - a1) * z / a.H))) ∧
      (a.drn = 1 → Tendsto uw atTop (𝓝 (w1 + w2 * z)) ∧ Tendsto ua atTop (𝓝 (a1 + a2 * z))) := by
  obtain ⟨L0, p0, v0, r0⟩ := settles_parse s0
  obtain ⟨L1, p1, v1, r1⟩ := settles_parse s1
  obtain ⟨L2, p2, v2, r2⟩ := settles_parse s2
  obtain ⟨L3, p3, v3, r3⟩ := settles_parse s3
  obtain ⟨L4, p4, v4, r4⟩ := settles_parse s4
  have hL : a.loads = .ok ⟨L0, L1, L2, L3, L4⟩ := by
    unfold loads; rw [p0, p1, p2, p3, p4]; rfl
  have he := eigs_neg hw ha hC hr
  set N : Mat2 := !![1, a.Cw; a.Ca, 1]⁻¹ * !![a.Cvw, 0; 0, a.Cva] with hN
  have hN' : a.Nmat = N := rfl
  have hamp : ∀ k l, Tendsto (fun t => a.amp (eig N) ⟨L0, L1, L2, L3, L4⟩ (a.M k) t l) atTop (𝓝 0) := fun k l => by
    have hM : a.M k / a.H ≠ 0 := div_ne_zero (M_pos a k).ne' hH
    have i0 : Tendsto (fun t => evolve (eig N) (a.E0 (eig N) (a.M k) t) (a.X0 (a.M k)) l) atTop (𝓝 0) :=
      tendsto_evolve _ _ _ (fun p => by
        refine tendsto_expm ?_
        have : 0 < a.M k ^ 2 / a.H ^ 2 := by rw [← div_pow]; positivity
        exact mul_neg_of_pos_of_neg this (he p)) l
    have := ((((i0.add (tendsto_loadMode a (eig N) a.csigF igralF L0 _ hM he r0 l)).add (tendsto_loadMode a (eig N) a.csig1 a.igralTop L1 _ hM he r1 l)).add
      (tendsto_loadMode a (eig N) a.csig2 a.igralTop L2 _ hM he r2 l)).add (tendsto_loadMode a (eig N) a.csig3 a.igralBot L3 _ hM he r3 l)).add
      (tendsto_loadMode a (eig N) a.csig4 a.igralBot L4 _ hM he r4 l)
    simp only [add_zero] at this
    exact this
  have hu : ∀ l (x y : ℝ), Tendsto (lval (tops ⟨L0, L1, L2, L3, L4⟩ l)) atTop (𝓝 x) → Tendsto (lval (bots ⟨L0, L1, L2, L3, L4⟩ l)) atTop (𝓝 y) →
      Tendsto (fun t => a.u (eig N) ⟨L0, L1, L2, L3, L4⟩ z t l) atTop (𝓝 (x + a.slope x y * z)) := fun l x y hx hy => by
    simp_rw [u_eq]
    have hs : Tendsto (fun t => ∑ k ∈ Finset.range a.nterms, a.amp (eig N) ⟨L0, L1, L2, L3, L4⟩ (a.M k) t l * sin (a.M k * z / a.H)) atTop
        (𝓝 (∑ k ∈ Finset.range a.nterms, 0 * sin (a.M k * z / a.H))) := tendsto_finsetSum _ fun k _ => (hamp k l).mul_const _
    simp only [zero_mul, Finset.sum_const_zero] at hs
    have hsl : Tendsto (fun t => a.slope (lval (tops ⟨L0, L1, L2, L3, L4⟩ l) t) (lval (bots ⟨L0, L1, L2, L3, L4⟩ l) t)) atTop (𝓝 (a.slope x y)) := by
      unfold slope
      split_ifs
      · exact (hy.sub hx).div_const _
      · exact hy
    simpa using (hx.add (hsl.mul_const z)).add hs
  refine ⟨fun t => a.u (eig N) ⟨L0, L1, L2, L3, L4⟩ z t 0, fun t => a.u (eig N) ⟨L0, L1, L2, L3, L4⟩ z t 1, fun t => ?_, fun h => ?_, fun h => ?_⟩
  · rw [call_eq eig a hL hH hd (ne_of_lt hC) (by rw [hN']; exact hr.1)]
    simp only [hN', List.map_cons, List.map_nil]
  · have e1 := hu 0 w1 w2 v1 v3
    have e2 := hu 1 a1 a2 v2 v4
    unfold slope at e1 e2
    rw [if_pos h] at e1 e2
    constructor
    · convert e1 using 2; ring
    · convert e2 using 2; ring
  · have e1 := hu 0 w1 w2 v1 v3
    have e2 := hu 1 a1 a2 v2 v4
    unfold slope at e1 e2
    rw [if_neg (by omega)] at e1 e2
    exact ⟨e1, e2⟩

/-- The closed forms of lines 253-255 and 275-279 (computed but not used; "just to demonstrate that it is possible
to do the eigenvalues and eigenvectors analytically"), shanetal2012.py:253-255, 275-279. -/
noncomputable def analyticEig (a : ShanArgs) : EigRes :=
  let a1 := √(a.Cva ^ 2 - 2 * a.Cva * a.Cvw + a.Cvw ^ 2 + 4 * a.Ca * a.Cw * a.Cva * a.Cvw)
  let r1 := 0.5 * (a.Cva + a.Cvw - a1) / (1 - a.Ca * a.Cw)
  let r2 := 0.5 * (a.Cva + a.Cvw + a1) / (1 - a.Ca * a.Cw)
  ⟨![r1, r2], !![r1 - a.Nmat 1 1, r2 - a.Nmat 1 1; a.Nmat 1 0, a.Nmat 1 0]⟩

/-- **C151**: the closed forms are the eigenvalues and eigenvectors, if the coupling is positive (`Ca Cw > 0`, as
for the documented soil parameters) and not 1 and the diffusivities have the same sign; so the routine the other claims rely on exists. -/
theorem C151_analytic (a : ShanArgs) (hK : 0 < a.Cvw * a.Cva) (hpos : 0 < a.Cw * a.Ca) (hC : a.Cw * a.Ca ≠ 1) :
    IsEig (!![1, a.Cw; a.Ca, 1]⁻¹ * !![a.Cvw, 0; 0, a.Cva]) a.analyticEig.eigs a.analyticEig.v := by
  have hd : (!![1, a.Cw; a.Ca, 1] : Mat2).det = 1 - a.Cw * a.Ca := by simp [Matrix.det_fin_two]
  have hne : 1 - a.Cw * a.Ca ≠ 0 := fun h => hC (by linarith)
  have hne' : 1 - a.Ca * a.Cw ≠ 0 := by rw [mul_comm]; exact hne
  have hinv : (!![1, a.Cw; a.Ca, 1] : Mat2)⁻¹ = (1 - a.Ca * a.Cw)⁻¹ • !![1, -a.Cw; -a.Ca, 1] := by
    rw [Matrix.inv_def, hd, Matrix.adjugate_fin_two, mul_comm a.Cw]
    simp
  have hNN : a.Nmat = (1 - a.Ca * a.Cw)⁻¹ • !![a.Cvw, -a.Cw * a.Cva; -a.Ca * a.Cvw, a.Cva] := by
    unfold Nmat Cmat Kmat
    rw [hinv, Matrix.smul_mul]
    congr 1
    ext i j
    fin_cases i <;> fin_cases j <;> simp [Matrix.mul_apply, Fin.sum_univ_two]
  have hdisc : 0 < a.Cva ^ 2 - 2 * a.Cva * a.Cvw + a.Cvw ^ 2 + 4 * a.Ca * a.Cw * a.Cva * a.Cvw := by
    have := mul_pos hpos hK
    nlinarith [sq_nonneg (a.Cva - a.Cvw)]
  change IsEig a.Nmat _ _
  have hsq := Real.sq_sqrt hdisc.le
  have hs := Real.sqrt_pos.2 hdisc
  unfold analyticEig
  simp only [hNN]
  generalize √(a.Cva ^ 2 - 2 * a.Cva * a.Cvw + a.Cvw ^ 2 + 4 * a.Ca * a.Cw * a.Cva * a.Cvw) = s at *
  have hCa : a.Ca ≠ 0 := fun h => by rw [h] at hpos; simp at hpos
  have hCv : a.Cvw ≠ 0 := fun h => by rw [h] at hK; simp at hK
  constructor
  · simp only [Matrix.det_fin_two, Matrix.of_apply, Matrix.cons_val', Matrix.cons_val_zero, Matrix.cons_val_one, Matrix.smul_apply,
      Matrix.cons_val_fin_one, smul_eq_mul]
    have e : (0.5 * (a.Cva + a.Cvw - s) / (1 - a.Ca * a.Cw) - (1 - a.Ca * a.Cw)⁻¹ * a.Cva) * ((1 - a.Ca * a.Cw)⁻¹ * (-a.Ca * a.Cvw)) -
        (0.5 * (a.Cva + a.Cvw + s) / (1 - a.Ca * a.Cw) - (1 - a.Ca * a.Cw)⁻¹ * a.Cva) * ((1 - a.Ca * a.Cw)⁻¹ * (-a.Ca * a.Cvw)) =
        s * a.Ca * a.Cvw / (1 - a.Ca * a.Cw) ^ 2 := by
      field_simp; ring
    rw [e]
    exact div_ne_zero (mul_ne_zero (mul_ne_zero hs.ne' hCa) hCv) (pow_ne_zero 2 hne')
  · ext i j
    fin_cases i <;> fin_cases j <;> simp [Matrix.mul_apply, Fin.sum_univ_two, Matrix.diagonal] <;> field_simp
    all_goals (try simp only [show (0.5:ℝ) = 1 / 2 by norm_num])
    all_goals first | linear_combination (-1/4) * hsq | ring

end ShanArgs
end Geotecha.Consol
