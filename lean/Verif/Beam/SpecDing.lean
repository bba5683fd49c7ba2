import Verif.Beam.SpecClaims
import Verif.Beam.DingOut

/-!
# Claims C181, C182: output of `SpecBeam`, and agreement with `DingEtAl2012` for a uniform beam
-/
set_option autoImplicit false
set_option linter.unusedVariables false

namespace Geotecha.Beam

open Real Geotecha.Speccon Geotecha.Piecewise Geotecha.Spec

/-! ## C181 -/

/-- **C181.** `wofx` after a run: with `normalise_w=False` the physical deflection at the requested physical positions and
times, with `normalise_w=True` the deflection over `L`; raw and normalised positions mean the same place. -/
theorem C181_wofx (P : SPhys) (s : SBeam) (hL : s.L = some P.L) (y : ℝ → ℕ → ℝ) (ts xs : List ℝ) (hx : xs.length ≠ 1) :
    let qs := ts.map fun t => y (tNorm P.E P.rho P.L t)
    let raw := xs.map fun x => ts.map fun t => P.defl s.n y x t
    s.wofx qs (some xs) none false = .ok (.grid raw) ∧
    s.wofx qs (some xs) none true = .ok (.grid (raw.map fun r => r.map (· / P.L))) ∧
    ∀ b x, s.wofx qs x (some (xs.map (· / P.L))) b = s.wofx qs (some xs) none b := by
  intro qs raw
  have h0 := P.hL.ne'
  have e : ∀ x t, ∑ k ∈ Finset.range s.n, y (tNorm P.E P.rho P.L t) k * phiSS (x / P.L) (s.beta.getD k 0) = P.defl s.n y x t / P.L := fun x t => by
    rw [eq_div_iff h0, mul_comm]
    unfold SPhys.defl Spec.shape
    congr 1
    refine Finset.sum_congr rfl fun k hk => ?_
    rw [beta_getD s (Finset.mem_range.1 hk), mode_div P.hL]; rfl
  have sp : ∀ v : List (List ℝ), v.length ≠ 1 → (match v with | [r] => (Except.ok (Table.row r) : Except PyErr Table) | _ => .ok (.grid v)) = .ok (.grid v) := by
    intro v hv
    match v, hv with
    | [], _ => rfl
    | [_], h => exact absurd rfl h
    | _ :: _ :: _, _ => rfl
  refine ⟨?_, ?_, fun b x => ?_⟩
  · simp only [SBeam.wofx, Bind.bind, Except.bind, hL]
    refine (sp _ (by simpa using hx)).trans ?_
    congr 2
    simp only [raw, qs, List.map_map]
    refine List.map_congr_left fun x _ => ?_
    simp only [Function.comp_apply, List.map_map]
    refine List.map_congr_left fun t _ => ?_
    simp only [Function.comp_apply, e]
    field_simp
  · simp only [SBeam.wofx, Bind.bind, Except.bind, hL]
    refine (sp _ (by simpa using hx)).trans ?_
    congr 2
    simp only [raw, qs, List.map_map]
    refine List.map_congr_left fun x _ => ?_
    simp only [Function.comp_apply, List.map_map]
    refine List.map_congr_left fun t _ => ?_
    simp only [Function.comp_apply, e]
  · simp only [SBeam.wofx, Bind.bind, Except.bind, hL]

/-- **C181.** For a single position the result is one row, the history of the deflection there. -/
theorem C181_wofx_single (P : SPhys) (s : SBeam) (hL : s.L = some P.L) (y : ℝ → ℕ → ℝ) (ts : List ℝ) (x : ℝ) :
    s.wofx (ts.map fun t => y (tNorm P.E P.rho P.L t)) (some [x]) none false = .ok (.row (ts.map fun t => P.defl s.n y x t)) ∧
    s.wofx (ts.map fun t => y (tNorm P.E P.rho P.L t)) (some [x]) none true = .ok (.row (ts.map fun t => P.defl s.n y x t / P.L)) := by
  have h0 := P.hL.ne'
  have e : ∀ t, ∑ k ∈ Finset.range s.n, y (tNorm P.E P.rho P.L t) k * phiSS (x / P.L) (s.beta.getD k 0) = P.defl s.n y x t / P.L := fun t => by
    rw [eq_div_iff h0, mul_comm]
    unfold SPhys.defl Spec.shape
    congr 1
    refine Finset.sum_congr rfl fun k hk => ?_
    rw [beta_getD s (Finset.mem_range.1 hk), mode_div P.hL]; rfl
  constructor
  · simp only [SBeam.wofx, Bind.bind, Except.bind, hL, List.map_cons, List.map_nil, List.map_map, Function.comp_def, e, div_mul_cancel₀ _ h0]
  · simp only [SBeam.wofx, Bind.bind, Except.bind, hL, List.map_cons, List.map_nil, List.map_map, Function.comp_def, e]

/-! ## C182 -/

/-- The default of every profile, `PolyLine([0],[1],[1],[1])` (specbeam.py:366-373). -/
def unitLine : PolyLine ℝ := ⟨none, false, false, some ⟨[0], [1], [1], [1]⟩⟩

/-- The default profiles (specbeam.py:366-373). -/
def unitBars : Bars := ⟨unitLine, unitLine, unitLine, unitLine, unitLine, unitLine, unitLine⟩

theorem unitLine_is : PolyLine.ofSegs (⟨[0], [1], [1], [1]⟩ : Segs4 ℝ) = .ok unitLine := rfl

theorem unit_polyLeft (z : ℝ) : polyLeft [(0, 1), (1, 1)] z = (1 : ℝ) := by
  unfold polyLeft
  split_ifs <;> simp [line, polyLeft]

theorem unit_xy : unitLine.getXY.1 = .ok [(0, 1), (1, 1)] := by
  have hc : Contiguous (K := ℝ) [((0, 1), (1, 1))] := by
    refine ⟨by simp, fun s hs => ?_⟩
    simp only [List.mem_singleton] at hs
    subst hs
    norm_num
  unfold PolyLine.getXY unitLine
  have := convertToXY_eq (L := [(((0:ℝ), (1:ℝ)), ((1:ℝ), (1:ℝ)))]) (by simp) (segs4_check hc)
  simp only [toSegs4, List.map_cons, List.map_nil] at this
  simp only [this]
  rfl

theorem unit_profile : Profile {0, 1} unitLine fun _ => 1 := by
  refine ⟨[(0, 1), (1, 1)], unit_xy, ?_, by simp [SortedLe], ⟨by simp, rfl, rfl⟩, by simp, ?_, fun z _ _ _ => (unit_polyLeft z).symm⟩
  · simp only [PolyLine.getSegs, unitLine, pieces, toSegs4]
    simp
  · intro q hq
    simp only [List.mem_cons, List.not_mem_nil, or_false] at hq
    rcases hq with rfl | rfl <;> simp [RealStep, firstAt, lastAt]

theorem unit_curves : Spec.Curves unitBars {0, 1} (fun _ => 1) (fun _ => 1) (fun _ => 1) (fun _ => 1) (fun _ => 1) (fun _ => 1) := by
  refine ⟨?_, unit_profile, unit_profile, unit_profile, unit_profile, unit_profile, unit_profile⟩
  intro a ha b hb hab
  rcases ha with rfl | rfl <;> rcases hb with rfl | rfl <;> first | exact absurd rfl hab | norm_num

theorem gal_one (i j : ℕ) : gal (fun _ => 1) i j = if i = j then 1 / 2 else 0 := by
  have := (orthogonal (d := 0) (Or.inl rfl) i j).1
  rw [← this]
  unfold gal freq
  congr 1
  funext z
  push_cast
  rw [one_mul]
  congr 3 <;> ring

theorem gal_one' (i j : ℕ) : gal (fun _ => 1 * 1) i j = if i = j then 1 / 2 else 0 := by
  simp only [one_mul]; exact gal_one i j

theorem solveN_half {n : ℕ} {A : ℕ → ℕ → ℝ} (hA : ∀ i j, i < n → j < n → A i j = if i = j then 1 / 2 else 0) (r : ℕ → ℝ) :
    ∃ a, solveN n A r = .ok a ∧ ∀ i < n, a i = 2 * r i := by
  have hb : blk n A = Matrix.diagonal fun _ => (1 / 2 : ℝ) := by
    ext i j
    rw [blk, hA i j i.2 j.2, Matrix.diagonal_apply]
    simp only [Fin.ext_iff]
  have hd : (blk n A).det ≠ 0 := by
    rw [hb, Matrix.det_diagonal]
    exact Finset.prod_ne_zero_iff.2 fun _ _ => by norm_num
  have hs : solveN n A r = .ok (fun i => if h : i < n then ((blk n A)⁻¹.mulVec fun j : Fin n => r j) ⟨i, h⟩ else 0) := by
    unfold solveN; rw [if_neg hd]
  refine ⟨_, hs, fun i hi => ?_⟩
  have := solveN_ok hs hi
  unfold dotV at this
  rw [Finset.sum_eq_single i (fun k hk hne => by rw [hA i k hi (Finset.mem_range.1 hk), if_neg (Ne.symm hne), zero_mul])
    (fun h => absurd (Finset.mem_range.2 hi) h), hA i i hi hi, if_pos rfl] at this
  linarith

theorem dotV_diag {n : ℕ} {A : ℕ → ℕ → ℝ} {d q : ℕ → ℝ} (h : ∀ i j, i < n → j < n → A i j = if i = j then d i else 0) {i : ℕ} (hi : i < n) :
    dotV n A q i = d i * q i := by
  unfold dotV
  rw [Finset.sum_eq_single i (fun k hk hne => by rw [h i k hi (Finset.mem_range.1 hk), if_neg (Ne.symm hne), zero_mul])
    (fun h => absurd (Finset.mem_range.2 hi) h), h i i hi hi, if_pos rfl]

/-- The same beam for `SpecBeam`. -/
def Phys.spec (P : Phys) : SPhys := ⟨P.E, P.I, P.rho, P.A, P.L, P.k1, P.k3, P.mu, P.hE, P.hI, P.hrho, P.hA, P.hL⟩

/-- One axle `F` at speed `v`: `moving_loads_x=[[0]], moving_loads_Fz=[[F]], moving_loads_v=[v]`. -/
def Phys.load (P : Phys) : MArgs :=
  ⟨some [[0]], some [[P.F]], some [P.v], none, none, none, none, none, none, none, none, none, none, none⟩

theorem load_describes (P : Phys) : Spec.Moving P.spec.L P.load [⟨[(0, P.F)], 0, P.v, P.L, 0, 0⟩] :=
  Or.inl ⟨rfl, rfl, rfl, Or.inr ⟨rfl, by simp⟩, Or.inr ⟨rfl, by simp⟩, Or.inr ⟨rfl, by simp⟩, Or.inr ⟨rfl, by simp [Phys.spec]⟩,
    rfl, rfl, rfl, rfl, rfl, rfl, rfl⟩

/-- No stationary loads. -/
def noStill : StArgs := ⟨none, none, none, none, none, none⟩

theorem still_none : Spec.Still noStill [] := Or.inr ⟨rfl, rfl, rfl, rfl, rfl, rfl⟩

/-- **C182.** A uniform beam (default profiles) under one force moving right: while the force is on the beam,
the vector field of `SpecBeam` is that of `DingEtAl2012` made from the same physical values, entry by entry, for every
state.  (Afterwards `SpecBeam` drops the force and `DingEtAl2012` does not, claim C171.) -/
theorem C182_agrees_with_ding (P : Phys) (hv : 0 < P.v) (n nq : ℕ) (hq : nq ≠ 1) (impl : Impl) (rt : ℕ → ℝ) :
    ∃ s M c R, SBeam.init n (P.spec.args (some nq)) P.load noStill unitBars impl = .ok s ∧ s.matrices = .ok M ∧
      norm P.args = .ok c ∧ mkRule .ss (some nq) = .ok R ∧
      ∀ (y : ℕ → ℝ) (t : ℝ), 0 ≤ P.v * t → P.v * t ≤ P.L → ∃ d, s.field M y (tNorm P.E P.rho P.L t) = .ok d ∧
        ∀ i < 2 * n, vectorfield .ss c (beta .ss rt) n R y (tNorm P.E P.rho P.L t) i = .ok (some (d i)) := by
  obtain ⟨w, hR, _⟩ := C167_ding_quadrature_exact nq hq
  have hc := norm_phys P
  obtain ⟨c1, c2, c3, c4⟩ := coef_ok P.spec (some nq)
  have hveh : vehicles (P.spec.args (some nq)) P.load = .ok ([⟨[(0, P.F)], 0, P.v, P.L, 0, 0⟩].map P.spec.scale) := by
    rcases load_describes P with h | h
    · exact vehicles_raw _ _ h
    · exact absurd h.1 (by simp)
  have hg : (P.spec.args (some nq)).gate = .ok () := by
    unfold SArgs.gate; rw [if_neg]; simp [SPhys.args]
  have hst : stationary (P.spec.args (some nq)) noStill = .ok ⟨[], [], []⟩ := rfl
  set s : SBeam := ⟨n, some P.L, 1 / P.L * √(P.I / P.A), P.mu / P.A * √(P.L ^ 2 / (P.rho * P.E)), P.k1 * P.L ^ 2 / (P.E * P.A),
    P.k3 * P.L ^ 4 / (P.E * P.A), [⟨[(0, P.F)], 0, P.v, P.L, 0, 0⟩].map P.spec.scale, ⟨[], [], []⟩, .rule nq (nodesSS nq) w, unitBars, impl⟩ with hs
  have hinit : SBeam.init n (P.spec.args (some nq)) P.load noStill unitBars impl = .ok s := by
    unfold SBeam.init
    simp only [hg, c1, c2, c3, c4, hveh, hst, Bind.bind, Except.bind]
    rw [if_pos (by rfl), show (P.spec.args (some nq)).nquad = some nq from rfl, hR]
    rfl
  obtain ⟨lam, psiq, psiqd, hM, l1, l2, l3⟩ := matrices_ok s unit_curves (m := nq) (xj := nodesSS nq) (Ij := w) rfl unit_xy
  refine ⟨s, _, _, _, hinit, hM, hc, hR, fun y t h0 h1 => ?_⟩
  have hsn : s.n = n := rfl
  rw [hsn] at l1 l2 l3
  simp only [gal_one, gal_one'] at l1 l2 l3
  have hstill : (List.range s.n).mapM (fun i => s.still (s.beta.getD i 0) (tNorm P.E P.rho P.L t)) = .ok ((List.range n).map fun _ => 0) :=
    mapM_all_ok (fun i => rfl) _
  set M : SMats := ⟨lam, psiq, psiqd, nq, nodesSS nq, w, fun j => polyLeft [(0, 1), (1, 1)] (nodesSS nq j)⟩ with hMd
  obtain ⟨a, ha, ha'⟩ := solveN_half l1 fun i => s.rhsR M y (fun k => y (s.n + k)) (tNorm P.E P.rho P.L t)
    (((List.range n).map fun _ => (0:ℝ)).getD i 0) i
  refine ⟨fun i => if i < n then y (n + i) else a (i - n), ?_, fun i hi => ?_⟩
  · unfold SBeam.field
    simp only [hstill, Bind.bind, Except.bind]
    rw [hsn] at *
    rw [show M.lam = lam from rfl, ha]
    rfl
  · unfold vectorfield
    by_cases hin : i < n
    · rw [if_pos hin]; simp only [if_pos hin]
    · rw [if_neg hin]
      simp only [if_neg hin, acc, phiNan, and_false, exists_const, or_self, if_false]
      congr 2
      obtain ⟨k, rfl⟩ : ∃ k, i = n + k := ⟨i - n, by omega⟩
      rw [Nat.add_sub_cancel_left]
      have hk : k < n := by omega
      rw [ha' k hk]
      have hz : ((List.range n).map fun _ => (0:ℝ)).getD k 0 = 0 := by simp [hk]
      rw [hz]
      unfold SBeam.rhsR accR
      have d1 : dotV s.n M.psiq y k = (-s.kf ^ 2 * ((π * ((k : ℝ) + 1)) ^ 2 * (π * ((k : ℝ) + 1)) ^ 2 * (1 / 2)) - s.k1 * (1 / 2)) * y k := by
        refine dotV_diag (d := fun k => -s.kf ^ 2 * ((π * ((k : ℝ) + 1)) ^ 2 * (π * ((k : ℝ) + 1)) ^ 2 * (1 / 2)) - s.k1 * (1 / 2)) (fun i j hi hj => ?_) hk
        rw [show M.psiq = psiq from rfl, l2 i j hi hj]
        by_cases hij : i = j
        · subst hij; simp
        · simp [hij]
      have d2 : dotV s.n M.psiqd (fun k => y (s.n + k)) k = (-s.mu * (1 / 2)) * y (s.n + k) := by
        refine dotV_diag (d := fun k => -s.mu * (1 / 2)) (fun i j hi hj => ?_) hk
        rw [show M.psiqd = psiqd from rfl, l3 i j hi hj]
        by_cases hij : i = j
        · subst hij; simp
        · simp [hij]
      have hm := moving_ok (P := P.spec) (s := s) (vs := [⟨[(0, P.F)], 0, P.v, P.L, 0, 0⟩]) rfl (by simp [hv.ne']) hk t
      rw [List.map_singleton, C174_point_loads_partial _ hv.ne' rfl (fun _ => rfl)] at hm
      have hpos : Spec.axleAt ⟨[(0, P.F)], 0, P.v, P.L, 0, 0⟩ (0, P.F) t = P.v * t := by
        unfold Spec.axleAt; rw [if_pos hv]; ring
      have hon : Spec.OnBeam ⟨[(0, P.F)], 0, P.v, P.L, 0, 0⟩ (0, P.F) t := by
        unfold Spec.OnBeam; rw [hpos]; exact ⟨h0, by simpa using h1⟩
      simp only [List.map_cons, List.map_nil, List.sum_cons, List.sum_nil, add_zero] at hm
      rw [if_pos hon, hpos] at hm
      have hE := P.hE
      have hr := P.hrho
      have hA := P.hA
      have hL := P.hL
      have s2 := (sqrt_facts P).2.1
      have load : phi .ss (P.v * √(P.rho / P.E) * tNorm P.E P.rho P.L t) (beta .ss rt k) = Spec.mode P.L k (P.v * t) := by
        rw [phi_ss P.L hL]
        congr 1
        unfold tNorm
        calc P.L * (P.v * √(P.rho / P.E) * (t / P.L * √(P.E / P.rho)))
            = P.v * t * (√(P.rho / P.E) * √(P.E / P.rho)) := by field_simp
          _ = _ := by rw [s2, mul_one]
      have hm' : s.moving (s.beta.getD k 0) (tNorm P.E P.rho P.L t) = P.F / (P.E * P.A) * Spec.mode P.L k (P.v * t) := by
        have : P.E * P.A * s.moving (s.beta.getD k 0) (tNorm P.E P.rho P.L t) = P.F * Spec.mode P.L k (P.v * t) := hm
        field_simp
        linarith
      have hcub : M.cubic s.n (fun k => s.beta.getD k 0) y (s.beta.getD k 0) =
          ∑ j, w j * wN .ss (beta .ss rt) n y (nodesSS nq j) ^ 3 * phi .ss (nodesSS nq j) (beta .ss rt k) := by
        unfold SMats.cubic
        refine Finset.sum_congr rfl fun j _ => ?_
        simp only [M, unit_polyLeft, mul_one]
        unfold wN
        congr 2
        · congr 1
          refine Finset.sum_congr rfl fun l hl => ?_
          rw [beta_getD s (Finset.mem_range.1 hl)]; rfl
        · rw [beta_getD s hk]; rfl
      rw [d1, d2, hm', hcub, load]
      simp only [bcCoeff, sbCoeff, beta]
      simp only [s]
      ring

end Geotecha.Beam
