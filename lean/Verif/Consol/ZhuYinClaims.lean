import Verif.Consol.ZhuYinProps

/-! # C141-C145: zhuandyin2012 -/

set_option linter.unusedVariables false
set_option autoImplicit false
open Real Finset MeasureTheory
namespace Geotecha.Consol
open Geotecha (PyErr)
namespace ZY

variable {o : ZY} {B : BesselFns}

/-- **C141**: `Z 0, Z 1, ...` are modes of the soil, slowest first.  The pore pressures returned are `ui` times those of a solution `v` of the
consolidation equation of the soil that starts at `S`, the best approximation of 1 by these modes (what is missing is orthogonal to each of
them). -/
theorem C141_solution_partial (o : ZY) (h : o.Valid) (B : BesselFns) (hB : Spec.IsBessel B.J B.Y o.nu) (solve : ℝ → ℝ → ℝ → ℝ)
    (hs : o.SolverOk B solve) (hc : o.drn = 0 → o.Clear) (r : Output) (hE : o.Ends B solve (.ok r)) :
    ∃ (lam : ℕ → ℝ) (Z Zd : ℕ → ℝ → ℝ) (c : ℕ → ℝ) (S : ℝ → ℝ) (v : ℝ → ℝ → ℝ),
      (∀ m < o.nterms, 0 < lam m ∧ o.soil.Mode (lam m) (Z m) (Zd m) ∧ 0 < o.soil.total (fun z => Z m z ^ 2) ∧ ∀ j < m, lam j < lam m) ∧
      (∀ z, S z = ∑ m ∈ range o.nterms, c m * Z m z) ∧ (∀ j < o.nterms, o.soil.total (fun z => (1 - S z) * Z j z) = 0) ∧
      o.soil.Solves S v ∧ r.por = o.z.map fun z => (o.tpor.getD o.t).map fun t => o.ui * v z t := by
  obtain ⟨rs, R⟩ := unpack h hs hE
  refine ⟨fun m => o.rate (et rs m), fun m => o.w B (et rs m), fun m => o.wd B (et rs m),
    fun m => o.soil.total (o.w B (et rs m)) / o.soil.total (fun z => o.w B (et rs m) z ^ 2), o.soil.proj rs.length fun m => o.w B (et rs m),
    o.vsol B rs, fun m hm => ?_, fun z => ?_, fun j hj => ?_, v_solves h hB R, por_eq h hB hc R⟩
  · rw [← R.len] at hm
    exact ⟨rate_pos h (et_pos h hB R hm) hB, et_mode h hB R hm, total_w2_pos h (et_pos h hB R hm) hB, fun j hj => rates_lt h hB R hj hm⟩
  · rw [R.len]; rfl
  · rw [← R.len] at hj
    exact Spec.Vary.proj_orth (V := o.soil) h.H (cont_mv h hB R) (fun m hm => et_mode h hB R hm) (rates_ne h hB R)
      (fun m hm => total_w2_pos h (et_pos h hB R hm) hB) hj

/-- **C142**: the settlement is the compression of the soil under the stress that the pore water no longer carries, with the pore pressures of
C141; the degree of consolidation is its share of the final one. -/
theorem C142_settlement (o : ZY) (h : o.Valid) (B : BesselFns) (hB : Spec.IsBessel B.J B.Y o.nu) (solve : ℝ → ℝ → ℝ → ℝ)
    (hs : o.SolverOk B solve) (hc : o.drn = 0 → o.Clear) (r : Output) (hE : o.Ends B solve (.ok r)) :
    ∃ (S : ℝ → ℝ) (v : ℝ → ℝ → ℝ), o.soil.Solves S v ∧ (r.por = o.z.map fun z => (o.tpor.getD o.t).map fun t => o.ui * v z t) ∧
      (r.settle = o.t.map fun t => o.soil.total fun z => o.ui - o.ui * v z t) ∧
      0 < o.soil.total (fun _ => 1) ∧
      r.doc = o.t.map fun t => o.soil.total (fun z => 1 - v z t) / o.soil.total fun _ => 1 := by
  obtain ⟨rs, R⟩ := unpack h hs hE
  exact ⟨_, _, v_solves h hB R, por_eq h hB hc R, settle_eq h hB hc R, total_one_pos h hB R, doc_eq h hB hc R⟩

theorem doc_core (h : o.Valid) (hB : Spec.IsBessel B.J B.Y o.nu) {r : Output} {rs : List ℝ} (R : Run o B r rs) {c : ℝ}
    (hb : c + ∑ m ∈ range rs.length, share o.soil (o.w B (et rs m)) ≤ o.soil.total fun _ => 1) :
    ∀ t, 0 ≤ t → c / (o.soil.total fun _ => 1) ≤ o.soil.total (fun z => 1 - o.vsol B rs z t) / o.soil.total (fun _ => 1) ∧
      o.soil.total (fun z => 1 - o.vsol B rs z t) / o.soil.total (fun _ => 1) ≤ 1 ∧ ∀ t', t ≤ t' →
      o.soil.total (fun z => 1 - o.vsol B rs z t) / o.soil.total (fun _ => 1) ≤ o.soil.total (fun z => 1 - o.vsol B rs z t') / o.soil.total (fun _ => 1) := by
  intro t ht
  have h1 := total_one_pos h hB R
  have hsh : ∀ m ∈ range rs.length, 0 ≤ share o.soil (o.w B (et rs m)) := fun m hm =>
    div_nonneg (sq_nonneg _) (total_w2_pos h (et_pos h hB R (mem_range.1 hm)) hB).le
  have hrt : ∀ m ∈ range rs.length, 0 < o.rate (et rs m) := fun m hm => rate_pos h (et_pos h hB R (mem_range.1 hm)) hB
  refine ⟨?_, ?_, fun t' ht' => ?_⟩
  · rw [div_le_div_iff_of_pos_right h1, total_v h hB R]
    have : ∑ m ∈ range rs.length, share o.soil (o.w B (et rs m)) * exp (-(o.rate (et rs m) * t)) ≤
        ∑ m ∈ range rs.length, share o.soil (o.w B (et rs m)) := sum_le_sum fun m hm => by
      refine mul_le_of_le_one_right (hsh m hm) (exp_le_one_iff.2 ?_)
      have := mul_nonneg (hrt m hm).le ht
      linarith
    linarith
  · rw [div_le_one h1, total_v h hB R]
    have : 0 ≤ ∑ m ∈ range rs.length, share o.soil (o.w B (et rs m)) * exp (-(o.rate (et rs m) * t)) :=
      sum_nonneg fun m hm => mul_nonneg (hsh m hm) (exp_pos _).le
    linarith
  · rw [div_le_div_iff_of_pos_right h1, total_v h hB R, total_v h hB R]
    refine sub_le_sub_left (sum_le_sum fun m hm => ?_) _
    refine mul_le_mul_of_nonneg_left (exp_le_exp.2 ?_) (hsh m hm)
    have := mul_le_mul_of_nonneg_left ht' (hrt m hm).le
    linarith

/-- **C143**: from time 0 on the degree of consolidation is between 0 and 1 and never decreases, whatever the number of terms. -/
theorem C143_degree (o : ZY) (h : o.Valid) (B : BesselFns) (hB : Spec.IsBessel B.J B.Y o.nu) (solve : ℝ → ℝ → ℝ → ℝ)
    (hs : o.SolverOk B solve) (hc : o.drn = 0 → o.Clear) (r : Output) (hE : o.Ends B solve (.ok r)) :
    ∃ U : ℝ → ℝ, r.doc = o.t.map U ∧ ∀ t, 0 ≤ t → 0 ≤ U t ∧ U t ≤ 1 ∧ ∀ t', t ≤ t' → U t ≤ U t' := by
  obtain ⟨rs, R⟩ := unpack h hs hE
  refine ⟨_, doc_eq h hB hc R, fun t ht => ?_⟩
  have hb := Spec.Vary.bessel (V := o.soil) h.H (cont_mv h hB R) (fun m hm => et_mode h hB R hm) (rates_ne h hB R)
      (fun m hm => total_w2_pos h (et_pos h hB R hm) hB) (fun z g0 g1 => (mul_pos h.mv0 (rpow_pos_of_pos (x_pos h g0 g1) _)).le)
  have := doc_core h hB R (c := 0) (by rw [zero_add]; exact hb) t ht
  rw [zero_div] at this
  exact this

/-- **C144**: a mode that decays no faster than `cv0 (alpha (2 - n) / (2 H))^2 0.001^2` is never found: the search starts at 0.001.  Its share of
the settlement is counted as having happened at time 0. -/
theorem C144_missed (o : ZY) (h : o.Valid) (B : BesselFns) (hB : Spec.IsBessel B.J B.Y o.nu) (solve : ℝ → ℝ → ℝ → ℝ)
    (hs : o.SolverOk B solve) (hc : o.drn = 0 → o.Clear) (r : Output) (hE : o.Ends B solve (.ok r)) (lam : ℝ) (Y Yd : ℝ → ℝ)
    (hY : o.soil.Mode lam Y Yd) (hYp : 0 < o.soil.total fun z => Y z ^ 2)
    (hlam : lam ≤ o.kv0 / (o.mv0 * o.gamw) * ((2 - (o.p - o.q)) / 2 * o.alpha / o.H) ^ 2 * 0.001 ^ 2) :
    ∃ U : ℝ → ℝ, r.doc = o.t.map U ∧ ∀ t, 0 ≤ t → o.soil.total Y ^ 2 / (o.soil.total fun z => Y z ^ 2) / (o.soil.total fun _ => 1) ≤ U t := by
  obtain ⟨rs, R⟩ := unpack h hs hE
  refine ⟨_, doc_eq h hB hc R, fun t ht => ?_⟩
  have e : o.kv0 / (o.mv0 * o.gamw) * ((2 - (o.p - o.q)) / 2 * o.alpha / o.H) ^ 2 * 0.001 ^ 2 = o.rate 0.001 := by
    unfold rate s n; ring
  have hlt : ∀ m < rs.length, lam < o.rate (et rs m) := fun m hm =>
    (hlam.trans e.le).trans_lt (rate_lt h hB R (by norm_num) (R.start _ (et_mem hm)))
  have hb := Spec.Vary.bessel (V := o.soil) (n := rs.length + 1) (Z := fun m => if m = 0 then Y else o.w B (et rs (m - 1)))
    (Zd := fun m => if m = 0 then Yd else o.wd B (et rs (m - 1))) (lam := fun m => if m = 0 then lam else o.rate (et rs (m - 1)))
    h.H (cont_mv h hB R)
    (fun m hm => by
      by_cases h0 : m = 0
      · simp only [if_pos h0]; exact hY
      · simp only [if_neg h0]; exact et_mode h hB R (by omega))
    (fun m hm j hj hne => by
      by_cases h0 : m = 0
      · have hj0 : j ≠ 0 := by omega
        simp only [if_pos h0, if_neg hj0]
        exact (hlt _ (by omega)).ne
      · by_cases hj0 : j = 0
        · simp only [if_pos hj0, if_neg h0]
          exact (hlt _ (by omega)).ne'
        · simp only [if_neg h0, if_neg hj0]
          exact rates_ne h hB R _ (by omega) _ (by omega) (by omega))
    (fun m hm => by
      by_cases h0 : m = 0
      · simp only [if_pos h0]; exact hYp
      · simp only [if_neg h0]; exact total_w2_pos h (et_pos h hB R (by omega)) hB)
    (fun z g0 g1 => (mul_pos h.mv0 (rpow_pos_of_pos (x_pos h g0 g1) _)).le)
  rw [sum_range_succ'] at hb
  simp only [Nat.add_eq_zero_iff, one_ne_zero, and_false, if_false, Nat.add_sub_cancel, if_true] at hb
  exact (doc_core h hB R (c := share o.soil Y) (by unfold share; linarith) t ht).1

/-- **C145**: arguments that are refused.  `p - q = 2`: division by zero; `drn` neither 0 nor 1: the roots are never assigned; and the call never
returns when `nterms = 0`, or when `q = -1` (the settlement would need a logarithm), or when `mv0 * gamw = 0`. -/
theorem C145_refused (o : ZY) (B : BesselFns) (solve : ℝ → ℝ → ℝ → ℝ) (r : Except PyErr Output) (hE : o.Ends B solve r) :
    (o.p - o.q = 2 → r = .error .zeroDivision) ∧
    (o.p - o.q ≠ 2 → o.drn ≠ 0 → o.drn ≠ 1 → r = .error .unboundLocal) ∧
    (o.p - o.q ≠ 2 → (o.drn = 0 ∨ o.drn = 1) → o.nterms = 0 → r = .error .indexError) ∧
    (o.q = -1 ∨ o.alpha = 0 ∨ o.mv0 * o.gamw = 0 → ∃ e, r = .error e) := by
  unfold Ends at hE
  refine ⟨fun hn => ?_, fun hn h0 h1 => ?_, fun hn hd h0 => ?_, fun hq => ?_⟩
  · rw [if_pos (show 2 - o.n = 0 by unfold n; linarith)] at hE; exact hE
  · rw [if_neg (show ¬(2 - o.n = 0) by unfold n; intro g; apply hn; linarith)] at hE
    unfold charEqn at hE
    rw [if_neg h0, if_neg h1] at hE
    exact hE
  · rw [if_neg (show ¬(2 - o.n = 0) by unfold n; intro g; apply hn; linarith)] at hE
    cases hf : o.charEqn B with
    | none =>
      unfold charEqn at hf
      rcases hd with hd | hd
      · rw [if_pos hd] at hf; cases hf
      · rw [if_neg (by rw [hd]; norm_num), if_pos hd] at hf; cases hf
    | some f =>
    rw [hf] at hE
    dsimp only at hE
    have hst : Roots.step (o.rootArgs f solve) (Roots.start (o.rootArgs f solve)) = .inr (.returned []) := by
      unfold Roots.step
      rw [if_pos (by simp [rootArgs, h0, Roots.start])]
      rfl
    have key : ∀ k oc, Roots.run (o.rootArgs f solve) k (Roots.start (o.rootArgs f solve)) = .inr oc → oc = .returned [] := by
      intro k oc hk
      cases k with
      | zero => cases hk
      | succ k =>
        unfold Roots.run at hk
        rw [hst] at hk
        injection hk with hk
        exact hk.symm
    obtain ⟨e, ⟨k, hk⟩, _⟩ | ⟨rs, ⟨k, hk⟩, hout⟩ := hE
    · cases key k _ hk
    · have := key k _ hk
      injection this with this
      subst this
      exact hout
  · by_cases hn : 2 - o.n = 0
    · rw [if_pos hn] at hE; exact ⟨_, hE⟩
    rw [if_neg hn] at hE
    cases hf : o.charEqn B with
    | none => rw [hf] at hE; exact ⟨_, hE⟩
    | some f =>
    rw [hf] at hE
    dsimp only at hE
    obtain ⟨e, _, he⟩ | ⟨rs, _, hout⟩ := hE
    · exact ⟨e, he⟩
    unfold output at hout
    cases rs with
    | nil => exact ⟨_, hout⟩
    | cons eta0 tl =>
    dsimp only at hout
    by_cases hm : o.mv0 * o.gamw = 0
    · rw [if_pos hm] at hout; exact ⟨_, hout⟩
    rw [if_neg hm] at hout
    have hd : o.frDen = 0 := by
      unfold frDen
      rcases hq with hq | hq | hq
      · rw [hq]; simp
      · rw [hq]; simp
      · exact absurd hq hm
    rw [if_pos hd] at hout
    exact ⟨_, hout⟩

end ZY
end Geotecha.Consol
