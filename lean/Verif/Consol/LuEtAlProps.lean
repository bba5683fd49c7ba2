import Verif.Consol.Series
import Verif.Consol.LuEtAl
import Verif.Consol.SpecLu
import Verif.Smear.PropsTol
import Verif.Smear.PropsU

/-!
# Properties of geotecha/consolidation/luetal2010.py (C86, C87)
-/

open Real intervalIntegral Finset Filter Topology
namespace Geotecha.Consol
open Geotecha.Smear

/-- The permeability profile that the arguments describe. -/
noncomputable def LuArgs.profile (a : LuArgs) : ℝ → ℝ :=
  match a.ks, a.rs with
  | some ks, some rs => fun x => if x < rs / a.rc then a.kh / ks else 1
  | _, _ => fun _ => 1

/-- The composite foundation that the arguments describe. -/
noncomputable def LuArgs.composite (a : LuArgs) : Spec.Composite :=
  ⟨a.rc, a.re, a.H, a.kv, a.kvc, a.kh, a.khc, a.mvs, a.mvc, a.gamw, a.profile⟩

/-- Sensible arguments: positive sizes and properties, `rc < re`, the smear zone between column and outer radius, `kvc ≠ kv`. -/
structure LuArgs.Valid (a : LuArgs) : Prop where
  rc : 0 < a.rc
  re : a.rc < a.re
  H : 0 < a.H
  kv : 0 < a.kv
  kvc : 0 < a.kvc
  kh : 0 < a.kh
  khc : 0 < a.khc
  mvs : 0 < a.mvs
  mvc : 0 < a.mvc
  gamw : 0 < a.gamw
  smear : ∀ ks rs, a.ks = some ks → a.rs = some rs → 0 < ks ∧ a.rc ≤ rs ∧ rs ≤ a.re
  ne : a.kvc ≠ a.kv

variable {a : LuArgs}

theorem LuArgs.Valid.n_gt (h : a.Valid) : 1 < a.n := by unfold LuArgs.n; rw [one_lt_div h.rc]; exact h.re

theorem LuArgs.Valid.mu (h : a.Valid) : a.mu0 = .ok (muSpec (a.re / a.rc) a.profile) ∧ 0 < muSpec (a.re / a.rc) a.profile := by
  have hn : 1 < a.re / a.rc := h.n_gt
  have hid : muIdeal (a.re / a.rc) = .ok (muSpec (a.re / a.rc) fun _ => 1) ∧ 0 < muSpec (a.re / a.rc) fun _ => 1 :=
    ⟨(C69_ideal _).1 hn, mu_pos hn ⟨by simp, ∅, by simp, fun x _ => continuousAt_const⟩ 1 one_pos fun _ _ _ => le_rfl⟩
  unfold LuArgs.mu0 LuArgs.profile LuArgs.n
  cases hk : a.ks with
  | none => exact hid
  | some ks =>
    cases hr : a.rs with
    | none => exact hid
    | some rs =>
      obtain ⟨h1, h2, h3⟩ := h.smear ks rs hk hr
      have s1 : 1 ≤ rs / a.rc := by rw [one_le_div h.rc]; exact h2
      have s2 : rs / a.rc ≤ a.re / a.rc := div_le_div_of_nonneg_right h3 h.rc.le
      have hkap : 0 < a.kh / ks := div_pos h.kh h1
      refine ⟨C69_constant _ _ _ hn s1 s2 hkap, ?_⟩
      refine mu_pos hn (isProfile_constant (kap := a.kh / ks) s1 s2) (min (a.kh / ks) 1) (lt_min hkap one_pos) fun x _ _ => ?_
      show _ ≤ ite _ _ _
      split_ifs
      · exact min_le_left _ _
      · exact min_le_right _ _

/-- `kv`-free form of the resistance. -/
noncomputable def LuArgs.R (a : LuArgs) (mu : ℝ) : ℝ := a.re ^ 2 * mu / 2 / a.kh + a.rc ^ 2 * (a.n ^ 2 - 1) / 8 / a.khc

theorem bet_eq (h : a.Valid) {mu : ℝ} (hmu : 0 < mu) (m : ℕ) :
    a.bet mu m * (a.gamw * a.mvs * (a.R mu * ((a.n ^ 2 - 1) * a.kvc + a.kv) + a.n ^ 4 / (bigM m ^ 2 / a.H ^ 2))) =
      (a.n ^ 2 - 1 + a.Y) * (a.R mu * a.kv * a.kvc * (bigM m ^ 2 / a.H ^ 2) + (a.n ^ 2 - 1) * a.kv + a.kvc) := by
  obtain ⟨h1, h2, h3, h4, h5, h6, h7, h8, h9, h10, -, -⟩ := h
  have hn : 1 < a.n := by unfold LuArgs.n; rw [one_lt_div h1]; exact h2
  have hre : a.re = a.n * a.rc := by unfold LuArgs.n; field_simp
  have hM := bigM_pos m
  have hn2 : 0 < a.n ^ 2 - 1 := by nlinarith
  have hn0 : 0 < a.n := by linarith
  unfold LuArgs.bet LuArgs.R
  have e1 : a.betDenom mu m = a.gamw * (a.R mu * ((a.n ^ 2 - 1) * a.kvc + a.kv) + a.n ^ 4 / (bigM m ^ 2 / a.H ^ 2)) := by
    unfold LuArgs.betDenom LuArgs.R
    rw [hre]
    field_simp
  have e2 : a.betNumer mu m * a.mvs = (a.n ^ 2 - 1 + a.Y) * (a.R mu * a.kv * a.kvc * (bigM m ^ 2 / a.H ^ 2) + (a.n ^ 2 - 1) * a.kv + a.kvc) := by
    unfold LuArgs.betNumer LuArgs.R
    rw [hre]
    generalize a.Y = Y
    field_simp
    ring
  have hd : a.betDenom mu m ≠ 0 := by
    unfold LuArgs.betDenom; positivity
  unfold LuArgs.R at e1 e2
  rw [← e2, div_mul_eq_mul_div, div_eq_iff hd, e1]
  ring

theorem bet_pos (h : a.Valid) {mu : ℝ} (hmu : 0 < mu) (m : ℕ) : 0 < a.bet mu m := by
  obtain ⟨h1, h2, h3, h4, h5, h6, h7, h8, h9, h10, -, -⟩ := h
  have hn : 1 < a.n := by unfold LuArgs.n; rw [one_lt_div h1]; exact h2
  have hM := bigM_pos m
  have hn2 : 0 < a.n ^ 2 - 1 := by nlinarith
  have hn0 : 0 < a.n := by linarith
  have hY : 0 < a.Y := by unfold LuArgs.Y; positivity
  unfold LuArgs.bet LuArgs.betNumer LuArgs.betDenom
  positivity

/-- Share of the soil and of the column in one term. -/
noncomputable def LuArgs.fs (a : LuArgs) (mu : ℝ) (m : ℕ) : ℝ :=
  1 + (a.C mu * a.H ^ 2 * a.bet mu m - a.D mu * bigM m ^ 2) / (a.H ^ 2 * (a.n ^ 2 - 1))
noncomputable def LuArgs.fc (a : LuArgs) (mu : ℝ) (m : ℕ) : ℝ := 1 - a.C mu * a.bet mu m + a.D mu * bigM m ^ 2 / a.H ^ 2

/-- The algebra behind the two flow equations. -/
theorem flow_algebra {N R q b kv kvc X : ℝ} (hq : q ≠ 0) (hne : kvc - kv ≠ 0) (hN : N - 1 ≠ 0)
    (hb : b * (R * ((N - 1) * kvc + kv) + N ^ 2 / q) = R * kv * kvc * q + (N - 1) * kv + kvc)
    (hX : X * (kvc - kv) = R * (b * ((N - 1) * kvc + kv) - kv * kvc * q)) :
    N ^ 2 * b = q * ((N - 1) * kv * (1 + X / (N - 1)) + kvc * (1 - X)) ∧
      (1 + X / (N - 1)) - (1 - X) = R * (N * b - kv * q * (1 + X / (N - 1))) := by
  have hX2 : X * (kvc - kv) = (N - 1) * kv + kvc - b * (N ^ 2 / q) := by rw [hX]; linear_combination hb
  have hX3 : q * (X * (kvc - kv)) = q * ((N - 1) * kv + kvc) - b * N ^ 2 := by rw [hX2]; field_simp
  constructor
  · have : (N - 1) * kv * (1 + X / (N - 1)) = (N - 1) * kv + kv * X := by field_simp
    rw [this]; linear_combination hX3
  · have : X * (N + R * kv * q) = R * (N - 1) * (N * b - kv * q) := by
      refine mul_right_cancel₀ hne ?_
      linear_combination N * hX + R * kv * hX3
    have e : (1 + X / (N - 1)) - (1 - X) = X * N / (N - 1) := by field_simp; ring
    rw [e, div_eq_iff hN]
    have e2 : R * (N * b - kv * q * (1 + X / (N - 1))) * (N - 1) = R * (N - 1) * (N * b - kv * q) - R * kv * q * X := by field_simp; ring
    rw [e2, ← this]; ring

theorem shares (h : a.Valid) {mu : ℝ} (hmu : 0 < mu) (m : ℕ) :
    (a.n ^ 2 - 1) * a.fs mu m + a.fc mu m = a.n ^ 2 ∧
    a.n ^ 2 * (a.n ^ 2 * a.mvs / (a.n ^ 2 - 1 + a.Y) * a.bet mu m) =
      ((a.n ^ 2 - 1) * (a.kv / a.gamw * a.fs mu m) + a.kvc / a.gamw * a.fc mu m) * (bigM m / a.H) ^ 2 ∧
    a.fs mu m - a.fc mu m =
      a.gamw * a.R mu * (a.n ^ 2 * a.mvs / (a.n ^ 2 - 1 + a.Y) * a.bet mu m - a.kv / a.gamw * a.fs mu m * (bigM m / a.H) ^ 2) := by
  have hb := bet_eq h hmu m
  obtain ⟨h1, h2, h3, h4, h5, h6, h7, h8, h9, h10, -, hne⟩ := h
  have hn : 1 < a.n := by unfold LuArgs.n; rw [one_lt_div h1]; exact h2
  have hM := bigM_pos m
  have hn2 : 0 < a.n ^ 2 - 1 := by nlinarith
  have hY : 0 < a.Y := by unfold LuArgs.Y; positivity
  have hA : 0 < a.n ^ 2 - 1 + a.Y := by positivity
  have hne' : a.kvc - a.kv ≠ 0 := sub_ne_zero.2 hne
  set q := bigM m ^ 2 / a.H ^ 2 with hq
  have hq0 : q ≠ 0 := by positivity
  set X := a.C mu * a.bet mu m - a.D mu * q with hX
  set b := a.gamw * a.mvs * a.bet mu m / (a.n ^ 2 - 1 + a.Y) with hbd
  have fs_eq : a.fs mu m = 1 + X / (a.n ^ 2 - 1) := by
    unfold LuArgs.fs; rw [hX, hq]; field_simp
  have fc_eq : a.fc mu m = 1 - X := by
    unfold LuArgs.fc; rw [hX, hq]; ring
  have hXe : X * (a.kvc - a.kv) = a.R mu * (b * ((a.n ^ 2 - 1) * a.kvc + a.kv) - a.kv * a.kvc * q) := by
    rw [hX, hbd]
    have hC : a.C mu = a.R mu * (a.gamw * ((a.n ^ 2 - 1) * a.kvc + a.kv) * a.mvs) / ((a.n ^ 2 - 1 + a.Y) * (a.kvc - a.kv)) := rfl
    have hD : a.D mu = a.R mu * (a.kv * a.kvc / (a.kvc - a.kv)) := rfl
    rw [hC, hD]
    field_simp
  have hbe : b * (a.R mu * ((a.n ^ 2 - 1) * a.kvc + a.kv) + (a.n ^ 2) ^ 2 / q) = a.R mu * a.kv * a.kvc * q + (a.n ^ 2 - 1) * a.kv + a.kvc := by
    rw [hbd, div_mul_eq_mul_div, div_eq_iff hA.ne']
    have : (a.n ^ 2) ^ 2 = a.n ^ 4 := by ring
    rw [this]
    linear_combination hb
  obtain ⟨f1, f2⟩ := flow_algebra hq0 hne' hn2.ne' hbe hXe
  have hE : a.n ^ 2 * a.mvs / (a.n ^ 2 - 1 + a.Y) * a.bet mu m = a.n ^ 2 * b / a.gamw := by rw [hbd]; field_simp
  have hq2 : (bigM m / a.H) ^ 2 = q := by rw [hq]; ring
  rw [fs_eq, fc_eq, hE, hq2]
  refine ⟨by field_simp; ring, ?_, ?_⟩
  · have : a.n ^ 2 * (a.n ^ 2 * b / a.gamw) = (a.n ^ 2) ^ 2 * b / a.gamw := by ring
    rw [this, f1]; ring
  · rw [f2]; field_simp

/-- Time coefficients of the overall pore pressure. -/
noncomputable def LuArgs.coef (a : LuArgs) (mu t : ℝ) (m : ℕ) : ℝ :=
  2 / bigM m * (a.utop - (-1) ^ m * (a.utop - a.ubot) / bigM m) * exp (-a.bet mu m * t)

theorem minus1_eq (m : ℕ) : minus1 m = (-1) ^ m := by
  unfold minus1
  rcases Nat.even_or_odd m with h | h
  · rw [h.neg_one_pow, if_neg]; have := Nat.even_iff.1 h; omega
  · rw [h.neg_one_pow, if_pos]; exact Nat.odd_iff.1 h

theorem lu_por_eq (mu : ℝ) (n : ℕ) (z t : ℝ) : a.por mu n z t = sinSer n a.H (a.coef mu t) z := by
  unfold LuArgs.por LuArgs.porTerm sinSer LuArgs.coef
  exact sum_congr rfl fun m _ => by rw [minus1_eq, mul_div_assoc (bigM m)]; ring

theorem lu_pors_eq (mu : ℝ) (n : ℕ) (z t : ℝ) : a.pors mu n z t = sinSer n a.H (fun m => a.coef mu t m * a.fs mu m) z := by
  unfold LuArgs.pors LuArgs.porTerm sinSer LuArgs.coef LuArgs.fs
  exact sum_congr rfl fun m _ => by rw [minus1_eq, mul_div_assoc (bigM m)]; ring

theorem lu_porc_eq (mu : ℝ) (n : ℕ) (z t : ℝ) : a.porc mu n z t = sinSer n a.H (fun m => a.coef mu t m * a.fc mu m) z := by
  unfold LuArgs.porc LuArgs.porTerm sinSer LuArgs.coef LuArgs.fc
  exact sum_congr rfl fun m _ => by rw [minus1_eq, mul_div_assoc (bigM m)]; ring

theorem lu_coef_deriv (mu : ℝ) (m : ℕ) (t : ℝ) : HasDerivAt (fun t => a.coef mu t m) (-a.bet mu m * a.coef mu t m) t := by
  unfold LuArgs.coef
  have h : HasDerivAt (fun t => -a.bet mu m * t) (-a.bet mu m) t := by
    simpa using (hasDerivAt_id t).const_mul (-a.bet mu m)
  exact (h.exp.const_mul _).congr_deriv (by ring)

/-- The initial pore pressure described by the arguments: linear from `utop` at the top to `ubot` at the bottom.  It is also the total
stress applied. -/
noncomputable def LuArgs.initial (a : LuArgs) (z : ℝ) : ℝ := a.utop + (a.ubot - a.utop) * (z / a.H)

/-- Strain of the composite: stress less overall pore pressure, times the composite compressibility. -/
noncomputable def LuArgs.strain (a : LuArgs) (mu : ℝ) (n : ℕ) (z t : ℝ) : ℝ :=
  a.n ^ 2 * a.mvs / (a.n ^ 2 - 1 + a.Y) * (a.initial z - a.por mu n z t)

theorem lu_solves (h : a.Valid) (n : ℕ) :
    let mu := muSpec (a.re / a.rc) a.profile
    a.composite.Solves a.initial (a.por mu n) (a.pors mu n) (a.porc mu n) (a.strain mu n) := by
  intro mu
  have hmu : 0 < mu := h.mu.2
  have hs := fun m => shares h hmu m
  have hh := h
  obtain ⟨h1, h2, h3, h4, h5, h6, h7, h8, h9, h10, -, hne⟩ := hh
  have hn : 1 < a.n := h.n_gt
  have hre : a.re = a.n * a.rc := by unfold LuArgs.n; field_simp
  have hn2 : 0 < a.n ^ 2 - 1 := by nlinarith
  have hY : 0 < a.Y := by unfold LuArgs.Y; positivity
  have hA : 0 < a.n ^ 2 - 1 + a.Y := by positivity
  have havg : ∀ z t, a.n ^ 2 * a.por mu n z t = (a.n ^ 2 - 1) * a.pors mu n z t + a.porc mu n z t := fun z t => by
    rw [lu_por_eq, lu_pors_eq, lu_porc_eq]
    unfold sinSer
    rw [mul_sum, mul_sum, ← sum_add_distrib]
    refine sum_congr rfl fun m _ => ?_
    linear_combination -(a.coef mu t m * sin (bigM m * (z / a.H))) * (hs m).1
  refine ⟨fun z t => ?_, fun z t => ?_, fun t => ?_, ?_⟩
  · show a.re ^ 2 * _ = (a.re ^ 2 - a.rc ^ 2) * _ + a.rc ^ 2 * _
    rw [hre]; linear_combination a.rc ^ 2 * havg z t
  · refine ⟨a.strain mu n z t / a.mvs + a.pors mu n z t, a.strain mu n z t / a.mvc + a.porc mu n z t, ?_, ?_, ?_⟩
    · show _ = a.mvs * _; field_simp; ring
    · show _ = a.mvc * _; field_simp; ring
    · show a.re ^ 2 * _ = (a.re ^ 2 - a.rc ^ 2) * _ + a.rc ^ 2 * _
      have e : a.strain mu n z t * ((a.n ^ 2 - 1) / a.mvs + 1 / a.mvc) = a.n ^ 2 * (a.initial z - a.por mu n z t) := by
        have hYY : (a.n ^ 2 - 1) / a.mvs + 1 / a.mvc = (a.n ^ 2 - 1 + a.Y) / a.mvs := by unfold LuArgs.Y; field_simp
        rw [hYY]; unfold LuArgs.strain
        generalize a.n ^ 2 - 1 + a.Y = A at hA
        field_simp
      have e2 := havg z t
      rw [hre]
      linear_combination -a.rc ^ 2 * e + a.rc ^ 2 * e2
  · rw [lu_pors_eq, lu_porc_eq, sinSer_zero, sinSer_zero]; exact ⟨rfl, rfl⟩
  · refine ⟨fun z t => cosSer n a.H (fun m => a.coef mu t m * a.fs mu m * (bigM m / a.H)) z,
      fun z t => cosSer n a.H (fun m => a.coef mu t m * a.fc mu m * (bigM m / a.H)) z, fun z t => ⟨?_, ?_⟩,
      fun t => ⟨cosSer_end n h3.ne' _, cosSer_end n h3.ne' _⟩, fun z t => ?_⟩
    · exact (hasDerivAt_sinSer n a.H _ z).congr_of_eventuallyEq (Eventually.of_forall fun z => lu_pors_eq mu n z t)
    · exact (hasDerivAt_sinSer n a.H _ z).congr_of_eventuallyEq (Eventually.of_forall fun z => lu_porc_eq mu n z t)
    · have hdu : HasDerivAt (fun t => a.por mu n z t) (sinSer n a.H (fun m => -a.bet mu m * a.coef mu t m) z) t :=
        (hasDerivAt_sinSer_time n a.H z (fun m t => a.coef mu t m) _ t fun m _ => lu_coef_deriv mu m t).congr_of_eventuallyEq
          (Eventually.of_forall fun t => lu_por_eq mu n z t)
      refine ⟨_, _, _, (hdu.const_sub (a.initial z)).const_mul (a.n ^ 2 * a.mvs / (a.n ^ 2 - 1 + a.Y)), hasDerivAt_cosSer n a.H _ z,
        hasDerivAt_cosSer n a.H _ z, ?_, ?_⟩
      · show a.re ^ 2 * _ = -((a.re ^ 2 - a.rc ^ 2) * (a.kv / a.gamw * _) + a.rc ^ 2 * (a.kvc / a.gamw * _))
        rw [hre]
        unfold sinSer
        rw [← sum_neg_distrib]
        simp only [mul_sum]
        rw [← sum_add_distrib, ← sum_neg_distrib]
        refine sum_congr rfl fun m _ => ?_
        linear_combination a.rc ^ 2 * a.coef mu t m * sin (bigM m * (z / a.H)) * (hs m).2.1
      · have hres : a.composite.resist = a.gamw * a.R mu := by
          show a.gamw * (a.re ^ 2 * mu / (2 * a.kh) + (a.re ^ 2 - a.rc ^ 2) / (8 * a.khc)) = _
          unfold LuArgs.R; rw [hre]; field_simp
        rw [hres]
        show a.pors mu n z t - a.porc mu n z t = a.gamw * a.R mu * (_ + a.kv / a.gamw * _)
        rw [lu_pors_eq, lu_porc_eq]
        unfold sinSer
        rw [← sum_neg_distrib, ← sum_sub_distrib, mul_sum, mul_sum, ← sum_add_distrib, mul_sum]
        refine sum_congr rfl fun m _ => ?_
        linear_combination a.coef mu t m * sin (bigM m * (z / a.H)) * (hs m).2.2

/-- **C86**: for sensible arguments `luetal2010` returns; the three tables of pore pressure are samples of functions `u`, `us`, `uc`
which with some strain `eps` satisfy the equations of the composite foundation (average, equal strain under the linear stress,
drained top and impermeable bottom, flow of water through section and between soil and column), whatever the number of terms; and the
reported settlement is the strain summed over the depth. -/
theorem C86_solves (a : LuArgs) (h : a.Valid) (n : ℕ) :
    ∃ u us uc eps, a.composite.Solves (fun z => a.utop + (a.ubot - a.utop) * (z / a.H)) u us uc eps ∧
      ∀ zs ts, ∃ o, luetal2010 zs ts a n = .ok o ∧ o.por = zs.map (fun z => ts.map (u z)) ∧ o.pors = zs.map (fun z => ts.map (us z)) ∧
        o.porc = zs.map (fun z => ts.map (uc z)) ∧ o.avp = ts.map (fun t => Spec.mean a.H fun z => u z t) ∧
        o.settle = ts.map fun t => ∫ z in (0:ℝ)..a.H, eps z t := by
  set mu := muSpec (a.re / a.rc) a.profile with hmu
  have hH := h.H
  have hint : ∀ t, ∫ z in (0:ℝ)..a.H, a.por mu n z t = a.H * a.avp mu n t := fun t => by
    simp only [lu_por_eq]
    rw [integral_sinSer n h.H.ne']
    unfold LuArgs.avp LuArgs.coef
    congr 1
    refine sum_congr rfl fun m _ => ?_
    have := bigM_ne m
    rw [minus1_eq]; field_simp
  refine ⟨_, _, _, _, lu_solves h n, fun zs ts => ⟨⟨zs.map fun z => ts.map fun t => a.por mu n z t, zs.map fun z => ts.map fun t => a.pors mu n z t,
    zs.map fun z => ts.map fun t => a.porc mu n z t, ts.map fun t => a.avp mu n t, ts.map fun t => a.settle mu n t⟩, ?_, rfl, rfl, rfl, ?_, ?_⟩⟩
  · unfold luetal2010; rw [h.mu.1]; rfl
  · refine List.map_congr_left fun t _ => ?_
    unfold Spec.mean
    show a.avp mu n t = (∫ z in (0:ℝ)..a.H, a.por mu n z t) / a.H
    rw [hint]; field_simp
  · refine List.map_congr_left fun t _ => ?_
    show a.settle mu n t = ∫ z in (0:ℝ)..a.H, a.strain mu n z t
    unfold LuArgs.strain LuArgs.settle
    rw [intervalIntegral.integral_const_mul]
    have hc : Continuous fun z => a.por mu n z t := by
      simp only [lu_por_eq]; exact continuous_sinSer n a.H _
    have hci : Continuous a.initial := by unfold LuArgs.initial; fun_prop
    rw [intervalIntegral.integral_sub (hci.intervalIntegrable _ _) (hc.intervalIntegrable _ _), hint]
    have : ∫ z in (0:ℝ)..a.H, a.initial z = a.H * ((a.utop + a.ubot) / 2) := by
      unfold LuArgs.initial
      have e : (fun z : ℝ => a.utop + (a.ubot - a.utop) * (z / a.H)) = fun z => a.utop + (a.ubot - a.utop) / a.H * z := by funext z; ring
      rw [e, intervalIntegral.integral_add (by simp) (Continuous.intervalIntegrable (by fun_prop) _ _), intervalIntegral.integral_const_mul,
        integral_id]
      simp; field_simp; ring
    rw [this]; ring

theorem integral_lin_sin {H : ℝ} (hH : H ≠ 0) (m : ℕ) : ∫ z in (0:ℝ)..H, z / H * sin (bigM m * (z / H)) = H * ((-1) ^ m / bigM m ^ 2) := by
  have hF : ∀ z ∈ Set.uIcc 0 H, HasDerivAt (fun z : ℝ => H / bigM m ^ 2 * sin (bigM m * (z / H)) - H / bigM m * (z / H * cos (bigM m * (z / H))))
      (z / H * sin (bigM m * (z / H))) z := fun z _ => by
    have d := hasDerivAt_arg (bigM m) H z
    have e := hasDerivAt_arg 1 H z
    simp only [one_mul] at e
    refine ((d.sin.const_mul _).sub ((e.mul d.cos).const_mul _)).congr_deriv ?_
    have := bigM_ne m
    field_simp
    ring
  have hc : Continuous fun z : ℝ => z / H * sin (bigM m * (z / H)) := by fun_prop
  rw [integral_eq_sub_of_hasDerivAt hF (hc.intervalIntegrable _ _)]
  rw [div_self hH, mul_one, cos_bigM, sin_bigM]; simp; ring

/-- **C87**: with more and more terms the overall pore pressure at time zero approaches, in mean square over the layer, the line from
`utop` at the top to `ubot` at the bottom. -/
theorem C87_initial (a : LuArgs) (mu : ℝ) (hH : a.H ≠ 0) :
    Tendsto (fun n => ∫ z in (0:ℝ)..a.H, (a.utop + (a.ubot - a.utop) * (z / a.H) - a.por mu n z 0) ^ 2) atTop (𝓝 0) := by
  set d := a.utop - a.ubot with hd
  have hcf : Continuous fun z => a.initial z := by unfold LuArgs.initial; fun_prop
  have hc : ∀ m, ∫ z in (0:ℝ)..a.H, a.initial z * sin (bigM m * (z / a.H)) = a.H / 2 * a.coef mu 0 m := fun m => by
    have e : (fun z => a.initial z * sin (bigM m * (z / a.H))) =
        fun z => a.utop * sin (bigM m * (z / a.H)) - d * (z / a.H * sin (bigM m * (z / a.H))) := by
      funext z; unfold LuArgs.initial; rw [hd]; ring
    rw [e, intervalIntegral.integral_sub (Continuous.intervalIntegrable (by fun_prop) _ _) (Continuous.intervalIntegrable (by fun_prop) _ _),
      intervalIntegral.integral_const_mul, intervalIntegral.integral_const_mul, integral_one_sin a.H hH, integral_lin_sin hH]
    unfold LuArgs.coef
    have := bigM_ne m
    simp only [mul_zero, exp_zero, mul_one]
    rw [← hd]; field_simp
  have hf2 : ∫ z in (0:ℝ)..a.H, a.initial z ^ 2 = a.H * (a.utop ^ 2 - a.utop * d + d ^ 2 / 3) := by
    have e : (fun z => a.initial z ^ 2) = fun z => a.utop ^ 2 - 2 * a.utop * d / a.H * z + d ^ 2 / a.H ^ 2 * z ^ 2 := by
      funext z; unfold LuArgs.initial; rw [hd]; ring
    rw [e, intervalIntegral.integral_add (Continuous.intervalIntegrable (by fun_prop) _ _) (Continuous.intervalIntegrable (by fun_prop) _ _),
      intervalIntegral.integral_sub (by simp) (Continuous.intervalIntegrable (by fun_prop) _ _), intervalIntegral.integral_const_mul,
      intervalIntegral.integral_const_mul, integral_id, integral_pow]
    simp; field_simp; ring
  have e : ∀ n, ∫ z in (0:ℝ)..a.H, (a.utop + (a.ubot - a.utop) * (z / a.H) - a.por mu n z 0) ^ 2 =
      a.H * (a.utop ^ 2 * (1 - ∑ m ∈ range n, 2 / bigM m ^ 2) - 2 * a.utop * d * (1 / 2 - ∑ m ∈ range n, (-1) ^ m * (2 / bigM m ^ 3))
        + d ^ 2 * (1 / 3 - ∑ m ∈ range n, 2 / bigM m ^ 4)) := fun n => by
    have := integral_sub_sinSer_sq n hH (a.coef mu 0) a.initial hcf fun k _ => hc k
    simp only [lu_por_eq]
    refine (this).trans ?_
    rw [hf2]
    have hs : ∑ m ∈ range n, a.coef mu 0 m ^ 2 =
        2 * (a.utop ^ 2 * ∑ m ∈ range n, 2 / bigM m ^ 2) - 2 * (2 * a.utop * d * ∑ m ∈ range n, (-1) ^ m * (2 / bigM m ^ 3))
          + 2 * (d ^ 2 * ∑ m ∈ range n, 2 / bigM m ^ 4) := by
      simp only [mul_sum]
      rw [← sum_sub_distrib, ← sum_add_distrib]
      refine sum_congr rfl fun m _ => ?_
      unfold LuArgs.coef
      have := bigM_ne m
      have h1 : ((-1:ℝ) ^ m) ^ 2 = 1 := by rw [← pow_mul, mul_comm, pow_mul]; simp
      simp only [mul_zero, exp_zero, mul_one]
      rw [← hd]
      generalize (-1:ℝ) ^ m = s at h1
      field_simp
      linear_combination d ^ 2 * h1
    rw [hs]; ring
  simp only [e]
  have t1 := (tendsto_const_nhds (x := (1:ℝ))).sub hasSum_two_div_sq.tendsto_sum_nat
  have t2 := (tendsto_const_nhds (x := (1/2:ℝ))).sub hasSum_alt_three.tendsto_sum_nat
  have t3 := (tendsto_const_nhds (x := (1/3:ℝ))).sub hasSum_two_div_four.tendsto_sum_nat
  have := (((t1.const_mul (a.utop ^ 2)).sub (t2.const_mul (2 * a.utop * d))).add (t3.const_mul (d ^ 2))).const_mul a.H
  simpa using this

/-- **C87**: for sensible arguments every term decays, so all pressures die out and the settlement tends to that of the fully drained
composite, `H mvs n² / (n² - 1 + mvs/mvc)` times the mean stress. -/
theorem C87_final (a : LuArgs) (h : a.Valid) (n : ℕ) :
    ∃ mu, a.mu0 = .ok mu ∧ (∀ z, Tendsto (fun t => a.por mu n z t) atTop (𝓝 0) ∧ Tendsto (fun t => a.pors mu n z t) atTop (𝓝 0) ∧
      Tendsto (fun t => a.porc mu n z t) atTop (𝓝 0)) ∧
      Tendsto (fun t => a.settle mu n t) atTop
        (𝓝 ((a.utop + a.ubot) / 2 * (a.H * a.mvs * (a.re / a.rc) ^ 2 / ((a.re / a.rc) ^ 2 - 1 + a.mvs / a.mvc)))) := by
  obtain ⟨h0, hp⟩ := h.mu
  refine ⟨_, h0, ?_⟩
  set mu := muSpec (a.re / a.rc) a.profile
  have hex : ∀ m, Tendsto (fun t => exp (-a.bet mu m * t)) atTop (𝓝 0) := fun m =>
    tendsto_exp_atBot.comp (tendsto_id.const_mul_atTop_of_neg (neg_neg_of_pos (bet_pos h hp m)))
  have hser : ∀ c : ℕ → ℝ, Tendsto (fun t => ∑ m ∈ range n, c m * exp (-a.bet mu m * t)) atTop (𝓝 0) := fun c => by
    have := tendsto_finsetSum (range n) fun m _ => (hex m).const_mul (c m)
    simpa using this
  refine ⟨fun z => ⟨?_, ?_, ?_⟩, ?_⟩
  · unfold LuArgs.por LuArgs.porTerm; exact hser _
  · refine (hser fun m => 2 / bigM m * (a.utop - minus1 m * (a.utop - a.ubot) / bigM m) * sin (bigM m * z / a.H) * a.fs mu m).congr fun t => ?_
    unfold LuArgs.pors LuArgs.porTerm LuArgs.fs
    exact sum_congr rfl fun m _ => by ring
  · refine (hser fun m => 2 / bigM m * (a.utop - minus1 m * (a.utop - a.ubot) / bigM m) * sin (bigM m * z / a.H) * a.fc mu m).congr fun t => ?_
    unfold LuArgs.porc LuArgs.porTerm LuArgs.fc
    exact sum_congr rfl fun m _ => by ring
  · have h1 : Tendsto (fun t => a.avp mu n t) atTop (𝓝 0) := by unfold LuArgs.avp; exact hser _
    have := (h1.const_sub ((a.utop + a.ubot) / 2)).mul_const (a.H * a.mvs * a.n ^ 2 / (a.n ^ 2 - 1 + a.Y))
    rw [sub_zero] at this
    exact this

/-- The example at the end of the code file meets the hypotheses. -/
example : LuArgs.Valid ⟨1/10, 9/10, 10, some (15/100), some (1/2), 1, 2000, 1, 2, 1/10, 5/10000, 10, 9/10, 2/10⟩ := by
  refine ⟨by norm_num, by norm_num, by norm_num, by norm_num, by norm_num, by norm_num, by norm_num, by norm_num, by norm_num, by norm_num, ?_, by norm_num⟩
  intro ks rs h1 h2
  simp only [Option.some.injEq] at h1 h2
  subst h1 h2
  norm_num

end Geotecha.Consol
