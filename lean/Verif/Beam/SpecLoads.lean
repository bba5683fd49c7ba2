import Verif.Beam.SpecBeamSpec
import Verif.Beam.DingGalerkin
import Verif.Beam.DingQuad
import Verif.Piecewise.Props
import Verif.Consol.SchiffmanProps

/-!
# Claims C176-C178: constructor, vehicles and stationary loads of `SpecBeam`
-/
set_option autoImplicit false
set_option linter.unusedVariables false

namespace Geotecha.Beam

open Real Geotecha.Speccon Geotecha.Piecewise Geotecha.Spec

/-! ## C176: the constructor -/

/-- **C176 (partial: the code asks for both `k3` and `k3_norm`).** `use_analytical=True` with simply supported ends
passes the check exactly when `k3` and `k3_norm` are both left out or both given as zero. -/
theorem C176_analytical_gate_partial (a : SArgs) (hb : a.bc = "SS") :
    a.gate = .ok () ↔ (a.analytical = true → a.k3 = none ∧ a.k3N = none ∨ a.k3 = some 0 ∧ a.k3N = some 0) := by
  have h1 : ¬ a.bc.toUpper = "CC" := by rw [hb]; decide +kernel
  have h2 : ¬ a.bc.toUpper = "FF" := by rw [hb]; decide +kernel
  unfold SArgs.gate
  by_cases ha : a.analytical = true
  · simp only [ha, true_and, h1, h2, false_or, true_implies]
    have key : (a.k3s.1 = some 0 ∧ a.k3s.2 = some 0) ↔ (a.k3 = none ∧ a.k3N = none ∨ a.k3 = some 0 ∧ a.k3N = some 0) := by
      unfold SArgs.k3s
      rcases h : a.k3N with _ | k <;> rcases h' : a.k3 with _ | k' <;> simp
    by_cases hk : a.k3s.1 = some 0 ∧ a.k3s.2 = some 0
    · rw [if_neg (not_not.2 hk)]; exact iff_of_true rfl (key.1 hk)
    · rw [if_pos hk]; exact iff_of_false (by simp) (fun h => hk (key.2 h))
  · simp [ha]

/-- **C176.** So an explicitly linear foundation, `k3=0` alone or `k3_norm=0` alone, is refused with
`use_analytical=True`, whatever the other arguments. -/
theorem C176_linear_refused (n : ℕ) (a : SArgs) (m : MArgs) (st : StArgs) (B : Bars) (impl : Impl)
    (ha : a.analytical = true) (h : a.k3 = some 0 ∧ a.k3N = none ∨ a.k3 = none ∧ a.k3N = some 0) :
    SBeam.init n a m st B impl = .error .valueError := by
  have : a.gate = .error .valueError := by
    unfold SArgs.gate
    rw [if_pos]
    refine ⟨ha, Or.inr (Or.inr ?_)⟩
    rintro ⟨h1, h2⟩
    unfold SArgs.k3s at h1 h2
    rcases h with ⟨e1, e2⟩ | ⟨e1, e2⟩
    · rw [e1, e2] at h2; exact absurd h2 (by simp)
    · rw [e1, e2] at h1; exact absurd h1 (by simp)
  simp only [SBeam.init, this, Bind.bind, Except.bind]

/-- **C176.** Any end condition but `"SS"` is refused: the constructor never succeeds. -/
theorem C176_only_simply_supported (n : ℕ) (a : SArgs) (m : MArgs) (st : StArgs) (B : Bars) (impl : Impl)
    (hb : a.bc ≠ "SS") (s : SBeam) : SBeam.init n a m st B impl ≠ .ok s := by
  intro h
  unfold SBeam.init at h
  simp only [Bind.bind, Except.bind, if_neg hb] at h
  rcases e0 : a.gate with _ | _ <;> rw [e0] at h <;> dsimp only at h <;> try (exact absurd h (by simp))
  rcases e1 : a.kfOf with _ | _ <;> rw [e1] at h <;> dsimp only at h <;> try (exact absurd h (by simp))
  rcases e2 : vehicles a m with _ | _ <;> rw [e2] at h <;> dsimp only at h <;> try (exact absurd h (by simp))
  rcases e3 : stationary a st with _ | _ <;> rw [e3] at h <;> dsimp only at h <;> try (exact absurd h (by simp))
  rcases e4 : a.muOf with _ | _ <;> rw [e4] at h <;> dsimp only at h <;> try (exact absurd h (by simp))
  rcases e5 : a.k1Of with _ | _ <;> rw [e5] at h <;> dsimp only at h <;> try (exact absurd h (by simp))
  rcases e6 : a.k3Of with _ | _ <;> rw [e6] at h <;> dsimp only at h <;> exact absurd h (by simp)

section scaling
variable (P : SPhys) (nq : Option ℕ)

theorem perL_ok (v : ℝ) : (P.args nq).perL v = .ok (v / P.L) := by
  simp only [SArgs.perL, SPhys.args, need, pdiv, Bind.bind, Except.bind, P.hL.ne', if_false]

theorem perEA_ok (v : ℝ) : (P.args nq).perEA v = .ok (v / (P.E * P.A)) := by
  simp only [SArgs.perEA, SPhys.args, need, pdiv, Bind.bind, Except.bind, P.hE.ne', P.hA.ne', mul_eq_zero, or_self, if_false]

theorem time_ok (v : ℝ) : (P.args nq).time v = .ok (tNorm P.E P.rho P.L v) := by
  simp only [SArgs.time, SPhys.args, need, pdiv, Bind.bind, Except.bind, P.hL.ne', P.hrho.ne', if_false, pure, Except.pure, tNorm]

theorem speed_ok (v : ℝ) : (P.args nq).speed v = .ok (v * √(P.rho / P.E)) := by
  simp only [SArgs.speed, SPhys.args, need, pdiv, Bind.bind, Except.bind, P.hE.ne', if_false, pure, Except.pure]

theorem coef_ok : (P.args nq).kfOf = .ok (1 / P.L * √(P.I / P.A)) ∧
    (P.args nq).muOf = .ok (P.mu / P.A * √(P.L ^ 2 / (P.rho * P.E))) ∧
    (P.args nq).k1Of = .ok (P.k1 * P.L ^ 2 / (P.E * P.A)) ∧ (P.args nq).k3Of = .ok (P.k3 * P.L ^ 4 / (P.E * P.A)) := by
  have hE := P.hE.ne'
  have hr := P.hrho.ne'
  have hA := P.hA.ne'
  have hL := P.hL.ne'
  refine ⟨?_, ?_, ?_, ?_⟩ <;>
  simp only [SArgs.kfOf, SArgs.muOf, SArgs.k1Of, SArgs.k3Of, SArgs.k3s, SPhys.args, orElse, need, pdiv, Bind.bind, Except.bind, pure, Except.pure,
    hE, hr, hA, hL, mul_eq_zero, or_self, if_false]

end scaling

theorem mapM_all_ok {α β : Type} {f : α → Except PyErr β} {g : α → β} (h : ∀ a, f a = .ok (g a)) (l : List α) :
    l.mapM f = .ok (l.map g) := by
  induction l with
  | nil => rfl
  | cons a l ih => simp only [List.mapM_cons, h, ih, Bind.bind, Except.bind, pure, Except.pure, List.map_cons]

/-! ## C177: vehicles -/

/-- A vehicle in normalised units. -/
noncomputable def SPhys.scale (P : SPhys) (c : Vehicle) : Vehicle :=
  ⟨c.axles.map fun a => (a.1 / P.L, a.2 / (P.E * P.A)), c.offset / P.L, c.v * √(P.rho / P.E), c.L / P.L,
    tNorm P.E P.rho P.L c.t0, c.x0 / P.L⟩

theorem optLoad_raw {raw : Option (List ℝ)} {x : List (List ℝ)} {vs : List Vehicle} {nN : ℕ} {d : Except PyErr ℝ} {d' dN : ℝ}
    {scale : ℝ → Except PyErr ℝ} {sc : ℝ → ℝ} (hs : ∀ v, scale v = .ok (sc v)) (g : Vehicle → ℝ) (hx : x.length = vs.length)
    (hd : d = .ok d') (h : raw = some (vs.map g) ∨ raw = none ∧ ∀ c ∈ vs, g c = d') :
    optLoad raw none (some x) nN d dN scale = .ok (vs.map fun c => sc (g c)) := by
  rcases h with h | ⟨h, h'⟩
  · subst h
    simp only [optLoad, mapM_all_ok hs, List.map_map]
    rfl
  · subst h
    subst hd
    simp only [optLoad, mapM_all_ok hs, Bind.bind, Except.bind, hx]
    congr 1
    rw [List.map_replicate, eq_comm, List.eq_replicate_iff]
    refine ⟨by simp, fun b hb => ?_⟩
    obtain ⟨c, hc, rfl⟩ := List.mem_map.1 hb
    rw [h' c hc]

theorem zip_maps {α A B C D E F G : Type} (vs : List α) (a : α → A) (b : α → B) (c : α → C) (d : α → D) (e : α → E) (f : α → F) (g : α → G) :
    (vs.map a).zip ((vs.map b).zip ((vs.map c).zip ((vs.map d).zip ((vs.map e).zip ((vs.map f).zip (vs.map g)))))) =
      vs.map fun x => (a x, b x, c x, d x, e x, f x, g x) := by
  induction vs with
  | nil => rfl
  | cons x l ih => simp only [List.map_cons, List.zip_cons_cons, ih]

theorem vehicles_raw (P : SPhys) (nq : Option ℕ) {m : MArgs} {vs : List Vehicle} (h : Spec.Describes P.L m vs) :
    vehicles (P.args nq) m = .ok (vs.map P.scale) := by
  obtain ⟨hx, hF, hv, ho, ht, h0, hl, n1, n2, n3, n4, n5, n6, n7⟩ := h
  unfold vehicles
  rw [if_neg (by rw [hx]; simp)]
  simp only [n1, n2, n3, n4, n5, n6, n7, hx, hF, hv, orMap, mapM_all_ok (mapM_all_ok (perL_ok P nq)), mapM_all_ok (mapM_all_ok (perEA_ok P nq)),
    mapM_all_ok (speed_ok P nq), Bind.bind, Except.bind]
  rw [optLoad_raw (perL_ok P nq) Vehicle.offset (by simp) rfl ho]
  dsimp only
  rw [optLoad_raw (time_ok P nq) Vehicle.t0 (by simp) rfl ht]
  dsimp only
  rw [optLoad_raw (perL_ok P nq) Vehicle.x0 (by simp) rfl h0]
  dsimp only
  rw [optLoad_raw (perL_ok P nq) Vehicle.L (by simp) (show need (P.args nq).L = .ok P.L from rfl) hl]
  dsimp only
  rw [if_neg (by simp)]
  simp only [pure, Except.pure, List.map_map]
  rw [zip_maps, List.map_map]
  congr 1
  refine List.map_congr_left fun c _ => ?_
  simp only [Function.comp, SPhys.scale]
  congr 1
  rw [List.map_map, List.map_map, List.zip_map']
  rfl

theorem scale_same (P : SPhys) (c : Vehicle) : Spec.SameVehicle P c (P.scale c) := by
  unfold Spec.SameVehicle
  simp only [SPhys.scale]
  rw [List.forall₂_map_right_iff]
  refine List.forall₂_same.2 fun a _ => ⟨rfl, fun t => ?_⟩
  have hE := P.hE
  have hr := P.hrho
  have hL := P.hL
  have hs : √(P.rho / P.E) * √(P.E / P.rho) = 1 := by
    rw [← sqrt_mul (by positivity), show P.rho / P.E * (P.E / P.rho) = 1 by field_simp, sqrt_one]
  have hp : 0 < √(P.rho / P.E) := sqrt_pos.2 (by positivity)
  have pos : Spec.axleAt (P.scale c) (a.1 / P.L, a.2 / (P.E * P.A)) (tNorm P.E P.rho P.L t) = Spec.axleAt c a t / P.L := by
    have hv : c.v * √(P.rho / P.E) * (tNorm P.E P.rho P.L t - tNorm P.E P.rho P.L c.t0) = c.v * (t - c.t0) / P.L := by
      unfold tNorm
      calc _ = c.v * (t - c.t0) / P.L * (√(P.rho / P.E) * √(P.E / P.rho)) := by ring
        _ = _ := by rw [hs, mul_one]
    unfold Spec.axleAt
    simp only [SPhys.scale, hv]
    by_cases h : 0 < c.v
    · rw [if_pos (by positivity), if_pos h]; ring
    · rw [if_neg (not_lt.2 (mul_nonpos_of_nonpos_of_nonneg (not_lt.1 h) hp.le)), if_neg h]; ring
  refine ⟨pos, ?_⟩
  unfold Spec.OnBeam
  have pos' := pos
  simp only [SPhys.scale] at pos'
  rw [pos']
  simp only [SPhys.scale]
  rw [← add_div, div_le_div_iff_of_pos_right hL, div_le_div_iff_of_pos_right hL]

/-- **C177.** Vehicles given in physical values (optional lists left out or not): every one of them becomes a vehicle in
normalised units with the same axles: same forces over `E A`, and at every time, normalised, the same positions over
`L`, on the beam at the same times. -/
theorem C177_vehicles_from_physical (P : SPhys) (nq : Option ℕ) (m : MArgs) (vs : List Vehicle) (h : Spec.Describes P.L m vs) :
    ∃ cs, vehicles (P.args nq) m = .ok cs ∧ List.Forall₂ (Spec.SameVehicle P) vs cs := by
  refine ⟨_, vehicles_raw P nq h, ?_⟩
  rw [List.forall₂_map_right_iff]
  exact List.forall₂_same.2 fun c _ => scale_same P c

theorem optLoad_nrm {nrm : Option (List ℝ)} {vs : List Vehicle} {d : Except PyErr ℝ} {dN : ℝ}
    {scale : ℝ → Except PyErr ℝ} (g : Vehicle → ℝ) (h : nrm = some (vs.map g) ∨ nrm = none ∧ ∀ c ∈ vs, g c = dN) :
    optLoad none nrm none vs.length d dN scale = .ok (vs.map g) := by
  rcases h with h | ⟨h, h'⟩
  · subst h; rfl
  · subst h
    simp only [optLoad]
    congr 1
    rw [eq_comm, List.eq_replicate_iff]
    refine ⟨by simp, fun b hb => ?_⟩
    obtain ⟨c, hc, rfl⟩ := List.mem_map.1 hb
    exact h' c hc

/-- **C177.** Vehicles given in normalised values are taken as they are, with the documented defaults, whatever the
scalar arguments. -/
theorem C177_vehicles_normalised (a : SArgs) (m : MArgs) (vs : List Vehicle) (h : Spec.DescribesN m vs) :
    vehicles a m = .ok vs := by
  obtain ⟨hx, hF, hv, ho, ht, h0, hl, n1, n2, n3, n4, n5, n6, n7⟩ := h
  unfold vehicles
  rw [if_neg (by rw [hx]; simp)]
  simp only [n1, n2, n3, n4, n5, n6, n7, hx, hF, hv, orMap, Bind.bind, Except.bind, List.length_map]
  rw [optLoad_nrm Vehicle.offset ho]
  dsimp only
  rw [optLoad_nrm Vehicle.t0 ht]
  dsimp only
  rw [optLoad_nrm Vehicle.x0 h0]
  dsimp only
  rw [optLoad_nrm Vehicle.L hl]
  dsimp only
  rw [if_neg (by simp)]
  simp only [pure, Except.pure]
  rw [zip_maps, List.map_map]
  congr 1
  nth_rewrite 2 [← List.map_id vs]
  refine List.map_congr_left fun c _ => ?_
  simp only [Function.comp, id]
  rw [List.zip_map', List.map_id'']
  exact fun _ => rfl

/-- **C177, both forms given.**  When every normalised list is given, the vehicles are these, whatever physical lists stand beside them
(physical positions need physical forces and speeds, and a length or a list of lengths). -/
theorem C177_vehicles_both (a : SArgs) (m : MArgs) (vs : List Vehicle) (hx : m.xN = some (vs.map fun c => c.axles.map Prod.fst))
    (hF : m.FzN = some (vs.map fun c => c.axles.map Prod.snd)) (hv : m.vN = some (vs.map Vehicle.v)) (ho : m.offsetN = some (vs.map Vehicle.offset))
    (ht : m.t0N = some (vs.map Vehicle.t0)) (h0 : m.x0N = some (vs.map Vehicle.x0)) (hl : m.LN = some (vs.map Vehicle.L))
    (hr : m.x ≠ none → m.Fz ≠ none ∧ m.v ≠ none) (hL : a.L ≠ none) : vehicles a m = .ok vs := by
  have key : ∀ (raw : Option (List ℝ)) (l : List ℝ) (d : Except PyErr ℝ) (dN : ℝ) (sc : ℝ → Except PyErr ℝ), (∃ y, d = .ok y) →
      optLoad raw (some l) m.x (vs.map fun c => c.axles.map Prod.fst).length d dN sc = .ok l := by
    rintro raw l d dN sc ⟨y, rfl⟩
    rcases raw with _ | r
    · rcases e : m.x with _ | q
      · simp only [optLoad]
      · simp only [optLoad, Bind.bind, Except.bind]
    · simp only [optLoad]
  unfold vehicles
  rw [if_neg (by rw [hx]; simp)]
  simp only [hx, hF, hv, ho, ht, h0, hl, orMap, Bind.bind, Except.bind]
  rw [key _ _ _ _ _ ⟨0, rfl⟩]
  dsimp only
  rw [key _ _ _ _ _ ⟨0, rfl⟩]
  dsimp only
  rw [key _ _ _ _ _ ⟨0, rfl⟩]
  dsimp only
  rw [key _ _ _ _ _ (by
    rcases e : a.L with _ | q
    · exact absurd e hL
    · exact ⟨q, rfl⟩)]
  dsimp only
  rw [if_neg (by rintro ⟨q, q'⟩; rcases q' with q' | q'; exacts [(hr q).1 q', (hr q).2 q'])]
  simp only [pure, Except.pure]
  rw [zip_maps, List.map_map]
  congr 1
  nth_rewrite 2 [← List.map_id vs]
  refine List.map_congr_left fun c _ => ?_
  simp only [Function.comp, id]
  rw [List.zip_map', List.map_id'']
  exact fun _ => rfl

/-- A vehicle with an offset given in both forms. -/
example (a : SArgs) (c : Vehicle) (r : ℝ) (ha : a.L = some 10) : vehicles a ⟨none, none, none, some [r], none, none, none,
    some [c.axles.map Prod.fst], some [c.axles.map Prod.snd], some [c.v], some [c.offset], some [c.t0], some [c.x0], some [c.L]⟩ = .ok [c] :=
  C177_vehicles_both a _ [c] rfl rfl rfl rfl rfl rfl rfl (fun h => absurd rfl h) (by rw [ha]; simp)

/-! ## C178: stationary loads -/

theorem polyLeft_scale {r s : ℝ} (hr : 0 < r) (pts : List (ℝ × ℝ)) (t : ℝ) :
    polyLeft (pts.map fun p => (p.1 * r, p.2 * s)) (t * r) = polyLeft pts t * s := by
  induction pts with
  | nil => simp [polyLeft]
  | cons p l ih =>
    cases l with
    | nil => simp [polyLeft]
    | cons q l =>
      simp only [List.map_cons] at ih ⊢
      unfold polyLeft
      rw [ih]
      simp only [mul_lt_mul_iff_left₀ hr, mul_le_mul_iff_left₀ hr]
      split_ifs with h1 h2
      · rfl
      · unfold line
        simp only
        have : q.1 - p.1 ≠ 0 := sub_ne_zero.2 h2.1.ne'
        rw [← sub_mul, ← sub_mul, ← sub_mul]
        field_simp
      · rfl

/-- `x` and `y` of a PolyLine from its points. -/
theorem getX_of {p : PolyLine ℝ} {pts : List (ℝ × ℝ)} (h : p.getXY.1 = .ok pts) :
    p.getX.1 = .ok (pts.map Prod.fst) ∧ p.getY.1 = .ok (pts.map Prod.snd) := by
  unfold PolyLine.getX PolyLine.getY
  rcases e : p.getXY with ⟨a, b⟩
  rw [e] at h
  simp only at h
  subst h
  exact ⟨rfl, rfl⟩

theorem pinterpLeft_pts {p : PolyLine ℝ} {pts : List (ℝ × ℝ)} (h : p.getXY.1 = .ok pts) (hs : SortedLe (pts.map Prod.fst))
    (hne : ∃ a ∈ pts, ∃ b ∈ pts, a.1 < b.1) (t : ℝ) : pinterpLeft p t = .ok (polyLeft pts t) := by
  obtain ⟨h1, h2⟩ := getX_of h
  unfold pinterpLeft
  simp only [h1, h2, Bind.bind, Except.bind]
  rw [C01_interp_left _ _ t hs (by simp) (by
    obtain ⟨a, ha, b, hb, hab⟩ := hne
    exact ⟨a.1, List.mem_map_of_mem ha, b.1, List.mem_map_of_mem hb, hab⟩), zip_fst_snd]

/-- A history in normalised units. -/
noncomputable def SPhys.pts (P : SPhys) (l : List (ℝ × ℝ)) : List (ℝ × ℝ) :=
  l.map fun p => (p.1 * (√(P.E / P.rho) / P.L), p.2 * (1 / (P.E * P.A)))

theorem rate_pos (P : SPhys) : 0 < √(P.E / P.rho) / P.L :=
  div_pos (sqrt_pos.2 (div_pos P.hE P.hrho)) P.hL

theorem tNorm_mul (P : SPhys) (t : ℝ) : tNorm P.E P.rho P.L t = t * (√(P.E / P.rho) / P.L) := by
  unfold tNorm; ring

theorem proper_len {s : SLoad} (h : Spec.Proper s) : 2 ≤ s.pts.length := by
  obtain ⟨_, a, ha, b, hb, hab⟩ := h
  rcases hp : s.pts with _ | ⟨p, _ | ⟨q, r⟩⟩
  · rw [hp] at ha; simp at ha
  · rw [hp] at ha hb
    simp at ha hb
    subst ha hb
    exact absurd hab (lt_irrefl _)
  · simp

theorem line_ok (P : SPhys) (nq : Option ℕ) {p : PolyLine ℝ} {s : SLoad} (h : p.getXY.1 = .ok s.pts) (hp : Spec.Proper s) :
    ∃ p', (P.args nq).line p = .ok p' ∧ ∀ t, pinterpLeft p' (tNorm P.E P.rho P.L t) = .ok (polyLeft s.pts t / (P.E * P.A)) := by
  obtain ⟨h1, h2⟩ := getX_of h
  have hlen := proper_len hp
  refine ⟨⟨some (P.pts s.pts), true, true, none⟩, ?_, fun t => ?_⟩
  · unfold SArgs.line
    simp only [h1, h2, Bind.bind, Except.bind, mapM_all_ok (time_ok P nq), mapM_all_ok (perEA_ok P nq)]
    unfold PolyLine.ofX_Y
    simp only [List.length_map]
    rw [if_neg (by omega)]
    congr 3
    rw [List.map_map, List.map_map, List.zip_map']
    refine List.map_congr_left fun q _ => ?_
    simp only [Function.comp, tNorm_mul, mul_one_div]
  · rw [pinterpLeft_pts rfl ?_ ?_, tNorm_mul]
    · rw [show P.pts s.pts = s.pts.map fun p => (p.1 * (√(P.E / P.rho) / P.L), p.2 * (1 / (P.E * P.A))) from rfl,
        polyLeft_scale (rate_pos P)]
      congr 1; ring
    · have := hp.1
      unfold SortedLe at this ⊢
      rw [List.pairwise_map] at this ⊢
      rw [SPhys.pts, List.pairwise_map]
      exact this.imp fun hab => mul_le_mul_of_nonneg_right hab (rate_pos P).le
    · obtain ⟨_, a, ha, b, hb, hab⟩ := hp
      exact ⟨_, List.mem_map_of_mem ha, _, List.mem_map_of_mem hb, mul_lt_mul_of_pos_right hab (rate_pos P)⟩

theorem omphase_ok (P : SPhys) (nq : Option ℕ) (o : Om) : (P.args nq).omphase o =
    .ok (o.map fun v => (v.1 * P.L / √(P.E / P.rho), v.2 / (P.E * P.A))) := by
  cases o with
  | none => rfl
  | some v =>
    have hs : √(P.E / P.rho) ≠ 0 := (sqrt_pos.2 (div_pos P.hE P.hrho)).ne'
    unfold SArgs.omphase
    simp only [perEA_ok P nq, Bind.bind, Except.bind, pure, Except.pure]
    simp only [SPhys.args, need, pdiv, P.hrho.ne', if_false, if_neg hs]
    rfl

theorem mapM_forall₂ {α β γ : Type} {f : α → Except PyErr β} {R : α → γ → Prop} {Q : β → γ → Prop} {l : List α} {r : List γ}
    (hR : List.Forall₂ R l r) (h : ∀ a c, c ∈ r → R a c → ∃ b, f a = .ok b ∧ Q b c) :
    ∃ l', l.mapM f = .ok l' ∧ List.Forall₂ Q l' r := by
  induction hR with
  | nil => exact ⟨[], rfl, .nil⟩
  | @cons a c l r hac _ ih =>
    obtain ⟨b, hb, hq⟩ := h a c (by simp) hac
    obtain ⟨l', hl', hq'⟩ := ih fun a c hc => h a c (by simp [hc])
    exact ⟨b :: l', by simp only [List.mapM_cons, hb, hl', Bind.bind, Except.bind, pure, Except.pure], .cons hq hq'⟩

/-- The stationary loads after the constructor. -/
theorem stationary_ok (P : SPhys) (nq : Option ℕ) {m : StArgs} {ls : List SLoad} (h : Spec.DescribesS m ls)
    (hp : ∀ s ∈ ls, Spec.Proper s) : ∃ st, stationary (P.args nq) m = .ok st ∧ st.x = ls.map (fun s => s.x / P.L) ∧
      st.op = ls.map (fun s => s.om.map fun v => (v.1 * P.L / √(P.E / P.rho), v.2 / (P.E * P.A))) ∧
      List.Forall₂ (fun p (s : SLoad) => ∀ t, pinterpLeft p (tNorm P.E P.rho P.L t) = .ok (polyLeft s.pts t / (P.E * P.A))) st.vs ls := by
  obtain ⟨hx, ⟨l, hv, hl⟩, ho, n1, n2, n3⟩ := h
  obtain ⟨l', hl', hq⟩ := mapM_forall₂ (f := (P.args nq).line) hl fun p s hs hps => line_ok P nq hps (hp s hs)
  have hop : m.opOf = some (ls.map SLoad.om) := by
    unfold StArgs.opOf
    rcases ho with ho | ⟨ho, hn⟩
    · rw [ho]
    · rw [ho, hx]
      simp only [Option.map_some, List.length_map, Option.some.injEq]
      rw [eq_comm, List.eq_replicate_iff]
      refine ⟨by simp, fun b hb => ?_⟩
      obtain ⟨s, hs, rfl⟩ := List.mem_map.1 hb
      exact hn s hs
  refine ⟨⟨ls.map fun s => s.x / P.L, l', ls.map fun s => s.om.map fun v => (v.1 * P.L / √(P.E / P.rho), v.2 / (P.E * P.A))⟩, ?_, rfl, rfl, hq⟩
  unfold stationary
  rw [if_neg (by rw [hx]; simp)]
  simp only [hop, n1, n2, n3, hx, hv, orMap, mapM_all_ok (perL_ok P nq), hl', Bind.bind, Except.bind, mapM_all_ok (omphase_ok P nq), pure, Except.pure,
    List.map_map]
  rfl

theorem getE_map {α β : Type} (f : α → β) (l : List α) (d : α) {j : ℕ} (hj : j < l.length) : getE (l.map f) j = .ok (f (l.getD j d)) := by
  simp [getE, hj]

/-- What the vector field adds for the stationary loads. -/
theorem still_ok (P : SPhys) (nq : Option ℕ) {m : StArgs} {ls : List SLoad} (h : Spec.DescribesS m ls)
    (hp : ∀ s ∈ ls, Spec.Proper s) : ∃ st, stationary (P.args nq) m = .ok st ∧ ∀ s : SBeam, s.stat = st → ∀ b t,
      s.still b (tNorm P.E P.rho P.L t) = .ok ((ls.map fun l => polyLeft l.pts t * (match l.om with
        | none => 1
        | some o => cos (o.1 * t + o.2 / (P.E * P.A))) / (P.E * P.A) * sin (b * (l.x / P.L))).sum) := by
  obtain ⟨st, hst, hx, hop, hvs⟩ := stationary_ok P nq h hp
  refine ⟨st, hst, fun s hs b t => ?_⟩
  have hlen := hvs.length_eq
  unfold SBeam.still
  rw [hs, hx, List.length_map]
  set G : SLoad → ℝ := fun l => polyLeft l.pts t * (match l.om with
        | none => 1
        | some o => cos (o.1 * t + o.2 / (P.E * P.A))) / (P.E * P.A) * sin (b * (l.x / P.L)) with hG
  rw [Consol.sum_map_getD ⟨0, [], none⟩, Consol.sumM_ok (g := fun j => G (ls.getD j ⟨0, [], none⟩))]
  · rw [← List.sum_toFinset _ List.nodup_range]; congr 2; ext x; simp
  · intro j hj
    have hj := List.mem_range.1 hj
    have hp := (List.forall₂_iff_get.1 hvs).2 j (by omega) hj
    have e1 : getE st.vs j = .ok (st.vs.get ⟨j, by omega⟩) := by simp [getE, show j < st.vs.length by omega]
    simp only [getE_map _ ls ⟨0, [], none⟩ hj, hop, e1, Bind.bind, Except.bind, hp t]
    have hg : ls.getD j ⟨0, [], none⟩ = ls.get ⟨j, hj⟩ := by simp [hj]
    rw [hg, hG]
    have hs : √(P.E / P.rho) ≠ 0 := (sqrt_pos.2 (div_pos P.hE P.hrho)).ne'
    have hL := P.hL.ne'
    rcases ho : (ls.get ⟨j, hj⟩).om with _ | o
    · simp only [Option.map_none, ho, sbCoeff]
      congr 1
      rw [mul_comm b]; ring
    · simp only [Option.map_some, ho, sbCoeff]
      have : o.1 * P.L / √(P.E / P.rho) * tNorm P.E P.rho P.L t = o.1 * t := by unfold tNorm; field_simp
      rw [this, mul_comm b]
      congr 1
      ring

/-- **C178 (partial: no phase, or `E A = 1`).** Stationary loads in physical values: at the normalised time of `t`
the vector field adds to the mode of frequency `b` the sum of all forces at `t` over `E A`, each times the mode at the
position of the load. -/
theorem C178_stationary_loads_partial (P : SPhys) (nq : Option ℕ) (m : StArgs) (ls : List SLoad) (h : Spec.DescribesS m ls)
    (hp : ∀ s ∈ ls, Spec.Proper s) (hph : ∀ s ∈ ls, ∀ o, s.om = some o → o.2 = 0 ∨ P.E * P.A = 1) :
    ∃ st, stationary (P.args nq) m = .ok st ∧ ∀ s : SBeam, s.stat = st → ∀ b t,
      s.still b (tNorm P.E P.rho P.L t) = .ok ((ls.map fun l => Spec.force l t / (P.E * P.A) * sin (b * (l.x / P.L))).sum) := by
  obtain ⟨st, hst, H⟩ := still_ok P nq h hp
  refine ⟨st, hst, fun s hs b t => ?_⟩
  rw [H s hs b t]
  congr 2
  refine List.map_congr_left fun l hl => ?_
  congr 2
  unfold Spec.force
  congr 1
  rcases ho : l.om with _ | o
  · rfl
  · simp only
    rcases hph l hl o ho with h0 | h1
    · rw [h0, zero_div]
    · rw [h1, div_one]

/-- **C178.** In general the phase is divided by `E A`, in spite of the comment in the code (`phase remains
unchanged`): this is what is added instead. -/
theorem C178_phase_error (P : SPhys) (nq : Option ℕ) (m : StArgs) (ls : List SLoad) (h : Spec.DescribesS m ls)
    (hp : ∀ s ∈ ls, Spec.Proper s) :
    ∃ st, stationary (P.args nq) m = .ok st ∧ ∀ s : SBeam, s.stat = st → ∀ b t,
      s.still b (tNorm P.E P.rho P.L t) = .ok ((ls.map fun l => Spec.force ⟨l.x, l.pts, l.om.map fun o => (o.1, o.2 / (P.E * P.A))⟩ t
        / (P.E * P.A) * sin (b * (l.x / P.L))).sum) := by
  obtain ⟨st, hst, H⟩ := still_ok P nq h hp
  refine ⟨st, hst, fun s hs b t => ?_⟩
  rw [H s hs b t]
  congr 2
  refine List.map_congr_left fun l hl => ?_
  congr 2
  unfold Spec.force
  congr 1
  rcases ho : l.om with _ | o <;> rfl

/-- **C178.** For instance a steady force of 1 with phase `π` (so a force of -1) on a beam with `E A = 2` disappears. -/
theorem C178_phase_case (P : SPhys) (hEA : P.E * P.A = 2) (nq : Option ℕ) (x : ℝ) :
    let load : SLoad := ⟨x, [(0, 1), (1, 1)], some (0, π)⟩
    let m : StArgs := ⟨some [x], some [⟨some [(0, 1), (1, 1)], true, true, none⟩], some [some (0, π)], none, none, none⟩
    (∀ t, 0 ≤ t → t ≤ 1 → Spec.force load t = -1) ∧
    ∃ st, stationary (P.args nq) m = .ok st ∧ ∀ s : SBeam, s.stat = st → ∀ b t, s.still b (tNorm P.E P.rho P.L t) = .ok 0 := by
  intro load m
  refine ⟨fun t h0 h1 => ?_, ?_⟩
  · simp only [load, Spec.force, polyLeft, line, zero_mul, zero_add, cos_pi]
    rw [if_neg (not_lt.2 h0), if_pos ⟨by norm_num, h1⟩]
    norm_num
  · obtain ⟨st, hst, H⟩ := still_ok P nq (m := m) (ls := [load]) ⟨rfl, ⟨_, rfl, .cons rfl .nil⟩, Or.inl rfl, rfl, rfl, rfl⟩ (by
      intro s hs
      rw [List.mem_singleton] at hs
      subst hs
      exact ⟨by simp [SortedLe, load], (0, 1), by simp [load], (1, 1), by simp [load], by norm_num⟩)
    refine ⟨st, hst, fun s hs b t => ?_⟩
    rw [H s hs b t]
    simp [load, hEA]

end Geotecha.Beam
