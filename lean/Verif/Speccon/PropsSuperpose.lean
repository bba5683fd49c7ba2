import Verif.Speccon.Superpose

/-!
# C222, C223, C224: superposition of loads, and what the output of speccon1d_vr does not depend on
-/

set_option linter.unusedVariables false
set_option autoImplicit false
open Real intervalIntegral MeasureTheory Filter Topology
namespace Geotecha.Speccon
open Geotecha.Spec Geotecha.Piecewise

variable {x x1 x2 : VR} {S S1 S2 : Set ℝ} {s tend : ℝ} {G G1 G2 : Ground} {a a1 a2 : VRArrays}

theorem surcharge_bdd_at (h : VRInput x S s tend G) (t : ℝ) : BddOn (fun z => G.surcharge z t) 0 1 := by
  have hs := h.surcharge
  have hz : ∀ (c : ℝ), BddOn (fun _ => c) 0 1 := fun c => BddOn.of_continuous continuous_const 0 1
  rcases e1 : x.surchargeDepth with _ | d <;> rcases e2 : x.surchargeTime with _ | l <;> rw [e1, e2] at hs <;>
    first
      | (obtain ⟨hs, a1, a2, a3⟩ := hs
         have hb : ∀ y ∈ hs, BddOn y.1 0 1 := forall₂_right a1 (fun a b hab => Profile.bdd hab.1)
         have c1 : BddOn (fun z => (hs.map (fun h => h.1 z * h.2.1 t)).sum) 0 1 := BddOn.listSum (fun w hw => (hb w hw).mul (hz _))
         exact c1.congr_Ioo (fun z _ _ => a2 z t))
      | exact (hz 0).congr_Ioo (fun z _ _ => hs.1 z t)

/-- The surcharge lists have equal lengths (enforced by `check_input_attributes`, C62), needed only by `_make_set`. -/
def SurchargeLengths (x : VR) : Prop :=
  (∀ l d, x.surchargeTime = some l → x.surchargeDepth = some d → d.length = l.length ∧ OmLen l x.surchargeOm) ∧
  (x.surchargeDepth = none → x.surchargeTime = none)

/-- The average pressures of three runs follow the pore pressures, and so do the settlements. -/
theorem outputs_combine_of (h : VRInput x S s tend G) (h1 : VRInput x1 S1 s tend G1) (h2 : VRInput x2 S2 s tend G2) (ha : a.Made x) (ha1 : a1.Made x1)
    (ha2 : a2.Made x2) (l : SurchargeLengths x) (l1 : SurchargeLengths x1) (l2 : SurchargeLengths x2) {α β t : ℝ} (hst : s ≤ t) (ht : t ≤ tend)
    {u u1 u2 : ℝ → ℝ} (p : ∀ z, 0 ≤ z → z ≤ 1 → x.por a.m a.eigs a.v a.Igamv z t = .ok (u z))
    (p1 : ∀ z, 0 ≤ z → z ≤ 1 → x1.por a1.m a1.eigs a1.v a1.Igamv z t = .ok (u1 z))
    (p2 : ∀ z, 0 ≤ z → z ≤ 1 → x2.por a2.m a2.eigs a2.v a2.Igamv z t = .ok (u2 z))
    (cu : Continuous u ∧ Continuous u1 ∧ Continuous u2) (hu : ∀ z, u z = α * u1 z + β * u2 z)
    {z1 z2 : ℝ} (hz0 : 0 ≤ z1) (hz : z1 < z2) (hz1 : z2 ≤ 1) :
    (∃ v v1 v2 : ℝ, x.avp a.m a.eigs a.v a.Igamv z1 z2 t = .ok v ∧ x1.avp a1.m a1.eigs a1.v a1.Igamv z1 z2 t = .ok v1 ∧
      x2.avp a2.m a2.eigs a2.v a2.Igamv z1 z2 t = .ok v2 ∧ v = α * v1 + β * v2) ∧
    (x.H * x.mvref = x1.H * x1.mvref → x.H * x.mvref = x2.H * x2.mvref → G1.SameSoil G → G2.SameSoil G →
      (∀ z, 0 < z → z < 1 → G.surcharge z t = α * G1.surcharge z t + β * G2.surcharge z t) →
      ∃ v v1 v2 : ℝ, x.settle a.m a.eigs a.v a.Igamv z1 z2 t = .ok v ∧ x1.settle a1.m a1.eigs a1.v a1.Igamv z1 z2 t = .ok v1 ∧
      x2.settle a2.m a2.eigs a2.v a2.Igamv z1 z2 t = .ok v2 ∧ v = α * v1 + β * v2) := by
  have out : ∀ (y : VR) (T : Set ℝ) (H : Ground) (b : VRArrays), VRInput y T s tend H → b.Made y → SurchargeLengths y → ∀ w : ℝ → ℝ, Continuous w →
      (∀ z, 0 ≤ z → z ≤ 1 → y.por b.m b.eigs b.v b.Igamv z t = .ok (w z)) →
      y.avp b.m b.eigs b.v b.Igamv z1 z2 t = .ok ((∫ z in z1..z2, w z) / (z2 - z1)) ∧
      y.settle b.m b.eigs b.v b.Igamv z1 z2 t = .ok (y.H * y.mvref * ∫ z in z1..z2, H.mv z * (H.surcharge z t - w z)) ∧
      IntervalIntegrable (fun z => H.mv z * (H.surcharge z t - w z)) volume z1 z2 := by
    intro y T H b hy hb hl w cw hw
    obtain ⟨g, p, eg, ep, hE⟩ := hb.eig
    obtain ⟨w', v, q1, q2, q3, q4⟩ := C76_outputs_agree hy b.m hb.m g p b.eigs b.v b.Igamv hE hb.nonzero z1 z2 t hz0 hz hz1 hst ht hl.1 hl.2
    have e : ∀ z, z1 < z → z < z2 → w' z = w z := fun z c d => by
      have c0 := q1 z (by linarith) (by linarith)
      rw [hw z (by linarith) (by linarith)] at c0
      injection c0 with c0
      exact c0.symm
    have e1 : ∫ z in z1..z2, w' z = ∫ z in z1..z2, w z := integral_congr_Ioo' hz.le e
    have e2 : ∫ z in z1..z2, H.mv z * (H.surcharge z t - w' z) = ∫ z in z1..z2, H.mv z * (H.surcharge z t - w z) :=
      integral_congr_Ioo' hz.le (fun z c d => by rw [e z c d])
    refine ⟨?_, by rw [q4, e2], ?_⟩
    · rw [q2, ← e1, ← q3, mul_div_cancel_right₀ _ (sub_ne_zero.2 hz.ne')]
    · have : BddOn (fun z => H.mv z * (H.surcharge z t + (-1) * w z)) 0 1 := (Profile.bdd hy.mv).mul
        ((surcharge_bdd_at hy t).add (BddOn.of_continuous (f := fun z => (-1) * w z) (by fun_prop) 0 1))
      have i := (this.int zero_le_one).mono_set (c := z1) (d := z2) (by
        rw [Set.uIcc_of_le hz.le, Set.uIcc_of_le zero_le_one]; exact Set.Icc_subset_Icc hz0 hz1)
      exact i.congr (fun z _ => by ring)
  obtain ⟨o1, o2, o3⟩ := out x S G a h ha l u cu.1 p
  obtain ⟨q1, q2, q3⟩ := out x1 S1 G1 a1 h1 ha1 l1 u1 cu.2.1 p1
  obtain ⟨r1, r2, r3⟩ := out x2 S2 G2 a2 h2 ha2 l2 u2 cu.2.2 p2
  refine ⟨⟨_, _, _, o1, q1, r1, ?_⟩, fun k1 k2 e1 e2 hs => ⟨_, _, _, o2, q2, r2, ?_⟩⟩
  · rw [int_combine hz.le (cu.2.1.intervalIntegrable _ _) (cu.2.2.intervalIntegrable _ _) (fun r _ _ => hu r)]
    ring
  · rw [int_combine (α := α) (β := β) hz.le q3 r3 (fun z c d => by
      have c' : 0 < z := by linarith
      have d' : z < 1 := by linarith
      rw [hs z c' d', hu, e1.mv z c' d', e2.mv z c' d']; ring), ← k1, ← k2]
    ring

/-- Same `dT`: the matrices of the three runs agree. -/
theorem same_matrices (h : VRInput x S s tend G) (h1 : VRInput x1 S1 s tend G1) (ha : a.Made x) (ha1 : a1.Made x1) (e1 : G1.SameSoil G)
    (hn : x1.neig = x.neig) (hdT : x1.dT = x.dT) {gam psi : ℕ → ℕ → ℝ} (hg : x.gam a.m = .ok gam) (hp : x.psi a.m = .ok psi) :
    a1.m = a.m ∧ ∀ g p, x1.gam a1.m = .ok g → x1.psi a1.m = .ok p → ∀ i j, i < a1.m.length → j < a1.m.length →
      g i j = gam i j ∧ x1.dT * p i j = x.dT * psi i j := by
  obtain ⟨g1, p1, eg1, ep1, _⟩ := ha1.eig
  obtain ⟨hm, _⟩ := matrices_same h h1 e1 hn hdT ha.m ha1.m hg hp eg1 ep1
  refine ⟨hm, fun g p eg ep i j hi hj => ?_⟩
  obtain ⟨_, k⟩ := matrices_same h h1 e1 hn hdT ha.m ha1.m hg hp eg ep
  obtain ⟨k1, k2⟩ := k i j (by rw [← hm]; exact hi) (by rw [← hm]; exact hj)
  exact ⟨k1, by rw [k2, hdT]⟩

/-- **C222** Superposition.  Three inputs with the same soil, the same number of terms and the same `dT`: if up to time `t` the
loads of the first are `α` times the loads of the second plus `β` times those of the third, the same holds for the computed pore
pressure at `t` at every depth. -/
theorem C222_pore_pressure (h : VRInput x S s tend G) (h1 : VRInput x1 S1 s tend G1) (h2 : VRInput x2 S2 s tend G2) (ha : a.Made x) (ha1 : a1.Made x1)
    (ha2 : a2.Made x2) (hn1 : x1.neig = x.neig) (hn2 : x2.neig = x.neig) (hd1 : x1.dT = x.dT) (hd2 : x2.dT = x.dT)
    (e1 : G1.SameSoil G) (e2 : G2.SameSoil G) (α β t : ℝ) (hst : s ≤ t) (ht : t ≤ tend) (hL : G.LoadsCombine G1 G2 α β s t) :
    ∀ z, 0 ≤ z → z ≤ 1 → ∃ u u1 u2 : ℝ, x.por a.m a.eigs a.v a.Igamv z t = .ok u ∧ x1.por a1.m a1.eigs a1.v a1.Igamv z t = .ok u1 ∧
      x2.por a2.m a2.eigs a2.v a2.Igamv z t = .ok u2 ∧ u = α * u1 + β * u2 := by
  obtain ⟨gam, psi, hg, hp, hE⟩ := ha.eig
  obtain ⟨m1, k1⟩ := same_matrices h h1 ha ha1 e1 hn1 hd1 hg hp
  obtain ⟨m2, k2⟩ := same_matrices h h2 ha ha2 e2 hn2 hd2 hg hp
  obtain ⟨u, u1, u2, p, p1, p2, cu, hu⟩ := por_combine_of h h1 h2 ha ha1 ha2 e1 e2 hst ht hL m1 m2 (gam := gam) (P := fun i j => x.dT * psi i j)
    (fun g p eg ep i j hi hj => by
      rw [hg] at eg; rw [hp] at ep
      injection eg with eg; injection ep with ep
      subst eg ep
      exact ⟨rfl, rfl⟩) k1 k2
  exact fun z z0 z1 => ⟨_, _, _, p z z0 z1, p1 z z0 z1, p2 z z0 z1, hu z⟩

/-- **C222** The same for the average pore pressure between two depths and, when `H mvref` is the same, for the settlement. -/
theorem C222_average_and_settlement (h : VRInput x S s tend G) (h1 : VRInput x1 S1 s tend G1) (h2 : VRInput x2 S2 s tend G2) (ha : a.Made x) (ha1 : a1.Made x1)
    (ha2 : a2.Made x2) (hn1 : x1.neig = x.neig) (hn2 : x2.neig = x.neig) (hd1 : x1.dT = x.dT) (hd2 : x2.dT = x.dT)
    (e1 : G1.SameSoil G) (e2 : G2.SameSoil G) (α β t : ℝ) (hst : s ≤ t) (ht : t ≤ tend) (hL : G.LoadsCombine G1 G2 α β s t)
    (l : SurchargeLengths x) (l1 : SurchargeLengths x1) (l2 : SurchargeLengths x2) (z1 z2 : ℝ) (hz0 : 0 ≤ z1) (hz : z1 < z2) (hz1 : z2 ≤ 1) :
    (∃ v v1 v2 : ℝ, x.avp a.m a.eigs a.v a.Igamv z1 z2 t = .ok v ∧ x1.avp a1.m a1.eigs a1.v a1.Igamv z1 z2 t = .ok v1 ∧
      x2.avp a2.m a2.eigs a2.v a2.Igamv z1 z2 t = .ok v2 ∧ v = α * v1 + β * v2) ∧
    (x.H * x.mvref = x1.H * x1.mvref → x.H * x.mvref = x2.H * x2.mvref →
      ∃ v v1 v2 : ℝ, x.settle a.m a.eigs a.v a.Igamv z1 z2 t = .ok v ∧ x1.settle a1.m a1.eigs a1.v a1.Igamv z1 z2 t = .ok v1 ∧
      x2.settle a2.m a2.eigs a2.v a2.Igamv z1 z2 t = .ok v2 ∧ v = α * v1 + β * v2) := by
  obtain ⟨gam, psi, hg, hp, hE⟩ := ha.eig
  obtain ⟨m1, k1⟩ := same_matrices h h1 ha ha1 e1 hn1 hd1 hg hp
  obtain ⟨m2, k2⟩ := same_matrices h h2 ha ha2 e2 hn2 hd2 hg hp
  obtain ⟨u, u1, u2, p, p1, p2, cu, hu⟩ := por_combine_of h h1 h2 ha ha1 ha2 e1 e2 hst ht hL m1 m2 (gam := gam) (P := fun i j => x.dT * psi i j)
    (fun g p eg ep i j hi hj => by
      rw [hg] at eg; rw [hp] at ep
      injection eg with eg; injection ep with ep
      subst eg ep
      exact ⟨rfl, rfl⟩) k1 k2
  obtain ⟨o1, o2⟩ := outputs_combine_of h h1 h2 ha ha1 ha2 l l1 l2 hst ht p p1 p2 cu hu hz0 hz hz1
  exact ⟨o1, fun c d => o2 c d e1 e2 (fun z q r => hL.surcharge z t q r hst le_rfl)⟩

/-- **C223** Causality, and independence of the way the loads are written and of what `np.linalg.eig` returns.  Two inputs with the
same soil, number of terms and `dT` whose loads agree up to time `t` give the same pore pressure at `t`: later loads have no
effect, nor has splitting, reordering or refining load histories, nor the `implementation`, nor the order and scaling of the
eigenvectors. -/
theorem C223_causal (h : VRInput x S s tend G) (h1 : VRInput x1 S1 s tend G1) (ha : a.Made x) (ha1 : a1.Made x1)
    (hn1 : x1.neig = x.neig) (hd1 : x1.dT = x.dT) (e1 : G1.SameSoil G) (t : ℝ) (hst : s ≤ t) (ht : t ≤ tend)
    (hL : G.SameLoads G1 s t) :
    ∀ z, 0 ≤ z → z ≤ 1 → ∃ u : ℝ, x.por a.m a.eigs a.v a.Igamv z t = .ok u ∧ x1.por a1.m a1.eigs a1.v a1.Igamv z t = .ok u := by
  intro z z0 z1
  obtain ⟨u, u1, u2, q, q1, q2, e⟩ := C222_pore_pressure h h1 h1 ha ha1 ha1 hn1 hn1 hd1 hd1 e1 e1 1 0 t hst ht hL.combine z z0 z1
  exact ⟨u, q, by rw [q1, e]; simp⟩

/-- **C223** The same for average pore pressure and settlement. -/
theorem C223_causal_average_settlement (h : VRInput x S s tend G) (h1 : VRInput x1 S1 s tend G1) (ha : a.Made x) (ha1 : a1.Made x1)
    (hn1 : x1.neig = x.neig) (hd1 : x1.dT = x.dT) (e1 : G1.SameSoil G) (t : ℝ) (hst : s ≤ t) (ht : t ≤ tend)
    (hL : G.SameLoads G1 s t) (l : SurchargeLengths x) (l1 : SurchargeLengths x1) (z1 z2 : ℝ) (hz0 : 0 ≤ z1) (hz : z1 < z2) (hz1 : z2 ≤ 1) :
    (∃ v : ℝ, x.avp a.m a.eigs a.v a.Igamv z1 z2 t = .ok v ∧ x1.avp a1.m a1.eigs a1.v a1.Igamv z1 z2 t = .ok v) ∧
    (x.H * x.mvref = x1.H * x1.mvref →
      ∃ v : ℝ, x.settle a.m a.eigs a.v a.Igamv z1 z2 t = .ok v ∧ x1.settle a1.m a1.eigs a1.v a1.Igamv z1 z2 t = .ok v) := by
  obtain ⟨⟨u, u1, u2, q, q1, q2, e⟩, o⟩ := C222_average_and_settlement h h1 h1 ha ha1 ha1 hn1 hn1 hd1 hd1 e1 e1 1 0 t hst ht hL.combine l l1 l1 z1 z2 hz0 hz hz1
  refine ⟨⟨u, q, by rw [q1, e]; simp⟩, fun k => ?_⟩
  obtain ⟨w, w1, w2, r, r1, r2, e'⟩ := o k k
  exact ⟨w, r, by rw [r1, e']; simp⟩

/-- **C223** Nothing happens before the first load: while all loads are zero the pore pressure is zero. -/
theorem C223_quiescent (h : VRInput x S s tend G) (ha : a.Made x) (t : ℝ) (hst : s ≤ t) (ht : t ≤ tend) (hL : G.NoLoads s t) :
    ∀ z, 0 ≤ z → z ≤ 1 → x.por a.m a.eigs a.v a.Igamv z t = .ok 0 := by
  intro z z0 z1
  obtain ⟨u, u1, u2, q, q1, q2, e⟩ := C222_pore_pressure h h h ha ha ha rfl rfl rfl rfl (SameSoil.rfl G) (SameSoil.rfl G) 0 0 t hst ht hL.combine z z0 z1
  rw [q, e]; simp

/-- No entry of the two matrices lies strictly between 0 and the tolerance 1e-8 of the program: the hypothesis of C77_exact. -/
def NothingDropped (x : VR) (G : Ground) : Prop :=
  ∀ i j, i < x.neig → j < x.neig → ∀ wi wj, wi = π * ((i:ℝ) + 1 - G.drn / 2) → wj = π * ((j:ℝ) + 1 - G.drn / 2) →
    (∀ a, a = ∫ z in (0:ℝ)..1, G.mv z * sin (wi * z) * sin (wj * z) → a = 0 ∨ 1 / 100000000 ≤ |a|) ∧
    (∀ a, x.dT * a = (∫ z in (0:ℝ)..1, G.vert z * (wi * cos (wi * z)) * (wj * cos (wj * z)))
        + (∫ z in (0:ℝ)..1, G.horiz z * sin (wi * z) * sin (wj * z))
        + (G.fixed.map (fun f => f.2.1 * sin (wi * f.1) * sin (wj * f.1))).sum → a = 0 ∨ 1 / 100000000 ≤ |a|)

theorem exact_matrices (h : VRInput x S s tend G) (ha : a.Made x) (hb : NothingDropped x G) :
    ∀ g p, x.gam a.m = .ok g → x.psi a.m = .ok p → ∀ i j, i < a.m.length → j < a.m.length →
      g i j = gamma G (a.m.getD i 0) (a.m.getD j 0) ∧ x.dT * p i j = psiForm G (a.m.getD i 0) (a.m.getD j 0) := by
  intro g p hg hp i j hi hj
  obtain ⟨hl, hget, hd, hne, hsc⟩ := m_ok h ha.m
  obtain ⟨g', eg, hge⟩ := gam_ok h hd
  obtain ⟨p', ep, hpe⟩ := psi_ok h hd
  rw [hg] at eg; rw [hp] at ep
  injection eg with eg; injection ep with ep
  subst eg ep
  have hi' : i < x.neig := by omega
  have hj' : j < x.neig := by omega
  obtain ⟨b1, b2⟩ := hb i j hi' hj' _ _ (hget i hi') (hget j hj')
  rw [chop_exact g' i j (b1 _ (hge i j hi hj)), chop_exact p' i j (b2 _ (hpe i j hi hj))]
  exact ⟨hge i j hi hj, hpe i j hi hj⟩

/-- **C224** The reference time factor `dT` is only a unit of time: when no matrix entry falls below the tolerance, two inputs that
describe the same ground and loads with different `dT` give the same pore pressure, average pressure and settlement.
(`mvref` and `H` too are then free, except for the settlement.) -/
theorem C224_reference_time (h : VRInput x S s tend G) (h1 : VRInput x1 S1 s tend G1) (ha : a.Made x) (ha1 : a1.Made x1)
    (hn1 : x1.neig = x.neig) (e1 : G1.SameSoil G) (b : NothingDropped x G) (b1 : NothingDropped x1 G1) (t : ℝ) (hst : s ≤ t) (ht : t ≤ tend)
    (hL : G.SameLoads G1 s t) :
    (∀ z, 0 ≤ z → z ≤ 1 → ∃ u : ℝ, x.por a.m a.eigs a.v a.Igamv z t = .ok u ∧ x1.por a1.m a1.eigs a1.v a1.Igamv z t = .ok u) ∧
    (SurchargeLengths x → SurchargeLengths x1 → ∀ z1 z2, 0 ≤ z1 → z1 < z2 → z2 ≤ 1 →
      (∃ v : ℝ, x.avp a.m a.eigs a.v a.Igamv z1 z2 t = .ok v ∧ x1.avp a1.m a1.eigs a1.v a1.Igamv z1 z2 t = .ok v) ∧
      (x.H * x.mvref = x1.H * x1.mvref →
        ∃ v : ℝ, x.settle a.m a.eigs a.v a.Igamv z1 z2 t = .ok v ∧ x1.settle a1.m a1.eigs a1.v a1.Igamv z1 z2 t = .ok v)) := by
  have hm : a1.m = a.m := by
    have d : x1.drn = x.drn := by rw [← h.drnG, ← h1.drnG, e1.drn]
    have e : x1.m = x.m := by unfold VR.m; rw [hn1, d]
    have q := ha1.m
    rw [e, ha.m] at q
    injection q with q
    exact q.symm
  have k := exact_matrices h ha b
  have k1 := exact_matrices h1 ha1 b1
  have k1' : ∀ g p, x1.gam a1.m = .ok g → x1.psi a1.m = .ok p → ∀ i j, i < a1.m.length → j < a1.m.length →
      g i j = gamma G (a.m.getD i 0) (a.m.getD j 0) ∧ x1.dT * p i j = psiForm G (a.m.getD i 0) (a.m.getD j 0) := by
    intro g p eg ep i j hi hj
    obtain ⟨q1, q2⟩ := k1 g p eg ep i j hi hj
    rw [q1, q2, SameSoil.gamma e1, SameSoil.psiForm e1, hm]
    exact ⟨rfl, rfl⟩
  obtain ⟨u, u1, u2, p, p1, p2, cu, hu⟩ := por_combine_of h h1 h1 ha ha1 ha1 e1 e1 hst ht hL.combine hm hm
    (gam := fun i j => gamma G (a.m.getD i 0) (a.m.getD j 0)) (P := fun i j => psiForm G (a.m.getD i 0) (a.m.getD j 0)) k k1' k1'
  refine ⟨fun z z0 z1 => ⟨u z, p z z0 z1, by rw [p1 z z0 z1, hu z]; simp⟩, fun l l1 z1 z2 c0 c c1 => ?_⟩
  obtain ⟨⟨v, v1, v2, r, r1, r2, e⟩, o⟩ := outputs_combine_of h h1 h1 ha ha1 ha1 l l1 l1 hst ht p p1 p2 cu hu c0 c c1
  refine ⟨⟨v, r, by rw [r1, e]; simp⟩, fun hH => ?_⟩
  obtain ⟨v, v1, v2, r, r1, r2, e⟩ := o hH hH e1 e1 (fun z q r => hL.combine.surcharge z t q r hst le_rfl)
  exact ⟨v, r, by rw [r1, e]; simp⟩

end Geotecha.Speccon
