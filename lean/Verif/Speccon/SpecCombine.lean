import Verif.Speccon.SpecVR

/-!
# Specification: the same soil under different loads

Two descriptions of a consolidation problem (`Ground`, SpecVR) have the same soil, or the loads of one are a linear combination
of the loads of two others up to some time.  Point loads are compared through every weight function of depth, so that the order
of the list or the splitting of one load in two does not matter.  This file does not mention the code.
-/

set_option autoImplicit false
namespace Geotecha.Spec

/-- The same soil: compressibility, permeabilities, kind of bottom boundary, and points where a pressure is imposed with its
pseudo permeability. -/
structure Ground.SameSoil (G G' : Ground) : Prop where
  drn : G.drn = G'.drn
  mv : ∀ z, 0 < z → z < 1 → G.mv z = G'.mv z
  vert : ∀ z, 0 < z → z < 1 → G.vert z = G'.vert z
  vertEnd : G.vertEnd = G'.vertEnd
  horiz : ∀ z, 0 < z → z < 1 → G.horiz z = G'.horiz z
  fixed : ∀ phi : ℝ → ℝ, (G.fixed.map (fun f => f.2.1 * phi f.1)).sum = (G'.fixed.map (fun f => f.2.1 * phi f.1)).sum

/-- Between the times `s` and `t`, and before the start, the loads of `G` are `α` times those of `G1` plus `β` times those of
`G2`. -/
structure Ground.LoadsCombine (G G1 G2 : Ground) (α β s t : ℝ) : Prop where
  surcharge : ∀ z r, 0 < z → z < 1 → s ≤ r → r ≤ t → G.surcharge z r = α * G1.surcharge z r + β * G2.surcharge z r
  surcharge0 : ∀ z, 0 < z → z < 1 → G.surcharge0 z = α * G1.surcharge0 z + β * G2.surcharge0 z
  drain : ∀ z r, 0 < z → z < 1 → s ≤ r → r ≤ t → G.drain z r = α * G1.drain z r + β * G2.drain z r
  top : ∀ r, s ≤ r → r ≤ t → G.top r = α * G1.top r + β * G2.top r
  top0 : G.top0 = α * G1.top0 + β * G2.top0
  bot : ∀ r, s ≤ r → r ≤ t → G.bot r = α * G1.bot r + β * G2.bot r
  bot0 : G.bot0 = α * G1.bot0 + β * G2.bot0
  fixed : ∀ (phi : ℝ → ℝ) (r : ℝ), s ≤ r → r ≤ t → (G.fixed.map (fun f => f.2.1 * phi f.1 * f.2.2 r)).sum =
    α * (G1.fixed.map (fun f => f.2.1 * phi f.1 * f.2.2 r)).sum + β * (G2.fixed.map (fun f => f.2.1 * phi f.1 * f.2.2 r)).sum
  pumps : ∀ (phi : ℝ → ℝ) (r : ℝ), s ≤ r → r ≤ t → (G.pumps.map (fun p => phi p.1 * p.2 r)).sum =
    α * (G1.pumps.map (fun p => phi p.1 * p.2 r)).sum + β * (G2.pumps.map (fun p => phi p.1 * p.2 r)).sum

/-- Between `s` and `t`, and before the start, the loads are the same. -/
structure Ground.SameLoads (G G1 : Ground) (s t : ℝ) : Prop where
  surcharge : ∀ z r, 0 < z → z < 1 → s ≤ r → r ≤ t → G.surcharge z r = G1.surcharge z r
  surcharge0 : ∀ z, 0 < z → z < 1 → G.surcharge0 z = G1.surcharge0 z
  drain : ∀ z r, 0 < z → z < 1 → s ≤ r → r ≤ t → G.drain z r = G1.drain z r
  top : ∀ r, s ≤ r → r ≤ t → G.top r = G1.top r
  top0 : G.top0 = G1.top0
  bot : ∀ r, s ≤ r → r ≤ t → G.bot r = G1.bot r
  bot0 : G.bot0 = G1.bot0
  fixed : ∀ (phi : ℝ → ℝ) (r : ℝ), s ≤ r → r ≤ t →
    (G.fixed.map (fun f => f.2.1 * phi f.1 * f.2.2 r)).sum = (G1.fixed.map (fun f => f.2.1 * phi f.1 * f.2.2 r)).sum
  pumps : ∀ (phi : ℝ → ℝ) (r : ℝ), s ≤ r → r ≤ t → (G.pumps.map (fun p => phi p.1 * p.2 r)).sum = (G1.pumps.map (fun p => phi p.1 * p.2 r)).sum

/-- Between `s` and `t`, and before the start, there is no load. -/
structure Ground.NoLoads (G : Ground) (s t : ℝ) : Prop where
  surcharge : ∀ z r, 0 < z → z < 1 → s ≤ r → r ≤ t → G.surcharge z r = 0
  surcharge0 : ∀ z, 0 < z → z < 1 → G.surcharge0 z = 0
  drain : ∀ z r, 0 < z → z < 1 → s ≤ r → r ≤ t → G.drain z r = 0
  top : ∀ r, s ≤ r → r ≤ t → G.top r = 0
  top0 : G.top0 = 0
  bot : ∀ r, s ≤ r → r ≤ t → G.bot r = 0
  bot0 : G.bot0 = 0
  fixed : ∀ f ∈ G.fixed, ∀ r, s ≤ r → r ≤ t → f.2.2 r = 0
  pumps : ∀ p ∈ G.pumps, ∀ r, s ≤ r → r ≤ t → p.2 r = 0

theorem Ground.SameLoads.combine {G G1 : Ground} {s t : ℝ} (h : G.SameLoads G1 s t) : G.LoadsCombine G1 G1 1 0 s t where
  surcharge z r a b c d := by rw [h.surcharge z r a b c d]; ring
  surcharge0 z a b := by rw [h.surcharge0 z a b]; ring
  drain z r a b c d := by rw [h.drain z r a b c d]; ring
  top r c d := by rw [h.top r c d]; ring
  top0 := by rw [h.top0]; ring
  bot r c d := by rw [h.bot r c d]; ring
  bot0 := by rw [h.bot0]; ring
  fixed p r c d := by rw [h.fixed p r c d]; ring
  pumps p r c d := by rw [h.pumps p r c d]; ring

theorem sum_map_zero {ι : Type} {l : List ι} {f : ι → ℝ} (h : ∀ q ∈ l, f q = 0) : (l.map f).sum = 0 := by
  induction l with
  | nil => rfl
  | cons q l ih => rw [List.map_cons, List.sum_cons, h q (by simp), ih (fun y hy => h y (by simp [hy])), add_zero]

theorem Ground.NoLoads.combine {G : Ground} {s t : ℝ} (h : G.NoLoads s t) : G.LoadsCombine G G 0 0 s t where
  surcharge z r a b c d := by rw [h.surcharge z r a b c d]; ring
  surcharge0 z a b := by rw [h.surcharge0 z a b]; ring
  drain z r a b c d := by rw [h.drain z r a b c d]; ring
  top r c d := by rw [h.top r c d]; ring
  top0 := by rw [h.top0]; ring
  bot r c d := by rw [h.bot r c d]; ring
  bot0 := by rw [h.bot0]; ring
  fixed p r c d := by rw [sum_map_zero (fun f hf => by rw [h.fixed f hf r c d, mul_zero])]; ring
  pumps p r c d := by rw [sum_map_zero (fun f hf => by rw [h.pumps f hf r c d, mul_zero])]; ring

theorem SameSoil.rfl (G : Ground) : G.SameSoil G := ⟨Eq.refl _, fun _ _ _ => Eq.refl _, fun _ _ _ => Eq.refl _, Eq.refl _, fun _ _ _ => Eq.refl _, fun _ => Eq.refl _⟩

end Geotecha.Spec

namespace Geotecha.Spec

/-- `G'` is `G` upside down: both ends have a prescribed pressure, soil and loads are those of `G` at the mirrored depth and
the boundary values are exchanged, between the times `s` and `t` and before the start. -/
structure Ground.Mirrored (G G' : Ground) (s t : ℝ) : Prop where
  drn : G.drn = 0
  drn' : G'.drn = 0
  mv : ∀ z, 0 < z → z < 1 → G'.mv z = G.mv (1 - z)
  vert : ∀ z, 0 < z → z < 1 → G'.vert z = G.vert (1 - z)
  horiz : ∀ z, 0 < z → z < 1 → G'.horiz z = G.horiz (1 - z)
  surcharge : ∀ z r, 0 < z → z < 1 → s ≤ r → r ≤ t → G'.surcharge z r = G.surcharge (1 - z) r
  surcharge0 : ∀ z, 0 < z → z < 1 → G'.surcharge0 z = G.surcharge0 (1 - z)
  drain : ∀ z r, 0 < z → z < 1 → s ≤ r → r ≤ t → G'.drain z r = G.drain (1 - z) r
  top : ∀ r, s ≤ r → r ≤ t → G'.top r = G.bot r
  top0 : G'.top0 = G.bot0
  bot : ∀ r, s ≤ r → r ≤ t → G'.bot r = G.top r
  bot0 : G'.bot0 = G.top0
  fixed : ∀ phi : ℝ → ℝ, (G'.fixed.map (fun f => f.2.1 * phi f.1)).sum = (G.fixed.map (fun f => f.2.1 * phi (1 - f.1))).sum
  fixedLoad : ∀ (phi : ℝ → ℝ) (r : ℝ), s ≤ r → r ≤ t →
    (G'.fixed.map (fun f => f.2.1 * phi f.1 * f.2.2 r)).sum = (G.fixed.map (fun f => f.2.1 * phi (1 - f.1) * f.2.2 r)).sum
  pumps : ∀ (phi : ℝ → ℝ) (r : ℝ), s ≤ r → r ≤ t →
    (G'.pumps.map (fun p => phi p.1 * p.2 r)).sum = (G.pumps.map (fun p => phi (1 - p.1) * p.2 r)).sum

end Geotecha.Spec
