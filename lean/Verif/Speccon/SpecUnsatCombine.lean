import Verif.Speccon.SpecUnsat

/-!
# Specification: the same unsaturated soil under different loads

The counterpart of SpecCombine for `Unsat` (SpecUnsat).  This file does not mention the code.
-/

set_option autoImplicit false
namespace Geotecha.Spec

/-- The same soil: compressibilities, porosity, saturation, conductivities and kind of bottom boundary. -/
structure Unsat.SameSoil (U U' : Unsat) : Prop where
  drn : U.drn = U'.drn
  m1kw : ∀ z, 0 < z → z < 1 → U.m1kw z = U'.m1kw z
  m2w : ∀ z, 0 < z → z < 1 → U.m2w z = U'.m2w z
  m1ka : ∀ z, 0 < z → z < 1 → U.m1ka z = U'.m1ka z
  m2a : ∀ z, 0 < z → z < 1 → U.m2a z = U'.m2a z
  n : ∀ z, 0 < z → z < 1 → U.n z = U'.n z
  S : ∀ z, 0 < z → z < 1 → U.S z = U'.S z
  airRef : U.airRef = U'.airRef
  water : ∀ z, 0 < z → z < 1 → U.water.cond z = U'.water.cond z
  waterEnd : U.water.condEnd = U'.water.condEnd
  air : ∀ z, 0 < z → z < 1 → U.air.cond z = U'.air.cond z
  airEnd : U.air.condEnd = U'.air.condEnd

/-- The boundary values of a fluid are `α` times those of `F1` plus `β` times those of `F2`. -/
structure Fluid.Combine (F F1 F2 : Fluid) (α β s t : ℝ) : Prop where
  top : ∀ r, s ≤ r → r ≤ t → F.top r = α * F1.top r + β * F2.top r
  top0 : F.top0 = α * F1.top0 + β * F2.top0
  bot : ∀ r, s ≤ r → r ≤ t → F.bot r = α * F1.bot r + β * F2.bot r
  bot0 : F.bot0 = α * F1.bot0 + β * F2.bot0

/-- Between the times `s` and `t`, and before the start, the loads of `U` are `α` times those of `U1` plus `β` times those of `U2`. -/
structure Unsat.LoadsCombine (U U1 U2 : Unsat) (α β s t : ℝ) : Prop where
  surcharge : ∀ z r, 0 < z → z < 1 → s ≤ r → r ≤ t → U.surcharge z r = α * U1.surcharge z r + β * U2.surcharge z r
  surcharge0 : ∀ z, 0 < z → z < 1 → U.surcharge0 z = α * U1.surcharge0 z + β * U2.surcharge0 z
  water : U.water.Combine U1.water U2.water α β s t
  air : U.air.Combine U1.air U2.air α β s t

/-- Between `s` and `t`, and before the start, the boundary values are the same. -/
structure Fluid.SameValues (F F1 : Fluid) (s t : ℝ) : Prop where
  top : ∀ r, s ≤ r → r ≤ t → F.top r = F1.top r
  top0 : F.top0 = F1.top0
  bot : ∀ r, s ≤ r → r ≤ t → F.bot r = F1.bot r
  bot0 : F.bot0 = F1.bot0

/-- Between `s` and `t`, and before the start, the loads are the same. -/
structure Unsat.SameLoads (U U1 : Unsat) (s t : ℝ) : Prop where
  surcharge : ∀ z r, 0 < z → z < 1 → s ≤ r → r ≤ t → U.surcharge z r = U1.surcharge z r
  surcharge0 : ∀ z, 0 < z → z < 1 → U.surcharge0 z = U1.surcharge0 z
  water : U.water.SameValues U1.water s t
  air : U.air.SameValues U1.air s t

/-- Between `s` and `t`, and before the start, the boundary values are zero. -/
structure Fluid.Zero (F : Fluid) (s t : ℝ) : Prop where
  top : ∀ r, s ≤ r → r ≤ t → F.top r = 0
  top0 : F.top0 = 0
  bot : ∀ r, s ≤ r → r ≤ t → F.bot r = 0
  bot0 : F.bot0 = 0

/-- Between `s` and `t`, and before the start, there is no load. -/
structure Unsat.NoLoads (U : Unsat) (s t : ℝ) : Prop where
  surcharge : ∀ z r, 0 < z → z < 1 → s ≤ r → r ≤ t → U.surcharge z r = 0
  surcharge0 : ∀ z, 0 < z → z < 1 → U.surcharge0 z = 0
  water : U.water.Zero s t
  air : U.air.Zero s t

theorem Unsat.SameSoil.rfl (U : Unsat) : U.SameSoil U :=
  ⟨Eq.refl _, fun _ _ _ => Eq.refl _, fun _ _ _ => Eq.refl _, fun _ _ _ => Eq.refl _, fun _ _ _ => Eq.refl _, fun _ _ _ => Eq.refl _,
    fun _ _ _ => Eq.refl _, Eq.refl _, fun _ _ _ => Eq.refl _, Eq.refl _, fun _ _ _ => Eq.refl _, Eq.refl _⟩

theorem Fluid.SameValues.combine {F F1 : Fluid} {s t : ℝ} (h : F.SameValues F1 s t) : F.Combine F1 F1 1 0 s t where
  top r c d := by rw [h.top r c d]; ring
  top0 := by rw [h.top0]; ring
  bot r c d := by rw [h.bot r c d]; ring
  bot0 := by rw [h.bot0]; ring

theorem Fluid.Zero.combine {F : Fluid} {s t : ℝ} (h : F.Zero s t) : F.Combine F F 0 0 s t where
  top r c d := by rw [h.top r c d]; ring
  top0 := by rw [h.top0]; ring
  bot r c d := by rw [h.bot r c d]; ring
  bot0 := by rw [h.bot0]; ring

theorem Unsat.SameLoads.combine {U U1 : Unsat} {s t : ℝ} (h : U.SameLoads U1 s t) : U.LoadsCombine U1 U1 1 0 s t where
  surcharge z r a b c d := by rw [h.surcharge z r a b c d]; ring
  surcharge0 z a b := by rw [h.surcharge0 z a b]; ring
  water := h.water.combine
  air := h.air.combine

theorem Unsat.NoLoads.combine {U : Unsat} {s t : ℝ} (h : U.NoLoads s t) : U.LoadsCombine U U 0 0 s t where
  surcharge z r a b c d := by rw [h.surcharge z r a b c d]; ring
  surcharge0 z a b := by rw [h.surcharge0 z a b]; ring
  water := h.water.combine
  air := h.air.combine

end Geotecha.Spec
