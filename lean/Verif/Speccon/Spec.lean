import Mathlib.MeasureTheory.Integral.IntervalIntegral.Basic

/-!
# Specification notions for layered profiles (independent of the model)
-/

namespace Geotecha.Spec

/-- Layers with tops `zt` and bottoms `zb` that fill `[top, bot]` without gaps. -/
structure Layered (zt zb : List ℝ) (top bot : ℝ) : Prop where
  pos : 0 < zt.length
  len : zb.length = zt.length
  first : zt[0] = top
  last : zb[zt.length - 1] = bot
  joined : ∀ k (h : k + 1 < zt.length), zb[k] = zt[k+1]
  thick : ∀ k (h : k < zt.length), zt[k] < zb[k]

/-- `a` is a function of depth which inside each layer is the straight line from `t` (at the top of the layer)
to `b` (at its bottom). -/
structure LinearIn (a : ℝ → ℝ) (t b zt zb : List ℝ) : Prop where
  lent : t.length = zt.length
  lenb : b.length = zt.length
  lenz : zb.length = zt.length
  eq : ∀ k (h : k < zt.length) z, zt[k] < z → z < zb[k] →
    a z = t[k] + (b[k] - t[k]) / (zb[k] - zt[k]) * (z - zt[k])

/-- Non-zero numbers no two of which have the same absolute value. -/
def DistinctAbs (m : List ℝ) : Prop :=
  (∀ v ∈ m, v ≠ 0) ∧ m.Pairwise (fun u v => |u| ≠ |v|)

end Geotecha.Spec
