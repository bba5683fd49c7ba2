import Verif.Piecewise.Model

/-! # Model of the product integral and its wrappers (piecewise_linear_1d.py:1534-2197) -/

namespace Geotecha.Piecewise

variable {K : Type} [Field K] [LinearOrder K]

/-- Lines 1744-1745: `np.allclose` on `x1a, x1b` and `x2a, x2b` ("they may be different sizes":
different sizes raise a broadcasting `ValueError`, also when only one length differs from 1; the
broadcast of a length-1 array against a longer one, which numpy would accept, is treated as a
`ValueError` here, since `polyline_make_x_common` always supplies equal lengths). -/
def prodCheck (a b : Segs4 K) : Except PyErr Unit :=
  if a.x1.length ≠ b.x1.length ∨ a.x2.length ≠ b.x2.length then .error .valueError
  else if ¬ (allclose a.x1 b.x1 ∧ allclose a.x2 b.x2) then .error .valueError
  else .ok ()

/-- `integrate_x1a_x2a_y1a_y2a_multiply_x1b_x2b_y1b_y2b_between` for one pair of limits,
piecewise_linear_1d.py:1696-1802.  The four sums are the branches at 1764-1772, 1773-1781, 1782-1791
and 1792-1800. -/
def integrateProd (a b : Segs4 K) (xi xj : K) : Except PyErr K := do
  prodCheck a b
  match a.x2.getLast? with
  | none => .error .indexError
  | some xl =>
    let r := segmentsBetween (a.x1 ++ [xl]) xi xj
    let aS (s : ℕ) := (nth a.y2 s - nth a.y1 s) / (nth a.x2 s - nth a.x1 s)
    let bS (s : ℕ) := (nth b.y2 s - nth b.y1 s) / (nth b.x2 s - nth b.x1 s)
    pure (
      (r.both.map (fun s =>
        (-(aS s)*(bS s)*xi^3/3 + (aS s)*(bS s)*xj^3/3 - (-(aS s)*(bS s)*nth a.x1 s +
          (aS s)*nth b.y1 s/2 + (bS s)*nth a.y1 s/2)*xi^2 + (-(aS s)*(bS s)*nth a.x1 s +
          (aS s)*nth b.y1 s/2 + (bS s)*nth a.y1 s/2)*xj^2 - ((aS s)*(bS s)*(nth a.x1 s)^2 -
          (aS s)*nth a.x1 s*nth b.y1 s - (bS s)*nth a.x1 s*nth a.y1 s + nth b.y1 s*nth a.y1 s)*xi +
          ((aS s)*(bS s)*(nth a.x1 s)^2 - (aS s)*nth a.x1 s*nth b.y1 s - (bS s)*nth a.x1 s*nth a.y1 s
          + nth b.y1 s*nth a.y1 s)*xj))).sum
      + (r.xiOnly.map (fun s =>
        ((aS s)*(bS s)*(nth a.x2 s)^3/3 - (aS s)*(bS s)*xi^3/3 - (-(aS s)*(bS s)*nth a.x1 s +
          (aS s)*nth b.y1 s/2 + (bS s)*nth a.y1 s/2)*xi^2 - ((aS s)*(bS s)*(nth a.x1 s)^2 -
          (aS s)*nth a.x1 s*nth b.y1 s - (bS s)*nth a.x1 s*nth a.y1 s + nth b.y1 s*nth a.y1 s)*xi +
          nth a.x2 s*((aS s)*(bS s)*(nth a.x1 s)^2 - (aS s)*nth a.x1 s*nth b.y1 s -
          (bS s)*nth a.x1 s*nth a.y1 s + nth b.y1 s*nth a.y1 s) +
          (nth a.x2 s)^2*(-(aS s)*(bS s)*nth a.x1 s + (aS s)*nth b.y1 s/2 + (bS s)*nth a.y1 s/2)))).sum
      + (r.between.map (fun s =>
        (-(aS s)*(bS s)*(nth a.x1 s)^3/3 + (aS s)*(bS s)*(nth a.x2 s)^3/3 -
          nth a.x1 s*((aS s)*(bS s)*(nth a.x1 s)^2 - (aS s)*nth a.x1 s*nth b.y1 s -
          (bS s)*nth a.x1 s*nth a.y1 s + nth b.y1 s*nth a.y1 s) -
          (nth a.x1 s)^2*(-(aS s)*(bS s)*nth a.x1 s + (aS s)*nth b.y1 s/2 + (bS s)*nth a.y1 s/2) +
          nth a.x2 s*((aS s)*(bS s)*(nth a.x1 s)^2 - (aS s)*nth a.x1 s*nth b.y1 s -
          (bS s)*nth a.x1 s*nth a.y1 s + nth b.y1 s*nth a.y1 s) +
          (nth a.x2 s)^2*(-(aS s)*(bS s)*nth a.x1 s + (aS s)*nth b.y1 s/2 + (bS s)*nth a.y1 s/2)))).sum
      + (r.xjOnly.map (fun s =>
        (-(aS s)*(bS s)*(nth a.x1 s)^3/3 + (aS s)*(bS s)*xj^3/3 + (-(aS s)*(bS s)*nth a.x1 s +
          (aS s)*nth b.y1 s/2 + (bS s)*nth a.y1 s/2)*xj^2 + ((aS s)*(bS s)*(nth a.x1 s)^2 -
          (aS s)*nth a.x1 s*nth b.y1 s - (bS s)*nth a.x1 s*nth a.y1 s + nth b.y1 s*nth a.y1 s)*xj -
          nth a.x1 s*((aS s)*(bS s)*(nth a.x1 s)^2 - (aS s)*nth a.x1 s*nth b.y1 s -
          (bS s)*nth a.x1 s*nth a.y1 s + nth b.y1 s*nth a.y1 s) -
          (nth a.x1 s)^2*(-(aS s)*(bS s)*nth a.x1 s + (aS s)*nth b.y1 s/2 + (bS s)*nth a.y1 s/2)))).sum)

/-- `xa_ya_multiply_integrate_x1b_x2b_y1b_y2b_multiply_x1c_x2c_y1c_y2c_between`, one entry of the
outer product, piecewise_linear_1d.py:1916-1969 (`achoose_max` is the flag). -/
def xaYaIntegrateProd (xa ya : List K) (b c : Segs4 K) (xai xbi xbj : K) (achooseMax : Bool) :
    Except PyErr K := do
  let ya' ← interpXY xa ya xai achooseMax
  let yb ← integrateProd b c xbi xbj
  pure (yb * ya')

/-- `interp_xa_ya_multipy_x1b_x2b_y1b_y2b`, one entry, piecewise_linear_1d.py:1248-1294. -/
def interpProd (xa ya : List K) (b : Segs4 K) (xai xbi : K) (achooseMax bchooseMax : Bool) :
    Except PyErr K := do
  let ya' ← interpXY xa ya xai achooseMax
  let yb ← interpSegs b xbi bchooseMax
  pure (yb * ya')

end Geotecha.Piecewise
