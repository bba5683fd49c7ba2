import Verif.Speccon.Formulas
import Verif.Piecewise.Model

/-!
# Model of geotecha/speccon/integrals.py, depth integrals

Arrays are lists, a returned matrix is a function of its indices.  A loop that accumulates with `+=` over
layers (scalar) and `np.sum(.., axis=1)` (vectorized) are both a sum over the layers.  The `fortran`
implementation is not modelled (compiled code outside the Python source); when it cannot be imported the
code falls back to `vectorized`.  Lists of unequal length (an exception in the code) are not modelled.
-/

open Real
namespace Geotecha.Speccon
open Geotecha.Piecewise (segmentsBetween)

/-- The `implementation` argument. -/
inductive Impl | scalar | vectorized

/-- `m_from_sin_mx`, integrals.py:34-64. -/
noncomputable def mFromSinMx (i : ℕ) (boundary : ℤ) : Except PyErr ℝ :=
  if boundary = 0 ∨ boundary = 1 then .ok (π * (i + 1 - boundary / 2)) else .error .valueError

/-- `a_slope = (ab[layer] - at[layer]) / (zb[layer] - zt[layer])`, e.g. integrals.py:1306. -/
noncomputable def slope (t b zt zb : List ℝ) (k : ℕ) : ℝ :=
  (b.getD k 0 - t.getD k 0) / (zb.getD k 0 - zt.getD k 0)

/-- The upper triangle and the diagonal are computed, then the upper triangle is copied to the lower one
(integrals.py:1371-1373, 1385-1387, 1430). -/
def symFill (diag : ℕ → ℝ) (off : ℕ → ℕ → ℝ) (i j : ℕ) : ℝ :=
  if i = j then diag i else if i < j then off i j else off j i

/-- `dim1sin`, integrals.py:968-998: `A[len(z), len(m)]`. -/
noncomputable def dim1sin (m z : List ℝ) (i j : ℕ) : ℝ := sin (z.getD i 0 * m.getD j 0)

/-- `dim1sin_avg_between`, integrals.py:1001-1040. -/
noncomputable def dim1sinAvgBetween (m : List ℝ) (z : List (ℝ × ℝ)) (i j : ℕ) : ℝ :=
  let a := (z.getD i (0, 0)).1
  let b := (z.getD i (0, 0)).2
  let mm := m.getD j 0
  (cos (a*mm) - cos (b*mm)) / mm / (b - a)

/-- `dim1sin_a_linear_between`, integrals.py:1096-1221; `pdim1sin_a_linear_between` (1043-1093) calls it with the segments of a PolyLine. -/
noncomputable def dim1sinALinearBetween (m a_t a_b zt zb : List ℝ) (z : List (ℝ × ℝ)) (i j : ℕ) : ℝ :=
  -- z_for_interp[:-1] = zt; z_for_interp[-1] = zb[-1]
  let zi := zt ++ [zb.getLastD 0]
  let z1 := (z.getD i (0, 0)).1
  let z2 := (z.getD i (0, 0)).2
  let mj := m.getD j 0
  let s := slope a_t a_b zt zb
  let r := segmentsBetween zi z1 z2
  (r.both.map (fun k => between_both (s k) (a_t.getD k 0) (zt.getD k 0) mj z1 z2)).sum +
  (r.xiOnly.map (fun k => between_first (s k) (a_t.getD k 0) (zt.getD k 0) (zb.getD k 0) mj z1)).sum +
  (r.between.map (fun k => between_mid (s k) (a_t.getD k 0) (zt.getD k 0) (zb.getD k 0) mj)).sum +
  (r.xjOnly.map (fun k => between_last (s k) (a_t.getD k 0) (zt.getD k 0) mj z2)).sum

/-- `dim1sin_af_linear`, integrals.py:1224-1432. -/
noncomputable def dim1sinAf (impl : Impl) (m a_t a_b zt zb : List ℝ) : ℕ → ℕ → ℝ :=
  let s := slope a_t a_b zt zb
  symFill
    (fun i => ∑ k ∈ Finset.range zt.length,
      (match impl with | .scalar => af_diag_s | .vectorized => af_diag_v) (s k) (a_t.getD k 0) (zt.getD k 0) (zb.getD k 0) (m.getD i 0))
    (fun i j => ∑ k ∈ Finset.range zt.length,
      (match impl with | .scalar => af_off_s | .vectorized => af_off_v) (s k) (a_t.getD k 0) (zt.getD k 0) (zb.getD k 0) (m.getD i 0) (m.getD j 0))

/-- `dim1sin_abf_linear`, integrals.py:1435-1935. -/
noncomputable def dim1sinAbf (impl : Impl) (m a_t a_b b_t b_b zt zb : List ℝ) : ℕ → ℕ → ℝ :=
  let s := slope a_t a_b zt zb
  let r := slope b_t b_b zt zb
  symFill
    (fun i => ∑ k ∈ Finset.range zt.length,
      (match impl with | .scalar => abf_diag_s | .vectorized => abf_diag_v) (s k) (r k) (a_t.getD k 0) (b_t.getD k 0) (zt.getD k 0) (zb.getD k 0) (m.getD i 0))
    (fun i j => ∑ k ∈ Finset.range zt.length,
      (match impl with | .scalar => abf_off_s | .vectorized => abf_off_v) (s k) (r k) (a_t.getD k 0) (b_t.getD k 0) (zt.getD k 0) (zb.getD k 0) (m.getD i 0) (m.getD j 0))

/-- `dim1sin_D_aDf_linear`, integrals.py:1938-2157. -/
noncomputable def dim1sinDaDf (impl : Impl) (m a_t a_b zt zb : List ℝ) : ℕ → ℕ → ℝ :=
  let s := slope a_t a_b zt zb
  symFill
    (fun i => ∑ k ∈ Finset.range zt.length,
      (match impl with | .scalar => DaDf_diag_s | .vectorized => DaDf_diag_v) (s k) (a_t.getD k 0) (zt.getD k 0) (zb.getD k 0) (m.getD i 0))
    (fun i j => ∑ k ∈ Finset.range zt.length,
      (match impl with | .scalar => DaDf_off_s | .vectorized => DaDf_off_v) (s k) (a_t.getD k 0) (zt.getD k 0) (zb.getD k 0) (m.getD i 0) (m.getD j 0))

/-- `dim1sin_DD_abDDf_linear`, integrals.py:6767-7270. -/
noncomputable def dim1sinDDabDDf (impl : Impl) (m a_t a_b b_t b_b zt zb : List ℝ) : ℕ → ℕ → ℝ :=
  let s := slope a_t a_b zt zb
  let r := slope b_t b_b zt zb
  symFill
    (fun i => ∑ k ∈ Finset.range zt.length,
      (match impl with | .scalar => DDabDDf_diag_s | .vectorized => DDabDDf_diag_v) (s k) (r k) (a_t.getD k 0) (b_t.getD k 0) (zt.getD k 0) (zb.getD k 0) (m.getD i 0))
    (fun i j => ∑ k ∈ Finset.range zt.length,
      (match impl with | .scalar => DDabDDf_off_s | .vectorized => DDabDDf_off_v) (s k) (r k) (a_t.getD k 0) (b_t.getD k 0) (zt.getD k 0) (zb.getD k 0) (m.getD i 0) (m.getD j 0))

/-- `dim1sin_ab_linear`, integrals.py:2160-2300. -/
noncomputable def dim1sinAb (impl : Impl) (m a_t a_b b_t b_b zt zb : List ℝ) (i : ℕ) : ℝ :=
  ∑ k ∈ Finset.range zt.length,
    (match impl with | .scalar => ab_s | .vectorized => ab_v) (slope a_t a_b zt zb k) (slope b_t b_b zt zb k)
      (a_t.getD k 0) (b_t.getD k 0) (zt.getD k 0) (zb.getD k 0) (m.getD i 0)

/-- `dim1sin_abc_linear`, integrals.py:2303-2501. -/
noncomputable def dim1sinAbc (impl : Impl) (m a_t a_b b_t b_b c_t c_b zt zb : List ℝ) (i : ℕ) : ℝ :=
  ∑ k ∈ Finset.range zt.length,
    (match impl with | .scalar => abc_s | .vectorized => abc_v) (slope a_t a_b zt zb k) (slope b_t b_b zt zb k)
      (slope c_t c_b zt zb k) (a_t.getD k 0) (b_t.getD k 0) (c_t.getD k 0) (zt.getD k 0) (zb.getD k 0) (m.getD i 0)

/-- `dim1sin_D_aDb_linear`, integrals.py:2504-2663 (at least one layer). -/
noncomputable def dim1sinDaDb (impl : Impl) (m a_t a_b b_t b_b zt zb : List ℝ) (i : ℕ) : ℝ :=
  (∑ k ∈ Finset.range zt.length,
    (match impl with | .scalar => DaDb_s | .vectorized => DaDb_v) (slope a_t a_b zt zb k) (slope b_t b_b zt zb k)
      (a_t.getD k 0) (zt.getD k 0) (zb.getD k 0) (m.getD i 0)) +
  (match impl with | .scalar => DaDb_end_s | .vectorized => DaDb_end_v) (m.getD i 0)
    (a_b.getD (zt.length - 1) 0) (a_t.getD 0 0) (b_b.getD 0 0) (b_b.getD (zt.length - 1) 0) (b_t.getD 0 0)
    (b_t.getD (zt.length - 1) 0) (zb.getD 0 0) (zb.getD (zt.length - 1) 0) (zt.getD 0 0) (zt.getD (zt.length - 1) 0)

end Geotecha.Speccon
