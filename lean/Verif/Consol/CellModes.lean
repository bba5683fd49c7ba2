import Verif.Consol.SpecCell
import Verif.Consol.LayerModes
import Verif.Consol.VaryModes
import Mathlib.Analysis.SpecialFunctions.Integrals.Basic

/-! # Modes of a soil around a drain: products of a function of the radius and a function of the depth -/

set_option autoImplicit false
set_option linter.unusedVariables false
open MeasureTheory Finset
namespace Geotecha.Consol.Spec

/-! ## Depth -/

/-- The depth part of a mode: in layer `i` it obeys `Z'' = -b i Z`. -/
structure ZMode (V : Column) (b : ℕ → ℝ) (Z Zd : ℕ → ℝ → ℝ) : Prop where
  slope : ∀ i < V.N, ∀ z, HasDerivAt (Z i) (Zd i z) z
  eqn : ∀ i < V.N, ∀ z, HasDerivAt (Zd i) (-(b i * Z i z)) z
  fits : V.Fits Z Zd

namespace ZMode
variable {V : Column} {b : ℕ → ℝ} {Z Zd : ℕ → ℝ → ℝ}

theorem cont (m : ZMode V b Z Zd) {i : ℕ} (hi : i < V.N) : Continuous (Z i) :=
  continuous_iff_continuousAt.2 fun z => (m.slope i hi z).continuousAt

theorem mode (m : ZMode V b Z Zd) {lam : ℝ} (h : ∀ i < V.N, V.kv i * b i = lam * V.mv i) : V.Mode lam Z Zd :=
  ⟨m.slope, fun i hi z => ((m.eqn i hi z).const_mul (V.kv i)).congr_deriv (by linear_combination (-Z i z) * h i hi), m.fits⟩

theorem orth (hN : 0 < V.N) (m : ZMode V b Z Zd) {b' : ℕ → ℝ} {Y Yd : ℕ → ℝ → ℝ} (m' : ZMode V b' Y Yd) {l l' : ℝ} {g : ℕ → ℝ}
    (h : ∀ i < V.N, V.kv i * b i = l * V.mv i - g i) (h' : ∀ i < V.N, V.kv i * b' i = l' * V.mv i - g i) (hl : l ≠ l') :
    V.total (fun i z => Z i z * Y i z) = 0 := by
  set W : ℕ → ℝ → ℝ := fun i z => V.kv i * Zd i z * Y i z - Z i z * (V.kv i * Yd i z) with hW
  have hder : ∀ i < V.N, ∀ z, HasDerivAt (W i) (-((l - l') * V.mv i * (Z i z * Y i z))) z := fun i hi z => by
    refine ((((m.eqn i hi z).const_mul (V.kv i)).mul (m'.slope i hi z)).sub ((m.slope i hi z).mul ((m'.eqn i hi z).const_mul (V.kv i)))).congr_deriv ?_
    linear_combination (-Z i z * Y i z) * h i hi + (Z i z * Y i z) * h' i hi
  have hint : ∀ i < V.N, (l - l') * (V.mv i * ∫ z in V.depth i..V.depth (i + 1), Z i z * Y i z) =
      -(W i (V.depth (i + 1)) - W i (V.depth i)) := fun i hi => by
    have hc : Continuous fun z => -((l - l') * V.mv i * (Z i z * Y i z)) := by
      have := m.cont hi; have := m'.cont hi; fun_prop
    rw [← intervalIntegral.integral_eq_sub_of_hasDerivAt (fun z _ => hder i hi z) (hc.intervalIntegrable _ _),
      intervalIntegral.integral_neg, intervalIntegral.integral_const_mul]
    ring
  have key : (l - l') * V.total (fun i z => Z i z * Y i z) = 0 := by
    unfold Column.total
    rw [mul_sum, sum_congr rfl fun i hi => hint i (mem_range.1 hi), sum_neg_distrib,
      Column.sum_telescope hN (fun i => W i (V.depth i)) (fun i => W i (V.depth (i + 1))) ?_]
    · have h0 : W 0 (V.depth 0) = 0 := by
        have e : V.depth 0 = 0 := by simp [Column.depth]
        rw [e, hW]; dsimp only
        by_cases ht : V.topDrains
        · rw [m.fits.top.1 ht, m'.fits.top.1 ht]; ring
        · rw [m.fits.top.2 ht, m'.fits.top.2 ht]; ring
      have h1 : W (V.N - 1) (V.depth (V.N - 1 + 1)) = 0 := by
        have e : V.N - 1 + 1 = V.N := by omega
        rw [e, hW]; dsimp only
        by_cases ht : V.botDrains
        · rw [m.fits.bot.1 ht, m'.fits.bot.1 ht]; ring
        · rw [m.fits.bot.2 ht, m'.fits.bot.2 ht]; ring
      rw [h0, h1]; ring
    · intro i hi
      simp only [hW]
      rw [m.fits.pressure i hi, m'.fits.pressure i hi, m.fits.flow i hi, m'.fits.flow i hi]
  exact (mul_eq_zero.1 key).resolve_left (sub_ne_zero.2 hl)

end ZMode

/-- Sums of functions that fit fit. -/
theorem Column.Fits.sum {V : Column} {ι : Type} (s : Finset ι) {Z Zd : ι → ℕ → ℝ → ℝ} (h : ∀ m ∈ s, V.Fits (Z m) (Zd m)) (c : ι → ℝ) :
    V.Fits (fun i z => ∑ m ∈ s, c m * Z m i z) (fun i z => ∑ m ∈ s, c m * Zd m i z) := by
  refine ⟨fun i hi => sum_congr rfl fun m hm => ?_, fun i hi => ?_, ⟨fun ht => ?_, fun ht => ?_⟩, ⟨fun ht => ?_, fun ht => ?_⟩⟩
  · rw [(h m hm).pressure i hi]
  · rw [mul_sum, mul_sum]
    exact sum_congr rfl fun m hm => by
      have := (h m hm).flow i hi
      linear_combination c m * this
  · exact sum_eq_zero fun m hm => by rw [(h m hm).top.1 ht]; ring
  · exact sum_eq_zero fun m hm => by rw [(h m hm).top.2 ht]; ring
  · exact sum_eq_zero fun m hm => by rw [(h m hm).bot.1 ht]; ring
  · exact sum_eq_zero fun m hm => by rw [(h m hm).bot.2 ht]; ring

/-- Modes with decaying factors make a solution. -/
theorem Column.solves_of {V : Column} {n : ℕ} {b : ℕ → ℕ → ℝ} {Z Zd : ℕ → ℕ → ℝ → ℝ} {lam c : ℕ → ℝ} {D : ℕ → ℝ → ℝ}
    {load : ℝ → ℝ} {load0 s tend : ℝ} (hZ : ∀ m < n, ZMode V (b m) (Z m) (Zd m)) (hb : ∀ m < n, ∀ i < V.N, V.kv i * b m i = lam m * V.mv i)
    (hD : ∀ m < n, (∀ x y, IntervalIntegrable (D m) volume x y) ∧
      ∀ t, s ≤ t → t ≤ tend → D m t + lam m * ∫ r in s..t, D m r = load t - load0) :
    V.Solves (fun i z => ∑ m ∈ range n, c m * Z m i z) load load0 s tend (fun i z t => ∑ m ∈ range n, c m * Z m i z * D m t) := by
  refine ⟨fun i z t => ∑ m ∈ range n, c m * Zd m i z * D m t, fun i z t => ∑ m ∈ range n, c m * (-(b m i * Z m i z)) * D m t,
    fun i hi z t => ⟨?_, ?_⟩, fun t => ?_, fun i hi z t h1 h2 => ?_⟩
  · exact HasDerivAt.fun_sum fun m hm => (((hZ m (mem_range.1 hm)).slope i hi z).const_mul _).mul_const _
  · exact HasDerivAt.fun_sum fun m hm => (((hZ m (mem_range.1 hm)).eqn i hi z).const_mul _).mul_const _
  · have := Column.Fits.sum (V := V) (range n) (fun m hm => (hZ m (mem_range.1 hm)).fits) (fun m => c m * D m t)
    refine cast ?_ this
    congr 1 <;> (funext i z; exact sum_congr rfl fun m _ => by ring)
  · have hint : ∀ m ∈ range n, IntervalIntegrable (fun τ => V.kv i * (c m * (-(b m i * Z m i z)) * D m τ)) volume s t := fun m hm =>
      (((hD _ (mem_range.1 hm)).1 s t).const_mul _).const_mul _
    have e : (fun τ => V.kv i * ∑ m ∈ range n, c m * (-(b m i * Z m i z)) * D m τ) =
        fun τ => ∑ m ∈ range n, V.kv i * (c m * (-(b m i * Z m i z)) * D m τ) := by
      funext τ; rw [mul_sum]
    refine ⟨?_, ?_⟩
    · rw [e]
      refine (IntervalIntegrable.sum (μ := volume) (a := s) (b := t) (range n) hint).congr fun τ hτ => ?_
      simp
    · rw [e, intervalIntegral.integral_finsetSum hint]
      rw [mul_sum, ← sum_sub_distrib, mul_sum]
      refine sum_congr rfl fun m hm => ?_
      rw [intervalIntegral.integral_const_mul, intervalIntegral.integral_const_mul]
      have hd := (hD _ (mem_range.1 hm)).2 t h1 h2
      have hr := hb m (mem_range.1 hm) i hi
      generalize (∫ r in s..t, D m r) = I at *
      linear_combination V.mv i * c m * Z m i z * hd + c m * Z m i z * I * hr

/-! ## Radius -/

/-- The radius part of a mode. -/
structure RMode (r0 r1 κ : ℝ) (R Rd : ℝ → ℝ) : Prop where
  slope : ∀ r, r0 ≤ r → r ≤ r1 → HasDerivAt R (Rd r) r
  eqn : ∀ r, r0 ≤ r → r ≤ r1 → HasDerivAt Rd (-(κ * R r) - Rd r / r) r
  drain : R r0 = 0
  outer : Rd r1 = 0

/-- The ring as a layer whose properties grow with the distance from the drain. -/
noncomputable def ring (r0 r1 : ℝ) : Vary := ⟨r1 - r0, 1, fun x => r0 + x, fun x => r0 + x, False⟩

/-- Integral over the ring. -/
noncomputable def rint (r0 r1 : ℝ) (f : ℝ → ℝ) : ℝ := ∫ r in r0..r1, r * f r

theorem ring_total (r0 r1 : ℝ) (f : ℝ → ℝ) : (ring r0 r1).total (fun x => f (r0 + x)) = rint r0 r1 f := by
  unfold Vary.total rint ring
  have := intervalIntegral.integral_comp_add_left (fun r => r * f r) r0 (a := 0) (b := r1 - r0)
  simp only at this ⊢
  rw [this]
  simp

theorem ring_mv (r0 r1 : ℝ) : (ring r0 r1).Cont (ring r0 r1).mv := by
  have : Continuous (ring r0 r1).mv := by unfold ring; simp only; fun_prop
  exact this.continuousOn

namespace RMode
variable {r0 r1 κ : ℝ} {R Rd : ℝ → ℝ}

theorem mode (h0 : 0 < r0) (m : RMode r0 r1 κ R Rd) : (ring r0 r1).Mode κ (fun x => R (r0 + x)) (fun x => Rd (r0 + x)) := by
  have hr : ∀ x, 0 ≤ x → x ≤ (ring r0 r1).H → r0 ≤ r0 + x ∧ r0 + x ≤ r1 := fun x h1 h2 => by
    simp only [ring] at h2; exact ⟨by linarith, by linarith⟩
  have hs : ∀ x : ℝ, HasDerivAt (fun x => r0 + x) 1 x := fun x => by simpa using (hasDerivAt_id x).const_add r0
  refine ⟨fun x h1 h2 => ?_, fun x h1 h2 => ?_, ⟨?_, fun h => h.elim, fun _ => ?_⟩⟩
  · exact ((m.slope _ (hr x h1 h2).1 (hr x h1 h2).2).comp x (hs x)).congr_deriv (mul_one _)
  · have h := (m.eqn _ (hr x h1 h2).1 (hr x h1 h2).2).comp x (hs x)
    simp only [ring, div_one]
    refine ((hs x).mul h).congr_deriv ?_
    simp only [Function.comp]
    have : r0 + x ≠ 0 := by linarith [(hr x h1 h2).1]
    field_simp
    ring
  · simp only [add_zero]; exact m.drain
  · simp only [ring, add_sub_cancel]; exact m.outer

theorem cont (m : RMode r0 r1 κ R Rd) : ContinuousOn R (Set.Icc r0 r1) :=
  fun r hr => (m.slope r hr.1 hr.2).continuousAt.continuousWithinAt

theorem orth (h0 : 0 < r0) (h1 : r0 < r1) (m : RMode r0 r1 κ R Rd) {κ' : ℝ} {Q Qd : ℝ → ℝ} (m' : RMode r0 r1 κ' Q Qd) (hk : κ ≠ κ') :
    rint r0 r1 (fun r => R r * Q r) = 0 := by
  have := Vary.mode_orth (V := ring r0 r1) (by simp only [ring]; linarith) (ring_mv r0 r1) (m.mode h0) (m'.mode h0)
  rw [ring_total r0 r1 (fun r => R r * Q r)] at this
  exact (mul_eq_zero.1 this).resolve_left (sub_ne_zero.2 hk)

end RMode

theorem rint_one (r0 r1 : ℝ) : rint r0 r1 (fun _ => 1) = (r1 ^ 2 - r0 ^ 2) / 2 := by
  unfold rint; simp only [mul_one]; exact integral_id

theorem ring_bessel {r0 r1 : ℝ} (h0 : 0 < r0) (h1 : r0 < r1) {n : ℕ} {κ : ℕ → ℝ} {R Rd : ℕ → ℝ → ℝ}
    (hm : ∀ m < n, RMode r0 r1 (κ m) (R m) (Rd m)) (hinj : ∀ m < n, ∀ j < n, m ≠ j → κ m ≠ κ j)
    (hpos : ∀ m < n, 0 < rint r0 r1 (fun r => R m r ^ 2)) :
    ∑ m ∈ range n, rint r0 r1 (R m) ^ 2 / rint r0 r1 (fun r => R m r ^ 2) ≤ (r1 ^ 2 - r0 ^ 2) / 2 := by
  have := Vary.bessel (V := ring r0 r1) (by simp only [ring]; linarith) (ring_mv r0 r1) (fun m h => (hm m h).mode h0) hinj
    (fun m h => by rw [ring_total r0 r1 (fun r => R m r ^ 2)]; exact hpos m h) (fun x hx _ => by simp only [ring]; linarith)
  rw [ring_total r0 r1 (fun _ => 1), rint_one] at this
  refine le_trans (le_of_eq (sum_congr rfl fun m _ => ?_)) this
  rw [ring_total r0 r1 (R m), ring_total r0 r1 (fun r => R m r ^ 2)]

/-! ## Products -/

namespace Cell
variable {V : Cell}

theorem total_prod (f : ℝ → ℝ) (g : ℕ → ℝ → ℝ) : V.total (fun i r z => f r * g i z) = rint V.r0 V.r1 f * V.col.total g := by
  unfold total Column.total
  rw [mul_sum]
  refine sum_congr rfl fun i _ => ?_
  have : ∀ z, ∫ r in V.r0..V.r1, r * (f r * g i z) = rint V.r0 V.r1 f * g i z := fun z => by
    unfold rint
    rw [← intervalIntegral.integral_mul_const]
    congr 1; funext r; ring
  simp only [this]
  rw [intervalIntegral.integral_const_mul]
  ring

/-- Linearity of `total` on sums of products. -/
theorem total_sum_prod {ι : Type} (s : Finset ι) (c : ι → ℝ) (f : ι → ℝ → ℝ) (g : ι → ℕ → ℝ → ℝ) (hf : ∀ m ∈ s, ContinuousOn (f m) (Set.Icc V.r0 V.r1))
    (hr : V.r0 ≤ V.r1) (hg : ∀ m ∈ s, ∀ i < V.col.N, Continuous (g m i)) :
    V.total (fun i r z => ∑ m ∈ s, c m * (f m r * g m i z)) = ∑ m ∈ s, c m * (rint V.r0 V.r1 (f m) * V.col.total (g m)) := by
  have hi : ∀ m ∈ s, IntervalIntegrable (fun r => r * f m r) volume V.r0 V.r1 := fun m hm => by
    refine ContinuousOn.intervalIntegrable ?_
    rw [Set.uIcc_of_le hr]
    exact continuousOn_id.mul (hf m hm)
  have e : ∀ i z, ∫ r in V.r0..V.r1, r * ∑ m ∈ s, c m * (f m r * g m i z) = ∑ m ∈ s, c m * rint V.r0 V.r1 (f m) * g m i z := fun i z => by
    have : (fun r => r * ∑ m ∈ s, c m * (f m r * g m i z)) = fun r => ∑ m ∈ s, c m * g m i z * (r * f m r) := by
      funext r; rw [mul_sum]; exact sum_congr rfl fun m _ => by ring
    rw [this, intervalIntegral.integral_finsetSum fun m hm => (hi m hm).const_mul _]
    refine sum_congr rfl fun m _ => ?_
    rw [intervalIntegral.integral_const_mul]; unfold rint; ring
  unfold total Column.total
  simp only [e]
  have e2 : ∀ i < V.col.N, ∫ z in V.col.depth i..V.col.depth (i + 1), ∑ m ∈ s, c m * rint V.r0 V.r1 (f m) * g m i z =
      ∑ m ∈ s, c m * rint V.r0 V.r1 (f m) * ∫ z in V.col.depth i..V.col.depth (i + 1), g m i z := fun i hi' => by
    rw [intervalIntegral.integral_finsetSum fun m hm => ((hg m hm i hi').const_mul _).intervalIntegrable _ _]
    exact sum_congr rfl fun m _ => by rw [intervalIntegral.integral_const_mul]
  rw [sum_congr rfl fun i hi' => by rw [e2 i (mem_range.1 hi')]]
  simp only [mul_sum]
  rw [sum_comm]
  exact sum_congr rfl fun m _ => sum_congr rfl fun i _ => by ring

/-- A product of a radius part and a depth part is a mode. -/
theorem prod_mode (h0 : 0 < V.r0) {κ lam : ℝ} {R Rd : ℝ → ℝ} {b : ℕ → ℝ} {Z Zd : ℕ → ℝ → ℝ} (hR : RMode V.r0 V.r1 κ R Rd) (hZ : ZMode V.col b Z Zd)
    (hb : ∀ i < V.col.N, V.col.kv i * b i = lam * V.col.mv i - V.kh i * κ) : V.Mode lam (fun i r z => R r * Z i z) := by
  refine ⟨fun i r z => Rd r * Z i z, fun i r z => (-(κ * R r) - Rd r / r) * Z i z, fun i r z => R r * Zd i z,
    fun i r z => R r * (-(b i * Z i z)), fun i hi r z h1 h2 => ⟨?_, ?_, ?_, ?_⟩, ⟨fun r h1 h2 => ?_, fun i hi z => ?_, fun i hi z => ?_⟩,
    fun i hi r z h1 h2 => ?_⟩
  · exact (hR.slope r h1 h2).mul_const _
  · exact (hR.eqn r h1 h2).mul_const _
  · exact (hZ.slope i hi z).const_mul _
  · exact (hZ.eqn i hi z).const_mul _
  · have := Column.Fits.sum (V := V.col) ({()} : Finset Unit) (Z := fun _ => Z) (Zd := fun _ => Zd) (fun m hm => hZ.fits) (fun _ => R r)
    simpa using this
  · rw [hR.drain, zero_mul]
  · rw [hR.outer, zero_mul]
  · unfold flow
    have : r ≠ 0 := by linarith
    have hb := hb i hi
    have e : (-(κ * R r) - Rd r / r) * Z i z + Rd r * Z i z / r = -(κ * R r) * Z i z := by field_simp; ring
    rw [e]
    linear_combination (-R r * Z i z) * hb

section
variable {nh nv : ℕ} {κ : ℕ → ℝ} {lam : ℕ → ℕ → ℝ} {R Rd : ℕ → ℝ → ℝ} {b : ℕ → ℕ → ℕ → ℝ} {Z Zd : ℕ → ℕ → ℕ → ℝ → ℝ}
  (h0 : 0 < V.r0) (h1 : V.r0 < V.r1)
  (hR : ∀ n < nh, RMode V.r0 V.r1 (κ n) (R n) (Rd n)) (hZ : ∀ n < nh, ∀ m < nv, ZMode V.col (b n m) (Z n m) (Zd n m))
  (hb : ∀ n < nh, ∀ m < nv, ∀ i < V.col.N, V.col.kv i * b n m i = lam n m * V.col.mv i - V.kh i * κ n)
include h0 h1 hR hZ hb

theorem solves_of {c : ℕ → ℕ → ℝ} {D : ℕ → ℕ → ℝ → ℝ} {load : ℝ → ℝ} {load0 s tend : ℝ}
    (hD : ∀ n < nh, ∀ m < nv, (∀ x y, IntervalIntegrable (D n m) volume x y) ∧
      ∀ t, s ≤ t → t ≤ tend → D n m t + lam n m * ∫ r in s..t, D n m r = load t - load0) :
    V.Solves (fun i r z => ∑ n ∈ range nh, ∑ m ∈ range nv, c n m * (R n r * Z n m i z)) load load0 s tend
      (fun i r z t => ∑ n ∈ range nh, ∑ m ∈ range nv, c n m * (R n r * Z n m i z) * D n m t) := by
  simp only [← sum_product']
  set P := range nh ×ˢ range nv with hP
  have hp : ∀ p ∈ P, p.1 < nh ∧ p.2 < nv := fun p hp => by
    rw [hP, mem_product, mem_range, mem_range] at hp; exact hp
  refine ⟨fun i r z t => ∑ p ∈ P, c p.1 p.2 * (Rd p.1 r * Z p.1 p.2 i z) * D p.1 p.2 t,
    fun i r z t => ∑ p ∈ P, c p.1 p.2 * ((-(κ p.1 * R p.1 r) - Rd p.1 r / r) * Z p.1 p.2 i z) * D p.1 p.2 t,
    fun i r z t => ∑ p ∈ P, c p.1 p.2 * (R p.1 r * Zd p.1 p.2 i z) * D p.1 p.2 t,
    fun i r z t => ∑ p ∈ P, c p.1 p.2 * (R p.1 r * (-(b p.1 p.2 i * Z p.1 p.2 i z))) * D p.1 p.2 t,
    fun t => ⟨fun i hi r z g1 g2 => ⟨?_, ?_, ?_, ?_⟩, ⟨fun r g1 g2 => ?_, fun i hi z => ?_, fun i hi z => ?_⟩⟩,
    fun i hi r z t g1 g2 t1 t2 => ?_⟩
  · exact HasDerivAt.fun_sum fun p h => ((((hR _ (hp p h).1).slope r g1 g2).mul_const _).const_mul _).mul_const _
  · exact HasDerivAt.fun_sum fun p h => ((((hR _ (hp p h).1).eqn r g1 g2).mul_const _).const_mul _).mul_const _
  · exact HasDerivAt.fun_sum fun p h => ((((hZ _ (hp p h).1 _ (hp p h).2).slope i hi z).const_mul _).const_mul _).mul_const _
  · exact HasDerivAt.fun_sum fun p h => ((((hZ _ (hp p h).1 _ (hp p h).2).eqn i hi z).const_mul _).const_mul _).mul_const _
  · have := Column.Fits.sum (V := V.col) P (fun p h => (hZ _ (hp p h).1 _ (hp p h).2).fits) (fun p => c p.1 p.2 * R p.1 r * D p.1 p.2 t)
    refine cast ?_ this
    congr 1 <;> (funext i z; exact sum_congr rfl fun m _ => by ring)
  · exact sum_eq_zero fun p h => by rw [(hR _ (hp p h).1).drain]; ring
  · exact sum_eq_zero fun p h => by rw [(hR _ (hp p h).1).outer]; ring
  · have hr : r ≠ 0 := by linarith
    have e : (fun τ => V.flow (fun i r z => ∑ p ∈ P, c p.1 p.2 * (Rd p.1 r * Z p.1 p.2 i z) * D p.1 p.2 τ)
        (fun i r z => ∑ p ∈ P, c p.1 p.2 * ((-(κ p.1 * R p.1 r) - Rd p.1 r / r) * Z p.1 p.2 i z) * D p.1 p.2 τ)
        (fun i r z => ∑ p ∈ P, c p.1 p.2 * (R p.1 r * (-(b p.1 p.2 i * Z p.1 p.2 i z))) * D p.1 p.2 τ) i r z) =
        fun τ => ∑ p ∈ P, -(lam p.1 p.2 * V.col.mv i * (c p.1 p.2 * (R p.1 r * Z p.1 p.2 i z))) * D p.1 p.2 τ := by
      funext τ
      unfold flow
      rw [sum_div, ← sum_add_distrib, mul_sum, mul_sum, ← sum_add_distrib]
      refine sum_congr rfl fun p h => ?_
      have hb := hb _ (hp p h).1 _ (hp p h).2 i hi
      have e : c p.1 p.2 * ((-(κ p.1 * R p.1 r) - Rd p.1 r / r) * Z p.1 p.2 i z) * D p.1 p.2 τ +
          c p.1 p.2 * (Rd p.1 r * Z p.1 p.2 i z) * D p.1 p.2 τ / r = -(κ p.1 * R p.1 r) * c p.1 p.2 * Z p.1 p.2 i z * D p.1 p.2 τ := by
        field_simp; ring
      rw [e]
      linear_combination (-D p.1 p.2 τ * c p.1 p.2 * R p.1 r * Z p.1 p.2 i z) * hb
    have hint : ∀ p ∈ P, IntervalIntegrable (fun τ => -(lam p.1 p.2 * V.col.mv i * (c p.1 p.2 * (R p.1 r * Z p.1 p.2 i z))) * D p.1 p.2 τ) volume s t :=
      fun p h => ((hD _ (hp p h).1 _ (hp p h).2).1 s t).const_mul _
    rw [e]
    refine ⟨(IntervalIntegrable.sum (μ := volume) (a := s) (b := t) P hint).congr fun τ hτ => by simp, ?_⟩
    rw [intervalIntegral.integral_finsetSum hint, mul_sum, ← sum_sub_distrib, mul_sum]
    refine sum_congr rfl fun p h => ?_
    rw [intervalIntegral.integral_const_mul]
    have hd := (hD _ (hp p h).1 _ (hp p h).2).2 t t1 t2
    generalize (∫ r in s..t, D p.1 p.2 r) = I at *
    linear_combination V.col.mv i * c p.1 p.2 * R p.1 r * Z p.1 p.2 i z * hd

variable (hN : 0 < V.col.N) (hk : ∀ n < nh, ∀ j < nh, n ≠ j → κ n ≠ κ j) (hl : ∀ n < nh, ∀ m < nv, ∀ j < nv, m ≠ j → lam n m ≠ lam n j)
  (hRp : ∀ n < nh, 0 < rint V.r0 V.r1 (fun r => R n r ^ 2)) (hZp : ∀ n < nh, ∀ m < nv, 0 < V.col.total (fun i z => Z n m i z ^ 2))
include hN hk hl hRp hZp

/-- What the modes with the usual coefficients do not hold of 1 is orthogonal to each of them. -/
theorem orth_of {c : ℕ → ℕ → ℝ} (hc : ∀ n < nh, ∀ m < nv, c n m = rint V.r0 V.r1 (R n) / rint V.r0 V.r1 (fun r => R n r ^ 2) *
      (V.col.total (Z n m) / V.col.total (fun i z => Z n m i z ^ 2))) {j : ℕ} (hj : j < nh) {l : ℕ} (hlv : l < nv) :
    V.total (fun i r z => (1 - ∑ n ∈ range nh, ∑ m ∈ range nv, c n m * (R n r * Z n m i z)) * (R j r * Z j l i z)) = 0 := by
  have hcont : ∀ n < nh, ∀ m < nv, ∀ i < V.col.N, Continuous (Z n m i) := fun n hn m hm i hi => (hZ n hn m hm).cont hi
  set P := range nh ×ˢ range nv with hP
  have hp : ∀ p ∈ P, p.1 < nh ∧ p.2 < nv := fun p hp => by
    rw [hP, mem_product, mem_range, mem_range] at hp; exact hp
  set s := insertNone P with hs
  have e : (fun (i : ℕ) (r z : ℝ) => (1 - ∑ n ∈ range nh, ∑ m ∈ range nv, c n m * (R n r * Z n m i z)) * (R j r * Z j l i z)) =
      fun i r z => ∑ o ∈ s, (match o with | none => 1 | some p => -c p.1 p.2) *
        ((match o with | none => fun r => R j r | some p => fun r => R p.1 r * R j r : ℝ → ℝ) r *
          (match o with | none => fun i z => Z j l i z | some p => fun i z => Z p.1 p.2 i z * Z j l i z : ℕ → ℝ → ℝ) i z) := by
    funext i r z
    rw [hs, sum_insertNone, sub_mul, one_mul, sub_eq_add_neg, ← sum_product' (f := fun n m => c n m * (R n r * Z n m i z)), sum_mul,
      ← sum_neg_distrib]
    congr 1
    exact sum_congr rfl fun p _ => by simp only; ring
  rw [e, total_sum_prod s _ _ _ ?_ h1.le ?_]
  · rw [hs, sum_insertNone]
    simp only
    rw [hP, sum_product, sum_eq_single_of_mem j (mem_range.2 hj)]
    · have key := Column.proj_inner_of (V := V.col) (n := nv) (Z := Z j) (fun m hm i hi => hcont j hj m hm i hi)
        (fun m hm m' hm' hne => ZMode.orth hN (hZ j hj m hm) (hZ j hj m' hm') (hb j hj m hm) (hb j hj m' hm') (hl j hj m hm m' hm' hne))
        (fun m hm => hZp j hj m hm) hlv
      have e2 : V.col.total (fun i z => V.col.proj nv (Z j) i z * Z j l i z) =
          ∑ m ∈ range nv, V.col.total (Z j m) / V.col.total (fun i z => Z j m i z ^ 2) * V.col.total (fun i z => Z j m i z * Z j l i z) := by
        have : V.col.total (fun i z => V.col.proj nv (Z j) i z * Z j l i z) = V.col.total (fun i z => ∑ m ∈ range nv,
            V.col.total (Z j m) / V.col.total (fun i z => Z j m i z ^ 2) * (Z j m i z * Z j l i z)) :=
          Column.total_congr fun i hi z => by unfold Column.proj; rw [sum_mul]; exact sum_congr rfl fun m _ => by ring
        rw [this, Column.total_sum fun m h i hi => by have := hcont j hj m h i hi; have := hcont j hj l hlv i hi; fun_prop]
        exact sum_congr rfl fun m _ => Column.total_mul _ _
      rw [e2] at key
      have hsq : rint V.r0 V.r1 (fun r => R j r * R j r) = rint V.r0 V.r1 (fun r => R j r ^ 2) := by congr 1; funext r; ring
      have hne := (hRp j hj).ne'
      have : ∑ m ∈ range nv, -c j m * (rint V.r0 V.r1 (fun r => R j r * R j r) * V.col.total (fun i z => Z j m i z * Z j l i z)) =
          -(rint V.r0 V.r1 (R j)) * ∑ m ∈ range nv, V.col.total (Z j m) / V.col.total (fun i z => Z j m i z ^ 2) *
            V.col.total (fun i z => Z j m i z * Z j l i z) := by
        rw [mul_sum]
        refine sum_congr rfl fun m hm => ?_
        rw [hc j hj m (mem_range.1 hm), hsq]
        field_simp
      rw [this, key]
      show 1 * (rint V.r0 V.r1 (R j) * V.col.total (Z j l)) + _ = 0
      ring
    · intro n hn hne
      have hn := mem_range.1 hn
      refine sum_eq_zero fun m _ => ?_
      rw [RMode.orth h0 h1 (hR n hn) (hR j hj) (hk n hn j hj hne)]
      ring
  · intro o ho
    rcases o with _ | p
    · exact (hR j hj).cont
    · have := hp p (by simpa [hs] using ho)
      exact (hR _ this.1).cont.mul (hR j hj).cont
  · intro o ho i hi
    rcases o with _ | p
    · exact hcont j hj l hlv i hi
    · have := hp p (by simpa [hs] using ho)
      exact (hcont _ this.1 _ this.2 i hi).mul (hcont j hj l hlv i hi)

/-- Bessel's inequality for the function `1`. -/
theorem bessel_of (hmv : ∀ i < V.col.N, 0 ≤ V.col.mv i) (hh : ∀ i < V.col.N, 0 ≤ V.col.h i) :
    ∑ n ∈ range nh, ∑ m ∈ range nv, rint V.r0 V.r1 (R n) ^ 2 / rint V.r0 V.r1 (fun r => R n r ^ 2) *
      (V.col.total (Z n m) ^ 2 / V.col.total (fun i z => Z n m i z ^ 2)) ≤
      (V.r1 ^ 2 - V.r0 ^ 2) / 2 * ∑ i ∈ range V.col.N, V.col.mv i * V.col.h i := by
  have hW : 0 ≤ ∑ i ∈ range V.col.N, V.col.mv i * V.col.h i := sum_nonneg fun i hi => mul_nonneg (hmv i (mem_range.1 hi)) (hh i (mem_range.1 hi))
  refine le_trans (sum_le_sum fun n hn => ?_) (le_of_eq_of_le (sum_mul (range nh) _ _).symm (mul_le_mul_of_nonneg_right (ring_bessel h0 h1 hR hk hRp) hW))
  have hn := mem_range.1 hn
  rw [← mul_sum]
  refine mul_le_mul_of_nonneg_left ?_ (div_nonneg (sq_nonneg _) (hRp n hn).le)
  exact Column.bessel_of (V := V.col) (n := nv) (Z := Z n) (fun m hm i hi => (hZ n hn m hm).cont hi)
    (fun m hm m' hm' hne => ZMode.orth hN (hZ n hn m hm) (hZ n hn m' hm') (hb n hn m hm) (hb n hn m' hm') (hl n hn m hm m' hm' hne))
    (fun m hm => hZp n hn m hm) hmv hh
end

end Cell
end Geotecha.Consol.Spec
