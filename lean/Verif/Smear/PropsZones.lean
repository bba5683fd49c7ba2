import Verif.Smear.PropsTol

/-! # C70: `mu_piecewise_constant` and `mu_piecewise_linear`; C37: reductions -/

set_option linter.unusedVariables false
namespace Geotecha.Smear
open MeasureTheory intervalIntegral Set Real Geotecha.Piecewise

/-- Step profile: the first listed radius beyond `x` decides. -/
noncomputable def stepRatio : List ℝ → List ℝ → ℝ → ℝ
  | s :: ss, k :: ks, x => if x < s then k else stepRatio ss ks x
  | _, _, _ => 1

/-- Profile whose permeability `1/κ` is linear between the listed radii. -/
noncomputable def rampRatio : List ℝ → List ℝ → ℝ → ℝ
  | s0 :: s1 :: ss, k0 :: k1 :: ks, x =>
    if x < s1 then 1 / (1 / k0 + (1 / k1 - 1 / k0) * ((x - s0) / (s1 - s0))) else rampRatio (s1 :: ss) (k1 :: ks) x
  | _, _, _ => 1

/-! ## Constant zones -/

def cPiece (z : CZone) : Piece := ⟨z.lo, z.hi, fun _ => z.kap⟩

theorem step_profile (a : ℝ) (s kap : List ℝ) (x : ℝ) : stepRatio s kap x = profile ((cZones a s kap).map cPiece) x := by
  induction s generalizing a kap with
  | nil => cases kap <;> simp [stepRatio, cZones, profile]
  | cons b s ih =>
    cases kap with
    | nil => simp [stepRatio, cZones, profile]
    | cons k kap =>
      simp only [stepRatio, cZones, profile, List.map_cons, cPiece]
      rw [ih b kap]

theorem cZones_tiles {a N : ℝ} {s kap : List ℝ} (hl : s.length = kap.length) (hi : Increasing (a :: s)) (hN : (a :: s).getLast? = some N) :
    Tiles a N ((cZones a s kap).map cPiece) := by
  induction s generalizing a kap with
  | nil =>
    simp only [List.getLast?_singleton, Option.some.injEq] at hN
    cases kap <;> exact hN
  | cons b s ih =>
    cases kap with
    | nil => simp at hl
    | cons k kap =>
      simp only [cZones, List.map_cons]
      exact ⟨rfl, hi.1.le, continuousOn_const, ih (by simpa using hl) hi.2 (by rw [List.getLast?_cons_cons] at hN; exact hN)⟩

/-- The weighted integral of one zone, as the code splits it. -/
theorem cZone_split {n : ℝ} (hn : n ≠ 0) {z : CZone} (hz : 0 < z.lo) (hz' : z.lo ≤ z.hi) (hk : z.kap ≠ 0) (P : ℝ) :
    z.kap * (z.hi ^ 2 / n ^ 2 * log (z.hi / z.lo) + (P / z.kap - 0.5) * (z.hi ^ 2 / n ^ 2 - z.lo ^ 2 / n ^ 2) - 0.25 * (z.hi ^ 2 - z.lo ^ 2) ^ 2 / n ^ 4)
      = (∫ x in z.lo..z.hi, z.kap * weight n x) - cB n z * (1 - z.hi ^ 2 / n ^ 2) + P * (z.hi ^ 2 / n ^ 2 - z.lo ^ 2 / n ^ 2) := by
  rw [int_const_weight hn hz hz']
  unfold cB F1
  have hh : z.hi ≠ 0 := (lt_of_lt_of_le hz hz').ne'
  rw [log_div hh hz.ne']
  generalize log z.hi = L1
  generalize log z.lo = L2
  field_simp
  ring

theorem cSum_eq {n a : ℝ} (hn : n ≠ 0) (done todo : List CZone) (ha : 0 < a) (ht : Tiles a n (todo.map cPiece)) (hk : ∀ z ∈ todo, z.kap ≠ 0) :
    cSum n done todo = ((todo.map cPiece).map fun p => ∫ x in p.lo..p.hi, p.κ x * weight n x).sum + (done.map (cB n)).sum * (1 - a ^ 2 / n ^ 2) := by
  induction todo generalizing done a with
  | nil =>
    have : a = n := ht
    rw [this]
    simp [cSum, hn]
  | cons z zs ih =>
    obtain ⟨t1, t2, _, t4⟩ := ht
    have t1 : z.lo = a := t1
    have t2 : a ≤ z.hi := t2
    rw [cSum]
    try dsimp only
    rw [ih (a := z.hi) _ (lt_of_lt_of_le ha t2) t4 (fun y hy => hk y (by simp [hy])), cZone_split hn (by rw [t1]; exact ha) (by rw [t1]; exact t2) (hk z (by simp))]
    simp only [List.map_append, List.sum_append, List.map_cons, List.map_nil, List.sum_cons, List.sum_nil, add_zero, cPiece]
    rw [t1]
    ring

theorem increasing_cons {a : ℝ} {s : List ℝ} (h : Increasing s) (ha : ∀ x ∈ s, a < x) : Increasing (a :: s) := by
  cases s with
  | nil => trivial
  | cons b s => exact ⟨ha b (by simp), h⟩

theorem cZones_kap {a : ℝ} {s kap : List ℝ} (z : CZone) (hz : z ∈ cZones a s kap) : z.kap ∈ kap := by
  induction s generalizing a kap with
  | nil => cases kap <;> simp [cZones] at hz
  | cons b s ih =>
    cases kap with
    | nil => simp [cZones] at hz
    | cons k kap =>
      simp only [cZones, List.mem_cons] at hz
      rcases hz with rfl | h
      · simp
      · exact List.mem_cons_of_mem _ (ih h)

/-- **C70** `mu_piecewise_constant`: any number of zones of constant permeability, increasing radii greater than one. -/
theorem C70_constant (s kap : List ℝ) (N : ℝ) (hl : s.length = kap.length) (h1 : ∀ x ∈ s, 1 < x) (hk : ∀ k ∈ kap, 0 < k) (hi : Increasing s)
    (hN : s.getLast? = some N) : muPiecewiseConstant s kap none none = .ok (muSpec N (stepRatio s kap)) := by
  have hN1 : 1 < N := h1 N (List.mem_of_getLast? hN)
  obtain ⟨n0, _⟩ := hn0 hN1
  unfold muPiecewiseConstant extend
  rw [if_neg (by simp)]
  dsimp only
  rw [if_neg (by simpa using hl), if_neg (by push Not; exact h1), if_neg (by push Not; exact hk), if_neg (by simpa using hi), hN]
  dsimp only
  congr 1
  have hT : Tiles 1 N ((cZones 1 s kap).map cPiece) := by
    apply cZones_tiles hl (increasing_cons hi h1)
    cases s with
    | nil => simp at hN
    | cons b s => rw [List.getLast?_cons_cons]; exact hN
  rw [cSum_eq n0 [] _ one_pos hT (fun z hz => (hk _ (cZones_kap z hz)).ne')]
  have : stepRatio s kap = profile ((cZones 1 s kap).map cPiece) := by funext x; exact step_profile 1 s kap x
  rw [this, mu_pieces hN1 hT]
  simp
  ring

/-- **C70** Giving `n` (and perhaps `kap_m`) appends a zone; without `kap_m` the last `kap` is repeated. -/
theorem C70_append (s kap : List ℝ) (n : ℝ) (kapm : Option ℝ) (h : kap ≠ [] ∨ kapm.isSome) :
    muPiecewiseConstant s kap (some n) kapm = muPiecewiseConstant (s ++ [n]) (kap ++ [kapm.getD (kap.getLastD 0)]) none none ∧
    muPiecewiseLinear s kap (some n) kapm = muPiecewiseLinear (s ++ [n]) (kap ++ [kapm.getD (kap.getLastD 0)]) none none := by
  have hb : ¬ ((some n).isSome = true ∧ kapm = none ∧ kap = []) := by
    rintro ⟨_, rfl, h3⟩
    rcases h with h | h
    · exact h h3
    · simp at h
  constructor
  · unfold muPiecewiseConstant
    rw [if_neg hb, if_neg (by simp)]
    rfl
  · unfold muPiecewiseLinear
    rw [if_neg hb, if_neg (by simp)]
    rfl

theorem example_zones : Increasing [(2 : ℝ), 5, 30] ∧ (∀ x ∈ [(2 : ℝ), 5, 30], 1 < x) ∧ [(2 : ℝ), 5, 30].getLast? = some 30 := by
  refine ⟨⟨by norm_num, by norm_num, trivial⟩, ?_, rfl⟩
  intro x hx
  simp at hx
  rcases hx with rfl | rfl | rfl <;> norm_num

/-! ## Linear zones -/

noncomputable def lPiece (z : LZone) : Piece := ⟨z.lo, z.hi, fun x => 1 / (1 / z.k0 + (1 / z.k1 - 1 / z.k0) * ((x - z.lo) / (z.hi - z.lo)))⟩

theorem ramp_profile (s kap : List ℝ) (x : ℝ) : rampRatio s kap x = profile ((lZones s kap).map lPiece) x := by
  induction s generalizing kap with
  | nil => simp [rampRatio, lZones, profile]
  | cons a s ih =>
    cases s with
    | nil => simp [rampRatio, lZones, profile]
    | cons b s =>
      match kap with
      | [] => simp [rampRatio, lZones, profile]
      | [_] => simp [rampRatio, lZones, profile]
      | k0 :: k1 :: kap =>
        simp only [rampRatio, lZones, profile, List.map_cons, lPiece]
        rw [ih (k1 :: kap)]

theorem ramp_pos {lo hi k0 k1 x : ℝ} (h0 : 0 < k0) (h1 : 0 < k1) (hx : lo ≤ x) (hx' : x ≤ hi) :
    0 < 1 / k0 + (1 / k1 - 1 / k0) * ((x - lo) / (hi - lo)) := by
  have a : 0 < 1 / k0 := by positivity
  have b : 0 < 1 / k1 := by positivity
  rcases eq_or_lt_of_le (le_trans hx hx') with e | e
  · rw [e]; simp; exact h0
  · have c : 0 ≤ (x - lo) / (hi - lo) := div_nonneg (by linarith) (by linarith)
    have d : (x - lo) / (hi - lo) ≤ 1 := by rw [div_le_one (by linarith)]; linarith
    generalize (x - lo) / (hi - lo) = t at *
    rcases eq_or_lt_of_le d with e | e
    · rw [e]; linarith
    · have : 0 ≤ 1 / k1 * t := by positivity
      nlinarith

theorem lPiece_cont {z : LZone} (h0 : 0 < z.k0) (h1 : 0 < z.k1) : ContinuousOn (lPiece z).κ (Icc z.lo z.hi) :=
  ContinuousOn.div continuousOn_const (by fun_prop) (fun x hx => (ramp_pos h0 h1 hx.1 hx.2).ne')

theorem lZones_tiles {N : ℝ} {s kap : List ℝ} (hl : s.length = kap.length) (hi : NonDecreasing s) (hk : ∀ k ∈ kap, 0 < k) (a : ℝ) (ha : s.head? = some a)
    (hN : s.getLast? = some N) : Tiles a N ((lZones s kap).map lPiece) := by
  induction s generalizing a kap with
  | nil => simp at ha
  | cons c s ih =>
    simp only [List.head?_cons, Option.some.injEq] at ha
    subst ha
    cases s with
    | nil =>
      simp only [List.getLast?_singleton, Option.some.injEq] at hN
      simpa [lZones, Tiles] using hN
    | cons b s =>
      match kap, hl with
      | k0 :: k1 :: kap, hl =>
        simp only [lZones, List.map_cons]
        exact ⟨rfl, hi.1, lPiece_cont (hk k0 (by simp)) (hk k1 (by simp)),
          ih (kap := k1 :: kap) (by simpa using hl) hi.2 (fun k h => hk k (List.mem_cons_of_mem _ h)) b rfl (by rw [List.getLast?_cons_cons] at hN; exact hN)⟩

/-- Zones that `np.isclose` does not confuse with a special case. -/
def SharpZone (z : LZone) : Prop := Sharp z.lo z.hi ∧ Sharp z.k0 z.k1 ∧ Sharp (z.k0 / z.k1) (z.hi / z.lo)

theorem isclose_refl (a : ℝ) : isclose a a := by unfold isclose; simp; positivity

theorem lPiece_eq {z : LZone} (hlt : z.lo < z.hi) (h0 : 0 < z.k0) (h1 : 0 < z.k1) {x : ℝ} : (lPiece z).κ x = z.k0 / (lA z * x + lB z) := by
  have hd : z.hi - z.lo ≠ 0 := by linarith
  have e : 1 / z.k0 + (1 / z.k1 - 1 / z.k0) * ((x - z.lo) / (z.hi - z.lo)) = (lA z * x + lB z) / z.k0 := by
    unfold lA lB; field_simp; ring
  simp only [lPiece]
  rw [e, one_div_div]

/-- One zone: the code's outer and inner terms. -/
theorem lZone_split {n : ℝ} (hn : n ≠ 0) {z : LZone} (hz : 0 < z.lo) (hz' : z.lo ≤ z.hi) (h0 : 0 < z.k0) (h1 : 0 < z.k1) (hsh : SharpZone z) :
    z.k0 * lOuter n z = (∫ x in z.lo..z.hi, (lPiece z).κ x * weight n x) - z.k0 * lInner n z * (1 - z.hi ^ 2 / n ^ 2) := by
  obtain ⟨c1, c2, c3⟩ := hsh
  have hh : 0 < z.hi := lt_of_lt_of_le hz hz'
  unfold lOuter lInner
  by_cases e1 : isclose z.lo z.hi
  · rw [if_pos e1, if_pos e1, c1 e1]; simp
  rw [if_neg e1, if_neg e1]
  have hlt : z.lo < z.hi := lt_of_le_of_ne hz' (fun e => e1 (by rw [← e]; exact isclose_refl _))
  have hd : z.hi - z.lo ≠ 0 := by linarith
  have hint : ∀ f : ℝ → ℝ, (∀ x ∈ Icc z.lo z.hi, (lPiece z).κ x = f x) → ∫ x in z.lo..z.hi, (lPiece z).κ x * weight n x = ∫ x in z.lo..z.hi, f x * weight n x := by
    intro f hf
    apply intervalIntegral.integral_congr
    intro x hx
    rw [uIcc_of_le hz'] at hx
    simp only [hf x hx]
  by_cases e2 : isclose z.k0 z.k1
  · rw [if_pos e2, if_pos e2, hint (fun _ => z.k0) (fun x _ => by simp only [lPiece]; rw [← c2 e2]; simp), int_const_weight hn hz hz']
    unfold F1
    rw [log_div hh.ne' hz.ne']
    generalize log z.hi = L1
    generalize log z.lo = L2
    field_simp
    ring
  rw [if_neg e2, if_neg e2]
  have k01 : z.k0 ≠ z.k1 := fun e => e2 (by rw [e]; exact isclose_refl _)
  by_cases e3 : isclose (z.k0 / z.k1) (z.hi / z.lo)
  · have e4 := c3 e3
    rw [if_pos e3, if_pos e3, hint (fun x => z.k0 * z.lo / x) ?_, int_inv_weight hn hz hz']
    · unfold F2
      have := hz.ne'
      have := hh.ne'
      field_simp
      ring
    · intro x hx
      have hx0 : x ≠ 0 := (lt_of_lt_of_le hz hx.1).ne'
      rw [lPiece_eq hlt h0 h1]
      have A1 : lA z = 1 / z.lo := by unfold lA; rw [e4]; have := hz.ne'; field_simp
      have B1 : lB z = 0 := by unfold lB; rw [e4]; have := hz.ne'; field_simp; simp
      rw [A1, B1]
      have := hz.ne'
      rw [add_zero, one_div, inv_mul_eq_div, div_div_eq_mul_div]
  rw [if_neg e3, if_neg e3]
  have hA : lA z ≠ 0 := by
    unfold lA
    apply div_ne_zero _ hd
    rw [sub_ne_zero, Ne, div_eq_one_iff_eq h1.ne']
    exact k01
  have hB : lB z ≠ 0 := by
    unfold lB
    apply div_ne_zero _ hd
    intro e
    apply e3
    have : z.k0 / z.k1 = z.hi / z.lo := by rw [eq_div_iff hz.ne']; linarith
    rw [this]; exact isclose_refl _
  have hp : ∀ x ∈ Icc z.lo z.hi, 0 < lA z * x + lB z := by
    intro x hx
    have := ramp_pos h0 h1 hx.1 hx.2
    have e : 1 / z.k0 + (1 / z.k1 - 1 / z.k0) * ((x - z.lo) / (z.hi - z.lo)) = (lA z * x + lB z) / z.k0 := by
      unfold lA lB; field_simp; ring
    rw [e] at this
    have := mul_pos this h0
    rwa [div_mul_cancel₀ _ h0.ne'] at this
  rw [hint (fun x => z.k0 / (lA z * x + lB z)) (fun x _ => lPiece_eq hlt h0 h1), int_lin_weight hn hz hz' hA hB hp]
  unfold F3
  have v1 : lA z * z.hi + lB z = z.k0 / z.k1 := by unfold lA lB; field_simp; ring
  have v0 : lA z * z.lo + lB z = 1 := by unfold lA lB; field_simp; ring
  have l3 : z.k1 * z.hi / z.k0 / z.lo = (z.hi / z.lo) / (z.k0 / z.k1) := by field_simp
  have k0' := h0.ne'
  have k1' := h1.ne'
  have lo' := hz.ne'
  have hi' := hh.ne'
  rw [v1, v0, log_one, l3, log_div (div_ne_zero hi' lo') (div_ne_zero k0' k1'), log_div hi' lo']
  have hlo : z.lo = (1 - lB z) / lA z := by rw [eq_div_iff hA]; linarith
  have hhi : z.hi = (z.k0 / z.k1 - lB z) / lA z := by rw [eq_div_iff hA]; linarith
  generalize log z.hi = L1
  generalize log z.lo = L2
  generalize log (z.k0 / z.k1) = L3
  generalize z.k0 / z.k1 = R at *
  generalize lA z = A at *
  generalize lB z = B at *
  rw [hlo, hhi]
  field_simp
  ring

theorem lSum_eq {n a : ℝ} (hn : n ≠ 0) (done todo : List LZone) (ha : 0 < a) (ht : Tiles a n (todo.map lPiece))
    (hk : ∀ z ∈ todo, 0 < z.k0 ∧ 0 < z.k1 ∧ SharpZone z) :
    lSum n done todo = ((todo.map lPiece).map fun p => ∫ x in p.lo..p.hi, p.κ x * weight n x).sum
      + (done.map fun y => y.k0 * lInner n y).sum * (1 - a ^ 2 / n ^ 2) := by
  induction todo generalizing done a with
  | nil =>
    have : a = n := ht
    rw [this]
    simp [lSum, hn]
  | cons z zs ih =>
    obtain ⟨t1, t2, _, t4⟩ := ht
    have t1 : z.lo = a := t1
    have t2 : a ≤ z.hi := t2
    obtain ⟨k0, k1, sh⟩ := hk z (by simp)
    rw [lSum]
    try dsimp only
    rw [ih (a := z.hi) _ (lt_of_lt_of_le ha t2) t4 (fun y hy => hk y (by simp [hy])),
      lZone_split hn (by rw [t1]; exact ha) (by rw [t1]; exact t2) k0 k1 sh]
    simp only [List.map_append, List.sum_append, List.map_cons, List.map_nil, List.sum_cons, List.sum_nil, add_zero]
    have e : (∫ x in (lPiece z).lo..(lPiece z).hi, (lPiece z).κ x * weight n x) = ∫ x in z.lo..z.hi, (lPiece z).κ x * weight n x := rfl
    rw [e, t1]
    ring

theorem lZones_mem {s kap : List ℝ} (z : LZone) (hz : z ∈ lZones s kap) : z.k0 ∈ kap ∧ z.k1 ∈ kap := by
  induction s generalizing kap with
  | nil => simp [lZones] at hz
  | cons a s ih =>
    cases s with
    | nil => simp [lZones] at hz
    | cons b s =>
      match kap with
      | [] => simp [lZones] at hz
      | [_] => simp [lZones] at hz
      | k0 :: k1 :: kap =>
        simp only [lZones, List.mem_cons] at hz
        rcases hz with rfl | h
        · simp
        · obtain ⟨u, v⟩ := ih h
          exact ⟨List.mem_cons_of_mem _ u, List.mem_cons_of_mem _ v⟩

/-- **C70** `mu_piecewise_linear`: any number of points, starting at the drain, non-decreasing radii (a repeated radius is a jump). -/
theorem C70_linear (s kap : List ℝ) (N : ℝ) (hl : s.length = kap.length) (h1 : s.head? = some 1) (hk : ∀ k ∈ kap, 0 < k) (hi : NonDecreasing s)
    (hN : s.getLast? = some N) (hN1 : 1 < N) (hsh : ∀ z ∈ lZones s kap, SharpZone z) :
    muPiecewiseLinear s kap none none = .ok (muSpec N (rampRatio s kap)) := by
  obtain ⟨n0, _⟩ := hn0 hN1
  have hge : ∀ x ∈ s, 1 ≤ x := by
    have : ∀ (l : List ℝ) (a : ℝ), NonDecreasing l → l.head? = some a → ∀ x ∈ l, a ≤ x := by
      intro l
      induction l with
      | nil => intro a _ h; simp at h
      | cons b l ih =>
        intro a hl h x hx
        simp only [List.head?_cons, Option.some.injEq] at h
        subst h
        rcases List.mem_cons.1 hx with rfl | hx
        · exact le_rfl
        · cases l with
          | nil => simp at hx
          | cons c l => exact le_trans hl.1 (ih c hl.2 rfl x hx)
    exact this s 1 hi h1
  unfold muPiecewiseLinear extend
  rw [if_neg (by simp)]
  dsimp only
  rw [if_neg (by simpa using hl), if_neg (by push Not; exact hge), if_neg (by push Not; exact hk), if_neg (by simpa using hi), h1, hN]
  dsimp only
  rw [if_neg (by rw [not_not]; exact isclose_refl 1), if_neg (not_le.2 hN1)]
  congr 1
  have hT := lZones_tiles hl hi hk 1 h1 hN
  rw [lSum_eq n0 [] _ one_pos hT (fun z hz => ⟨hk _ (lZones_mem z hz).1, hk _ (lZones_mem z hz).2, hsh z hz⟩)]
  have : rampRatio s kap = profile ((lZones s kap).map lPiece) := by funext x; exact ramp_profile s kap x
  rw [this, mu_pieces hN1 hT]
  simp
  ring

/-- Non-trivial inputs meeting the hypotheses of `C70_linear`: four points with a jump at 2 and a zone with permeability proportional to the radius. -/
example : ∀ z ∈ lZones [(1 : ℝ), 2, 2, 4, 30] [4, 2, 3, 1, 1], SharpZone z := by
  intro z hz
  simp only [lZones, List.mem_cons, List.not_mem_nil, or_false] at hz
  rcases hz with rfl | rfl | rfl | rfl <;> (refine ⟨fun h => ?_, fun h => ?_, fun h => ?_⟩ <;> (first | (unfold isclose at h; norm_num at h; done) | norm_num))

/-- **C70** refusals: arrays of different length, a radius inside the drain (at the drain, for the step profile), a non-positive permeability
ratio, radii out of order, and for the ramp profile a first radius that is not the drain radius raise `ValueError`. -/
theorem C70_refuses (s kap : List ℝ) :
    ((s.length ≠ kap.length ∨ (∃ x ∈ s, x ≤ 1) ∨ (∃ k ∈ kap, k ≤ 0) ∨ ¬ s.Pairwise (· < ·)) →
      muPiecewiseConstant s kap none none = .error .valueError) ∧
    ((s.length ≠ kap.length ∨ (∃ x ∈ s, x < 1) ∨ (∃ k ∈ kap, k ≤ 0) ∨ ¬ s.Pairwise (· ≤ ·) ∨ (∃ x ∈ s.head?, 2 ≤ x)) →
      muPiecewiseLinear s kap none none = .error .valueError) := by
  have inc : ∀ l : List ℝ, Increasing l → l.Pairwise (· < ·) := by
    intro l hl
    rw [← List.isChain_iff_pairwise]
    induction l with
    | nil => exact .nil
    | cons a l ih =>
      cases l with
      | nil => exact .singleton _
      | cons b l => exact .cons_cons hl.1 (ih hl.2)
  have ndec : ∀ l : List ℝ, NonDecreasing l → l.Pairwise (· ≤ ·) := by
    intro l hl
    rw [← List.isChain_iff_pairwise]
    induction l with
    | nil => exact .nil
    | cons a l ih =>
      cases l with
      | nil => exact .singleton _
      | cons b l => exact .cons_cons hl.1 (ih hl.2)
  constructor
  · intro h
    unfold muPiecewiseConstant extend
    rw [if_neg (by simp)]
    dsimp only
    by_cases h1 : s.length ≠ kap.length
    · rw [if_pos h1]
    by_cases h2 : ∃ x ∈ s, x ≤ 1
    · rw [if_neg h1, if_pos h2]
    by_cases h3 : ∃ k ∈ kap, k ≤ 0
    · rw [if_neg h1, if_neg h2, if_pos h3]
    rw [if_neg h1, if_neg h2, if_neg h3, if_pos]
    intro hi
    rcases h with h | h | h | h
    exacts [h1 h, h2 h, h3 h, h (inc s hi)]
  · intro h
    unfold muPiecewiseLinear extend
    rw [if_neg (by simp)]
    dsimp only
    by_cases h1 : s.length ≠ kap.length
    · rw [if_pos h1]
    by_cases h2 : ∃ x ∈ s, x < 1
    · rw [if_neg h1, if_pos h2]
    by_cases h3 : ∃ k ∈ kap, k ≤ 0
    · rw [if_neg h1, if_neg h2, if_pos h3]
    by_cases h4 : NonDecreasing s
    · have h4' := ndec s h4
      obtain ⟨x, hx, hx2⟩ : ∃ x ∈ s.head?, 2 ≤ x := by
        rcases h with h | h | h | h | h
        exacts [absurd h h1, absurd h h2, absurd h h3, absurd h4' h, h]
      rw [if_neg h1, if_neg h2, if_neg h3, if_neg (by simpa using h4)]
      obtain ⟨n, hn⟩ : ∃ n, s.getLast? = some n := by
        cases s with
        | nil => simp at hx
        | cons a l => exact ⟨_, List.getLast?_eq_some_getLast (by simp)⟩
      rw [Option.mem_def.1 hx, hn]
      dsimp only
      rw [if_pos]
      unfold isclose
      rw [not_le]
      have : x - 1 ≤ |x - 1| := le_abs_self _
      norm_num
      linarith
    · rw [if_neg h1, if_neg h2, if_neg h3, if_pos h4]

example : ¬ ([2, 5, 3] : List ℝ).Pairwise (· < ·) := by norm_num

/-! ## C37: reductions -/

theorem constantSmear_one {s x : ℝ} : constantSmear s 1 x = 1 := by unfold constantSmear; simp

/-- **C37** `mu_constant` without disturbance is `mu_ideal`. -/
theorem C37_ideal (n s kap : ℝ) (hn : 1 < n) (hk : 0 < kap) :
    muConstant n 1 kap = muIdeal n ∧ (1 ≤ s → s ≤ n → muConstant n s 1 = muIdeal n) := by
  rw [(C69_ideal n).1 hn]
  constructor
  · rw [C69_constant n 1 kap hn le_rfl hn.le hk]
    congr 1
    exact muSpec_congr hn.le (fun x h1 _ => by unfold constantSmear; rw [if_neg (not_lt.2 h1)])
  · intro hs hsn
    rw [C69_constant n s 1 hn hs hsn one_pos]
    congr 1
    exact muSpec_congr hn.le (fun x _ _ => constantSmear_one)

/-- **C37** One undisturbed zone is `mu_ideal`; two zones, the outer undisturbed, are `mu_constant`. -/
theorem C37_zones (n s kap : ℝ) (hn : 1 < n) (hs : 1 < s) (hsn : s < n) (hk : 0 < kap) :
    muPiecewiseConstant [n] [1] none none = muIdeal n ∧ muPiecewiseConstant [s, n] [kap, 1] none none = muConstant n s kap := by
  constructor
  · rw [C70_constant [n] [1] n rfl (by simpa using hn) (by simp) trivial rfl, (C69_ideal n).1 hn]
    congr 1
    exact muSpec_congr hn.le (fun x _ h2 => by simp [stepRatio])
  · rw [C70_constant [s, n] [kap, 1] n rfl (by intro x hx; simp at hx; rcases hx with rfl | rfl <;> assumption)
      (by intro x hx; simp at hx; rcases hx with rfl | rfl <;> [assumption; exact one_pos]) ⟨hsn, trivial⟩ rfl,
      C69_constant n s kap hn hs.le hsn.le hk]
    congr 1
    exact muSpec_congr hn.le (fun x _ h2 => by simp [stepRatio, constantSmear])

theorem step_split (s₁ k₁ : List ℝ) (hl : s₁.length = k₁.length) (m s k : ℝ) (hm : m ≤ s) (s₂ k₂ : List ℝ) (x : ℝ) :
    stepRatio (s₁ ++ m :: s :: s₂) (k₁ ++ k :: k :: k₂) x = stepRatio (s₁ ++ s :: s₂) (k₁ ++ k :: k₂) x := by
  induction s₁ generalizing k₁ with
  | nil =>
    have : k₁ = [] := by simpa using hl.symm
    subst this
    simp only [List.nil_append, stepRatio]
    split_ifs with a b
    · rfl
    · exact absurd (lt_of_lt_of_le a hm) b
    · rfl
    · rfl
  | cons b s₁ ih =>
    cases k₁ with
    | nil => simp at hl
    | cons c k₁ =>
      simp only [List.cons_append, stepRatio]
      rw [ih k₁ (by simpa using hl)]

/-- **C37** Splitting a zone in two of the same permeability changes nothing, wherever it is. -/
theorem C37_split (s₁ k₁ s₂ k₂ : List ℝ) (m s k : ℝ) (hl₁ : s₁.length = k₁.length) (hl₂ : s₂.length = k₂.length)
    (h1 : ∀ x ∈ s₁ ++ m :: s :: s₂, 1 < x) (hk : ∀ y ∈ k₁ ++ k :: k₂, 0 < y) (hi : Increasing (s₁ ++ m :: s :: s₂)) :
    muPiecewiseConstant (s₁ ++ m :: s :: s₂) (k₁ ++ k :: k :: k₂) none none = muPiecewiseConstant (s₁ ++ s :: s₂) (k₁ ++ k :: k₂) none none := by
  have hms : m < s ∧ Increasing (s₁ ++ s :: s₂) := by
    clear h1 hl₁
    induction s₁ with
    | nil => exact ⟨hi.1, hi.2⟩
    | cons b s₁ ih =>
      cases s₁ with
      | nil =>
        obtain ⟨u, v, w⟩ := hi
        exact ⟨v, lt_trans u v, w⟩
      | cons c s₁ =>
        obtain ⟨u, v⟩ := hi
        obtain ⟨p, q⟩ := ih v
        exact ⟨p, u, q⟩
  obtain ⟨N, hN⟩ : ∃ N, (s :: s₂).getLast? = some N := ⟨_, List.getLast?_eq_some_getLast (by simp)⟩
  have e1 : (s₁ ++ m :: s :: s₂).getLast? = some N := by
    rw [show s₁ ++ m :: s :: s₂ = (s₁ ++ [m]) ++ s :: s₂ by simp, List.getLast?_append, hN]; rfl
  have e2 : (s₁ ++ s :: s₂).getLast? = some N := by rw [List.getLast?_append, hN]; rfl
  rw [C70_constant _ _ N (by simp [hl₁, hl₂]) h1 (by
      intro y hy; apply hk; simp at hy ⊢; tauto) hi e1,
    C70_constant _ _ N (by simp [hl₁, hl₂]) (by
      intro x hx; apply h1; simp at hx ⊢; tauto) hk hms.2 e2]
  congr 2
  funext x
  exact step_split s₁ k₁ hl₁ m s k hms.1.le s₂ k₂ x

end Geotecha.Smear
