import Verif.Consol.NogamiRad
import Verif.Consol.SchiffmanEx
import Mathlib.Analysis.Real.Pi.Bounds
import Mathlib.Analysis.SpecialFunctions.Trigonometric.Sinc
import Mathlib.Analysis.Calculus.DSlope

/-! # Cases beside C158 - C164 -/

set_option autoImplicit false
set_option linter.unusedVariables false
open Real Finset MeasureTheory
namespace Geotecha.Consol
open Geotecha (PyErr)
open Geotecha.Piecewise Geotecha.Speccon
open Geotecha.Spec (polyLeft polyRight)
namespace NL

theorem mapM_ex {α β : Type} {f : α → Except PyErr β} : ∀ {l : List α}, (∀ a ∈ l, ∃ b, f a = .ok b) → ∃ r, l.mapM f = .ok r
  | [], _ => ⟨[], rfl⟩
  | a :: l, h => by
    obtain ⟨b, hb⟩ := h a (by simp)
    obtain ⟨r, hr⟩ := mapM_ex (f := f) (l := l) fun x hx => h x (by simp [hx])
    exact ⟨b :: r, by rw [List.mapM_cons, hb, hr]; rfl⟩

theorem bind_ex {α β : Type} {x : Except PyErr α} {f : α → Except PyErr β} (hx : ∃ a, x = .ok a) (hf : ∀ a, ∃ b, f a = .ok b) :
    ∃ b, (x >>= f) = .ok b := by
  obtain ⟨a, rfl⟩ := hx
  exact hf a

/-- Once positive eigenvalues are found there is a result. -/
theorem output_ex {o : NL} {B : BesselFns} {p0 : ℝ × ℝ} {nv : ℕ} {qs : List Term} (h : o.Valid) {x y : List ℝ} (hp : PolyLine.ofX_Y x y = .ok o.load)
    {s tend load0 : ℝ} {load : ℝ → ℝ} (hl : LoadHistory o.load none s tend load load0) (hw : o.Where s tend) (hq : ∀ q ∈ qs, 0 < q.alp) :
    ∃ r, o.output B p0 nv qs = .ok r := by
  obtain ⟨D, hD⟩ := tm_ok hl
  have hpor : ∀ ts, o.tpor = some ts → ∃ l, (o.z.mapM fun z => ts.mapM fun t => o.porAt B p0 qs z t) = .ok l := fun ts hts => by
    refine mapM_ex fun z hz => mapM_ex fun t ht => ?_
    unfold porAt
    refine bind_ex (mapM_ex fun q hqq => ?_) fun v => ⟨_, rfl⟩
    rw [(hD _ (hq q hqq)).2.1 t (hw.tpor ts hts t ht).1 (hw.tpor ts hts t ht).2]
    simp only [Bind.bind, Except.bind, pure, Except.pure]
    rw [if_neg (not_le.2 (layer_lt h (hw.z z hz).1 (hw.z z hz).2))]
    split_ifs <;> exact ⟨_, rfl⟩
  have hav : ∀ ts, o.t = some ts → ∃ l, (ts.mapM fun t => o.avpSet B p0 nv qs t) = .ok l := fun ts hts => by
    refine mapM_ex fun t ht => ?_
    unfold avpSet
    refine bind_ex (mapM_ex fun q hqq => ?_) fun v => ⟨_, rfl⟩
    rw [(hD _ (hq q hqq)).2.1 t (hw.t ts hts t ht).1 (hw.t ts hts t ht).2, pinterpLeft_ok hp hl t]
    exact ⟨_, rfl⟩
  unfold output
  cases htpor : o.tpor with
  | none =>
    cases hto : o.t with
    | none => exact ⟨_, rfl⟩
    | some ts =>
      obtain ⟨l, hl⟩ := hav ts hto
      dsimp only
      rw [hl]; exact ⟨_, rfl⟩
  | some tp =>
    obtain ⟨l, hl⟩ := hpor tp htpor
    dsimp only
    rw [hl]
    cases hto : o.t with
    | none => exact ⟨_, rfl⟩
    | some ts =>
      obtain ⟨l, hl⟩ := hav ts hto
      simp only [Bind.bind, Except.bind, pure, Except.pure] at hl ⊢
      rw [hl]; exact ⟨_, rfl⟩

/-! ## One layer of thickness 1 -/

/-- The layer, which drains at the bottom; `top` 0 drains as well. -/
noncomputable def ex (d : Option NLDrain) (top : ℤ) (rdx x0 dx : ℝ) (p : PolyLine ℝ) : NL where
  z := [1 / 2]
  t := some [0, 20]
  tpor := some [20]
  nv := some 1
  h := [1]
  kv := [1]
  mv := [1]
  drain := d
  rcalc := none
  bctop := top
  bcbot := 0
  radialX0 := 1
  radialDx := rdx
  radialP := 1.01
  verticalX0 := x0
  verticalDx := dx
  verticalP := 1.01
  maxIter := 2000
  load := p

variable {d : Option NLDrain} {top : ℤ} {rdx x0 dx : ℝ} {p : PolyLine ℝ} {B : BesselFns}

theorem ex_valid : (ex d top rdx x0 dx p).Valid := by
  constructor <;> simp [ex]

theorem ex_search (h1 : 0 < rdx) (h2 : 0 ≤ x0) (h3 : 0 < dx) : (ex d top rdx x0 dx p).Search := by
  constructor <;> simp [ex, h1, h2, h3] <;> norm_num

theorem ex_depth : (ex d top rdx x0 dx p).column.depth (ex d top rdx x0 dx p).column.N = 1 := by
  simp [Spec.Column.depth, column, ex, nl, hh]

theorem ex_where : (ex d top rdx x0 dx p).Where 0 50 := by
  refine ⟨?_, ?_, ?_⟩
  · intro ts hts t ht
    have : ts = [0, 20] := by simpa [ex] using hts.symm
    rw [this] at ht
    have : t = 0 ∨ t = 20 := by simpa using ht
    rcases this with rfl | rfl <;> norm_num
  · intro ts hts t ht
    have : ts = [20] := by simpa [ex] using hts.symm
    rw [this] at ht
    have : t = 20 := by simpa using ht
    rw [this]; norm_num
  · intro z hz
    have : z = 1 / 2 := by simpa [ex] using hz
    rw [ex_depth, this]; norm_num

theorem ex_nl : (ex d top rdx x0 dx p).nl = 1 := rfl
theorem ex_hh : (ex d top rdx x0 dx p).hh 0 = 1 := by simp [hh, ex]

/-- The horizontal flow in what the root is taken of. -/
def kd (d : Option NLDrain) : ℝ := match d with | none => 0 | some _ => 1

/-- The drains of the cases. -/
def Std (d : Option NLDrain) : Prop := ∀ e, d = some e → e.kh = [1] ∧ e.r0 = 1

theorem ex_beta2 (hd : Std d) (a s : ℝ) : (ex d top rdx x0 dx p).beta2 a s 0 = a ^ 2 - kd d * s ^ 2 := by
  unfold beta2 cv ch k m kd ex
  cases d with
  | none => simp
  | some e =>
    obtain ⟨h1, h2⟩ := hd e rfl
    simp [h1, h2]

theorem ex_curve1 (hd : Std d) (a s : ℝ) : (ex d 1 rdx x0 dx p).curve (1, 0) false s a = cf (a ^ 2 - kd d * s ^ 2) 1 := by
  unfold curve
  simp only [ex_nl, Nat.sub_self, ex_hh, phi, beta, ex_beta2 hd]
  set b := a ^ 2 - kd d * s ^ 2 with hb
  unfold transfer
  by_cases h : csqrt b = 0
  · rw [if_pos h]
    have : b = 0 := csqrt_zero.1 h
    rw [this, cf_pos le_rfl]; simp
  · rw [if_neg h]
    have := cos_eq b 1
    rw [this]; simp

theorem ex_curve0 (hd : Std d) (a s : ℝ) : (ex d 0 rdx x0 dx p).curve (0, 1) false s a = sf (a ^ 2 - kd d * s ^ 2) 1 := by
  unfold curve
  simp only [ex_nl, Nat.sub_self, ex_hh, phi, beta, ex_beta2 hd]
  set b := a ^ 2 - kd d * s ^ 2 with hb
  unfold transfer
  by_cases h : csqrt b = 0
  · rw [if_pos h]
    have : b = 0 := csqrt_zero.1 h
    rw [this, sf_pos le_rfl]; simp
  · rw [if_neg h]
    have := sinb_eq b 1
    rw [this]; simp

theorem cf1_cont : Continuous fun a => cf a 1 := by
  have : (fun a => cf a 1) = fun a => if 0 ≤ a then cos (√a) else cosh (√(-a)) := by
    funext a
    by_cases h : 0 ≤ a
    · rw [if_pos h, cf_pos h, mul_one]
    · rw [if_neg h, cf_neg h, mul_one]
  rw [this]
  refine Continuous.if_le (by fun_prop) (Real.continuous_cosh.comp (by fun_prop)) continuous_const continuous_id fun x hx => ?_
  have : x = 0 := hx.symm
  rw [this]; simp

theorem sf1_pos {a : ℝ} (h0 : a ≠ 0) (h : a < π ^ 2) : 0 < sf a 1 := by
  have hp := pi_pos
  rcases lt_or_gt_of_ne h0 with g | g
  · rw [sf_neg (not_le.2 g), mul_one]
    have : 0 < √(-a) := Real.sqrt_pos.2 (by linarith)
    exact div_pos (Real.sinh_pos_iff.2 this) this
  · rw [sf_pos g.le, mul_one]
    have h1 : 0 < √a := Real.sqrt_pos.2 g
    have h2 : √a < π := by
      rw [show π = √(π ^ 2) from (Real.sqrt_sq hp.le).symm]
      exact Real.sqrt_lt_sqrt g.le h
    exact div_pos (sin_pos_of_pos_of_lt_pi h1 h2) h1

theorem cf1_pos {a : ℝ} (h : a < (π / 2) ^ 2) : 0 < cf a 1 := by
  have hp := pi_pos
  by_cases g : 0 ≤ a
  · rw [cf_pos g, mul_one]
    refine cos_pos_of_mem_Ioo ⟨by linarith [Real.sqrt_nonneg a], ?_⟩
    rw [show π / 2 = √((π / 2) ^ 2) from (Real.sqrt_sq (by linarith)).symm]
    exact Real.sqrt_lt_sqrt g h
  · rw [cf_neg g]; exact cosh_pos _

theorem cf1_zero : cf ((π / 2) ^ 2) 1 = 0 := by
  rw [cf_pos (by positivity), Real.sqrt_sq (by have := pi_pos; positivity), mul_one, cos_pi_div_two]

/-! ## Solvers -/

theorem sf_contAt {a : ℝ} (ha : a ≠ 0) : ContinuousAt (fun a => sf a 1) a := by
  rcases lt_or_gt_of_ne ha with h | h
  · have h1 : √(-a) ≠ 0 := (Real.sqrt_pos.2 (by linarith)).ne'
    have h2 : ContinuousAt (fun a : ℝ => √(-a)) a := by fun_prop
    refine ContinuousAt.congr (f := fun a => sinh (√(-a)) / √(-a)) ((Real.continuous_sinh.continuousAt.comp h2).div h2 h1) ?_
    exact Filter.mem_of_superset (Iio_mem_nhds h) fun x hx => by
      show _ = sf x 1
      rw [sf_neg (not_le.2 hx), mul_one]
  · have h1 : √a ≠ 0 := (Real.sqrt_pos.2 h).ne'
    have h2 : ContinuousAt (fun a : ℝ => √a) a := by fun_prop
    refine ContinuousAt.congr (f := fun a => sin (√a) / √a) ((Real.continuous_sin.continuousAt.comp h2).div h2 h1) ?_
    exact Filter.mem_of_superset (Ioi_mem_nhds h) fun x hx => by
      show _ = sf x 1
      rw [sf_pos (le_of_lt hx), mul_one]

theorem sf_at_zero : sf 0 1 = 0 := by rw [sf_pos le_rfl]; simp

theorem sf_solver (c : ℝ) : ∃ sv, Roots.Spec.Solves (fun a => sf (a ^ 2 - c) 1) sv := by
  set f : ℝ → ℝ := fun a => sf (a ^ 2 - c) 1 with hf
  have : ∀ x0 x1 : ℝ, ∃ z, x0 < x1 → f x0 ≠ 0 → f x0 * f x1 ≤ 0 → x0 ≤ z ∧ z ≤ x1 ∧ f z = 0 := fun x0 x1 => by
    by_cases h : x0 < x1 ∧ f x0 ≠ 0 ∧ f x0 * f x1 ≤ 0
    · obtain ⟨h1, h2, h3⟩ := h
      by_cases hz : ∃ z ∈ Set.Icc x0 x1, z ^ 2 - c = 0
      · obtain ⟨z, hz, hz0⟩ := hz
        exact ⟨z, fun _ _ _ => ⟨hz.1, hz.2, by rw [hf]; simp only [hz0, sf_at_zero]⟩⟩
      push Not at hz
      have hct : ContinuousOn f (Set.Icc x0 x1) := fun x hx => by
        have := sf_contAt (hz x hx)
        have l : ContinuousAt (fun x : ℝ => x ^ 2 - c) x := by fun_prop
        exact (ContinuousAt.comp (f := fun x : ℝ => x ^ 2 - c) this l).continuousWithinAt
      rcases lt_or_gt_of_ne h2 with g | g
      · obtain ⟨c, g1, g2, g3, _⟩ := first_zero (f := fun x => -f x) h1.le hct.neg (by linarith) (by
          have : 0 ≤ f x1 := by by_contra hn; have := mul_pos_of_neg_of_neg g (not_le.1 hn); linarith
          linarith)
        exact ⟨c, fun _ _ _ => ⟨g1.le, g2, by linarith⟩⟩
      · obtain ⟨c, g1, g2, g3, _⟩ := first_zero h1.le hct g (by by_contra hn; have := mul_pos g (not_le.1 hn); linarith)
        exact ⟨c, fun _ _ _ => ⟨g1.le, g2, g3⟩⟩
    · exact ⟨0, fun a b c => absurd ⟨a, b, c⟩ h⟩
  choose z hz using this
  exact ⟨fun x0 x1 _ => z x0 x1, fun x0 x1 _ h1 h2 h3 => hz x0 x1 h1 h2 h3⟩

theorem ex_p0 (top : ℤ) (h : top = 0 ∨ top = 1) : (ex d top rdx x0 dx p).phia0 = some (if top = 0 then (0, 1) else (1, 0)) := by
  rcases h with rfl | rfl <;> simp [phia0, ex]

theorem ex_check : (ex d top rdx x0 dx p).check = some false := by simp [check, ex]

theorem ex_solver (hd : Std d) (hdr : ∀ e, d = some e → ∃ sv, Roots.Spec.Solves (radialCurve e B) sv) (htop : top = 0 ∨ top = 1)
    {solve : (ℝ → ℝ) → ℝ → ℝ → ℝ → ℝ} (hs : ∀ f, (∃ sv, Roots.Spec.Solves f sv) → Roots.Spec.Solves f (solve f)) :
    (ex d top rdx x0 dx p).SolverOk B solve := by
  refine ⟨fun e he => hs _ (hdr e he), fun p0 chk s hp0 hc _ => hs _ ?_⟩
  have e1 : chk = false := by rw [ex_check] at hc; injection hc with hc; exact hc.symm
  rw [ex_p0 top htop] at hp0
  injection hp0 with hp0
  subst e1 hp0
  rcases htop with rfl | rfl
  · have : (ex d 0 rdx x0 dx p).curve (0, 1) false s = fun a => sf (a ^ 2 - kd d * s ^ 2) 1 := funext fun a => ex_curve0 hd a s
    simp only [if_true, this]
    exact sf_solver _
  · have : (ex d 1 rdx x0 dx p).curve (1, 0) false s = fun a => cf (a ^ 2 - kd d * s ^ 2) 1 := funext fun a => ex_curve1 hd a s
    simp only [one_ne_zero, if_false, this]
    exact Roots.Spec.exists_solver (cf1_cont.comp (by fun_prop))

/-! ## Runs -/

theorem ex_ends (htop : top = 0 ∨ top = 1) {solve : (ℝ → ℝ) → ℝ → ℝ → ℝ → ℝ} {s b : ℝ} (hsn : (ex d top rdx x0 dx p).SnEnds B solve [s])
    (hrow : Roots.Ends ((ex d top rdx x0 dx p).verticalArgs 1 (if top = 0 then (0, 1) else (1, 0)) false solve x0 s) (.returned [b])) (hb : 0 < b)
    {x y : List ℝ} (hp : PolyLine.ofX_Y x y = .ok p) {load0 : ℝ} {load : ℝ → ℝ} (hl : LoadHistory p none 0 50 load load0) :
    ∃ r, (ex d top rdx x0 dx p).Ends B solve (.ok r) := by
  obtain ⟨r, hr⟩ := output_ex (o := ex d top rdx x0 dx p) (B := B) (p0 := if top = 0 then (0, 1) else (1, 0)) (nv := 1) (qs := terms [s] [[b]])
    ex_valid hp hl ex_where (fun q hq => by
      have : q = ⟨s, b⟩ := by simpa [terms] using hq
      rw [this]; exact hb)
  have hV : (ex d top rdx x0 dx p).Vertical B solve [s] (.ok r) := by
    unfold Vertical
    rw [ex_p0 top htop, ex_check]
    exact Or.inr ⟨[[b]], Or.inr ⟨[b], .ok [], hrow, rfl, rfl⟩, hr.symm⟩
  refine ⟨r, ?_⟩
  unfold Ends
  unfold SnEnds at hsn
  cases hd : (ex d top rdx x0 dx p).drain with
  | none =>
    rw [hd] at hsn
    have : s = 0 := by simpa using hsn
    rw [this] at hV; exact hV
  | some e => rw [hd] at hsn; exact Or.inr ⟨[s], hsn, hV⟩

/-- Hop of the vertical search without drain. -/
noncomputable def hopFree : ℝ := (π / 2 - (1 + 1e-7)) / 5.10100501

theorem hopFree_pos : 1e-7 < hopFree := by
  have := pi_gt_d2
  unfold hopFree
  rw [lt_div_iff₀ (by norm_num)]
  norm_num; linarith

/-- The layer without drain. -/
theorem free_run {solve : (ℝ → ℝ) → ℝ → ℝ → ℝ → ℝ} (hs : (ex none 1 1 1 hopFree p).SolverOk B solve)
    {x y : List ℝ} (hp : PolyLine.ofX_Y x y = .ok p) {load0 : ℝ} {load : ℝ → ℝ} (hl : LoadHistory p none 0 50 load load0) :
    ∃ r, (ex none 1 1 1 hopFree p).Ends B solve (.ok r) := by
  have hpi := pi_gt_d2
  have hst : Std none := fun e he => by cases he
  have hsv := hs.2 (1, 0) false 0 (ex_p0 1 (Or.inr rfl)) ex_check rfl
  have hx : ((ex none 1 1 1 hopFree p).verticalArgs 1 (1, 0) false solve 1 0).x0 = 1 + 1e-7 := by
    simp only [verticalArgs, if_true]
    rw [show (ex none 1 1 1 hopFree p).verticalDx = hopFree from rfl, min_eq_left hopFree_pos.le]
  have hf : ((ex none 1 1 1 hopFree p).verticalArgs 1 (1, 0) false solve 1 0).f = fun a => cf (a ^ 2) 1 := funext fun a => by
    show (ex none 1 1 1 hopFree p).curve (1, 0) false 0 a = _
    rw [ex_curve1 hst]; simp
  obtain ⟨b, hb, g1, g2, g3⟩ := Roots.hop_to (a := (ex none 1 1 1 hopFree p).verticalArgs 1 (1, 0) false solve 1 0) (c := π / 2) rfl rfl rfl rfl hsv
    (by rw [hx]; norm_num) (by rw [hx]; norm_num; linarith) (by rw [hx]; rfl) (fun x h1 h2 => by
      rw [hx] at h1
      rw [hf]
      have : (0:ℝ) < x := by norm_num at h1; linarith
      exact cf1_pos (by nlinarith)) (by rw [hf]; exact cf1_zero.le)
  refine ex_ends (b := b) (s := 0) (Or.inr rfl) rfl hb ?_ hp hl
  rw [hx] at g2
  norm_num at g2; linarith

/-- The outer radius of the cases with a drain. -/
theorem radial_run : ∃ (R rdx : ℝ), 1 < R ∧ 0 < rdx ∧ ∀ (top : ℤ) (x0 dx : ℝ) (p : PolyLine ℝ) (solve : (ℝ → ℝ) → ℝ → ℝ → ℝ → ℝ),
    (∀ f, (∃ sv, Roots.Spec.Solves f sv) → Roots.Spec.Solves f (solve f)) →
    ∃ s, 1 < s ∧ (∀ x0 dx p, (ex (some (dr R)) top rdx x0 dx p).SnEnds Bes.fns solve [s]) := by
  obtain ⟨R, hR, h1, h2⟩ := radius_ex Bes.isBessel
  obtain ⟨c, g1, g2, g3, g4⟩ := first_zero (f := radialCurve (dr R) Bes.fns) (a := 1) (b := 2) (by norm_num)
    (fun s hs => (curve_cont (by linarith) (by linarith [hs.1])).continuousWithinAt) (by rw [curve_V]; exact h1) (by rw [curve_V, h2])
  refine ⟨R, (c - 1) / 5.10100501, hR, div_pos (by linarith) (by norm_num), fun top x0 dx p solve hs => ?_⟩
  obtain ⟨s, hE, e1, e2, e3⟩ := Roots.hop_to (a := (ex (some (dr R)) top ((c - 1) / 5.10100501) x0 dx p).radialArgs (dr R) Bes.fns solve) (c := c)
    rfl rfl rfl rfl (hs _ (radial_solver (by linarith))) (by simp only [radialArgs, ex]; norm_num) g1 rfl g4 g3.le
  refine ⟨s, ?_, fun x0 dx p => hE⟩
  rcases lt_or_eq_of_le (show (1:ℝ) ≤ s from e2) with h | h
  · exact h
  · exfalso
    have e3 : radialCurve (dr R) Bes.fns s = 0 := e3
    rw [← h] at e3
    rw [curve_V] at e3
    linarith

theorem dr_std (R : ℝ) : Std (some (dr R)) := fun e he => by injection he with he; subst he; exact ⟨rfl, rfl⟩

theorem dr_solver {R : ℝ} (hR : 0 < R) : ∀ e, some (dr R) = some e → ∃ sv, Roots.Spec.Solves (radialCurve e Bes.fns) sv := fun e he => by
  injection he with he; subst he; exact radial_solver hR

/-- With a drain and a top that does not drain nothing is straight. -/
theorem ex_curved {R : ℝ} {solve : (ℝ → ℝ) → ℝ → ℝ → ℝ → ℝ} (hS : (ex (some (dr R)) 1 rdx x0 dx p).Search)
    (hs : (ex (some (dr R)) 1 rdx x0 dx p).SolverOk B solve) : (ex (some (dr R)) 1 rdx x0 dx p).Curved B solve := by
  rintro s a ⟨nv, p0, chk, sn, rows, hnv, hp, hc, h1, h2, h3⟩ i hi heq
  have hi0 : i = 0 := by rw [ex_nl] at hi; omega
  subst hi0
  obtain ⟨g1, g2, g3⟩ := sn_ok hS hs h1
  have := alp_ok hS (fun s h => hs.2 p0 chk s hp hc (g3 s h)) (fun x hx => by rw [Option.mem_some] at hx; subst hx; exact hS.vx0) h2
  obtain ⟨row, hrow, _, ha⟩ := mem_terms this h3
  have hz := (hrow.2.2 _ ha).1
  have e1 : chk = false := by rw [ex_check] at hc; injection hc with hc; exact hc.symm
  have hp1 := ex_p0 (d := some (dr R)) (rdx := rdx) (x0 := x0) (dx := dx) (p := p) 1 (Or.inr rfl)
  rw [hp1] at hp
  injection hp with hp
  subst e1 hp
  simp only [one_ne_zero, if_false] at hz
  rw [ex_curve1 (dr_std R)] at hz
  have hb := beta2_eq (o := ex (some (dr R)) 1 rdx x0 dx p) ex_valid a s (i := 0) (by rw [ex_nl]; norm_num)
  rw [heq, sub_self, ex_beta2 (dr_std R)] at hb
  have hk : (ex (some (dr R)) 1 rdx x0 dx p).k 0 ≠ 0 := (k_pos ex_valid (by rw [ex_nl]; norm_num)).ne'
  rw [(mul_eq_zero.1 hb).resolve_left hk, cf_pos le_rfl] at hz
  simp at hz

theorem step0_mono (a b : ℝ) (h1 : 0 ≤ a) (h2 : a ≤ b) (h3 : b ≤ 50) :
    (0:ℝ) ≤ polyRight ([(0:ℝ), 0, 100].zip [0, 1, 1]) a ∧
      polyRight ([(0:ℝ), 0, 100].zip [0, 1, 1]) a ≤ polyRight ([(0:ℝ), 0, 100].zip [0, 1, 1]) b := by
  rw [SS.step0_right h1 (by linarith), SS.step0_right (by linarith) h3]; norm_num

/-- A case with a drain for C158, C160 and C161. -/
theorem drain_case : ∃ (o : NL) (d : NLDrain) (B : BesselFns) (solve : (ℝ → ℝ) → ℝ → ℝ → ℝ → ℝ) (load : ℝ → ℝ) (r : Output),
    o.Valid ∧ o.drain = some d ∧ DrainOk d ∧ Spec.IsBessel B.J B.Y 0 ∧ o.rcalc = none ∧ o.Search ∧ o.SolverOk B solve ∧ o.Curved B solve ∧
    o.nv = some 1 ∧ PolyLine.ofX_Y [0, 0, 100] [0, 1, 1] = .ok o.load ∧ LoadHistory o.load none 0 50 load 0 ∧ o.Where 0 50 ∧
    o.Ends B solve (.ok r) ∧ ∀ a b, 0 ≤ a → a ≤ b → b ≤ 50 → 0 ≤ load a ∧ load a ≤ load b := by
  obtain ⟨p, hp, hl⟩ := SS.step0_history
  obtain ⟨solve, hs⟩ := solver_all
  obtain ⟨R, rdx, hR, hrdx, hrun⟩ := radial_run
  obtain ⟨s, hs1, hsn⟩ := hrun 1 1 1 p solve hs
  have hpi := pi_pos
  set c := √(s ^ 2 + (π / 2) ^ 2) with hc
  have hc2 : c ^ 2 = s ^ 2 + (π / 2) ^ 2 := Real.sq_sqrt (by positivity)
  have hc0 : 0 ≤ c := Real.sqrt_nonneg _
  have hc1 : 1 < c := by nlinarith
  have hdx : 0 < (c - 1) / 5.10100501 := div_pos (by linarith) (by norm_num)
  have hS := ex_search (d := some (dr R)) (top := 1) (p := p) hrdx (zero_le_one' ℝ) hdx
  have hso : (ex (some (dr R)) 1 rdx 1 ((c - 1) / 5.10100501) p).SolverOk Bes.fns solve := ex_solver (dr_std R) (dr_solver (by linarith)) (Or.inr rfl) hs
  have hsne : s ≠ 0 := by linarith
  have hrad := (sn_ok hS hso (hsn 1 _ p)).2.2 s (by simp)
  have hsv := hso.2 (1, 0) false s (ex_p0 1 (Or.inr rfl)) ex_check hrad
  have hx : ((ex (some (dr R)) 1 rdx 1 ((c - 1) / 5.10100501) p).verticalArgs 1 (1, 0) false solve 1 s).x0 = 1 := by
    simp only [verticalArgs, hsne, if_false, add_zero]
  have hf : ((ex (some (dr R)) 1 rdx 1 ((c - 1) / 5.10100501) p).verticalArgs 1 (1, 0) false solve 1 s).f = fun a => cf (a ^ 2 - s ^ 2) 1 :=
    funext fun a => by
      show (ex (some (dr R)) 1 rdx 1 ((c - 1) / 5.10100501) p).curve (1, 0) false s a = _
      rw [ex_curve1 (dr_std R)]; simp [kd]
  obtain ⟨b, hb, g1, g2, g3⟩ := Roots.hop_to (a := (ex (some (dr R)) 1 rdx 1 ((c - 1) / 5.10100501) p).verticalArgs 1 (1, 0) false solve 1 s)
    (c := c) rfl rfl rfl rfl hsv (by rw [hx]; norm_num) (by rw [hx]; exact hc1) (by rw [hx]; rfl) (fun x h1 h2 => by
      rw [hx] at h1
      rw [hf]
      exact cf1_pos (by nlinarith)) (by rw [hf]; simp only [hc2, add_sub_cancel_left, cf1_zero, le_refl])
  rw [hx] at g2
  obtain ⟨r, hE⟩ := ex_ends (Or.inr rfl) (hsn 1 _ p) hb (by linarith) hp hl
  exact ⟨_, dr R, Bes.fns, solve, _, r, ex_valid, rfl, ⟨one_pos, hR, Nat.one_pos⟩, Bes.isBessel, rfl, hS, hso, ex_curved hS hso, rfl, hp, hl, ex_where,
    hE, step0_mono⟩

/-- A case without a drain for C159, C161 and C164. -/
theorem free_case : ∃ (o : NL) (B : BesselFns) (solve : (ℝ → ℝ) → ℝ → ℝ → ℝ → ℝ) (load : ℝ → ℝ) (r : Output),
    o.Valid ∧ o.drain = none ∧ o.Search ∧ o.SolverOk B solve ∧ o.Curved B solve ∧
    o.nv = some 1 ∧ PolyLine.ofX_Y [0, 0, 100] [0, 1, 1] = .ok o.load ∧ LoadHistory o.load none 0 50 load 0 ∧ o.Where 0 50 ∧
    o.Ends B solve (.ok r) ∧ ∀ a b, 0 ≤ a → a ≤ b → b ≤ 50 → 0 ≤ load a ∧ load a ≤ load b := by
  obtain ⟨p, hp, hl⟩ := SS.step0_history
  obtain ⟨solve, hs⟩ := solver_all
  have h0 : (0:ℝ) < hopFree := lt_trans (by norm_num) hopFree_pos
  have hS := ex_search (d := none) (top := 1) (p := p) one_pos (zero_le_one' ℝ) h0
  have hso : (ex none 1 1 1 hopFree p).SolverOk Bes.fns solve := ex_solver (fun e he => by cases he) (fun e he => by cases he) (Or.inr rfl) hs
  obtain ⟨r, hE⟩ := free_run hso hp hl
  exact ⟨_, Bes.fns, solve, _, r, ex_valid, rfl, hS, hso, curved_free ex_valid hS hso rfl, rfl, hp, hl, ex_where, hE, step0_mono⟩

/-- **C163**, it happens: a layer that drains at top and bottom, with a drain, whose averages and settlements are all nan. -/
theorem C163_happens : ∃ (o : NL) (d : NLDrain) (B : BesselFns) (solve : (ℝ → ℝ) → ℝ → ℝ → ℝ → ℝ) (r : Output),
    o.Valid ∧ o.drain = some d ∧ DrainOk d ∧ Spec.IsBessel B.J B.Y 0 ∧ o.Search ∧ o.SolverOk B solve ∧ o.Where 0 50 ∧ o.t = some [0, 20] ∧
    o.Ends B solve (.ok r) ∧ r.avp = some [none, none] ∧ r.set = some [none, none] := by
  obtain ⟨p, hp, hl⟩ := SS.step0_history
  obtain ⟨solve, hs⟩ := solver_all
  obtain ⟨R, rdx, hR, hrdx, hrun⟩ := radial_run
  obtain ⟨s, hs1, hsn⟩ := hrun 0 1 1 p solve hs
  have hpi := pi_pos
  have hdx : 0 < (s - 1) / 5.10100501 := div_pos (by linarith) (by norm_num)
  have hS := ex_search (d := some (dr R)) (top := 0) (p := p) hrdx (zero_le_one' ℝ) hdx
  have hso : (ex (some (dr R)) 0 rdx 1 ((s - 1) / 5.10100501) p).SolverOk Bes.fns solve := ex_solver (dr_std R) (dr_solver (by linarith)) (Or.inl rfl) hs
  have hsne : s ≠ 0 := by linarith
  have hrad := (sn_ok hS hso (hsn 1 _ p)).2.2 s (by simp)
  have hsv := hso.2 (0, 1) false s (ex_p0 0 (Or.inl rfl)) ex_check hrad
  have hx : ((ex (some (dr R)) 0 rdx 1 ((s - 1) / 5.10100501) p).verticalArgs 1 (0, 1) false solve 1 s).x0 = 1 := by
    simp only [verticalArgs, hsne, if_false, add_zero]
  have hf : ((ex (some (dr R)) 0 rdx 1 ((s - 1) / 5.10100501) p).verticalArgs 1 (0, 1) false solve 1 s).f = fun a => sf (a ^ 2 - s ^ 2) 1 :=
    funext fun a => by
      show (ex (some (dr R)) 0 rdx 1 ((s - 1) / 5.10100501) p).curve (0, 1) false s a = _
      rw [ex_curve0 (dr_std R)]; simp [kd]
  have hpos : ∀ x : ℝ, 1 ≤ x → x < s → 0 < sf (x ^ 2 - s ^ 2) 1 := fun x h1 h2 => sf1_pos (by nlinarith) (by nlinarith)
  obtain ⟨b, hb, g1, g2, g3⟩ := Roots.hop_to (a := (ex (some (dr R)) 0 rdx 1 ((s - 1) / 5.10100501) p).verticalArgs 1 (0, 1) false solve 1 s)
    (c := s) rfl rfl rfl rfl hsv (by rw [hx]; norm_num) (by rw [hx]; exact hs1) (by rw [hx]; rfl) (fun x h1 h2 => by
      rw [hx] at h1
      rw [hf]
      exact hpos x h1 h2) (by rw [hf]; simp only [sub_self, sf_at_zero, le_refl])
  rw [hx] at g2
  rw [hf] at g3
  have hbs : b = s := by
    by_contra hne
    have := hpos b g2 (lt_of_le_of_ne g1 hne)
    dsimp only at g3
    linarith
  obtain ⟨r, hE⟩ := ex_ends (Or.inl rfl) (hsn 1 _ p) hb (by linarith) hp hl
  refine ⟨_, dr R, Bes.fns, solve, r, ex_valid, rfl, ⟨one_pos, hR, Nat.one_pos⟩, Bes.isBessel, hS, hso, ex_where, rfl, hE, ?_⟩
  obtain ⟨nv, p0, chk, sn, rows, q1, q2, q3, q4, q5, q6⟩ := C163_nan _ Bes.fns solve ex_valid r hE
  rcases q6 with q6 | q6
  · exfalso
    have n1 : nv = 1 := by injection q1 with h; exact h.symm
    have e1 : chk = false := by rw [ex_check] at q3; injection q3 with h; exact h.symm
    rw [ex_p0 0 (Or.inl rfl)] at q2
    injection q2 with q2
    subst n1 e1 q2
    have hsn' : sn = [s] := Roots.Ends.unique q4 (hsn 1 _ p)
    subst hsn'
    rcases q5 with ⟨e, _, he⟩ | ⟨row, r', w1, w2, w3⟩
    · cases he
    have : row = [b] := Roots.Ends.unique w1 hb
    subst this
    have w2 : r' = .ok [] := w2
    subst w2
    injection w3 with w3
    subst w3
    have := q6 ⟨s, b⟩ (by simp [terms]) 0 (by rw [ex_nl]; norm_num)
    apply this
    simp [m, khh, kap, ex, dr, hbs]
  · exact ⟨by rw [q6.1]; rfl, by rw [q6.2]; rfl⟩

/-- **C164**, what is missing: in the case without drain the settlements handed over for saving are not the settlements. -/
theorem C164_negation : ∃ (o : NL) (B : BesselFns) (solve : (ℝ → ℝ) → ℝ → ℝ → ℝ → ℝ) (r : Output), o.Valid ∧ o.SolverOk B solve ∧
    o.Ends B solve (.ok r) ∧ r.dataSet ≠ r.set := by
  obtain ⟨p, hp, hl⟩ := SS.step0_history
  obtain ⟨solve, hs⟩ := solver_all
  have h0 : (0:ℝ) < hopFree := lt_trans (by norm_num) hopFree_pos
  have hst : Std none := fun e he => by cases he
  have hS := ex_search (d := none) (top := 1) (p := p) one_pos (zero_le_one' ℝ) h0
  have hso : (ex none 1 1 1 hopFree p).SolverOk Bes.fns solve := ex_solver hst (fun e he => by cases he) (Or.inr rfl) hs
  obtain ⟨r, hE⟩ := free_run hso hp hl
  refine ⟨_, Bes.fns, solve, r, ex_valid, hso, hE, ?_⟩
  obtain ⟨nv, p0, chk, sn, rows, R, h1, h2, hout⟩ := unpack hS hso hE
  have n1 : nv = 1 := by have := R.hnv; injection this with h; exact h.symm
  have e1 : chk = false := by have := R.hchk; rw [ex_check] at this; injection this with h; exact h.symm
  have e2 : p0 = (1, 0) := by have := R.hp0; rw [ex_p0 1 (Or.inr rfl)] at this; injection this with h; rw [← h]; simp
  subst n1 e1 e2
  have hsn : sn = [0] := h1
  subst hsn
  have hr := curved_regular ex_valid (curved_free ex_valid hS hso rfl) R h1 h2
  obtain ⟨D, hD, hpor, havp, hset, hd1, hd2⟩ := core_of ex_valid one_pos one_pos R hr hp hl ex_where.t ex_where.tpor ex_where.z hout
  set b := A rows 0 0 with hb
  obtain ⟨hz, hbp⟩ := R.root (n := 0) (m := 0) one_pos one_pos
  rw [← hb] at hz hbp
  have hS0 : S [(0:ℝ)] 0 = 0 := rfl
  have hcos : cos b = 0 := by
    rw [hS0, ex_curve1 hst] at hz
    simp only [kd, zero_mul, sub_zero] at hz
    rwa [cf_pos (by positivity), Real.sqrt_sq hbp.le, mul_one] at hz
  have hsin : sin b ^ 2 = 1 := by have := sin_sq_add_cos_sq b; rw [hcos] at this; linarith
  have hD0 : D b 0 = 1 := by
    have := (hD b hbp).2 0 le_rfl (by norm_num)
    rw [SS.step0_right le_rfl (by norm_num)] at this
    simpa using this
  rw [hd2, havp, hset]
  intro heq
  rw [show (ex none 1 1 1 hopFree p).t = some [0, 20] from rfl] at heq
  simp only [Option.map_some, List.map_cons, List.map_nil, Option.some.injEq, List.cons.injEq, and_true] at heq
  have heq := heq.1
  have hzf : ∀ z, (ex none 1 1 1 hopFree p).zf (1, 0) b 0 0 z = cos (b * z) := fun z => by
    unfold zf lf phiA phiD
    rw [ex_beta2 hst]
    simp only [kd, zero_mul, sub_zero, phi]
    rw [cf_pos (by positivity), Real.sqrt_sq hbp.le]
    simp [Spec.Column.depth]
  have hder : ∀ z, HasDerivAt (fun z => sin (b * z) / b) (cos (b * z)) z := fun z => by
    have h : HasDerivAt (fun z => b * z) b z := by simpa using (hasDerivAt_id z).const_mul b
    refine (h.sin.div_const b).congr_deriv ?_
    field_simp
  have hder2 : ∀ z, HasDerivAt (fun z => z / 2 + sin (b * z) * cos (b * z) / (2 * b)) (cos (b * z) ^ 2) z := fun z => by
    have h : HasDerivAt (fun z => b * z) b z := by simpa using (hasDerivAt_id z).const_mul b
    refine (((hasDerivAt_id z).div_const 2).add ((h.sin.mul h.cos).div_const (2 * b))).congr_deriv ?_
    have := sin_sq_add_cos_sq (b * z)
    field_simp
    linarith
  have hi1 : ∫ z in (0:ℝ)..1, cos (b * z) = sin b / b := by
    rw [intervalIntegral.integral_eq_sub_of_hasDerivAt (fun z _ => hder z) ((by fun_prop : Continuous fun z => cos (b * z)).intervalIntegrable _ _)]
    simp
  have hi2 : ∫ z in (0:ℝ)..1, cos (b * z) ^ 2 = 1 / 2 := by
    rw [intervalIntegral.integral_eq_sub_of_hasDerivAt (fun z _ => hder2 z) ((by fun_prop : Continuous fun z => cos (b * z) ^ 2).intervalIntegrable _ _)]
    simp [hcos]
  have hN : (ex none 1 1 1 hopFree p).column.N = 1 := rfl
  have hd0 : (ex none 1 1 1 hopFree p).column.depth 0 = 0 := by simp [Spec.Column.depth]
  have hdd : (ex none 1 1 1 hopFree p).column.depth 1 = 1 := ex_depth
  have hm0 : (ex none 1 1 1 hopFree p).column.mv 0 = 1 := by simp [column, m, ex]
  have hreg := hr 0 one_pos 0 one_pos
  rw [hS0, ← hb] at hreg
  have hcmn : (ex none 1 1 1 hopFree p).cmn Bes.fns (1, 0) b 0 = 2 * (sin b / b) := by
    rw [cmn_eq hreg]
    unfold Spec.Column.total
    simp only [hN, sum_range_one, hd0, zero_add, hdd, hm0, hzf, hi1, hi2, one_mul]
    simp only [cn, ex]
    ring
  have hps : ∀ z, (ex none 1 1 1 hopFree p).psol Bes.fns 1 (1, 0) [0] rows D 0 z 0 = 2 * (sin b / b) * cos (b * z) := fun z => by
    unfold psol
    rw [show (ex none 1 1 1 hopFree p).nh = 1 from rfl]
    simp only [sum_range_one, hS0, ← hb, hcmn, hzf, hD0, show (ex none 1 1 1 hopFree p).radial Bes.fns 0 = 1 from rfl]
    ring
  have hI : ∫ z in (0:ℝ)..1, (ex none 1 1 1 hopFree p).psol Bes.fns 1 (1, 0) [0] rows D 0 z 0 = 2 / b ^ 2 := by
    simp only [hps]
    rw [intervalIntegral.integral_const_mul, hi1]
    field_simp
    linarith
  rw [Spec.Column.total_sub (fun i _ => continuous_const) (fun i hi => psol_cont hr D hi 0), Spec.Column.total_const, SS.step0_left] at heq
  unfold Spec.Column.mean Spec.Column.total at heq
  simp only [hN, sum_range_one, hd0, zero_add, hdd, hm0, hI, one_mul, div_one] at heq
  have hh0 : (ex none 1 1 1 hopFree p).column.h 0 = 1 := by simp [column, hh, ex]
  rw [hh0] at heq
  have hb2 : b ^ 2 = 4 := by field_simp at heq; linarith
  have hb2 : b = 2 := by nlinarith
  rw [hb2] at hcos
  have h3 := pi_lt_d2
  have h4 := pi_gt_d2
  have := cos_neg_of_pi_div_two_lt_of_lt (x := 2) (by linarith) (by linarith)
  linarith

end NL
end Geotecha.Consol
