import Verif.Consol.NogamiMode
import Verif.Consol.SchiffmanClaims

/-! # nogamiandli2003: from the result back to the eigenvalues -/

set_option autoImplicit false
set_option linter.unusedVariables false
open Real Finset MeasureTheory
namespace Geotecha.Consol
open Geotecha (PyErr)
open Geotecha.Piecewise Geotecha.Speccon
open Geotecha.Spec (polyLeft polyRight)
namespace NL
variable {o : NL} {B : BesselFns} {solve : (ℝ → ℝ) → ℝ → ℝ → ℝ → ℝ}

/-- Sensible drain and search parameters. -/
structure Search (o : NL) : Prop where
  rx0 : 0 ≤ o.radialX0
  rdx : 0 < o.radialDx
  rp : 0 < o.radialP
  vx0 : 0 ≤ o.verticalX0
  vdx : 0 < o.verticalDx
  vp : 0 < o.verticalP

/-- `s` belongs to a radius part. -/
def Radius (o : NL) (B : BesselFns) (s : ℝ) : Prop := match o.drain with
  | none => s = 0
  | some d => 0 < s ∧ radialCurve d B s = 0

/-- `fsolve` does its job on the characteristic curves. -/
def SolverOk (o : NL) (B : BesselFns) (solve : (ℝ → ℝ) → ℝ → ℝ → ℝ → ℝ) : Prop :=
  (∀ d, o.drain = some d → Roots.Spec.Solves (radialCurve d B) (solve (radialCurve d B))) ∧
  ∀ p0 chk s, o.phia0 = some p0 → o.check = some chk → o.Radius B s → Roots.Spec.Solves (o.curve p0 chk s) (solve (o.curve p0 chk s))

/-- `sn` may be the list of radial eigenvalues. -/
def SnEnds (o : NL) (B : BesselFns) (solve : (ℝ → ℝ) → ℝ → ℝ → ℝ → ℝ) (sn : List ℝ) : Prop := match o.drain with
  | none => sn = [0]
  | some d => Roots.Ends (o.radialArgs d B solve) (.returned sn)

/-- The pair of eigenvalues `s`, `alp` may be found. -/
def Found (o : NL) (B : BesselFns) (solve : (ℝ → ℝ) → ℝ → ℝ → ℝ → ℝ) (s alp : ℝ) : Prop :=
  ∃ nv p0 chk sn rows, o.nv = some nv ∧ o.phia0 = some p0 ∧ o.check = some chk ∧ o.SnEnds B solve sn ∧
    o.AlpEnds nv p0 chk solve (some o.verticalX0) sn (.ok rows) ∧ ⟨s, alp⟩ ∈ terms sn rows

/-- A row of `_alp`. -/
def RowOk (o : NL) (nv : ℕ) (p0 : ℝ × ℝ) (chk : Bool) (s : ℝ) (row : List ℝ) : Prop :=
  row.length = nv ∧ row.Pairwise (· < ·) ∧ ∀ a ∈ row, o.curve p0 chk s a = 0 ∧ 0 < a

theorem alp_ok (hS : o.Search) {nv : ℕ} {p0 : ℝ × ℝ} {chk : Bool} : ∀ {sn : List ℝ} {a : Option ℝ} {rows : List (List ℝ)},
    (∀ s ∈ sn, Roots.Spec.Solves (o.curve p0 chk s) (solve (o.curve p0 chk s))) → (∀ x ∈ a, 0 ≤ x) →
    o.AlpEnds nv p0 chk solve a sn (.ok rows) → List.Forall₂ (o.RowOk nv p0 chk) sn rows
  | [], a, rows, _, _, h => by
    have : (.ok rows : Except PyErr (List (List ℝ))) = .ok [] := by cases a <;> exact h
    injection this with this; subst this; exact .nil
  | s :: ss, none, rows, _, _, h => by cases h
  | s :: ss, some a, rows, hs, ha, h => by
    rcases h with ⟨e, _, h⟩ | ⟨row, r', hrow, hrec, h⟩
    · cases h
    cases r' with
    | error e => cases h
    | ok rows' =>
    simp only [Except.map, Except.ok.injEq] at h
    subst h
    obtain ⟨h1, h2, h3⟩ := Roots.C103_sound (o.verticalArgs nv p0 chk solve a s) (hs s (by simp)) hS.vdx hS.vp row hrow
    have hx : 0 ≤ (o.verticalArgs nv p0 chk solve a s).x0 := by
      have := ha a rfl
      have := hS.vdx
      unfold verticalArgs
      dsimp only
      split_ifs
      · have : 0 ≤ min 1e-7 o.verticalDx := le_min (by norm_num) hS.vdx.le
        linarith
      · linarith
    have hpos : ∀ x ∈ row, 0 < x := fun x hx' => hx.trans_lt (h3 x hx').2
    refine .cons ⟨h1, h2, fun x hx => ⟨(h3 x hx).1, hpos x hx⟩⟩ (alp_ok hS (fun s h => hs s (by simp [h])) (fun x hx => ?_) hrec)
    exact (hpos x (List.mem_of_mem_head? hx)).le

/-- Eigenvalues behind a result. -/
structure Run (o : NL) (B : BesselFns) (nv : ℕ) (p0 : ℝ × ℝ) (chk : Bool) (sn : List ℝ) (rows : List (List ℝ)) : Prop where
  hnv : o.nv = some nv
  hp0 : o.phia0 = some p0
  hchk : o.check = some chk
  len : sn.length = o.nh
  sorted : sn.Pairwise (· < ·)
  rad : ∀ s ∈ sn, o.Radius B s
  rows : List.Forall₂ (o.RowOk nv p0 chk) sn rows

theorem sn_ok (hS : o.Search) (hs : o.SolverOk B solve) {sn : List ℝ} (h : o.SnEnds B solve sn) :
    sn.length = o.nh ∧ sn.Pairwise (· < ·) ∧ ∀ s ∈ sn, o.Radius B s := by
  unfold SnEnds at h
  unfold nh Radius
  cases hd : o.drain with
  | none => rw [hd] at h; subst h; simp
  | some d =>
    rw [hd] at h
    obtain ⟨h1, h2, h3⟩ := Roots.C103_sound (o.radialArgs d B solve) (hs.1 d hd) hS.rdx hS.rp sn h
    exact ⟨h1, h2, fun s hs => ⟨hS.rx0.trans_lt (h3 s hs).2, (h3 s hs).1⟩⟩

theorem unpack (hS : o.Search) (hs : o.SolverOk B solve) {r : Output} (hE : o.Ends B solve (.ok r)) :
    ∃ nv p0 chk sn rows, Run o B nv p0 chk sn rows ∧ o.SnEnds B solve sn ∧ o.AlpEnds nv p0 chk solve (some o.verticalX0) sn (.ok rows) ∧
      o.output B p0 nv (terms sn rows) = .ok r := by
  have : ∃ sn, o.SnEnds B solve sn ∧ o.Vertical B solve sn (.ok r) := by
    unfold Ends at hE
    unfold SnEnds
    cases hd : o.drain with
    | none => rw [hd] at hE; exact ⟨_, rfl, hE⟩
    | some d =>
      rw [hd] at hE
      rcases hE with ⟨e, _, he⟩ | ⟨sn, h1, h2⟩
      · cases he
      · exact ⟨sn, h1, h2⟩
  obtain ⟨sn, h1, h2⟩ := this
  obtain ⟨g1, g2, g3⟩ := sn_ok hS hs h1
  unfold Vertical at h2
  cases hn : o.nv with
  | none => rw [hn] at h2; cases h2
  | some nv =>
  cases hp : o.phia0 with
  | none => rw [hn, hp] at h2; cases h2
  | some p0 =>
  cases hc : o.check with
  | none => rw [hn, hp, hc] at h2; cases h2
  | some chk =>
  rw [hn, hp, hc] at h2
  rcases h2 with ⟨e, _, he⟩ | ⟨rows, hr, ho⟩
  · cases he
  exact ⟨nv, p0, chk, sn, rows, ⟨hn, hp, hc, g1, g2, g3, alp_ok hS (fun s h => hs.2 p0 chk s hp hc (g3 s h)) (fun x hx => by
    rw [Option.mem_some] at hx; subst hx; exact hS.vx0) hr⟩, h1, hr, ho.symm⟩

theorem terms_sum (g : Term → ℝ) {nv : ℕ} : ∀ {sn : List ℝ} {rows : List (List ℝ)}, List.Forall₂ (fun _ row => row.length = nv) sn rows →
    ((terms sn rows).map g).sum = ∑ n ∈ range sn.length, ∑ m ∈ range nv, g ⟨sn.getD n 0, (rows.getD n []).getD m 0⟩
  | [], [], _ => by simp [terms]
  | s :: sn, row :: rows, .cons h1 h2 => by
    have ih := terms_sum g h2
    have e : terms (s :: sn) (row :: rows) = row.map (Term.mk s) ++ terms sn rows := by simp [terms]
    rw [e, List.map_append, List.sum_append, ih, List.length_cons, sum_range_succ', add_comm, List.map_map, sum_map_getD 0, h1]
    rfl

theorem mem_terms {q : Term} : ∀ {sn : List ℝ} {rows : List (List ℝ)} {P : ℝ → List ℝ → Prop}, List.Forall₂ P sn rows → q ∈ terms sn rows →
    ∃ row, P q.s row ∧ q.s ∈ sn ∧ q.alp ∈ row
  | [], [], _, _, h => by simp [terms] at h
  | s :: sn, row :: rows, P, .cons h1 h2, h => by
    have e : terms (s :: sn) (row :: rows) = row.map (Term.mk s) ++ terms sn rows := by simp [terms]
    rw [e, List.mem_append] at h
    rcases h with h | h
    · obtain ⟨a, ha, rfl⟩ := List.mem_map.1 h
      exact ⟨row, h1, by simp, ha⟩
    · obtain ⟨row', g1, g2, g3⟩ := mem_terms h2 h
      exact ⟨row', g1, by simp [g2], g3⟩

theorem terms_mem : ∀ {sn : List ℝ} {rows : List (List ℝ)} {nv : ℕ}, List.Forall₂ (fun _ row => row.length = nv) sn rows →
    ∀ n < sn.length, ∀ m < nv, (⟨sn.getD n 0, (rows.getD n []).getD m 0⟩ : Term) ∈ terms sn rows
  | [], [], nv, _, n, hn, _, _ => by simp at hn
  | s :: sn, row :: rows, nv, .cons h1 h2, n, hn, m, hm => by
    have e : terms (s :: sn) (row :: rows) = row.map (Term.mk s) ++ terms sn rows := by simp [terms]
    rw [e, List.mem_append]
    cases n with
    | zero => left; exact List.mem_map.2 ⟨row.getD m 0, SS.getD_mem (by rw [h1]; exact hm), rfl⟩
    | succ n => right; exact terms_mem h2 n (by simpa using hn) m hm

/-! ## Sums without nan -/

theorem nanSum_some {α : Type} (l : List α) (f : α → Option ℝ) (g : α → ℝ) (h : ∀ a ∈ l, f a = some (g a)) : nanSum (l.map f) = some (l.map g).sum := by
  induction l with
  | nil => rfl
  | cons a l ih =>
    rw [List.map_cons, nanSum, h a (by simp), ih fun b hb => h b (by simp [hb])]
    rfl

theorem nanSum_none {l : List (Option ℝ)} (h : none ∈ l) : nanSum l = none := by
  induction l with
  | nil => cases h
  | cons a l ih =>
    rw [nanSum]
    cases a with
    | none => rfl
    | some a =>
      have : none ∈ l := by simpa using h
      rw [ih this]; rfl

/-! ## Time -/

theorem calcTm_eq (p : PolyLine ℝ) (alp t : ℝ) {T P : List ℝ} (hx : p.getX.1 = .ok T) (hy : p.getY.1 = .ok P) :
    calcTm p alp t = pEDload .scalar p none 1 (alp ^ 2) t := by
  unfold calcTm pEDload edloadLinear
  rw [hx, hy]
  simp only [Bind.bind, Except.bind]
  cases loadSegments T P t with
  | error e => rfl
  | ok g =>
    simp only [pure, Except.pure]
    congr 1
    congr 1
    · congr 1
      · congr 2; funext k; unfold EDl_sl_s
        rw [mul_comm]
      · congr 2; funext k; unfold EDl_rc_s
        rw [show -alp ^ 2 * 1 * (t - T.getD k 0) = -1 * alp ^ 2 * (t - T.getD k 0) by ring,
          show -T.getD k 0 + T.getD (k+1) 0 = T.getD (k+1) 0 - T.getD k 0 by ring]
        generalize exp _ = E
        simp only [div_eq_mul_inv, mul_inv]; ring
    · congr 2; funext k; unfold EDl_rl_s
      rw [show -alp ^ 2 * 1 * (t - T.getD k 0) = -1 * alp ^ 2 * (t - T.getD k 0) by ring,
        show -alp ^ 2 * 1 * (t - T.getD (k+1) 0) = -1 * alp ^ 2 * (t - T.getD (k+1) 0) by ring,
        show -T.getD k 0 + T.getD (k+1) 0 = T.getD (k+1) 0 - T.getD k 0 by ring]
      generalize exp (-1 * alp ^ 2 * (t - T.getD k 0)) = E
      generalize exp _ = E'
      simp only [div_eq_mul_inv, mul_inv]; ring

theorem tm_ok {p : PolyLine ℝ} {s tend : ℝ} {load : ℝ → ℝ} {load0 : ℝ} (hl : LoadHistory p none s tend load load0) :
    ∃ D : ℝ → ℝ → ℝ, ∀ a, 0 < a → (∀ x y, IntervalIntegrable (D a) volume x y) ∧
      (∀ t, s ≤ t → t ≤ tend → calcTm p a t = .ok (D a t)) ∧ ∀ t, s ≤ t → t ≤ tend → D a t + a ^ 2 * ∫ r in s..t, D a r = load t - load0 := by
  have key : ∀ a, ∃ D : ℝ → ℝ, 0 < a → (∀ x y, IntervalIntegrable D volume x y) ∧
      (∀ t, s ≤ t → t ≤ tend → calcTm p a t = .ok (D t)) ∧ ∀ t, s ≤ t → t ≤ tend → D t + a ^ 2 * ∫ r in s..t, D r = load t - load0 := fun a => by
    by_cases ha : 0 < a
    · obtain ⟨D, h1, h2, h3⟩ := hl.solve.2.2.2 1 (a ^ 2) (by positivity)
      refine ⟨D, fun _ => ⟨h1, fun t ht1 ht2 => ?_, fun t ht1 ht2 => ?_⟩⟩
      · obtain ⟨T, P, hx, hy, _⟩ := hl.ex
        rw [calcTm_eq _ _ _ hx hy, h2 .scalar t ht1 ht2]
      · have := h3 t ht1 ht2
        rwa [one_mul] at this
    · exact ⟨fun _ => 0, fun h => absurd h ha⟩
  choose D hD using key
  exact ⟨D, hD⟩

/-! ## Layers -/

theorem depth_le (h : o.Valid) {i j : ℕ} (hij : i ≤ j) (hj : j ≤ o.nl) : o.column.depth i ≤ o.column.depth j := by
  rcases hij.lt_or_eq with hlt | rfl
  · exact (depth_lt h hlt hj).le
  · exact le_refl _

/-- The layer the code looks in. -/
theorem layerOf_eq (h : o.Valid) {z : ℝ} {i : ℕ} (hi : i < o.nl) (h1 : o.column.depth i < z ∨ (i = 0 ∧ 0 ≤ z)) (h2 : z ≤ o.column.depth (i + 1)) :
    o.layerOf z = i := by
  unfold layerOf
  refine SS.filter_range_lt _ i (by rw [h.hlen]; exact hi.le) _ fun j hj => ?_
  rw [h.hlen] at hj
  have hj : j < o.nl := hj
  rw [decide_eq_true_iff, zlayer_eq]
  constructor
  · intro hz
    by_contra hc
    have := depth_le h (i := i + 1) (j := j + 1) (by omega) (by omega)
    linarith
  · intro hz
    rcases h1 with h1 | ⟨h1, _⟩
    · have := depth_le h (i := j + 1) (j := i) (by omega) (by omega)
      linarith
    · omega

/-- Each depth lies in a layer. -/
theorem layer_ex (h : o.Valid) {z : ℝ} (h0 : 0 ≤ z) (h1 : z ≤ o.column.depth o.nl) :
    ∃ i < o.nl, (o.column.depth i < z ∨ (i = 0 ∧ 0 ≤ z)) ∧ z ≤ o.column.depth (i + 1) := by
  have hn : 0 < o.nl := h.nl
  have : ∀ N, 0 < N → z ≤ o.column.depth N → ∃ i < N, (o.column.depth i < z ∨ (i = 0 ∧ 0 ≤ z)) ∧ z ≤ o.column.depth (i + 1) := by
    intro N hN
    induction N with
    | zero => omega
    | succ N ih =>
      intro hz
      by_cases hlt : o.column.depth N < z
      · exact ⟨N, by omega, Or.inl hlt, hz⟩
      · by_cases hN0 : N = 0
        · subst hN0; exact ⟨0, by omega, Or.inr ⟨rfl, h0⟩, hz⟩
        · obtain ⟨i, hi, hh⟩ := ih (by omega) (not_lt.1 hlt)
          exact ⟨i, by omega, hh⟩
  exact this o.nl hn h1

theorem layer_lt (h : o.Valid) {z : ℝ} (h0 : 0 ≤ z) (h1 : z ≤ o.column.depth o.nl) : o.layerOf z < o.nl := by
  obtain ⟨i, hi, g1, g2⟩ := layer_ex h h0 h1
  rw [layerOf_eq h hi g1 g2]; exact hi

/-- At an interface both layers give the same. -/
theorem layer_any (h : o.Valid) {u uz : ℕ → ℝ → ℝ} (hf : o.column.Fits u uz) {z : ℝ} {i : ℕ} (hi : o.column.InLayer z i) :
    u (o.layerOf z) z = u i z := by
  obtain ⟨hi, h1, h2⟩ := hi
  have hi : i < o.nl := hi
  rcases h1.lt_or_eq with hlt | heq
  · rw [layerOf_eq h hi (Or.inl hlt) h2]
  · rcases Nat.eq_zero_or_pos i with rfl | hpos
    · have h0 : o.column.depth 0 = 0 := by simp [Spec.Column.depth]
      rw [layerOf_eq h hi (Or.inr ⟨rfl, by rw [← heq, h0]⟩) h2]
    · obtain ⟨j, rfl⟩ : ∃ j, i = j + 1 := ⟨i - 1, by omega⟩
      have hlt := depth_lt h (i := j) (j := j + 1) (by omega) (by omega)
      rw [layerOf_eq h (i := j) (by omega) (Or.inl (by rw [← heq]; exact hlt)) heq.symm.le, ← heq]
      exact hf.pressure j hi

/-! ## The values -/

theorem porAt_ok {p0 : ℝ × ℝ} {qs : List Term} {z t : ℝ} (hi : o.layerOf z < o.nl) (hr : ∀ q ∈ qs, o.Regular q.alp q.s) {D : ℝ → ℝ → ℝ}
    (hD : ∀ q ∈ qs, calcTm o.load q.alp t = .ok (D q.alp t)) :
    o.porAt B p0 qs z t =
      .ok (some (qs.map fun q => o.cmn B p0 q.alp q.s * o.radial B q.s * o.zf p0 q.alp q.s (o.layerOf z) z * D q.alp t).sum) := by
  unfold porAt
  rw [mapM_mem_ok (g := fun q => some (o.cmn B p0 q.alp q.s * o.radial B q.s * o.zf p0 q.alp q.s (o.layerOf z) z * D q.alp t))]
  · simp only [Bind.bind, Except.bind, pure, Except.pure]
    rw [nanSum_some _ _ _ fun q _ => rfl]
  · intro q hq
    rw [hD q hq]
    simp only [Bind.bind, Except.bind, pure, Except.pure]
    have hb : o.beta q.alp q.s (o.layerOf z) ≠ 0 := fun h => hr q hq _ hi (csqrt_zero.1 h)
    rw [if_neg (not_le.2 hi), if_neg hb, phi_at (hr q hq) hi]

theorem avpSet_ok {p0 : ℝ × ℝ} {nv : ℕ} {qs : List Term} {t q0 : ℝ} (hr : ∀ q ∈ qs, o.Regular q.alp q.s) {D : ℝ → ℝ → ℝ}
    (hD : ∀ q ∈ qs, calcTm o.load q.alp t = .ok (D q.alp t)) (hq0 : pinterpLeft o.load t = .ok q0) :
    o.avpSet B p0 nv qs t = .ok (
      some (qs.map fun q => ∑ i ∈ range o.nl, o.cmn B p0 q.alp q.s * o.radial B q.s *
        (∫ z in o.column.depth i..o.column.depth (i + 1), o.zf p0 q.alp q.s i z) / o.h.sum * D q.alp t).sum,
      some (qs.map fun q => ∑ i ∈ range o.nl, o.m i * (q0 * o.hh i / o.nh / nv - o.cmn B p0 q.alp q.s * o.radial B q.s *
        (∫ z in o.column.depth i..o.column.depth (i + 1), o.zf p0 q.alp q.s i z) * D q.alp t)).sum) := by
  unfold avpSet
  dsimp only
  have hL : ∀ f : ℕ → ℝ, ((List.range o.nl).map f).sum = ∑ i ∈ range o.nl, f i := fun f => by
    rw [sum_map_getD 0]
    simp only [List.length_range]
    exact sum_congr rfl fun i hi => by simp [mem_range.1 hi]
  rw [mapM_mem_ok (g := fun q => (some (∑ i ∈ range o.nl, o.cmn B p0 q.alp q.s * o.radial B q.s *
        (∫ z in o.column.depth i..o.column.depth (i + 1), o.zf p0 q.alp q.s i z) / o.h.sum * D q.alp t),
      some (∑ i ∈ range o.nl, o.m i * (q0 * o.hh i / o.nh / nv - o.cmn B p0 q.alp q.s * o.radial B q.s *
        (∫ z in o.column.depth i..o.column.depth (i + 1), o.zf p0 q.alp q.s i z) * D q.alp t))))]
  · simp only [Bind.bind, Except.bind, pure, Except.pure, List.map_map, Function.comp_def]
    rw [nanSum_some qs _ _ fun q _ => rfl, nanSum_some qs _ _ fun q _ => rfl]
  · intro q hq
    rw [hD q hq, hq0]
    simp only [Bind.bind, Except.bind, pure, Except.pure]
    rw [nanSum_some (List.range o.nl) _ (fun i => o.cmn B p0 q.alp q.s * o.radial B q.s *
        (∫ z in o.column.depth i..o.column.depth (i + 1), o.zf p0 q.alp q.s i z) / o.h.sum * D q.alp t) fun i hi => ?_,
      nanSum_some (List.range o.nl) _ (fun i => o.m i * (q0 * o.hh i / o.nh / nv - o.cmn B p0 q.alp q.s * o.radial B q.s *
        (∫ z in o.column.depth i..o.column.depth (i + 1), o.zf p0 q.alp q.s i z) * D q.alp t)) fun i hi => ?_, hL, hL]
    · rw [phint_eq (hr q hq) (List.mem_range.1 hi)]; rfl
    · rw [phint_eq (hr q hq) (List.mem_range.1 hi)]; rfl

end NL
end Geotecha.Consol
