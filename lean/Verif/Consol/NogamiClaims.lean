import Verif.Consol.NogamiOut

/-! # C158 - C161: nogamiandli2003 -/

set_option autoImplicit false
set_option linter.unusedVariables false
open Real Finset MeasureTheory
namespace Geotecha.Consol
open Geotecha (PyErr)
open Geotecha.Piecewise Geotecha.Speccon
open Geotecha.Spec (polyLeft polyRight)
namespace NL
variable {o : NL} {B : BesselFns} {solve : (ℝ → ℝ) → ℝ → ℝ → ℝ → ℝ}

/-- No pair of eigenvalues found makes the function of the depth straight in a layer. -/
def Curved (o : NL) (B : BesselFns) (solve : (ℝ → ℝ) → ℝ → ℝ → ℝ → ℝ) : Prop :=
  ∀ s a, o.Found B solve s a → ∀ i < o.nl, a ^ 2 * o.m i ≠ o.khh i * o.kap s

/-- Sensible drain. -/
structure DrainOk (d : NLDrain) : Prop where
  r0 : 0 < d.r0
  r1 : d.r0 < d.r1
  nh : 0 < d.nh

/-- Eigenvalues as functions of the index. -/
def S (sn : List ℝ) (n : ℕ) : ℝ := sn.getD n 0
def A (rows : List (List ℝ)) (n m : ℕ) : ℝ := (rows.getD n []).getD m 0

section
variable {nv : ℕ} {p0 : ℝ × ℝ} {chk : Bool} {sn : List ℝ} {rows : List (List ℝ)}

theorem forall2_getD : ∀ {sn : List ℝ} {rows : List (List ℝ)} {P : ℝ → List ℝ → Prop}, List.Forall₂ P sn rows → ∀ n < sn.length,
    P (S sn n) (rows.getD n [])
  | [], [], _, _, n, hn => by simp at hn
  | s :: sn, row :: rows, P, .cons h1 h2, 0, hn => h1
  | s :: sn, row :: rows, P, .cons h1 h2, n + 1, hn => forall2_getD h2 n (by simpa using hn)

theorem mem_index {q : Term} : ∀ {sn : List ℝ} {rows : List (List ℝ)}, List.Forall₂ (fun _ row => row.length = nv) sn rows → q ∈ terms sn rows →
    ∃ n < sn.length, ∃ m < nv, q = ⟨S sn n, A rows n m⟩
  | [], [], _, h => by simp [terms] at h
  | s :: sn, row :: rows, .cons h1 h2, h => by
    have e : terms (s :: sn) (row :: rows) = row.map (Term.mk s) ++ terms sn rows := by simp [terms]
    rw [e, List.mem_append] at h
    rcases h with h | h
    · obtain ⟨a, ha, rfl⟩ := List.mem_map.1 h
      obtain ⟨m, hm, rfl⟩ := List.mem_iff_getElem.1 ha
      refine ⟨0, by simp, m, by rw [← h1]; exact hm, ?_⟩
      simp [S, A, hm]
    · obtain ⟨n, hn, m, hm, rfl⟩ := mem_index h2 h
      exact ⟨n + 1, by simpa using hn, m, hm, rfl⟩

theorem Run.lenrows (R : Run o B nv p0 chk sn rows) : List.Forall₂ (fun _ row => row.length = nv) sn rows := R.rows.imp fun _ _ h => h.1

theorem Run.radius (R : Run o B nv p0 chk sn rows) {n : ℕ} (hn : n < o.nh) : o.Radius B (S sn n) := R.rad _ (SS.getD_mem (by rw [R.len]; exact hn))

theorem pairwise_lt {l : List ℝ} (h : l.Pairwise (· < ·)) {m j : ℕ} (hmj : m < j) (hj : j < l.length) : l.getD m 0 < l.getD j 0 := by
  have h1 : l.getD m 0 = l[m] := by simp [List.getD, show m < l.length by omega]
  have h2 : l.getD j 0 = l[j] := by simp [List.getD, hj]
  rw [h1, h2]
  exact List.pairwise_iff_getElem.1 h m j _ _ hmj

theorem Run.S_lt (R : Run o B nv p0 chk sn rows) {m j : ℕ} (hmj : m < j) (hj : j < o.nh) : S sn m < S sn j :=
  pairwise_lt R.sorted hmj (by rw [R.len]; exact hj)

theorem Run.row (R : Run o B nv p0 chk sn rows) {n : ℕ} (hn : n < o.nh) : o.RowOk nv p0 chk (S sn n) (rows.getD n []) :=
  forall2_getD R.rows n (by rw [R.len]; exact hn)

theorem Run.root (R : Run o B nv p0 chk sn rows) {n m : ℕ} (hn : n < o.nh) (hm : m < nv) :
    o.curve p0 chk (S sn n) (A rows n m) = 0 ∧ 0 < A rows n m := by
  have h := R.row hn
  exact h.2.2 _ (SS.getD_mem (by rw [h.1]; exact hm))

theorem Run.A_lt (R : Run o B nv p0 chk sn rows) {n m j : ℕ} (hn : n < o.nh) (hmj : m < j) (hj : j < nv) : A rows n m < A rows n j := by
  have h := R.row hn
  exact pairwise_lt h.2.1 hmj (by rw [h.1]; exact hj)

theorem Run.A_sq_ne (R : Run o B nv p0 chk sn rows) {n : ℕ} (hn : n < o.nh) : ∀ m < nv, ∀ j < nv, m ≠ j → A rows n m ^ 2 ≠ A rows n j ^ 2 := by
  intro m hm j hj hne h
  have h1 := (R.root hn hm).2
  have h2 := (R.root hn hj).2
  have h3 : A rows n m = A rows n j := by nlinarith [sq_nonneg (A rows n m - A rows n j), mul_pos h1 h2]
  rcases Nat.lt_or_gt_of_ne hne with hlt | hlt
  · exact (R.A_lt hn hlt hj).ne h3
  · exact (R.A_lt hn hlt hm).ne' h3

/-- The values behind the output. -/
noncomputable def psol (o : NL) (B : BesselFns) (nv : ℕ) (p0 : ℝ × ℝ) (sn : List ℝ) (rows : List (List ℝ)) (D : ℝ → ℝ → ℝ) (i : ℕ) (z t : ℝ) : ℝ :=
  ∑ n ∈ range o.nh, ∑ m ∈ range nv, o.cmn B p0 (A rows n m) (S sn n) * o.radial B (S sn n) * o.zf p0 (A rows n m) (S sn n) i z * D (A rows n m) t

theorem Run.terms_sum (R : Run o B nv p0 chk sn rows) (g : Term → ℝ) :
    ((terms sn rows).map g).sum = ∑ n ∈ range o.nh, ∑ m ∈ range nv, g ⟨S sn n, A rows n m⟩ := by
  rw [NL.terms_sum g R.lenrows, R.len]
  rfl

/-- Every pair of the run is regular. -/
def AllRegular (o : NL) (nv : ℕ) (sn : List ℝ) (rows : List (List ℝ)) : Prop := ∀ n < o.nh, ∀ m < nv, o.Regular (A rows n m) (S sn n)

theorem regular_of (h : o.Valid) {a s : ℝ} (hc : ∀ i < o.nl, a ^ 2 * o.m i ≠ o.khh i * o.kap s) : o.Regular a s := fun i hi h0 => by
  have := beta2_eq h a s hi
  rw [h0, mul_zero] at this
  exact hc i hi (by linarith)

theorem psol_cont (hr : o.AllRegular nv sn rows) (D : ℝ → ℝ → ℝ) {i : ℕ} (hi : i < o.nl) (t : ℝ) :
    Continuous fun z => o.psol B nv p0 sn rows D i z t := by
  unfold psol
  exact continuous_finsetSum _ fun n hn => continuous_finsetSum _ fun m hm =>
    ((zf_cont (hr n (mem_range.1 hn) m (mem_range.1 hm)) hi).const_mul _).mul_const _

theorem psol_int (hr : o.AllRegular nv sn rows) (D : ℝ → ℝ → ℝ) {i : ℕ} (hi : i < o.nl) (t a b : ℝ) :
    ∫ z in a..b, o.psol B nv p0 sn rows D i z t = ∑ n ∈ range o.nh, ∑ m ∈ range nv, o.cmn B p0 (A rows n m) (S sn n) * o.radial B (S sn n) *
      (∫ z in a..b, o.zf p0 (A rows n m) (S sn n) i z) * D (A rows n m) t := by
  unfold psol
  have hc : ∀ n ∈ range o.nh, ∀ m ∈ range nv, Continuous fun z => o.cmn B p0 (A rows n m) (S sn n) * o.radial B (S sn n) *
      o.zf p0 (A rows n m) (S sn n) i z * D (A rows n m) t := fun n hn m hm =>
    ((zf_cont (hr n (mem_range.1 hn) m (mem_range.1 hm)) hi).const_mul _).mul_const _
  rw [intervalIntegral.integral_finsetSum fun n hn => (continuous_finsetSum _ fun m hm => hc n hn m hm).intervalIntegrable _ _]
  refine sum_congr rfl fun n hn => ?_
  rw [intervalIntegral.integral_finsetSum fun m hm => (hc n hn m hm).intervalIntegrable _ _]
  refine sum_congr rfl fun m hm => ?_
  rw [intervalIntegral.integral_mul_const, intervalIntegral.integral_const_mul]

theorem h_sum (h : o.Valid) : o.h.sum = o.column.depth o.column.N := by
  have := sum_map_getD (0:ℝ) id o.h
  simp only [List.map_id, id] at this
  rw [this, h.hlen]
  rfl

/-- Everything about a result, once no layer is straight. -/
theorem core_of (h : o.Valid) (hnv : 0 < nv) (hnh : 0 < o.nh) (R : Run o B nv p0 chk sn rows) (hr : o.AllRegular nv sn rows) {x y : List ℝ}
    (hp : PolyLine.ofX_Y x y = .ok o.load) {s tend load0 : ℝ} {load : ℝ → ℝ} (hl : LoadHistory o.load none s tend load load0)
    (ht : ∀ ts, o.t = some ts → ∀ t ∈ ts, s ≤ t ∧ t ≤ tend) (htp : ∀ ts, o.tpor = some ts → ∀ t ∈ ts, s ≤ t ∧ t ≤ tend)
    (hz : ∀ z ∈ o.z, 0 ≤ z ∧ z ≤ o.column.depth o.column.N) {r : Output} (hout : o.output B p0 nv (terms sn rows) = .ok r) :
    ∃ D : ℝ → ℝ → ℝ, (∀ a, 0 < a → (∀ x y, IntervalIntegrable (D a) volume x y) ∧
        ∀ t, s ≤ t → t ≤ tend → D a t + a ^ 2 * ∫ r in s..t, D a r = load t - load0) ∧
      r.por = o.tpor.map (fun ts => o.z.map fun z => ts.map fun t => some (o.psol B nv p0 sn rows D (o.layerOf z) z t)) ∧
      r.avp = o.t.map (fun ts => ts.map fun t => some (o.column.mean fun i z => o.psol B nv p0 sn rows D i z t)) ∧
      r.set = o.t.map (fun ts => ts.map fun t => some (o.column.total fun i z => polyLeft (x.zip y) t - o.psol B nv p0 sn rows D i z t)) ∧
      r.dataAvp = r.avp ∧ r.dataSet = r.avp := by
  obtain ⟨D, hD⟩ := tm_ok hl
  have hq : ∀ q ∈ terms sn rows, o.Regular q.alp q.s ∧ 0 < q.alp := fun q hq => by
    have : ∃ n < o.nh, ∃ m < nv, q = ⟨S sn n, A rows n m⟩ := by
      rw [← R.len]; exact mem_index R.lenrows hq
    obtain ⟨n, hn, m, hm, rfl⟩ := this
    exact ⟨hr n hn m hm, (R.root hn hm).2⟩
  refine ⟨D, fun a ha => ⟨(hD a ha).1, (hD a ha).2.2⟩, ?_⟩
  have hpor : ∀ ts, o.tpor = some ts → (o.z.mapM fun z => ts.mapM fun t => o.porAt B p0 (terms sn rows) z t) =
      .ok (o.z.map fun z => ts.map fun t => some (o.psol B nv p0 sn rows D (o.layerOf z) z t)) := fun ts hts => by
    refine mapM_mem_ok fun z hzz => mapM_mem_ok fun t htt => ?_
    rw [porAt_ok (layer_lt h (hz z hzz).1 (hz z hzz).2) (fun q h => (hq q h).1)
      fun q h => (hD _ (hq q h).2).2.1 t (htp ts hts t htt).1 (htp ts hts t htt).2, R.terms_sum]
    rfl
  have hav : ∀ ts, o.t = some ts → (ts.mapM fun t => o.avpSet B p0 nv (terms sn rows) t) = .ok (ts.map fun t =>
      (some (o.column.mean fun i z => o.psol B nv p0 sn rows D i z t),
        some (o.column.total fun i z => polyLeft (x.zip y) t - o.psol B nv p0 sn rows D i z t))) := fun ts hts => by
    refine mapM_mem_ok fun t htt => ?_
    rw [avpSet_ok (fun q h => (hq q h).1) (fun q h => (hD _ (hq q h).2).2.1 t (ht ts hts t htt).1 (ht ts hts t htt).2)
      (pinterpLeft_ok hp hl t), R.terms_sum, R.terms_sum]
    congr 3
    · unfold Spec.Column.mean
      rw [← h_sum h, sum_div]
      have : ∀ i ∈ range o.column.N, (∫ z in o.column.depth i..o.column.depth (i + 1), o.psol B nv p0 sn rows D i z t) / o.h.sum =
          ∑ n ∈ range o.nh, ∑ m ∈ range nv, o.cmn B p0 (A rows n m) (S sn n) * o.radial B (S sn n) *
            (∫ z in o.column.depth i..o.column.depth (i + 1), o.zf p0 (A rows n m) (S sn n) i z) / o.h.sum * D (A rows n m) t := fun i hi => by
        rw [psol_int hr D (mem_range.1 hi), sum_div]
        refine sum_congr rfl fun n _ => ?_
        rw [sum_div]
        exact sum_congr rfl fun m _ => by ring
      rw [sum_congr rfl this]
      refine Eq.symm ?_
      rw [sum_comm]
      exact sum_congr rfl fun n _ => sum_comm
    · rw [Spec.Column.total_sub (fun i hi => continuous_const) (fun i hi => psol_cont hr D hi t), Spec.Column.total_const]
      unfold Spec.Column.total
      have e1 : ∑ i ∈ range o.column.N, o.column.mv i * ∫ z in o.column.depth i..o.column.depth (i + 1), o.psol B nv p0 sn rows D i z t =
          ∑ n ∈ range o.nh, ∑ m ∈ range nv, ∑ i ∈ range o.nl, o.m i * (o.cmn B p0 (A rows n m) (S sn n) * o.radial B (S sn n) *
            (∫ z in o.column.depth i..o.column.depth (i + 1), o.zf p0 (A rows n m) (S sn n) i z) * D (A rows n m) t) := by
        have : ∀ i ∈ range o.column.N, o.column.mv i * (∫ z in o.column.depth i..o.column.depth (i + 1), o.psol B nv p0 sn rows D i z t) =
            ∑ n ∈ range o.nh, ∑ m ∈ range nv, o.m i * (o.cmn B p0 (A rows n m) (S sn n) * o.radial B (S sn n) *
            (∫ z in o.column.depth i..o.column.depth (i + 1), o.zf p0 (A rows n m) (S sn n) i z) * D (A rows n m) t) := fun i hi => by
          rw [psol_int hr D (mem_range.1 hi), mul_sum]
          exact sum_congr rfl fun n _ => by rw [mul_sum]; rfl
        rw [sum_congr rfl this, sum_comm]
        exact sum_congr rfl fun n _ => sum_comm
      rw [e1]
      simp only [mul_sub, sum_sub_distrib]
      congr 1
      simp only [sum_const, card_range, nsmul_eq_mul]
      have h1 : (o.nh : ℝ) ≠ 0 := by positivity
      have h2 : (nv : ℝ) ≠ 0 := by positivity
      rw [mul_sum, mul_sum, mul_sum]
      refine sum_congr rfl fun i _ => ?_
      show _ = _ * (o.m i * o.hh i)
      field_simp
  unfold output at hout
  cases htpor : o.tpor with
  | none =>
    rw [htpor] at hout
    cases hto : o.t with
    | none =>
      rw [hto] at hout
      simp only [Bind.bind, Except.bind, pure, Except.pure, Except.ok.injEq] at hout
      rw [← hout]; simp
    | some ts =>
      rw [hto] at hout
      simp only [Bind.bind, Except.bind, pure, Except.pure] at hout
      rw [hav ts hto] at hout
      simp only [Except.ok.injEq] at hout
      rw [← hout]
      simp [List.map_map, Function.comp_def]
  | some tp =>
    rw [htpor] at hout
    simp only [Bind.bind, Except.bind, pure, Except.pure] at hout
    rw [hpor tp htpor] at hout
    cases hto : o.t with
    | none =>
      rw [hto] at hout
      simp only [Except.ok.injEq] at hout
      rw [← hout]; simp
    | some ts =>
      rw [hto] at hout
      simp only at hout
      rw [hav ts hto] at hout
      simp only [Except.ok.injEq] at hout
      rw [← hout]
      simp [List.map_map, Function.comp_def]
end

theorem curved_regular (h : o.Valid) (hc : o.Curved B solve) {nv : ℕ} {p0 : ℝ × ℝ} {chk : Bool} {sn : List ℝ} {rows : List (List ℝ)}
    (R : Run o B nv p0 chk sn rows) (h1 : o.SnEnds B solve sn) (h2 : o.AlpEnds nv p0 chk solve (some o.verticalX0) sn (.ok rows)) :
    o.AllRegular nv sn rows := fun n hn m hm =>
  regular_of h (hc _ _ ⟨nv, p0, chk, sn, rows, R.hnv, R.hp0, R.hchk, h1, h2, terms_mem R.lenrows n (by rw [R.len]; exact hn) m hm⟩)

/-- Without drain nothing is straight. -/
theorem curved_free (h : o.Valid) (hS : o.Search) (hs : o.SolverOk B solve) (hd : o.drain = none) : o.Curved B solve := by
  rintro s a ⟨nv, p0, chk, sn, rows, hnv, hp, hc, h1, h2, h3⟩ i hi
  obtain ⟨g1, g2, g3⟩ := sn_ok hS hs h1
  have := alp_ok hS (fun s h => hs.2 p0 chk s hp hc (g3 s h)) (fun x hx => by rw [Option.mem_some] at hx; subst hx; exact hS.vx0) h2
  obtain ⟨row, hrow, _, ha⟩ := mem_terms this h3
  have hpos := (hrow.2.2 _ ha).2
  have hk : o.khh i = 0 := by unfold khh; rw [hd]
  have := m_pos h hi
  rw [hk, zero_mul]
  dsimp only at hpos
  positivity

section drain
variable {d : NLDrain} {nv : ℕ} {p0 : ℝ × ℝ} {chk : Bool} {sn : List ℝ} {rows : List (List ℝ)}
variable (h : o.Valid) (hd : o.drain = some d) (hok : DrainOk d) (hB : Spec.IsBessel B.J B.Y 0) (R : Run o B nv p0 chk sn rows)
  (hr : o.AllRegular nv sn rows)
include hd

theorem nh_eq : o.nh = d.nh := by unfold nh; rw [hd]
theorem kap_eq (s : ℝ) : o.kap s = (s / d.r0) ^ 2 := by unfold kap; rw [hd]
theorem khh_eq (i : ℕ) : o.khh i = (o.cell d).kh i := by unfold khh; rw [hd]; rfl

include R
theorem Run.S_pos {n : ℕ} (hn : n < o.nh) : 0 < S sn n ∧ radialCurve d B (S sn n) = 0 := by
  have := R.radius hn
  unfold Radius at this
  rw [hd] at this
  exact this

include hok hB
theorem Run.rm {n : ℕ} (hn : n < o.nh) :
    Spec.RMode (o.cell d).r0 (o.cell d).r1 ((S sn n / d.r0) ^ 2) (fun r => un d B r (S sn n) 0) (fun r => -(S sn n / d.r0) * un d B r (S sn n) 1) :=
  rmode hok.r0 hok.r1 hB (R.S_pos hd hn).1 (R.S_pos hd hn).2

theorem Run.rpos {n : ℕ} (hn : n < o.nh) : 0 < Spec.rint (o.cell d).r0 (o.cell d).r1 (fun r => un d B r (S sn n) 0 ^ 2) :=
  rint_un_pos hok.r0 hok.r1 hB (R.S_pos hd hn).1 (R.S_pos hd hn).2

omit hB in
theorem Run.kne : ∀ n < o.nh, ∀ j < o.nh, n ≠ j → (S sn n / d.r0) ^ 2 ≠ (S sn j / d.r0) ^ 2 := by
  intro n hn j hj hne he
  have h1 := (R.S_pos hd hn).1
  have h2 := (R.S_pos hd hj).1
  have h0 := hok.r0
  rw [div_pow, div_pow] at he
  have he : S sn n ^ 2 = S sn j ^ 2 := by
    have h0' : d.r0 ^ 2 ≠ 0 := by positivity
    field_simp at he; exact he
  have h3 : S sn n = S sn j := by nlinarith [sq_nonneg (S sn n - S sn j), mul_pos h1 h2]
  rcases Nat.lt_or_gt_of_ne hne with hlt | hlt
  · exact (R.S_lt hlt hj).ne h3
  · exact (R.S_lt hlt hn).ne' h3

omit hok hB
include h hr
omit hd in
theorem Run.zm {n m : ℕ} (hn : n < o.nh) (hm : m < nv) : Spec.ZMode (o.cell d).col (o.beta2 (A rows n m) (S sn n))
    (o.zf p0 (A rows n m) (S sn n)) (o.zd p0 (A rows n m) (S sn n)) :=
  zmode h R.hp0 R.hchk (hr n hn m hm) (R.root hn hm).1

omit hd in
theorem Run.zpos {n m : ℕ} (hn : n < o.nh) (hm : m < nv) : 0 < o.column.total (fun i z => o.zf p0 (A rows n m) (S sn n) i z ^ 2) :=
  NL.sq_pos h R.hp0 (hr n hn m hm)

omit R hr in
theorem rate (a s : ℝ) {i : ℕ} (hi : i < o.nl) : (o.cell d).col.kv i * o.beta2 a s i = a ^ 2 * (o.cell d).col.mv i - (o.cell d).kh i * (s / d.r0) ^ 2 := by
  rw [← khh_eq hd, ← kap_eq hd]
  exact beta2_eq h a s hi

include hok hB
theorem Run.coef {n m : ℕ} (hn : n < o.nh) (hm : m < nv) : o.cmn B p0 (A rows n m) (S sn n) =
    Spec.rint (o.cell d).r0 (o.cell d).r1 (fun r => un d B r (S sn n) 0) / Spec.rint (o.cell d).r0 (o.cell d).r1 (fun r => un d B r (S sn n) 0 ^ 2) *
      ((o.cell d).col.total (o.zf p0 (A rows n m) (S sn n)) / (o.cell d).col.total (fun i z => o.zf p0 (A rows n m) (S sn n) i z ^ 2)) := by
  rw [cmn_eq (hr n hn m hm), cn_eq hok.r0 hok.r1 hB (R.S_pos hd hn).1 hd (R.S_pos hd hn).2]
  rfl
omit h hr

/-- Pore pressure around the drain. -/
noncomputable def usol (o : NL) (B : BesselFns) (d : NLDrain) (nv : ℕ) (p0 : ℝ × ℝ) (sn : List ℝ) (rows : List (List ℝ)) (D : ℝ → ℝ → ℝ)
    (i : ℕ) (r z t : ℝ) : ℝ :=
  ∑ n ∈ range o.nh, ∑ m ∈ range nv, o.cmn B p0 (A rows n m) (S sn n) * (un d B r (S sn n) 0 * o.zf p0 (A rows n m) (S sn n) i z) * D (A rows n m) t

theorem Run.psol_look (D : ℝ → ℝ → ℝ) (i : ℕ) (z t : ℝ) :
    o.psol B nv p0 sn rows D i z t = (o.cell d).look o.rcalc fun r => o.usol B d nv p0 sn rows D i r z t := by
  unfold psol Spec.Cell.look
  cases hrc : o.rcalc with
  | some r =>
    unfold usol
    refine sum_congr rfl fun n _ => sum_congr rfl fun m _ => ?_
    have : o.radial B (S sn n) = un d B r (S sn n) 0 := by unfold radial; rw [hd, hrc]
    rw [this]; ring
  | none =>
    unfold Spec.Cell.ringMean usol
    have hi : ∀ n ∈ range o.nh, IntervalIntegrable (fun r => r * un d B r (S sn n) 0) volume (o.cell d).r0 (o.cell d).r1 := fun n hn => by
      refine ContinuousOn.intervalIntegrable ?_
      have : (o.cell d).r0 ≤ (o.cell d).r1 := hok.r1.le
      rw [Set.uIcc_of_le this]
      exact continuousOn_id.mul (R.rm hd hok hB (mem_range.1 hn)).cont
    have e : (fun r => r * ∑ n ∈ range o.nh, ∑ m ∈ range nv, o.cmn B p0 (A rows n m) (S sn n) *
        (un d B r (S sn n) 0 * o.zf p0 (A rows n m) (S sn n) i z) * D (A rows n m) t) =
        fun r => ∑ n ∈ range o.nh, (∑ m ∈ range nv, o.cmn B p0 (A rows n m) (S sn n) * o.zf p0 (A rows n m) (S sn n) i z * D (A rows n m) t) *
          (r * un d B r (S sn n) 0) := by
      funext r
      rw [mul_sum]
      refine sum_congr rfl fun n _ => ?_
      rw [mul_sum, sum_mul]
      exact sum_congr rfl fun m _ => by ring
    rw [e, intervalIntegral.integral_finsetSum fun n hn => (hi n hn).const_mul _, sum_div]
    refine sum_congr rfl fun n hn => ?_
    have hra : o.radial B (S sn n) = unAverage d B (S sn n) := by unfold radial; rw [hd, hrc]
    have hpos := R.S_pos hd (mem_range.1 hn)
    have h1 := Spec.rint_one (o.cell d).r0 (o.cell d).r1
    unfold Spec.rint at h1
    simp only [mul_one] at h1
    rw [intervalIntegral.integral_const_mul, hra, unAverage_eq hok.r0 hok.r1 hB hpos.1 hpos.2, h1, sum_mul, sum_div]
    refine sum_congr rfl fun m _ => ?_
    show _ * (_ / ((d.r1 ^ 2 - d.r0 ^ 2) / 2)) * _ * _ = _ / ((d.r1 ^ 2 - d.r0 ^ 2) / 2)
    unfold Spec.rint
    show _ = _ * (∫ r in d.r0..d.r1, r * un d B r (S sn n) 0) / _
    ring

include h hr
theorem Run.solves {D : ℝ → ℝ → ℝ} {s tend load0 : ℝ} {load : ℝ → ℝ} (hD : ∀ a, 0 < a → (∀ x y, IntervalIntegrable (D a) volume x y) ∧
      ∀ t, s ≤ t → t ≤ tend → D a t + a ^ 2 * ∫ r in s..t, D a r = load t - load0) :
    (o.cell d).Solves (fun i r z => ∑ n ∈ range o.nh, ∑ m ∈ range nv, o.cmn B p0 (A rows n m) (S sn n) *
      (un d B r (S sn n) 0 * o.zf p0 (A rows n m) (S sn n) i z)) load load0 s tend (o.usol B d nv p0 sn rows D) :=
  Spec.Cell.solves_of (V := o.cell d) (nh := o.nh) (nv := nv) (R := fun n r => un d B r (S sn n) 0)
    (Z := fun n m => o.zf p0 (A rows n m) (S sn n)) (lam := fun n m => A rows n m ^ 2) (D := fun n m => D (A rows n m)) hok.r0 hok.r1
    (fun n hn => R.rm hd hok hB hn) (fun n hn m hm => R.zm h hr hn hm) (fun n hn m hm i hi => rate h hd _ _ hi)
    (fun n hn m hm => hD _ (R.root hn hm).2)

theorem Run.ortho {j l : ℕ} (hj : j < o.nh) (hl : l < nv) :
    (o.cell d).total (fun i r z => (1 - ∑ n ∈ range o.nh, ∑ m ∈ range nv, o.cmn B p0 (A rows n m) (S sn n) *
      (un d B r (S sn n) 0 * o.zf p0 (A rows n m) (S sn n) i z)) * (un d B r (S sn j) 0 * o.zf p0 (A rows j l) (S sn j) i z)) = 0 :=
  Spec.Cell.orth_of (V := o.cell d) (nh := o.nh) (nv := nv) (R := fun n r => un d B r (S sn n) 0)
    (Z := fun n m => o.zf p0 (A rows n m) (S sn n)) (lam := fun n m => A rows n m ^ 2) hok.r0 hok.r1
    (fun n hn => R.rm hd hok hB hn) (fun n hn m hm => R.zm h hr hn hm) (fun n hn m hm i hi => rate h hd _ _ hi) h.nl (R.kne hd hok)
    (fun n hn => R.A_sq_ne hn) (fun n hn => R.rpos hd hok hB hn) (fun n hn m hm => R.zpos h hr hn hm)
    (fun n hn m hm => R.coef h hd hok hB hr hn hm) hj hl

theorem Run.bessel : ∑ n ∈ range o.nh, ∑ m ∈ range nv,
    Spec.rint d.r0 d.r1 (fun r => un d B r (S sn n) 0) ^ 2 / Spec.rint d.r0 d.r1 (fun r => un d B r (S sn n) 0 ^ 2) *
      (o.column.total (o.zf p0 (A rows n m) (S sn n)) ^ 2 / o.column.total (fun i z => o.zf p0 (A rows n m) (S sn n) i z ^ 2)) ≤
      (d.r1 ^ 2 - d.r0 ^ 2) / 2 * ∑ i ∈ range o.column.N, o.column.mv i * o.column.h i :=
  Spec.Cell.bessel_of (V := o.cell d) (nh := o.nh) (nv := nv) (R := fun n r => un d B r (S sn n) 0)
    (Z := fun n m => o.zf p0 (A rows n m) (S sn n)) (lam := fun n m => A rows n m ^ 2) hok.r0 hok.r1
    (fun n hn => R.rm hd hok hB hn) (fun n hn m hm => R.zm h hr hn hm) (fun n hn m hm i hi => rate h hd _ _ hi) h.nl (R.kne hd hok)
    (fun n hn => R.A_sq_ne hn) (fun n hn => R.rpos hd hok hB hn) (fun n hn m hm => R.zpos h hr hn hm)
    (fun i hi => (m_pos h hi).le) (fun i hi => (hh_pos h hi).le)
end drain

end NL
end Geotecha.Consol
