import Verif.Consol.NogamiClaims

/-! # C158 - C161: nogamiandli2003, what the output means -/

set_option autoImplicit false
set_option linter.unusedVariables false
open Real Finset MeasureTheory
namespace Geotecha.Consol
open Geotecha (PyErr)
open Geotecha.Piecewise Geotecha.Speccon
open Geotecha.Spec (polyLeft polyRight)
namespace NL
variable {o : NL} {B : BesselFns} {solve : (ℝ → ℝ) → ℝ → ℝ → ℝ → ℝ}

/-- What all theorems below ask of times and depths. -/
structure Where (o : NL) (s tend : ℝ) : Prop where
  t : ∀ ts, o.t = some ts → ∀ t ∈ ts, s ≤ t ∧ t ≤ tend
  tpor : ∀ ts, o.tpor = some ts → ∀ t ∈ ts, s ≤ t ∧ t ≤ tend
  z : ∀ z ∈ o.z, 0 ≤ z ∧ z ≤ o.column.depth o.column.N

/-- **C158**: with a drain.  `w n m` are the modes that belong to the eigenvalues found.  The pore pressures returned are those of a solution `u`
of the equations of the soil around the drain in which the part `S` of the load goes into the pore water, seen at the radius `rcalc` or averaged
over the area; `S` is the best approximation of 1 by the modes (what is missing is orthogonal to each of them). -/
theorem C158_drain_solution_partial (o : NL) (d : NLDrain) (B : BesselFns) (solve : (ℝ → ℝ) → ℝ → ℝ → ℝ → ℝ) (h : o.Valid) (hd : o.drain = some d)
    (hok : DrainOk d) (hB : Spec.IsBessel B.J B.Y 0) (hS : o.Search) (hs : o.SolverOk B solve) (hc : o.Curved B solve) (nv : ℕ)
    (hnv : o.nv = some nv) (hnv0 : 0 < nv)
    (x y : List ℝ) (hp : PolyLine.ofX_Y x y = .ok o.load) (s tend load0 : ℝ) (load : ℝ → ℝ) (hl : LoadHistory o.load none s tend load load0)
    (hw : o.Where s tend) (r : Output) (hE : o.Ends B solve (.ok r)) :
    ∃ (lam : ℕ → ℕ → ℝ) (w : ℕ → ℕ → ℕ → ℝ → ℝ → ℝ) (c : ℕ → ℕ → ℝ) (S : ℕ → ℝ → ℝ → ℝ) (u : ℕ → ℝ → ℝ → ℝ → ℝ) (v : ℝ → ℝ → ℝ),
      (∀ n < d.nh, ∀ m < nv, 0 < lam n m ∧ (o.cell d).Mode (lam n m) (w n m) ∧ 0 < (o.cell d).total (fun i r z => w n m i r z ^ 2) ∧
        (∀ n' < d.nh, ∀ m' < nv, (n', m') ≠ (n, m) → (o.cell d).total (fun i r z => w n m i r z * w n' m' i r z) = 0)) ∧
      (∀ i r z, S i r z = ∑ n ∈ range d.nh, ∑ m ∈ range nv, c n m * w n m i r z) ∧
      (∀ n < d.nh, ∀ m < nv, (o.cell d).total (fun i r z => (1 - S i r z) * w n m i r z) = 0) ∧
      (o.cell d).Solves S load load0 s tend u ∧
      (∀ z i t, o.column.InLayer z i → v z t = (o.cell d).look o.rcalc fun r => u i r z t) ∧
      r.por = o.tpor.map fun ts => o.z.map fun z => ts.map fun t => some (v z t) := by
  obtain ⟨nv', p0, chk, sn, rows, R, h1, h2, hout⟩ := unpack hS hs hE
  obtain rfl : nv = nv' := by have := R.hnv; rw [hnv] at this; injection this
  have hr := curved_regular h hc R h1 h2
  have hnh := nh_eq hd
  obtain ⟨D, hD, hpor, _⟩ := core_of h hnv0 (by rw [hnh]; exact hok.nh) R hr hp hl hw.t hw.tpor hw.z hout
  have hsol := R.solves h hd hok hB hr hD
  refine ⟨fun n m => A rows n m ^ 2, fun n m i r z => un d B r (NL.S sn n) 0 * o.zf p0 (A rows n m) (NL.S sn n) i z,
    fun n m => o.cmn B p0 (A rows n m) (NL.S sn n), _, o.usol B d nv p0 sn rows D, fun z t => o.psol B nv p0 sn rows D (o.layerOf z) z t,
    ?_, ?_, ?_, hsol, ?_, hpor⟩
  · intro n hn m hm
    rw [← hnh] at hn
    have hpos := (R.root hn hm).2
    refine ⟨by positivity, Spec.Cell.prod_mode (V := o.cell d) hok.r0 (R.rm hd hok hB hn) (R.zm h hr hn hm) (fun i hi => rate h hd _ _ hi), ?_, ?_⟩
    · have := Spec.Cell.total_prod (V := o.cell d) (fun r => un d B r (NL.S sn n) 0 ^ 2) (fun i z => o.zf p0 (A rows n m) (NL.S sn n) i z ^ 2)
      simp only [← mul_pow] at this
      rw [this]
      exact mul_pos (R.rpos hd hok hB hn) (R.zpos h hr hn hm)
    · intro n' hn' m' hm' hne
      rw [← hnh] at hn'
      have := Spec.Cell.total_prod (V := o.cell d) (fun r => un d B r (NL.S sn n) 0 * un d B r (NL.S sn n') 0)
        (fun i z => o.zf p0 (A rows n m) (NL.S sn n) i z * o.zf p0 (A rows n' m') (NL.S sn n') i z)
      have e : (fun (i : ℕ) (r z : ℝ) => un d B r (NL.S sn n) 0 * o.zf p0 (A rows n m) (NL.S sn n) i z *
          (un d B r (NL.S sn n') 0 * o.zf p0 (A rows n' m') (NL.S sn n') i z)) = fun i r z => un d B r (NL.S sn n) 0 * un d B r (NL.S sn n') 0 *
          (o.zf p0 (A rows n m) (NL.S sn n) i z * o.zf p0 (A rows n' m') (NL.S sn n') i z) := by funext i r z; ring
      rw [e, this]
      by_cases hnn : n = n'
      · subst hnn
        have hmm : m ≠ m' := fun he => hne (by rw [he])
        rw [Spec.ZMode.orth h.nl (R.zm (d := d) h hr hn hm) (R.zm h hr hn hm') (fun i hi => rate h hd _ _ hi) (fun i hi => rate h hd _ _ hi)
          (R.A_sq_ne hn m hm m' hm' hmm), mul_zero]
      · have h0 := Spec.RMode.orth hok.r0 hok.r1 (R.rm hd hok hB hn) (R.rm hd hok hB hn') (R.kne hd hok n hn n' hn' hnn)
        have h0 : Spec.rint (o.cell d).r0 (o.cell d).r1 (fun r => un d B r (NL.S sn n) 0 * un d B r (NL.S sn n') 0) = 0 := h0
        rw [h0, zero_mul]
  · intro i r z; rw [← hnh]
  · intro n hn m hm
    rw [← hnh] at hn
    exact R.ortho h hd hok hB hr hn hm
  · intro z i t hi
    rw [← R.psol_look hd hok hB]
    have := Spec.Column.Fits.sum (V := o.column) (range o.nh ×ˢ range nv)
      (Z := fun p => o.zf p0 (A rows p.1 p.2) (NL.S sn p.1)) (Zd := fun p => o.zd p0 (A rows p.1 p.2) (NL.S sn p.1))
      (fun p hp => by
        rw [mem_product, mem_range, mem_range] at hp
        exact (R.zm (d := d) h hr hp.1 hp.2).fits)
      (fun p => o.cmn B p0 (A rows p.1 p.2) (NL.S sn p.1) * o.radial B (NL.S sn p.1) * D (A rows p.1 p.2) t)
    have e := layer_any h this hi
    simp only [sum_product] at e
    unfold psol
    refine Eq.trans (sum_congr rfl fun n _ => sum_congr rfl fun m _ => ?_) (e.trans (sum_congr rfl fun n _ => sum_congr rfl fun m _ => ?_)) <;> ring

/-- **C159**: without drain the same holds with modes that depend on the depth only; nothing has to be asked of the eigenvalues. -/
theorem C159_free_solution_partial (o : NL) (B : BesselFns) (solve : (ℝ → ℝ) → ℝ → ℝ → ℝ → ℝ) (h : o.Valid) (hd : o.drain = none)
    (hS : o.Search) (hs : o.SolverOk B solve) (nv : ℕ) (hnv : o.nv = some nv) (hnv0 : 0 < nv)
    (x y : List ℝ) (hp : PolyLine.ofX_Y x y = .ok o.load) (s tend load0 : ℝ) (load : ℝ → ℝ) (hl : LoadHistory o.load none s tend load load0)
    (hw : o.Where s tend) (r : Output) (hE : o.Ends B solve (.ok r)) :
    ∃ (lam : ℕ → ℝ) (Z Zd : ℕ → ℕ → ℝ → ℝ) (c : ℕ → ℝ) (S : ℕ → ℝ → ℝ) (u : ℕ → ℝ → ℝ → ℝ) (v : ℝ → ℝ → ℝ),
      (∀ m < nv, 0 < lam m ∧ o.column.Mode (lam m) (Z m) (Zd m) ∧ 0 < o.column.total (fun i z => Z m i z ^ 2) ∧ ∀ j < m, lam j < lam m) ∧
      (∀ i z, S i z = ∑ m ∈ range nv, c m * Z m i z) ∧ (∀ j < nv, o.column.total (fun i z => (1 - S i z) * Z j i z) = 0) ∧
      o.column.Solves S load load0 s tend u ∧ (∀ z i t, o.column.InLayer z i → v z t = u i z t) ∧
      (r.por = o.tpor.map fun ts => o.z.map fun z => ts.map fun t => some (v z t)) ∧
      (r.avp = o.t.map fun ts => ts.map fun t => some (o.column.mean fun i z => u i z t)) ∧
      r.set = o.t.map fun ts => ts.map fun t => some (o.column.total fun i z => polyLeft (x.zip y) t - u i z t) := by
  obtain ⟨nv', p0, chk, sn, rows, R, h1, h2, hout⟩ := unpack hS hs hE
  obtain rfl : nv = nv' := by have := R.hnv; rw [hnv] at this; injection this
  have hr := curved_regular h (curved_free h hS hs hd) R h1 h2
  have hnh : o.nh = 1 := by unfold nh; rw [hd]
  obtain ⟨D, hD, hpor, havp, hset, _⟩ := core_of h hnv0 (by rw [hnh]; exact Nat.one_pos) R hr hp hl hw.t hw.tpor hw.z hout
  have h0 : 0 < o.nh := by rw [hnh]; exact Nat.one_pos
  have hs0 : NL.S sn 0 = 0 := by
    have := R.radius h0
    unfold Radius at this
    rw [hd] at this
    exact this
  have hrate : ∀ m < nv, ∀ i < o.nl, o.column.kv i * o.beta2 (A rows 0 m) (NL.S sn 0) i = A rows 0 m ^ 2 * o.column.mv i := fun m hm i hi => by
    have := beta2_eq h (A rows 0 m) (NL.S sn 0) hi
    have hk : o.khh i = 0 := by unfold khh; rw [hd]
    rw [hk, zero_mul, sub_zero] at this
    exact this
  have hz := fun m (hm : m < nv) => R.zm (d := ⟨[], 0, 0, 0⟩) h hr h0 hm
  have hcm : ∀ m < nv, o.cmn B p0 (A rows 0 m) (NL.S sn 0) =
      o.column.total (o.zf p0 (A rows 0 m) (NL.S sn 0)) / o.column.total (fun i z => o.zf p0 (A rows 0 m) (NL.S sn 0) i z ^ 2) := fun m hm => by
    rw [cmn_eq (hr 0 h0 m hm)]
    have : o.cn B (NL.S sn 0) = 1 := by unfold cn; rw [hd]
    rw [this, one_mul]
  have hps : ∀ i z t, o.psol B nv p0 sn rows D i z t = ∑ m ∈ range nv, o.cmn B p0 (A rows 0 m) (NL.S sn 0) *
      o.zf p0 (A rows 0 m) (NL.S sn 0) i z * D (A rows 0 m) t := fun i z t => by
    have hra : o.radial B (NL.S sn 0) = 1 := by unfold radial; rw [hd]
    unfold psol
    rw [hnh, sum_range_one]
    exact sum_congr rfl fun m _ => by rw [hra, mul_one]
  have hsol : o.column.Solves (fun i z => ∑ m ∈ range nv, o.cmn B p0 (A rows 0 m) (NL.S sn 0) * o.zf p0 (A rows 0 m) (NL.S sn 0) i z)
      load load0 s tend (o.psol B nv p0 sn rows D) := by
    have e : o.psol B nv p0 sn rows D = fun i z t => ∑ m ∈ range nv, o.cmn B p0 (A rows 0 m) (NL.S sn 0) *
      o.zf p0 (A rows 0 m) (NL.S sn 0) i z * D (A rows 0 m) t := by funext i z t; exact hps i z t
    rw [e]
    exact Spec.Column.solves_of (V := o.column) (n := nv) (lam := fun m => A rows 0 m ^ 2) (D := fun m => D (A rows 0 m)) hz hrate
      (fun m hm => hD _ (R.root h0 hm).2)
  refine ⟨fun m => A rows 0 m ^ 2, fun m => o.zf p0 (A rows 0 m) (NL.S sn 0), fun m => o.zd p0 (A rows 0 m) (NL.S sn 0),
    fun m => o.cmn B p0 (A rows 0 m) (NL.S sn 0), _, o.psol B nv p0 sn rows D, fun z t => o.psol B nv p0 sn rows D (o.layerOf z) z t,
    ?_, fun i z => rfl, ?_, hsol, ?_, hpor, havp, hset⟩
  · intro m hm
    have hpos := (R.root h0 hm).2
    refine ⟨by positivity, (hz m hm).mode (hrate m hm), R.zpos h hr h0 hm, fun j hj => ?_⟩
    have := (R.root h0 (show j < nv by omega)).2
    have := R.A_lt h0 hj hm
    dsimp only
    nlinarith
  · intro j hj
    have := Spec.Column.proj_orth (V := o.column) (n := nv) (Z := fun m => o.zf p0 (A rows 0 m) (NL.S sn 0)) h.nl
      (fun m hm => (hz m hm).mode (hrate m hm)) (R.A_sq_ne h0) (fun m hm => R.zpos h hr h0 hm) hj
    rw [← this]
    refine Spec.Column.total_congr fun i _ z => ?_
    congr 2
    unfold Spec.Column.proj
    exact sum_congr rfl fun m hm => by dsimp only; rw [hcm m (mem_range.1 hm)]
  · intro z i t hi
    obtain ⟨uz, uzz, _, hf, _⟩ := hsol
    exact layer_any h (hf t) hi

/-- **C160**: with a drain, `avp` is the mean over the depth of the pore pressure of C158 (at `rcalc`, or averaged over the area), and `set` the
compression of the layers under the load just before `t` less that pore pressure. -/
theorem C160_average_settlement (o : NL) (d : NLDrain) (B : BesselFns) (solve : (ℝ → ℝ) → ℝ → ℝ → ℝ → ℝ) (h : o.Valid) (hd : o.drain = some d)
    (hok : DrainOk d) (hB : Spec.IsBessel B.J B.Y 0) (hS : o.Search) (hs : o.SolverOk B solve) (hc : o.Curved B solve) (nv : ℕ)
    (hnv : o.nv = some nv) (hnv0 : 0 < nv)
    (x y : List ℝ) (hp : PolyLine.ofX_Y x y = .ok o.load) (s tend load0 : ℝ) (load : ℝ → ℝ) (hl : LoadHistory o.load none s tend load load0)
    (hw : o.Where s tend) (r : Output) (hE : o.Ends B solve (.ok r)) :
    ∃ (S : ℕ → ℝ → ℝ → ℝ) (u : ℕ → ℝ → ℝ → ℝ → ℝ), (o.cell d).Solves S load load0 s tend u ∧
      (r.por = o.tpor.map fun ts => o.z.map fun z => ts.map fun t => some ((o.cell d).look o.rcalc fun r => u (o.layerOf z) r z t)) ∧
      (r.avp = o.t.map fun ts => ts.map fun t => some (o.column.mean fun i z => (o.cell d).look o.rcalc fun r => u i r z t)) ∧
      r.set = o.t.map fun ts => ts.map fun t =>
        some (o.column.total fun i z => polyLeft (x.zip y) t - (o.cell d).look o.rcalc fun r => u i r z t) := by
  obtain ⟨nv', p0, chk, sn, rows, R, h1, h2, hout⟩ := unpack hS hs hE
  obtain rfl : nv = nv' := by have := R.hnv; rw [hnv] at this; injection this
  have hr := curved_regular h hc R h1 h2
  have hnh := nh_eq hd
  obtain ⟨D, hD, hpor, havp, hset, _⟩ := core_of h hnv0 (by rw [hnh]; exact hok.nh) R hr hp hl hw.t hw.tpor hw.z hout
  refine ⟨_, o.usol B d nv p0 sn rows D, R.solves h hd hok hB hr hD, ?_, ?_, ?_⟩
  · rw [hpor]; simp only [R.psol_look hd hok hB]
  · rw [havp]; simp only [R.psol_look hd hok hB]
  · rw [hset]; simp only [R.psol_look hd hok hB]

theorem settle_bounds {ι : Type} {P : Finset ι} {c : ι → ℝ} {lam : ι → ℝ} {D : ι → ℝ → ℝ} {s tend load0 W : ℝ} {load : ℝ → ℝ} (hc : ∀ p ∈ P, 0 ≤ c p)
    (hb : ∑ p ∈ P, c p ≤ W) (hlam : ∀ p ∈ P, 0 < lam p) (hD : ∀ p ∈ P, (∀ x y, IntervalIntegrable (D p) volume x y) ∧
      ∀ t, s ≤ t → t ≤ tend → D p t + lam p * ∫ r in s..t, D p r = load t - load0)
    (hmono : ∀ a b, s ≤ a → a ≤ b → b ≤ tend → load0 ≤ load a ∧ load a ≤ load b) {t1 t2 : ℝ} (h1 : s ≤ t1) (h12 : t1 ≤ t2) (h2 : t2 ≤ tend) :
    W * load0 ≤ load t1 * W - ∑ p ∈ P, c p * D p t1 ∧ load t1 * W - ∑ p ∈ P, c p * D p t1 ≤ load t2 * W - ∑ p ∈ P, c p * D p t2 ∧
      load t2 * W - ∑ p ∈ P, c p * D p t2 ≤ W * load t2 := by
  have hB := fun p (hp : p ∈ P) => decay_bounds (s := s) (tend := tend) (hlam p hp) (hD p hp).1 (hD p hp).2
      (fun a b g1 g2 g3 => by linarith [(hmono a b g1 g2 g3).2]) (fun g => by linarith [(hmono s s le_rfl le_rfl g).1])
  have hm1 := hmono t1 t2 h1 h12 h2
  refine ⟨?_, ?_, ?_⟩
  · have e : ∑ m ∈ P, c m * D m t1 ≤ ∑ m ∈ P, c m * (load t1 - load0) :=
      sum_le_sum fun m hm => mul_le_mul_of_nonneg_left ((hB m hm).1 t1 h1 (h12.trans h2)).2 (hc m hm)
    rw [← sum_mul] at e
    have : (∑ m ∈ P, c m) * (load t1 - load0) ≤ W * (load t1 - load0) := mul_le_mul_of_nonneg_right hb (by linarith [hm1.1])
    linarith
  · have e : ∑ m ∈ P, c m * (D m t2 - D m t1) ≤ ∑ m ∈ P, c m * (load t2 - load t1) :=
      sum_le_sum fun m hm => mul_le_mul_of_nonneg_left (by linarith [(hB m hm).2 t1 t2 h1 h12 h2]) (hc m hm)
    rw [← sum_mul] at e
    simp only [mul_sub, sum_sub_distrib] at e
    have : (∑ m ∈ P, c m) * (load t2 - load t1) ≤ W * (load t2 - load t1) := mul_le_mul_of_nonneg_right hb (by linarith [hm1.2])
    linarith
  · have e : 0 ≤ ∑ m ∈ P, c m * D m t2 := sum_nonneg fun m hm => mul_nonneg (hc m hm) ((hB m hm).1 t2 (h1.trans h12) h2).1
    linarith

theorem psol_total {nv : ℕ} {p0 : ℝ × ℝ} {sn : List ℝ} {rows : List (List ℝ)} (hr : o.AllRegular nv sn rows) (D : ℝ → ℝ → ℝ) (q t : ℝ) :
    o.column.total (fun i z => q - o.psol B nv p0 sn rows D i z t) = q * (∑ i ∈ range o.column.N, o.column.mv i * o.column.h i) -
      ∑ p ∈ range o.nh ×ˢ range nv, o.cmn B p0 (A rows p.1 p.2) (S sn p.1) * o.radial B (S sn p.1) *
        o.column.total (o.zf p0 (A rows p.1 p.2) (S sn p.1)) * D (A rows p.1 p.2) t := by
  rw [Spec.Column.total_sub (fun i hi => continuous_const) (fun i hi => psol_cont hr D hi t), Spec.Column.total_const, sum_product]
  congr 1
  unfold Spec.Column.total
  have : ∀ i ∈ range o.column.N, o.column.mv i * (∫ z in o.column.depth i..o.column.depth (i + 1), o.psol B nv p0 sn rows D i z t) =
      ∑ n ∈ range o.nh, ∑ m ∈ range nv, o.column.mv i * (o.cmn B p0 (A rows n m) (S sn n) * o.radial B (S sn n) *
        (∫ z in o.column.depth i..o.column.depth (i + 1), o.zf p0 (A rows n m) (S sn n) i z) * D (A rows n m) t) := fun i hi => by
    rw [psol_int hr D (mem_range.1 hi), mul_sum]
    exact sum_congr rfl fun n _ => by rw [mul_sum]
  rw [sum_congr rfl this, sum_comm]
  refine sum_congr rfl fun n _ => ?_
  rw [sum_comm]
  refine sum_congr rfl fun m _ => ?_
  rw [mul_sum, sum_mul]
  exact sum_congr rfl fun i _ => by ring

set_option maxHeartbeats 1000000 in
/-- **C161**: settlement averaged over the area under a load that never decreases: it never decreases and lies between that of the load before
the start and that of the load of the moment without any pore pressure (at times at which the load does not jump). -/
theorem C161_settlement_monotone (o : NL) (B : BesselFns) (solve : (ℝ → ℝ) → ℝ → ℝ → ℝ → ℝ) (h : o.Valid)
    (hok : ∀ d, o.drain = some d → DrainOk d ∧ Spec.IsBessel B.J B.Y 0 ∧ o.rcalc = none) (hS : o.Search) (hs : o.SolverOk B solve)
    (hc : o.Curved B solve) (nv : ℕ) (hnv : o.nv = some nv) (hnv0 : 0 < nv)
    (x y : List ℝ) (hp : PolyLine.ofX_Y x y = .ok o.load) (s tend load0 : ℝ) (load : ℝ → ℝ) (hl : LoadHistory o.load none s tend load load0)
    (hw : o.Where s tend) (r : Output) (hE : o.Ends B solve (.ok r))
    (hmono : ∀ a b, s ≤ a → a ≤ b → b ≤ tend → load0 ≤ load a ∧ load a ≤ load b) (W : ℝ)
    (hW : W = ∑ i ∈ range o.column.N, o.column.mv i * o.column.h i) :
    ∃ f : ℝ → ℝ, (r.set = o.t.map fun ts => ts.map fun t => some (f t)) ∧ ∀ t1 t2, s ≤ t1 → t1 ≤ t2 → t2 ≤ tend →
      polyLeft (x.zip y) t1 = polyRight (x.zip y) t1 → polyLeft (x.zip y) t2 = polyRight (x.zip y) t2 →
      W * load0 ≤ f t1 ∧ f t1 ≤ f t2 ∧ f t2 ≤ W * load t2 := by
  obtain ⟨nv', p0, chk, sn, rows, R, g1, g2, hout⟩ := unpack hS hs hE
  obtain rfl : nv = nv' := by have := R.hnv; rw [hnv] at this; injection this
  have hr := curved_regular h hc R g1 g2
  have hnh : 0 < o.nh := by
    unfold nh
    cases hd : o.drain with
    | none => exact Nat.one_pos
    | some d => exact (hok d hd).1.nh
  obtain ⟨D, hD, hpor, havp, hset, _⟩ := core_of h hnv0 hnh R hr hp hl hw.t hw.tpor hw.z hout
  refine ⟨_, hset, fun t1 t2 h1 h12 h2 hs1 hs2 => ?_⟩
  rw [psol_total hr, psol_total hr, SS.load_left hp hl h1 (h12.trans h2) hs1, SS.load_left hp hl (h1.trans h12) h2 hs2, ← hW]
  have hin : ∀ p ∈ range o.nh ×ˢ range nv, p.1 < o.nh ∧ p.2 < nv := fun p hp => by
    rw [mem_product, mem_range, mem_range] at hp; exact hp
  have hpos := fun p hp => (R.root (hin p hp).1 (hin p hp).2).2
  have key : (∀ p ∈ range o.nh ×ˢ range nv, 0 ≤ o.cmn B p0 (A rows p.1 p.2) (S sn p.1) * o.radial B (S sn p.1) *
      o.column.total (o.zf p0 (A rows p.1 p.2) (S sn p.1))) ∧ ∑ p ∈ range o.nh ×ˢ range nv, o.cmn B p0 (A rows p.1 p.2) (S sn p.1) *
      o.radial B (S sn p.1) * o.column.total (o.zf p0 (A rows p.1 p.2) (S sn p.1)) ≤ W := by
    cases hd : o.drain with
    | none =>
      have hrad : ∀ s, o.radial B s = 1 := fun s => by unfold radial; rw [hd]
      have hcn : ∀ s, o.cn B s = 1 := fun s => by unfold cn; rw [hd]
      have hn1 : o.nh = 1 := by unfold nh; rw [hd]
      have e : ∀ p ∈ range o.nh ×ˢ range nv, o.cmn B p0 (A rows p.1 p.2) (S sn p.1) * o.radial B (S sn p.1) *
          o.column.total (o.zf p0 (A rows p.1 p.2) (S sn p.1)) =
          o.column.total (o.zf p0 (A rows p.1 p.2) (S sn p.1)) ^ 2 / o.column.total (fun i z => o.zf p0 (A rows p.1 p.2) (S sn p.1) i z ^ 2) := fun p hp => by
        rw [cmn_eq (hr _ (hin p hp).1 _ (hin p hp).2), hcn, hrad]; ring
      refine ⟨fun p hp => ?_, ?_⟩
      · rw [e p hp]
        exact div_nonneg (sq_nonneg _) (R.zpos h hr (hin p hp).1 (hin p hp).2).le
      · rw [sum_congr rfl e, sum_product]
        rw [hn1, sum_range_one, hW]
        have h0 : 0 < o.nh := hnh
        have hz := fun m (hm : m < nv) => R.zm (d := ⟨[], 0, 0, 0⟩) h hr h0 hm
        have hrate : ∀ m < nv, ∀ i < o.column.N, o.column.kv i * o.beta2 (A rows 0 m) (S sn 0) i = A rows 0 m ^ 2 * o.column.mv i - 0 := fun m hm i hi => by
          have := beta2_eq h (A rows 0 m) (S sn 0) hi
          have hk : o.khh i = 0 := by unfold khh; rw [hd]
          rw [hk, zero_mul] at this
          exact this
        exact Spec.Column.bessel_of (V := o.column) (n := nv) (Z := fun m => o.zf p0 (A rows 0 m) (S sn 0)) (fun m hm i hi => (hz m hm).cont hi)
          (fun m hm j hj hne => Spec.ZMode.orth (g := fun _ => 0) h.nl (hz m hm) (hz j hj) (hrate m hm) (hrate j hj) (R.A_sq_ne h0 m hm j hj hne))
          (fun m hm => R.zpos h hr h0 hm) (fun i hi => (m_pos h hi).le) (fun i hi => (hh_pos h hi).le)
    | some d =>
      obtain ⟨hok, hB, hrc⟩ := hok d hd
      have hQ : 0 < (d.r1 ^ 2 - d.r0 ^ 2) / 2 := by have := hok.r0; have := hok.r1; nlinarith
      have e : ∀ p ∈ range o.nh ×ˢ range nv, o.cmn B p0 (A rows p.1 p.2) (S sn p.1) * o.radial B (S sn p.1) *
          o.column.total (o.zf p0 (A rows p.1 p.2) (S sn p.1)) =
          (Spec.rint d.r0 d.r1 (fun r => un d B r (S sn p.1) 0) ^ 2 / Spec.rint d.r0 d.r1 (fun r => un d B r (S sn p.1) 0 ^ 2) *
          (o.column.total (o.zf p0 (A rows p.1 p.2) (S sn p.1)) ^ 2 / o.column.total (fun i z => o.zf p0 (A rows p.1 p.2) (S sn p.1) i z ^ 2))) *
            ((d.r1 ^ 2 - d.r0 ^ 2) / 2)⁻¹ := fun p hp => by
        have hps := R.S_pos hd (hin p hp).1
        have hra : o.radial B (S sn p.1) = unAverage d B (S sn p.1) := by unfold radial; rw [hd, hrc]
        rw [cmn_eq (hr _ (hin p hp).1 _ (hin p hp).2), cn_eq hok.r0 hok.r1 hB hps.1 hd hps.2, hra, unAverage_eq hok.r0 hok.r1 hB hps.1 hps.2]
        ring
      refine ⟨fun p hp => ?_, ?_⟩
      · rw [e p hp]
        have h1 : 0 < Spec.rint d.r0 d.r1 (fun r => un d B r (S sn p.1) 0 ^ 2) := R.rpos hd hok hB (hin p hp).1
        have h2 := R.zpos h hr (hin p hp).1 (hin p hp).2
        positivity
      · rw [sum_congr rfl e, ← sum_mul, sum_product, hW]
        have := R.bessel h hd hok hB hr
        rw [← div_eq_mul_inv, div_le_iff₀ hQ, mul_comm _ ((d.r1 ^ 2 - d.r0 ^ 2) / 2)]
        exact this
  exact settle_bounds (lam := fun p => A rows p.1 p.2 ^ 2) (D := fun p => D (A rows p.1 p.2)) key.1 key.2
    (fun p hp => by have := hpos p hp; positivity) (fun p hp => hD _ (hpos p hp)) hmono h1 h12 h2

end NL
end Geotecha.Consol
