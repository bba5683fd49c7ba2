import Verif.Consol.NogamiThm

/-! # C162 - C164: nogamiandli2003, refusals and what goes wrong -/

set_option autoImplicit false
set_option linter.unusedVariables false
open Real Finset MeasureTheory
namespace Geotecha.Consol
open Geotecha (PyErr)
open Geotecha.Piecewise Geotecha.Speccon
open Geotecha.Spec (polyLeft polyRight)
namespace NL
variable {o : NL} {B : BesselFns} {solve : (ℝ → ℝ) → ℝ → ℝ → ℝ → ℝ}

/-- **C162**: the number of terms over the depth has no default, other than the documentation says, and boundary conditions other than 0 and 1
are not refused with a message: without drain the outcome is a `TypeError` or an `AttributeError`; with a drain there is never a result. -/
theorem C162_refusals (o : NL) (B : BesselFns) (solve : (ℝ → ℝ) → ℝ → ℝ → ℝ → ℝ) :
    (o.drain = none → o.nv = none → ∀ r, o.Ends B solve r ↔ r = .error .typeError) ∧
    (o.drain = none → o.nv ≠ none → ¬((o.bctop = 0 ∨ o.bctop = 1) ∧ (o.bcbot = 0 ∨ o.bcbot = 1)) →
      ∀ r, o.Ends B solve r ↔ r = .error .attributeError) ∧
    ((o.nv = none ∨ ¬((o.bctop = 0 ∨ o.bctop = 1) ∧ (o.bcbot = 0 ∨ o.bcbot = 1))) → ∀ r, ¬o.Ends B solve (.ok r)) := by
  have hbc : ¬((o.bctop = 0 ∨ o.bctop = 1) ∧ (o.bcbot = 0 ∨ o.bcbot = 1)) → o.phia0 = none ∨ o.check = none := fun h => by
    by_contra hc
    push Not at hc
    obtain ⟨p, hp⟩ := Option.ne_none_iff_exists'.1 hc.1
    obtain ⟨c, hcc⟩ := Option.ne_none_iff_exists'.1 hc.2
    refine h ⟨?_, ?_⟩
    · rcases phia0_cases hp with h | h
      · exact Or.inl h.1
      · exact Or.inr h.1
    · rcases check_cases hcc with h | h
      · exact Or.inl h.1
      · exact Or.inr h.1
  have hv1 : o.nv = none → ∀ sn r, o.Vertical B solve sn r ↔ r = .error .typeError := fun hn sn r => by unfold Vertical; rw [hn]
  have hv2 : o.nv ≠ none → ¬((o.bctop = 0 ∨ o.bctop = 1) ∧ (o.bcbot = 0 ∨ o.bcbot = 1)) → ∀ sn r, o.Vertical B solve sn r ↔ r = .error .attributeError :=
    fun hn hb sn r => by
      obtain ⟨nv, hnv⟩ := Option.ne_none_iff_exists'.1 hn
      unfold Vertical
      rcases hbc hb with h | h
      · rw [hnv, h]
      · rw [hnv, h]
        cases o.phia0 <;> rfl
  refine ⟨fun hd hn r => ?_, fun hd hn hb r => ?_, fun hor r hE => ?_⟩
  · unfold Ends; rw [hd]; exact hv1 hn _ r
  · unfold Ends; rw [hd]; exact hv2 hn hb _ r
  · have : ∃ sn, o.Vertical B solve sn (.ok r) := by
      unfold Ends at hE
      cases hd : o.drain with
      | none => rw [hd] at hE; exact ⟨_, hE⟩
      | some d =>
        rw [hd] at hE
        rcases hE with ⟨e, _, he⟩ | ⟨sn, _, h⟩
        · cases he
        · exact ⟨sn, h⟩
    obtain ⟨sn, h⟩ := this
    by_cases hn : o.nv = none
    · have := (hv1 hn sn _).1 h; cases this
    · have := (hv2 hn (hor.resolve_left hn) sn _).1 h; cases this

/-- **C163**: either no pair of eigenvalues found makes the function of the depth straight in a layer, and then C158 to C161 apply, or all
averages and settlements are nan. -/
theorem C163_nan (o : NL) (B : BesselFns) (solve : (ℝ → ℝ) → ℝ → ℝ → ℝ → ℝ) (h : o.Valid) (r : Output) (hE : o.Ends B solve (.ok r)) :
    ∃ nv p0 chk sn rows, o.nv = some nv ∧ o.phia0 = some p0 ∧ o.check = some chk ∧ o.SnEnds B solve sn ∧
      o.AlpEnds nv p0 chk solve (some o.verticalX0) sn (.ok rows) ∧
      ((∀ q ∈ terms sn rows, ∀ i < o.nl, q.alp ^ 2 * o.m i ≠ o.khh i * o.kap q.s) ∨
        (r.avp = o.t.map fun ts => ts.map fun _ => none) ∧ r.set = o.t.map fun ts => ts.map fun _ => none) := by
  have : ∃ sn, o.SnEnds B solve sn ∧ o.Vertical B solve sn (.ok r) := by
    unfold Ends at hE
    unfold SnEnds
    cases hd : o.drain with
    | none => rw [hd] at hE; exact ⟨_, rfl, hE⟩
    | some d =>
      rw [hd] at hE
      rcases hE with ⟨e, _, he⟩ | ⟨sn, h1, h2⟩
      · cases he
      · exact ⟨sn, h1, h2⟩
  obtain ⟨sn, h1, h2⟩ := this
  unfold Vertical at h2
  cases hn : o.nv with
  | none => rw [hn] at h2; cases h2
  | some nv =>
  cases hp : o.phia0 with
  | none => rw [hn, hp] at h2; cases h2
  | some p0 =>
  cases hc : o.check with
  | none => rw [hn, hp, hc] at h2; cases h2
  | some chk =>
  rw [hn, hp, hc] at h2
  rcases h2 with ⟨e, _, he⟩ | ⟨rows, hr, ho⟩
  · cases he
  refine ⟨nv, p0, chk, sn, rows, rfl, rfl, rfl, h1, hr, ?_⟩
  by_cases hall : ∀ q ∈ terms sn rows, ∀ i < o.nl, q.alp ^ 2 * o.m i ≠ o.khh i * o.kap q.s
  · exact Or.inl hall
  right
  push Not at hall
  obtain ⟨q, hq, i, hi, he⟩ := hall
  have hb : o.beta q.alp q.s i = 0 := by
    refine csqrt_zero.2 ?_
    have := beta2_eq h q.alp q.s hi
    rw [he, sub_self] at this
    exact (mul_eq_zero.1 this).resolve_left (k_pos h hi).ne'
  have hph : o.phint p0 q i = none := by unfold phint; dsimp only; rw [if_pos hb]
  have key : ∀ t a, o.avpSet B p0 nv (terms sn rows) t = .ok a → a = (none, none) := fun t a ha => by
    unfold avpSet at ha
    dsimp only at ha
    cases hm : (List.mapM (fun q => do
        let T ← calcTm o.load q.alp t
        let load ← pinterpLeft o.load t
        pure (nanSum ((List.range o.nl).map fun i => do pure (o.cmn B p0 q.alp q.s * o.radial B q.s * (← o.phint p0 q i) / o.h.sum * T)),
          nanSum ((List.range o.nl).map fun i => do
            pure (o.m i * (load * o.hh i / o.nh / nv - o.cmn B p0 q.alp q.s * o.radial B q.s * (← o.phint p0 q i) * T)))) :
          Term → Except PyErr (Option ℝ × Option ℝ)) (terms sn rows)) with
    | error e => rw [hm] at ha; cases ha
    | ok v =>
      rw [hm] at ha
      simp only [Bind.bind, Except.bind, pure, Except.pure, Except.ok.injEq] at ha
      have : Inhabited (Option ℝ × Option ℝ) := ⟨(none, none)⟩
      obtain ⟨g, hg, rfl⟩ := mapM_choose hm
      have hgq : g q = (none, none) := by
        have := hg q hq
        cases hT : calcTm o.load q.alp t with
        | error e => rw [hT] at this; cases this
        | ok T =>
        cases hL : pinterpLeft o.load t with
        | error e => rw [hT, hL] at this; cases this
        | ok L =>
          rw [hT, hL] at this
          simp only [Bind.bind, Except.bind, pure, Except.pure, Except.ok.injEq] at this
          rw [← this]
          congr 1
          · exact nanSum_none (List.mem_map.2 ⟨i, List.mem_range.2 hi, by rw [hph]; rfl⟩)
          · exact nanSum_none (List.mem_map.2 ⟨i, List.mem_range.2 hi, by rw [hph]; rfl⟩)
      rw [← ha]
      congr 1
      · exact nanSum_none (List.mem_map.2 ⟨g q, List.mem_map.2 ⟨q, hq, rfl⟩, by rw [hgq]⟩)
      · exact nanSum_none (List.mem_map.2 ⟨g q, List.mem_map.2 ⟨q, hq, rfl⟩, by rw [hgq]⟩)
  have ho := ho.symm
  unfold output at ho
  have main : ∀ P : Except PyErr (Option (List (List (Option ℝ)))), (do
      let por ← P
      match o.t with
      | none => (pure (⟨por, none, none, none, none⟩ : Output) : Except PyErr Output)
      | some ts => do
        let l ← ts.mapM fun t => o.avpSet B p0 nv (terms sn rows) t
        (pure ⟨por, some (l.map Prod.fst), some (l.map Prod.snd), some (l.map Prod.fst), some (l.map Prod.fst)⟩ : Except PyErr Output)) = .ok r →
      (r.avp = o.t.map fun ts => ts.map fun _ => none) ∧ r.set = o.t.map fun ts => ts.map fun _ => none := fun P hP => by
    cases P with
    | error e => cases hP
    | ok por =>
    cases ht : o.t with
    | none =>
      rw [ht] at hP
      simp only [Bind.bind, Except.bind, pure, Except.pure, Except.ok.injEq] at hP
      rw [← hP]; simp
    | some ts =>
      rw [ht] at hP
      simp only [Bind.bind, Except.bind, pure, Except.pure] at hP
      cases hm : (ts.mapM fun t => o.avpSet B p0 nv (terms sn rows) t) with
      | error e => rw [hm] at hP; cases hP
      | ok l =>
        rw [hm] at hP
        simp only [Except.ok.injEq] at hP
        have : Inhabited (Option ℝ × Option ℝ) := ⟨(none, none)⟩
        obtain ⟨g, hg, rfl⟩ := mapM_choose hm
        have hgn : ∀ t ∈ ts, g t = (none, none) := fun t ht => key t _ (hg t ht)
        rw [← hP]
        simp only [Option.map_some, List.map_map, Option.some.injEq]
        exact ⟨List.map_congr_left fun t ht => by simp [hgn t ht], List.map_congr_left fun t ht => by simp [hgn t ht]⟩
  cases htp : o.tpor with
  | none =>
    rw [htp] at ho
    exact main (.ok none) ho
  | some ts =>
    rw [htp] at ho
    cases hm : (o.z.mapM fun z => ts.mapM fun t => o.porAt B p0 (terms sn rows) z t) with
    | error e =>
      simp only [Bind.bind, Except.bind] at ho hm
      rw [hm] at ho; cases ho
    | ok l =>
      refine main (.ok (some l)) ?_
      rw [← ho]
      simp only [Bind.bind, Except.bind, pure, Except.pure] at hm ⊢
      rw [hm]
      cases o.t <;> rfl

/-- **C163**: for one layer with a drained top, the curve is zero at the pair that makes the function of the depth straight, although no straight
function other than zero meets the conditions: the search may return an eigenvalue that is none. -/
theorem C163_false_root (o : NL) (d : NLDrain) (h : o.Valid) (h1 : o.nl = 1) (htop : o.bctop = 0) (hd : o.drain = some d) (chk : Bool)
    (hc : o.check = some chk) (s a : ℝ) (ha : a ^ 2 * o.column.mv 0 = (o.cell d).kh 0 * (s / d.r0) ^ 2) :
    (∀ p0, o.phia0 = some p0 → o.curve p0 chk s a = 0) ∧
    ∀ Z Zd : ℕ → ℝ → ℝ, (∀ z, HasDerivAt (Z 0) (Zd 0 z) z) → (∀ z, HasDerivAt (Zd 0) 0 z) → o.column.Fits Z Zd → ∀ z, Z 0 z = 0 := by
  constructor
  · intro p0 hp
    have hb : o.beta a s 0 = 0 := by
      refine csqrt_zero.2 ?_
      have := beta2_eq h a s (i := 0) (by omega)
      rw [khh_eq hd, kap_eq hd] at this
      have ha : a ^ 2 * o.m 0 = (o.cell d).kh 0 * (s / d.r0) ^ 2 := ha
      rw [ha, sub_self] at this
      exact (mul_eq_zero.1 this).resolve_left (k_pos h (by omega)).ne'
    have hp0 : p0 = (0, 1) := by
      rcases phia0_cases hp with g | g
      · exact g.2
      · exact absurd (htop.symm.trans g.1) (by norm_num)
    subst hp0
    unfold curve
    dsimp only
    rw [h1]
    simp only [Nat.sub_self]
    rw [hb]
    unfold transfer
    rw [if_pos rfl]
    cases chk <;> simp [phi]
  · intro Z Zd hZ hZd hf z
    have c0 : ∀ z, Zd 0 z = Zd 0 0 := fun z => is_const_of_deriv_eq_zero (fun z => (hZd z).differentiableAt) (fun z => (hZd z).deriv) z 0
    have c1 : ∀ z, Z 0 z = Zd 0 0 * z + Z 0 0 := fun z => by
      have : ∀ z, HasDerivAt (fun z => Z 0 z - Zd 0 0 * z) 0 z := fun z => by
        refine ((hZ z).sub ((hasDerivAt_id z).const_mul (Zd 0 0))).congr_deriv ?_
        rw [c0 z]; ring
      have := is_const_of_deriv_eq_zero (fun z => (this z).differentiableAt) (fun z => (this z).deriv) z 0
      linarith
    have ht : Z 0 0 = 0 := hf.top.1 htop
    have hN : o.column.N = 1 := h1
    have hbot := hf.bot
    rw [hN] at hbot
    simp only [Nat.sub_self] at hbot
    have hH : 0 < o.column.depth 1 := by
      have := depth_lt h (i := 0) (j := 1) (by omega) (by omega)
      simpa [Spec.Column.depth] using this
    have : Zd 0 0 = 0 := by
      by_cases hbd : o.column.botDrains
      · have := hbot.1 hbd
        rw [c1, ht, add_zero] at this
        exact (mul_eq_zero.1 this).resolve_right hH.ne'
      · have := hbot.2 hbd
        rwa [c0] at this
    rw [c1, this, ht]; ring

/-- **C164**: what is handed over for saving under the name of the settlements are the average pore pressures. -/
theorem C164_saved_partial (o : NL) (B : BesselFns) (solve : (ℝ → ℝ) → ℝ → ℝ → ℝ → ℝ) (r : Output) (hE : o.Ends B solve (.ok r)) :
    r.dataAvp = r.avp ∧ r.dataSet = r.avp := by
  have hv : ∀ sn, o.Vertical B solve sn (.ok r) → r.dataAvp = r.avp ∧ r.dataSet = r.avp := fun sn h2 => by
    unfold Vertical at h2
    cases hn : o.nv with
    | none => rw [hn] at h2; cases h2
    | some nv =>
    cases hp : o.phia0 with
    | none => rw [hn, hp] at h2; cases h2
    | some p0 =>
    cases hc : o.check with
    | none => rw [hn, hp, hc] at h2; cases h2
    | some chk =>
    rw [hn, hp, hc] at h2
    rcases h2 with ⟨e, _, he⟩ | ⟨rows, hr, ho⟩
    · cases he
    have ho := ho.symm
    unfold output at ho
    have main : ∀ P : Except PyErr (Option (List (List (Option ℝ)))), (do
        let por ← P
        match o.t with
        | none => (pure (⟨por, none, none, none, none⟩ : Output) : Except PyErr Output)
        | some ts => do
          let l ← ts.mapM fun t => o.avpSet B p0 nv (terms sn rows) t
          (pure ⟨por, some (l.map Prod.fst), some (l.map Prod.snd), some (l.map Prod.fst), some (l.map Prod.fst)⟩ : Except PyErr Output)) = .ok r →
        r.dataAvp = r.avp ∧ r.dataSet = r.avp := fun P hP => by
      cases P with
      | error e => cases hP
      | ok por =>
      cases ht : o.t with
      | none =>
        rw [ht] at hP
        simp only [Bind.bind, Except.bind, pure, Except.pure, Except.ok.injEq] at hP
        rw [← hP]; exact ⟨rfl, rfl⟩
      | some ts =>
        rw [ht] at hP
        simp only [Bind.bind, Except.bind, pure, Except.pure] at hP
        cases hm : (ts.mapM fun t => o.avpSet B p0 nv (terms sn rows) t) with
        | error e => rw [hm] at hP; cases hP
        | ok l =>
          rw [hm] at hP
          simp only [Except.ok.injEq] at hP
          rw [← hP]; exact ⟨rfl, rfl⟩
    cases htp : o.tpor with
    | none =>
      rw [htp] at ho
      exact main (.ok none) ho
    | some ts =>
      rw [htp] at ho
      cases hm : (o.z.mapM fun z => ts.mapM fun t => o.porAt B p0 (terms sn rows) z t) with
      | error e =>
        simp only [Bind.bind, Except.bind] at ho hm
        rw [hm] at ho; cases ho
      | ok l =>
        refine main (.ok (some l)) ?_
        rw [← ho]
        simp only [Bind.bind, Except.bind, pure, Except.pure] at hm ⊢
        rw [hm]
        cases o.t <;> rfl
  unfold Ends at hE
  cases hd : o.drain with
  | none => rw [hd] at hE; exact hv _ hE
  | some d =>
    rw [hd] at hE
    rcases hE with ⟨e, _, he⟩ | ⟨sn, h1, h2⟩
    · cases he
    · exact hv sn h2

end NL
end Geotecha.Consol
