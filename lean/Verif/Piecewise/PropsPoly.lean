import Verif.Piecewise.Superfluous
import Verif.Piecewise.Props

set_option linter.unusedSectionVars false
set_option linter.unusedSimpArgs false
set_option linter.unusedVariables false

namespace Geotecha.Piecewise
open Geotecha.Spec
variable {K : Type} [Field K] [LinearOrder K] [IsStrictOrderedRing K]

/-! ## C10 remove_superfluous_from_x_y -/

/-- For all data: the result is a subsequence of the points (given by the strictly increasing list of
kept positions) that contains the first and the last point. -/
theorem C10_subsequence (x y x' y' : List K) (atol : K) (h0 : 0 < x.length)
    (h : removeSuperfluous x y atol = .ok (x', y')) :
    x.length = y.length ∧ ∃ ks : List ℕ, ks.Pairwise (· < ·) ∧ (∀ k ∈ ks, k < x.length) ∧
      ks.head? = some 0 ∧ ks.getLast? = some (x.length - 1) ∧
      x' = ks.map (fun k => x.getD k 0) ∧ y' = ks.map (fun k => y.getD k 0) := by
  unfold removeSuperfluous at h
  split_ifs at h with h1 h2
  · push Not at h1
    simp only [Except.ok.injEq, Prod.mk.injEq] at h
    obtain ⟨rfl, rfl⟩ := h
    refine ⟨h1, List.range x.length, List.pairwise_lt_range, fun k hk => List.mem_range.1 hk, ?_, ?_, ?_, ?_⟩
    · rw [List.head?_range, if_neg (by omega)]
    · rw [List.getLast?_range, if_neg (by omega)]
    · exact (List.ext_getElem (by simp) (by intro i h1 h2; simp at h1 h2; simp [List.getElem?_eq_getElem, h2])).symm
    · exact (List.ext_getElem (by simp [h1]) (by intro i h1 h2; simp at h1 h2; simp [List.getElem?_eq_getElem, h2])).symm
  · push Not at h1
    simp only [Except.ok.injEq, Prod.mk.injEq] at h
    obtain ⟨ks, j, hf, hj, hh, hc, -⟩ := rs_inv x y atol (fun _ _ => True) x.length (by simp) (by simp)
      (x.length - 2) (by omega)
    rw [hf] at h
    obtain ⟨rfl, rfl⟩ := h
    have hp : (ks ++ [j]).Pairwise (· < ·) := (List.isChain_iff_pairwise).1 (hc.imp fun _ _ h => h.1)
    have e : ks ++ j :: List.range' (x.length - 2 + 1) (x.length - (x.length - 2 + 1)) = (ks ++ [j]) ++ [x.length - 1] := by
      rw [show x.length - (x.length - 2 + 1) = 1 by omega, show x.length - 2 + 1 = x.length - 1 by omega]
      simp
    have hb : ∀ k ∈ ks ++ [j], k < x.length - 1 := by
      intro k hk
      rw [List.pairwise_append] at hp
      rcases List.mem_append.1 hk with h | h
      · have := hp.2.2 k h j (by simp); omega
      · simp at h; omega
    refine ⟨h1, _, ?_, ?_, ?_, ?_, rfl, rfl⟩
    · simp only [e]
      rw [List.pairwise_append]
      exact ⟨hp, by simp, by intro a ha b hb'; rw [List.mem_singleton] at hb'; subst hb'; exact hb a ha⟩
    · simp only [e]
      intro k hk
      rcases List.mem_append.1 hk with h | h
      · have := hb k h; omega
      · rw [List.mem_singleton] at h; omega
    · simp only [e]
      rw [List.head?_append, hh]; rfl
    · simp only [e]; simp

/-- If no two points (nearly) coincide, every dropped point is within `atol` of the straight line through
the two neighbouring kept points.  (Missing: data in which a point returns to within 1e-8 of an earlier
kept point, where the claim is false.) -/
theorem C10_dropped_near_line_partial (x y x' y' : List K) (atol : K) (h0 : 0 < x.length)
    (h : removeSuperfluous x y atol = .ok (x', y'))
    (hd : ∀ i k, i < k → k < x.length →
      (1/100000000)^2 < (x.getD k 0 - x.getD i 0)^2 + (y.getD k 0 - y.getD i 0)^2) :
    ∃ ks : List ℕ, ks.Pairwise (· < ·) ∧ ks.head? = some 0 ∧ ks.getLast? = some (x.length - 1) ∧
      x' = ks.map (fun k => x.getD k 0) ∧ y' = ks.map (fun k => y.getD k 0) ∧
      ∀ i (hi : i + 1 < ks.length) (k : ℕ), ks[i] < k → k < ks[i+1] →
        NearLine (x.getD ks[i] 0, y.getD ks[i] 0) (x.getD ks[i+1] 0, y.getD ks[i+1] 0)
          (x.getD k 0, y.getD k 0) atol := by
  unfold removeSuperfluous at h
  split_ifs at h with h1 h2
  · push Not at h1
    simp only [Except.ok.injEq, Prod.mk.injEq] at h
    obtain ⟨rfl, rfl⟩ := h
    refine ⟨List.range x.length, List.pairwise_lt_range, ?_, ?_, ?_, ?_, ?_⟩
    · rw [List.head?_range, if_neg (by omega)]
    · rw [List.getLast?_range, if_neg (by omega)]
    · exact (List.ext_getElem (by simp) (by intro i h1 h2; simp at h1 h2; simp [List.getElem?_eq_getElem, h2])).symm
    · exact (List.ext_getElem (by simp [h1]) (by intro i h1 h2; simp at h1 h2; simp [List.getElem?_eq_getElem, h2])).symm
    · intro i hi k hk1 hk2
      simp at hk1 hk2; omega
  · push Not at h1
    simp only [Except.ok.injEq, Prod.mk.injEq] at h
    obtain ⟨ks, j, hf, hj, hh, hc, hlast⟩ := rs_inv x y atol (fun a b => b < x.length → GoodGap x y atol a b) x.length
      (by intro a _ k h1 h2; omega) (by
        intro j i hji hin hor hi k hk1 hk2
        have hpos := hd j i (by omega) hi
        have hpos' : (0:K) < dist2 x y j i := lt_trans (by positivity) hpos
        rcases hor with h | h
        · exact absurd h (not_le.2 hpos)
        · exact nearLine_of_cross hpos' (h k hk1 hk2)) (x.length - 2) (by omega)
    rw [hf] at h
    obtain ⟨rfl, rfl⟩ := h
    have e : ks ++ j :: List.range' (x.length - 2 + 1) (x.length - (x.length - 2 + 1)) = (ks ++ [j]) ++ [x.length - 1] := by
      rw [show x.length - (x.length - 2 + 1) = 1 by omega, show x.length - 2 + 1 = x.length - 1 by omega]
      simp
    have hc' : ((ks ++ [j]) ++ [x.length - 1]).IsChain (fun a b => a < b ∧ (b < x.length → GoodGap x y atol a b)) := by
      rw [List.isChain_append]
      refine ⟨hc, by simp, ?_⟩
      intro a ha b hb
      simp at ha hb; subst ha; subst hb
      exact ⟨by omega, by rw [show x.length - 2 + 1 = x.length - 1 by omega] at hlast; exact hlast⟩
    have hp : ((ks ++ [j]) ++ [x.length - 1]).Pairwise (· < ·) :=
      (List.isChain_iff_pairwise).1 (hc'.imp fun _ _ h => h.1)
    refine ⟨(ks ++ [j]) ++ [x.length - 1], hp, ?_, by simp, by rw [e], by rw [e], ?_⟩
    · rw [List.head?_append, hh]; simp
    · intro i hi k hk1 hk2
      have hg := (List.isChain_iff_getElem.1 hc' i hi)
      refine hg.2 ?_ k hk1 hk2
      have hb : ∀ a ∈ (ks ++ [j]) ++ [x.length - 1], a < x.length := by
        intro a ha
        rw [List.pairwise_append] at hp
        rcases List.mem_append.1 ha with h | h
        · have := hp.2.2 a h (x.length - 1) (by simp); omega
        · rw [List.mem_singleton] at h; omega
      exact hb _ (List.getElem_mem _)

/-- Lists of different lengths raise `ValueError`. -/
theorem C10_rejects (x y : List K) (atol : K) (h : x.length ≠ y.length) :
    removeSuperfluous x y atol = .error .valueError := by simp [removeSuperfluous, h]

/-- The unrestricted claim is false: a spike that returns to its start is dropped. -/
theorem C10_negation : removeSuperfluous ([0, 0, 0] : List ℚ) [0, 5, 0] (1/100000000) = .ok ([0, 0], [0, 0]) := by
  decide +kernel

example : removeSuperfluous ([0, 1, 2, 3, 3, 4] : List ℚ) [0, 1, 2, 3, 5, 6] (1/100000000) =
    .ok ([0, 3, 3, 4], [0, 3, 5, 6]) := by decide +kernel

example : ∀ k, k < 6 → ∀ i, i < k → ((1/100000000)^2 : ℚ) <
    (([0, 1, 2, 3, 3, 4] : List ℚ).getD k 0 - ([0, 1, 2, 3, 3, 4] : List ℚ).getD i 0)^2 +
    (([0, 1, 2, 3, 5, 6] : List ℚ).getD k 0 - ([0, 1, 2, 3, 5, 6] : List ℚ).getD i 0)^2 := by decide +kernel

/-! ## C11 reading, multiplying and dividing never change a PolyLine -/

/-- Reading, multiplying by a number and dividing by a number. -/
def Op.pure : Op K → Bool
  | .readX | .readY | .readXY | .readSegs | .mul _ | .div _ => true
  | _ => false

theorem getXY_keeps (p : PolyLine K) : p.getXY.2.getXY.1 = p.getXY.1 ∧ p.getXY.2.getSegs.1 = p.getSegs.1 := by
  obtain ⟨xy, xv, yv, sg⟩ := p
  rcases xy with _ | pts <;> rcases sg with _ | s
  · simp [PolyLine.getXY]
  · rcases hc : convertToXY s with e | ⟨a, b⟩ <;> simp [PolyLine.getXY, PolyLine.getSegs, hc]
  · simp [PolyLine.getXY]
  · simp [PolyLine.getXY]

theorem getX_keeps (p : PolyLine K) : p.getX.2.getXY.1 = p.getXY.1 ∧ p.getX.2.getSegs.1 = p.getSegs.1 := by
  obtain ⟨xy, xv, yv, sg⟩ := p
  rcases xy with _ | pts <;> rcases sg with _ | s
  · simp [PolyLine.getXY, PolyLine.getX]
  · rcases hc : convertToXY s with e | ⟨a, b⟩ <;> simp [PolyLine.getXY, PolyLine.getX, PolyLine.getSegs, hc]
  · simp [PolyLine.getXY, PolyLine.getX, PolyLine.getSegs, PolyLine.getY]
  · simp [PolyLine.getXY, PolyLine.getX, PolyLine.getSegs]

theorem getY_keeps (p : PolyLine K) : p.getY.2.getXY.1 = p.getXY.1 ∧ p.getY.2.getSegs.1 = p.getSegs.1 := by
  obtain ⟨xy, xv, yv, sg⟩ := p
  rcases xy with _ | pts <;> rcases sg with _ | s
  · simp [PolyLine.getXY, PolyLine.getY]
  · rcases hc : convertToXY s with e | ⟨a, b⟩ <;> simp [PolyLine.getXY, PolyLine.getY, PolyLine.getSegs, hc]
  · simp [PolyLine.getXY, PolyLine.getX, PolyLine.getSegs, PolyLine.getY]
  · simp [PolyLine.getXY, PolyLine.getY, PolyLine.getSegs]

theorem getX_fst (p : PolyLine K) : p.getX.1 = p.getXY.1.map (fun l => l.map Prod.fst) := by
  unfold PolyLine.getX
  rcases h : p.getXY with ⟨e | v, p'⟩ <;> simp [Except.map]

theorem getY_fst (p : PolyLine K) : p.getY.1 = p.getXY.1.map (fun l => l.map Prod.snd) := by
  unfold PolyLine.getY
  rcases h : p.getXY with ⟨e | v, p'⟩ <;> simp [Except.map]

theorem getSegs_keeps (p : PolyLine K) : p.getSegs.2.getXY.1 = p.getXY.1 ∧ p.getSegs.2.getSegs.1 = p.getSegs.1 := by
  unfold PolyLine.getSegs
  split
  · exact ⟨rfl, by simp [PolyLine.getSegs, *]⟩
  · rename_i hseg
    rcases hx : p.getX with ⟨e | v, p1⟩
    · have := getX_keeps p
      rw [hx] at this
      refine ⟨this.1, ?_⟩
      simp only [hx]
      have h2 := this.2
      simp only [PolyLine.getSegs, hseg, hx] at h2
      exact h2
    · have k1 := getX_keeps p
      rw [hx] at k1
      simp only
      rcases hy : p1.getY with ⟨e | w, p2⟩
      · have k2 := getY_keeps p1
        rw [hy] at k2
        refine ⟨k2.1.trans k1.1, ?_⟩
        have := k2.2.trans k1.2
        simp only [PolyLine.getSegs, hseg, hx, hy] at this
        exact this
      · have k2 := getY_keeps p1
        rw [hy] at k2
        have h3 := k2.2.trans k1.2
        have h4 := k2.1.trans k1.1
        simp only [PolyLine.getSegs, hseg, hx, hy] at h3
        rcases hc : convertToSegs v w with e | s
        · simp only [hc] at h3 ⊢
          exact ⟨h4, h3⟩
        · simp only [hc] at h3 ⊢
          refine ⟨?_, trivial⟩
          rw [← h4]
          have hx2 : p2.xy ≠ none := by
            have e1 : (p1.getY).1 = .ok w := by rw [hy]
            have e2 : p2 = (p1.getY).2 := by rw [hy]
            rw [e2]
            unfold PolyLine.getY at e1 ⊢
            rcases hq : p1.getXY with ⟨e | u, p3⟩
            · rw [hq] at e1; simp at e1
            · simp only
              unfold PolyLine.getXY at hq
              split at hq
              · rename_i pts hpts
                simp only [Prod.mk.injEq, Except.ok.injEq] at hq
                rw [← hq.2, hpts]; simp
              · split at hq
                · simp at hq
                · split at hq
                  · simp at hq
                  · simp only [Prod.mk.injEq, Except.ok.injEq] at hq
                    rw [← hq.2]; simp
          obtain ⟨pts, hpts⟩ := Option.ne_none_iff_exists'.1 hx2
          simp [PolyLine.getXY, hpts]

theorem mapY_keeps (p : PolyLine K) (f : K → K) :
    (p.mapY f).2.getXY.1 = p.getXY.1 ∧ (p.mapY f).2.getSegs.1 = p.getSegs.1 := by
  unfold PolyLine.mapY
  have k1 := getX_keeps p
  rcases hx : p.getX with ⟨e | v, p1⟩ <;> rw [hx] at k1
  · exact k1
  · simp only
    have k2 := getY_keeps p1
    rcases hy : p1.getY with ⟨e | w, p2⟩ <;> rw [hy] at k2
    · exact ⟨k2.1.trans k1.1, k2.2.trans k1.2⟩
    · exact ⟨k2.1.trans k1.1, k2.2.trans k1.2⟩

theorem mapY_fst (p : PolyLine K) (f : K → K) : (p.mapY f).1 = match p.getXY.1 with
    | .error e => .err e
    | .ok l => Out.ofLine (PolyLine.ofX_Y (l.map Prod.fst) ((l.map Prod.snd).map f)) := by
  unfold PolyLine.mapY
  have k1 := getX_keeps p
  have k0 := getX_fst p
  rcases hx : p.getX with ⟨e | v, p1⟩ <;> rw [hx] at k1 k0
  · simp only at k0 ⊢
    rcases hq : p.getXY.1 with e' | l <;> rw [hq] at k0 <;> simp [Except.map] at k0 ⊢
    exact k0
  · simp only at k0 k1 ⊢
    have k2 := getY_fst p1
    rw [k1.1] at k2
    rcases hq : p.getXY.1 with e' | l <;> rw [hq] at k0 k2 <;> simp only [Except.map, reduceCtorEq, Except.ok.injEq] at k0 k2
    rcases hy : p1.getY with ⟨e | w, p2⟩ <;> rw [hy] at k2 <;> simp only [reduceCtorEq, Except.ok.injEq] at k2
    simp only [k0, k2]

theorem step_pure_keeps (p : PolyLine K) (o : Op K) (ho : o.pure = true) :
    (p.step o).2.getXY.1 = p.getXY.1 ∧ (p.step o).2.getSegs.1 = p.getSegs.1 := by
  cases o with
  | readX => have := getX_keeps p; unfold PolyLine.step; rcases hx : p.getX with ⟨e | v, p1⟩ <;> rw [hx] at this <;> exact this
  | readY => have := getY_keeps p; unfold PolyLine.step; rcases hx : p.getY with ⟨e | v, p1⟩ <;> rw [hx] at this <;> exact this
  | readXY => have := getXY_keeps p; unfold PolyLine.step; rcases hx : p.getXY with ⟨e | v, p1⟩ <;> rw [hx] at this <;> exact this
  | readSegs => have := getSegs_keeps p; unfold PolyLine.step; rcases hx : p.getSegs with ⟨e | v, p1⟩ <;> rw [hx] at this <;> exact this
  | mul c => exact mapY_keeps p _
  | div c => exact mapY_keeps p _
  | add c => simp [Op.pure] at ho
  | sub c => simp [Op.pure] at ho
  | rsub c => simp [Op.pure] at ho

theorem step_pure_fst (p q : PolyLine K) (h1 : q.getXY.1 = p.getXY.1) (h2 : q.getSegs.1 = p.getSegs.1)
    (o : Op K) (ho : o.pure = true) : (q.step o).1 = (p.step o).1 := by
  cases o with
  | readX =>
    have a := getX_fst p; have b := getX_fst q; rw [h1, ← a] at b; clear a
    unfold PolyLine.step
    rcases hx : p.getX with ⟨e | v, p1⟩ <;> rcases hy : q.getX with ⟨e' | v', q1⟩ <;> rw [hx, hy] at b <;> simp_all
  | readY =>
    have a := getY_fst p; have b := getY_fst q; rw [h1, ← a] at b; clear a
    unfold PolyLine.step
    rcases hx : p.getY with ⟨e | v, p1⟩ <;> rcases hy : q.getY with ⟨e' | v', q1⟩ <;> rw [hx, hy] at b <;> simp_all
  | readXY =>
    unfold PolyLine.step
    rcases hx : p.getXY with ⟨e | v, p1⟩ <;> rcases hy : q.getXY with ⟨e' | v', q1⟩ <;> rw [hx, hy] at h1 <;> simp_all
  | readSegs =>
    unfold PolyLine.step
    rcases hx : p.getSegs with ⟨e | v, p1⟩ <;> rcases hy : q.getSegs with ⟨e' | v', q1⟩ <;> rw [hx, hy] at h2 <;> simp_all
  | mul c => simp only [PolyLine.step]; rw [mapY_fst, mapY_fst, h1]
  | div c => simp only [PolyLine.step]; rw [mapY_fst, mapY_fst, h1]
  | add c => simp [Op.pure] at ho
  | sub c => simp [Op.pure] at ho
  | rsub c => simp [Op.pure] at ho

/-- In any sequence of reads, multiplications and divisions, starting from any PolyLine, every
operation returns what it would return if it were applied first. -/
theorem C11_reads_pure (p : PolyLine K) (ops : List (Op K)) (h : ∀ o ∈ ops, o.pure = true) :
    (p.run ops).1 = ops.map (fun o => (p.step o).1) := by
  suffices H : ∀ (ops : List (Op K)) (q : PolyLine K), (∀ o ∈ ops, o.pure = true) → q.getXY.1 = p.getXY.1 →
      q.getSegs.1 = p.getSegs.1 → (q.run ops).1 = ops.map (fun o => (p.step o).1) from H ops p h rfl rfl
  intro ops
  induction ops with
  | nil => intro q _ _ _; rfl
  | cons o os ih =>
    intro q hp h1 h2
    have hk := step_pure_keeps q o (hp o (by simp))
    have hf := step_pure_fst p q h1 h2 o (hp o (by simp))
    simp only [PolyLine.run, List.map_cons, hf]
    rw [ih _ (fun o' ho' => hp o' (by simp [ho'])) (hk.1.trans h1) (hk.2.trans h2)]

/-- What the reads of a PolyLine made from `x` and `y` are: the data themselves and the non-vertical
pieces; the product with `c` reads as the data with `y` multiplied by `c`. -/
theorem C11_fresh_reads (x y : List K) (p : PolyLine K) (h : PolyLine.ofX_Y x y = .ok p) :
    (p.step .readX).1 = .arr x ∧ (p.step .readY).1 = .arr y ∧ (p.step .readXY).1 = .pts (x.zip y) ∧
    (∃ s, (p.step .readSegs).1 = .segs s ∧
      s.x1.zip s.y1 = (pieces (x.zip y)).map Prod.fst ∧ s.x2.zip s.y2 = (pieces (x.zip y)).map Prod.snd) ∧
    (∀ c, ∃ q, (p.step (.mul c)).1 = .line q ∧ (q.step .readXY).1 = .pts (x.zip (y.map (· * c)))) ∧
    (∀ c, ∃ q, (p.step (.div c)).1 = .line q ∧ (q.step .readXY).1 = .pts (x.zip (y.map (· / c)))) := by
  unfold PolyLine.ofX_Y at h
  split_ifs at h with hc
  push Not at hc
  obtain ⟨hl, h2, h3⟩ := hc
  simp only [Except.ok.injEq] at h
  subst h
  have e1 : (x.zip y).map Prod.fst = x := List.map_fst_zip (le_of_eq hl)
  have e2 : (x.zip y).map Prod.snd = y := List.map_snd_zip (le_of_eq hl.symm)
  refine ⟨?_, ?_, rfl, ?_, ?_, ?_⟩
  · simp [PolyLine.step, PolyLine.getX, PolyLine.getXY, e1]
  · simp [PolyLine.step, PolyLine.getY, PolyLine.getXY, e2]
  · refine ⟨toSegs4 (pieces (x.zip y)), ?_, ?_, ?_⟩
    · simp [PolyLine.step, PolyLine.getSegs, PolyLine.getX, PolyLine.getY, PolyLine.getXY, e1, e2, convertToSegs_eq hl]
    · exact List.ext_getElem (by simp [toSegs4]) (by intros; simp [toSegs4])
    · exact List.ext_getElem (by simp [toSegs4]) (by intros; simp [toSegs4])
  · intro c
    refine ⟨⟨some (x.zip (y.map (· * c))), true, true, none⟩, ?_, rfl⟩
    simp [PolyLine.step, mapY_fst, PolyLine.getXY, e1, e2, PolyLine.ofX_Y, hl, Out.ofLine, -List.map_map, not_lt.2 h3]
  · intro c
    refine ⟨⟨some (x.zip (y.map (· / c))), true, true, none⟩, ?_, rfl⟩
    simp [PolyLine.step, mapY_fst, PolyLine.getXY, e1, e2, PolyLine.ofX_Y, hl, Out.ofLine, -List.map_map, not_lt.2 h3]

example : (((PolyLine.ofSegs (⟨[0, 1], [1, 3], [2, 5], [4, 5]⟩ : Segs4 ℚ)).map
      (fun p => (p.run [.readSegs, .readX, .mul 2, .readY, .readXY, .readSegs]).1)) =
    .ok [.segs ⟨[0, 1], [1, 3], [2, 5], [4, 5]⟩, .arr [0, 1, 1, 3],
      .line ⟨some [(0, 4), (1, 8), (1, 10), (3, 10)], true, true, none⟩,
      .arr [2, 4, 5, 5], .pts [(0, 2), (1, 4), (1, 5), (3, 5)],
      .segs ⟨[0, 1], [1, 3], [2, 5], [4, 5]⟩]) := by decide +kernel

/-! ## C12 adding a number -/

/-- `p + c` is right, but `p` itself afterwards reads as `p + c`: for every PolyLine and every `c`. -/
theorem C12_add_shifts_operand (x y : List K) (p : PolyLine K) (h : PolyLine.ofX_Y x y = .ok p) (c : K) :
    (∃ q, (p.step (.add c)).1 = .line q ∧ (q.step .readXY).1 = .pts (x.zip (y.map (· + c)))) ∧
    ((p.step (.add c)).2.step .readX).1 = .arr x ∧
    ((p.step (.add c)).2.step .readY).1 = .arr (y.map (· + c)) := by
  unfold PolyLine.ofX_Y at h
  split_ifs at h with hc
  push Not at hc
  obtain ⟨hl, h2, h3⟩ := hc
  simp only [Except.ok.injEq] at h
  subst h
  have e1 : (x.zip y).map Prod.fst = x := List.map_fst_zip (le_of_eq hl)
  have e2 : (x.zip y).map Prod.snd = y := List.map_snd_zip (le_of_eq hl.symm)
  refine ⟨⟨⟨some (x.zip (y.map (· + c))), true, true, none⟩, ?_, rfl⟩, ?_, ?_⟩
  · simp [PolyLine.step, PolyLine.imapY, PolyLine.getX, PolyLine.getY, PolyLine.getXY, e1, e2, PolyLine.ofX_Y, hl, Out.ofLine, -List.map_map, not_lt.2 h3]
  · simp [PolyLine.step, PolyLine.imapY, PolyLine.getX, PolyLine.getY, PolyLine.getXY, e1, e2, Function.comp_def]
  · have e3 : (x.zip y).map (fun q => q.2 + c) = y.map (· + c) := by
      conv_rhs => rw [← e2, List.map_map]
      rfl
    simp [PolyLine.step, PolyLine.imapY, PolyLine.getX, PolyLine.getY, PolyLine.getXY, e1, e2, Function.comp_def, e3]

/-- `p - c` and `c - p`: the result has the ordinates `y - c`, respectively `c - y`, at the same abscissae. -/
theorem C12_sub_result (x y : List K) (p : PolyLine K) (h : PolyLine.ofX_Y x y = .ok p) (c : K) :
    (∃ q, (p.step (.sub c)).1 = .line q ∧ (q.step .readXY).1 = .pts (x.zip (y.map (· - c)))) ∧
    (∃ q, (p.step (.rsub c)).1 = .line q ∧ (q.step .readXY).1 = .pts (x.zip (y.map (fun v => c - v)))) := by
  unfold PolyLine.ofX_Y at h
  split_ifs at h with hc
  push Not at hc
  obtain ⟨hl, h2, h3⟩ := hc
  simp only [Except.ok.injEq] at h
  subst h
  have e1 : (x.zip y).map Prod.fst = x := List.map_fst_zip (le_of_eq hl)
  have e2 : (x.zip y).map Prod.snd = y := List.map_snd_zip (le_of_eq hl.symm)
  refine ⟨⟨⟨some (x.zip (y.map (· - c))), true, true, none⟩, ?_, rfl⟩, ⟨⟨some (x.zip (y.map (fun v => c - v))), true, true, none⟩, ?_, rfl⟩⟩
  · simp [PolyLine.step, PolyLine.imapY, PolyLine.getX, PolyLine.getY, PolyLine.getXY, e1, e2, PolyLine.ofX_Y, hl, Out.ofLine, -List.map_map, not_lt.2 h3]
  · have f1 : (x.zip (y.map (· - c))).map Prod.fst = x := List.map_fst_zip (by simp [hl])
    have f2 : (x.zip (y.map (· - c))).map Prod.snd = y.map (· - c) := List.map_snd_zip (by simp [hl])
    have f3 : (y.map (· - c)).map (fun v => -v) = y.map (fun v => c - v) := by
      rw [List.map_map]; congr 1; funext v; simp
    simp [PolyLine.step, PolyLine.mapY, PolyLine.imapY, PolyLine.getX, PolyLine.getY, PolyLine.getXY, e1, e2, f1, f2, f3, PolyLine.ofX_Y, hl, Out.ofLine, -List.map_map, not_lt.2 h3]

example : (PolyLine.ofX_Y ([0, 1] : List ℚ) [2, 4]).map (fun p => (p.step (.rsub 10)).1) =
    .ok (.line ⟨some [(0, 8), (1, 6)], true, true, none⟩) := by decide +kernel

/-- So the claim is false for every PolyLine and every non-zero number. -/
theorem C12_negation (x y : List K) (p : PolyLine K) (h : PolyLine.ofX_Y x y = .ok p) (c : K) (hc : c ≠ 0) :
    ((p.step (.add c)).2.step .readY).1 ≠ (p.step .readY).1 := by
  rw [(C12_add_shifts_operand x y p h c).2.2, (C11_fresh_reads x y p h).2.1]
  intro he
  simp only [Out.arr.injEq] at he
  unfold PolyLine.ofX_Y at h
  split_ifs at h with hh
  push Not at hh
  obtain ⟨a, r, rfl⟩ : ∃ a r, y = a :: r := List.exists_cons_of_length_pos (by omega)
  simp at he
  exact hc he.1

/-- What is true: the sum itself has the right points, and the operand keeps its abscissae. (Missing:
the operand keeps its ordinates — false, see `C12_negation`.) -/
theorem C12_result_partial (x y : List K) (p : PolyLine K) (h : PolyLine.ofX_Y x y = .ok p) (c : K) :
    (∃ q, (p.step (.add c)).1 = .line q ∧ (q.step .readXY).1 = .pts (x.zip (y.map (· + c)))) ∧
    ((p.step (.add c)).2.step .readX).1 = (p.step .readX).1 := by
  have := C12_add_shifts_operand x y p h c
  exact ⟨this.1, this.2.1.trans (C11_fresh_reads x y p h).1.symm⟩

/-- The interval arrays and the point arrays of the same object disagree after an addition. -/
theorem C12_stale_intervals :
    (PolyLine.ofX_Y ([0, 1] : List ℚ) [2, 4]).map (fun p => (p.run [.readSegs, .add 10, .readY, .readSegs]).1) =
    .ok [.segs ⟨[0], [1], [2], [4]⟩, .line ⟨some [(0, 12), (1, 14)], true, true, none⟩, .arr [12, 14],
      .segs ⟨[0], [1], [2], [4]⟩] := by decide +kernel

end Geotecha.Piecewise
