import Verif.Piecewise.PropsPoly
import Verif.Piecewise.CommonSegs

/-!
# Interpolating and integrating a `PolyLine` object (C242)

The functions whose name starts with `p` take a `PolyLine` and read its coordinates, which the object makes on demand from
whatever it was built from, and remembers.
-/

set_option linter.unusedSectionVars false
set_option linter.unusedVariables false
set_option autoImplicit false

namespace Geotecha.Piecewise
open Geotecha.Spec intervalIntegral MeasureTheory

section Model
variable {K : Type} [Field K] [LinearOrder K]

/-- `f(a.x, a.y, ...)`: reads `a.x`, then `a.y` (piecewise_linear_1d.py:1084, 1321, 1378). -/
def PolyLine.withPoints (a : PolyLine K) (f : List K → List K → Except PyErr K) : Except PyErr K × PolyLine K :=
  match a.getX with
  | (.error e, a1) => (.error e, a1)
  | (.ok x, a1) => match a1.getY with
    | (.error e, a2) => (.error e, a2)
    | (.ok y, a2) => (f x y, a2)

/-- `f(a.x1, a.x2, a.y1, a.y2, ...)` (piecewise_linear_1d.py:993, 1450, 1531); the four properties read the same four arrays. -/
def PolyLine.withSegs (a : PolyLine K) (f : Segs4 K → Except PyErr K) : Except PyErr K × PolyLine K :=
  match a.getSegs with
  | (.error e, a1) => (.error e, a1)
  | (.ok s, a1) => (f s, a1)

/-- `pinterp_x_y`, piecewise_linear_1d.py:1059-1084. -/
def PolyLine.interpPoints (a : PolyLine K) (t : K) (chooseMax : Bool) := a.withPoints (fun x y => interpXY x y t chooseMax)
/-- `pinterp_x1_x2_y1_y2`, piecewise_linear_1d.py:969-993. -/
def PolyLine.interpSegs (a : PolyLine K) (t : K) (chooseMax : Bool) := a.withSegs (fun s => Piecewise.interpSegs s t chooseMax)
/-- `pintegrate_x_y_between_xi_xj`, piecewise_linear_1d.py:1354-1378. -/
def PolyLine.integratePoints (a : PolyLine K) (xi xj : K) := a.withPoints (fun x y => integrateXY x y xi xj)
/-- `pintegrate_x1_x2_y1_y2_between_xi_xj`, piecewise_linear_1d.py:1427-1450. -/
def PolyLine.integrateSegs (a : PolyLine K) (xi xj : K) := a.withSegs (fun s => Piecewise.integrateSegs s xi xj)
/-- `pavg_x_y_between_xi_xj`, piecewise_linear_1d.py:1297-1321. -/
def PolyLine.avgPoints (a : PolyLine K) (xi xj : K) := a.withPoints (fun x y => avgXY x y xi xj)
/-- `pavg_x1_x2_y1_y2_between_xi_xj`, piecewise_linear_1d.py:1508-1531. -/
def PolyLine.avgSegs (a : PolyLine K) (xi xj : K) := a.withSegs (fun s => Piecewise.avgSegs s xi xj)

end Model

section Any
variable {K : Type} [Field K] [LinearOrder K] [IsStrictOrderedRing K]

theorem withPoints_fst (a : PolyLine K) (f : List K → List K → Except PyErr K) {pts : List (K × K)} (h : a.getXY.1 = .ok pts) :
    (a.withPoints f).1 = f (pts.map Prod.fst) (pts.map Prod.snd) := by
  have k1 := getX_keeps a
  have k0 := getX_fst a
  rw [h] at k0
  unfold PolyLine.withPoints
  rcases hx : a.getX with ⟨e | v, p1⟩ <;> rw [hx] at k1 k0 <;> simp only [Except.map, reduceCtorEq, Except.ok.injEq] at k0
  have k2 := getY_fst p1
  rw [k1.1, h] at k2
  rcases hy : p1.getY with ⟨e | w, p2⟩ <;> rw [hy] at k2 <;> simp only [Except.map, reduceCtorEq, Except.ok.injEq] at k2
  simp only [k0, k2, hy]

theorem withSegs_fst (a : PolyLine K) (f : Segs4 K → Except PyErr K) {s : Segs4 K} (h : a.getSegs.1 = .ok s) : (a.withSegs f).1 = f s := by
  unfold PolyLine.withSegs
  rcases hx : a.getSegs with ⟨e | v, p1⟩ <;> rw [hx] at h <;> simp only [reduceCtorEq, Except.ok.injEq] at h
  simp only [h]

theorem withPoints_keeps (a : PolyLine K) (f : List K → List K → Except PyErr K) :
    (a.withPoints f).2.getXY.1 = a.getXY.1 ∧ (a.withPoints f).2.getSegs.1 = a.getSegs.1 := by
  unfold PolyLine.withPoints
  have k1 := getX_keeps a
  rcases hx : a.getX with ⟨e | v, p1⟩ <;> rw [hx] at k1
  · exact k1
  · have k2 := getY_keeps p1
    simp only
    rcases hy : p1.getY with ⟨e | w, p2⟩ <;> rw [hy] at k2
    · exact ⟨k2.1.trans k1.1, k2.2.trans k1.2⟩
    · exact ⟨k2.1.trans k1.1, k2.2.trans k1.2⟩

theorem withSegs_keeps (a : PolyLine K) (f : Segs4 K → Except PyErr K) :
    (a.withSegs f).2.getXY.1 = a.getXY.1 ∧ (a.withSegs f).2.getSegs.1 = a.getSegs.1 := by
  unfold PolyLine.withSegs
  have k1 := getSegs_keeps a
  rcases hx : a.getSegs with ⟨e | v, p1⟩ <;> rw [hx] at k1 <;> exact k1

theorem run_keeps (p : PolyLine K) (ops : List (Op K)) (h : ∀ o ∈ ops, o.pure = true) :
    (p.run ops).2.getXY.1 = p.getXY.1 ∧ (p.run ops).2.getSegs.1 = p.getSegs.1 := by
  induction ops generalizing p with
  | nil => exact ⟨rfl, rfl⟩
  | cons o os ih =>
    have k := step_pure_keeps p o (h o (by simp))
    have := ih (p.step o).2 (fun o' ho' => h o' (by simp [ho']))
    exact ⟨this.1.trans k.1, this.2.trans k.2⟩

/-- A line built from `x` and `y`. -/
theorem xy_reads {x y : List K} {p : PolyLine K} (h : PolyLine.ofX_Y x y = .ok p) :
    x.length = y.length ∧ 2 ≤ x.length ∧ p.getXY.1 = .ok (x.zip y) ∧ p.getSegs.1 = .ok (toSegs4 (pieces (x.zip y))) := by
  unfold PolyLine.ofX_Y at h
  split_ifs at h with hc
  push Not at hc
  obtain ⟨hl, h2, h3⟩ := hc
  simp only [Except.ok.injEq] at h
  subst h
  have e1 : (x.zip y).map Prod.fst = x := List.map_fst_zip (le_of_eq hl)
  have e2 : (x.zip y).map Prod.snd = y := List.map_snd_zip (le_of_eq hl.symm)
  refine ⟨hl, h2, rfl, ?_⟩
  simp [PolyLine.getSegs, PolyLine.getX, PolyLine.getY, PolyLine.getXY, e1, e2, convertToSegs_eq hl]

/-- A line built from segments. -/
theorem seg_reads {L : List (Seg K)} (hc : Contiguous L) (hL : L ≠ []) {p : PolyLine K} (h : PolyLine.ofSegs (toSegs4 L) = .ok p) :
    p.getXY.1 = .ok (corners L) ∧ p.getSegs.1 = .ok (toSegs4 L) := by
  unfold PolyLine.ofSegs at h
  rw [if_neg (by simp [toSegs4])] at h
  simp only [Except.ok.injEq] at h
  subst h
  refine ⟨?_, rfl⟩
  simp only [PolyLine.getXY, convertToXY_eq hL (segs4_check hc)]
  rw [← List.zip_of_prod rfl rfl]

end Any

/-- What `a` answers, once its points and its segments are those of one curve: `I` is the integral from `xi` to `xj`. -/
theorem answers {a : PolyLine ℝ} {pts : List (ℝ × ℝ)} (h1 : a.getXY.1 = .ok pts) (h2 : a.getSegs.1 = .ok (toSegs4 (pieces pts)))
    (hs : SortedLe (pts.map Prod.fst)) (h0 : pts ≠ []) (hne : pieces pts ≠ []) {xi xj : ℝ} (ha : (pts.head h0).1 ≤ xi) (hab : xi < xj)
    (hb : xj ≤ (pts.getLast h0).1) {I : ℝ} (hI : I = ∫ t in xi..xj, polyLeft pts t) :
    (a.integratePoints xi xj).1 = .ok I ∧ (a.integrateSegs xi xj).1 = .ok I ∧ (a.avgPoints xi xj).1 = .ok (I / (xj - xi)) ∧
      (a.avgSegs xi xj).1 = .ok (I / (xj - xi)) := by
  have hp := List.length_pos_iff.2 h0
  have n0 : nth (pts.map Prod.fst) 0 ≤ xi := by
    rw [nth_eq_getElem (by simpa using hp)]
    rw [List.head_eq_getElem] at ha
    simpa using ha
  have n1 : xj ≤ nth (pts.map Prod.fst) ((pts.map Prod.fst).length - 1) := by
    rw [nth_eq_getElem (by simpa using hp)]
    rw [List.getLast_eq_getElem] at hb
    simpa using hb
  have zp : (pts.map Prod.fst).zip (pts.map Prod.snd) = pts := (List.zip_of_prod rfl rfl).symm
  have e1 : integrateXY (pts.map Prod.fst) (pts.map Prod.snd) xi xj = .ok I := by
    rw [integrateXY_eq hs (by simp) n0 hab n1, zp, hI]
  have hc : Contiguous (pieces pts) := pieces_contiguous hs
  have e2 : Piecewise.integrateSegs (toSegs4 (pieces pts)) xi xj = .ok I := by
    rw [C07_integral_exact (pieces pts) hc hne xi xj (by rw [pieces_first hne h0 hs]; exact ha) hab (by rw [pieces_lastx hne h0 hs]; exact hb), hI]
    congr 1
    refine integral_congr (fun t ht => ?_)
    rw [Set.uIcc_of_le hab.le] at ht
    refine polyLeft_pieces hs (fun p hp' => ?_) (fun p hp' => ?_) hne
    · rw [List.head?_eq_some_head h0] at hp'
      simp only [Option.mem_def, Option.some.injEq] at hp'
      rw [← hp']; exact ha.trans ht.1
    · rw [List.getLast?_eq_some_getLast h0] at hp'
      simp only [Option.mem_def, Option.some.injEq] at hp'
      rw [← hp']; exact ht.2.trans hb
  have hd : ¬ (xj - xi = 0) := sub_ne_zero.2 (ne_of_gt hab)
  refine ⟨?_, ?_, ?_, ?_⟩
  · unfold PolyLine.integratePoints; rw [withPoints_fst a _ h1]; exact e1
  · unfold PolyLine.integrateSegs; rw [withSegs_fst a _ h2]; exact e2
  · unfold PolyLine.avgPoints; rw [withPoints_fst a _ h1]
    unfold avgXY
    rw [e1]
    simp only [Bind.bind, Except.bind, pure, Except.pure]
    rw [if_neg hd]
  · unfold PolyLine.avgSegs; rw [withSegs_fst a _ h2]
    unfold Piecewise.avgSegs
    rw [e2]
    simp only [Bind.bind, Except.bind, pure, Except.pure]
    rw [if_neg hd]

theorem pieces_ne {pts : List (ℝ × ℝ)} (h0 : pts ≠ []) (h : (pts.head h0).1 < (pts.getLast h0).1) : pieces pts ≠ [] := by
  obtain ⟨q, r, rfl⟩ := List.exists_cons_of_ne_nil h0
  intro e
  have := pieces_eq_nil e _ (List.getLast_mem h0)
  simp only [List.head_cons] at h
  linarith

/-- **C242** A line built from `x` and `y`, after any reads, multiplications and divisions (which leave it alone): both integration
functions and both averaging functions give the integral of the curve through the points, whatever the steps in it. -/
theorem C242_from_points (x y : List ℝ) (p : PolyLine ℝ) (h : PolyLine.ofX_Y x y = .ok p) (hx : x.Pairwise (· ≤ ·)) (ops : List (Op ℝ))
    (ho : ∀ o ∈ ops, o.pure = true) (xi xj : ℝ) (ha : x.getD 0 0 ≤ xi) (hab : xi < xj) (hb : xj ≤ x.getD (x.length - 1) 0) :
    ((p.run ops).2.integratePoints xi xj).1 = .ok (∫ t in xi..xj, polyLeft (x.zip y) t) ∧
    ((p.run ops).2.integrateSegs xi xj).1 = .ok (∫ t in xi..xj, polyLeft (x.zip y) t) ∧
    ((p.run ops).2.avgPoints xi xj).1 = .ok ((∫ t in xi..xj, polyLeft (x.zip y) t) / (xj - xi)) ∧
    ((p.run ops).2.avgSegs xi xj).1 = .ok ((∫ t in xi..xj, polyLeft (x.zip y) t) / (xj - xi)) := by
  obtain ⟨hl, h2, r1, r2⟩ := xy_reads h
  obtain ⟨k1, k2⟩ := run_keeps p ops ho
  have h0 : x.zip y ≠ [] := by
    rw [← List.length_pos_iff, List.length_zip]; omega
  have e1 : (x.zip y).map Prod.fst = x := List.map_fst_zip (le_of_eq hl)
  have f1 : ((x.zip y).head h0).1 = x.getD 0 0 := by
    rw [List.head_eq_getElem, List.getElem_zip, List.getD_eq_getElem?_getD, List.getElem?_eq_getElem (by omega)]; rfl
  have f2 : ((x.zip y).getLast h0).1 = x.getD (x.length - 1) 0 := by
    rw [List.getLast_eq_getElem, List.getElem_zip, List.getD_eq_getElem?_getD, List.getElem?_eq_getElem (by omega)]
    simp [hl]
  have hs : SortedLe ((x.zip y).map Prod.fst) := by rw [e1]; exact hx
  have hlt : ((x.zip y).head h0).1 < ((x.zip y).getLast h0).1 := by rw [f1, f2]; linarith
  exact answers (k1.trans r1) (k2.trans r2) hs h0 (pieces_ne h0 hlt) (by rw [f1]; exact ha) hab (by rw [f2]; exact hb) rfl

/-- **C242** The same for a line built from contiguous segments. -/
theorem C242_from_segments (L : List (Seg ℝ)) (hc : Contiguous L) (hL : L ≠ []) (p : PolyLine ℝ) (h : PolyLine.ofSegs (toSegs4 L) = .ok p)
    (ops : List (Op ℝ)) (ho : ∀ o ∈ ops, o.pure = true) (xi xj : ℝ) (ha : (L.head hL).1.1 ≤ xi) (hab : xi < xj) (hb : xj ≤ (L.getLast hL).2.1) :
    ((p.run ops).2.integratePoints xi xj).1 = .ok (∫ t in xi..xj, polyLeft (segPoints L) t) ∧
    ((p.run ops).2.integrateSegs xi xj).1 = .ok (∫ t in xi..xj, polyLeft (segPoints L) t) ∧
    ((p.run ops).2.avgPoints xi xj).1 = .ok ((∫ t in xi..xj, polyLeft (segPoints L) t) / (xj - xi)) ∧
    ((p.run ops).2.avgSegs xi xj).1 = .ok ((∫ t in xi..xj, polyLeft (segPoints L) t) / (xj - xi)) := by
  obtain ⟨r1, r2⟩ := seg_reads hc hL h
  obtain ⟨k1, k2⟩ := run_keeps p ops ho
  have hpc : pieces (corners L) = L := pieces_corners hc.1 (fun s hs => (hc.2 s hs).ne)
  obtain ⟨c, e⟩ := corners_head hL
  have h0 : corners L ≠ [] := by rw [e]; simp
  have f1 : ((corners L).head h0) = (L.head hL).1 := by simp only [e, List.head_cons]
  have f2 : ((corners L).getLast h0) = (L.getLast hL).2 := by
    have := corners_last hL
    rw [List.getLast?_eq_some_getLast h0] at this
    exact Option.some.inj this
  have hs := corners_sorted hc
  refine answers (pts := corners L) (k1.trans r1) (by rw [hpc]; exact k2.trans r2) hs h0 (by rw [hpc]; exact hL) (by rw [f1]; exact ha) hab
    (by rw [f2]; exact hb) ?_
  refine integral_congr (fun t ht => ?_)
  rw [Set.uIcc_of_le hab.le] at ht
  have := polyLeft_pieces (pts := corners L) hs (v := t) (fun q hq => ?_) (fun q hq => ?_) (by rw [hpc]; exact hL)
  · rw [hpc] at this; exact this
  · rw [List.head?_eq_some_head h0, f1] at hq
    simp only [Option.mem_def, Option.some.injEq] at hq
    rw [← hq]; exact ha.trans ht.1
  · rw [List.getLast?_eq_some_getLast h0, f2] at hq
    simp only [Option.mem_def, Option.some.injEq] at hq
    rw [← hq]; exact ht.2.trans hb

/-- **C242** Interpolation inside the range of the data, with either function, at either side of a step. -/
theorem C242_interpolation (x y : List ℝ) (p : PolyLine ℝ) (h : PolyLine.ofX_Y x y = .ok p) (hx : x.Pairwise (· ≤ ·)) (ops : List (Op ℝ))
    (ho : ∀ o ∈ ops, o.pure = true) (t : ℝ) (hlt : x.getD 0 0 < x.getD (x.length - 1) 0) (ha : x.getD 0 0 ≤ t) (hb : t ≤ x.getD (x.length - 1) 0) :
    (((p.run ops).2.interpPoints t false).1 = .ok (polyLeft (x.zip y) t) ∧ ((p.run ops).2.interpSegs t false).1 = .ok (polyLeft (x.zip y) t)) ∧
    ((p.run ops).2.interpPoints t true).1 = .ok (polyRight (x.zip y) t) ∧ ((p.run ops).2.interpSegs t true).1 = .ok (polyRight (x.zip y) t) := by
  obtain ⟨hl, h2, r1, r2⟩ := xy_reads h
  obtain ⟨k1, k2⟩ := run_keeps p ops ho
  have e1 : (x.zip y).map Prod.fst = x := List.map_fst_zip (le_of_eq hl)
  have e2 : (x.zip y).map Prod.snd = y := List.map_snd_zip (le_of_eq hl.symm)
  have f1 : x.getD 0 0 = x[0] := by rw [List.getD_eq_getElem?_getD, List.getElem?_eq_getElem (by omega)]; rfl
  have f2 : x.getD (x.length - 1) 0 = x[x.length - 1] := by rw [List.getD_eq_getElem?_getD, List.getElem?_eq_getElem (by omega)]; rfl
  rw [f1, f2] at hlt
  rw [f1] at ha
  rw [f2] at hb
  have A : ∀ b, ((p.run ops).2.interpPoints t b).1 = interpXY x y t b := fun b => by
    unfold PolyLine.interpPoints; rw [withPoints_fst _ _ (k1.trans r1), e1, e2]
  have B : ∀ b, ((p.run ops).2.interpSegs t b).1 = interpXY x y t b := fun b => by
    unfold PolyLine.interpSegs; rw [withSegs_fst _ _ (k2.trans r2), ← C03_forms_agree x y t b hx hl (by omega) hlt ha hb, convertToSegs_eq hl]; rfl
  have hne : ∃ u ∈ x, ∃ v ∈ x, u < v := ⟨_, List.getElem_mem _, _, List.getElem_mem _, hlt⟩
  rw [A, B, A, B, C01_interp_left x y t hx hl hne, C01_interp_right x y t hx hl hne]
  exact ⟨⟨rfl, rfl⟩, rfl, rfl⟩

/-- **C242** The functions themselves leave the object as it was. -/
theorem C242_no_effect (p : PolyLine ℝ) (f : List ℝ → List ℝ → Except PyErr ℝ) (g : Segs4 ℝ → Except PyErr ℝ) :
    (∀ o : Op ℝ, o.pure = true → (((p.withPoints f).2).step o).1 = (p.step o).1) ∧
    (∀ o : Op ℝ, o.pure = true → (((p.withSegs g).2).step o).1 = (p.step o).1) :=
  ⟨fun o ho => step_pure_fst p _ (withPoints_keeps p f).1 (withPoints_keeps p f).2 o ho,
    fun o ho => step_pure_fst p _ (withSegs_keeps p g).1 (withSegs_keeps p g).2 o ho⟩

/-- **C242** What fails: after `p.x1` (or `pintegrate_x1_x2_y1_y2_between_xi_xj(p, ...)`) and `p + c`, whose result is discarded,
the two integration functions disagree about the same object, by `c` times the length of the interval. -/
theorem C242_negation (x y : List ℝ) (p : PolyLine ℝ) (h : PolyLine.ofX_Y x y = .ok p) (hx : x.Pairwise (· ≤ ·)) (c : ℝ)
    (xi xj : ℝ) (ha : x.getD 0 0 ≤ xi) (hab : xi < xj) (hb : xj ≤ x.getD (x.length - 1) 0) :
    ((p.run [.readSegs, .add c]).2.integratePoints xi xj).1 = .ok (∫ t in xi..xj, polyLeft (x.zip (y.map (· + c))) t) ∧
    ((p.run [.readSegs, .add c]).2.integrateSegs xi xj).1 = .ok (∫ t in xi..xj, polyLeft (x.zip y) t) := by
  obtain ⟨hl, h2, r1, r2⟩ := xy_reads h
  have hp : p = ⟨some (x.zip y), true, true, none⟩ := by
    unfold PolyLine.ofX_Y at h
    split_ifs at h with hc
    exact (Except.ok.inj h).symm
  have e1 : (x.zip y).map Prod.fst = x := List.map_fst_zip (le_of_eq hl)
  have e2 : (x.zip y).map Prod.snd = y := List.map_snd_zip (le_of_eq hl.symm)
  have hrun : (p.run [.readSegs, .add c]).2 = ⟨some (x.zip (y.map (· + c))), true, true, some (toSegs4 (pieces (x.zip y)))⟩ := by
    subst hp
    simp [PolyLine.run, PolyLine.step, PolyLine.getSegs, PolyLine.getX, PolyLine.getY, PolyLine.getXY, e1, e2, convertToSegs_eq hl, PolyLine.imapY,
      List.zip_map_right, Prod.map]
  have hl' : x.length = (y.map (· + c)).length := by simpa using hl
  have h' : PolyLine.ofX_Y x (y.map (· + c)) = .ok ⟨some (x.zip (y.map (· + c))), true, true, none⟩ := by
    unfold PolyLine.ofX_Y
    rw [if_neg (by push Not; exact ⟨hl', h2, by rw [← hl']; exact h2⟩)]
  have A := C242_from_points x (y.map (· + c)) _ h' hx [] (fun o ho => by simp at ho) xi xj ha hab hb
  have B := C242_from_points x y p h hx [] (fun o ho => by simp at ho) xi xj ha hab hb
  rw [hrun]
  refine ⟨?_, ?_⟩
  · rw [← A.1]
    unfold PolyLine.integratePoints
    rw [withPoints_fst _ _ (pts := x.zip (y.map (· + c))) rfl, withPoints_fst _ _ (pts := x.zip (y.map (· + c))) rfl]
  · rw [← B.2.1]
    unfold PolyLine.integrateSegs
    rw [withSegs_fst _ _ (s := toSegs4 (pieces (x.zip y))) rfl, withSegs_fst (p.run []).2 (s := toSegs4 (pieces (x.zip y))) (h := r2)]

/-! ## The hypotheses are met -/

/-- A line with a step at 1. -/
example : ∃ p, PolyLine.ofX_Y ([0, 1, 1, 3] : List ℝ) [2, 4, 5, 5] = .ok p ∧
    ((p.run [.readSegs, .mul 2]).2.integratePoints (1/2) 2).1 = ((p.run [.readSegs, .mul 2]).2.integrateSegs (1/2) 2).1 := by
  refine ⟨⟨some [(0, 2), (1, 4), (1, 5), (3, 5)], true, true, none⟩, by simp [PolyLine.ofX_Y], ?_⟩
  have := C242_from_points [0, 1, 1, 3] [2, 4, 5, 5] ⟨some [(0, 2), (1, 4), (1, 5), (3, 5)], true, true, none⟩ (by simp [PolyLine.ofX_Y]) (by norm_num)
    [.readSegs, .mul 2] (by intro o ho; simp at ho; rcases ho with rfl | rfl <;> rfl) (1/2) 2 (by norm_num) (by norm_num) (by norm_num)
  rw [this.1, this.2.1]

/-- On rational data the model computes: 27/4 by both functions; after `p + 10` they differ by 15. -/
example : (PolyLine.ofX_Y ([0, 1, 1, 3] : List ℚ) [2, 4, 5, 5]).map (fun p => ((p.integratePoints (1/2) 2).1, (p.integrateSegs (1/2) 2).1)) =
    .ok (.ok (27/4), .ok (27/4)) := by decide +kernel

example : (PolyLine.ofX_Y ([0, 1, 1, 3] : List ℚ) [2, 4, 5, 5]).map (fun p =>
      (((p.run [.readSegs, .add 10]).2.integratePoints (1/2) 2).1, ((p.run [.readSegs, .add 10]).2.integrateSegs (1/2) 2).1)) =
    .ok (.ok (87/4), .ok (27/4)) := by decide +kernel

end Geotecha.Piecewise
