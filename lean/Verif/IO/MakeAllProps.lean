import Verif.IO.MakeAll

/-! # `make_all`: what is saved, shown and left behind -/

set_option autoImplicit false
set_option linter.unusedVariables false

namespace Geotecha.IO.Making
open Saving

variable {Obj : Type}

/-! ## Calculations -/

theorem calcAll_runs (l : List (Method Obj)) {o : Obj} {r : Option Exn × Obj} (h : Spec.Runs l o r) (w : State Obj) (hw : w.obj = o) :
    calcAll l w = (r.1, { w with obj := r.2 }) := by
  induction h generalizing w with
  | nil o => subst hw; rfl
  | stop f fs o e =>
    subst hw
    show Act.seq (call f) (calcAll fs) w = _
    simp only [Act.seq, call, e]
  | cons f fs o e _ ih =>
    subst hw
    show Act.seq (call f) (calcAll fs) w = _
    simp only [Act.seq, call, e]
    exact ih _ rfl

theorem makeAll_eq (c : Cls Obj) : makeAll c = Act.seq (calcAll (Spec.steps c)) (outAll c) := by
  funext w
  unfold makeAll Spec.steps
  cases hc : c.checks with
  | false => simp [Act.seq]
  | true =>
    rw [if_pos rfl, if_pos rfl]
    show _ = Act.seq (Act.seq (call c.check) (calcAll c.calcs)) (outAll c) w
    simp only [Act.seq]
    rcases call c.check w with ⟨_ | e, w'⟩ <;> rfl

theorem makeAll_fail (c : Cls Obj) (w : State Obj) {e : Exn} {o : Obj} (h : Spec.Runs (Spec.steps c) w.obj (some e, o)) :
    makeAll c w = (some e, { w with obj := o }) := by
  rw [makeAll_eq]
  simp only [Act.seq, calcAll_runs _ h w rfl]

theorem makeAll_ok (c : Cls Obj) (w : State Obj) {o : Obj} (h : Spec.Runs (Spec.steps c) w.obj (none, o)) :
    makeAll c w = outAll c { w with obj := o } := by
  rw [makeAll_eq]
  simp only [Act.seq, calcAll_runs _ h w rfl]

/-! ## Files -/

/-- From a state with the folder `st`, the object, the stem, the names and folders stay; so do the files of `P`. -/
structure Keeps (st : Name) (P : Path → Prop) (w w' : State Obj) : Prop where
  stem : w'.stem = some (true, st)
  tops : w'.fs.tops = w.fs.tops
  dirs : w'.fs.isDir = w.fs.isDir
  files : ∀ q, P q → w'.fs.file q = w.fs.file q

theorem Keeps.refl {st : Name} (P : Path → Prop) {w : State Obj} (h : w.stem = some (true, st)) : Keeps st P w w := ⟨h, rfl, rfl, fun _ _ => rfl⟩

theorem Keeps.trans {st : Name} {P : Path → Prop} {a b c : State Obj} (h : Keeps st P a b) (k : Keeps st P b c) : Keeps st P a c :=
  ⟨k.stem, k.tops.trans h.tops, k.dirs.trans h.dirs, fun q hq => (k.files q hq).trans (h.files q hq)⟩

theorem keeps_seq {st : Name} {P : Path → Prop} {a b : Act Obj} (ha : ∀ w, w.stem = some (true, st) → Keeps st P w (a w).2)
    (hb : ∀ w, w.stem = some (true, st) → Keeps st P w (b w).2) : ∀ w, w.stem = some (true, st) → Keeps st P w (Act.seq a b w).2 := by
  intro w hw
  have h1 := ha w hw
  unfold Act.seq
  rcases h : a w with ⟨_ | e, w'⟩
  · rw [h] at h1
    exact h1.trans (hb w' h1.stem)
  · rw [h] at h1; exact h1

theorem keeps_when {st : Name} {P : Path → Prop} {p : State Obj → Bool} {a : Act Obj} (ha : ∀ w, w.stem = some (true, st) → Keeps st P w (a w).2) :
    ∀ w, w.stem = some (true, st) → Keeps st P w (when p a w).2 := by
  intro w hw
  unfold when
  split_ifs
  · exact ha w hw
  · exact Keeps.refl P hw

theorem keeps_call {st : Name} {P : Path → Prop} (f : Method Obj) : ∀ w, w.stem = some (true, st) → Keeps st P w (call f w).2 :=
  fun w hw => ⟨hw, rfl, rfl, fun _ _ => rfl⟩

theorem keeps_show {st : Name} {P : Path → Prop} : ∀ w : State Obj, w.stem = some (true, st) → Keeps st P w (showAll w).2 :=
  fun w hw => ⟨hw, rfl, rfl, fun _ _ => rfl⟩

/-- Writing one file in the folder. -/
theorem writeFile_eq {st : Name} (f : Name × List Char) (w : State Obj) (hw : w.stem = some (true, st)) :
    writeFile f w = if w.fs.isDir st then (none, { w with fs := w.fs.put (.sub st (st ++ f.1)) f.2 }) else (some .osError, w) := by
  unfold writeFile
  rw [hw]
  dsimp only
  have e : pathOf true st f.1 = .sub st (st ++ f.1) := rfl
  rw [e, FS.openable]
  split_ifs with h
  · congr 2
    simp only [FS.open, FS.write, FS.put, if_true, Option.getD_some, List.drop_nil, List.append_nil]
    congr 1
    funext r
    split_ifs <;> rfl
  · rfl

theorem keeps_writeAll {st : Name} {P : Path → Prop} (l : List (Name × List Char)) (hl : ∀ f ∈ l, ∀ q, P q → q ≠ .sub st (st ++ f.1)) :
    ∀ w : State Obj, w.stem = some (true, st) → Keeps st P w (writeAll l w).2 := by
  induction l with
  | nil => exact fun w hw => Keeps.refl P hw
  | cons f fs ih =>
    refine keeps_seq (fun w hw => ?_) (ih fun g hg => hl g (List.mem_cons_of_mem _ hg))
    rw [writeFile_eq f w hw]
    split_ifs
    · refine ⟨hw, rfl, rfl, fun q hq => ?_⟩
      show (if q = _ then _ else _) = _
      rw [if_neg (hl f List.mem_cons_self q hq)]
    · exact Keeps.refl P hw

/-- All files are written if the folder is there. -/
theorem writeAll_done {st : Name} (l : List (Name × List Char)) (hn : (l.map Prod.fst).Nodup) (w : State Obj) (hw : w.stem = some (true, st))
    (hd : w.fs.isDir st = true) :
    (writeAll l w).1 = none ∧ (writeAll l w).2.obj = w.obj ∧ (writeAll l w).2.shown = w.shown ∧
      ∀ f ∈ l, (writeAll l w).2.fs.file (.sub st (st ++ f.1)) = some f.2 := by
  induction l generalizing w with
  | nil => exact ⟨rfl, rfl, rfl, fun f hf => by cases hf⟩
  | cons f fs ih =>
    rw [List.map_cons, List.nodup_cons] at hn
    have e : writeAll (f :: fs) w = writeAll fs { w with fs := w.fs.put (.sub st (st ++ f.1)) f.2 } := by
      show Act.seq (writeFile f) (writeAll fs) w = _
      unfold Act.seq
      rw [writeFile_eq f w hw, if_pos hd]
    rw [e]
    obtain ⟨i1, i2, i3, i4⟩ := ih hn.2 { w with fs := w.fs.put (.sub st (st ++ f.1)) f.2 } hw hd
    refine ⟨i1, i2, i3, fun g hg => ?_⟩
    rcases List.mem_cons.1 hg with rfl | hg
    · have K := keeps_writeAll (P := fun q => q = .sub st (st ++ g.1)) fs (by
        rintro h hh q rfl e
        exact hn.1 (List.mem_map.2 ⟨h, hh, (List.append_cancel_left (Path.sub.inj e).2).symm⟩))
        { w with fs := w.fs.put (.sub st (st ++ g.1)) g.2 } hw
      rw [K.files _ rfl]
      show (if _ = _ then _ else _) = _
      rw [if_pos rfl]
    · exact i4 g hg

theorem ensureStem_some (c : Cls Obj) (w : State Obj) {s : Bool × Name} (h : w.stem = some s) : ensureStem c w = (none, w) := by
  unfold ensureStem when
  exact if_neg (by simp [h])

/-- The files of other stems and the files directly in the directory. -/
def Elsewhere (st : Name) (q : Path) : Prop := ∀ f, q ≠ .sub st f

theorem keeps_saveData (c : Cls Obj) {st : Name} : ∀ w : State Obj, w.stem = some (true, st) → Keeps st (Elsewhere st) w (saveData c w).2 := by
  refine keeps_when (keeps_seq (fun w hw => ?_) fun w hw => keeps_writeAll _ (fun f _ q hq => hq _) w hw)
  rw [ensureStem_some c w hw]
  exact Keeps.refl _ hw

theorem keeps_saveFigures (c : Cls Obj) {st : Name} : ∀ w : State Obj, w.stem = some (true, st) → Keeps st (Elsewhere st) w (saveFigures c w).2 := by
  refine keeps_when (keeps_seq (fun w hw => ?_) fun w hw => ?_)
  · rw [ensureStem_some c w hw]
    exact Keeps.refl _ hw
  · cases figureFiles (c.settings w.obj).out with
    | error e => exact Keeps.refl _ hw
    | ok l => exact keeps_writeAll _ (fun f _ q hq => hq _) w hw

theorem keeps_outAll (c : Cls Obj) {st : Name} : ∀ w : State Obj, w.stem = some (true, st) → Keeps st (Elsewhere st) w (outAll c w).2 :=
  keeps_seq (keeps_when (keeps_saveData c)) <| keeps_when <| keeps_seq (keeps_call _) <|
    keeps_seq (keeps_when (keeps_saveFigures c)) (keeps_when keeps_show)

theorem keeps_calcAll (l : List (Method Obj)) {st : Name} (P : Path → Prop) : ∀ w : State Obj, w.stem = some (true, st) → Keeps st P w (calcAll l w).2 := by
  induction l with
  | nil => exact fun w hw => Keeps.refl P hw
  | cons f fs ih => exact keeps_seq (keeps_call f) ih

/-! ## The theorems -/

/-- **C256** An exception of the check, or of a calculation, ends `make_all` with that exception: nothing has been written, plotted or shown. -/
theorem C256_rejected (c : Cls Obj) (w : State Obj) {e : Exn} {o : Obj} (h : Spec.Runs (Spec.steps c) w.obj (some e, o)) :
    makeAll c w = (some e, ⟨o, w.stem, w.fs, w.shown⟩) := makeAll_fail c w h

/-- **C256** With no flag set (the defaults) `make_all` only calculates. -/
theorem C256_quiet (c : Cls Obj) (w : State Obj) {o : Obj} (h : Spec.Runs (Spec.steps c) w.obj (none, o)) (h1 : (c.settings o).out.saveData = false)
    (h2 : (c.settings o).out.saveFigures = false) (h3 : (c.settings o).showFigures = false) : makeAll c w = (none, ⟨o, w.stem, w.fs, w.shown⟩) := by
  rw [makeAll_ok c w h]
  simp [outAll, Act.seq, when, h1, h2, h3]

/-- What saving the data does the first time. -/
theorem saveData_first (c : Cls Obj) (w : State Obj) (hs : w.stem = none) (L : Saving.Spec.Listed w.fs) (hp : Plain (c.settings w.obj).pre)
    (hc : (c.settings w.obj).create = true) (ho : (c.settings w.obj).overwrite = false) (hd : (c.settings w.obj).out.saveData = true)
    (hn : ((dataFiles (c.settings w.obj).out).map Prod.fst).Nodup) :
    ∃ st num, st = (c.settings w.obj).pre ++ zfillInt 4 num ∧ (∀ nm ∈ w.fs.tops, ¬ st <+: nm) ∧ (∀ nm ∈ w.fs.tops, ∀ n, HasNumber (c.settings w.obj).pre nm n → (n:ℤ) < num) ∧
      (saveData c w).1 = none ∧ (saveData c w).2.obj = w.obj ∧ (saveData c w).2.shown = w.shown ∧ (saveData c w).2.stem = some (true, st) ∧
      (saveData c w).2.fs.tops = st :: w.fs.tops ∧ (∀ f ∈ dataFiles (c.settings w.obj).out, (saveData c w).2.fs.file (.sub st (st ++ f.1)) = some f.2) ∧
      (∀ q, Elsewhere st q → (saveData c w).2.fs.file q = w.fs.file q) ∧ (saveData c w).2.fs.isDir st = true := by
  obtain ⟨st, num, h1, h2, h3, h4, h5⟩ := C38_fresh (c.settings w.obj).pre hp w.fs.tops 1 1 4 (by norm_num) (by norm_num)
  have ht : st ∉ w.fs.tops := fun h => h4 st h (List.prefix_refl _)
  have hi : w.fs.isDir st = false := by
    by_contra h
    exact ht (L.dirs st (by simpa using h))
  have e : determineStem c w = (none, { w with stem := some (true, st), fs := w.fs.mkdir st }) := by
    unfold determineStem
    rw [ho, h1]
    dsimp only
    rw [hc, hi, if_neg (by decide), if_neg ht]
  have e2 : saveData c w = writeAll (dataFiles (c.settings w.obj).out) { w with stem := some (true, st), fs := w.fs.mkdir st } := by
    have e3 : ensureStem c w = (none, { w with stem := some (true, st), fs := w.fs.mkdir st }) := by
      unfold ensureStem when
      rw [if_pos (show (fun w : State Obj => w.stem.isNone) w = true by simp [hs]), e]
    unfold saveData when
    rw [if_pos hd, Act.seq, e3]
  rw [e2]
  obtain ⟨k1, k2, k3, k4⟩ := writeAll_done (st := st) _ hn ({ w with stem := some (true, st), fs := w.fs.mkdir st } : State Obj) rfl (by simp [FS.mkdir])
  have K := keeps_writeAll (P := Elsewhere st) (st := st) (dataFiles (c.settings w.obj).out) (fun f _ q hq => hq _)
    ({ w with stem := some (true, st), fs := w.fs.mkdir st } : State Obj) rfl
  exact ⟨st, num, h2, h4, h5, k1, k2, k3, K.stem, K.tops, k4, K.files, by rw [K.dirs]; simp [FS.mkdir]⟩

/-- The part of `make_all` after the data. -/
def after (c : Cls Obj) : Act Obj :=
  when (fun w => (c.settings w.obj).out.saveFigures || (c.settings w.obj).showFigures) <|
    Act.seq (call c.plots) <| Act.seq (when (fun w => (c.settings w.obj).out.saveFigures) (saveFigures c)) <|
      when (fun w => (c.settings w.obj).showFigures) showAll

theorem outAll_saved (c : Cls Obj) (w : State Obj) (hd : (c.settings w.obj).out.saveData = true) (h : (saveData c w).1 = none) :
    outAll c w = after c (saveData c w).2 := by
  have e : when (fun w => (c.settings w.obj).out.saveData) (saveData c) w = saveData c w := by
    unfold when
    exact if_pos hd
  show Act.seq (when (fun w => (c.settings w.obj).out.saveData) (saveData c)) (after c) w = _
  rw [Act.seq, e]
  rcases hx : saveData c w with ⟨a, b⟩
  rw [hx] at h
  dsimp only at h
  rw [h]

/-- **C256, the data.**  When the calculations end without an exception and data is to be saved (folders of their own, no overwriting, an object that has
not saved before), `make_all` leaves every data file complete in a new folder, under a number larger than all there were, and all other files as they
were.  This is so whatever the plotting does: also if it raises, or if saving or showing the figures does. -/
theorem C256_data (c : Cls Obj) (w : State Obj) {o : Obj} (h : Spec.Runs (Spec.steps c) w.obj (none, o)) (hs : w.stem = none) (L : Saving.Spec.Listed w.fs)
    (hp : Plain (c.settings o).pre) (hc : (c.settings o).create = true) (ho : (c.settings o).overwrite = false) (hd : (c.settings o).out.saveData = true)
    (hn : ((dataFiles (c.settings o).out).map Prod.fst).Nodup)
    (hf : ∀ l, figureFiles (c.settings (c.plots o).2).out = .ok l → ∀ g ∈ l, g.1 ∉ (dataFiles (c.settings o).out).map Prod.fst) :
    ∃ st num, st = (c.settings o).pre ++ zfillInt 4 num ∧ (∀ nm ∈ w.fs.tops, ∀ n, HasNumber (c.settings o).pre nm n → (n:ℤ) < num) ∧
      st ∉ w.fs.tops ∧ (makeAll c w).2.fs.tops = st :: w.fs.tops ∧
      (∀ f ∈ dataFiles (c.settings o).out, (makeAll c w).2.fs.file (.sub st (st ++ f.1)) = some f.2) ∧
      ∀ q, Elsewhere st q → (makeAll c w).2.fs.file q = w.fs.file q := by
  rw [makeAll_ok c w h]
  obtain ⟨st, num, e1, e2, e3, k1, k2, k3, k4, k5, k6, k7, _⟩ := saveData_first c { w with obj := o } hs L hp hc ho hd hn
  refine ⟨st, num, e1, e3, fun h => e2 st h (List.prefix_refl _), ?_⟩
  have split : outAll c { w with obj := o } = (when (fun w => (c.settings w.obj).out.saveFigures || (c.settings w.obj).showFigures) <|
    Act.seq (call c.plots) <| Act.seq (when (fun w => (c.settings w.obj).out.saveFigures) (saveFigures c)) <|
      when (fun w => (c.settings w.obj).showFigures) showAll) (saveData c { w with obj := o }).2 := by
    unfold outAll
    rw [Act.seq]
    have : when (fun w => (c.settings w.obj).out.saveData) (saveData c) { w with obj := o } = saveData c { w with obj := o } := by
      unfold when
      dsimp only
      rw [if_pos hd]
    rw [this]
    rcases hx : saveData c { w with obj := o } with ⟨a, b⟩
    rw [hx] at k1
    dsimp only at k1
    rw [k1]
  rw [split]
  set w1 := (saveData c { w with obj := o }).2 with hw1
  let P : Path → Prop := fun q => Elsewhere st q ∨ ∃ f ∈ dataFiles (c.settings o).out, q = .sub st (st ++ f.1)
  have K : Keeps st P w1 ((when (fun w => (c.settings w.obj).out.saveFigures || (c.settings w.obj).showFigures) <|
    Act.seq (call c.plots) <| Act.seq (when (fun w => (c.settings w.obj).out.saveFigures) (saveFigures c)) <|
      when (fun w => (c.settings w.obj).showFigures) showAll) w1).2 := by
    unfold when
    split_ifs with hfl
    swap
    · exact Keeps.refl _ k4
    have hcall : call c.plots w1 = ((c.plots o).1, { w1 with obj := (c.plots o).2 }) := by
      unfold call
      rw [k2]
    rw [Act.seq, hcall]
    rcases hpl : c.plots o with ⟨_ | e, o'⟩
    swap
    · exact ⟨k4, rfl, rfl, fun _ _ => rfl⟩
    dsimp only
    rw [hpl] at hf
    refine Keeps.trans (b := { w1 with obj := o' }) ⟨k4, rfl, rfl, fun _ _ => rfl⟩ ?_
    have S : Keeps st P { w1 with obj := o' } (saveFigures c { w1 with obj := o' }).2 := by
      unfold saveFigures when
      split_ifs
      swap
      · exact Keeps.refl _ k4
      rw [Act.seq, ensureStem_some c { w1 with obj := o' } k4]
      dsimp only
      cases hff : figureFiles (c.settings o').out with
      | error e => exact Keeps.refl _ k4
      | ok l =>
        refine keeps_writeAll l (fun g hg q hq => ?_) _ k4
        rcases hq with hq | ⟨f, hfm, rfl⟩
        · exact hq _
        · intro he
          have : f.1 = g.1 := List.append_cancel_left (Path.sub.inj he).2
          exact hf l hff g hg (this ▸ List.mem_map_of_mem hfm)
    have A : Keeps st P { w1 with obj := o' } ((if (c.settings o').out.saveFigures = true then saveFigures c { w1 with obj := o' } else (none, { w1 with obj := o' })) : _ × _).2 := by
      split_ifs
      · exact S
      · exact Keeps.refl _ k4
    unfold Act.seq
    dsimp only
    rcases hx : (if (c.settings o').out.saveFigures = true then saveFigures c { w1 with obj := o' } else (none, { w1 with obj := o' })) with ⟨_ | e, w2⟩
    · rw [hx] at A
      refine A.trans ?_
      dsimp only
      split_ifs
      · exact keeps_show w2 A.stem
      · exact Keeps.refl _ A.stem
    · rw [hx] at A
      exact A
  refine ⟨K.tops.trans k5, fun f hfm => ?_, fun q hq => (K.files q (Or.inl hq)).trans (k7 q hq)⟩
  exact (K.files _ (Or.inr ⟨f, hfm, rfl⟩)).trans (k6 f hfm)

/-- **C256, a second time.**  Called again on the same object, `make_all` does not look for a new number, overwriting or not: nothing new appears in the
directory, and nothing outside the folder of the first time changes … -/
theorem C256_again (c : Cls Obj) (w : State Obj) {st : Name} (hs : w.stem = some (true, st)) :
    (makeAll c w).2.stem = some (true, st) ∧ (makeAll c w).2.fs.tops = w.fs.tops ∧ ∀ q, (∀ f, q ≠ .sub st f) → (makeAll c w).2.fs.file q = w.fs.file q := by
  rw [makeAll_eq]
  have K := keeps_seq (keeps_calcAll (Spec.steps c) (Elsewhere st)) (keeps_outAll c) w hs
  exact ⟨K.stem, K.tops, K.files⟩

/-- **C256, a second time.**  … and the files of the first time are replaced. -/
theorem C256_again_replaced (c : Cls Obj) (w : State Obj) {st : Name} {o : Obj} (h : Spec.Runs (Spec.steps c) w.obj (none, o)) (hs : w.stem = some (true, st))
    (hdir : w.fs.isDir st = true) (hd : (c.settings o).out.saveData = true) (hn : ((dataFiles (c.settings o).out).map Prod.fst).Nodup)
    (h2 : (c.settings o).out.saveFigures = false) (h3 : (c.settings o).showFigures = false) :
    (makeAll c w).1 = none ∧ ∀ f ∈ dataFiles (c.settings o).out, (makeAll c w).2.fs.file (.sub st (st ++ f.1)) = some f.2 := by
  rw [makeAll_ok c w h]
  have e : saveData c { w with obj := o } = writeAll (dataFiles (c.settings o).out) { w with obj := o } := by
    unfold saveData
    rw [when]
    dsimp only
    rw [if_pos hd, Act.seq, ensureStem_some c { w with obj := o } hs]
  obtain ⟨k1, k2, k3, k4⟩ := writeAll_done (st := st) _ hn ({ w with obj := o } : State Obj) hs hdir
  have e2 : outAll c { w with obj := o } = saveData c { w with obj := o } := by
    unfold outAll
    rw [Act.seq]
    have : when (fun w => (c.settings w.obj).out.saveData) (saveData c) { w with obj := o } = saveData c { w with obj := o } := by
      unfold when
      dsimp only
      rw [if_pos hd]
    rw [this, e]
    rcases hx : writeAll (dataFiles (c.settings o).out) { w with obj := o } with ⟨a, b⟩
    rw [hx] at k1 k2
    dsimp only at k1 k2
    rw [k1]
    have k2' : b.obj = o := k2
    simp [when, k2', h2, h3]
  rw [e2, e]
  exact ⟨k1, k4⟩

/-- **C256, plotting.**  An exception of `produce_plots` is the exception of `make_all`; nothing is shown. -/
theorem C256_plot_fails (c : Cls Obj) (w : State Obj) {o o' : Obj} {e : Exn} (h : Spec.Runs (Spec.steps c) w.obj (none, o))
    (hp : c.plots o = (some e, o')) (hd : (c.settings o).out.saveData = false) (hf : (c.settings o).out.saveFigures = true ∨ (c.settings o).showFigures = true) :
    makeAll c w = (some e, ⟨o', w.stem, w.fs, w.shown⟩) := by
  rw [makeAll_ok c w h]
  have hf' : ((c.settings o).out.saveFigures || (c.settings o).showFigures) = true := by rw [Bool.or_eq_true]; exact hf
  simp [outAll, Act.seq, when, hd, hf', call, hp]

/-- **C256, showing.**  With `show_figures` alone, the figures are made and shown once, and no file is touched; an object that only shows never asks for a
number. -/
theorem C256_shown (c : Cls Obj) (w : State Obj) {o o' : Obj} (h : Spec.Runs (Spec.steps c) w.obj (none, o)) (hp : c.plots o = (none, o'))
    (hd : (c.settings o).out.saveData = false) (h1 : (c.settings o).showFigures = true) (h2 : (c.settings o').showFigures = true)
    (h3 : (c.settings o').out.saveFigures = false) : makeAll c w = (none, ⟨o', w.stem, w.fs, w.shown + 1⟩) := by
  rw [makeAll_ok c w h]
  simp [outAll, Act.seq, when, hd, h1, h2, h3, call, hp, showAll]

/-- **C256, the figures.**  When data and figures are to be saved and neither calculations nor plotting raise, `make_all` ends without an exception, data and
figures are complete in one new folder, and the figures are shown once if asked for. -/
theorem C256_figures (c : Cls Obj) (w : State Obj) {o o' : Obj} (h : Spec.Runs (Spec.steps c) w.obj (none, o)) (hs : w.stem = none) (L : Saving.Spec.Listed w.fs)
    (hp : Plain (c.settings o).pre) (hc : (c.settings o).create = true) (ho : (c.settings o).overwrite = false) (hd : (c.settings o).out.saveData = true)
    (hn : ((dataFiles (c.settings o).out).map Prod.fst).Nodup) (h1 : (c.settings o).out.saveFigures = true) (hpl : c.plots o = (none, o'))
    (h2 : (c.settings o').out.saveFigures = true) (h3 : (c.settings o').out.figures.isSome = true) {l : List (Name × List Char)} (hl : figureFiles (c.settings o').out = .ok l)
    (hnl : (l.map Prod.fst).Nodup) (hf : ∀ g ∈ l, g.1 ∉ (dataFiles (c.settings o).out).map Prod.fst) :
    (makeAll c w).1 = none ∧ (makeAll c w).2.shown = w.shown + (if (c.settings o').showFigures then 1 else 0) ∧
    ∃ st, st ∉ w.fs.tops ∧ (makeAll c w).2.fs.tops = st :: w.fs.tops ∧
      (∀ f ∈ dataFiles (c.settings o).out, (makeAll c w).2.fs.file (.sub st (st ++ f.1)) = some f.2) ∧
      ∀ g ∈ l, (makeAll c w).2.fs.file (.sub st (st ++ g.1)) = some g.2 := by
  obtain ⟨st, num, e1, e2, e3, k1, k2, k3, k4, k5, k6, k7, k8⟩ := saveData_first c { w with obj := o } hs L hp hc ho hd hn
  rw [makeAll_ok c w h, outAll_saved c { w with obj := o } hd k1]
  set w1 := (saveData c { w with obj := o }).2 with hw1
  have e : after c w1 = when (fun w => (c.settings w.obj).showFigures) showAll (writeAll l { w1 with obj := o' }).2 := by
    have E1 : saveFigures c { w1 with obj := o' } = writeAll l { w1 with obj := o' } := by
      unfold saveFigures
      rw [when, if_pos (show ((c.settings o').out.saveFigures && (c.settings o').out.figures.isSome) = true by rw [h2, h3]; rfl), Act.seq,
        ensureStem_some c { w1 with obj := o' } k4]
      dsimp only
      rw [hl]
    have E2 : when (fun w => (c.settings w.obj).out.saveFigures) (saveFigures c) { w1 with obj := o' } = writeAll l { w1 with obj := o' } := by
      rw [when, if_pos (show (c.settings o').out.saveFigures = true from h2), E1]
    unfold after
    rw [when, if_pos (show ((c.settings w1.obj).out.saveFigures || (c.settings w1.obj).showFigures) = true by rw [k2, h1]; rfl), Act.seq]
    have E3 : call c.plots w1 = (none, { w1 with obj := o' }) := by
      unfold call
      rw [k2, hpl]
    rw [E3]
    dsimp only
    rw [Act.seq, E2]
    obtain ⟨d1, _⟩ := writeAll_done l hnl ({ w1 with obj := o' } : State Obj) k4 k8
    rcases hx : writeAll l { w1 with obj := o' } with ⟨a, b⟩
    rw [hx] at d1
    dsimp only at d1
    rw [d1]
  obtain ⟨d1, d2, d3, d4⟩ := writeAll_done l hnl ({ w1 with obj := o' } : State Obj) k4 k8
  have K := keeps_writeAll (st := st) (P := fun q => ∃ f ∈ dataFiles (c.settings o).out, q = .sub st (st ++ f.1)) l (by
    rintro g hg q ⟨f, hfm, rfl⟩ he
    have : f.1 = g.1 := List.append_cancel_left (Path.sub.inj he).2
    exact hf g hg (this ▸ List.mem_map_of_mem hfm)) ({ w1 with obj := o' } : State Obj) k4
  rw [e]
  have hfs : (when (fun w => (c.settings w.obj).showFigures) showAll (writeAll l { w1 with obj := o' }).2).2.fs = (writeAll l { w1 with obj := o' }).2.fs := by
    unfold when
    split_ifs <;> rfl
  have hobj : (writeAll l { w1 with obj := o' }).2.obj = o' := d2
  have hshown : (writeAll l { w1 with obj := o' }).2.shown = w.shown := d3.trans k3
  refine ⟨by unfold when; split_ifs <;> rfl, ?_, st, fun h => e2 st h (List.prefix_refl _), ?_, fun f hfm => ?_, fun g hg => ?_⟩
  · unfold when
    split_ifs with a b b
    · show (writeAll l { w1 with obj := o' }).2.shown + 1 = _
      rw [hshown]
    · exact absurd (hobj ▸ a) b
    · exact absurd (show _ = true by beta_reduce; rw [hobj]; exact b) a
    · exact hshown
  · rw [hfs]
    exact K.tops.trans k5
  · rw [hfs]
    exact (K.files _ ⟨f, hfm, rfl⟩).trans (k6 f hfm)
  · rw [hfs]
    exact d4 g hg

/-- **C256, one figure.**  A class whose `_figures` is a single figure and not a list, which `_save_figures` means to accept: `make_all` ends in a `TypeError`
and shows nothing; the data is there. -/
theorem C256_one_figure (c : Cls Obj) (w : State Obj) {o o' : Obj} (h : Spec.Runs (Spec.steps c) w.obj (none, o)) {s : Bool × Name} (hs : w.stem = some s)
    (hd : (c.settings o).out.saveData = false) (h1 : (c.settings o).out.saveFigures = true) (hpl : c.plots o = (none, o'))
    (h2 : (c.settings o').out.saveFigures = true) {f : Name × List Char} (h3 : (c.settings o').out.figures = some (.one f)) :
    makeAll c w = (some .typeError, ⟨o', w.stem, w.fs, w.shown⟩) := by
  have e : saveFigures c { w with obj := o' } = (some .typeError, { w with obj := o' }) := by
    unfold saveFigures
    rw [when, if_pos (show ((c.settings o').out.saveFigures && (c.settings o').out.figures.isSome) = true by rw [h2, h3]; rfl), Act.seq,
      ensureStem_some c { w with obj := o' } hs]
    dsimp only
    rw [(Saving.C240_figures (c.settings o').out).2.1 h2 f h3]
  rw [makeAll_ok c w h]
  simp [outAll, Act.seq, when, hd, h1, h2, call, hpl, e]

/-! ### The hypotheses are met -/

/-- A class whose calculation counts up a number and saves it; plotting fails. -/
def exCls (save : Bool) : Cls ℕ :=
  { checks := true
    check := fun n => (none, n)
    calcs := [fun n => (none, n + 1)]
    plots := fun n => (some .valueError, n)
    settings := fun n => ⟨"out".toList, true, false, save && n == 1, ⟨save, none, some ("H=1").toList, ".py".toList, [("_por".toList, strNat n)], ".csv".toList, false, none, ".eps".toList⟩⟩ }

theorem exRuns (save : Bool) (n : ℕ) : Spec.Runs (Spec.steps (exCls save)) n (none, n + 1) :=
  .cons _ _ _ rfl (.cons _ _ _ rfl (.nil _))

/-- Non-vacuity of C256: the plotting fails, the data is there. -/
example : ∃ st, (makeAll (exCls true) ⟨0, none, emptyDir, 0⟩).2.fs.file (.sub st (st ++ "_por.csv".toList)) = some (strNat 1) := by
  obtain ⟨st, num, _, _, _, _, h, _⟩ := C256_data (exCls true) ⟨0, none, emptyDir, 0⟩ (exRuns true 0) rfl
    ⟨fun d h => absurd h (by simp [emptyDir]), fun f c h => absurd h (by simp [emptyDir]), fun d f c h => absurd h (by simp [emptyDir])⟩
    (by intro c hc; revert c; decide +kernel) rfl rfl rfl (by decide +kernel)
    (fun l hl g hg => by
      have : l = [] := (Except.ok.inj hl).symm
      rw [this] at hg; cases hg)
  exact ⟨st, h ("_por.csv".toList, strNat 1) (by decide +kernel)⟩

/-- Two objects: two numbers.  One object twice: the second numbers replace the first, though `overwrite` is false. -/
example : let w := (makeAll (exCls true) ⟨0, none, emptyDir, 0⟩).2
    w.fs.file (.sub "out0001".toList "out0001_por.csv".toList) = some "1".toList ∧
    (makeAll (exCls true) w).2.fs.file (.sub "out0001".toList "out0001_por.csv".toList) = some "2".toList ∧
    (makeAll (exCls true) w).2.fs.tops = ["out0001".toList] ∧ (makeAll (exCls true) { w with stem := none }).2.fs.tops = ["out0002".toList, "out0001".toList] := by
  decide +kernel

example : (makeAll (exCls true) ⟨1, some (true, "out0001".toList), oldDir.mkdir "out0001".toList, 0⟩).1 = none :=
  (C256_again_replaced (exCls true) _ (exRuns true 1) rfl rfl rfl (by decide +kernel) rfl rfl).1

example : makeAll (exCls false) ⟨0, none, emptyDir, 0⟩ = (none, ⟨1, none, emptyDir, 0⟩) :=
  C256_quiet (exCls false) _ (exRuns false 0) rfl rfl rfl

/-- A check that refuses. -/
example : makeAll { exCls true with check := fun n => (some .valueError, n) } ⟨0, none, emptyDir, 0⟩ = (some .valueError, ⟨0, none, emptyDir, 0⟩) :=
  C256_rejected _ _ (.stop _ _ _ rfl)

/-- Without the check (`SchiffmanAndStein1970`) the same input is calculated and saved. -/
example : (makeAll { exCls true with check := fun n => (some .valueError, n), checks := false } ⟨1, none, emptyDir, 0⟩).1 = none := by decide +kernel

/-- Showing only. -/
example : makeAll { exCls false with settings := fun n => { (exCls false).settings n with showFigures := true }, plots := fun n => (none, n) } ⟨0, none, emptyDir, 0⟩ =
    (none, ⟨1, none, emptyDir, 1⟩) :=
  C256_shown _ _ (.cons _ _ _ rfl (.cons _ _ _ rfl (.nil _))) rfl rfl rfl rfl rfl

example : makeAll { exCls false with settings := fun n => { (exCls false).settings n with showFigures := true } } ⟨0, none, emptyDir, 0⟩ =
    (some .valueError, ⟨1, none, emptyDir, 0⟩) :=
  C256_plot_fails _ _ (.cons _ _ _ rfl (.cons _ _ _ rfl (.nil _))) rfl rfl (Or.inr rfl)

/-- Data and two figures, one without a label. -/
def exFig : Cls ℕ :=
  { exCls true with
    plots := fun n => (none, n)
    settings := fun n => ⟨"out".toList, true, false, true, ⟨true, none, some ("H=1").toList, ".py".toList, [("_por".toList, strNat n)], ".csv".toList,
      true, some (.list [("por".toList, "a".toList), ([], "b".toList)]), ".eps".toList⟩⟩ }

example : (makeAll exFig ⟨0, none, emptyDir, 0⟩).1 = none ∧ (makeAll exFig ⟨0, none, emptyDir, 0⟩).2.shown = 1 := by
  obtain ⟨h1, h2, _⟩ := C256_figures exFig ⟨0, none, emptyDir, 0⟩ (.cons _ _ _ rfl (.cons _ _ _ rfl (.nil _)))
    rfl ⟨fun d h => absurd h (by simp [emptyDir]), fun f c h => absurd h (by simp [emptyDir]), fun d f c h => absurd h (by simp [emptyDir])⟩
    (by intro c hc; revert c; decide +kernel) rfl rfl rfl (by decide +kernel) rfl rfl rfl rfl
    rfl (by decide +kernel) (by decide +kernel)
  exact ⟨h1, h2⟩

/-- One figure, not in a list. -/
def exOne : Cls ℕ :=
  { exFig with
    settings := fun n => ⟨"out".toList, true, false, true, ⟨false, none, none, ".py".toList, [], ".csv".toList, true, some (.one ("por".toList, "a".toList)),
      ".eps".toList⟩⟩ }

example : makeAll exOne ⟨0, some (true, "out0001".toList), emptyDir, 0⟩ = (some .typeError, ⟨1, some (true, "out0001".toList), emptyDir, 0⟩) :=
  C256_one_figure exOne ⟨0, some (true, "out0001".toList), emptyDir, 0⟩ (.cons _ _ _ rfl (.cons _ _ _ rfl (.nil _))) rfl rfl rfl rfl rfl rfl

end Geotecha.IO.Making
