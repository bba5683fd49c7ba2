import Verif.IO.WorkDir

/-! # C41, C64, C65 -/

set_option linter.unusedVariables false
namespace Geotecha.IO

/-- **C41** whatever the body does (change directory, nest, raise): if the starting directory exists before and after the body, then after the `with`
block the current directory is the starting one and the outcome (returned or raised) is that of the body; the body ran in `p`. -/
theorem C41_restores (p : Path) (body : Stmt) (s : PState) (h0 : s.dirs s.cwd = true) (hp : s.dirs p = true)
    (hb : (body { s with cwd := p }).1.dirs s.cwd = true) :
    (withDir p body s).1.cwd = s.cwd ∧ (withDir p body s).2 = (body { s with cwd := p }).2 ∧
    (withDir p body s).1 = { (body { s with cwd := p }).1 with cwd := s.cwd } := by
  have : withDir p body s = ({ (body { s with cwd := p }).1 with cwd := s.cwd }, (body { s with cwd := p }).2) := by
    unfold withDir
    simp [h0, chdir, hp, hb]
  rw [this]
  exact ⟨rfl, rfl, rfl⟩

/-- **C41** entering a directory that does not exist raises `OSError` and changes nothing; the body does not run. -/
theorem C41_missing (p : Path) (body : Stmt) (s : PState) (hp : s.dirs p = false) :
    withDir p body s = (s, some (.exn .osError)) := by
  unfold withDir
  by_cases h0 : s.dirs s.cwd = true <;> simp [h0, chdir, hp]

/-- Programs of nested `working_directory` blocks around arbitrary actions. -/
inductive Nest where
  | act (f : Stmt)
  | seq (a b : Nest)
  | inDir (p : Path) (a : Nest)

/-- Execution. -/
def Nest.run : Nest → Stmt
  | .act f => f
  | .seq a b => fun s => match a.run s with
    | (s1, none) => b.run s1
    | r => r
  | .inDir p a => withDir p a.run

/-- Actions of the program delete no directory. -/
def Nest.Keeps : Nest → Prop
  | .act f => ∀ s d, s.dirs d = true → (f s).1.dirs d = true
  | .seq a b => a.Keeps ∧ b.Keeps
  | .inDir _ a => a.Keeps

theorem chdir_dirs (p : Path) (s : PState) : (chdir p s).1.dirs = s.dirs := by unfold chdir; split_ifs <;> rfl

theorem withDir_dirs {p : Path} {body : Stmt} (h : ∀ s d, s.dirs d = true → (body s).1.dirs d = true) (s : PState) (d : Path) (hd : s.dirs d = true) :
    (withDir p body s).1.dirs d = true := by
  by_cases hp : s.dirs p = true
  · by_cases h0 : s.dirs s.cwd = true
    · rw [(C41_restores p body s h0 hp (h _ _ h0)).2.2]; exact h _ d hd
    · have : withDir p body s = (s, some (.exn .osError)) := by unfold withDir; simp [h0]
      rw [this]; exact hd
  · rw [C41_missing p body s (by simpa using hp)]; exact hd

theorem nest_dirs (n : Nest) (hk : n.Keeps) : ∀ s d, s.dirs d = true → (n.run s).1.dirs d = true := by
  induction n with
  | act f => exact hk
  | seq a b iha ihb =>
    intro s d hd
    have h1 := iha hk.1 s d hd
    unfold Nest.run
    rcases hr : a.run s with ⟨s1, r⟩
    rw [hr] at h1
    cases r with
    | none => exact ihb hk.2 s1 d h1
    | some e => exact h1
  | inDir p a ih => exact fun s d hd => withDir_dirs (ih hk) s d hd

/-- **C41** any nesting: a `with working_directory` block around any program of nested blocks and actions that deletes no directory leaves the
current directory as it was, whether it returns or raises, at every depth. -/
theorem C41_nested (p : Path) (n : Nest) (hk : n.Keeps) (s : PState) (h0 : s.dirs s.cwd = true) :
    ((Nest.inDir p n).run s).1.cwd = s.cwd := by
  by_cases hp : s.dirs p = true
  · exact (C41_restores p n.run s h0 hp (nest_dirs n hk _ _ h0)).1
  · show (withDir p n.run s).1.cwd = s.cwd
    rw [C41_missing p n.run s (by simpa using hp)]

/-- **C41** the proviso is needed: if the body deletes the starting directory, the block raises `OSError` (hiding the body's outcome) and the
process stays where the body left it. -/
theorem C41_deleted (p : Path) (body : Stmt) (s : PState) (h0 : s.dirs s.cwd = true) (hp : s.dirs p = true)
    (hb : (body { s with cwd := p }).1.dirs s.cwd = false) :
    withDir p body s = ((body { s with cwd := p }).1, some (.exn .osError)) := by
  unfold withDir
  simp [h0, chdir, hp, hb]

/-- A body that changes directory and then raises. -/
example : (withDir ["a"] (fun s => ({ s with cwd := ["b"] }, some (.exn .valueError))) { cwd := ["home"], dirs := fun _ => true, level := 20 }).1.cwd = ["home"] :=
  (C41_restores _ _ _ rfl rfl rfl).1

/-! ## C64: processing several files -/

/-- `process` deletes no directory and does not touch the record of calls. -/
def Orderly (process : Path → Stmt) : Prop :=
  ∀ f s, (∀ d, s.dirs d = true → (process f s).1.dirs d = true) ∧ (process f s).1.calls = s.calls

/-- `process` raises nothing but `Exception`s. -/
def NoBase (process : Path → Stmt) : Prop := ∀ f s n, (process f s).2 ≠ some (.base n)

theorem processOne_spec {process : Path → Stmt} (ho : Orderly process) (hb : NoBase process) (f : Path) (s : PState) (h0 : s.dirs s.cwd = true)
    (hd : s.dirs (dirname f) = true) :
    (processOne process f s).2 = none ∧ (processOne process f s).1.cwd = s.cwd ∧
    (processOne process f s).1.calls = s.calls ++ [(f, dirname f)] ∧ ∀ d, s.dirs d = true → (processOne process f s).1.dirs d = true := by
  set body : Stmt := fun s => process f { s with calls := s.calls ++ [(f, s.cwd)] } with hbody
  have hk := (ho f { { s with cwd := dirname f } with calls := s.calls ++ [(f, dirname f)] })
  obtain ⟨h1, h2, h3⟩ := C41_restores (dirname f) body s h0 hd (hk.1 _ h0)
  have hst : (withDir (dirname f) body s).1.calls = s.calls ++ [(f, dirname f)] := by rw [h3]; exact hk.2
  have hds : ∀ d, s.dirs d = true → (withDir (dirname f) body s).1.dirs d = true := by intro d hd'; rw [h3]; exact hk.1 d hd'
  unfold processOne
  rw [← hbody]
  have hne : ∀ n, (withDir (dirname f) body s).2 ≠ some (.base n) := by rw [h2]; exact fun n => hb f _ n
  generalize withDir (dirname f) body s = res at h1 h2 hst hds hne
  obtain ⟨s1, r⟩ := res
  match r with
  | none => exact ⟨rfl, h1, hst, hds⟩
  | some (.exn e) => exact ⟨rfl, h1, hst, hds⟩
  | some (.base n) => exact absurd rfl (hne n)

theorem processLoop_spec {process : Path → Stmt} (ho : Orderly process) (hb : NoBase process) (files : List Path) (s : PState)
    (h0 : s.dirs s.cwd = true) (hd : ∀ f ∈ files, s.dirs (dirname f) = true) :
    (processLoop process files s).2 = none ∧ (processLoop process files s).1.cwd = s.cwd ∧
    (processLoop process files s).1.calls = s.calls ++ files.map fun f => (f, dirname f) := by
  induction files generalizing s with
  | nil => simp [processLoop]
  | cons f fs ih =>
    obtain ⟨h1, h2, h3, h4⟩ := processOne_spec ho hb f s h0 (hd f (by simp))
    rw [processLoop]
    generalize processOne process f s = res at h1 h2 h3 h4
    obtain ⟨s1, r⟩ := res
    simp only at h1 h2 h3 h4
    subst h1
    dsimp only
    obtain ⟨i1, i2, i3⟩ := ih s1 (by rw [h2]; exact h4 _ h0) (fun g hg => h4 _ (hd g (by simp [hg])))
    exact ⟨i1, by rw [i2, h2], by rw [i3, h3]; simp⟩

/-- **C64** every file is processed exactly once, in order, with the current directory set to its own directory, whatever
`Exception`s any of them raises; nothing is raised; afterwards the current directory and the log level are what they were. -/
theorem C64_all_files (process : Path → Stmt) (ho : Orderly process) (hb : NoBase process) (info : ℕ) (files : List Path) (s : PState)
    (h0 : s.dirs s.cwd = true) (hd : ∀ f ∈ files, s.dirs (dirname f) = true) :
    (processFiles process info files s).2 = none ∧ (processFiles process info files s).1.cwd = s.cwd ∧
    (processFiles process info files s).1.level = s.level ∧
    (processFiles process info files s).1.calls = s.calls ++ files.map fun f => (f, dirname f) := by
  obtain ⟨h1, h2, h3⟩ := processLoop_spec ho hb files { s with level := info } h0 hd
  unfold processFiles
  generalize processLoop process files { s with level := info } = res at h1 h2 h3
  obtain ⟨s1, r⟩ := res
  simp only at h1 h2 h3
  subst h1
  exact ⟨rfl, h2, rfl, h3⟩

/-- **C64** a `KeyboardInterrupt` (or `SystemExit`) in a file stops the batch: the current directory is restored, the log level is not. -/
theorem C64_interrupt : ∃ (process : Path → Stmt) (s : PState) (files : List Path), s.dirs s.cwd = true ∧ Orderly process ∧
    (processFiles process 20 files s).2 = some (.base 0) ∧ (processFiles process 20 files s).1.cwd = s.cwd ∧
    (processFiles process 20 files s).1.calls.length < files.length ∧ (processFiles process 20 files s).1.level ≠ s.level := by
  refine ⟨fun _ s => (s, some (.base 0)), { cwd := ["h"], dirs := fun _ => true, level := 30 }, [["a", "x.py"], ["a", "y.py"]], rfl, ?_, rfl, rfl, by decide, by decide⟩
  exact fun f s => ⟨fun d hd => hd, rfl⟩

/-- A failing first file does not stop the second. -/
example : (processFiles (fun f s => (s, if f = ["a", "x.py"] then some (.exn .valueError) else none)) 20 [["a", "x.py"], ["b", "y.py"]]
    { cwd := ["h"], dirs := fun _ => true, level := 30 }).1.calls = [(["a", "x.py"], ["a"]), (["b", "y.py"], ["b"])] := by decide

/-! ## C65: choosing files by pattern -/

/-- **C65** the files chosen are the matching ones of the directories given, in order, except any named `inputoutput.py`; if there are none, `IOError`. -/
theorem C65_selection (matches_ : String → Bool) (listing : Path → List String) (ds : List Path) :
    (∀ fs, selectFiles matches_ listing ds = .ok fs → fs ≠ [] ∧
      ∀ f, f ∈ fs ↔ ∃ d ∈ ds, ∃ v ∈ listing d, f = d ++ [v] ∧ matches_ v = true ∧ v ≠ "inputoutput.py") ∧
    (selectFiles matches_ listing ds = .error .osError ↔ ∀ d ∈ ds, ∀ v ∈ listing d, matches_ v = true → v = "inputoutput.py") ∧
    (∀ e, selectFiles matches_ listing ds = .error e → e = .osError) := by
  unfold selectFiles
  set fs := ds.flatMap fun d => ((listing d).filter fun v => matches_ v && v != "inputoutput.py").map fun v => d ++ [v] with hfs
  have hmem : ∀ f, f ∈ fs ↔ ∃ d ∈ ds, ∃ v ∈ listing d, f = d ++ [v] ∧ matches_ v = true ∧ v ≠ "inputoutput.py" := by
    intro f
    rw [hfs, List.mem_flatMap]
    constructor
    · rintro ⟨d, hd, h⟩
      obtain ⟨v, hv, rfl⟩ := List.mem_map.1 h
      rw [List.mem_filter] at hv
      exact ⟨d, hd, v, hv.1, rfl, by simpa using hv.2⟩
    · rintro ⟨d, hd, v, hv, rfl, h1, h2⟩
      exact ⟨d, hd, List.mem_map.2 ⟨v, List.mem_filter.2 ⟨hv, by simp [h1, h2]⟩, rfl⟩⟩
  have hnil : fs = [] ↔ ∀ d ∈ ds, ∀ v ∈ listing d, matches_ v = true → v = "inputoutput.py" := by
    rw [List.eq_nil_iff_forall_not_mem]
    constructor
    · intro h d hd v hv hm
      by_contra hne
      exact h _ ((hmem _).2 ⟨d, hd, v, hv, rfl, hm, hne⟩)
    · intro h f hf
      obtain ⟨d, hd, v, hv, _, hm, hne⟩ := (hmem f).1 hf
      exact hne (h d hd v hv hm)
  dsimp only
  refine ⟨?_, ?_, ?_⟩
  · intro gs h
    split_ifs at h with hl
    injection h with h
    subst h
    exact ⟨fun e => hl (by rw [e]; rfl), hmem⟩
  · rw [← hnil]
    split_ifs with hl
    · simp [List.length_eq_zero_iff.1 hl]
    · simp; intro e; exact hl (by rw [e]; rfl)
  · intro e h
    split_ifs at h
    injection h with h; exact h.symm

/-- **C65** the documented exclusion of the running script does not happen: a script lying in its own data directory is chosen. -/
theorem C65_script_not_excluded :
    selectFiles (fun _ => true) (fun _ => ["script.py", "data.py"]) [["d"]] = .ok [["d", "script.py"], ["d", "data.py"]] := by decide

end Geotecha.IO
