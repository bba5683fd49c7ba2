import Verif.IO.SaveRuns
import Mathlib.Data.List.Nodup

/-! # C240: runs that save into one directory do not damage each other's files, as long as they choose their stems one at a time -/

set_option autoImplicit false
set_option linter.unusedVariables false

namespace Geotecha.IO.Saving

/-- The stem number `n`. -/
def sp (p : Name) (n : ℕ) : Name := p ++ zfillInt 4 (n : ℤ)

def Pc.stem : Pc → Option Name
  | .picked s => some s
  | .making s => some s
  | .ready s _ => some s
  | .opened s _ => some s
  | .dead s _ => some s
  | _ => none

def Pc.count : Pc → ℕ
  | .ready _ k => k
  | .opened _ k => k
  | .dead _ k => k
  | _ => 0

def Pc.early : Pc → Bool
  | .picked _ => true
  | .making _ => true
  | _ => false

def topName : Path → Name
  | .top f => f
  | .sub d _ => d

/-- Names in the directory that a run with stem `s` makes. -/
def Own (j : Job) (s nm : Name) : Prop := (j.create = true ∧ nm = s) ∨ (j.create = false ∧ ∃ f ∈ j.files, nm = s ++ f.1)

theorem num_sp (p : Name) (n : ℕ) (f : Name) (h : ∀ c, f.head? = some c → isDig c = false) : HasNumber p (sp p n ++ f) n := by
  obtain ⟨h1, h2, h3⟩ := zfill_spec 4 (i := (n:ℤ)) (by omega)
  exact ⟨zfillInt 4 n, f, rfl, h3, h2, h, by exact_mod_cast h1⟩

theorem num_unique {p nm : Name} {n m : ℕ} (hp : Plain p) (h1 : HasNumber p nm n) (h2 : HasNumber p nm m) : n = m := by
  have e1 := hasNumber_match hp h1
  rw [hasNumber_match hp h2] at e1
  simpa using e1.symm

theorem sp_inj {p : Name} {n m : ℕ} (hp : Plain p) (h : sp p n = sp p m) : n = m := by
  have h1 := num_sp p n [] (by simp)
  have h2 := num_sp p m [] (by simp)
  rw [h] at h1
  exact num_unique hp h1 h2

theorem own_num {p : Name} {jobs : ℕ → Job} (J : Spec.Jobs p jobs) {i n : ℕ} {nm : Name} (h : Own (jobs i) (sp p n) nm) : HasNumber p nm n := by
  rcases h with ⟨_, rfl⟩ | ⟨_, f, hf, rfl⟩
  · simpa using num_sp p n [] (by simp)
  · exact num_sp p n f.1 (J.names i f hf)

theorem own_path (j : Job) (s : Name) {f : Name × List Char} (hf : f ∈ j.files) : Own j s (topName (pathOf j.create s f.1)) := by
  unfold pathOf
  cases hc : j.create with
  | true => exact Or.inl ⟨hc, rfl⟩
  | false => exact Or.inr ⟨hc, f, hf, rfl⟩

/-- What is always true of one run. -/
structure Good (p : Name) (j : Job) (fs0 fs : FS) (pc : Pc) : Prop where
  ok : ∀ e, pc ≠ .failed e
  folder : ∀ s, pc = .making s → j.create = true
  num : ∀ s, pc.stem = some s → ∃ n, s = sp p n
  mark : ∀ s, pc.stem = some s → ¬ Spec.InWindow j pc → ∃ nm ∈ fs.tops, Own j s nm
  tops : ∀ n, pc.stem = some (sp p n) → ∀ nm ∈ fs.tops, HasNumber p nm n → Own j (sp p n) nm
  early : ∀ n, pc.early = true → pc.stem = some (sp p n) → ∀ nm ∈ fs.tops, ¬ HasNumber p nm n
  dir : ∀ s, j.create = true → pc.early = false → pc.stem = some s → fs.isDir s = true
  nodir : ∀ s, j.create = false → pc.stem = some s → ∀ f ∈ j.files, fs.isDir (s ++ f.1) = false
  fresh : ∀ n, pc.stem = some (sp p n) → ∀ nm ∈ fs0.tops, ¬ HasNumber p nm n
  written : ∀ s, pc.stem = some s → ∀ a, a < pc.count → ∀ f, j.files[a]? = some f → fs.file (pathOf j.create s f.1) = some f.2
  empty : ∀ s k f, pc = .opened s k → j.files[k]? = some f → fs.file (pathOf j.create s f.1) = some []

/-- Only names and files with the number `n` change. -/
structure Frame (p : Name) (n : ℕ) (fs fs' : FS) : Prop where
  sub : ∀ nm ∈ fs.tops, nm ∈ fs'.tops
  new : ∀ nm ∈ fs'.tops, nm ∈ fs.tops ∨ HasNumber p nm n
  dirs : ∀ d, fs'.isDir d = fs.isDir d ∨ HasNumber p d n
  dirUp : ∀ d, fs.isDir d = true → fs'.isDir d = true
  files : ∀ q, fs'.file q = fs.file q ∨ HasNumber p (topName q) n

theorem Frame.refl (p : Name) (n : ℕ) (fs : FS) : Frame p n fs fs :=
  ⟨fun _ h => h, fun _ h => Or.inl h, fun _ => Or.inl rfl, fun _ h => h, fun _ => Or.inl rfl⟩

theorem good_frame {p : Name} {jobs : ℕ → Job} (J : Spec.Jobs p jobs) {i n : ℕ} {fs0 fs fs' : FS} {pc : Pc} (G : Good p (jobs i) fs0 fs pc)
    (F : Frame p n fs fs') (hn : pc.stem ≠ some (sp p n)) : Good p (jobs i) fs0 fs' pc := by
  have other : ∀ m nm, pc.stem = some (sp p m) → HasNumber p nm n → ¬ HasNumber p nm m := by
    intro m nm h1 h2 h3
    exact hn (by rw [h1, num_unique J.plain h2 h3])
  refine ⟨G.ok, G.folder, G.num, ?_, ?_, ?_, ?_, ?_, G.fresh, ?_, ?_⟩
  · intro s hs hw
    obtain ⟨nm, h1, h2⟩ := G.mark s hs hw
    exact ⟨nm, F.sub nm h1, h2⟩
  · intro m hm nm h1 h2
    rcases F.new nm h1 with h | h
    · exact G.tops m hm nm h h2
    · exact absurd h2 (other m nm hm h)
  · intro m he hm nm h1 h2
    rcases F.new nm h1 with h | h
    · exact G.early m he hm nm h h2
    · exact other m nm hm h h2
  · intro s hc he hs
    exact F.dirUp _ (G.dir s hc he hs)
  · intro s hc hs f hf
    obtain ⟨m, rfl⟩ := G.num s hs
    rcases F.dirs (sp p m ++ f.1) with h | h
    · rw [h]; exact G.nodir _ hc hs f hf
    · exact absurd (num_sp p m f.1 (J.names i f hf)) (other m _ hs h)
  · intro s hs a ha f hf
    obtain ⟨m, rfl⟩ := G.num s hs
    rcases F.files (pathOf (jobs i).create (sp p m) f.1) with h | h
    · rw [h]; exact G.written _ hs a ha f hf
    · exact absurd (own_num J (own_path (jobs i) (sp p m) (List.mem_of_getElem? hf))) (other m _ hs h)
  · intro s k f hk hf
    have hs : pc.stem = some s := by rw [hk]; rfl
    obtain ⟨m, rfl⟩ := G.num s hs
    rcases F.files (pathOf (jobs i).create (sp p m) f.1) with h | h
    · rw [h]; exact G.empty _ k f hk hf
    · exact absurd (own_num J (own_path (jobs i) (sp p m) (List.mem_of_getElem? hf))) (other m _ hs h)

structure Inv (p : Name) (jobs : ℕ → Job) (fs0 : FS) (w : World) : Prop where
  listed : Spec.Listed w.fs
  oldTops : ∀ nm ∈ fs0.tops, nm ∈ w.fs.tops
  oldFiles : ∀ q c, fs0.file q = some c → w.fs.file q = some c
  good : ∀ i, Good p (jobs i) fs0 w.fs (w.pc i)
  uniq : ∀ i j s, i ≠ j → (w.pc i).stem = some s → (w.pc j).stem ≠ some s

theorem inv_start {p : Name} {jobs : ℕ → Job} (J : Spec.Jobs p jobs) {fs0 : FS} (L : Spec.Listed fs0) : Inv p jobs fs0 (start fs0) := by
  refine ⟨L, fun _ h => h, fun _ _ h => h, fun i => ?_, fun i j s _ h => by simp [start, Pc.stem] at h⟩
  constructor <;> simp [start, Pc.stem, Pc.early, Pc.count]

/-- Step of a run that has a stem. -/
theorem inv_set {p : Name} {jobs : ℕ → Job} (J : Spec.Jobs p jobs) {fs0 : FS} (L0 : Spec.Listed fs0) {w : World} (I : Inv p jobs fs0 w) {i n : ℕ}
    (hs : (w.pc i).stem = some (sp p n)) {pc' : Pc} {fs' : FS} (F : Frame p n w.fs fs') (L : Spec.Listed fs')
    (hs' : pc'.stem = some (sp p n) ∨ pc'.stem = none) (G : Good p (jobs i) fs0 fs' pc') : Inv p jobs fs0 (w.set i (pc', fs')) := by
  have hfresh := (I.good i).fresh n hs
  refine ⟨L, fun nm h => F.sub nm (I.oldTops nm h), fun q c h => ?_, fun j => ?_, fun a b s hab h1 h2 => ?_⟩
  · rcases F.files q with h1 | h1
    · show fs'.file q = _
      rw [h1]; exact I.oldFiles q c h
    · cases q with
      | top f => exact absurd h1 (hfresh f (L0.files f c h))
      | sub d f => exact absurd h1 (hfresh d (L0.subs d f c h))
  · by_cases hj : j = i
    · subst hj
      simpa [World.set] using G
    · have : (w.set i (pc', fs')).pc j = w.pc j := by simp [World.set, hj]
      rw [this]
      exact good_frame J (I.good j) F (I.uniq i j _ (Ne.symm hj) hs)
  · by_cases ha : a = i
    · subst ha
      have hb : b ≠ a := Ne.symm hab
      simp only [World.set, if_true, if_neg hb] at h1 h2
      rcases hs' with e | e
      · rw [e] at h1
        cases h1
        exact I.uniq a b _ hab hs h2
      · rw [e] at h1; cases h1
    · by_cases hb : b = i
      · subst hb
        simp only [World.set, if_true, if_neg ha] at h1 h2
        rcases hs' with e | e
        · rw [e] at h2
          cases h2
          exact I.uniq b a _ (Ne.symm hab) hs h1
        · rw [e] at h2; cases h2
      · simp only [World.set, if_neg ha, if_neg hb] at h1 h2
        exact I.uniq a b s hab h1 h2

/-- Contents of one file with the number `n` changed, the name possibly new. -/
theorem frame_put {p : Name} {n : ℕ} (fs : FS) (q : Path) (t : List Char) (hq : HasNumber p (topName q) n) : Frame p n fs (fs.put q t) := by
  refine ⟨fun _ h => h, fun _ h => Or.inl h, fun _ => Or.inl rfl, fun _ h => h, fun r => ?_⟩
  by_cases h : r = q
  · subst h; exact Or.inr hq
  · exact Or.inl (by simp [FS.put, h])

theorem frame_addTop {p : Name} {n : ℕ} (fs : FS) (nm : Name) (h : HasNumber p nm n) : Frame p n fs (fs.addTop nm) := by
  refine ⟨fun x hx => ?_, fun x hx => ?_, fun _ => Or.inl rfl, fun _ h => h, fun r => Or.inl rfl⟩
  · unfold FS.addTop; dsimp only; split_ifs <;> simp [hx]
  · unfold FS.addTop at hx; dsimp only at hx
    split_ifs at hx
    · exact Or.inl hx
    · rcases List.mem_cons.1 hx with rfl | hx
      · exact Or.inr h
      · exact Or.inl hx

theorem Frame.trans {p : Name} {n : ℕ} {a b c : FS} (F : Frame p n a b) (G : Frame p n b c) : Frame p n a c := by
  refine ⟨fun nm h => G.sub nm (F.sub nm h), fun nm h => ?_, fun d => ?_, fun d h => G.dirUp d (F.dirUp d h), fun q => ?_⟩
  · rcases G.new nm h with h | h
    · exact F.new nm h
    · exact Or.inr h
  · rcases G.dirs d with h | h
    · rw [h]; exact F.dirs d
    · exact Or.inr h
  · rcases G.files q with h | h
    · rw [h]; exact F.files q
    · exact Or.inr h

theorem listed_put {fs : FS} (L : Spec.Listed fs) (q : Path) (t : List Char) (hq : topName q ∈ fs.tops) : Spec.Listed (fs.put q t) := by
  refine ⟨L.dirs, fun f c h => ?_, fun d f c h => ?_⟩
  · by_cases e : Path.top f = q
    · subst e; exact hq
    · exact L.files f c (by simpa [FS.put, e] using h)
  · by_cases e : Path.sub d f = q
    · subst e; exact hq
    · exact L.subs d f c (by simpa [FS.put, e] using h)

theorem mem_addTop (fs : FS) (nm : Name) : nm ∈ (fs.addTop nm).tops := by
  unfold FS.addTop; dsimp only; split_ifs with h
  · exact h
  · simp

theorem listed_addTop {fs : FS} (L : Spec.Listed fs) (nm : Name) : Spec.Listed (fs.addTop nm) := by
  have sub : ∀ x ∈ fs.tops, x ∈ (fs.addTop nm).tops := by
    intro x hx
    unfold FS.addTop; dsimp only; split_ifs <;> simp [hx]
  exact ⟨fun d h => sub d (L.dirs d h), fun f c h => sub f (L.files f c h), fun d f c h => sub d (L.subs d f c h)⟩

theorem path_ne {create : Bool} {s f g : Name} (h : f ≠ g) : pathOf create s f ≠ pathOf create s g := by
  unfold pathOf
  cases create <;> simp [h]

/-- The file with index `k` is not an earlier one. -/
theorem path_index {j : Job} (h : (j.files.map Prod.fst).Nodup) {a k : ℕ} (hak : a ≠ k) {f g : Name × List Char} (hf : j.files[a]? = some f)
    (hg : j.files[k]? = some g) (s : Name) : pathOf j.create s f.1 ≠ pathOf j.create s g.1 := by
  apply path_ne
  intro e
  apply hak
  obtain ⟨ha, ea⟩ := List.getElem?_eq_some_iff.1 hf
  obtain ⟨hk, ek⟩ := List.getElem?_eq_some_iff.1 hg
  have := (List.Nodup.getElem_inj_iff h (i := a) (j := k) (hi := by simpa using ha) (hj := by simpa using hk)).1 (by simp [ea, ek, e])
  exact this

theorem inv_step {p : Name} {jobs : ℕ → Job} (J : Spec.Jobs p jobs) {fs0 : FS} (L0 : Spec.Listed fs0) {w : World} (I : Inv p jobs fs0 w) (i : ℕ)
    (hc : w.pc i = .idle → ∀ j, ¬ Spec.InWindow (jobs j) (w.pc j)) : Inv p jobs fs0 (exec jobs w (.step i)) := by
  have Gi := I.good i
  show Inv p jobs fs0 (w.set i (stepJob (jobs i) (w.pc i) w.fs))
  have same : w.set i (w.pc i, w.fs) = w := by
    unfold World.set
    congr 1
    funext j
    by_cases h : j = i <;> simp [h]
  cases hpc : w.pc i with
  | failed e => exact absurd hpc (Gi.ok e)
  | gone => rw [show stepJob (jobs i) Pc.gone w.fs = (Pc.gone, w.fs) from rfl, ← hpc, same]; exact I
  | dead st k => rw [show stepJob (jobs i) (Pc.dead st k) w.fs = (Pc.dead st k, w.fs) from rfl, ← hpc, same]; exact I
  | idle =>
    obtain ⟨stem, num, h1, h2, h3, h4, h5⟩ := C38_fresh p J.plain w.fs.tops 1 1 4 (by norm_num) (by norm_num)
    have hst : stem = sp p num.toNat := by rw [h2, sp, Int.toNat_of_nonneg h3]
    have hfree : ∀ nm ∈ w.fs.tops, ¬ HasNumber p nm num.toNat := by
      intro nm hnm hn
      have := h5 nm hnm _ hn
      omega
    have e : stepJob (jobs i) Pc.idle w.fs = (.picked stem, w.fs) := by
      simp only [stepJob]
      rw [J.pre i, J.keep i, h1]
    rw [e, hst]
    have huniq : ∀ j s, (w.pc j).stem = some s → s ≠ sp p num.toNat := by
      rintro j s hs rfl
      obtain ⟨nm, k1, k2⟩ := (I.good j).mark _ hs (hc hpc j)
      exact hfree nm k1 (own_num J k2)
    refine ⟨I.listed, I.oldTops, I.oldFiles, fun j => ?_, fun a b s hab k1 k2 => ?_⟩
    · by_cases hj : j = i
      · subst hj
        simp only [World.set, if_true]
        have hsp : ∀ m, (Pc.picked (sp p num.toNat)).stem = some (sp p m) → m = num.toNat := by
          intro m hm
          simp only [Pc.stem, Option.some.injEq] at hm
          exact (sp_inj J.plain hm).symm
        refine ⟨by simp, by simp, fun s hs => ⟨num.toNat, by simpa [Pc.stem] using hs.symm⟩, fun s hs hw => absurd trivial hw, ?_, ?_, by simp [Pc.early], ?_, ?_, ?_,
          by simp⟩
        · intro m hm nm k1 k2
          rw [hsp m hm] at k2
          exact absurd k2 (hfree nm k1)
        · intro m _ hm nm k1 k2
          rw [hsp m hm] at k2
          exact hfree nm k1 k2
        · intro s hcr hs f hf
          simp only [Pc.stem, Option.some.injEq] at hs
          subst hs
          by_contra hd
          exact hfree _ (I.listed.dirs _ (by simpa using hd)) (num_sp p _ f.1 (J.names j f hf))
        · intro m hm nm k1 k2
          rw [hsp m hm] at k2
          exact hfree nm (I.oldTops nm k1) k2
        · intro s hs a ha
          simp [Pc.count] at ha
      · have : (w.set i (Pc.picked (sp p num.toNat), w.fs)).pc j = w.pc j := by simp [World.set, hj]
        rw [this]
        exact I.good j
    · by_cases ha : a = i
      · subst ha
        simp only [World.set, if_true, if_neg (Ne.symm hab), Pc.stem, Option.some.injEq] at k1 k2
        exact huniq b s k2 k1.symm
      · by_cases hb : b = i
        · subst hb
          simp only [World.set, if_true, if_neg ha, Pc.stem, Option.some.injEq] at k1 k2
          exact huniq a s k1 k2.symm
        · simp only [World.set, if_neg ha, if_neg hb] at k1 k2
          exact I.uniq a b s hab k1 k2
  | picked st =>
    have hs : (w.pc i).stem = some st := by rw [hpc]; rfl
    obtain ⟨n, rfl⟩ := Gi.num st hs
    have hearly := Gi.early n (by rw [hpc]; rfl) hs
    by_cases hcr : (jobs i).create = true
    · have hd : w.fs.isDir (sp p n) = false := by
        by_contra h
        have := num_sp p n [] (by simp)
        rw [List.append_nil] at this
        exact hearly _ (I.listed.dirs _ (by simpa using h)) this
      have e : stepJob (jobs i) (Pc.picked (sp p n)) w.fs = (.making (sp p n), w.fs) := by simp [stepJob, hcr, hd]
      rw [e]
      refine inv_set J L0 I hs (Frame.refl _ _ _) I.listed (Or.inl rfl) ?_
      rw [hpc] at Gi
      exact ⟨by simp, fun _ _ => hcr, Gi.num, fun s hs hw => absurd trivial hw, Gi.tops, Gi.early, by simp [Pc.early], Gi.nodir, Gi.fresh, Gi.written, by simp⟩
    · have hcr' : (jobs i).create = false := by simpa using hcr
      have e : stepJob (jobs i) (Pc.picked (sp p n)) w.fs = (.ready (sp p n) 0, w.fs) := by simp [stepJob, hcr']
      rw [e]
      refine inv_set J L0 I hs (Frame.refl _ _ _) I.listed (Or.inl rfl) ?_
      rw [hpc] at Gi
      exact ⟨by simp, by simp, Gi.num, fun s hs hw => absurd ⟨hcr', rfl⟩ hw, Gi.tops, by simp [Pc.early], by simp [hcr'], Gi.nodir, Gi.fresh,
        fun s hs a ha => by simp [Pc.count] at ha, by simp⟩
  | making st =>
    have hs : (w.pc i).stem = some st := by rw [hpc]; rfl
    obtain ⟨n, rfl⟩ := Gi.num st hs
    have hearly := Gi.early n (by rw [hpc]; rfl) hs
    have hnum : HasNumber p (sp p n) n := by simpa using num_sp p n [] (by simp)
    have hnot : sp p n ∉ w.fs.tops := fun h => hearly _ h hnum
    have e : stepJob (jobs i) (Pc.making (sp p n)) w.fs = (.ready (sp p n) 0, w.fs.mkdir (sp p n)) := by simp [stepJob, hnot]
    rw [e]
    have hcr := Gi.folder _ hpc
    have htops : ∀ nm ∈ (w.fs.mkdir (sp p n)).tops, nm = sp p n ∨ nm ∈ w.fs.tops := fun nm h => List.mem_cons.1 h
    have F : Frame p n w.fs (w.fs.mkdir (sp p n)) := by
      refine ⟨fun nm h => List.mem_cons_of_mem _ h, fun nm h => ?_, fun d => ?_, fun d h => ?_, fun q => Or.inl rfl⟩
      · rcases htops nm h with rfl | h
        · exact Or.inr hnum
        · exact Or.inl h
      · by_cases hd : d = sp p n
        · subst hd; exact Or.inr hnum
        · exact Or.inl (by simp [FS.mkdir, hd])
      · simp only [FS.mkdir]; split_ifs <;> simp [h]
    have L : Spec.Listed (w.fs.mkdir (sp p n)) := by
      refine ⟨fun d h => ?_, fun f c h => List.mem_cons_of_mem _ (I.listed.files f c h), fun d f c h => List.mem_cons_of_mem _ (I.listed.subs d f c h)⟩
      by_cases hd : d = sp p n
      · subst hd; exact List.mem_cons_self
      · exact List.mem_cons_of_mem _ (I.listed.dirs d (by simpa [FS.mkdir, hd] using h))
    refine inv_set J L0 I hs F L (Or.inl rfl) ?_
    rw [hpc] at Gi
    refine ⟨by simp, by simp, Gi.num, fun s hs' hw => ?_, fun m hm nm h1 h2 => ?_, by simp [Pc.early], fun s _ _ hs' => ?_, by simp [hcr], Gi.fresh,
      fun s hs' a ha => by simp [Pc.count] at ha, by simp⟩
    · simp only [Pc.stem, Option.some.injEq] at hs'
      subst hs'
      exact ⟨_, List.mem_cons_self, Or.inl ⟨hcr, rfl⟩⟩
    · rcases htops nm h1 with rfl | h1
      · simp only [Pc.stem, Option.some.injEq] at hm
        exact Or.inl ⟨hcr, hm⟩
      · exact Gi.tops m hm nm h1 h2
    · simp only [Pc.stem, Option.some.injEq] at hs'
      subst hs'
      simp [FS.mkdir]
  | ready st k =>
    have hs : (w.pc i).stem = some st := by rw [hpc]; rfl
    obtain ⟨n, rfl⟩ := Gi.num st hs
    cases hf : (jobs i).files[k]? with
    | none =>
      have e : stepJob (jobs i) (Pc.ready (sp p n) k) w.fs = (Pc.ready (sp p n) k, w.fs) := by simp [stepJob, hf]
      rw [e, ← hpc, same]; exact I
    | some f =>
      have hfm := List.mem_of_getElem? hf
      have hown := own_path (jobs i) (sp p n) hfm
      have hqn := own_num J hown
      set q := pathOf (jobs i).create (sp p n) f.1 with hq
      have hopen : w.fs.openable q = true := by
        cases hcr : (jobs i).create with
        | true =>
          have : q = .sub (sp p n) (sp p n ++ f.1) := by rw [hq, hcr]; rfl
          rw [this]
          exact Gi.dir _ hcr (by rw [hpc]; rfl) hs
        | false =>
          have : q = .top (sp p n ++ f.1) := by rw [hq, hcr]; rfl
          rw [this]
          simp [FS.openable, Gi.nodir _ hcr hs f hfm]
      have e : stepJob (jobs i) (Pc.ready (sp p n) k) w.fs = (Pc.opened (sp p n) k, w.fs.open q) := by
        simp only [stepJob, hf, ← hq, hopen, if_true]
      rw [e]
      have hdirs : (w.fs.open q).isDir = w.fs.isDir := by cases q <;> rfl
      have hfile : ∀ r, (w.fs.open q).file r = if r = q then some [] else w.fs.file r := by intro r; cases q <;> rfl
      have hFL : Frame p n w.fs (w.fs.open q) ∧ Spec.Listed (w.fs.open q) ∧ topName q ∈ (w.fs.open q).tops ∧
          ∀ nm ∈ (w.fs.open q).tops, nm ∈ w.fs.tops ∨ nm = topName q := by
        cases hqq : q with
        | top g =>
          rw [hqq] at hqn
          refine ⟨(frame_addTop w.fs g hqn).trans (frame_put _ _ _ hqn), listed_put (listed_addTop I.listed g) _ _ (mem_addTop _ _), mem_addTop _ _,
            fun nm h => ?_⟩
          have h' : nm ∈ (w.fs.addTop g).tops := h
          unfold FS.addTop at h'; dsimp only at h'
          split_ifs at h'
          · exact Or.inl h'
          · exact (List.mem_cons.1 h').symm
        | sub d g =>
          rw [hqq] at hqn hopen
          exact ⟨frame_put _ _ _ hqn, listed_put I.listed _ _ (I.listed.dirs d hopen), I.listed.dirs d hopen, fun nm h => Or.inl h⟩
      obtain ⟨F, L, hin, hnew⟩ := hFL
      refine inv_set J L0 I hs F L (Or.inl rfl) ?_
      rw [hpc] at Gi
      have hst : ∀ s, (Pc.opened (sp p n) k).stem = some s → s = sp p n := fun s h => by simpa [Pc.stem] using h.symm
      refine ⟨by simp, by simp, Gi.num, fun s hs' _ => ?_, fun m hm nm h1 h2 => ?_, by simp [Pc.early], fun s hc _ hs' => ?_, fun s hc hs' => ?_, Gi.fresh,
        fun s hs' a ha g hg => ?_, fun s k' g hk' hg => ?_⟩
      · rw [hst s hs']; exact ⟨_, hin, hown⟩
      · rcases hnew nm h1 with h | h
        · exact Gi.tops m hm nm h h2
        · have := hst _ hm
          rw [this, h]; exact hown
      · rw [hdirs]; exact Gi.dir s hc rfl hs'
      · rw [hdirs]; exact Gi.nodir s hc hs'
      · have ha' : a < k := ha
        rw [hst s hs', hfile, if_neg (path_index (J.nodup i) (by omega) hg hf _)]
        exact Gi.written _ rfl a ha g hg
      · cases hk'
        rw [hf] at hg
        cases hg
        rw [hfile, if_pos rfl]
  | opened st k =>
    have hs : (w.pc i).stem = some st := by rw [hpc]; rfl
    obtain ⟨n, rfl⟩ := Gi.num st hs
    have hst : ∀ s k', (Pc.ready (sp p n) k').stem = some s → s = sp p n := fun s k' h => by simpa [Pc.stem] using h.symm
    cases hf : (jobs i).files[k]? with
    | none =>
      have e : stepJob (jobs i) (Pc.opened (sp p n) k) w.fs = (Pc.ready (sp p n) k, w.fs) := by simp [stepJob, hf]
      rw [e]
      refine inv_set J L0 I hs (Frame.refl _ _ _) I.listed (Or.inl rfl) ?_
      rw [hpc] at Gi
      exact ⟨by simp, by simp, Gi.num, fun s hs' _ => Gi.mark s hs' id, Gi.tops, by simp [Pc.early], Gi.dir, Gi.nodir, Gi.fresh, Gi.written, by simp⟩
    | some f =>
      have hown := own_path (jobs i) (sp p n) (List.mem_of_getElem? hf)
      have hqn := own_num J hown
      have hempty := Gi.empty (sp p n) k f hpc hf
      have hmark := Gi.mark (sp p n) hs (by rw [hpc]; exact id)
      set q := pathOf (jobs i).create (sp p n) f.1 with hq
      have e : stepJob (jobs i) (Pc.opened (sp p n) k) w.fs = (Pc.ready (sp p n) (k + 1), w.fs.put q f.2) := by
        simp [stepJob, hf, FS.write, ← hq, hempty]
      rw [e]
      have hqt : topName q ∈ w.fs.tops := by
        cases hqq : q with
        | top g => exact I.listed.files g [] (by rw [← hqq]; exact hempty)
        | sub d g => exact I.listed.subs d g [] (by rw [← hqq]; exact hempty)
      refine inv_set J L0 I hs (frame_put _ _ _ hqn) (listed_put I.listed _ _ hqt) (Or.inl rfl) ?_
      rw [hpc] at Gi
      refine ⟨by simp, by simp, Gi.num, fun s hs' _ => Gi.mark s hs' id, Gi.tops, by simp [Pc.early], Gi.dir, Gi.nodir, Gi.fresh,
        fun s hs' a ha g hg => ?_, by simp⟩
      have ha' : a < k + 1 := ha
      rw [hst s _ hs']
      by_cases hak : a = k
      · subst hak
        rw [hf] at hg
        cases hg
        simp [FS.put, hq]
      · have := path_index (J.nodup i) hak hg hf (sp p n)
        have h2 := Gi.written (sp p n) rfl a (by show a < k; omega) g hg
        simpa [FS.put, hq, this] using h2

theorem inv_crash {p : Name} {jobs : ℕ → Job} (J : Spec.Jobs p jobs) {fs0 : FS} (L0 : Spec.Listed fs0) {w : World} (I : Inv p jobs fs0 w) (i : ℕ) :
    Inv p jobs fs0 (exec jobs w (.crash i)) := by
  have Gi := I.good i
  show Inv p jobs fs0 (w.set i (crashJob (jobs i) (w.pc i), w.fs))
  have none : ∀ pc' : Pc, pc'.stem = none → (∀ e, pc' ≠ .failed e) → Inv p jobs fs0 (w.set i (pc', w.fs)) := by
    intro pc' h h'
    refine ⟨I.listed, I.oldTops, I.oldFiles, fun j => ?_, fun a b s hab k1 k2 => ?_⟩
    · by_cases hj : j = i
      · subst hj
        simp only [World.set, if_true]
        have n1 : ∀ s, pc' ≠ .making s := fun s e => (by rw [e] at h; cases h)
        have n2 : ∀ s k, pc' ≠ .opened s k := fun s k e => (by rw [e] at h; cases h)
        refine ⟨h', fun s e => absurd e (n1 s), ?_, ?_, ?_, ?_, ?_, ?_, ?_, ?_, fun s k f e => absurd e (n2 s k)⟩ <;> simp [h]
      · have : (w.set i (pc', w.fs)).pc j = w.pc j := by simp [World.set, hj]
        rw [this]; exact I.good j
    · by_cases ha : a = i
      · subst ha; simp [World.set, h] at k1
      · by_cases hb : b = i
        · subst hb; simp [World.set, h] at k2
        · simp only [World.set, if_neg ha, if_neg hb] at k1 k2
          exact I.uniq a b s hab k1 k2
  cases hpc : w.pc i with
  | failed e => exact absurd hpc (Gi.ok e)
  | gone => exact none _ rfl (by simp [crashJob])
  | idle => exact none _ rfl (by simp [crashJob])
  | picked st => exact none _ rfl (by simp [crashJob])
  | making st => exact none _ rfl (by simp [crashJob])
  | dead st k =>
    have hs : (w.pc i).stem = some st := by rw [hpc]; rfl
    obtain ⟨n, rfl⟩ := Gi.num st hs
    rw [hpc] at Gi
    exact inv_set J L0 I hs (Frame.refl _ _ _) I.listed (Or.inl rfl) Gi
  | opened st k =>
    have hs : (w.pc i).stem = some st := by rw [hpc]; rfl
    obtain ⟨n, rfl⟩ := Gi.num st hs
    rw [hpc] at Gi
    exact inv_set J L0 I hs (Frame.refl _ _ _) I.listed (Or.inl rfl)
      ⟨by simp [crashJob], by simp [crashJob], Gi.num, fun s hs' _ => Gi.mark s hs' id, Gi.tops, by simp [Pc.early, crashJob], Gi.dir, Gi.nodir, Gi.fresh, Gi.written,
        by simp [crashJob]⟩
  | ready st k =>
    have hs : (w.pc i).stem = some st := by rw [hpc]; rfl
    obtain ⟨n, rfl⟩ := Gi.num st hs
    by_cases hk : ((jobs i).create || decide (0 < k)) = true
    · have e : crashJob (jobs i) (.ready (sp p n) k) = .dead (sp p n) k := by simp only [crashJob]; rw [if_pos hk]
      rw [e]
      rw [hpc] at Gi
      refine inv_set J L0 I hs (Frame.refl _ _ _) I.listed (Or.inl rfl)
        ⟨by simp, by simp, Gi.num, fun s hs' _ => Gi.mark s hs' ?_, Gi.tops, by simp [Pc.early], Gi.dir, Gi.nodir, Gi.fresh, Gi.written, by simp⟩
      rintro ⟨h1, h2⟩
      simp [h1, h2] at hk
    · have e : crashJob (jobs i) (.ready (sp p n) k) = .gone := by simp only [crashJob]; rw [if_neg hk]
      rw [e]
      exact none _ rfl (by simp)

theorem inv_all {p : Name} {jobs : ℕ → Job} (J : Spec.Jobs p jobs) {fs0 : FS} (L0 : Spec.Listed fs0) (es : List SaveEvent) {w : World} (I : Inv p jobs fs0 w)
    (hc : Spec.Careful jobs w es) : Inv p jobs fs0 (execAll jobs w es) := by
  induction es generalizing w with
  | nil => exact I
  | cons e es ih =>
    refine ih (w := exec jobs w e) ?_ hc.2
    cases e with
    | step i => exact inv_step J L0 I i (hc.1 i rfl)
    | crash i => exact inv_crash J L0 I i

/-- **C240.**  Runs of one prefix that save into one directory, their operations interleaved in any way, any of them killed at any moment.  If no run
chooses its stem while another one has chosen and has not yet made its folder (or first file): no file that was there before changes, no run ends in
an exception, the stems of different runs differ, and a run that has saved its last file has all its files in the directory, with its own contents,
at the end of the schedule. -/
theorem C240_safe {p : Name} {jobs : ℕ → Job} (J : Spec.Jobs p jobs) {fs0 : FS} (L0 : Spec.Listed fs0) (es : List SaveEvent)
    (hc : Spec.Careful jobs (start fs0) es) :
    let w := execAll jobs (start fs0) es
    (∀ q c, fs0.file q = some c → w.fs.file q = some c) ∧
    (∀ i e, w.pc i ≠ .failed e) ∧
    (∀ i st, Spec.Finished (jobs i) (w.pc i) st → ∀ f ∈ (jobs i).files, w.fs.file (pathOf (jobs i).create st f.1) = some f.2) ∧
    ∀ i j st st', i ≠ j → Spec.Finished (jobs i) (w.pc i) st → Spec.Finished (jobs j) (w.pc j) st' → st ≠ st' := by
  intro w
  have I := inv_all J L0 es (inv_start J L0) hc
  have stem : ∀ i st, Spec.Finished (jobs i) (w.pc i) st → (w.pc i).stem = some st ∧ (w.pc i).count = (jobs i).files.length := by
    intro i st h
    rcases h with h | h <;> rw [h] <;> exact ⟨rfl, rfl⟩
  refine ⟨I.oldFiles, fun i e => (I.good i).ok e, fun i st h f hf => ?_, ?_⟩
  · obtain ⟨a, ha, e⟩ := List.mem_iff_getElem.1 hf
    exact (I.good i).written st (stem i st h).1 a (by rw [(stem i st h).2]; exact ha) f (by rw [List.getElem?_eq_getElem ha, e])
  · rintro i j st st' hij h1 h2 rfl
    exact I.uniq i j st hij (stem i st h1).1 (stem j st h2).1

/-- How far a run has come. -/
def Pc.rank : Pc → ℕ
  | .idle => 0
  | .picked _ => 1
  | .making _ => 2
  | .ready _ k => 3 + 2 * k
  | .opened _ k => 4 + 2 * k
  | _ => 0

def Alive : Pc → Prop
  | .failed _ => False
  | .gone => False
  | .dead _ _ => False
  | _ => True

theorem rank_step (j : Job) (pc : Pc) (fs : FS) (ha : Alive pc) (hf : ∀ e, (stepJob j pc fs).1 ≠ .failed e)
    (hb : (pc.stem ≠ none → pc.count ≤ j.files.length) ∧ ∀ s k, pc = .opened s k → k < j.files.length) :
    Alive (stepJob j pc fs).1 ∧ ((stepJob j pc fs).1.count ≤ j.files.length ∧ ∀ s k, (stepJob j pc fs).1 = .opened s k → k < j.files.length) ∧
      (pc.rank + 1 ≤ (stepJob j pc fs).1.rank ∨ ∃ s, (stepJob j pc fs).1 = .ready s j.files.length) := by
  cases pc with
  | failed e => exact ha.elim
  | gone => exact ha.elim
  | dead s k => exact ha.elim
  | idle =>
    simp only [stepJob] at hf ⊢
    rcases h : nextOutputStem j.pre (some fs.tops) 1 1 4 j.overwrite with _ | (e | st)
    · rw [h] at hf; exact absurd rfl (hf _)
    · rw [h] at hf; exact absurd rfl (hf e)
    · simp [Alive, Pc.count, Pc.rank]
  | picked st =>
    simp only [stepJob] at hf ⊢
    split_ifs <;> simp [Alive, Pc.count, Pc.rank]
  | making st =>
    simp only [stepJob] at hf ⊢
    split_ifs at hf ⊢
    · exact absurd rfl (hf _)
    · simp [Alive, Pc.count, Pc.rank]
  | ready st k =>
    have hk : k ≤ j.files.length := hb.1 (by simp [Pc.stem])
    simp only [stepJob] at hf ⊢
    cases h : j.files[k]? with
    | none =>
      have : k = j.files.length := by
        have := List.getElem?_eq_none_iff.1 h
        omega
      simp [Alive, Pc.count, this]
    | some f =>
      have hlt : k < j.files.length := (List.getElem?_eq_some_iff.1 h).1
      rw [h] at hf
      dsimp only at hf ⊢
      split_ifs at hf ⊢
      · simp only [Alive, Pc.count, Pc.rank, Pc.opened.injEq, true_and]
        exact ⟨⟨by omega, by rintro s k' ⟨_, rfl⟩; exact hlt⟩, Or.inl (by omega)⟩
      · exact absurd rfl (hf _)
  | opened st k =>
    have hlt := hb.2 st k rfl
    simp only [stepJob] at hf ⊢
    cases h : j.files[k]? with
    | none =>
      have := List.getElem?_eq_none_iff.1 h
      omega
    | some f =>
      simp only [Alive, Pc.count, Pc.rank, true_and]
      exact ⟨⟨by omega, by simp⟩, Or.inl (by omega)⟩

/-- **C240, progress.**  In such a schedule a run that is not killed and gets `3 + 2n` of its operations done, `n` its number of files, has saved
everything. -/
theorem C240_progress {p : Name} {jobs : ℕ → Job} (J : Spec.Jobs p jobs) {fs0 : FS} (L0 : Spec.Listed fs0) (es : List SaveEvent)
    (hc : Spec.Careful jobs (start fs0) es) (i : ℕ) (hi : .crash i ∉ es) (hn : 3 + 2 * (jobs i).files.length ≤ es.count (.step i)) :
    ∃ st, Spec.Finished (jobs i) ((execAll jobs (start fs0) es).pc i) st := by
  have key : ∀ (es : List SaveEvent) (w : World), Inv p jobs fs0 w → Spec.Careful jobs w es → .crash i ∉ es → Alive (w.pc i) →
      ((w.pc i).count ≤ (jobs i).files.length ∧ ∀ s k, w.pc i = .opened s k → k < (jobs i).files.length) → ∀ m,
      (m ≤ (w.pc i).rank ∨ ∃ s, w.pc i = .ready s (jobs i).files.length) →
      (m + es.count (.step i) ≤ ((execAll jobs w es).pc i).rank ∨ ∃ s, (execAll jobs w es).pc i = .ready s (jobs i).files.length) ∧
      ((execAll jobs w es).pc i).count ≤ (jobs i).files.length ∧
      ∀ s k, (execAll jobs w es).pc i = .opened s k → k < (jobs i).files.length := by
    intro es
    induction es with
    | nil => intro w I _ _ _ hb m hm; exact ⟨by simpa [execAll] using hm, hb⟩
    | cons e es ih =>
      intro w I hc hi ha hb m hm
      have I' : Inv p jobs fs0 (exec jobs w e) := inv_all J L0 [e] I ⟨hc.1, trivial⟩
      have hi' : .crash i ∉ es := fun h => hi (List.mem_cons_of_mem _ h)
      by_cases he : e = .step i
      · subst he
        have epc : (exec jobs w (.step i)).pc i = (stepJob (jobs i) (w.pc i) w.fs).1 := by simp [exec, World.set]
        obtain ⟨r1, r2, r3⟩ := rank_step (jobs i) (w.pc i) w.fs ha (by rw [← epc]; exact (I'.good i).ok) ⟨fun _ => hb.1, hb.2⟩
        rw [← epc] at r1 r2 r3
        have := ih _ I' hc.2 hi' r1 r2 (m + 1) (by
          rcases r3 with h | h
          · rcases hm with h' | ⟨s, h'⟩
            · exact Or.inl (by omega)
            · refine Or.inr ⟨s, ?_⟩
              rw [epc, h']
              simp [stepJob]
          · exact Or.inr h)
        rw [List.count_cons_self]
        show (_ ≤ ((execAll jobs (exec jobs w (.step i)) es).pc i).rank ∨ _) ∧ _
        have e1 : m + (es.count (.step i) + 1) = m + 1 + es.count (.step i) := by omega
        rw [e1]
        exact this
      · have epc : (exec jobs w e).pc i = w.pc i := by
          cases e with
          | step l =>
            have : i ≠ l := by rintro rfl; exact he rfl
            simp [exec, World.set, this]
          | crash l =>
            have : i ≠ l := by rintro rfl; exact hi List.mem_cons_self
            simp [exec, World.set, this]
        have := ih _ I' hc.2 hi' (by rw [epc]; exact ha) (by rw [epc]; exact hb) m (by rw [epc]; exact hm)
        rw [List.count_cons_of_ne (fun h => he h)]
        exact this
  obtain ⟨k1, k2, k3⟩ := key es (start fs0) (inv_start J L0) hc hi trivial ⟨by simp [start, Pc.count], by simp [start]⟩ 0 (Or.inl (Nat.zero_le _))
  rcases k1 with h | ⟨s, h⟩
  · cases hpc : (execAll jobs (start fs0) es).pc i with
    | ready s k =>
      rw [hpc] at h k2
      simp only [Pc.rank, Pc.count] at h k2
      exact ⟨s, Or.inl (by rw [show k = (jobs i).files.length by omega])⟩
    | opened s k =>
      have := k3 s k hpc
      rw [hpc] at h
      simp only [Pc.rank] at h
      omega
    | _ => rw [hpc] at h; simp only [Pc.rank] at h; omega
  · exact ⟨s, Or.inl h⟩

theorem execAll_append (jobs : ℕ → Job) (w : World) (a b : List SaveEvent) : execAll jobs w (a ++ b) = execAll jobs (execAll jobs w a) b :=
  List.foldl_append

theorem careful_append (jobs : ℕ → Job) (a b : List SaveEvent) (w : World) (h1 : Spec.Careful jobs w a) (h2 : Spec.Careful jobs (execAll jobs w a) b) :
    Spec.Careful jobs w (a ++ b) := by
  induction a generalizing w with
  | nil => exact h2
  | cons e a ih => exact ⟨h1.1, ih _ h1.2 h2⟩

theorem careful_block (jobs : ℕ → Job) (i k : ℕ) (w : World) (h : ∀ j, j ≠ i → ¬ Spec.InWindow (jobs j) (w.pc j)) :
    Spec.Careful jobs w (List.replicate k (.step i) ++ [.crash i]) ∧
      ∀ j, (j = i → ¬ Spec.InWindow (jobs j) ((execAll jobs w (List.replicate k (.step i) ++ [.crash i])).pc j)) ∧
        (j ≠ i → (execAll jobs w (List.replicate k (.step i) ++ [.crash i])).pc j = w.pc j) := by
  induction k generalizing w with
  | zero =>
    refine ⟨⟨fun l e => (by cases e), trivial⟩, fun j => ⟨?_, fun hj => by simp [execAll, exec, World.set, hj]⟩⟩
    rintro rfl
    show ¬ Spec.InWindow (jobs j) ((exec jobs w (.crash j)).pc j)
    simp only [exec, World.set, if_true]
    cases w.pc j with
    | ready s k => simp only [crashJob]; split_ifs <;> exact id
    | _ => exact id
  | succ k ih =>
    have hset : ∀ j, j ≠ i → (exec jobs w (.step i)).pc j = w.pc j := fun j hj => by simp [exec, World.set, hj]
    obtain ⟨h1, h2⟩ := ih (exec jobs w (.step i)) (fun j hj => by rw [hset j hj]; exact h j hj)
    refine ⟨⟨fun l e hl j => ?_, h1⟩, fun j => ⟨(h2 j).1, fun hj => ?_⟩⟩
    · cases e
      by_cases hj : j = i
      · subst hj; rw [hl]; exact id
      · exact h j hj
    · have := (h2 j).2 hj
      rw [hset j hj] at this
      exact this

/-- **C240, one run after the other.**  Any history of runs, each killed after any number of operations, is such a schedule: so runs one after the
other, whatever crashes, never damage a file. -/
theorem C240_one_by_one (jobs : ℕ → Job) (fs0 : FS) (l : List (ℕ × ℕ)) : Spec.Careful jobs (start fs0) (Spec.oneByOne l) := by
  have key : ∀ (l : List (ℕ × ℕ)) (w : World), (∀ j, ¬ Spec.InWindow (jobs j) (w.pc j)) → Spec.Careful jobs w (Spec.oneByOne l) := by
    intro l
    induction l with
    | nil => intro w _; trivial
    | cons ik l ih =>
      intro w h
      obtain ⟨h1, h2⟩ := careful_block jobs ik.1 ik.2 w fun j _ => h j
      refine careful_append jobs _ _ w h1 (ih _ fun j => ?_)
      by_cases hj : j = ik.1
      · exact (h2 j).1 hj
      · rw [(h2 j).2 hj]; exact h j
  exact key l _ fun j => id

/-- Two runs with the default prefix that save their parsed input. -/
def twoRuns (i : ℕ) : Job :=
  ⟨"out".toList, true, false, [("_input_parsed.py".toList, if i = 0 then "a = 1".toList else "a = 22".toList)]⟩

/-- An empty directory. -/
def emptyDir : FS := { tops := [], isDir := fun _ => false, file := fun _ => none }

/-- **C240, the condition is needed.**  Two runs of the same prefix at the same time: when both look at the directory before either has made its folder
they get the same stem; then, depending on the order of the next operations, both report success and the output of one is gone, or the other one ends
in `FileExistsError`. -/
theorem C240_negation_race :
    (let w := execAll twoRuns (start emptyDir) [.step 0, .step 1, .step 0, .step 0, .step 0, .step 0, .step 1, .step 1, .step 1];
      (Spec.Finished (twoRuns 0) (w.pc 0) "out0001".toList ∧ Spec.Finished (twoRuns 1) (w.pc 1) "out0001".toList) ∧
      w.fs.file (.sub "out0001".toList "out0001_input_parsed.py".toList) = some "a = 22".toList) ∧
    (execAll twoRuns (start emptyDir) [.step 0, .step 1, .step 0, .step 1, .step 0, .step 1]).pc 1 = .failed .osError := by
  unfold Spec.Finished
  decide +kernel

/-- **C240, overwriting.**  With `overwrite` a run takes the number of the latest output; what it does not write itself stays, so the folder may end
up with files of two runs. -/
theorem C240_overwrite_mixes :
    let jobs : ℕ → Job := fun i =>
      if i = 0 then ⟨"out".toList, true, true, [("_input_parsed.py".toList, "a".toList), ("_por.csv".toList, "1".toList)]⟩
      else ⟨"out".toList, true, true, [("_input_parsed.py".toList, "b".toList)]⟩
    let w := execAll jobs (start emptyDir) (Spec.oneByOne [(0, 7), (1, 7)])
    w.fs.file (.sub "out0001".toList "out0001_input_parsed.py".toList) = some "b".toList ∧
    w.fs.file (.sub "out0001".toList "out0001_por.csv".toList) = some "1".toList := by
  decide +kernel

/-- **C240, names.**  The names that the saving routines append to the stem never begin with a digit, if the names of the data grids do not (`make_output`
uses `_data_...`) and the extension of the data files does not. -/
theorem C240_names (o : Output) (hg : ∀ g ∈ o.grids, ∀ c, g.1.head? = some c → isDig c = false)
    (he : ∀ c, o.dataExt.head? = some c → isDig c = false) :
    (∀ f ∈ dataFiles o, ∀ c, f.1.head? = some c → isDig c = false) ∧
    ∀ l, figureFiles o = .ok l → ∀ f ∈ l, ∀ c, f.1.head? = some c → isDig c = false := by
  have hu : isDig '_' = false := by decide
  have e1 : "_input_original".toList = '_' :: "input_original".toList := by decide +kernel
  have e2 : "_input_parsed".toList = '_' :: "input_parsed".toList := by decide +kernel
  have head : ∀ (x y : Name) c, ('_' :: x ++ y).head? = some c → isDig c = false := by
    intro x y c h
    cases h
    exact hu
  constructor
  · intro f hf c hc
    unfold dataFiles at hf
    split_ifs at hf
    · rw [List.mem_append, List.mem_append] at hf
      rcases hf with (hf | hf) | hf
      · obtain ⟨t, _, rfl⟩ := List.mem_map.1 hf
        dsimp only at hc
        rw [e1] at hc
        exact head _ _ c hc
      · obtain ⟨t, _, rfl⟩ := List.mem_map.1 hf
        dsimp only at hc
        rw [e2] at hc
        exact head _ _ c hc
      · obtain ⟨g, hgm, rfl⟩ := List.mem_map.1 hf
        dsimp only at hc
        cases h : g.1 with
        | nil => rw [h] at hc; exact he c hc
        | cons d t =>
          rw [h] at hc
          exact hg g hgm c (by rw [h]; exact hc)
    · cases hf
  · intro l hl f hf c hc
    unfold figureFiles at hl
    split_ifs at hl
    · cases h : o.figures with
      | none => rw [h] at hl; cases hl; cases hf
      | some x =>
        cases x with
        | one y => rw [h] at hl; cases hl
        | list xs =>
          rw [h] at hl
          cases hl
          obtain ⟨fi, _, rfl⟩ := List.mem_map.1 hf
          exact head _ _ c hc
    · cases hl; cases hf

/-- **C240, data.**  The files of `_save_data`: nothing unless asked for; otherwise the text of the input file and the parsed input, if there are any,
under their own names with the extension for input, and every data grid under its own name with the extension for data, and nothing else. -/
theorem C240_data (o : Output) :
    (o.saveData = false → dataFiles o = []) ∧
    (o.saveData = true → ∀ f, f ∈ dataFiles o ↔
      (∃ t, o.inputText = some t ∧ f = ("_input_original".toList ++ o.inputExt, t)) ∨
      (∃ t, o.parsedText = some t ∧ f = ("_input_parsed".toList ++ o.inputExt, t)) ∨
      ∃ nm t, (nm, t) ∈ o.grids ∧ f = (nm ++ o.dataExt, t)) := by
  refine ⟨fun h => by unfold dataFiles; rw [h]; rfl, fun h f => ?_⟩
  unfold dataFiles
  rw [h, if_pos rfl, List.mem_append, List.mem_append, List.mem_map, List.mem_map, List.mem_map, or_assoc]
  refine or_congr ?_ (or_congr ?_ ?_)
  · simp only [Option.mem_toList, eq_comm]
  · simp only [Option.mem_toList, eq_comm]
  · exact ⟨fun ⟨g, h, e⟩ => ⟨g.1, g.2, h, e.symm⟩, fun ⟨nm, t, h, e⟩ => ⟨(nm, t), h, e.symm⟩⟩

/-- Both inputs and one grid. -/
example : dataFiles ⟨true, some "H=1".toList, some "H = 1.0".toList, ".py".toList, [("_por".toList, "0,1".toList)], ".csv".toList, false, none, ".eps".toList⟩ =
    [("_input_original.py".toList, "H=1".toList), ("_input_parsed.py".toList, "H = 1.0".toList), ("_por.csv".toList, "0,1".toList)] := by decide +kernel

/-- **C240, figures.**  A list of figures is saved under the labels, in order, the unlabelled ones under their number in the list; a single figure,
which the code means to accept, is a `TypeError`; nothing is saved unless asked for. -/
theorem C240_figures (o : Output) :
    (o.saveFigures = false → figureFiles o = .ok []) ∧
    (o.saveFigures = true → ∀ f, o.figures = some (.one f) → figureFiles o = .error .typeError) ∧
    (o.saveFigures = true → ∀ l, o.figures = some (.list l) → ∃ out, figureFiles o = .ok out ∧ out.length = l.length ∧
      ∀ i (hi : i < l.length), ∃ nm, out[i]? = some ('_' :: nm ++ o.figureExt, l[i].2) ∧
        (l[i].1 ≠ [] → nm = l[i].1) ∧ (l[i].1 = [] → nm = "Figure_".toList ++ zfillInt 2 (i:ℤ))) := by
  refine ⟨fun h => ?_, fun h f hf => ?_, fun h l hl => ?_⟩
  · unfold figureFiles; rw [h]; rfl
  · unfold figureFiles; rw [h, hf]; rfl
  · refine ⟨l.zipIdx.map fun fi => (['_'] ++ (if 0 < fi.1.1.length then fi.1.1 else "Figure_".toList ++ zfillInt 2 (fi.2 : ℤ)) ++ o.figureExt, fi.1.2), ?_, ?_,
      fun i hi => ⟨if 0 < l[i].1.length then l[i].1 else "Figure_".toList ++ zfillInt 2 (i:ℤ), ?_, fun h => ?_, fun h => ?_⟩⟩
    · unfold figureFiles; rw [h, hl]; rfl
    · rw [List.length_map, List.length_zipIdx]
    · rw [List.getElem?_map, List.getElem?_zipIdx, List.getElem?_eq_getElem hi, Option.map_some, Option.map_some, Nat.zero_add]
      rfl
    · rw [if_pos (List.length_pos_iff.2 h)]
    · rw [if_neg (by rw [h]; exact lt_irrefl _)]

/-! ### The hypotheses are met -/

/-- A directory with an older output. -/
def oldDir : FS :=
  { tops := ["out0007".toList, "notes.txt".toList], isDir := fun d => d == "out0007".toList,
    file := fun q => if q = .sub "out0007".toList "out0007_por.csv".toList then some "0,1".toList else
      if q = .top "notes.txt".toList then some "keep".toList else none }

theorem oldDir_listed : Spec.Listed oldDir := by
  refine ⟨fun d h => ?_, fun f c h => ?_, fun d f c h => ?_⟩
  · have e : d = "out0007".toList := eq_of_beq h
    rw [e]; exact List.mem_cons_self
  · unfold oldDir at h
    dsimp only at h
    rw [if_neg (by simp only [reduceCtorEq, not_false_eq_true])] at h
    split_ifs at h with h2
    rw [Path.top.inj h2]; exact List.mem_cons_of_mem _ List.mem_cons_self
  · unfold oldDir at h
    dsimp only at h
    split_ifs at h with h1 h2
    · rw [(Path.sub.inj h1).1]; exact List.mem_cons_self
    · cases h2

theorem twoRuns_jobs : Spec.Jobs "out".toList twoRuns := by
  refine ⟨?_, fun _ => rfl, fun _ => rfl, fun _ => List.cons_ne_nil _ _, fun i f hf c hc => ?_, fun i => List.nodup_singleton _⟩
  · intro c hc; revert c; decide +kernel
  · have e : f = _ := List.mem_singleton.1 hf
    rw [e] at hc
    dsimp only at hc
    rw [show "_input_parsed.py".toList = '_' :: "input_parsed.py".toList by decide +kernel] at hc
    cases hc
    decide

/-- Run 0 is killed while it writes, run 1 is interleaved with run 2 after having made its folder; both have their output at the end, and the older
output is there. -/
example : let es := [SaveEvent.step 0, .step 0, .step 0, .step 0, .crash 0, .step 1, .step 1, .step 1, .step 2, .step 1, .step 2, .step 2, .step 1,
      .step 2, .step 2]
    Spec.Careful twoRuns (start oldDir) es ∧ (execAll twoRuns (start oldDir) es).pc 2 = .ready "out0010".toList 1 ∧
    (execAll twoRuns (start oldDir) es).fs.file (.sub "out0009".toList "out0009_input_parsed.py".toList) = some "a = 22".toList ∧
    (execAll twoRuns (start oldDir) es).fs.file (.top "notes.txt".toList) = some "keep".toList := by
  intro es
  have a0 : ∀ k, 3 ≤ k → (start oldDir).pc k = .idle := fun _ _ => rfl
  refine ⟨?_, by decide +kernel, by decide +kernel, by decide +kernel⟩
  have far : ∀ (es : List SaveEvent) (w : World), (∀ k, 3 ≤ k → w.pc k = .idle) → (∀ e ∈ es, ∃ i < 3, e = .step i ∨ e = .crash i) →
      (∀ n, n < es.length → ∀ i < 3, es[n]? = some (.step i) → (execAll twoRuns w (es.take n)).pc i = .idle →
        ∀ j < 3, ¬ Spec.InWindow (twoRuns j) ((execAll twoRuns w (es.take n)).pc j)) → Spec.Careful twoRuns w es := by
    intro es
    induction es with
    | nil => intro _ _ _ _; trivial
    | cons e es ih =>
      intro w hw he hn
      refine ⟨fun i hi hidle j => ?_, ih _ (fun k hk => ?_) (fun e' h' => he e' (List.mem_cons_of_mem _ h')) fun n hl i hi h1 h2 j hj => ?_⟩
      · subst hi
        by_cases hj : j < 3
        · obtain ⟨i', hi', h | h⟩ := he (.step i) (by simp)
          · cases h
            exact hn 0 (by simp) i hi' rfl hidle j hj
          · cases h
        · rw [hw j (by omega)]; exact id
      · obtain ⟨i', hi', h | h⟩ := he e (by simp)
        · subst h
          have : k ≠ i' := by omega
          simp [exec, World.set, this, hw k hk]
        · subst h
          have : k ≠ i' := by omega
          simp [exec, World.set, this, hw k hk]
      · exact hn (n + 1) (by simpa using hl) i hi (by simpa using h1) (by simpa [execAll] using h2) j hj
  refine far es _ a0 (by decide) ?_
  have dec : ∀ j pc, (¬ Spec.InWindow (twoRuns j) pc) ↔ pc.early = false := by
    intro j pc
    cases pc <;> simp [Spec.InWindow, Pc.early, twoRuns]
  simp only [dec]
  decide +kernel

/-- One after the other, the first killed in the middle of writing. -/
example : ∃ st, Spec.Finished (twoRuns 1) ((execAll twoRuns (start oldDir) (Spec.oneByOne [(0, 4), (1, 9)])).pc 1) st ∧
    ∀ q c, oldDir.file q = some c → (execAll twoRuns (start oldDir) (Spec.oneByOne [(0, 4), (1, 9)])).fs.file q = some c :=
  ⟨"out0009".toList, Or.inr (by decide +kernel), (C240_safe twoRuns_jobs oldDir_listed _ (C240_one_by_one _ _ _)).1⟩

end Geotecha.IO.Saving
