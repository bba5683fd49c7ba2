import Verif.Transform.ModelMulti
import Mathlib.Data.List.Basic
import Mathlib.Tactic.Linarith
import Mathlib.Tactic.NormNum

/-!
# C124: transforms over several variables
-/

set_option linter.unusedVariables false
namespace Geotecha.Transform
open Geotecha (PyErr)
open Spec (nested nestedErrs IsMaxAbs)

variable {Opt : Type}

theorem nested_snoc (Ss : List (List ℂ → Strat)) (S : List ℂ → Strat) (f : List ℂ → ℂ) (args : List ℂ) :
    nested (Ss ++ [S]) f args = Spec.Strat.value (S args) fun x => nested Ss f (x :: args) := by
  induction Ss generalizing f with
  | nil => rfl
  | cons T Ts ih =>
    show nested (Ts ++ [S]) _ args = _
    rw [ih]
    rfl

theorem nestedErrs_snoc (Ss : List (List ℂ → Strat)) (S : List ℂ → Strat) (f : List ℂ → ℂ) (E : List ℂ → List ℝ) (args : List ℂ) :
    nestedErrs (Ss ++ [S]) f E args = Spec.Strat.err (S args) (fun x => nested Ss f (x :: args)) ::
        (Spec.Strat.asked (S args) fun x => nested Ss f (x :: args)).flatMap fun x => nestedErrs Ss f E (x :: args) := by
  induction Ss generalizing f E with
  | nil => rfl
  | cons T Ts ih =>
    show nestedErrs (Ts ++ [S]) _ _ args = _
    rw [ih]
    rfl

/-- Largest absolute value in a list, starting from `s`. -/
noncomputable def maxFrom (s : ℝ) (l : List ℝ) : ℝ := l.foldl (fun m e => max m |e|) s

theorem maxFrom_append (s : ℝ) (l m : List ℝ) : maxFrom s (l ++ m) = maxFrom (maxFrom s l) m := List.foldl_append

theorem maxFrom_max (s r : ℝ) (l : List ℝ) : maxFrom (max s r) l = max (maxFrom s l) r := by
  induction l generalizing s with
  | nil => rfl
  | cons a l ih =>
    show maxFrom (max (max s r) |a|) l = max (maxFrom (max s |a|) l) r
    rw [← ih, max_right_comm]

theorem maxFrom_cons (s e : ℝ) (l : List ℝ) : maxFrom s (e :: l) = max (maxFrom s l) |e| := maxFrom_max s |e| l

theorem maxFrom_spec (s : ℝ) (l : List ℝ) : s ≤ maxFrom s l ∧ (∀ e ∈ l, |e| ≤ maxFrom s l) ∧ (maxFrom s l = s ∨ ∃ e ∈ l, maxFrom s l = |e|) := by
  induction l generalizing s with
  | nil => exact ⟨le_rfl, by simp, .inl rfl⟩
  | cons a l ih =>
    obtain ⟨h1, h2, h3⟩ := ih s
    rw [maxFrom_cons]
    refine ⟨h1.trans (le_max_left _ _), ?_, ?_⟩
    · intro e he
      rcases List.mem_cons.1 he with rfl | he
      · exact le_max_right _ _
      · exact (h2 e he).trans (le_max_left _ _)
    · rcases le_total (maxFrom s l) |a| with h | h
      · exact .inr ⟨a, by simp, max_eq_right h⟩
      · rw [max_eq_left h]
        rcases h3 with h3 | ⟨e, he, h3⟩
        · exact .inl h3
        · exact .inr ⟨e, by simp [he], h3⟩

theorem isMaxAbs_maxFrom (l : List ℝ) : IsMaxAbs l (maxFrom 0 l) := by
  obtain ⟨h1, h2, h3⟩ := maxFrom_spec 0 l
  refine ⟨h2, ?_⟩
  rcases h3 with h3 | h3
  · cases l with
    | nil => exact .inl ⟨rfl, rfl⟩
    | cons a l =>
      refine .inr ⟨a, by simp, ?_⟩
      have := h2 a (by simp)
      have := abs_nonneg a
      linarith
  · exact .inr h3

theorem runStrat_pure (g : ℂ → ℂ) (E : ℂ → List ℝ) (f : ℂ → ℝ → Except PyErr (ℂ × ℝ)) (hf : ∀ x s, f x s = .ok (g x, maxFrom s (E x)))
    (S : Strat) (s : ℝ) :
    runStrat f S s = .ok (Spec.Strat.value S g, Spec.Strat.err S g, maxFrom s ((Spec.Strat.asked S g).flatMap E)) := by
  induction S generalizing s with
  | done v e => rfl
  | ask x k ih =>
    unfold runStrat
    rw [hf]
    dsimp only
    rw [ih]
    show _ = Except.ok (Spec.Strat.value (k (g x)) g, Spec.Strat.err (k (g x)) g, maxFrom s ((x :: Spec.Strat.asked (k (g x)) g).flatMap E))
    rw [List.flatMap_cons, maxFrom_append]

theorem fromEnd_ok {α : Type} (l : List α) (d : ℕ) (x : α) (hd : d < l.length) (hx : l[l.length - 1 - d]? = some x) : fromEnd l d = .ok x := by
  unfold fromEnd
  rw [List.getElem?_reverse hd, hx]

/-- Strategy of the `i`-th transform. -/
def stratAt (trans : Kind → Opt → ℂ → Strat) (kinds : List Kind) (tvars : List ℂ) (fns : List (List ℂ → Opt)) : List (List ℂ → Strat) :=
  List.zipWith (fun (p : Kind × ℂ) fn => fun args => trans p.1 (fn args) p.2) (kinds.zip tvars) fns

theorem level_ok (trans : Kind → Opt → ℂ → Strat) (func : List ℂ → ℂ) (names : List String) (tvars : List ℂ) (kinds : List Kind)
    (fns : List (List ℂ → Opt)) (hk : names.map tdict = kinds.map Except.ok) (ht : tvars.length = names.length) (hf : fns.length = names.length)
    (rem : ℕ) (h0 : 0 < rem) (hr : rem ≤ names.length) (args : List ℂ) (s : ℝ) :
    level trans func names tvars (fns.map .callable) rem (names.length - rem) args s =
      .ok (nested ((stratAt trans kinds tvars fns).take rem) func args,
        maxFrom s (nestedErrs ((stratAt trans kinds tvars fns).take rem) func (fun _ => []) args)) := by
  have hkl : kinds.length = names.length := by
    have := congrArg List.length hk
    simpa using this.symm
  induction rem generalizing args s with
  | zero => omega
  | succ r ih =>
    obtain ⟨fn, hfn⟩ : ∃ x, fns[r]? = some x := ⟨_, List.getElem?_eq_getElem (by omega)⟩
    obtain ⟨tv, htv⟩ : ∃ x, tvars[r]? = some x := ⟨_, List.getElem?_eq_getElem (by omega)⟩
    obtain ⟨nm, hnm⟩ : ∃ x, names[r]? = some x := ⟨_, List.getElem?_eq_getElem (by omega)⟩
    obtain ⟨kd, hkd⟩ : ∃ x, kinds[r]? = some x := ⟨_, List.getElem?_eq_getElem (by omega)⟩
    have hd : names.length - 1 - (names.length - (r + 1)) = r := by omega
    have e1 : fromEnd names (names.length - (r + 1)) = .ok nm := fromEnd_ok _ _ _ (by omega) (by rw [hd]; exact hnm)
    have e2 : tdict nm = .ok kd := by
      have := congrArg (fun l => l[r]?) hk
      simp only [List.getElem?_map, hnm, hkd, Option.map_some] at this
      exact Option.some.inj this
    have e3 : fromEnd tvars (names.length - (r + 1)) = .ok tv := fromEnd_ok _ _ _ (by omega) (by rw [ht, hd]; exact htv)
    have e4 : fromEnd (fns.map OptFn.callable) (names.length - (r + 1)) = .ok (.callable fn) :=
      fromEnd_ok _ _ _ (by simp; omega) (by rw [List.length_map, hf, hd, List.getElem?_map, hfn]; rfl)
    have hS : (stratAt trans kinds tvars fns)[r]? = some fun args => trans kd (fn args) tv := by
      unfold stratAt
      rw [List.getElem?_zipWith, (List.getElem?_zip_eq_some (z := (kd, tv))).2 ⟨hkd, htv⟩, hfn]
    have htake : (stratAt trans kinds tvars fns).take (r + 1) = (stratAt trans kinds tvars fns).take r ++ [fun args => trans kd (fn args) tv] := by
      rw [List.take_add_one, hS]
      rfl
    rw [htake, nested_snoc, nestedErrs_snoc]
    unfold level
    simp only [Bind.bind, Except.bind, e1, e2, e3, e4, callOpt]
    rw [runStrat_pure (fun x => nested ((stratAt trans kinds tvars fns).take r) func (x :: args))
      (fun x => nestedErrs ((stratAt trans kinds tvars fns).take r) func (fun _ => []) (x :: args))]
    · dsimp only
      rw [maxFrom_cons]
      rfl
    · intro x s
      by_cases hr0 : r = 0
      · subst hr0
        rfl
      · rw [if_neg hr0]
        have hh : names.length - (r + 1) + 1 = names.length - r := by omega
        rw [hh, ih (by omega) (by omega)]

/-- The function the code calls for the options of one transform. -/
def itemFn : OptItem Opt → List ℂ → Opt
  | .dict o => fun _ => o
  | .fn g => g

/-- With a sequence of options (dicts or functions), one for each transform, the result is that of the transforms carried out one after the
other, the first in the list over the first argument of the function, and the error is the largest error estimate of any transform run. -/
theorem C124_value (trans : Kind → Opt → ℂ → Strat) (e : Opt) (func : List ℂ → ℂ) (names : List String) (tvars : List ℂ) (kinds : List Kind)
    (opts : List (OptItem Opt)) (hk : names.map tdict = kinds.map Except.ok) (ht : tvars.length = names.length)
    (ho : opts.length = names.length) (h0 : names ≠ []) (args : Option (List ℂ)) :
    ∃ Ss : List (List ℂ → Strat), Ss.length = names.length ∧
      (∀ (i : ℕ) k v o, kinds[i]? = some k → tvars[i]? = some v → opts[i]? = some o → Ss[i]? = some fun as => trans k (itemFn o as) v) ∧
      ∃ m, IsMaxAbs (nestedErrs Ss func (fun _ => []) (args.getD [])) m ∧
      ntransform trans e func names tvars args (.seq opts) = .ok (nested Ss func (args.getD []), m) := by
  have hkl : kinds.length = names.length := by
    have := congrArg List.length hk
    simpa using this.symm
  have hpos : 0 < names.length := List.length_pos_iff.2 h0
  refine ⟨stratAt trans kinds tvars (opts.map itemFn), ?_, ?_, ?_⟩
  · unfold stratAt; simp [hkl, ht, ho]
  · intro i k v o h1 h2 h3
    unfold stratAt
    rw [List.getElem?_zipWith, (List.getElem?_zip_eq_some (z := (k, v))).2 ⟨h1, h2⟩, List.getElem?_map, h3]
    rfl
  · refine ⟨_, isMaxAbs_maxFrom _, ?_⟩
    unfold ntransform
    rw [if_neg (by simpa using ht)]
    have hp : prepOpts e names.length (.seq opts) = (opts.map itemFn).map OptFn.callable := by
      unfold prepOpts
      rw [List.map_map]
      refine List.map_congr_left fun x _ => ?_
      cases x <;> rfl
    have hl := level_ok trans func names tvars kinds (opts.map itemFn) hk ht (by simpa using ho) names.length hpos le_rfl (args.getD []) 0
    rw [Nat.sub_self] at hl
    rw [hp, hl, List.take_of_length_le (by unfold stratAt; simp [hkl, ht, ho])]

/-- Left out, the options are those of an empty dict for each transform. -/
theorem C124_default (trans : Kind → Opt → ℂ → Strat) (e : Opt) (func : List ℂ → ℂ) (names : List String) (tvars : List ℂ)
    (args : Option (List ℂ)) :
    ntransform trans e func names tvars args .none = ntransform trans e func names tvars args (.seq (List.replicate names.length (.dict e))) := by
  unfold ntransform prepOpts
  simp

/-- The documented form "if a dict, the same options are used for all levels" never works. -/
theorem C124_dict (trans : Kind → Opt → ℂ → Strat) (e o : Opt) (func : List ℂ → ℂ) (names : List String) (tvars : List ℂ) (kinds : List Kind)
    (hk : names.map tdict = kinds.map Except.ok) (ht : tvars.length = names.length) (h0 : names ≠ []) (args : Option (List ℂ)) :
    ntransform trans e func names tvars args (.dict o) = .error .typeError := by
  have hkl : kinds.length = names.length := by
    have := congrArg List.length hk
    simpa using this.symm
  have hpos : 0 < names.length := List.length_pos_iff.2 h0
  unfold ntransform
  rw [if_neg (by simpa using ht)]
  obtain ⟨r, hr⟩ : ∃ r, names.length = r + 1 := ⟨names.length - 1, by omega⟩
  obtain ⟨tv, htv⟩ : ∃ x, tvars[r]? = some x := ⟨_, List.getElem?_eq_getElem (by omega)⟩
  obtain ⟨nm, hnm⟩ : ∃ x, names[r]? = some x := ⟨_, List.getElem?_eq_getElem (by omega)⟩
  obtain ⟨kd, hkd⟩ : ∃ x, kinds[r]? = some x := ⟨_, List.getElem?_eq_getElem (by omega)⟩
  have e1 : fromEnd names 0 = .ok nm := fromEnd_ok _ _ _ (by omega) (by rw [hr]; exact hnm)
  have e2 : tdict nm = .ok kd := by
    have := congrArg (fun l => l[r]?) hk
    simp only [List.getElem?_map, hnm, hkd, Option.map_some] at this
    exact Option.some.inj this
  have e3 : fromEnd tvars 0 = .ok tv := fromEnd_ok _ _ _ (by omega) (by rw [ht, hr]; exact htv)
  have e4 : fromEnd (prepOpts e names.length (.dict o)) 0 = .ok (.bare o) :=
    fromEnd_ok _ _ _ (by simp [prepOpts]; omega) (by simp [prepOpts, hr])
  rw [hr]
  rw [hr] at e4
  unfold level
  simp only [Bind.bind, Except.bind, e1, e2, e3, e4, callOpt]

/-- A sequence of options that is too long is used from its end: the surplus at the front is ignored, so that `opts[0]` does not belong to `x0`. -/
theorem C124_opts_end (trans : Kind → Opt → ℂ → Strat) (e : Opt) (func : List ℂ → ℂ) (names : List String) (tvars : List ℂ)
    (opts extra : List (OptItem Opt)) (ho : opts.length = names.length) (args : Option (List ℂ)) :
    ntransform trans e func names tvars args (.seq (extra ++ opts)) = ntransform trans e func names tvars args (.seq opts) := by
  have key : ∀ (fs gs : List (OptFn Opt)), (∀ d, d < names.length → fromEnd fs d = fromEnd gs d) →
      ∀ rem depth args s, rem + depth = names.length → level trans func names tvars fs rem depth args s = level trans func names tvars gs rem depth args s := by
    intro fs gs hfg rem
    induction rem with
    | zero => intros; rfl
    | succ r ih =>
      intro depth args s hd
      unfold level
      rw [hfg depth (by omega)]
      have : ∀ x s, level trans func names tvars fs r (depth + 1) (x :: args) s = level trans func names tvars gs r (depth + 1) (x :: args) s :=
        fun x s => ih (depth + 1) (x :: args) s (by omega)
      simp only [this]
  unfold ntransform
  split_ifs with h
  · rfl
  · apply key _ _ _ _ _ _ _ (by omega)
    intro d hd
    unfold fromEnd prepOpts
    have hd' : d < opts.length := by omega
    simp only [List.map_append, List.reverse_append]
    rw [List.getElem?_append_left (by simpa using hd')]

theorem C124_errors (trans : Kind → Opt → ℂ → Strat) (e : Opt) (func : List ℂ → ℂ) (names : List String) (tvars : List ℂ)
    (args : Option (List ℂ)) (opts : OptsArg Opt) :
    (tvars.length ≠ names.length → ntransform trans e func names tvars args opts = .error .other) ∧
    (ntransform trans e func [] [] args opts = .error .indexError) ∧
    (∀ (ns : List String) (n : String) , tdict n = .error .other → names = ns ++ [n] →
      ntransform trans e func names tvars args opts = .error .other) := by
  refine ⟨fun h => by unfold ntransform; rw [if_pos h], by unfold ntransform level; rfl, ?_⟩
  rintro ns n hn rfl
  unfold ntransform
  split_ifs with h
  · rfl
  · have : (ns ++ [n]).length = ns.length + 1 := by simp
    rw [this]
    unfold level
    have e1 : fromEnd (ns ++ [n]) 0 = .ok n := fromEnd_ok _ _ _ (by simp) (by simp)
    simp only [Bind.bind, Except.bind, e1, hn]

/-- The inverse Hankel transform is the Hankel transform: writing one name for the other changes nothing. -/
theorem C124_hankel_inverse (trans : Kind → Opt → ℂ → Strat) (e : Opt) (func : List ℂ → ℂ) (names : List String) (tvars : List ℂ)
    (args : Option (List ℂ)) (opts : OptsArg Opt) :
    ntransform trans e func (names.map fun n => if n = "Hankel_inverse" then "Hankel" else n) tvars args opts =
      ntransform trans e func names tvars args opts := by
  set sw : String → String := fun n => if n = "Hankel_inverse" then "Hankel" else n with hsw
  have hsw' : ∀ n, tdict (sw n) = tdict n := by
    intro n
    rw [hsw]
    by_cases h : n = "Hankel_inverse"
    · subst h; rfl
    · simp only [if_neg h]
  have key : ∀ fs rem depth args s, level trans func (names.map sw) tvars fs rem depth args s = level trans func names tvars fs rem depth args s := by
    intro fs rem
    induction rem with
    | zero => intros; rfl
    | succ r ih =>
      intro depth args s
      unfold level
      simp only [ih]
      have hfe : fromEnd (names.map sw) depth = (fromEnd names depth).map sw := by
        unfold fromEnd
        rw [← List.map_reverse, List.getElem?_map]
        cases names.reverse[depth]? <;> rfl
      rw [hfe]
      cases fromEnd names depth with
      | error e => rfl
      | ok n =>
        simp only [Except.map, Bind.bind, Except.bind, hsw']
  unfold ntransform
  simp only [List.length_map, key]

example : (["Fourier", "Laplace_inverse"].map tdict) = [Kind.fourier, Kind.laplaceInv].map Except.ok := rfl

/-- A case: two transforms, each of which asks once (at `1`, at `2`), doubling what it gets, with errors `0.5` and `-3`. -/
example : ntransform (Opt := Unit) (fun k _ v => match k with
      | .fourier => .ask 1 fun y => .done (2 * y) 0.5
      | _ => .ask 2 fun y => .done (2 * y + v) (-3)) () (fun l => match l with | [x, y, t] => x + 10 * y + 100 * t | _ => 0)
    ["Fourier", "Laplace_inverse"] [7, 8] (some [1]) .none = .ok (492, 3) := by
  unfold ntransform prepOpts
  norm_num [level, fromEnd, tdict, callOpt, runStrat, Bind.bind, Except.bind, List.replicate, Pure.pure, Except.pure]

end Geotecha.Transform
