import Verif.Roots.Model
import Mathlib.Topology.Order.IntermediateValue
import Mathlib.Topology.Instances.Real.Lemmas
import Mathlib.Data.List.Sort
import Mathlib.Tactic.Linarith
import Mathlib.Tactic.NormNum
import Mathlib.Tactic.Positivity
import Mathlib.Tactic.Ring

set_option linter.unusedVariables false
namespace Geotecha.Roots
open Geotecha

/-! # C103-C105 find_n_roots -/

namespace Spec

/-- The contract on `fsolve` used below: started inside an interval at whose ends the function changes sign, and whose
left end is not itself a root, it returns a root of that interval. -/
def Solves (f : ℝ → ℝ) (solve : ℝ → ℝ → ℝ → ℝ) : Prop :=
  ∀ x0 x1 g, x0 < x1 → f x0 ≠ 0 → f x0 * f x1 ≤ 0 → x0 ≤ solve x0 x1 g ∧ solve x0 x1 g ≤ x1 ∧ f (solve x0 x1 g) = 0

/-- Every continuous function has such a solver. -/
theorem exists_solver {f : ℝ → ℝ} (hf : Continuous f) : ∃ solve, Solves f solve := by
  have : ∀ x0 x1 : ℝ, ∃ z, x0 < x1 → f x0 * f x1 ≤ 0 → x0 ≤ z ∧ z ≤ x1 ∧ f z = 0 := by
    intro x0 x1
    by_cases h : x0 < x1 ∧ f x0 * f x1 ≤ 0
    · obtain ⟨h, hs⟩ := h
      have h0 : (0:ℝ) ∈ Set.uIcc (f x0) (f x1) := by
        rw [Set.mem_uIcc]
        by_contra hcon
        push Not at hcon
        obtain ⟨c1, c2⟩ := hcon
        rcases lt_trichotomy (f x0) 0 with a | a | a
        · have b := c1 a.le
          have := mul_pos_of_neg_of_neg a b
          linarith
        · have b := c1 a.le
          have d := c2 b.le
          linarith
        · by_cases b : f x1 ≤ 0
          · have := c2 b; linarith
          · have := mul_pos a (not_le.mp b); linarith
      obtain ⟨z, hz, e⟩ := intermediate_value_uIcc (hf.continuousOn) h0
      rw [Set.uIcc_of_le h.le] at hz
      exact ⟨z, fun _ _ => ⟨hz.1, hz.2, e⟩⟩
    · exact ⟨0, fun a b => absurd ⟨a, b⟩ h⟩
  choose z hz using this
  exact ⟨fun a b _ => z a b, fun a b g h _ hs => hz a b h hs⟩

end Spec
open Spec

/-- What holds at the top of the loop, for any function and `0 < p`. -/
structure Inv (a : Args) (s : St) : Prop where
  y0 : s.y0 = a.f s.x0
  dx : 0 < s.dx
  start : a.x0 ≤ s.x00
  x00 : s.x00 ≤ s.x0
  iter0 : 0 ≤ s.iter
  fresh : s.iter = 0 → s.x0 = s.x00
  later : 0 < s.iter → s.y0 ≠ 0
  sorted : s.roots.Pairwise (· < ·)
  zeros : ∀ r ∈ s.roots, a.f r = 0 ∧ a.x0 < r ∧ r ≤ s.x00
  count : s.roots.length ≤ a.n

theorem inv_start (a : Args) (hd : 0 < a.dx) : Inv a (start a) where
  y0 := rfl
  dx := hd
  start := le_refl _
  x00 := le_refl _
  iter0 := le_refl _
  fresh := fun _ => rfl
  later := fun h => absurd h (lt_irrefl _)
  sorted := List.Pairwise.nil
  zeros := fun r h => by cases h
  count := Nat.zero_le _

/-- Where an accepted root lies and where the search restarts. -/
theorem inv_accept {a : Args} {s : St} (i : Inv a s) (hn : s.roots.length < a.n) (hp : 0 < a.p) {dx xr : ℝ}
    (hdx : 0 < dx) (h1 : s.x0 < xr) (h2 : xr ≤ s.x0 + s.dx) (h3 : a.f xr = 0) :
    Inv a (accept a s dx (s.x0 + s.dx) (a.f (s.x0 + s.dx)) xr) ∧
      xr ≤ (accept a s dx (s.x0 + s.dx) (a.f (s.x0 + s.dx)) xr).x0 ∧
      (accept a s dx (s.x0 + s.dx) (a.f (s.x0 + s.dx)) xr).x0 ≤ s.x0 + s.dx ∧
      (accept a s dx (s.x0 + s.dx) (a.f (s.x0 + s.dx)) xr).x0 = (accept a s dx (s.x0 + s.dx) (a.f (s.x0 + s.dx)) xr).x00 := by
  have hx : xr ≤ (accept a s dx (s.x0 + s.dx) (a.f (s.x0 + s.dx)) xr).x0 := by
    unfold accept; simp only
    split <;> linarith
  have hx' : (accept a s dx (s.x0 + s.dx) (a.f (s.x0 + s.dx)) xr).x0 ≤ s.x0 + s.dx := by
    unfold accept; simp only
    split <;> linarith
  refine ⟨{ y0 := ?_, dx := ?_, start := ?_, x00 := le_refl _, iter0 := le_refl _, fresh := fun _ => rfl,
            later := fun h => absurd h (lt_irrefl _), sorted := ?_, zeros := ?_, count := ?_ }, hx, hx', rfl⟩
  · unfold accept; simp only
    split <;> rfl
  · unfold accept; simp only; positivity
  · have : (accept a s dx (s.x0 + s.dx) (a.f (s.x0 + s.dx)) xr).x00 = (accept a s dx (s.x0 + s.dx) (a.f (s.x0 + s.dx)) xr).x0 := rfl
    rw [this]
    linarith [i.start, i.x00]
  · show (s.roots ++ [xr]).Pairwise (· < ·)
    rw [List.pairwise_append]
    refine ⟨i.sorted, List.pairwise_singleton _ _, ?_⟩
    intro r hr t ht
    rw [List.mem_singleton] at ht
    subst ht
    have := (i.zeros r hr).2.2
    linarith [i.x00]
  · intro r hr
    have hr' : r ∈ s.roots ++ [xr] := hr
    show _ ∧ _ ∧ r ≤ (accept a s dx (s.x0 + s.dx) (a.f (s.x0 + s.dx)) xr).x0
    rcases List.mem_append.mp hr' with h | h
    · obtain ⟨e1, e2, e3⟩ := i.zeros r h
      exact ⟨e1, e2, by linarith [i.x00]⟩
    · rw [List.mem_singleton] at h
      subst h
      exact ⟨h3, by linarith [i.start, i.x00], hx⟩
  · show (s.roots ++ [xr]).length ≤ a.n
    simp; omega

/-- The root handed back by `fsolve` at an accepted interval. -/
theorem root_in {a : Args} (hs : Solves a.f a.solve) {s : St} (i : Inv a s) (h5 : ¬ s.iter + 1 < 5)
    (hsign : s.y0 * a.f (s.x0 + s.dx) ≤ 0) (g : ℝ) :
    s.x0 < a.solve s.x0 (s.x0 + s.dx) g ∧ a.solve s.x0 (s.x0 + s.dx) g ≤ s.x0 + s.dx ∧
      a.f (a.solve s.x0 (s.x0 + s.dx) g) = 0 := by
  have hy : a.f s.x0 ≠ 0 := by rw [← i.y0]; exact i.later (by omega)
  rw [i.y0] at hsign
  have hd := i.dx
  obtain ⟨r1, r2, r3⟩ := hs s.x0 (s.x0 + s.dx) g (by linarith) hy hsign
  refine ⟨lt_of_le_of_ne r1 ?_, r2, r3⟩
  intro e
  rw [← e] at r3
  exact hy r3

/-- One pass keeps the invariant, and only a complete list is returned. -/
theorem inv_step {a : Args} (hs : Solves a.f a.solve) (hp : 0 < a.p) {s : St} (i : Inv a s) :
    (∀ s', step a s = .inl s' → Inv a s') ∧
      (∀ rs, step a s = .inr (.returned rs) → rs = s.roots ∧ rs.length = a.n) := by
  have hd := i.dx
  have h0 := i.iter0
  have hx00 := i.x00
  unfold step
  by_cases h1 : s.roots.length < a.n
  · rw [if_neg (by simpa using h1)]
    by_cases h2 : s.iter > a.maxIter
    · rw [if_pos h2]
      exact ⟨(fun _ e => by cases e), (fun _ e => by cases e)⟩
    · rw [if_neg h2]
      dsimp only
      by_cases h3 : s.y0 * a.f (s.x0 + s.dx) ≤ 0
      · rw [if_pos h3]
        by_cases h4 : s.iter + 1 < 5
        · rw [if_pos h4]
          refine ⟨fun s' e => ?_, fun _ e => by cases e⟩
          injection e with e; subst e
          exact { y0 := rfl, dx := by show 0 < s.dx * 0.2; positivity, start := i.start, x00 := le_refl _,
                  iter0 := le_refl _, fresh := fun _ => rfl, later := fun h => absurd h (lt_irrefl _),
                  sorted := i.sorted, zeros := i.zeros, count := i.count }
        · rw [if_neg h4]
          by_cases h5 : s.roots.length = 0
          · rw [if_pos h5]
            obtain ⟨r1, r2, r3⟩ := root_in hs i h4 h3 s.x0
            by_cases h6 : close a.atol a.rtol (a.solve s.x0 (s.x0 + s.dx) s.x0) (lastEntry s.roots)
            · rw [if_pos h6]
              cases hk : s.iterSame with
              | none => exact ⟨(fun _ e => by cases e), (fun _ e => by cases e)⟩
              | some k =>
                dsimp only
                by_cases h7 : k + 1 > 5
                · rw [if_pos h7]; exact ⟨(fun _ e => by cases e), (fun _ e => by cases e)⟩
                · rw [if_neg h7]
                  refine ⟨fun s' e => ?_, fun _ e => by cases e⟩
                  injection e with e; subst e
                  exact { y0 := i.y0, dx := by show 0 < s.dx / a.p * 0.2; positivity, start := i.start, x00 := i.x00,
                          iter0 := by show 0 ≤ s.iter + 1 - 2; omega,
                          fresh := fun h => by
                            have h : s.iter + 1 - 2 = 0 := h
                            omega
                          later := fun h => i.later (by omega), sorted := i.sorted, zeros := i.zeros, count := i.count }
            · rw [if_neg h6]
              refine ⟨fun s' e => ?_, fun _ e => by cases e⟩
              injection e with e; subst e
              exact (inv_accept i h1 hp (by positivity) r1 r2 r3).1
          · rw [if_neg h5]
            refine ⟨fun s' e => ?_, fun _ e => by cases e⟩
            obtain ⟨r1, r2, r3⟩ := root_in hs i h4 h3 (s.x0 - s.y0 * ((s.x0 + s.dx) - s.x0) / (a.f (s.x0 + s.dx) - s.y0))
            injection e with e; subst e
            exact (inv_accept i h1 hp hd r1 r2 r3).1
      · rw [if_neg h3]
        refine ⟨fun s' e => ?_, fun _ e => by cases e⟩
        injection e with e; subst e
        exact { y0 := rfl, dx := by show 0 < s.dx * a.p; positivity, start := i.start,
                x00 := by show s.x00 ≤ s.x0 + s.dx; linarith,
                iter0 := by show 0 ≤ s.iter + 1; omega,
                fresh := fun h => by
                  have h : s.iter + 1 = 0 := h
                  omega
                later := fun _ e => by
                  have e : a.f (s.x0 + s.dx) = 0 := e
                  rw [e, mul_zero] at h3
                  exact h3 (le_refl _)
                sorted := i.sorted, zeros := i.zeros, count := i.count }
  · rw [if_pos (by simpa using h1)]
    refine ⟨(fun _ e => by cases e), fun rs e => ?_⟩
    injection e with e; injection e with e; subst e
    exact ⟨rfl, le_antisymm i.count (not_lt.mp h1)⟩

/-- A property kept by every pass holds when the list is returned. -/
theorem run_inv {a : Args} (P : St → Prop) (hstep : ∀ s s', P s → step a s = .inl s' → P s') {k : ℕ} {s : St} (h : P s)
    {rs : List ℝ} (hr : run a k s = .inr (.returned rs)) : ∃ s', P s' ∧ step a s' = .inr (.returned rs) := by
  induction k generalizing s with
  | zero => cases hr
  | succ k ih =>
    unfold run at hr
    cases hst : step a s with
    | inl s' => rw [hst] at hr; exact ih (hstep s s' h hst) hr
    | inr o =>
      rw [hst] at hr
      injection hr with hr; subst hr
      exact ⟨s, h, hst⟩

/-- Soundness: whatever the step factor, a returned list has `n` entries, all roots, strictly increasing, all past the
start. -/
theorem C103_sound (a : Args) (hs : Solves a.f a.solve) (hd : 0 < a.dx) (hp : 0 < a.p) (rs : List ℝ)
    (h : Ends a (.returned rs)) :
    rs.length = a.n ∧ rs.Pairwise (· < ·) ∧ ∀ r ∈ rs, a.f r = 0 ∧ a.x0 < r := by
  obtain ⟨k, hk⟩ := h
  obtain ⟨s, i, hst⟩ := run_inv (Inv a) (fun s s' i e => (inv_step hs hp i).1 s' e) (inv_start a hd) hk
  obtain ⟨e, hl⟩ := (inv_step hs hp i).2 rs hst
  subst e
  exact ⟨hl, i.sorted, fun r hr => ⟨(i.zeros r hr).1, (i.zeros r hr).2.1⟩⟩

namespace Spec

/-- The roots are crossings, isolated at the scale of the initial step: an interval no longer than `dx` holds at most one
root, and if it holds one strictly inside, the function has opposite signs at its ends. -/
def Isolated (f : ℝ → ℝ) (x0 dx : ℝ) : Prop :=
  ∀ u v, x0 ≤ u → u < v → v - u ≤ dx →
    (∀ z z', u ≤ z → z ≤ v → u ≤ z' → z' ≤ v → f z = 0 → f z' = 0 → z = z') ∧
    (∀ z, u < z → z < v → f z = 0 → f u * f v < 0)

end Spec

/-- Extra invariant with `p = 1`: nothing was missed so far. -/
structure Full (a : Args) (s : St) : Prop where
  inv : Inv a s
  small : s.dx ≤ a.dx
  all : ∀ z, a.x0 < z → z ≤ s.x0 → a.f z = 0 → z ∈ s.roots

theorem full_accept {a : Args} {s : St} (h : Full a s) (hI : Isolated a.f a.x0 a.dx) (hp : a.p = 1)
    (hn : s.roots.length < a.n) {dx xr : ℝ}
    (hdx : 0 < dx) (hdx' : dx ≤ a.dx) (h1 : s.x0 < xr) (h2 : xr ≤ s.x0 + s.dx) (h3 : a.f xr = 0) :
    Full a (accept a s dx (s.x0 + s.dx) (a.f (s.x0 + s.dx)) xr) := by
  obtain ⟨i, hx, hx', hxx⟩ := inv_accept h.inv hn (by rw [hp]; norm_num) hdx h1 h2 h3
  have hd := h.inv.dx
  refine ⟨i, ?_, ?_⟩
  · show dx * 0.5 * a.p ≤ a.dx
    rw [hp]; linarith
  · intro z z1 z2 z3
    show z ∈ s.roots ++ [xr]
    rcases le_or_gt z s.x0 with hz | hz
    · exact List.mem_append_left _ (h.all z z1 hz z3)
    · have := (hI s.x0 (s.x0 + s.dx) (h.inv.start.trans h.inv.x00) (by linarith) (by linarith [h.small])).1 z xr
        hz.le (z2.trans hx') h1.le h2 z3 h3
      rw [this]; simp

theorem full_step {a : Args} (hs : Solves a.f a.solve) (hI : Isolated a.f a.x0 a.dx) (hp : a.p = 1) (s s' : St)
    (h : Full a s) (e : step a s = .inl s') : Full a s' := by
  have hp0 : 0 < a.p := by rw [hp]; norm_num
  have hinv := (inv_step hs hp0 h.inv).1 s' e
  have i := h.inv
  have hd := i.dx
  have hsm := h.small
  unfold step at e
  by_cases h1 : s.roots.length < a.n
  · rw [if_neg (by simpa using h1)] at e
    by_cases h2 : s.iter > a.maxIter
    · rw [if_pos h2] at e; cases e
    · rw [if_neg h2] at e
      dsimp only at e
      by_cases h3 : s.y0 * a.f (s.x0 + s.dx) ≤ 0
      · rw [if_pos h3] at e
        by_cases h4 : s.iter + 1 < 5
        · rw [if_pos h4] at e
          injection e with e; subst e
          refine ⟨hinv, ?_, fun z z1 z2 z3 => h.all z z1 (le_trans z2 i.x00) z3⟩
          show s.dx * 0.2 ≤ a.dx
          linarith
        · rw [if_neg h4] at e
          by_cases h5 : s.roots.length = 0
          · rw [if_pos h5] at e
            obtain ⟨r1, r2, r3⟩ := root_in hs i h4 h3 s.x0
            by_cases h6 : close a.atol a.rtol (a.solve s.x0 (s.x0 + s.dx) s.x0) (lastEntry s.roots)
            · rw [if_pos h6] at e
              cases hk : s.iterSame with
              | none => rw [hk] at e; cases e
              | some k =>
                rw [hk] at e
                dsimp only at e
                by_cases h7 : k + 1 > 5
                · rw [if_pos h7] at e; cases e
                · rw [if_neg h7] at e
                  injection e with e; subst e
                  refine ⟨hinv, ?_, h.all⟩
                  show s.dx / a.p * 0.2 ≤ a.dx
                  rw [hp]; linarith
            · rw [if_neg h6] at e
              injection e with e; subst e
              exact full_accept h hI hp h1 (by positivity) (by rw [hp, div_one]; exact hsm) r1 r2 r3
          · rw [if_neg h5] at e
            obtain ⟨r1, r2, r3⟩ := root_in hs i h4 h3 (s.x0 - s.y0 * ((s.x0 + s.dx) - s.x0) / (a.f (s.x0 + s.dx) - s.y0))
            injection e with e; subst e
            exact full_accept h hI hp h1 hd hsm r1 r2 r3
      · rw [if_neg h3] at e
        injection e with e; subst e
        refine ⟨hinv, ?_, ?_⟩
        · show s.dx * a.p ≤ a.dx
          rw [hp]; linarith
        · intro z z1 z2 z3
          have z2 : z ≤ s.x0 + s.dx := z2
          rcases le_or_gt z s.x0 with hz | hz
          · exact h.all z z1 hz z3
          · exfalso
            rcases z2.lt_or_eq with hz2 | hz2
            · have := (hI s.x0 (s.x0 + s.dx) (i.start.trans i.x00) (by linarith) (by linarith)).2 z hz hz2 z3
              rw [← i.y0] at this
              linarith
            · rw [hz2] at z3
              rw [z3, mul_zero] at h3
              exact h3 (le_refl _)
  · rw [if_pos (by simpa using h1)] at e; cases e

/-- Completeness with the default `p = 1`: when the roots are crossings isolated at the scale of `dx`, the returned list
is exactly the first `n` roots past the start. -/
theorem C103_first_n_partial (a : Args) (hs : Solves a.f a.solve) (hd : 0 < a.dx) (hp : a.p = 1)
    (hI : Isolated a.f a.x0 a.dx) (rs : List ℝ) (h : Ends a (.returned rs)) :
    ∀ z, a.x0 < z → a.f z = 0 → (∃ r ∈ rs, z ≤ r) → z ∈ rs := by
  have hp0 : 0 < a.p := by rw [hp]; norm_num
  obtain ⟨k, hk⟩ := h
  have hstart : Full a (start a) := ⟨inv_start a hd, le_refl _, fun z z1 z2 _ => absurd z1 (not_lt.mpr z2)⟩
  obtain ⟨s, i, hst⟩ := run_inv (Full a) (full_step hs hI hp) hstart hk
  obtain ⟨e, hl⟩ := (inv_step hs hp0 i.inv).2 rs hst
  subst e
  intro z z1 z2 ⟨r, hr, hzr⟩
  exact i.all z z1 (hzr.trans (((i.inv.zeros r hr).2.2).trans i.inv.x00)) z2

end Geotecha.Roots
