import Verif.Roots.Props
import Mathlib.Analysis.SpecificLimits.Basic
import Mathlib.Topology.Order.Basic
import Mathlib.Tactic.FieldSimp

set_option linter.unusedVariables false
namespace Geotecha.Roots
open Geotecha Spec

/-! # When `find_n_roots` ends -/

theorem step_done {a : Args} {s : St} (h : ¬ s.roots.length < a.n) : step a s = .inr (.returned s.roots) := by
  unfold step; rw [if_pos h]

theorem step_over {a : Args} {s : St} (h : s.roots.length < a.n) (h2 : s.iter > a.maxIter) :
    step a s = .inr (.raised .valueError) := by
  unfold step; rw [if_neg (by simpa using h), if_pos h2]

/-- no sign change: walk on -/
theorem step_walk {a : Args} {s : St} (h : s.roots.length < a.n) (h2 : ¬ s.iter > a.maxIter)
    (h3 : ¬ s.y0 * a.f (s.x0 + s.dx) ≤ 0) :
    step a s = .inl { s with iter := s.iter + 1, x0 := s.x0 + s.dx, y0 := a.f (s.x0 + s.dx), dx := s.dx * a.p } := by
  unfold step; rw [if_neg (by simpa using h), if_neg h2]
  dsimp only
  rw [if_neg h3]

/-- sign change too early: back to the start -/
theorem step_back {a : Args} {s : St} (h : s.roots.length < a.n) (h2 : ¬ s.iter > a.maxIter)
    (h3 : s.y0 * a.f (s.x0 + s.dx) ≤ 0) (h4 : s.iter + 1 < 5) :
    step a s = .inl { s with x0 := s.x00, y0 := a.f s.x00, iter := 0, dx := s.dx * 0.2 } := by
  unfold step; rw [if_neg (by simpa using h), if_neg h2]
  dsimp only
  rw [if_pos h3, if_pos h4]

/-- first root -/
theorem step_first {a : Args} {s : St} (h : s.roots.length < a.n) (h2 : ¬ s.iter > a.maxIter)
    (h3 : s.y0 * a.f (s.x0 + s.dx) ≤ 0) (h4 : ¬ s.iter + 1 < 5) (h5 : s.roots.length = 0)
    (h6 : ¬ close a.atol a.rtol (a.solve s.x0 (s.x0 + s.dx) s.x0) 0) :
    step a s = .inl (accept a s (s.dx / a.p) (s.x0 + s.dx) (a.f (s.x0 + s.dx)) (a.solve s.x0 (s.x0 + s.dx) s.x0)) := by
  unfold step; rw [if_neg (by simpa using h), if_neg h2]
  dsimp only
  rw [if_pos h3, if_neg h4, if_pos h5]
  unfold lastEntry
  rw [if_neg h6]

/-- first root close to zero: the counter was never assigned -/
theorem step_same {a : Args} {s : St} (h : s.roots.length < a.n) (h2 : ¬ s.iter > a.maxIter)
    (h3 : s.y0 * a.f (s.x0 + s.dx) ≤ 0) (h4 : ¬ s.iter + 1 < 5) (h5 : s.roots.length = 0)
    (h6 : close a.atol a.rtol (a.solve s.x0 (s.x0 + s.dx) s.x0) 0) (h7 : s.iterSame = none) :
    step a s = .inr (.raised .unboundLocal) := by
  unfold step; rw [if_neg (by simpa using h), if_neg h2]
  dsimp only
  rw [if_pos h3, if_neg h4, if_pos h5]
  unfold lastEntry
  rw [if_pos h6, h7]

/-- later root -/
theorem step_later {a : Args} {s : St} (h : s.roots.length < a.n) (h2 : ¬ s.iter > a.maxIter)
    (h3 : s.y0 * a.f (s.x0 + s.dx) ≤ 0) (h4 : ¬ s.iter + 1 < 5) (h5 : ¬ s.roots.length = 0) :
    step a s = .inl (accept a s s.dx (s.x0 + s.dx) (a.f (s.x0 + s.dx))
      (a.solve s.x0 (s.x0 + s.dx) (s.x0 - s.y0 * ((s.x0 + s.dx) - s.x0) / (a.f (s.x0 + s.dx) - s.y0)))) := by
  unfold step; rw [if_neg (by simpa using h), if_neg h2]
  dsimp only
  rw [if_pos h3, if_neg h4, if_neg h5]

theorem run_add (a : Args) (j k : ℕ) (s s' : St) (h : run a j s = .inl s') : run a (j + k) s = run a k s' := by
  induction j generalizing s with
  | zero => simp only [run] at h; injection h with h; subst h; rw [Nat.zero_add]
  | succ j ih =>
    rw [Nat.add_right_comm]
    simp only [run] at h ⊢
    cases hs : step a s with
    | inl t => rw [hs] at h; exact ih t h
    | inr o => rw [hs] at h; cases h

/-- Further facts that hold with `p = 1`. -/
structure Walk (a : Args) (s : St) : Prop where
  inv : Inv a s
  pos : s.x0 = s.x00 + s.iter * s.dx
  same : s.roots = [] → s.iterSame = none

theorem walk_start (a : Args) (hd : 0 < a.dx) : Walk a (start a) :=
  ⟨inv_start a hd, by simp [start], fun _ => rfl⟩

theorem walk_step {a : Args} (hs : Solves a.f a.solve) (hp : a.p = 1) {s s' : St} (w : Walk a s)
    (e : step a s = .inl s') : Walk a s' := by
  have hp0 : 0 < a.p := by rw [hp]; norm_num
  have hinv := (inv_step hs hp0 w.inv).1 s' e
  have hpos := w.pos
  by_cases h1 : s.roots.length < a.n
  · by_cases h2 : s.iter > a.maxIter
    · rw [step_over h1 h2] at e; cases e
    · by_cases h3 : s.y0 * a.f (s.x0 + s.dx) ≤ 0
      · by_cases h4 : s.iter + 1 < 5
        · rw [step_back h1 h2 h3 h4] at e
          injection e with e; subst e
          exact ⟨hinv, by simp, w.same⟩
        · by_cases h5 : s.roots.length = 0
          · by_cases h6 : close a.atol a.rtol (a.solve s.x0 (s.x0 + s.dx) s.x0) 0
            · rw [step_same h1 h2 h3 h4 h5 h6 (w.same (List.length_eq_zero_iff.mp h5))] at e; cases e
            · rw [step_first h1 h2 h3 h4 h5 h6] at e
              injection e with e; subst e
              refine ⟨hinv, by simp [accept], fun h => ?_⟩
              simp [accept] at h
          · rw [step_later h1 h2 h3 h4 h5] at e
            injection e with e; subst e
            refine ⟨hinv, by simp [accept], fun h => ?_⟩
            simp [accept] at h
      · rw [step_walk h1 h2 h3] at e
        injection e with e; subst e
        refine ⟨hinv, ?_, w.same⟩
        show s.x0 + s.dx = s.x00 + ((s.iter + 1 : ℤ) : ℝ) * (s.dx * a.p)
        rw [hp, hpos]; push_cast; ring
  · rw [step_done h1] at e; cases e

/-- From `s` the loop ends, or gets to a state with `Q`. -/
def Reaches (a : Args) (s : St) (Q : St → Prop) : Prop :=
  ∃ k, (∃ o, run a k s = .inr o) ∨ ∃ s', run a k s = .inl s' ∧ Q s'

theorem Reaches.refl {a : Args} {s : St} {Q : St → Prop} (h : Q s) : Reaches a s Q := ⟨0, Or.inr ⟨s, rfl, h⟩⟩

theorem Reaches.stop {a : Args} {s : St} {Q : St → Prop} {o : Outcome} (h : step a s = .inr o) : Reaches a s Q :=
  ⟨1, Or.inl ⟨o, by simp only [run, h]⟩⟩

theorem Reaches.next {a : Args} {s s' : St} {Q : St → Prop} (h : step a s = .inl s') (r : Reaches a s' Q) :
    Reaches a s Q := by
  obtain ⟨k, hk⟩ := r
  refine ⟨k + 1, ?_⟩
  simp only [run, h]
  exact hk

theorem Reaches.trans {a : Args} {s : St} {Q R : St → Prop} (h : Reaches a s Q) (hq : ∀ s', Q s' → Reaches a s' R) :
    Reaches a s R := by
  obtain ⟨k, h | ⟨s', h, hQ⟩⟩ := h
  · exact ⟨k, Or.inl h⟩
  · obtain ⟨j, hj⟩ := hq s' hQ
    refine ⟨k + j, ?_⟩
    rw [run_add a k j s s' h]
    exact hj

/-- One search: from a start that is not a root it ends or finds the next root. -/
theorem phase {a : Args} (hs : Solves a.f a.solve) (hp : a.p = 1) (X δ : ℝ)
    (hδ : ∀ t, 0 ≤ t → t ≤ δ → 0 < a.f X * a.f (X + t)) (N : ℕ) :
    ∀ (M : ℕ) (s : St), Walk a s → s.x00 = X → s.dx * 5 * 0.2 ^ N ≤ δ → (a.maxIter + 1 - s.iter).toNat ≤ M →
      Reaches a s (fun s' => Walk a s' ∧ s'.iter = 0 ∧ s'.x0 = s'.x00 ∧ s'.roots.length = s.roots.length + 1) := by
  induction N with
  | zero =>
    intro M
    induction M with
    | zero =>
      intro s w hX hd hM
      by_cases h1 : s.roots.length < a.n
      · exact .stop (step_over h1 (by omega))
      · exact .stop (step_done h1)
    | succ M ih =>
      intro s w hX hd hM
      by_cases h1 : s.roots.length < a.n
      · by_cases h2 : s.iter > a.maxIter
        · exact .stop (step_over h1 h2)
        · by_cases h3 : s.y0 * a.f (s.x0 + s.dx) ≤ 0
          · by_cases h4 : s.iter + 1 < 5
            · exfalso
              have hdx := w.inv.dx
              have hi0 := w.inv.iter0
              have hir : (s.iter : ℝ) ≤ 3 := by exact_mod_cast (by omega : s.iter ≤ 3)
              have hi0r : (0:ℝ) ≤ s.iter := by exact_mod_cast hi0
              have hdd : s.dx * 5 ≤ δ := by simpa using hd
              have e1 := hδ (s.iter * s.dx) (by positivity) (by nlinarith)
              have e2 := hδ (s.iter * s.dx + s.dx) (by positivity) (by nlinarith)
              rw [← hX, ← w.pos, ← w.inv.y0] at e1
              rw [← hX, ← add_assoc, ← w.pos] at e2
              nlinarith [mul_pos e1 e2, mul_self_nonneg (a.f s.x00)]
            · by_cases h5 : s.roots.length = 0
              · by_cases h6 : close a.atol a.rtol (a.solve s.x0 (s.x0 + s.dx) s.x0) 0
                · exact .stop (step_same h1 h2 h3 h4 h5 h6 (w.same (List.length_eq_zero_iff.mp h5)))
                · have e := step_first h1 h2 h3 h4 h5 h6
                  refine .next e (.refl ⟨walk_step hs hp w e, rfl, rfl, ?_⟩)
                  simp [accept]
              · have e := step_later h1 h2 h3 h4 h5
                refine .next e (.refl ⟨walk_step hs hp w e, rfl, rfl, ?_⟩)
                simp [accept]
          · have e := step_walk h1 h2 h3
            refine .next e (ih _ (walk_step hs hp w e) hX ?_ ?_)
            · show s.dx * a.p * 5 * 0.2 ^ 0 ≤ δ
              rw [hp, mul_one]; exact hd
            · show (a.maxIter + 1 - (s.iter + 1)).toNat ≤ M
              omega
      · exact .stop (step_done h1)
  | succ N ihN =>
    intro M
    induction M with
    | zero =>
      intro s w hX hd hM
      by_cases h1 : s.roots.length < a.n
      · exact .stop (step_over h1 (by omega))
      · exact .stop (step_done h1)
    | succ M ih =>
      intro s w hX hd hM
      by_cases h1 : s.roots.length < a.n
      · by_cases h2 : s.iter > a.maxIter
        · exact .stop (step_over h1 h2)
        · by_cases h3 : s.y0 * a.f (s.x0 + s.dx) ≤ 0
          · by_cases h4 : s.iter + 1 < 5
            · have e := step_back h1 h2 h3 h4
              refine .next e (ihN _ _ (walk_step hs hp w e) hX ?_ le_rfl)
              show s.dx * 0.2 * 5 * 0.2 ^ N ≤ δ
              rw [pow_succ] at hd
              linarith
            · by_cases h5 : s.roots.length = 0
              · by_cases h6 : close a.atol a.rtol (a.solve s.x0 (s.x0 + s.dx) s.x0) 0
                · exact .stop (step_same h1 h2 h3 h4 h5 h6 (w.same (List.length_eq_zero_iff.mp h5)))
                · have e := step_first h1 h2 h3 h4 h5 h6
                  refine .next e (.refl ⟨walk_step hs hp w e, rfl, rfl, ?_⟩)
                  simp [accept]
              · have e := step_later h1 h2 h3 h4 h5
                refine .next e (.refl ⟨walk_step hs hp w e, rfl, rfl, ?_⟩)
                simp [accept]
          · have e := step_walk h1 h2 h3
            refine .next e (ih _ (walk_step hs hp w e) hX ?_ ?_)
            · show s.dx * a.p * 5 * 0.2 ^ (N + 1) ≤ δ
              rw [hp, mul_one]; exact hd
            · show (a.maxIter + 1 - (s.iter + 1)).toNat ≤ M
              omega
      · exact .stop (step_done h1)

theorem sign_near {f : ℝ → ℝ} (hf : Continuous f) {X : ℝ} (h : f X ≠ 0) :
    ∃ δ > 0, ∀ t, 0 ≤ t → t ≤ δ → 0 < f X * f (X + t) := by
  have hc : Continuous fun t => f X * f (X + t) := by fun_prop
  have h0 : (0:ℝ) < (fun t => f X * f (X + t)) 0 := by
    simp only [add_zero]; exact mul_self_pos.mpr h
  have hopen := (hc.isOpen_preimage (Set.Ioi 0) isOpen_Ioi)
  rw [Metric.isOpen_iff] at hopen
  obtain ⟨ε, hε, hb⟩ := hopen 0 h0
  refine ⟨ε / 2, by positivity, fun t t0 t1 => hb ?_⟩
  rw [Metric.mem_ball, Real.dist_eq, sub_zero, abs_of_nonneg t0]
  linarith

/-- A search about to start on an exact root. -/
def OnRoot (a : Args) (s : St) : Prop :=
  s.iter = 0 ∧ s.x0 = s.x00 ∧ s.y0 = 0 ∧ a.f s.x00 = 0 ∧ s.roots.length < a.n

theorem reaches_end {a : Args} (hs : Solves a.f a.solve) (hf : Continuous a.f) (hp : a.p = 1) (m : ℕ) :
    ∀ s, Walk a s → s.iter = 0 → s.x0 = s.x00 → a.n - s.roots.length ≤ m → Reaches a s (OnRoot a) := by
  induction m with
  | zero =>
    intro s w h0 hx hm
    exact .stop (step_done (by omega))
  | succ m ih =>
    intro s w h0 hx hm
    by_cases h1 : s.roots.length < a.n
    · by_cases hz : a.f s.x00 = 0
      · exact .refl ⟨h0, hx, by rw [w.inv.y0, hx, hz], hz, h1⟩
      · obtain ⟨δ, hδ, hsgn⟩ := sign_near hf hz
        have : ∃ N : ℕ, s.dx * 5 * 0.2 ^ N ≤ δ := by
          have hd := w.inv.dx
          obtain ⟨N, hN⟩ := exists_pow_lt_of_lt_one (show 0 < δ / (s.dx * 5) by positivity) (show (0.2:ℝ) < 1 by norm_num)
          refine ⟨N, ?_⟩
          rw [lt_div_iff₀ (by positivity)] at hN
          linarith
        obtain ⟨N, hN⟩ := this
        refine (phase hs hp s.x00 δ hsgn N _ s w rfl hN le_rfl).trans ?_
        rintro s' ⟨w', i', x', l'⟩
        exact ih s' w' i' x' (by omega)
    · exact .stop (step_done h1)

/-- Once a search starts on an exact root the loop never ends, whatever `max_iter`. -/
theorem onRoot_forever {a : Args} (hm : 0 ≤ a.maxIter) (k : ℕ) : ∀ s, OnRoot a s → ∃ s', run a k s = .inl s' := by
  induction k with
  | zero => intro s _; exact ⟨s, rfl⟩
  | succ k ih =>
    rintro s ⟨h0, hx, hy, hz, hl⟩
    have e := step_back hl (by omega) (by rw [hy, zero_mul]) (by omega)
    simp only [run, e]
    exact ih _ ⟨rfl, rfl, hz, hz, hl⟩

theorem onRoot_no_end {a : Args} (hm : 0 ≤ a.maxIter) {k : ℕ} {s : St} (h : run a k (start a) = .inl s)
    (ho : OnRoot a s) : ¬ ∃ o, Ends a o := by
  rintro ⟨o, j, hj⟩
  obtain ⟨s', h'⟩ := onRoot_forever hm j s ho
  have h1 := run_add a k j (start a) s h
  rw [h'] at h1
  have : ∀ (i : ℕ) (t : St), run a j t = .inr o → run a (j + i) t = .inr o := by
    intro i
    clear hj h1 h'
    induction j with
    | zero => intro t ht; cases ht
    | succ j ih =>
      intro t ht
      rw [Nat.add_right_comm]
      simp only [run] at ht ⊢
      cases hst : step a t with
      | inl u => rw [hst] at ht; exact ih u ht
      | inr o' => rw [hst] at ht; exact ht
  have := this k (start a) hj
  rw [Nat.add_comm] at this
  rw [this] at h1; cases h1

/-- With the default `p = 1` and a continuous function the call ends unless some search starts exactly on a root, and in
that case it never ends, however small `max_iter` is. -/
theorem C104_ends_iff_partial (a : Args) (hs : Solves a.f a.solve) (hf : Continuous a.f) (hp : a.p = 1) (hd : 0 < a.dx)
    (hm : 0 ≤ a.maxIter) :
    (∃ o, Ends a o) ↔ ¬ ∃ k s, run a k (start a) = .inl s ∧ OnRoot a s := by
  constructor
  · rintro h ⟨k, s, hk, ho⟩
    exact onRoot_no_end hm hk ho h
  · intro h
    obtain ⟨k, hk | ⟨s', hk, ho⟩⟩ := reaches_end hs hf hp (a.n - (start a).roots.length) (start a) (walk_start a hd) rfl rfl le_rfl
    · obtain ⟨o, ho⟩ := hk
      exact ⟨o, k, ho⟩
    · exact absurd ⟨k, s', hk, ho⟩ h

/-- One root asked for, started off a root: the call always ends. -/
theorem C104_single_ends (a : Args) (hs : Solves a.f a.solve) (hf : Continuous a.f) (hp : a.p = 1) (hd : 0 < a.dx)
    (hn : a.n ≤ 1) (hx : a.f a.x0 ≠ 0) : ∃ o, Ends a o := by
  obtain ⟨δ, hδ, hsgn⟩ := sign_near hf hx
  have : ∃ N : ℕ, a.dx * 5 * 0.2 ^ N ≤ δ := by
    obtain ⟨N, hN⟩ := exists_pow_lt_of_lt_one (show 0 < δ / (a.dx * 5) by positivity) (show (0.2:ℝ) < 1 by norm_num)
    refine ⟨N, ?_⟩
    rw [lt_div_iff₀ (by positivity)] at hN
    linarith
  obtain ⟨N, hN⟩ := this
  have hr := phase hs hp a.x0 δ hsgn N _ (start a) (walk_start a hd) rfl hN le_rfl
  have hr2 : Reaches a (start a) (fun _ => False) := hr.trans (by
    rintro s' ⟨w', i', x', l'⟩
    refine .stop (step_done ?_)
    rw [l']; omega)
  obtain ⟨k, hk | ⟨s', hk, ho⟩⟩ := hr2
  · obtain ⟨o, ho⟩ := hk
    exact ⟨o, k, ho⟩
  · exact ho.elim

/-- Started on an exact root the call never ends, for every continuous or other function, every step and `max_iter`. -/
theorem C104_negation_start (a : Args) (hm : 0 ≤ a.maxIter) (hn : 1 ≤ a.n) (hx : a.f a.x0 = 0) : ¬ ∃ o, Ends a o :=
  onRoot_no_end hm (k := 0) rfl ⟨rfl, rfl, hx, hx, hn⟩

/-- With a step factor of five the call can cycle forever although the function has one simple root ahead. -/
def cycling : Args :=
  { f := fun x => x - 3, solve := fun _ _ _ => 3, n := 1, x0 := 0, dx := 1, p := 5, maxIter := 2000, atol := 1e-8, rtol := 1e-5 }

theorem C104_negation_factor : Solves cycling.f cycling.solve ∧ ¬ ∃ o, Ends cycling o := by
  constructor
  · intro x0 x1 g h h0 hs
    simp only [cycling] at *
    refine ⟨?_, ?_, by norm_num⟩
    · by_contra hc
      push Not at hc
      have : 0 < (x0 - 3) * (x1 - 3) := mul_pos (by linarith) (by linarith)
      linarith
    · by_contra hc
      push Not at hc
      have : 0 < (x0 - 3) * (x1 - 3) := mul_pos_of_neg_of_neg (by linarith) (by linarith)
      linarith
  · have e1 : step cycling (start cycling) = .inl { start cycling with iter := 1, x0 := 1, y0 := -2, dx := 5 } := by
      rw [step_walk (by simp [cycling, start]) (by simp [cycling, start]) (by norm_num [cycling, start])]
      congr 1
      simp [cycling, start]
      norm_num
    have e2 : step cycling { start cycling with iter := 1, x0 := 1, y0 := -2, dx := 5 } = .inl (start cycling) := by
      rw [step_back (by simp [cycling, start]) (by simp [cycling, start]) (by norm_num [cycling, start]) (by norm_num)]
      congr 1
      simp [cycling, start]
      norm_num
    have hrun : ∀ k, (run cycling k (start cycling) = .inl (start cycling)) ∨
        (run cycling k (start cycling) = .inl { start cycling with iter := 1, x0 := 1, y0 := -2, dx := 5 }) := by
      intro k
      induction k using Nat.twoStepInduction with
      | zero => exact Or.inl rfl
      | one => right; simp only [run, e1]
      | more k ih _ =>
        simp only [run, e1, e2]
        exact ih
    rintro ⟨o, k, hk⟩
    rcases hrun k with h | h <;> rw [h] at hk <;> cases hk

/-! # C105: first root near zero -/

theorem first_far {a : Args} (s s' : St) (h : ∀ r t, s.roots = r :: t → a.atol < |r|) (e : step a s = .inl s') :
    ∀ r t, s'.roots = r :: t → a.atol < |r| := by
  unfold step at e
  by_cases h1 : s.roots.length < a.n
  · rw [if_neg (by simpa using h1)] at e
    by_cases h2 : s.iter > a.maxIter
    · rw [if_pos h2] at e; cases e
    · rw [if_neg h2] at e
      dsimp only at e
      by_cases h3 : s.y0 * a.f (s.x0 + s.dx) ≤ 0
      · rw [if_pos h3] at e
        by_cases h4 : s.iter + 1 < 5
        · rw [if_pos h4] at e
          injection e with e; subst e
          exact h
        · rw [if_neg h4] at e
          by_cases h5 : s.roots.length = 0
          · rw [if_pos h5] at e
            by_cases h6 : close a.atol a.rtol (a.solve s.x0 (s.x0 + s.dx) s.x0) (lastEntry s.roots)
            · rw [if_pos h6] at e
              cases hk : s.iterSame with
              | none => rw [hk] at e; cases e
              | some k =>
                rw [hk] at e
                dsimp only at e
                by_cases h7 : k + 1 > 5
                · rw [if_pos h7] at e; cases e
                · rw [if_neg h7] at e
                  injection e with e; subst e
                  exact h
            · rw [if_neg h6] at e
              injection e with e; subst e
              intro r t hr
              have hr : s.roots ++ [a.solve s.x0 (s.x0 + s.dx) s.x0] = r :: t := hr
              rw [List.length_eq_zero_iff.mp h5, List.nil_append] at hr
              injection hr with hr _
              subst hr
              unfold close lastEntry at h6
              simpa using h6
          · rw [if_neg h5] at e
            injection e with e; subst e
            intro r t hr
            cases hl : s.roots with
            | nil => rw [hl] at h5; exact absurd rfl h5
            | cons r' t' =>
              have hr : s.roots ++ _ = r :: t := hr
              rw [hl, List.cons_append] at hr
              injection hr with hr _
              subst hr
              exact h _ _ hl
      · rw [if_neg h3] at e
        injection e with e; subst e
        exact h
  · rw [if_pos (by simpa using h1)] at e; cases e

/-- No list is ever returned whose first root is within `atol` of zero; so a function whose only root lies there gets
no answer, although the root exists. -/
theorem C105_first_root_near_zero (a : Args) (rs : List ℝ) (h : Ends a (.returned rs)) (r : ℝ) (t : List ℝ)
    (hr : rs = r :: t) : a.atol < |r| := by
  obtain ⟨k, hk⟩ := h
  obtain ⟨s, i, hst⟩ := run_inv (a := a) (fun s => ∀ r t, s.roots = r :: t → a.atol < |r|)
    (fun s s' i e => first_far s s' i e) (s := start a) (fun r t e => by cases e) hk
  by_cases h1 : s.roots.length < a.n
  · exfalso
    unfold step at hst
    rw [if_neg (by simpa using h1)] at hst
    split at hst
    · cases hst
    · dsimp only at hst
      split at hst
      · split at hst
        · cases hst
        · split at hst
          · split at hst
            · split at hst
              · cases hst
              · split at hst <;> cases hst
            · cases hst
          · cases hst
      · cases hst
  · rw [step_done h1] at hst
    injection hst with hst; injection hst with hst
    exact i r t (by rw [hst, hr])

/-- A continuous function with a single root, within `atol` of zero, started off the root: the call ends, and never with
a list. -/
theorem C105_no_answer (a : Args) (hs : Solves a.f a.solve) (hf : Continuous a.f) (hp : a.p = 1) (hd : 0 < a.dx)
    (hn : a.n = 1) (z : ℝ) (hz : ∀ x, a.f x = 0 ↔ x = z) (hz0 : |z| ≤ a.atol) (hx : a.x0 ≠ z) :
    ∃ e, Ends a (.raised e) := by
  obtain ⟨o, ho⟩ := C104_single_ends a hs hf hp hd hn.le (fun e => hx ((hz _).mp e))
  cases o with
  | raised e => exact ⟨e, ho⟩
  | returned rs =>
    exfalso
    obtain ⟨hl, _, hr⟩ := C103_sound a hs hd (by rw [hp]; norm_num) rs ho
    cases rs with
    | nil => rw [hn] at hl; simp at hl
    | cons r t =>
      have h1 := C105_first_root_near_zero a _ ho r t rfl
      rw [(hz r).mp (hr r (by simp)).1] at h1
      linarith

/-! Concrete calls. -/

namespace Ex

/-- `find_n_roots(lambda x: x - z, n=1, x0=0, dx=1)` with an exact solver -/
def call (z : ℝ) : Args :=
  { f := fun x => x - z, solve := fun _ _ _ => z, n := 1, x0 := 0, dx := 1, p := 1, maxIter := 2000, atol := 1e-8, rtol := 1e-5 }

theorem solves (z : ℝ) : Solves (call z).f (call z).solve := by
  intro x0 x1 g h h0 hs
  simp only [call] at *
  refine ⟨?_, ?_, by ring⟩
  · by_contra hc
    push Not at hc
    have : 0 < (x0 - z) * (x1 - z) := mul_pos (by linarith) (by linarith)
    linarith
  · by_contra hc
    push Not at hc
    have : 0 < (x0 - z) * (x1 - z) := mul_pos_of_neg_of_neg (by linarith) (by linarith)
    linarith

theorem isolated (z : ℝ) : Isolated (call z).f (call z).x0 (call z).dx := by
  intro u v _ huv _
  simp only [call]
  refine ⟨fun a b _ _ _ _ h1 h2 => by linarith, fun a h1 h2 h3 => ?_⟩
  exact mul_neg_of_neg_of_pos (by linarith) (by linarith)

noncomputable def at_ (j : ℕ) : St :=
  { roots := [], iter := j, iterSame := none, x00 := 0, dx := 1, x0 := j, y0 := j - 13/2 }

theorem walk (j : ℕ) (h : j < 6) : step (call (13/2)) (at_ j) = .inl (at_ (j + 1)) := by
  have hj : (j:ℝ) ≤ 5 := by exact_mod_cast (by omega : j ≤ 5)
  rw [step_walk (by simp [call, at_]) (by simp [call, at_]; omega) ?_]
  · congr 1
    simp [call, at_]
  · simp only [call, at_]
    have : 0 < ((j:ℝ) - 13/2) * (j + 1 - 13/2) := mul_pos_of_neg_of_neg (by linarith) (by linarith)
    linarith

theorem ends : Ends (call (13/2)) (.returned [13/2]) := by
  refine ⟨8, ?_⟩
  have h0 : start (call (13/2)) = at_ 0 := by simp [start, call, at_]
  have h6 : step (call (13/2)) (at_ 6) = .inl (accept (call (13/2)) (at_ 6) (1 / 1) ((6:ℕ) + 1) (((6:ℕ):ℝ) + 1 - 13/2) (13/2)) := by
    have := step_first (a := call (13/2)) (s := at_ 6) (by simp [call, at_]) (by simp [call, at_])
      (by norm_num [call, at_]) (by simp [at_]) rfl (by
        simp only [call, close]
        norm_num [abs_of_pos])
    exact this
  rw [h0]
  simp only [run, walk 0 (by norm_num), walk 1 (by norm_num), walk 2 (by norm_num), walk 3 (by norm_num),
    walk 4 (by norm_num), walk 5 (by norm_num), h6]
  rw [step_done (by simp [accept, at_, call])]
  rfl

example : [(13/2:ℝ)].length = 1 ∧ [(13/2:ℝ)].Pairwise (· < ·) ∧ ∀ r ∈ [(13/2:ℝ)], r - 13/2 = 0 ∧ 0 < r :=
  C103_sound (call (13/2)) (solves _) (by norm_num [call]) (by norm_num [call]) _ ends

example : ∀ z, (0:ℝ) < z → z - 13/2 = 0 → (∃ r ∈ [(13/2:ℝ)], z ≤ r) → z ∈ [(13/2:ℝ)] :=
  C103_first_n_partial (call (13/2)) (solves _) (by norm_num [call]) rfl (isolated _) _ ends

/-- `find_n_roots(lambda x: x, x0=0)` never ends -/
example : ¬ ∃ o, Ends (call 0) o := C104_negation_start (call 0) (by simp [call]) (by simp [call]) (by simp [call])

example : ∃ o, Ends (call 7) o :=
  C104_single_ends (call 7) (solves _) (by simp only [call]; fun_prop) rfl (by norm_num [call]) (by simp [call]) (by simp [call])

example : (∃ o, Ends (call 7) o) ↔ ¬ ∃ k s, run (call 7) k (start (call 7)) = .inl s ∧ OnRoot (call 7) s :=
  C104_ends_iff_partial (call 7) (solves _) (by simp only [call]; fun_prop) rfl (by norm_num [call]) (by simp [call])

example : (1e-8:ℝ) < |13/2| := C105_first_root_near_zero (call (13/2)) _ ends _ _ rfl

/-- `find_n_roots(lambda x: x, x0=-1)` gets no answer -/
example : ∃ e, Ends { call 0 with x0 := -1 } (.raised e) :=
  C105_no_answer _ (solves 0) (by simp only [call]; fun_prop) rfl (by norm_num [call]) rfl 0
    (fun x => by simp [call]) (by simp [call]; norm_num) (by norm_num)

end Ex

end Geotecha.Roots
