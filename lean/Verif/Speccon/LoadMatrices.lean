import Verif.Speccon.ThetaLemmas

/-!
# The load matrices solve `X + dT eig ∫ X = inverse(gam v) Q` (helpers for C77)
-/

set_option linter.unusedVariables false
open Real intervalIntegral MeasureTheory Filter Topology
namespace Geotecha.Speccon
open Geotecha.Spec Geotecha.Piecewise

/-- The loads given by `vs_time` and `omega_phase` are the functions of time `hs` (value, value just before `s`). -/
def Loads (vs_time : Option (List (PolyLine ℝ))) (om : Option (List Om)) (s tend : ℝ) (hs : List ((ℝ → ℝ) × ℝ)) : Prop :=
  match vs_time with
  | none => hs = []
  | some l => List.Forall₂ (fun q x => LoadHistory q.1 q.2 s tend x.1 x.2) (l.zip (omList l om)) hs

/-- The sum of the loads at time `t`. -/
def total (hs : List ((ℝ → ℝ) × ℝ)) (t : ℝ) : ℝ := (hs.map (fun x => x.1 t)).sum

/-- The sum of the loads just before the start. -/
def total0 (hs : List ((ℝ → ℝ) × ℝ)) : ℝ := (hs.map (fun x => x.2)).sum

/-- Entry `(i, t)` of a load matrix exists and solves the modal equation with right hand side `inverse(gam v) Q`. -/
def Solves (B : Basis) (s tend : ℝ) (g : ℕ → ℝ → Except PyErr ℝ) (Q : ℕ → ℝ → ℝ) : Prop :=
  ∀ i, i < B.m.length → ∃ X : ℝ → ℝ, IntervalIntegrable X volume s tend ∧ ∀ t, s ≤ t → t ≤ tend →
    g i t = .ok (X t) ∧ X t + B.dT * B.eigs i * (∫ r in s..t, X r) = dotV B.m.length B.Igamv (fun j => Q j t) i

variable {B : Basis} {s tend : ℝ} {g g1 g2 : ℕ → ℝ → Except PyErr ℝ} {Q Q1 Q2 : ℕ → ℝ → ℝ}

theorem int_sub {X : ℝ → ℝ} (h : IntervalIntegrable X volume s tend) {t : ℝ} (h1 : s ≤ t) (h2 : t ≤ tend) :
    IntervalIntegrable X volume s t :=
  h.mono_set (by rw [Set.uIcc_of_le h1, Set.uIcc_of_le (h1.trans h2)]; exact Set.Icc_subset_Icc_right h2)

theorem dotV_congr {n : ℕ} {A : ℕ → ℕ → ℝ} {th th' : ℕ → ℝ} (h : ∀ j, j < n → th j = th' j) (i : ℕ) : dotV n A th i = dotV n A th' i :=
  Finset.sum_congr rfl (fun j hj => by rw [h j (Finset.mem_range.1 hj)])

theorem Solves.congr (h : Solves B s tend g Q) (hQ : ∀ j, j < B.m.length → ∀ t, s ≤ t → t ≤ tend → Q j t = Q1 j t) :
    Solves B s tend g Q1 := by
  intro i hi
  obtain ⟨X, h1, h2⟩ := h i hi
  refine ⟨X, h1, fun t ht1 ht2 => ⟨(h2 t ht1 ht2).1, ?_⟩⟩
  rw [(h2 t ht1 ht2).2]
  exact dotV_congr (fun j hj => hQ j hj t ht1 ht2) i

theorem Solves.congr_fun (h : Solves B s tend g Q) (hg : ∀ i, i < B.m.length → ∀ t, s ≤ t → t ≤ tend → g1 i t = g i t) :
    Solves B s tend g1 Q := by
  intro i hi
  obtain ⟨X, h1, h2⟩ := h i hi
  exact ⟨X, h1, fun t ht1 ht2 => ⟨(hg i hi t ht1 ht2).trans (h2 t ht1 ht2).1, (h2 t ht1 ht2).2⟩⟩

theorem Solves.zero : Solves B s tend (fun _ _ => .ok 0) (fun _ _ => 0) := by
  intro i hi
  refine ⟨fun _ => 0, intervalIntegrable_const, fun t _ _ => ⟨rfl, ?_⟩⟩
  simp [dotV]

theorem Solves.add (h1 : Solves B s tend g1 Q1) (h2 : Solves B s tend g2 Q2) :
    Solves B s tend (fun i t => do let x ← g1 i t; let y ← g2 i t; pure (x + y)) (fun j t => Q1 j t + Q2 j t) := by
  intro i hi
  obtain ⟨X, a1, a2⟩ := h1 i hi
  obtain ⟨Y, b1, b2⟩ := h2 i hi
  refine ⟨fun t => X t + Y t, a1.add b1, fun t ht1 ht2 => ⟨?_, ?_⟩⟩
  · simp only [(a2 t ht1 ht2).1, (b2 t ht1 ht2).1]; rfl
  · rw [intervalIntegral.integral_add (int_sub a1 ht1 ht2) (int_sub b1 ht1 ht2)]
    have e : dotV B.m.length B.Igamv (fun j => Q1 j t + Q2 j t) i = dotV B.m.length B.Igamv (fun j => Q1 j t) i +
        dotV B.m.length B.Igamv (fun j => Q2 j t) i := by
      simp only [dotV, mul_add, Finset.sum_add_distrib]
    rw [e, ← (a2 t ht1 ht2).2, ← (b2 t ht1 ht2).2]
    ring

theorem Solves.smul (c : ℝ) (h1 : Solves B s tend g1 Q1) :
    Solves B s tend (fun i t => do let x ← g1 i t; pure (c * x)) (fun j t => c * Q1 j t) := by
  intro i hi
  obtain ⟨X, a1, a2⟩ := h1 i hi
  refine ⟨fun t => c * X t, a1.const_mul c, fun t ht1 ht2 => ⟨?_, ?_⟩⟩
  · simp only [(a2 t ht1 ht2).1]; rfl
  · rw [intervalIntegral.integral_const_mul]
    have e : dotV B.m.length B.Igamv (fun j => c * Q1 j t) i = c * dotV B.m.length B.Igamv (fun j => Q1 j t) i := by
      simp only [dotV, Finset.mul_sum]
      exact Finset.sum_congr rfl (fun j _ => by ring)
    rw [e, ← (a2 t ht1 ht2).2]
    ring

theorem dotV_smul (n : ℕ) (A : ℕ → ℕ → ℝ) (th : ℕ → ℝ) (c : ℝ) (i : ℕ) : dotV n A (fun j => th j * c) i = c * dotV n A th i := by
  simp only [dotV, Finset.mul_sum]
  exact Finset.sum_congr rfl (fun j _ => by ring)

/-- One load through `pEload`. -/
theorem Solves.value {p : PolyLine ℝ} {om : Om} {h : ℝ → ℝ} {h0 : ℝ} (H : LoadHistory p om s tend h h0)
    (hB : ∀ i, i < B.m.length → B.dT * B.eigs i ≠ 0) (th : ℕ → ℝ) :
    Solves B s tend (fun i t => do let e ← pEload B.impl p om B.dT (B.eigs i) t; pure (B.entry e th i))
      (fun j t => th j * ∫ r in s..t, h r) := by
  intro i hi
  obtain ⟨F, h1, h2, h3⟩ := H.solve.2.2.1 B.dT (B.eigs i) (hB i hi)
  refine ⟨fun t => F t * dotV B.m.length B.Igamv th i, (h1.mul continuous_const).intervalIntegrable _ _, fun t ht1 ht2 => ⟨?_, ?_⟩⟩
  · simp only [h2 B.impl t ht1 ht2, Basis.entry]; rfl
  · rw [intervalIntegral.integral_mul_const, dotV_smul, ← h3 t ht1 ht2]
    ring

/-- One load through `pEDload`. -/
theorem Solves.rate {p : PolyLine ℝ} {om : Om} {h : ℝ → ℝ} {h0 : ℝ} (H : LoadHistory p om s tend h h0)
    (hB : ∀ i, i < B.m.length → B.dT * B.eigs i ≠ 0) (th : ℕ → ℝ) :
    Solves B s tend (fun i t => do let e ← pEDload B.impl p om B.dT (B.eigs i) t; pure (B.entry e th i))
      (fun j t => th j * (h t - h0)) := by
  intro i hi
  obtain ⟨F, h1, h2, h3⟩ := H.solve.2.2.2 B.dT (B.eigs i) (hB i hi)
  refine ⟨fun t => F t * dotV B.m.length B.Igamv th i, (h1 _ _).mul_const _, fun t ht1 ht2 => ⟨?_, ?_⟩⟩
  · simp only [h2 B.impl t ht1 ht2, Basis.entry]; rfl
  · rw [intervalIntegral.integral_mul_const, dotV_smul, ← h3 t ht1 ht2]
    ring

theorem Solves.sumM {α β : Type} {R : α → β → Prop} {f : α → ℕ → ℝ → Except PyErr ℝ} {Qf : β → ℕ → ℝ → ℝ} :
    ∀ {l : List α} {hs : List β}, List.Forall₂ R l hs → (∀ q x, q ∈ l → R q x → Solves B s tend (f q) (Qf x)) →
    Solves B s tend (fun i t => sumM (fun q => f q i t) l) (fun j t => (hs.map (fun x => Qf x j t)).sum) := by
  intro l hs h
  induction h with
  | nil => intro _; simpa [Speccon.sumM] using Solves.zero
  | @cons q x l hs h1 h2 ih =>
    intro H
    have a := H q x (by simp) h1
    have b := ih (fun q x hq hr => H q x (by simp [hq]) hr)
    simpa [Speccon.sumM] using a.add b

theorem sum_mul_left {α : Type} (l : List α) (f : α → ℝ) (c : ℝ) : (l.map (fun x => c * f x)).sum = c * (l.map f).sum := by
  induction l with
  | nil => simp
  | cons a l ih => simp only [List.map_cons, List.sum_cons, ih]; ring

theorem forall₂_right {α β : Type} {R : α → β → Prop} {P : β → Prop} {l : List α} {r : List β} (h : List.Forall₂ R l r)
    (hP : ∀ a b, R a b → P b) : ∀ b ∈ r, P b := by
  induction h with
  | nil => intro b hb; simp at hb
  | cons h1 h2 ih =>
    intro b hb
    rcases List.mem_cons.1 hb with rfl | hb
    · exact hP _ _ h1
    · exact ih b hb

theorem Loads.hist {vs : Option (List (PolyLine ℝ))} {om : Option (List Om)} {hs : List ((ℝ → ℝ) × ℝ)} (h : Loads vs om s tend hs) :
    ∀ x ∈ hs, ∃ p o, LoadHistory p o s tend x.1 x.2 := by
  cases vs with
  | none => intro x hx; rw [show hs = [] from h] at hx; simp at hx
  | some l => exact forall₂_right h (fun a b hab => ⟨_, _, hab⟩)

theorem integral_total {hs : List ((ℝ → ℝ) × ℝ)} {t : ℝ} (h : ∀ x ∈ hs, IntervalIntegrable x.1 volume s t) :
    IntervalIntegrable (total hs) volume s t ∧ ∫ r in s..t, total hs r = (hs.map (fun x => ∫ r in s..t, x.1 r)).sum := by
  induction hs with
  | nil =>
    have : total ([] : List ((ℝ → ℝ) × ℝ)) = fun _ => 0 := by funext t; simp [total]
    rw [this]; simp
  | cons x hs ih =>
    obtain ⟨h1, h2⟩ := ih (fun y hy => h y (by simp [hy]))
    have e : total (x :: hs) = fun r => x.1 r + total hs r := by funext r; simp [total]
    rw [e]
    exact ⟨(h x (by simp)).add h1, by rw [intervalIntegral.integral_add (h x (by simp)) h1, h2]; simp⟩

theorem Loads.total_int {vs : Option (List (PolyLine ℝ))} {om : Option (List Om)} {hs : List ((ℝ → ℝ) × ℝ)} (h : Loads vs om s tend hs)
    {t : ℝ} (h1 : s ≤ t) (h2 : t ≤ tend) :
    IntervalIntegrable (total hs) volume s t ∧ ∫ r in s..t, total hs r = (hs.map (fun x => ∫ r in s..t, x.1 r)).sum := by
  refine integral_total (fun x hx => ?_)
  obtain ⟨p, o, H⟩ := h.hist x hx
  exact H.solve.2.1 t h1 h2

/-- Boundary loads through `pEload`. -/
theorem bcLoop_value {vs : Option (List (PolyLine ℝ))} {om : Option (List Om)} {hs : List ((ℝ → ℝ) × ℝ)} (hl : Loads vs om s tend hs)
    (hB : ∀ i, i < B.m.length → B.dT * B.eigs i ≠ 0) {theta : Except PyErr (ℕ → ℝ)} {th : ℕ → ℝ} (hth : theta = .ok th) :
    Solves B s tend (bcLoop B pEload theta vs om) (fun j t => th j * ∫ r in s..t, total hs r) := by
  subst hth
  cases vs with
  | none =>
    have : hs = [] := hl
    subst this
    refine Solves.congr (Q := fun _ _ => 0) Solves.zero (fun j _ t _ _ => ?_)
    simp [total]
  | some l =>
    refine Solves.congr (Q := fun j t => (hs.map (fun x => th j * ∫ r in s..t, x.1 r)).sum) ?_ (fun j _ t h1 h2 => ?_)
    · exact Solves.sumM (Qf := fun x j t => th j * ∫ r in s..t, x.1 r) hl (fun q x _ hq => Solves.value hq hB th)
    · rw [(hl.total_int h1 h2).2]
      exact sum_mul_left hs _ _

/-- Boundary loads through `pEDload`. -/
theorem bcLoop_rate {vs : Option (List (PolyLine ℝ))} {om : Option (List Om)} {hs : List ((ℝ → ℝ) × ℝ)} (hl : Loads vs om s tend hs)
    (hB : ∀ i, i < B.m.length → B.dT * B.eigs i ≠ 0) {theta : Except PyErr (ℕ → ℝ)} {th : ℕ → ℝ} (hth : theta = .ok th) :
    Solves B s tend (bcLoop B pEDload theta vs om) (fun j t => th j * (total hs t - total0 hs)) := by
  subst hth
  cases vs with
  | none =>
    have : hs = [] := hl
    subst this
    refine Solves.congr (Q := fun _ _ => 0) Solves.zero (fun j _ t _ _ => ?_)
    simp [total, total0]
  | some l =>
    refine Solves.congr (Q := fun j t => (hs.map (fun x => th j * (x.1 t - x.2))).sum) ?_ (fun j _ t h1 h2 => ?_)
    · exact Solves.sumM (Qf := fun x j t => th j * (x.1 t - x.2)) hl (fun q x _ hq => Solves.rate hq hB th)
    · rw [sum_mul_left]
      congr 1
      unfold total total0
      generalize hs = l'
      induction l' with
      | nil => simp
      | cons a l ih => simp only [List.map_cons, List.sum_cons, ih]; ring

variable {S : Set ℝ}

/-- The boundary loads of the problem. -/
structure BoundaryLoads (b : Boundary) (s tend : ℝ) (tops bots : List ((ℝ → ℝ) × ℝ)) : Prop where
  drn : b.drn = 0 ∨ b.drn = 1
  top : Loads b.top b.topOm s tend tops
  bot : Loads b.bot b.botOm s tend bots

theorem bcADfDt_solves (hS : TolSep S) {b : Boundary} {tops bots : List ((ℝ → ℝ) × ℝ)} (hb : BoundaryLoads b s tend tops bots)
    (hB : ∀ i, i < B.m.length → B.dT * B.eigs i ≠ 0) (hm : ∀ v ∈ B.m, v ≠ 0) {a : PolyLine ℝ} {f : ℝ → ℝ} (ha : Profile S a f) :
    Solves B s tend (bcADfDt B b (some a)) (fun j t =>
      (∫ z in (0:ℝ)..1, f z * (1 + (b.drn - 1 : ℝ) * z) * sin (B.m.getD j 0 * z)) * (total tops t - total0 tops)
      + (∫ z in (0:ℝ)..1, f z * z * sin (B.m.getD j 0 * z)) * (total bots t - total0 bots)) := by
  obtain ⟨q, hq, hqp⟩ := zdistTop_ok ha b.drn hb.drn
  obtain ⟨r, hr, hrp⟩ := zdistBot_ok ha
  obtain ⟨t1, e1, h1⟩ := pAb_ok hS ha hqp hm
  obtain ⟨t2, e2, h2⟩ := pAb_ok hS ha hrp hm
  have := (bcLoop_rate hb.top hB e1).add (bcLoop_rate (theta := do pAb B.m a (← zdistBot a)) hb.bot hB (by rw [hr]; exact e2))
  refine (this.congr (fun j hj t _ _ => by rw [h1 j hj, h2 j hj])).congr_fun (fun i _ t _ _ => ?_)
  unfold bcADfDt
  simp only [hq]
  rfl

theorem bcAbf_solves (hS : TolSep S) {b : Boundary} {tops bots : List ((ℝ → ℝ) × ℝ)} (hb : BoundaryLoads b s tend tops bots)
    (hB : ∀ i, i < B.m.length → B.dT * B.eigs i ≠ 0) (hm : ∀ v ∈ B.m, v ≠ 0) {a c : PolyLine ℝ} {f g : ℝ → ℝ} (ha : Profile S a f)
    (hc : Profile S c g) :
    Solves B s tend (bcAbf B b (some a) (some c)) (fun j t =>
      (∫ z in (0:ℝ)..1, f z * g z * (1 + (b.drn - 1 : ℝ) * z) * sin (B.m.getD j 0 * z)) * (∫ r in s..t, total tops r)
      + (∫ z in (0:ℝ)..1, f z * g z * z * sin (B.m.getD j 0 * z)) * (∫ r in s..t, total bots r)) := by
  obtain ⟨a', c', zt, zb, y1, y2, w1, w2, e, ha', hc', _⟩ := common2 hS ha hc
  obtain ⟨q, hq, hqp⟩ := zdistTop_ok ha' b.drn hb.drn
  obtain ⟨r, hr, hrp⟩ := zdistBot_ok ha'
  obtain ⟨t1, e1, h1⟩ := pAbc_ok hS ha' hc' hqp hm
  obtain ⟨t2, e2, h2⟩ := pAbc_ok hS ha' hc' hrp hm
  have := (bcLoop_value hb.top hB e1).add (bcLoop_value (theta := do pAbc B.m a' c' (← zdistBot a')) hb.bot hB (by rw [hr]; exact e2))
  refine (this.congr (fun j hj t _ _ => by rw [h1 j hj, h2 j hj])).congr_fun (fun i _ t _ _ => ?_)
  unfold bcAbf
  simp only [e, Bind.bind, Except.bind, hq]

theorem bcDaDf_solves (hS : TolSep S) {b : Boundary} {tops bots : List ((ℝ → ℝ) × ℝ)} (hb : BoundaryLoads b s tend tops bots)
    (hB : ∀ i, i < B.m.length → B.dT * B.eigs i ≠ 0) (hm : ∀ v ∈ B.m, v ≠ 0) {a : PolyLine ℝ} {f : ℝ → ℝ} (ha : Profile S a f)
    {kend : ℝ} (hk : Tendsto f (𝓝[<] 1) (𝓝 kend)) :
    Solves B s tend (bcDaDf B b (some a)) (fun j t =>
      (kend * (b.drn - 1 : ℝ) * sin (B.m.getD j 0) - ∫ z in (0:ℝ)..1, f z * (b.drn - 1 : ℝ) * (B.m.getD j 0 * cos (B.m.getD j 0 * z)))
        * (∫ r in s..t, total tops r)
      + (kend * 1 * sin (B.m.getD j 0) - ∫ z in (0:ℝ)..1, f z * 1 * (B.m.getD j 0 * cos (B.m.getD j 0 * z)))
        * (∫ r in s..t, total bots r)) := by
  obtain ⟨q, hq, hqp⟩ := zdistTop_ok ha b.drn hb.drn
  obtain ⟨r, hr, hrp⟩ := zdistBot_ok ha
  obtain ⟨t1, e1, h1⟩ := pDaDb_ok hS ha hqp hm hk
  obtain ⟨t2, e2, h2⟩ := pDaDb_ok (e := 0) (d := 1) hS ha (hrp.congr (fun z _ _ => by ring)) hm hk
  have := (bcLoop_value hb.top hB e1).add (bcLoop_value (theta := do pDaDb B.m a (← zdistBot a)) hb.bot hB (by rw [hr]; exact e2))
  refine (this.congr (fun j hj t _ _ => by rw [h1 j hj, h2 j hj])).congr_fun (fun i _ t _ _ => ?_)
  unfold bcDaDf
  simp only [hq]
  rfl

theorem dotV_listSum {α : Type} (n : ℕ) (A : ℕ → ℕ → ℝ) (l : List α) (th : α → ℕ → ℝ) (i : ℕ) :
    dotV n A (fun j => (l.map (fun q => th q j)).sum) i = (l.map (fun q => dotV n A (th q) i)).sum := by
  induction l with
  | nil => simp [dotV]
  | cons a l ih =>
    simp only [List.map_cons, List.sum_cons, ← ih]
    simp only [dotV, mul_add, Finset.sum_add_distrib]

theorem entry_sum (B : Basis) (e : ℝ) {α : Type} (l : List α) (th : α → ℕ → ℝ) (i : ℕ) :
    (l.map (fun q => B.entry e (th q) i)).sum = B.entry e (fun j => (l.map (fun q => th q j)).sum) i := by
  unfold Basis.entry
  rw [dotV_listSum, sum_mul_left]

theorem bcDeltaf_solves {b : Boundary} {tops bots : List ((ℝ → ℝ) × ℝ)} (hb : BoundaryLoads b s tend tops bots)
    (hB : ∀ i, i < B.m.length → B.dT * B.eigs i ≠ 0) (pts : List (ℝ × ℝ)) :
    Solves B s tend (bcDeltaf B b pts) (fun j t =>
      (pts.map (fun zk => zk.2 * sin (zk.1 * B.m.getD j 0) * (1 - zk.1 * (1 - b.drn)))).sum * (∫ r in s..t, total tops r)
      + (pts.map (fun zk => zk.2 * sin (zk.1 * B.m.getD j 0) * zk.1)).sum * (∫ r in s..t, total bots r)) := by
  have h1 := bcLoop_value (theta := .ok (fun j => (pts.map (fun zk => zk.2 * sin (zk.1 * B.m.getD j 0) * (1 - zk.1 * (1 - b.drn)))).sum))
    hb.top hB rfl
  have h2 := bcLoop_value (theta := .ok (fun j => (pts.map (fun zk => zk.2 * sin (zk.1 * B.m.getD j 0) * zk.1)).sum))
    hb.bot hB rfl
  refine (h1.add h2).congr_fun (fun i _ t _ _ => ?_)
  unfold bcDeltaf bcLoop
  simp only [entry_sum]
  rfl

/-- Depth profile and history of one load `f(z) g(t)`. -/
def DepthLoad (S : Set ℝ) (s tend : ℝ) (q : PolyLine ℝ × PolyLine ℝ × Om) (x : (ℝ → ℝ) × (ℝ → ℝ) × ℝ) : Prop :=
  Profile S q.2.1 x.1 ∧ LoadHistory q.1 q.2.2 s tend x.2.1 x.2.2

theorem aDmagDt_solves (hS : TolSep S) (hB : ∀ i, i < B.m.length → B.dT * B.eigs i ≠ 0) (hm : ∀ v ∈ B.m, v ≠ 0) {f : ℝ → ℝ} :
    ∀ {l : List (PolyLine ℝ × PolyLine ℝ × Om)} {hs : List ((ℝ → ℝ) × (ℝ → ℝ) × ℝ)}, List.Forall₂ (DepthLoad S s tend) l hs →
    ∀ {a : PolyLine ℝ}, Profile S a f →
    Solves B s tend (fun i t => aDmagDtLoop B a i t l) (fun j t =>
      (hs.map (fun x => (∫ z in (0:ℝ)..1, f z * x.1 z * sin (B.m.getD j 0 * z)) * (x.2.1 t - x.2.2))).sum) := by
  intro l hs h
  induction h with
  | nil => intro a _; simpa [aDmagDtLoop] using Solves.zero
  | @cons q x l hs h1 h2 ih =>
    intro a ha
    obtain ⟨a', z', zt, zb, y1, y2, w1, w2, e, ha', hz', _⟩ := common2 hS ha h1.1
    obtain ⟨th, et, hth⟩ := pAb_ok hS ha' hz' hm
    have c1 := (Solves.rate h1.2 hB th).add (ih ha')
    refine (c1.congr (Q1 := fun j t => ((x :: hs).map (fun x => (∫ z in (0:ℝ)..1, f z * x.1 z * sin (B.m.getD j 0 * z)) * (x.2.1 t - x.2.2))).sum)
      (fun j hj t _ _ => by rw [hth j hj, List.map_cons, List.sum_cons])).congr_fun (fun i _ t _ _ => ?_)
    obtain ⟨q1, q2, q3⟩ := q
    dsimp only at e et ⊢
    rw [aDmagDtLoop]
    simp only [e, Bind.bind, Except.bind, et, pure, Except.pure]
    cases pEDload B.impl q1 q3 B.dT (B.eigs i) t <;> rfl

theorem abmag_solves (hS : TolSep S) (hB : ∀ i, i < B.m.length → B.dT * B.eigs i ≠ 0) (hm : ∀ v ∈ B.m, v ≠ 0) {f g : ℝ → ℝ} :
    ∀ {l : List (PolyLine ℝ × PolyLine ℝ × Om)} {hs : List ((ℝ → ℝ) × (ℝ → ℝ) × ℝ)}, List.Forall₂ (DepthLoad S s tend) l hs →
    ∀ {a b : PolyLine ℝ}, Profile S a f → Profile S b g →
    Solves B s tend (fun i t => abmagLoop B a b i t l) (fun j t =>
      (hs.map (fun x => (∫ z in (0:ℝ)..1, f z * g z * x.1 z * sin (B.m.getD j 0 * z)) * (∫ r in s..t, x.2.1 r))).sum) := by
  intro l hs h
  induction h with
  | nil => intro a b _ _; simpa [abmagLoop] using Solves.zero
  | @cons q x l hs h1 h2 ih =>
    intro a b ha hb
    obtain ⟨a', b', z', zt, zb, y1, y2, w1, w2, x1, x2, e, ha', hb', hz', _⟩ := common3 hS ha hb h1.1
    obtain ⟨th, et, hth⟩ := pAbc_ok hS ha' hb' hz' hm
    have c1 := (Solves.value h1.2 hB th).add (ih ha' hb')
    refine (c1.congr (Q1 := fun j t => ((x :: hs).map (fun x => (∫ z in (0:ℝ)..1, f z * g z * x.1 z * sin (B.m.getD j 0 * z)) * (∫ r in s..t, x.2.1 r))).sum)
      (fun j hj t _ _ => by rw [hth j hj, List.map_cons, List.sum_cons])).congr_fun (fun i _ t _ _ => ?_)
    obtain ⟨q1, q2, q3⟩ := q
    dsimp only at e et ⊢
    rw [abmagLoop]
    simp only [e, Bind.bind, Except.bind, et, pure, Except.pure]
    cases pEload B.impl q1 q3 B.dT (B.eigs i) t <;> rfl

/-- One point load: `(z, k, mag)` with its time history `h` (zero if `mag` is `None`). -/
def PointLoad (s tend : ℝ) (q : (ℝ × ℝ × Option (PolyLine ℝ)) × Om) (x : ℝ × ℝ × (ℝ → ℝ)) : Prop :=
  q.1.1 = x.1 ∧ q.1.2.1 = x.2.1 ∧
    match q.1.2.2 with
    | none => ∀ t, x.2.2 t = 0
    | some p => ∃ h0, LoadHistory p q.2 s tend x.2.2 h0

theorem deltamag_solves (hB : ∀ i, i < B.m.length → B.dT * B.eigs i ≠ 0) {loads : List (ℝ × ℝ × Option (PolyLine ℝ))} {om : Option (List Om)}
    {hs : List (ℝ × ℝ × (ℝ → ℝ))} (h : List.Forall₂ (PointLoad s tend) (loads.zip (omList loads om)) hs) :
    Solves B s tend (deltamag B loads om) (fun j t =>
      (hs.map (fun x => x.2.1 * sin (x.1 * B.m.getD j 0) * (∫ r in s..t, x.2.2 r))).sum) := by
  unfold deltamag
  refine Solves.sumM (Qf := fun x j t => x.2.1 * sin (x.1 * B.m.getD j 0) * ∫ r in s..t, x.2.2 r) h (fun q x _ hq => ?_)
  obtain ⟨⟨z, k, p⟩, om⟩ := q
  obtain ⟨h1, h2, h3⟩ := hq
  cases p with
  | none =>
    refine Solves.congr (Q := fun _ _ => 0) Solves.zero (fun j _ t _ _ => ?_)
    have : (∫ r in s..t, x.2.2 r) = 0 := by
      rw [show x.2.2 = fun _ => 0 from funext h3]; simp
    rw [this]; ring
  | some p =>
    obtain ⟨h0, H⟩ := h3
    refine (Solves.value H hB (fun j => k * sin (z * B.m.getD j 0))).congr (fun j _ t _ _ => ?_)
    dsimp only at h1 h2
    rw [h1, h2]

end Geotecha.Speccon
