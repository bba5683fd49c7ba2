import Verif.Constitutive.Model
import Verif.Constitutive.ModelSwcc
import Verif.Constitutive.Pwise
import Mathlib.Tactic.Linarith
import Mathlib.Tactic.FieldSimp
import Mathlib.Tactic.NormNum

/-!
# The curves for plotting of the soil models

`..._for_plotting` of void_ratio_stress.py, void_ratio_permeability.py, velocity_hydraulic_gradient.py and swcc.py: the arrays `x`, `y`.
-/

set_option autoImplicit false
set_option linter.unusedVariables false

namespace Geotecha.Const

/-- `np.linspace(a, b, n)`. -/
noncomputable def lin (a b : ℝ) (n : ℕ) : List ℝ := (List.range n).map fun i : ℕ => a + (i : ℝ) * ((b - a) / ((n : ℝ) - 1))

/-- `np.logspace(np.log10(a), np.log10(b), n)`, swcc.py:303, 677. -/
noncomputable def logs (a b : ℝ) (n : ℕ) : List ℝ := (lin (log10 a) (log10 b) n).map fun v => (10 : ℝ) ^ v

/-- `AvSoilModel.e_and_stress_for_plotting`, void_ratio_stress.py:156-161. -/
noncomputable def avPlot (av siga ea xmin xmax : ℝ) (npts : ℕ) : List ℝ × List ℝ :=
  (lin xmin xmax npts, (lin xmin xmax npts).map (avE av siga ea))

/-- `CcCrSoilModel.e_and_stress_for_plotting`, void_ratio_stress.py:343-352, for `xmin ≤ xmax` (`searchsorted` needs sorted values).  Without
`pstress` every point replaces itself and is normally consolidated. -/
noncomputable def CcCr.plot (m : CcCr) (xmin xmax : ℝ) (npts : ℕ) (pstress : Option ℝ) : Except PyErr (List ℝ × List ℝ) :=
  let x := lin xmin xmax npts
  match pstress with
  | none => .ok (x, x.map fun s => m.eFromStress s (some s))
  | some p =>
    let i := searchsorted x p
    if i < x.length then .ok (x.set i p, (x.set i p).map fun s => m.eFromStress s (some p)) else .error .indexError

/-- `np.min` and `np.max`. -/
noncomputable def npMin : List ℝ → Except PyErr ℝ
  | [] => .error .valueError
  | a :: l => .ok (l.foldl min a)
noncomputable def npMax : List ℝ → Except PyErr ℝ
  | [] => .error .valueError
  | a :: l => .ok (l.foldl max a)

/-- `PwiseLinearSoilModel.e_and_stress_for_plotting`, void_ratio_stress.py:816-823: the arguments `xmin` and `xmax` are not read. -/
noncomputable def PwData.plotStress (d : PwData) (Cr : ℝ) (npts : ℕ) (pstress : Option ℝ) : Except PyErr (List ℝ × List ℝ) := do
  let lo ← npMin d.xs
  let hi ← npMax d.xs
  let x := lin lo hi npts
  pure (x, x.map fun s => d.eFromStress Cr s (some (pstress.getD s)))

/-- `PwiseLinearPermeabilityModel.e_and_k_for_plotting`, void_ratio_permeability.py:473-479. -/
noncomputable def PwData.plotK (d : PwData) (npts : ℕ) : Except PyErr (List ℝ × List ℝ) := do
  let lo ← npMin d.xs
  let hi ← npMax d.xs
  let x := lin lo hi npts
  pure (x, x.map d.eFromK)

/-- `CkPermeabilityModel.e_and_k_for_plotting`, void_ratio_permeability.py:152-157. -/
noncomputable def CkModel.plot (m : CkModel) (xmin xmax : ℝ) (npts : ℕ) : List ℝ × List ℝ := (lin xmin xmax npts, (lin xmin xmax npts).map m.eFromK)

/-- `v_and_i_for_plotting`, velocity_hydraulic_gradient.py:267-272 and 738-743. -/
noncomputable def darcyPlot (k xmin xmax : ℝ) (npts : ℕ) : List ℝ × List ℝ := (lin xmin xmax npts, (lin xmin xmax npts).map (darcyV k))
noncomputable def Hansbo.plot (m : Hansbo) (xmin xmax : ℝ) (npts : ℕ) : List ℝ × List ℝ := (lin xmin xmax npts, (lin xmin xmax npts).map m.vFromI)

/-- `psi_and_w_for_plotting`, swcc.py:300-305 and 674-679. -/
noncomputable def FX.plot (s : FX) (xmin xmax : ℝ) (npts : ℕ) : List ℝ × List ℝ := (logs xmin xmax npts, (logs xmin xmax npts).map s.w)
noncomputable def PF.plot (s : PF) (xmin xmax : ℝ) (npts : ℕ) : List ℝ × List ℝ := (logs xmin xmax npts, (logs xmin xmax npts).map s.w)

namespace Spec

/-- `n ≥ 2` points of the graph of `f` from `lo` to `hi`, in order. -/
structure Graph (f : ℝ → ℝ) (lo hi : ℝ) (n : ℕ) (xy : List ℝ × List ℝ) : Prop where
  lengths : xy.1.length = n ∧ xy.2.length = n
  onCurve : ∀ q ∈ xy.1.zip xy.2, q.2 = f q.1
  inRange : ∀ x ∈ xy.1, lo ≤ x ∧ x ≤ hi
  ordered : xy.1.Pairwise (· ≤ ·)
  first : xy.1.head? = some lo
  last : xy.1.getLast? = some hi

end Spec

theorem onCurve_map (f : ℝ → ℝ) (x : List ℝ) : ∀ q ∈ x.zip (x.map f), q.2 = f q.1 := by
  intro q hq
  rw [List.zip_map_right, List.mem_map] at hq
  obtain ⟨⟨a, b⟩, hab, rfl⟩ := hq
  have : a = b := by
    rw [List.zip_eq_zipWith] at hab
    induction x with
    | nil => simp at hab
    | cons c l ih =>
      simp only [List.zipWith_cons_cons, List.mem_cons, Prod.mk.injEq] at hab
      rcases hab with ⟨rfl, rfl⟩ | h
      · rfl
      · exact ih h
  subst this
  rfl

theorem lin_length (a b : ℝ) (n : ℕ) : (lin a b n).length = n := by simp [lin]

theorem lin_sorted {a b : ℝ} (h : a ≤ b) (n : ℕ) : (lin a b n).Pairwise (· ≤ ·) := by
  rcases Nat.lt_or_ge n 2 with h2 | h2
  · have : n = 0 ∨ n = 1 := by omega
    rcases this with rfl | rfl <;> simp [lin]
  unfold lin
  rw [List.pairwise_map]
  refine List.Pairwise.imp ?_ (List.pairwise_lt_range (n := n))
  intro i j hij
  have h3 : (2:ℝ) ≤ n := by exact_mod_cast h2
  have hn : (0:ℝ) < (n:ℝ) - 1 := by linarith
  have hd : 0 ≤ (b - a) / ((n:ℝ) - 1) := div_nonneg (by linarith) hn.le
  have : (i:ℝ) ≤ j := by exact_mod_cast hij.le
  nlinarith

theorem lin_first (a b : ℝ) {n : ℕ} (hn : 0 < n) : (lin a b n).head? = some a := by
  obtain ⟨m, rfl⟩ : ∃ m, n = m + 1 := ⟨n - 1, by omega⟩
  simp [lin, List.range_succ_eq_map]

theorem lin_last (a b : ℝ) {n : ℕ} (hn : 2 ≤ n) : (lin a b n).getLast? = some b := by
  obtain ⟨m, rfl⟩ : ∃ m, n = m + 1 := ⟨n - 1, by omega⟩
  have hm : (m:ℝ) ≠ 0 := by exact_mod_cast (by omega : m ≠ 0)
  simp only [lin, List.range_succ, List.map_append, List.map_cons, List.map_nil, List.getLast?_append, List.getLast?_singleton,
    Option.some_or, Option.some.injEq, Nat.cast_add, Nat.cast_one, add_sub_cancel_right]
  field_simp
  ring

theorem mem_range_of_sorted {l : List ℝ} {a b : ℝ} (hs : l.Pairwise (· ≤ ·)) (h1 : l.head? = some a) (h2 : l.getLast? = some b) :
    ∀ x ∈ l, a ≤ x ∧ x ≤ b := by
  intro x hx
  constructor
  · cases l with
    | nil => cases h1
    | cons c l =>
      simp only [List.head?_cons, Option.some.injEq] at h1
      subst h1
      rcases List.mem_cons.1 hx with rfl | h
      · exact le_rfl
      · exact (List.pairwise_cons.1 hs).1 x h
  · obtain ⟨ys, rfl⟩ := List.getLast?_eq_some_iff.1 h2
    rcases List.mem_append.1 hx with h | h
    · exact (List.pairwise_append.1 hs).2.2 x h b (by simp)
    · rw [List.mem_singleton.1 h]

theorem graph_of {f : ℝ → ℝ} {lo hi : ℝ} {n : ℕ} {x : List ℝ} (hl : x.length = n) (hs : x.Pairwise (· ≤ ·)) (h1 : x.head? = some lo)
    (h2 : x.getLast? = some hi) : Spec.Graph f lo hi n (x, x.map f) :=
  ⟨⟨hl, by simpa using hl⟩, onCurve_map f x, mem_range_of_sorted hs h1 h2, hs, h1, h2⟩

theorem graph_lin (f : ℝ → ℝ) {lo hi : ℝ} (h : lo ≤ hi) {n : ℕ} (hn : 2 ≤ n) : Spec.Graph f lo hi n (lin lo hi n, (lin lo hi n).map f) :=
  graph_of (lin_length _ _ _) (lin_sorted h n) (lin_first _ _ (by omega)) (lin_last _ _ hn)

theorem logs_first {a b : ℝ} (ha : 0 < a) {n : ℕ} (hn : 0 < n) : (logs a b n).head? = some a := by
  unfold logs
  rw [List.head?_map, lin_first _ _ hn]
  simp [log10, Real.rpow_logb, ha]

theorem logs_last {a b : ℝ} (hb : 0 < b) {n : ℕ} (hn : 2 ≤ n) : (logs a b n).getLast? = some b := by
  unfold logs
  rw [List.getLast?_map, lin_last _ _ hn]
  simp [log10, Real.rpow_logb, hb]

theorem graph_logs (f : ℝ → ℝ) {lo hi : ℝ} (h0 : 0 < lo) (h : lo ≤ hi) {n : ℕ} (hn : 2 ≤ n) :
    Spec.Graph f lo hi n (logs lo hi n, (logs lo hi n).map f) := by
  refine graph_of (by simp [logs, lin_length]) ?_ (logs_first h0 (by omega)) (logs_last (h0.trans_le h) hn)
  unfold logs
  rw [List.pairwise_map]
  refine (lin_sorted (Real.logb_le_logb_of_le (by norm_num) h0 h) n).imp ?_
  intro a b hab
  exact Real.rpow_le_rpow_of_exponent_le (by norm_num) hab

/-- **C239.**  The points for plotting are `npts ≥ 2` points of the relation the object stands for, in increasing order from `xmin` to `xmax`:
void ratio against stress of `AvSoilModel`, against permeability of `CkPermeabilityModel`, velocity against gradient of both flow models, and
water content against suction of both soil-water curves (for `0 < xmin`). -/
theorem C239_graphs (n : ℕ) (hn : 2 ≤ n) (lo hi : ℝ) (h : lo ≤ hi) :
    (∀ av siga ea : ℝ, Spec.Graph (avE av siga ea) lo hi n (avPlot av siga ea lo hi n)) ∧
    (∀ m : CkModel, Spec.Graph m.eFromK lo hi n (m.plot lo hi n)) ∧
    (∀ k : ℝ, Spec.Graph (darcyV k) lo hi n (darcyPlot k lo hi n)) ∧
    (∀ m : Hansbo, Spec.Graph m.vFromI lo hi n (m.plot lo hi n)) ∧
    (0 < lo → (∀ s : FX, Spec.Graph s.w lo hi n (s.plot lo hi n)) ∧ ∀ s : PF, Spec.Graph s.w lo hi n (s.plot lo hi n)) :=
  ⟨fun _ _ _ => graph_lin _ h hn, fun _ => graph_lin _ h hn, fun _ => graph_lin _ h hn, fun _ => graph_lin _ h hn,
    fun h0 => ⟨fun _ => graph_logs _ h0 h hn, fun _ => graph_logs _ h0 h hn⟩⟩

theorem npMin_spec {l : List ℝ} (h : l ≠ []) : ∃ a, npMin l = .ok a ∧ a ∈ l ∧ ∀ x ∈ l, a ≤ x := by
  have key : ∀ (l : List ℝ) (a : ℝ), l.foldl min a ∈ a :: l ∧ ∀ x ∈ a :: l, l.foldl min a ≤ x := by
    intro l
    induction l with
    | nil => intro a; simp
    | cons b l ih =>
      intro a
      obtain ⟨k1, k2⟩ := ih (min a b)
      refine ⟨?_, fun x hx => ?_⟩
      · rcases List.mem_cons.1 k1 with e | e
        · show l.foldl min (min a b) ∈ _
          rw [e]
          rcases min_choice a b with e' | e' <;> rw [e'] <;> simp
        · exact List.mem_cons_of_mem _ (List.mem_cons_of_mem _ e)
      · have k0 := k2 (min a b) (by simp)
        simp only [List.mem_cons] at hx
        rcases hx with rfl | rfl | hx
        · exact k0.trans (min_le_left _ _)
        · exact k0.trans (min_le_right _ _)
        · exact k2 x (List.mem_cons_of_mem _ hx)
  cases l with
  | nil => exact absurd rfl h
  | cons a l => exact ⟨_, rfl, key l a⟩

theorem npMax_spec {l : List ℝ} (h : l ≠ []) : ∃ a, npMax l = .ok a ∧ a ∈ l ∧ ∀ x ∈ l, x ≤ a := by
  have key : ∀ (l : List ℝ) (a : ℝ), l.foldl max a ∈ a :: l ∧ ∀ x ∈ a :: l, x ≤ l.foldl max a := by
    intro l
    induction l with
    | nil => intro a; simp
    | cons b l ih =>
      intro a
      obtain ⟨k1, k2⟩ := ih (max a b)
      refine ⟨?_, fun x hx => ?_⟩
      · rcases List.mem_cons.1 k1 with e | e
        · show l.foldl max (max a b) ∈ _
          rw [e]
          rcases max_choice a b with e' | e' <;> rw [e'] <;> simp
        · exact List.mem_cons_of_mem _ (List.mem_cons_of_mem _ e)
      · have k0 := k2 (max a b) (by simp)
        simp only [List.mem_cons] at hx
        rcases hx with rfl | rfl | hx
        · exact (le_max_left _ _).trans k0
        · exact (le_max_right _ _).trans k0
        · exact k2 x (List.mem_cons_of_mem _ hx)
  cases l with
  | nil => exact absurd rfl h
  | cons a l => exact ⟨_, rfl, key l a⟩

/-- **C239, piecewise models.**  Their points run from the smallest to the largest stress or permeability of the data, whatever `xmin` and `xmax`
the caller asks for (contrary to the docstring). -/
theorem C239_piecewise (d : PwData) (h : d.xs ≠ []) (n : ℕ) (hn : 2 ≤ n) :
    ∃ lo hi, (lo ∈ d.xs ∧ hi ∈ d.xs ∧ ∀ x ∈ d.xs, lo ≤ x ∧ x ≤ hi) ∧
      (∃ xy, d.plotK n = .ok xy ∧ Spec.Graph d.eFromK lo hi n xy) ∧
      (∀ Cr, ∃ xy, d.plotStress Cr n none = .ok xy ∧ Spec.Graph (fun s => d.eFromStress Cr s none) lo hi n xy) ∧
      ∀ Cr p, ∃ xy, d.plotStress Cr n (some p) = .ok xy ∧ Spec.Graph (fun s => d.eFromStress Cr s (some p)) lo hi n xy := by
  obtain ⟨lo, e1, m1, b1⟩ := npMin_spec h
  obtain ⟨hi, e2, m2, b2⟩ := npMax_spec h
  have hle : lo ≤ hi := b1 hi m2
  refine ⟨lo, hi, ⟨m1, m2, fun x hx => ⟨b1 x hx, b2 x hx⟩⟩, ⟨_, ?_, graph_lin _ hle hn⟩, fun Cr => ⟨_, ?_, graph_lin _ hle hn⟩,
    fun Cr p => ⟨_, ?_, graph_lin _ hle hn⟩⟩
  · unfold PwData.plotK; rw [e1, e2]; rfl
  · unfold PwData.plotStress; rw [e1, e2]; rfl
  · unfold PwData.plotStress; rw [e1, e2]; rfl

/-- What `x[np.searchsorted(x, p)] = p` does to increasing numbers. -/
theorem set_sorted (l : List ℝ) (p : ℝ) (hs : l.Pairwise (· ≤ ·)) (hi : searchsorted l p < l.length) :
    (l.set (searchsorted l p) p).Pairwise (· ≤ ·) ∧ p ∈ l.set (searchsorted l p) p ∧
      (∀ x ∈ l.set (searchsorted l p) p, x = p ∨ x ∈ l) ∧ ∃ y ∈ l, p ≤ y := by
  induction l with
  | nil => simp at hi
  | cons a t ih =>
    obtain ⟨h1, h2⟩ := List.pairwise_cons.1 hs
    by_cases hap : a < p
    · have e : searchsorted (a :: t) p = searchsorted t p + 1 := by simp [searchsorted, hap]
      rw [e] at hi ⊢
      obtain ⟨k1, k2, k3, y, hy, hpy⟩ := ih h2 (by simpa using hi)
      rw [List.set_cons_succ]
      refine ⟨List.pairwise_cons.2 ⟨fun x hx => ?_, k1⟩, List.mem_cons_of_mem _ k2, fun x hx => ?_, y, List.mem_cons_of_mem _ hy, hpy⟩
      · rcases k3 x hx with rfl | h
        · exact hap.le
        · exact h1 x h
      · rcases List.mem_cons.1 hx with rfl | h
        · exact Or.inr (by simp)
        · exact (k3 x h).imp id (List.mem_cons_of_mem _)
    · have e : searchsorted (a :: t) p = 0 := by simp [searchsorted, hap]
      rw [e, List.set_cons_zero]
      push Not at hap
      refine ⟨List.pairwise_cons.2 ⟨fun x hx => hap.trans (h1 x hx), h2⟩, by simp, fun x hx => ?_, a, by simp, hap⟩
      rcases List.mem_cons.1 hx with rfl | h
      · exact Or.inl rfl
      · exact Or.inr (List.mem_cons_of_mem _ h)

theorem searchsorted_lt {l : List ℝ} {p b : ℝ} (hb : b ∈ l) (h : p ≤ b) : searchsorted l p < l.length := by
  induction l with
  | nil => cases hb
  | cons a t ih =>
    by_cases hap : a < p
    · have e : searchsorted (a :: t) p = searchsorted t p + 1 := by simp [searchsorted, hap]
      rw [e]
      rcases List.mem_cons.1 hb with rfl | hb
      · linarith
      · simpa using ih hb
    · have e : searchsorted (a :: t) p = 0 := by simp [searchsorted, hap]
      rw [e]; simp

theorem searchsorted_top {l : List ℝ} {p : ℝ} (h : ∀ x ∈ l, x < p) : searchsorted l p = l.length := by
  induction l with
  | nil => simp [searchsorted]
  | cons a t ih =>
    have hap : a < p := h a (by simp)
    have e : searchsorted (a :: t) p = searchsorted t p + 1 := by simp [searchsorted, hap]
    rw [e, ih fun x hx => h x (by simp [hx])]
    simp

/-- **C239, `CcCrSoilModel`.**  Without `pstress` the points are the normally consolidated curve from `xmin` to `xmax`.  With a preconsolidation
stress in that range the points are increasing, lie in the range and on the curve of that preconsolidation stress, and one of them is the
preconsolidation stress itself, the corner of the curve.  Above the range the call is an `IndexError`. -/
theorem C239_cccr (m : CcCr) (n : ℕ) (hn : 2 ≤ n) (lo hi : ℝ) (h : lo ≤ hi) :
    (∃ xy, m.plot lo hi n none = .ok xy ∧ Spec.Graph (fun s => m.eFromStress s none) lo hi n xy) ∧
    (∀ p, lo ≤ p → p ≤ hi → ∃ xy, m.plot lo hi n (some p) = .ok xy ∧ xy.1.length = n ∧ xy.2.length = n ∧ p ∈ xy.1 ∧ xy.1.Pairwise (· ≤ ·) ∧
      (∀ x ∈ xy.1, lo ≤ x ∧ x ≤ hi) ∧ ∀ q ∈ xy.1.zip xy.2, q.2 = m.eFromStress q.1 (some p)) ∧
    ∀ p, hi < p → m.plot lo hi n (some p) = .error .indexError := by
  have G := graph_lin (fun s => m.eFromStress s none) h hn
  refine ⟨⟨_, rfl, graph_lin _ h hn⟩, fun p h1 h2 => ?_, fun p h1 => ?_⟩
  · have hm : hi ∈ lin lo hi n := List.mem_of_getLast? G.last
    have hlt := searchsorted_lt hm h2
    obtain ⟨k1, k2, k3, _⟩ := set_sorted _ p G.ordered hlt
    refine ⟨_, by simp only [CcCr.plot]; rw [if_pos hlt], by simp [lin_length], by simp [lin_length], k2, k1, fun x hx => ?_, onCurve_map _ _⟩
    rcases k3 x hx with rfl | hx
    · exact ⟨h1, h2⟩
    · exact G.inRange x hx
  · have e := searchsorted_top (l := lin lo hi n) (p := p) fun x hx => (G.inRange x hx).2.trans_lt h1
    simp only [CcCr.plot]
    rw [e, if_neg (lt_irrefl _)]

/-- The clay of the docstring, preconsolidated to 20. -/
example : ∃ xy, (⟨3, 1/2, 10, 5⟩ : CcCr).plot 1 100 100 (some 20) = .ok xy ∧ 20 ∈ xy.1 := by
  obtain ⟨_, h, _⟩ := C239_cccr ⟨3, 1/2, 10, 5⟩ 100 (by norm_num) 1 100 (by norm_num)
  obtain ⟨xy, e, _, _, k, _⟩ := h 20 (by norm_num) (by norm_num)
  exact ⟨xy, e, k⟩

example : Spec.Graph (darcyV 3) 0 50 100 (darcyPlot 3 0 50 100) := (C239_graphs 100 (by norm_num) 0 50 (by norm_num)).2.2.1 3

example : ∃ xy, (⟨[1, 2, 4], [5, 3, 2], false, false⟩ : PwData).plotK 10 = .ok xy ∧ xy.1.length = 10 := by
  obtain ⟨lo, hi, _, ⟨xy, e, g⟩, _⟩ := C239_piecewise ⟨[1, 2, 4], [5, 3, 2], false, false⟩ (by simp) 10 (by norm_num)
  exact ⟨xy, e, g.lengths.1⟩

end Geotecha.Const
