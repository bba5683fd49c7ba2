import Verif.Consol.XieLeoPlot

/-! # Properties of `XieAndLeo2004.plot_all`: C258 -/

set_option autoImplicit false
set_option linter.unusedVariables false

open Real
namespace Geotecha.Consol.XieLeo.PlotAll

/-- **C258**: as the module is, `plot_all` never returns a figure: it raises for every object, kind of drainage, depths and times. -/
theorem C258_never (o : XieLeo) (drn : ℤ) (a t : Option (List ℝ)) : plotAll moduleQu o drn a t = .error .other := by
  unfold plotAll names
  split_ifs <;> rfl

/-- Specification: a subplot shows the quantity `f` against the present position `ξ = a + settlement` of the soil that started at `a`: a line for each time, in
order, through the points of all depths, in order. -/
def Shows (f ξ : ℝ → ℝ → ℝ) (a t : List ℝ) (p : Panel) : Prop :=
  p.lines.length = t.length ∧ ∀ (j : ℕ) (s : ℝ), t[j]? = some s → ∃ l, p.lines[j]? = some l ∧ l.length = a.length ∧
    ∀ (i : ℕ) (b : ℝ), a[i]? = some b → l[i]? = some (f b s, ξ b s)

theorem shows_lines (q : Names) (f : ℝ → ℝ → ℝ) (a t : List ℝ) (k : ℕ) (x y : String) : Shows f q.xi a t ⟨k, x, y, linesOf q f a t⟩ := by
  refine ⟨by simp [linesOf], fun j s hs => ⟨a.map fun b => (f b s, q.xi b s), by simp [linesOf, hs], by simp, fun i b hb => by simp [hb]⟩⟩

theorem mapM_ok {α β : Type} (f : α → β) (l : List α) : (l.mapM fun x => (.ok (f x) : Except PyErr β)) = .ok (l.map f) := by
  induction l with
  | nil => rfl
  | cons x l ih => rw [List.mapM_cons, ih]; rfl

theorem zip_self (q : Names) (f : ℝ → ℝ → ℝ) (a t : List ℝ) : linesTab q (t.map fun s => a.map fun b => f b s) a t = linesOf q f a t := by
  unfold linesTab linesOf
  rw [List.zipWith_map_right, List.zipWith_self]
  refine List.map_congr_left fun s _ => ?_
  rw [List.zipWith_map_right, List.zipWith_self]

theorem table_ok (f : ℝ → ℝ → Except PyErr ℝ) (h : ℝ → ℝ → ℝ) (e : ∀ b s, f b s = .ok (h b s)) (a t : List ℝ) :
    table f a t = .ok (t.map fun s => a.map fun b => h b s) := by
  have e2 : f = fun b s => .ok (h b s) := funext fun b => funext fun s => e b s
  unfold table
  rw [e2]
  show List.mapM (fun s => List.mapM (fun b => (.ok (h b s) : Except PyErr ℝ)) a) t = _
  simp only [mapM_ok]

/-- **C258**: were the load bound to the name that the stresses use, the figure for any depths and times would have eight subplots in the eight places of the
grid.  For one-way drainage (`drn = 1`) they show excess pore pressure, total pore pressure, effective stress (initial plus load less excess pore pressure),
total stress (effective stress plus total pore pressure), velocities of solids and water and void ratio of the PTIB solution, for any other `drn` of
the PTPB solution; the first subplot shows the degrees of consolidation by settlement and by pore pressure of the same solution over the time factors, and the
legend has degree of consolidation, time factor and time of every line. -/
theorem C258_figure (o : XieLeo) (drn : ℤ) (a t : List ℝ) : ∃ fig, plotAll (some o.qu) o drn (some a) (some t) = .ok fig ∧
    (fig.panels.map Panel.place).Perm [1, 2, 3, 4, 5, 6, 7, 8] ∧
    ∀ (u pore e vs vw settle : ℝ → ℝ → ℝ) (us up : ℝ → ℝ),
      (drn = 1 ∧ u = o.uPTIB ∧ pore = o.totalPorePTIB ∧ e = o.ePTIB ∧ vs = o.vsPTIB ∧ vw = o.vwPTIB ∧ settle = o.settlementPTIB ∧ us = o.usPTIB ∧ up = o.upPTIB ∨
       drn ≠ 1 ∧ u = o.uPTPB ∧ pore = o.totalPorePTPB ∧ e = o.ePTPB ∧ vs = o.vsPTPB ∧ vw = o.vwPTPB ∧ settle = o.settlementPTPB ∧ us = o.usPTPB ∧ up = o.upPTPB) →
      let eff : ℝ → ℝ → ℝ := fun b s => o.initialEffectiveStress b + (o.qu - u b s)
      let ξ : ℝ → ℝ → ℝ := fun b s => b + settle b s
      (∀ p ∈ fig.panels,
        (p.place = 1 → ∃ ts : List ℝ, ts.length = 100 ∧ p.lines = [ts.map fun s => (o.Tv s, us s), ts.map fun s => (o.Tv s, up s)]) ∧
        (p.place = 2 → p.xlabel = "u" ∧ Shows u ξ a t p) ∧ (p.place = 3 → p.xlabel = "sigma'" ∧ Shows eff ξ a t p) ∧
        (p.place = 4 → p.xlabel = "v_s" ∧ Shows vs ξ a t p) ∧ (p.place = 5 → p.xlabel = "e" ∧ Shows e ξ a t p) ∧
        (p.place = 6 → p.xlabel = "p" ∧ Shows pore ξ a t p) ∧
        (p.place = 7 → p.xlabel = "sigma" ∧ Shows (fun b s => eff b s + pore b s) ξ a t p) ∧ (p.place = 8 → p.xlabel = "v_w" ∧ Shows vw ξ a t p)) ∧
      fig.legend = t.map fun s => (us s, o.Tv s, s) := by
  by_cases hd : drn = 1
  · have h1 := table_ok (o.effectiveStressPTIB (some o.qu)) (fun b s => o.initialEffectiveStress b + (o.qu - o.uPTIB b s))
      (fun b s => (C113_if_bound_partial o b s).1) a t
    have h2 := table_ok (o.totalStressPTIB (some o.qu)) (fun b s => o.initialEffectiveStress b + (o.qu - o.uPTIB b s) + o.totalPorePTIB b s)
      (fun b s => by rw [(C113_if_bound_partial o b s).2.2.1, (C113_if_bound_partial o b s).1]; rfl) a t
    unfold plotAll
    simp only [names, if_pos hd, Option.getD_some, h1, h2]
    refine ⟨_, rfl, (by decide : List.Perm [1, 2, 6, 3, 7, 4, 8, 5] [1, 2, 3, 4, 5, 6, 7, 8]), ?_⟩
    rintro u pore e vs vw settle us up (⟨-, rfl, rfl, rfl, rfl, rfl, rfl, rfl, rfl⟩ | ⟨hn, -⟩)
    · refine ⟨?_, rfl⟩
      simp only [zip_self]
      simp only [List.forall_mem_cons, List.not_mem_nil, false_imp_iff, implies_true, and_true]
      refine ⟨⟨fun _ => ⟨tInterp o, by simp [tInterp, logspace], rfl⟩, ?_⟩, ?_, ?_, ?_, ?_, ?_, ?_, ?_⟩
      all_goals
        simp only [Nat.reduceEqDiff, false_imp_iff, and_true, true_and, true_imp_iff, forall_const, OfNat.ofNat_ne_one, OfNat.one_ne_ofNat]
      all_goals exact shows_lines (names (some o.qu) o 1) _ a t _ _ _
    · exact absurd hd hn
  · have h1 := table_ok (o.effectiveStressPTPB (some o.qu)) (fun b s => o.initialEffectiveStress b + (o.qu - o.uPTPB b s))
      (fun b s => (C113_if_bound_partial o b s).2.1) a t
    have h2 := table_ok (o.totalStressPTPB (some o.qu)) (fun b s => o.initialEffectiveStress b + (o.qu - o.uPTPB b s) + o.totalPorePTPB b s)
      (fun b s => by rw [(C113_if_bound_partial o b s).2.2.2, (C113_if_bound_partial o b s).2.1]; rfl) a t
    unfold plotAll
    simp only [names, if_neg hd, Option.getD_some, h1, h2]
    refine ⟨_, rfl, (by decide : List.Perm [1, 2, 6, 3, 7, 4, 8, 5] [1, 2, 3, 4, 5, 6, 7, 8]), ?_⟩
    rintro u pore e vs vw settle us up (⟨hn, -⟩ | ⟨-, rfl, rfl, rfl, rfl, rfl, rfl, rfl, rfl⟩)
    · exact absurd hn hd
    · refine ⟨?_, rfl⟩
      simp only [zip_self]
      simp only [List.forall_mem_cons, List.not_mem_nil, false_imp_iff, implies_true, and_true]
      refine ⟨⟨fun _ => ⟨tInterp o, by simp [tInterp, logspace], rfl⟩, ?_⟩, ?_, ?_, ?_, ?_, ?_, ?_, ?_⟩
      all_goals
        simp only [Nat.reduceEqDiff, false_imp_iff, and_true, true_and, true_imp_iff, forall_const, OfNat.ofNat_ne_one, OfNat.one_ne_ofNat]
      all_goals exact shows_lines (names (some o.qu) o 0) _ a t _ _ _

/-! ### The times chosen by default -/

/-- Entry `i` of a logarithmic table of `n + 2` times. -/
noncomputable def kn (lo r : ℝ) (n i : ℕ) : ℝ := lo * r ^ ((i : ℝ) / ((n : ℝ) + 1))

theorem logspace_kn {lo hi : ℝ} (h0 : 0 < lo) (h1 : lo < hi) (n : ℕ) : logspace lo hi (n + 2) = (List.range (n + 2)).map (kn lo (hi / lo) n) := by
  unfold logspace
  refine List.map_congr_left fun i _ => ?_
  have h10 : log 10 ≠ 0 := (log_pos (by norm_num)).ne'
  have hn : ((n + 2 : ℕ) : ℝ) - 1 = (n : ℝ) + 1 := by push_cast; ring
  have hp : (n : ℝ) + 1 ≠ 0 := by positivity
  have hh : 0 < hi := h0.trans h1
  unfold kn
  rw [hn, rpow_add (by norm_num), rpow_def_of_pos (by norm_num : (0:ℝ) < 10) (log lo / log 10), mul_div_cancel₀ _ h10, exp_log h0]
  congr 1
  rw [rpow_def_of_pos (by norm_num : (0:ℝ) < 10), rpow_def_of_pos (div_pos hh h0), log_div hh.ne' h0.ne']
  congr 1
  field_simp

theorem kn_zero (lo r : ℝ) (n : ℕ) : kn lo r n 0 = lo := by unfold kn; simp
theorem kn_last {lo hi : ℝ} (h0 : 0 < lo) (n : ℕ) : kn lo (hi / lo) n (n + 1) = hi := by
  unfold kn
  have hp : (n : ℝ) + 1 ≠ 0 := by positivity
  rw [show ((n + 1 : ℕ) : ℝ) / ((n : ℝ) + 1) = 1 by push_cast; exact div_self hp, rpow_one]
  field_simp

theorem kn_succ {lo r : ℝ} (h0 : 0 < lo) (h1 : 1 < r) (n i : ℕ) : kn lo r n (i + 1) = kn lo r n i * r ^ (1 / ((n : ℝ) + 1)) := by
  unfold kn
  rw [mul_assoc, ← rpow_add (by linarith)]
  congr 2; push_cast; ring

theorem kn_pos {lo r : ℝ} (h0 : 0 < lo) (h1 : 1 < r) (n i : ℕ) : 0 < kn lo r n i := mul_pos h0 (rpow_pos_of_pos (by linarith) _)

theorem kn_mono {lo r : ℝ} (h0 : 0 < lo) (h1 : 1 < r) (n : ℕ) : StrictMono (kn lo r n) := strictMono_nat_of_lt_succ fun i => by
  rw [kn_succ h0 h1]
  have : (1:ℝ) < r ^ (1 / ((n : ℝ) + 1)) := one_lt_rpow h1 (by positivity)
  have := kn_pos h0 h1 n i
  nlinarith

/-- Between the ends of the table the time looked up for the value reached at `t` is `t` to within the relative distance of two entries. -/
theorem lookup (f : ℝ → ℝ) (hf : StrictMono f) {lo hi ρ : ℝ} (h0 : 0 < lo) (h1 : lo < hi) (n : ℕ) (hρ : (hi / lo) ^ (1 / ((n : ℝ) + 1)) ≤ 1 + ρ) {t : ℝ}
    (ht0 : lo ≤ t) (ht1 : t ≤ hi) : |Const.npInterp (f t) ((logspace lo hi (n + 2)).map fun s => (f s, s)) - t| ≤ ρ * t := by
  have hr : 1 < hi / lo := (one_lt_div h0).2 h1
  rw [logspace_kn h0 h1]
  set k := kn lo (hi / lo) n with hk
  have hch : ((List.range (n + 2)).map k).IsChain (· < ·) := by
    rw [List.isChain_map]
    exact List.isChain_iff_pairwise.2 ((List.pairwise_lt_range (n := n + 2)).imp fun h => kn_mono h0 hr n h)
  have hlast : ∀ tl ∈ ((List.range (n + 2)).map k).getLast?, f t ≤ f tl := fun tl htl => by
    rw [List.range_succ, List.map_append, List.map_cons, List.map_nil, List.getLast?_append] at htl
    have : tl = k (n + 1) := by simpa using htl.symm
    rw [this, hk, kn_last h0]; exact hf.monotone ht1
  have hcons : (List.range (n + 2)).map k = k 0 :: ((List.range (n + 1)).map fun i => k (i + 1)) := by
    rw [List.range_succ_eq_map, List.map_cons, List.map_map]; rfl
  rw [hcons] at hch hlast
  obtain ⟨i, a, b, ha, hb, hfa, hfb, r1, r2⟩ := npInterp_bracket f hf _ _ (f t) hch (hf.monotone (by rw [hk, kn_zero]; exact ht0)) hlast
  rw [← hcons] at ha hb r1 r2
  have get : ∀ (m : ℕ) (c : ℝ), ((List.range (n + 2)).map k)[m]? = some c → c = k m := fun m c hc => by
    rw [List.getElem?_map] at hc
    obtain ⟨x, hx, rfl⟩ := Option.map_eq_some_iff.1 hc
    rw [List.getElem?_range (by by_contra hm; rw [List.getElem?_eq_none (by simpa using hm)] at hx; cases hx)] at hx
    rw [Option.some_inj.1 hx]
  have ea := get i a ha
  have hpos : 0 < a := by rw [ea]; exact kn_pos h0 hr n i
  have hρ0 : 0 ≤ ρ := by
    have : (1:ℝ) < (hi / lo) ^ (1 / ((n : ℝ) + 1)) := one_lt_rpow hr (by positivity)
    linarith
  have hat := hf.le_iff_le.1 hfa
  have hbt := hf.le_iff_le.1 hfb
  have hba : b - a ≤ ρ * a := by
    rcases hb with hb | hb
    · have eb := get (i + 1) b hb
      rw [hk, kn_succ h0 hr, ← hk, ← ea] at eb
      rw [eb]; nlinarith
    · rw [hb]; nlinarith
  have : ρ * a ≤ ρ * t := mul_le_mul_of_nonneg_left hat hρ0
  rw [abs_le]
  constructor <;> linarith

set_option exponentiation.threshold 200 in
theorem ratio_le : (30000 : ℝ) ^ ((1 : ℝ) / ((98 : ℕ) + 1)) ≤ 1 + 0.11 := by
  have h : ((30000 : ℝ) ^ ((1 : ℝ) / ((98 : ℕ) + 1))) ^ 99 = 30000 := by
    rw [← rpow_natCast, ← rpow_mul (by norm_num)]
    norm_num
  by_contra hn
  push Not at hn
  have : (1 + 0.11 : ℝ) ^ 99 < ((30000 : ℝ) ^ ((1 : ℝ) / ((98 : ℕ) + 1))) ^ 99 := by gcongr
  rw [h] at this
  norm_num at this

/-- **C258**: without times eleven are chosen, for the degrees of consolidation 0, 10 %, ..., 90 % and 99 % of the solution that is drawn: the first has time
factor 0.0001, and if a degree is reached at a time whose factor is between 0.0001 and 3, then the time chosen for it is that time to within 11 %.  Without depths
they are 100 equally spaced ones from the surface to the base. -/
theorem C258_defaults (g : Option ℝ) (o : XieLeo) (h : o.Valid) (hk : 0 < o.kv0) (hn : 0 < o.nterms) (drn : ℤ) :
    (∀ t, plotAll g o drn none t = plotAll g o drn (some ((List.range 100).map fun i : ℕ => (i : ℝ) / 99 * o.H)) t) ∧
    ∃ ts : List ℝ, (∀ a, plotAll g o drn a none = plotAll g o drn a (some ts)) ∧ ts.length = 11 ∧ ts[0]? = some (0.0001 / o.dTv) ∧
      ∀ (i : ℕ) (x τ : ℝ), ([0.1, 0.2, 0.3, 0.4, 0.5, 0.6, 0.7, 0.8, 0.9, 0.99] : List ℝ)[i]? = some x → 0.0001 ≤ o.Tv τ → o.Tv τ ≤ 3 →
        (if drn = 1 then o.usPTIB τ else o.usPTPB τ) = x → ∃ t, ts[i + 1]? = some t ∧ |t - τ| ≤ 0.11 * τ := by
  have hd := h.dTv_pos hk
  obtain ⟨m1, m2, p, -⟩ := C111_range o h hk hn
  have hlo : (0:ℝ) < 0.0001 / o.dTv := by positivity
  have hlt : 0.0001 / o.dTv < 3 / o.dTv := by gcongr; norm_num
  have hmono : StrictMono (names g o drn).us := by unfold names; split_ifs <;> assumption
  have hus : ∀ τ, (names g o drn).us τ = if drn = 1 then o.usPTIB τ else o.usPTPB τ := fun τ => by unfold names; split_ifs <;> rfl
  refine ⟨fun t => ?_, defaultTimes o (names g o drn), fun a => rfl, by simp [defaultTimes, usPlot], ?_, ?_⟩
  · have e : defaultDepths o = (List.range 100).map fun i : ℕ => (i : ℝ) / 99 * o.H := by
      unfold defaultDepths
      refine List.map_congr_left fun i _ => by ring
    unfold plotAll
    simp only [Option.getD_none, Option.getD_some, e]
  · have e0 : usPlot[0]? = some 0 := by unfold usPlot; simp
    unfold defaultTimes
    rw [List.getElem?_map, e0, Option.map_some, Option.some_inj]
    unfold tInterp
    rw [show (100 : ℕ) = 98 + 2 from rfl, logspace_kn hlo hlt, List.range_succ_eq_map, List.map_cons, List.map_cons, kn_zero]
    refine npInterp_low ?_
    dsimp only
    rw [hus]
    have := p (0.0001 / o.dTv) hlo.le
    split_ifs
    · exact this.1
    · exact this.2
  · intro i x τ hx h1 h2 hv
    have hi : i < 10 := by
      by_contra hc
      rw [List.getElem?_eq_none (by simpa using hc)] at hx; cases hx
    have e0 : usPlot[i + 1]? = some x := by
      unfold usPlot
      interval_cases i <;> simp at hx ⊢ <;> rw [← hx] <;> norm_num
    refine ⟨_, by unfold defaultTimes; rw [List.getElem?_map, e0, Option.map_some], ?_⟩
    rw [← hv, ← hus]
    unfold tInterp
    refine lookup _ hmono hlo hlt 98 ?_ ?_ ?_
    · have : 3 / o.dTv / (0.0001 / o.dTv) = 30000 := by field_simp; norm_num
      rw [this]; exact ratio_le
    · rw [div_le_iff₀ hd]; unfold Tv at h1; linarith
    · rw [le_div_iff₀ hd]; unfold Tv at h2; linarith

example : plotAll moduleQu ex 1 none none = .error .other ∧ (∃ fig, plotAll (some ex.qu) ex 1 (some [0, 5]) (some [4]) = .ok fig) ∧
    ∃ ts : List ℝ, ts[0]? = some (0.0001 / ex.dTv) ∧ ts.length = 11 :=
  ⟨C258_never _ _ _ _, (C258_figure ex 1 [0, 5] [4]).imp fun _ h => h.1,
    (C258_defaults none ex ex_valid (by norm_num [ex]) (by norm_num [ex]) 1).2.imp fun _ h => ⟨h.2.2.1, h.2.1⟩⟩

end Geotecha.Consol.XieLeo.PlotAll
