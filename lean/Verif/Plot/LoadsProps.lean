import Verif.Plot.Loads
import Verif.Piecewise.PropsSub
import Mathlib.Data.List.Chain
import Mathlib.Order.Bounds.Basic

/-! # C250-C252: the plots of loads and materials show the loads and materials -/

set_option autoImplicit false
set_option linter.unusedVariables false

namespace Geotecha.Plot.Loads
open Geotecha.Piecewise Geotecha.Spec

/-! ## Specification -/

/-- `(u, v)` is on the line through neighbouring data points. -/
def On (x y : List ℝ) (u v : ℝ) : Prop := ∃ (i : ℕ) (s : ℝ), ∃ hx : i + 1 < x.length, ∃ hy : i + 1 < y.length, 0 ≤ s ∧ s ≤ 1 ∧
  u = x[i] + s * (x[i + 1] - x[i]) ∧ v = y[i] + s * (y[i + 1] - y[i])

/-- The factor of a cyclic load. -/
noncomputable def cyc (om : Option (ℝ × ℝ)) (t : ℝ) : ℝ := om.elim 1 fun w => Real.cos (w.1 * t + w.2)

/-- A drawn line shows the data `x`, `y` times the factor `f`: it passes through all data points in their order, from the first to the
last, its points are on the curve, and (for ascending `x`) neighbouring points are not more than `h` apart. -/
structure Shows (x y : List ℝ) (f : ℝ → ℝ) (h : ℝ) (pts : List (ℝ × ℝ)) : Prop where
  data : ((x.zip y).map fun q => (q.1, q.2 * f q.1)).Sublist pts
  first : pts.head? = ((x.zip y).map fun q => (q.1, q.2 * f q.1)).head?
  last : pts.getLast? = ((x.zip y).map fun q => (q.1, q.2 * f q.1)).getLast?
  on : ∀ q ∈ pts, ∃ v, On x y q.1 v ∧ q.2 = v * f q.1
  fine : x.Pairwise (· ≤ ·) → pts.IsChain fun p q => p.1 ≤ q.1 ∧ q.1 - p.1 ≤ h

/-! ## Subdivision -/

/-- The points between two data points. -/
noncomputable def blk (x y : List ℝ) (d : ℝ) (m i : ℕ) : List (ℝ × ℝ) :=
  (List.range (numSegs (nth x i) (nth x (i+1)) d m)).map fun k : ℕ =>
    (nth x i + (k : ℝ) * ((nth x (i+1) - nth x i) / (numSegs (nth x i) (nth x (i+1)) d m : ℕ)),
     nth y i + (k : ℝ) * ((nth y (i+1) - nth y i) / (numSegs (nth x i) (nth x (i+1)) d m : ℕ)))

theorem sub_ok {x y : List ℝ} {d : ℝ} (m : ℕ) (hl : x.length = y.length) (h2 : 2 ≤ x.length) (hd : d ≠ 0) :
    ∃ x' y', subdivideXY x y (some d) m none = .ok (x', y') ∧
      x'.zip y' = ((List.range (x.length - 1)).map (blk x y d m)).flatten ++ [(nth x (x.length - 1), nth y (x.length - 1))] := by
  have hxl : x.getLast? = some x[x.length - 1] := by
    rw [List.getLast?_eq_getElem?, List.getElem?_eq_getElem (by omega)]
  have hyl : y.getLast? = some y[y.length - 1] := by
    rw [List.getLast?_eq_getElem?, List.getElem?_eq_getElem (by omega)]
  have hlen : ∀ i, (linspaceOpen (nth x i) (nth x (i+1)) (numSegs (nth x i) (nth x (i+1)) d m)).length =
      (linspaceOpen (nth y i) (nth y (i+1)) (numSegs (nth x i) (nth x (i+1)) d m)).length := by
    intro i; simp [linspaceOpen]
  refine ⟨((List.range (x.length - 1)).map (fun i => linspaceOpen (nth x i) (nth x (i+1)) (numSegs (nth x i) (nth x (i+1)) d m))).flatten ++ [x[x.length - 1]],
    ((List.range (x.length - 1)).map (fun i => linspaceOpen (nth y i) (nth y (i+1)) (numSegs (nth x i) (nth x (i+1)) d m))).flatten ++ [y[y.length - 1]], ?_, ?_⟩
  · simp only [subdivideXY, hl, ne_eq, not_true_eq_false, if_false, Option.getD_some]
    rw [hxl, hyl]
    dsimp only
    rw [if_neg (by tauto)]
    simp only [hl]
  · rw [List.zip_append (length_flatten_eq _ _ _ hlen), zip_flatten _ _ _ hlen, nth_eq_getElem (show x.length - 1 < x.length by omega),
      nth_eq_getElem (show x.length - 1 < y.length by omega)]
    simp only [linspaceOpen, List.zip_map', List.zip_cons_cons, List.zip_nil_right, hl]
    rfl

theorem piece_le {u v d : ℝ} {m : ℕ} (hm : 1 ≤ m) (hd : d ≠ 0) (h : u ≤ v) : 0 ≤ (v - u) / (numSegs u v d m : ℕ) ∧
    (v - u) / (numSegs u v d m : ℕ) ≤ 2 * |d| := by
  have hn : 1 ≤ numSegs u v d m := le_trans hm (le_max_right _ _)
  have hn' : (1:ℝ) ≤ (numSegs u v d m : ℕ) := by exact_mod_cast hn
  have h0 : 0 ≤ v - u := by linarith
  refine ⟨div_nonneg h0 (by linarith), ?_⟩
  rcases lt_or_gt_of_ne hd with hneg | hpos
  · -- negative spacing
    rw [abs_of_neg hneg, div_le_iff₀ (by linarith)]
    have hr : (v - u) / d ≤ 0 := div_nonpos_of_nonneg_of_nonpos h0 hneg.le
    have hf : ⌊(v - u) / d⌋ ≤ 0 := by
      have := Int.floor_le ((v - u) / d)
      by_contra hc
      push Not at hc
      have : (1:ℝ) ≤ ((⌊(v - u) / d⌋ : ℤ) : ℝ) := by exact_mod_cast hc
      linarith
    have e : (((⌊(v - u) / d⌋).natAbs : ℕ) : ℝ) = -((⌊(v - u) / d⌋ : ℤ) : ℝ) := by
      have : (((⌊(v - u) / d⌋).natAbs : ℕ) : ℤ) = -⌊(v - u) / d⌋ := by omega
      rw [← Int.cast_natCast, this]; push_cast; rfl
    have h1 : (((⌊(v - u) / d⌋).natAbs : ℕ) : ℝ) ≤ (numSegs u v d m : ℕ) := by exact_mod_cast le_max_left _ _
    have h2 := Int.floor_le ((v - u) / d)
    have h3 : -((v - u) / d) ≤ (numSegs u v d m : ℕ) := by linarith
    have h4 : v - u = -((v - u) / d) * -d := by field_simp
    have h5 : -((v - u) / d) * -d ≤ (numSegs u v d m : ℕ) * -d := mul_le_mul_of_nonneg_right h3 (by linarith)
    nlinarith
  · rw [abs_of_pos hpos]
    by_cases hc : d ≤ v - u
    · exact (C15_piece_length u v d m hpos hc).le
    · push Not at hc
      have : (v - u) / (numSegs u v d m : ℕ) ≤ v - u := div_le_self h0 hn'
      linarith

theorem sub_shows {x y : List ℝ} {d : ℝ} (m : ℕ) (hm : 1 ≤ m) (hl : x.length = y.length) (h2 : 2 ≤ x.length) (hd : d ≠ 0) (f : ℝ → ℝ) :
    ∃ x' y', subdivideXY x y (some d) m none = .ok (x', y') ∧
      Shows x y f (2 * |d|) ((x'.zip y').map fun q => (q.1, q.2 * f q.1)) := by
  obtain ⟨x', y', e, z⟩ := sub_ok m hl h2 hd
  refine ⟨x', y', e, ?_⟩
  have hN : ∀ i, 1 ≤ numSegs (nth x i) (nth x (i+1)) d m := fun i => le_trans hm (le_max_right _ _)
  have hhead : ∀ i, ∃ r, blk x y d m i = (nth x i, nth y i) :: r := by
    intro i
    unfold blk
    obtain ⟨n, hn⟩ := Nat.exists_eq_add_of_le' (hN i)
    rw [hn, List.range_succ_eq_map, List.map_cons]
    exact ⟨_, by rw [Nat.cast_zero, zero_mul, zero_mul, add_zero, add_zero]⟩
  have hzip : x.zip y = (List.range (x.length - 1)).map (fun i => (nth x i, nth y i)) ++ [(nth x (x.length - 1), nth y (x.length - 1))] := by
    have : (List.range (x.length - 1)).map (fun i => (nth x i, nth y i)) ++ [(nth x (x.length - 1), nth y (x.length - 1))] =
        (List.range x.length).map (fun i => (nth x i, nth y i)) := by
      conv_rhs => rw [show x.length = (x.length - 1) + 1 by omega, List.range_succ, List.map_append]
      rfl
    rw [this]
    refine List.ext_getElem (by simp [hl]) ?_
    intro i hi hi2
    simp only [List.length_zip, List.length_map, List.length_range] at hi hi2
    rw [List.getElem_zip, List.getElem_map, List.getElem_range, nth_eq_getElem hi2, nth_eq_getElem (by omega)]
  have hsub : (x.zip y).Sublist (x'.zip y') := by
    rw [hzip, z]
    refine List.Sublist.append ?_ (List.Sublist.refl _)
    generalize List.range (x.length - 1) = l
    induction l with
    | nil => simp
    | cons i l ih =>
      obtain ⟨r, hr⟩ := hhead i
      rw [List.map_cons, List.map_cons, List.flatten_cons, hr]
      exact List.Sublist.cons_cons _ (List.sublist_append_of_sublist_right ih)
  have hfirst : (x'.zip y').head? = (x.zip y).head? := by
    rw [hzip, z]
    obtain ⟨n, hn⟩ := Nat.exists_eq_add_of_le' (show 1 ≤ x.length - 1 by omega)
    obtain ⟨r, hr⟩ := hhead 0
    rw [hn, List.range_succ_eq_map, List.map_cons, List.flatten_cons, hr, List.map_cons]
    rfl
  have hlast : (x'.zip y').getLast? = (x.zip y).getLast? := by
    rw [hzip, z, List.getLast?_append, List.getLast?_append]; rfl
  refine ⟨hsub.map _, by rw [List.head?_map, List.head?_map, hfirst], by rw [List.getLast?_map, List.getLast?_map, hlast], ?_, ?_⟩
  · intro q hq
    obtain ⟨p, hp, rfl⟩ := List.mem_map.1 hq
    refine ⟨p.2, ?_, rfl⟩
    rw [z, List.mem_append, List.mem_flatten] at hp
    rcases hp with ⟨b, hb, hp⟩ | hp
    · obtain ⟨i, hi, rfl⟩ := List.mem_map.1 hb
      rw [List.mem_range] at hi
      obtain ⟨k, hk, rfl⟩ := List.mem_map.1 hp
      rw [List.mem_range] at hk
      have hn' : (0:ℝ) < (numSegs (nth x i) (nth x (i+1)) d m : ℕ) := by exact_mod_cast hN i
      have hk' : (k:ℝ) ≤ (numSegs (nth x i) (nth x (i+1)) d m : ℕ) := by exact_mod_cast hk.le
      refine ⟨i, (k:ℝ) / (numSegs (nth x i) (nth x (i+1)) d m : ℕ), by omega, by omega, by positivity, (div_le_one hn').2 hk', ?_, ?_⟩
      · rw [← nth_eq_getElem (show i < x.length by omega), ← nth_eq_getElem (show i + 1 < x.length by omega)]; ring
      · rw [← nth_eq_getElem (show i < y.length by omega), ← nth_eq_getElem (show i + 1 < y.length by omega)]; ring
    · rw [List.mem_singleton] at hp
      subst hp
      have e1 : x.length - 2 + 1 = x.length - 1 := by omega
      refine ⟨x.length - 2, 1, by omega, by omega, by norm_num, le_rfl, ?_, ?_⟩
      · rw [← nth_eq_getElem (show x.length - 2 < x.length by omega), ← nth_eq_getElem (show x.length - 2 + 1 < x.length by omega), e1]; ring
      · rw [← nth_eq_getElem (show x.length - 2 < y.length by omega), ← nth_eq_getElem (show x.length - 2 + 1 < y.length by omega), e1]; ring
  · intro hs
    rw [List.isChain_map]
    change (x'.zip y').IsChain fun p q => p.1 ≤ q.1 ∧ q.1 - p.1 ≤ 2 * |d|
    have hmono : ∀ i, i + 1 < x.length → nth x i ≤ nth x (i+1) := by
      intro i hi
      rw [nth_eq_getElem (show i < x.length by omega), nth_eq_getElem hi]
      exact List.pairwise_iff_getElem.1 hs i (i+1) (by omega) hi (by omega)
    have hL : ((List.range (x.length - 1)).map (blk x y d m)).flatten ++ [(nth x (x.length - 1), nth y (x.length - 1))] =
        ((List.range (x.length - 1)).map (blk x y d m) ++ [[(nth x (x.length - 1), nth y (x.length - 1))]]).flatten := by simp
    have hne : [] ∉ (List.range (x.length - 1)).map (blk x y d m) ++ [[(nth x (x.length - 1), nth y (x.length - 1))]] := by
      intro h
      rw [List.mem_append] at h
      rcases h with h | h
      · obtain ⟨i, _, hi⟩ := List.mem_map.1 h
        obtain ⟨r, hr⟩ := hhead i
        rw [hr] at hi
        cases hi
      · simp at h
    rw [z, hL, List.isChain_flatten hne]
    constructor
    · intro l hl'
      rw [List.mem_append] at hl'
      rcases hl' with h | h
      · obtain ⟨i, hi, rfl⟩ := List.mem_map.1 h
        rw [List.mem_range] at hi
        obtain ⟨p0, p1⟩ := piece_le hm hd (hmono i (by omega))
        unfold blk
        rw [List.isChain_map, List.isChain_iff_getElem]
        intro k hk
        simp only [List.getElem_range, Nat.cast_add, Nat.cast_one]
        constructor <;> nlinarith
      · simp at h; subst h; simp
    · rw [List.isChain_iff_getElem]
      intro i hi
      simp only [List.length_append, List.length_map, List.length_range, List.length_cons, List.length_nil] at hi
      have hi' : i < x.length - 1 := by omega
      rw [List.getElem_append_left (by simpa using hi')]
      simp only [List.getElem_map, List.getElem_range]
      intro p hp q hq
      obtain ⟨p0, p1⟩ := piece_le hm hd (hmono i (by omega))
      have hq1 : q.1 = nth x (i+1) := by
        by_cases hc : i + 1 < x.length - 1
        · rw [List.getElem_append_left (by simpa using hc)] at hq
          simp only [List.getElem_map, List.getElem_range] at hq
          obtain ⟨r, hr⟩ := hhead (i+1)
          rw [hr, List.head?_cons, Option.mem_some_iff] at hq
          rw [← hq]
        · rw [List.getElem_append_right (by simp; omega), List.getElem_singleton, List.head?_cons, Option.mem_some_iff] at hq
          rw [← hq]
          dsimp only
          rw [show x.length - 1 = i + 1 by omega]
      have hp1 : p.1 = nth x (i+1) - (nth x (i+1) - nth x i) / (numSegs (nth x i) (nth x (i+1)) d m : ℕ) := by
        unfold blk at hp
        obtain ⟨n, hn⟩ := Nat.exists_eq_add_of_le' (hN i)
        rw [List.getLast?_map, List.getLast?_range, if_neg (by have := hN i; omega), Option.map_some, Option.mem_some_iff] at hp
        rw [← hp]
        have hn' : ((numSegs (nth x i) (nth x (i+1)) d m : ℕ) : ℝ) ≠ 0 := by have := hN i; positivity
        dsimp only
        rw [Nat.cast_sub (hN i)]
        field_simp
        push_cast
        ring
      rw [hq1, hp1]
      constructor <;> linarith

/-! ## C250: one load -/

/-- Spacing of the points of a history: a tenth of the time range, or a twentieth of the period of a cyclic load. -/
noncomputable def pitch (a b : ℝ) (om : Option (ℝ × ℝ)) : ℝ := om.elim ((b - a) / 10) fun w => 2 * Real.pi / |w.1| / 20

/-- Depth, or reduced level. -/
noncomputable def level (H : ℝ) (rl : Option ℝ) (z : ℝ) : ℝ := rl.elim (H * z) fun r => r - H * z

/-- The drawn distribution with depth: factor to the right, level upwards. -/
def ShowsDepth (H : ℝ) (rl : Option ℝ) (d : DepthArg) (pts : List (ℝ × ℝ)) : Prop :=
  (∀ x y, d = .line x y → ∀ u ∈ x, ∀ v ∈ x, (∀ w ∈ x, u ≤ w ∧ w ≤ v) → ∃ raw, pts = raw.map (fun q => (q.2, level H rl q.1)) ∧ Shows x y (fun _ => 1) ((v - u) / 4) raw) ∧
  ∀ x y, d = .pair x y → pts = (x.zip y).map fun q => (q.2, level H rl q.1)

theorem shake_eq (om : Option (ℝ × ℝ)) (l : List (ℝ × ℝ)) : shake om l = l.map fun q => (q.1, q.2 * cyc om q.1) := by
  cases om with
  | none => simp [shake, cyc]
  | some w => rfl

theorem Shows.mono {x y : List ℝ} {f : ℝ → ℝ} {h h' : ℝ} {pts : List (ℝ × ℝ)} (s : Shows x y f h pts) (hh : h ≤ h') : Shows x y f h' pts :=
  ⟨s.data, s.first, s.last, s.on, fun hs => (s.fine hs).imp fun _ _ k => ⟨k.1, k.2.trans hh⟩⟩

/-- **C250** The history of a load is drawn. -/
theorem C250_history {x y : List ℝ} {a b : ℝ} (om : Option (ℝ × ℝ)) (d : DepthArg) (hl : x.length = y.length) (h2 : 2 ≤ x.length) (hab : a < b)
    (hw : ∀ w, om = some w → w.1 ≠ 0) :
    ∃ pts, drawTime a b ⟨.line x y, d, om⟩ = .ok pts ∧ Shows x y (cyc om) (pitch a b om) pts := by
  have key : ∃ dx, spacing a b om = .ok dx ∧ dx ≠ 0 ∧ 2 * |dx| ≤ pitch a b om := by
    cases om with
    | none =>
      refine ⟨_, rfl, (by linarith : 0 < (b - a) / 20).ne', ?_⟩
      rw [abs_of_pos (by linarith)]
      show 2 * ((b - a) / 20) ≤ (b - a) / 10
      linarith
    | some w =>
      have hw0 := hw w rfl
      have hpi := Real.pi_pos
      have e : spacing a b (some w) = .ok (min ((b - a) / 20) (1 / (w.1 / (2 * Real.pi)) / 40)) := by
        simp only [spacing]; rw [if_neg hw0]
      refine ⟨_, e, ?_, ?_⟩
      · rcases lt_or_gt_of_ne hw0 with h | h
        · have : 1 / (w.1 / (2 * Real.pi)) / 40 < 0 := by
            have : w.1 / (2 * Real.pi) < 0 := div_neg_of_neg_of_pos h (by linarith)
            have := one_div_neg.2 this
            linarith
          exact (lt_of_le_of_lt (min_le_right _ _) this).ne
        · have : 0 < 1 / (w.1 / (2 * Real.pi)) / 40 := by positivity
          exact (lt_min (by linarith) this).ne'
      · show 2 * _ ≤ 2 * Real.pi / |w.1| / 20
        rcases lt_or_gt_of_ne hw0 with h | h
        · have h1 : 1 / (w.1 / (2 * Real.pi)) / 40 < 0 := by
            have : w.1 / (2 * Real.pi) < 0 := div_neg_of_neg_of_pos h (by linarith)
            have := one_div_neg.2 this
            linarith
          rw [min_eq_right (by linarith), abs_of_neg h1, abs_of_neg h]
          apply le_of_eq
          have := hw0
          field_simp
          norm_num
        · have h1 : 0 < 1 / (w.1 / (2 * Real.pi)) / 40 := by positivity
          rw [abs_of_pos (lt_min (by linarith) h1), abs_of_pos h]
          have : min ((b - a) / 20) (1 / (w.1 / (2 * Real.pi)) / 40) ≤ 1 / (w.1 / (2 * Real.pi)) / 40 := min_le_right _ _
          have e2 : 1 / (w.1 / (2 * Real.pi)) / 40 = 2 * Real.pi / w.1 / 40 := by field_simp
          rw [e2] at this
          rw [e2]
          linarith
  obtain ⟨dx, e, h0, hp⟩ := key
  obtain ⟨x', y', es, sh⟩ := sub_shows 4 (by norm_num) hl h2 h0 (cyc om)
  refine ⟨_, ?_, sh.mono hp⟩
  unfold drawTime
  simp only [asLine]
  rw [e]
  show (do let s ← subdivideXY x y (some dx) 4 none; pure (shake om (s.1.zip s.2)) : Except PyErr _) = _
  rw [es, ← shake_eq]
  rfl

theorem fold_min (l : List ℝ) (a : ℝ) : (l.foldl min a = a ∨ l.foldl min a ∈ l) ∧ l.foldl min a ≤ a ∧ ∀ t ∈ l, l.foldl min a ≤ t := by
  induction l generalizing a with
  | nil => simp
  | cons c l ih =>
    obtain ⟨h1, h2, h3⟩ := ih (min a c)
    rw [List.foldl_cons]
    refine ⟨?_, h2.trans (min_le_left _ _), ?_⟩
    · rcases h1 with h | h
      · rcases min_choice a c with k | k
        · left; rw [h, k]
        · right; rw [h, k]; exact List.mem_cons_self
      · right; exact List.mem_cons_of_mem _ h
    · intro t ht
      rcases List.mem_cons.1 ht with rfl | ht
      · exact h2.trans (min_le_right _ _)
      · exact h3 t ht

theorem fold_max (l : List ℝ) (a : ℝ) : (l.foldl max a = a ∨ l.foldl max a ∈ l) ∧ a ≤ l.foldl max a ∧ ∀ t ∈ l, t ≤ l.foldl max a := by
  induction l generalizing a with
  | nil => simp
  | cons c l ih =>
    obtain ⟨h1, h2, h3⟩ := ih (max a c)
    rw [List.foldl_cons]
    refine ⟨?_, (le_max_left _ _).trans h2, ?_⟩
    · rcases h1 with h | h
      · rcases max_choice a c with k | k
        · left; rw [h, k]
        · right; rw [h, k]; exact List.mem_cons_self
      · right; exact List.mem_cons_of_mem _ h
    · intro t ht
      rcases List.mem_cons.1 ht with rfl | ht
      · exact (le_max_right _ _).trans h2
      · exact h3 t ht

theorem extent_eq {x : List ℝ} {u v : ℝ} (hu : u ∈ x) (hv : v ∈ x) (h : ∀ w ∈ x, u ≤ w ∧ w ≤ v) : extent x = v - u := by
  cases x with
  | nil => cases hu
  | cons c r =>
    unfold extent
    have e : nth (c :: r) 0 = c := rfl
    rw [e]
    obtain ⟨a1, a2, a3⟩ := fold_max (c :: r) c
    obtain ⟨b1, b2, b3⟩ := fold_min (c :: r) c
    have m1 : (c :: r).foldl max c ∈ c :: r := by
      rcases a1 with k | k
      · rw [k]; exact List.mem_cons_self
      · exact k
    have m2 : (c :: r).foldl min c ∈ c :: r := by
      rcases b1 with k | k
      · rw [k]; exact List.mem_cons_self
      · exact k
    have p := le_antisymm (h _ m1).2 (a3 v hv)
    have q := le_antisymm (b3 u hu) (h _ m2).1
    rw [p, q]

/-- Distributions that can be drawn. -/
def GoodDepth : DepthArg → Prop
  | .line x y => x.length = y.length ∧ 2 ≤ x.length ∧ ∃ u ∈ x, ∃ v ∈ x, u < v
  | .pair x y => x.length = y.length

theorem level_eq (z H : ℝ) (rl : Option ℝ) : depthToReducedLevel z H rl = level H rl z := by
  cases rl <;> simp [depthToReducedLevel, level, mul_comm]

/-- **C250** The distribution of a load with depth is drawn. -/
theorem C250_depth {d : DepthArg} (hd : GoodDepth d) (H : ℝ) (rl : Option ℝ) : ∃ pts, drawDepth H rl d = .ok pts ∧ ShowsDepth H rl d pts := by
  cases d with
  | pair x y =>
    have hl : x.length = y.length := hd
    refine ⟨(x.zip y).map fun q => (q.2, level H rl q.1), ?_, ⟨fun _ _ e => (by cases e), fun _ _ e => by cases e; rfl⟩⟩
    simp only [drawDepth]
    rw [if_neg (by simpa using hl)]
    simp only [level_eq]
    rfl
  | line x y =>
    obtain ⟨hl, h2, u, hu, v, hv, huv⟩ := hd
    have hpos : 0 < extent x := by
      cases x with
      | nil => cases hu
      | cons c r =>
        have e : nth (c :: r) 0 = c := rfl
        unfold extent
        rw [e]
        have := (fold_max (c :: r) c).2.2 v hv
        have := (fold_min (c :: r) c).2.2 u hu
        linarith
    obtain ⟨x', y', es, sh⟩ := sub_shows 4 (by norm_num) hl h2 (div_pos hpos (by norm_num : (0:ℝ) < 8)).ne' (fun _ => 1)
    refine ⟨(x'.zip y').map fun q => (q.2, level H rl q.1), ?_, ⟨?_, fun _ _ e => (by cases e)⟩⟩
    · unfold drawDepth
      show (do let s ← subdivideXY x y (some (extent x / 8)) 4 none; pure ((s.1.zip s.2).map fun q => (q.2, depthToReducedLevel q.1 H rl)) : Except PyErr _) = _
      rw [es]
      simp only [level_eq]
      rfl
    · intro x1 y1 e u1 hu1 v1 hv1 h1
      cases e
      refine ⟨x'.zip y', rfl, ?_⟩
      have e1 := extent_eq hu1 hv1 h1
      rw [abs_of_pos (by linarith), e1] at sh
      have : ((x'.zip y').map fun q : ℝ × ℝ => (q.1, q.2 * 1)) = x'.zip y' := by simp
      rw [this] at sh
      exact sh.mono (by linarith)

/-! ## C251: the figure -/

/-- Loads that can be drawn. -/
def GoodLoad (l : Load) : Prop := (∃ x y, l.time = .line x y ∧ x.length = y.length ∧ 2 ≤ x.length) ∧ GoodDepth l.depth ∧ ∀ w, l.om = some w → w.1 ≠ 0

/-- The times of the data points of loads. -/
def times (ls : List Load) : Set ℝ := {t | ∃ l ∈ ls, ∃ x y, l.time = .line x y ∧ t ∈ x}

theorem extreme_min {x : List ℝ} (h : x ≠ []) : ∃ a, extreme min x = .ok a ∧ IsLeast {t | t ∈ x} a := by
  cases x with
  | nil => exact absurd rfl h
  | cons c r =>
    obtain ⟨b1, b2, b3⟩ := fold_min r c
    refine ⟨_, rfl, ?_, ?_⟩
    · rcases b1 with k | k
      · rw [k]; exact List.mem_cons_self
      · exact List.mem_cons_of_mem _ k
    · intro t ht
      rcases List.mem_cons.1 ht with rfl | ht
      · exact b2
      · exact b3 t ht

theorem extreme_max {x : List ℝ} (h : x ≠ []) : ∃ a, extreme max x = .ok a ∧ IsGreatest {t | t ∈ x} a := by
  cases x with
  | nil => exact absurd rfl h
  | cons c r =>
    obtain ⟨b1, b2, b3⟩ := fold_max r c
    refine ⟨_, rfl, ?_, ?_⟩
    · rcases b1 with k | k
      · rw [k]; exact List.mem_cons_self
      · exact List.mem_cons_of_mem _ k
    · intro t ht
      rcases List.mem_cons.1 ht with rfl | ht
      · exact b2
      · exact b3 t ht

theorem tagged_snd (gs : List (List Load)) : (tagged gs).map Prod.snd = gs.flatten := by
  unfold tagged
  rw [List.map_flatMap]
  have : ∀ k, (gs.zipIdx k).flatMap (fun g => (g.1.zipIdx.map fun l => (decide (g.2 = 0 ∧ l.2 = 0), l.1)).map Prod.snd) = gs.flatten := by
    induction gs with
    | nil => intro k; rfl
    | cons g r ih =>
      intro k
      rw [List.zipIdx_cons, List.flatMap_cons, ih, List.flatten_cons, List.map_map]
      congr 1
      exact List.zipIdx_map_fst 0 g
  exact this 0

theorem tagged_cons (l0 : Load) (g : List Load) (r : List (List Load)) : ∃ rest, tagged ((l0 :: g) :: r) = (true, l0) :: rest ∧
    ∀ t ∈ rest, t.1 = false := by
  unfold tagged
  rw [List.zipIdx_cons, List.flatMap_cons, List.zipIdx_cons, List.map_cons, List.cons_append]
  refine ⟨_, rfl, ?_⟩
  intro t ht
  rcases List.mem_append.1 ht with h | h
  · obtain ⟨q, hq, rfl⟩ := List.mem_map.1 h
    have := List.le_snd_of_mem_zipIdx hq
    simp; omega
  · obtain ⟨q, hq, hq2⟩ := List.mem_flatMap.1 h
    obtain ⟨p, hp, rfl⟩ := List.mem_map.1 hq2
    have := List.le_snd_of_mem_zipIdx hq
    simp; omega

theorem span_fold (rest : List (Bool × Load)) (ht : ∀ t ∈ rest, t.1 = false) (hg : ∀ t ∈ rest, GoodLoad t.2) (s : Set ℝ) (p q : ℝ) (hp : IsLeast s p)
    (hq : IsGreatest s q) : ∃ a b, rest.foldlM (fun st l => spanStep st l.1 l.2) (some (p, q)) = (.ok (some (a, b)) : Except PyErr _) ∧
      IsLeast (s ∪ times (rest.map Prod.snd)) a ∧ IsGreatest (s ∪ times (rest.map Prod.snd)) b := by
  induction rest generalizing s p q with
  | nil =>
    refine ⟨p, q, rfl, ?_⟩
    have : times (([] : List (Bool × Load)).map Prod.snd) = ∅ := by simp [times]
    rw [this, Set.union_empty]
    exact ⟨hp, hq⟩
  | cons t rest ih =>
    obtain ⟨x, y, ex, hl, h2⟩ := (hg t List.mem_cons_self).1
    have hne : x ≠ [] := by rintro rfl; simp at h2
    obtain ⟨u, eu, hu⟩ := extreme_min hne
    obtain ⟨v, ev, hv⟩ := extreme_max hne
    have hs : spanStep (some (p, q)) t.1 t.2 = .ok (some (min p u, max q v)) := by
      unfold spanStep
      rw [ht t List.mem_cons_self]
      simp only [Bool.false_eq_true, if_false, ex]
      rw [eu, ev]; rfl
    obtain ⟨a, b, e, k1, k2⟩ := ih (fun w hw => ht w (List.mem_cons_of_mem _ hw)) (fun w hw => hg w (List.mem_cons_of_mem _ hw))
      (s ∪ {w | w ∈ x}) _ _ (hp.union hu) (hq.union hv)
    have ec : s ∪ times ((t :: rest).map Prod.snd) = s ∪ {w | w ∈ x} ∪ times (rest.map Prod.snd) := by
      ext w
      simp only [times, List.map_cons, List.mem_cons, exists_eq_or_imp, Set.mem_union, Set.mem_ofPred_eq, ex, TimeArg.line.injEq, or_assoc]
      constructor
      · rintro (h | ⟨x1, y1, ⟨rfl, rfl⟩, h⟩ | h)
        · exact Or.inl h
        · exact Or.inr (Or.inl h)
        · exact Or.inr (Or.inr h)
      · rintro (h | h | h)
        · exact Or.inl h
        · exact Or.inr (Or.inl ⟨x, y, ⟨rfl, rfl⟩, h⟩)
        · exact Or.inr (Or.inr h)
    refine ⟨a, b, ?_, ec ▸ k1, ec ▸ k2⟩
    rw [List.foldlM_cons, hs]
    exact e

/-- The time range of the figure. -/
theorem span_ok {gs : List (List Load)} (hne : ∃ l g r, gs = (l :: g) :: r) (hg : ∀ l ∈ gs.flatten, GoodLoad l) :
    ∃ a b, span gs none = .ok (some (a, b)) ∧ IsLeast (times gs.flatten) a ∧ IsGreatest (times gs.flatten) b := by
  obtain ⟨l0, g, r, rfl⟩ := hne
  obtain ⟨rest, e, hf⟩ := tagged_cons l0 g r
  have hsnd := tagged_snd ((l0 :: g) :: r)
  rw [e, List.map_cons] at hsnd
  obtain ⟨x, y, ex, hl, h2⟩ := (hg l0 (by rw [← hsnd]; exact List.mem_cons_self)).1
  have hne : x ≠ [] := by rintro rfl; simp at h2
  obtain ⟨u, eu, hu⟩ := extreme_min hne
  obtain ⟨v, ev, hv⟩ := extreme_max hne
  obtain ⟨a, b, ef, k1, k2⟩ := span_fold rest hf (fun t ht => hg t.2 (by rw [← hsnd]; exact List.mem_cons_of_mem _ (List.mem_map_of_mem ht))) _ _ _ hu hv
  have ec : times ((l0 :: g) :: r).flatten = {w | w ∈ x} ∪ times (rest.map Prod.snd) := by
    rw [← hsnd]
    ext w
    simp only [times, List.mem_cons, exists_eq_or_imp, Set.mem_union, Set.mem_ofPred_eq, ex, TimeArg.line.injEq]
    constructor
    · rintro (⟨x1, y1, ⟨rfl, rfl⟩, h⟩ | h)
      · exact Or.inl h
      · exact Or.inr h
    · rintro (h | h)
      · exact Or.inl ⟨x, y, ⟨rfl, rfl⟩, h⟩
      · exact Or.inr h
  refine ⟨a, b, ?_, ec ▸ k1, ec ▸ k2⟩
  unfold span
  rw [e, List.foldlM_cons]
  have hs : spanStep none true l0 = .ok (some (u, v)) := by
    unfold spanStep
    simp only [if_true, ex]
    rw [eu, ev]; rfl
  simp only [hs]
  exact ef

/-- A row of the figure shows the loads `ls`, of which `c` others have been drawn before: each load has one curve in each panel, with one
label and one style. -/
structure RowShows (n c : ℕ) (a b H : ℝ) (rl : Option ℝ) (name yl : String) (ls : List Load) (row : Row) : Prop where
  ylabel : row.ylabel = yl
  lenT : row.time.length = ls.length
  lenD : row.depth.length = ls.length
  curves : ∀ j l, ls[j]? = some l → ∃ T D, row.time[j]? = some T ∧ row.depth[j]? = some D ∧
    T.label = name ++ toString j ∧ D.label = name ++ toString j ∧ T.style = (c + j) % n ∧ D.style = (c + j) % n ∧
    (∀ x y, l.time = .line x y → Shows x y (cyc l.om) (pitch a b l.om) T.pts) ∧ ShowsDepth H rl l.depth D.pts

theorem rows_ok {n : ℕ} (hn : 0 < n) {a b : ℝ} (hab : a < b) (H : ℝ) (rl : Option ℝ) (gs : List (List Load × String × String))
    (hg : ∀ g ∈ gs, ∀ l ∈ g.1, GoodLoad l) (c : ℕ) : ∃ out, rows n (some (a, b)) H rl gs c = .ok out ∧ out.length = gs.length ∧
      ∀ i g, gs[i]? = some g → ∃ row, out[i]? = some row ∧
        RowShows n (c + ((gs.take i).map Prod.fst).flatten.length) a b H rl g.2.1 g.2.2 g.1 row := by
  induction gs generalizing c with
  | nil => exact ⟨[], rfl, rfl, fun i g e => by simp at e⟩
  | cons g gs ih =>
    obtain ⟨ls, name, yl⟩ := g
    obtain ⟨out, e, hl, hr⟩ := ih (fun w hw => hg w (List.mem_cons_of_mem _ hw)) (c + ls.length)
    have hone : ∀ l ∈ ls, ∀ j, ∃ T D, drawLoad n a b H rl name c (l, j) = .ok (T, D) ∧
        T.label = name ++ toString j ∧ D.label = name ++ toString j ∧ T.style = (c + j) % n ∧ D.style = (c + j) % n ∧
        (∀ x y, l.time = .line x y → Shows x y (cyc l.om) (pitch a b l.om) T.pts) ∧ ShowsDepth H rl l.depth D.pts := by
      intro l hl j
      obtain ⟨⟨x, y, ex, hxy, h2⟩, hd, hw⟩ := hg _ List.mem_cons_self l hl
      obtain ⟨t, et, ht⟩ := C250_history l.om l.depth hxy h2 hab hw
      obtain ⟨d, ed, hd'⟩ := C250_depth hd H rl
      have el : (⟨.line x y, l.depth, l.om⟩ : Load) = l := by rw [← ex]
      rw [el] at et
      refine ⟨⟨_, _, t⟩, ⟨_, _, d⟩, ?_, rfl, rfl, rfl, rfl, ?_, hd'⟩
      · unfold drawLoad
        rw [if_neg hn.ne']
        simp only [et, ed]
        rfl
      · intro x1 y1 e1
        rw [ex] at e1
        cases e1
        exact ht
    have hm : ∀ k, ∃ cs, (ls.zipIdx k).mapM (drawLoad n a b H rl name c) = .ok cs ∧ cs.length = ls.length ∧
        ∀ j l, ls[j]? = some l → ∃ T D, cs[j]? = some (T, D) ∧
          T.label = name ++ toString (k + j) ∧ D.label = name ++ toString (k + j) ∧ T.style = (c + (k + j)) % n ∧ D.style = (c + (k + j)) % n ∧
          (∀ x y, l.time = .line x y → Shows x y (cyc l.om) (pitch a b l.om) T.pts) ∧ ShowsDepth H rl l.depth D.pts := by
      clear ih e hl hr hg
      induction ls with
      | nil => intro k; exact ⟨[], rfl, rfl, fun j l e => by simp at e⟩
      | cons l ls ih2 =>
        intro k
        obtain ⟨cs, e1, hl1, h1⟩ := ih2 (fun w hw => hone w (List.mem_cons_of_mem _ hw)) (k + 1)
        obtain ⟨T, D, e0, h0⟩ := hone l List.mem_cons_self k
        refine ⟨(T, D) :: cs, ?_, by simp [hl1], ?_⟩
        · rw [List.zipIdx_cons, List.mapM_cons, e0]
          show ((ls.zipIdx (k + 1)).mapM (drawLoad n a b H rl name c) >>= fun r => pure ((T, D) :: r) : Except PyErr _) = _
          rw [e1]; rfl
        · intro j w hw
          cases j with
          | zero =>
            simp only [List.getElem?_cons_zero, Option.some.injEq] at hw
            subst hw
            exact ⟨T, D, rfl, h0⟩
          | succ j =>
            obtain ⟨T', D', e', h'⟩ := h1 j w (by simpa using hw)
            refine ⟨T', D', by simpa using e', ?_⟩
            rw [show k + (j + 1) = k + 1 + j by omega]
            exact h'
    obtain ⟨cs, em, hcl, hcs⟩ := hm 0
    refine ⟨⟨yl, cs.map Prod.fst, cs.map Prod.snd⟩ :: out, ?_, by simp [hl], ?_⟩
    · unfold rows
      show (ls.zipIdx.mapM (drawLoad n a b H rl name c) >>= _) = _
      rw [em]
      show (rows n (some (a, b)) H rl gs (c + ls.length) >>= _) = _
      rw [e]
      rfl
    · intro i g hi
      cases i with
      | zero =>
        simp only [List.getElem?_cons_zero, Option.some.injEq] at hi
        subst hi
        refine ⟨_, rfl, ⟨rfl, by simp [hcl], by simp [hcl], ?_⟩⟩
        intro j l hj
        obtain ⟨T, D, e0, h0⟩ := hcs j l hj
        refine ⟨T, D, by simp [e0], by simp [e0], ?_⟩
        simpa using h0
      | succ i =>
        obtain ⟨row, er, hrow⟩ := hr i g (by simpa using hi)
        refine ⟨row, by simpa using er, ?_⟩
        have : c + ((((ls, name, yl) :: gs).take (i+1)).map Prod.fst).flatten.length =
            c + ls.length + ((gs.take i).map Prod.fst).flatten.length := by simp; omega
        rw [this]
        exact hrow

/-- **C251** The figure of the loads: one row for each group, in their order; the time range is that of all loads. -/
theorem C251_figure {gs : List (List Load)} {names yls : List String} (hn : names.length = gs.length) (hy : yls.length = gs.length) {n : ℕ} (hpos : 0 < n)
    (H : ℝ) (rl : Option ℝ) (hne : ∃ l g r, gs = (l :: g) :: r) (hg : ∀ l ∈ gs.flatten, GoodLoad l) (hsp : ∃ u ∈ times gs.flatten, ∃ v ∈ times gs.flatten, u < v) :
    ∃ a b out, IsLeast (times gs.flatten) a ∧ IsGreatest (times gs.flatten) b ∧ plotGenericLoads gs names (some yls) none n H rl = .ok out ∧
      out.length = gs.length ∧ ∀ i ls name yl, gs[i]? = some ls → names[i]? = some name → yls[i]? = some yl →
        ∃ row, out[i]? = some row ∧ RowShows n ((gs.take i).flatten.length) a b H rl name yl ls row := by
  obtain ⟨a, b, es, ha, hb⟩ := span_ok hne hg
  obtain ⟨u, hu, v, hv, huv⟩ := hsp
  have hab : a < b := lt_of_le_of_lt (ha.2 hu) (lt_of_lt_of_le huv (hb.2 hv))
  have hz : (gs.zip (names.zip yls)).map Prod.fst = gs := List.map_fst_zip (by simp [hn, hy])
  obtain ⟨out, e, hl, hr⟩ := rows_ok hpos hab H rl (gs.zip (names.zip yls)) (by
    intro g hgz l hlg
    have : g.1 ∈ gs := by rw [← hz]; exact List.mem_map_of_mem hgz
    exact hg l (List.mem_flatten.2 ⟨_, this, hlg⟩)) 0
  refine ⟨a, b, out, ha, hb, ?_, by simpa [hn, hy] using hl, ?_⟩
  · unfold plotGenericLoads
    have : gs.length ≠ 0 := by obtain ⟨l, g, r, rfl⟩ := hne; simp
    rw [if_neg this]
    simp only [Option.getD_some]
    rw [hz, es]
    exact e
  · intro i ls name yl h1 h2 h3
    have hzi : (gs.zip (names.zip yls))[i]? = some (ls, name, yl) := by
      rw [List.getElem?_zip_eq_some]
      exact ⟨h1, by rw [List.getElem?_zip_eq_some]; exact ⟨h2, h3⟩⟩
    obtain ⟨row, er, hrow⟩ := hr i _ hzi
    refine ⟨row, er, ?_⟩
    rw [List.map_take, hz, Nat.zero_add] at hrow
    exact hrow

/-! ## What the figure refuses -/

/-- **C251** No groups: no figure. -/
theorem C251_nothing (names : List String) (yls : Option (List String)) (tr : Option (ℝ × ℝ)) (n : ℕ) (H : ℝ) (rl : Option ℝ) :
    plotGenericLoads [] names yls tr n H rl = .error .valueError := rfl

/-- **C251** If the first group has no loads and another one has, the time range is used before it is set. -/
theorem C251_first_empty {gs : List (List Load)} {names yls : List String} (hn : names.length = gs.length + 1) (hy : yls.length = gs.length + 1) (n : ℕ) (H : ℝ)
    (rl : Option ℝ) (h : ∃ g ∈ gs, g ≠ []) : plotGenericLoads ([] :: gs) names (some yls) none n H rl = .error .unboundLocal := by
  have hz : (([] :: gs).zip (names.zip yls)).map Prod.fst = [] :: gs := List.map_fst_zip (by simp [hn, hy])
  unfold plotGenericLoads
  rw [if_neg (by simp)]
  simp only [Option.getD_some]
  rw [hz]
  have hs : span ([] :: gs) none = .error .unboundLocal := by
    have h1 : ∀ t ∈ tagged ([] :: gs), t.1 = false := by
      unfold tagged
      intro t ht
      rw [List.zipIdx_cons, List.flatMap_cons] at ht
      simp only [List.zipIdx_nil, List.map_nil, List.nil_append] at ht
      obtain ⟨q, hq, hq2⟩ := List.mem_flatMap.1 ht
      obtain ⟨p, hp, rfl⟩ := List.mem_map.1 hq2
      have := List.le_snd_of_mem_zipIdx hq
      simp; omega
    have h2 := tagged_snd ([] :: gs)
    unfold span
    cases e : tagged ([] :: gs) with
    | nil =>
      rw [e] at h2
      obtain ⟨g, hg, hne⟩ := h
      have h3 : ([] :: gs).flatten = [] := by rw [← h2]; rfl
      exact absurd (List.flatten_eq_nil_iff.1 h3 g (List.mem_cons_of_mem _ hg)) hne
    | cons t r =>
      have ht := h1 t (by rw [e]; exact List.mem_cons_self)
      simp only [List.foldlM_cons, spanStep, ht, Bool.false_eq_true, if_false]
      rfl
  rw [hs]
  rfl

/-- **C251** Without a time range the first load must be a PolyLine. -/
theorem C251_first_not_line {l : Load} {g : List Load} {gs : List (List Load)} {names yls : List String} (hn : names.length = gs.length + 1)
    (hy : yls.length = gs.length + 1) (n : ℕ) (H : ℝ) (rl : Option ℝ) (h : ∀ x y, l.time ≠ .line x y) :
    plotGenericLoads ((l :: g) :: gs) names (some yls) none n H rl = .error .attributeError := by
  have hz : (((l :: g) :: gs).zip (names.zip yls)).map Prod.fst = (l :: g) :: gs := List.map_fst_zip (by simp [hn, hy])
  obtain ⟨rest, e, _⟩ := tagged_cons l g gs
  have hs : span ((l :: g) :: gs) none = .error .attributeError := by
    unfold span
    rw [e]
    simp only [List.foldlM_cons, spanStep, if_true]
    cases ht : l.time with
    | line x y => exact absurd ht (h x y)
    | missing => rfl
    | pair x y => rfl
  unfold plotGenericLoads
  rw [if_neg (by simp)]
  simp only [Option.getD_some]
  rw [hz, hs]
  rfl

/-- **C250** A load with `omega = 0` (a constant factor) is not drawn: division by zero. -/
theorem C250_omega_zero (a b p : ℝ) (x y : List ℝ) (d : DepthArg) : drawTime a b ⟨.line x y, d, some (0, p)⟩ = .error .zeroDivision := by
  unfold drawTime
  simp only [asLine, spacing, if_true]
  rfl

/-! ## C251: `Speccon1dVR` -/

/-- A PolyLine of at least two points, as `PolyLine.__init__` makes. -/
def Line2 (p : List ℝ × List ℝ) : Prop := p.1.length = p.2.length ∧ 2 ≤ p.1.length

/-- A PolyLine which is not vertical. -/
def Wide (p : List ℝ × List ℝ) : Prop := Line2 p ∧ ∃ u ∈ p.1, ∃ v ∈ p.1, u < v

/-- The loads of an object can be drawn: PolyLines, no `omega` is 0. -/
structure Drawable (x : Inputs) : Prop where
  surcharge : ∀ l, x.surcharge = some l → ∀ v ∈ l, Line2 v.1 ∧ Wide v.2.1 ∧ ∀ w, v.2.2 = some w → w.1 ≠ 0
  vacuum : ∀ l, x.vacuum = some l → ∀ v ∈ l, Line2 v.1 ∧ Wide v.2.1 ∧ ∀ w, v.2.2 = some w → w.1 ≠ 0
  top : ∀ l, x.top = some l → ∀ v ∈ l, Line2 v.1 ∧ ∀ w, v.2 = some w → w.1 ≠ 0
  bot : ∀ l, x.bot = some l → ∀ v ∈ l, Line2 v.1 ∧ ∀ w, v.2 = some w → w.1 ≠ 0
  fixed : ∀ l, x.fixed = some l → ∀ v ∈ l, (∀ p, v.1.2 = some p → Line2 p) ∧ ∀ w, v.2 = some w → w.1 ≠ 0
  pumping : ∀ l, x.pumping = some l → ∀ v ∈ l, Line2 v.1.2 ∧ ∀ w, v.2 = some w → w.1 ≠ 0

theorem mem_grp {α : Type} {l : Option (List α)} {name yl : String} {f : α → Load} {g : List Load × String × String} :
    g ∈ grp l name yl f ↔ ∃ v, l = some v ∧ g = (v.map f, name, yl) := by
  cases l with
  | none => simp [grp]
  | some v => simp [grp]

theorem groups_good {x : Inputs} (h : Drawable x) (t0 t1 : ℝ) : ∀ g ∈ x.groups t0 t1, ∀ l ∈ g.1, GoodLoad l := by
  intro g hg l hl
  unfold Inputs.groups at hg
  simp only [List.mem_append, mem_grp] at hg
  rcases hg with ((((hg | hg) | hg) | hg) | hg) | hg <;> obtain ⟨v, ev, rfl⟩ := hg <;> obtain ⟨w, hw, rfl⟩ := List.mem_map.1 hl
  · obtain ⟨a, b, c⟩ := h.surcharge v ev w hw
    exact ⟨⟨_, _, rfl, a⟩, ⟨b.1.1, b.1.2, b.2⟩, c⟩
  · obtain ⟨a, b, c⟩ := h.vacuum v ev w hw
    exact ⟨⟨_, _, rfl, a⟩, ⟨b.1.1, b.1.2, b.2⟩, c⟩
  · obtain ⟨a, c⟩ := h.top v ev w hw
    exact ⟨⟨_, _, rfl, a⟩, rfl, c⟩
  · obtain ⟨a, c⟩ := h.bot v ev w hw
    exact ⟨⟨_, _, rfl, a⟩, rfl, c⟩
  · obtain ⟨a, c⟩ := h.fixed v ev w hw
    obtain ⟨⟨z, o⟩, om⟩ := w
    cases o with
    | none => exact ⟨⟨_, _, rfl, rfl, le_refl 2⟩, rfl, c⟩
    | some p => exact ⟨⟨_, _, rfl, a p rfl⟩, rfl, c⟩
  · obtain ⟨a, c⟩ := h.pumping v ev w hw
    exact ⟨⟨_, _, rfl, a⟩, rfl, c⟩

/-- All times of the load histories of an object. -/
def allTimes (x : Inputs) (t0 t1 : ℝ) : Set ℝ := {t |
  (∃ l, x.surcharge = some l ∧ ∃ v ∈ l, t ∈ v.1.1) ∨ (∃ l, x.vacuum = some l ∧ ∃ v ∈ l, t ∈ v.1.1) ∨
  (∃ l, x.top = some l ∧ ∃ v ∈ l, t ∈ v.1.1) ∨ (∃ l, x.bot = some l ∧ ∃ v ∈ l, t ∈ v.1.1) ∨
  (∃ l, x.fixed = some l ∧ ∃ v ∈ l, t ∈ v.1.2.elim [t0, t1] Prod.fst) ∨ ∃ l, x.pumping = some l ∧ ∃ v ∈ l, t ∈ v.1.2.1}

theorem times_map {α : Type} (l : List α) (f : α → Load) (t : ℝ) : t ∈ times (l.map f) ↔ ∃ v ∈ l, ∃ x y, (f v).time = .line x y ∧ t ∈ x := by
  simp [times]

theorem times_groups (x : Inputs) (t0 t1 : ℝ) : times ((x.groups t0 t1).map Prod.fst).flatten = allTimes x t0 t1 := by
  ext t
  have h1 : t ∈ times ((x.groups t0 t1).map Prod.fst).flatten ↔ ∃ g ∈ x.groups t0 t1, t ∈ times g.1 := by
    simp only [times, Set.mem_ofPred_eq, List.mem_flatten, List.mem_map]
    constructor
    · rintro ⟨l, ⟨_, ⟨g, hg, rfl⟩, hl⟩, h⟩
      exact ⟨g, hg, l, hl, h⟩
    · rintro ⟨g, hg, l, hl, h⟩
      exact ⟨l, ⟨_, ⟨g, hg, rfl⟩, hl⟩, h⟩
  rw [h1]
  have h2 : ∀ {α : Type} (l : Option (List α)) (name yl : String) (f : α → Load) (X : α → List ℝ) (Y : α → List ℝ) (hf : ∀ v, (f v).time = .line (X v) (Y v)),
      (∃ g ∈ grp l name yl f, t ∈ times g.1) ↔ ∃ v, l = some v ∧ ∃ w ∈ v, t ∈ X w := by
    intro α l name yl f X Y hf
    constructor
    · rintro ⟨g, hg, ht⟩
      obtain ⟨v, ev, rfl⟩ := mem_grp.1 hg
      obtain ⟨w, hw, a, b, e, ha⟩ := (times_map _ _ _).1 ht
      rw [hf] at e
      cases e
      exact ⟨v, ev, w, hw, ha⟩
    · rintro ⟨v, ev, w, hw, ht⟩
      exact ⟨_, mem_grp.2 ⟨v, ev, rfl⟩, (times_map _ _ _).2 ⟨w, hw, _, _, hf w, ht⟩⟩
  unfold Inputs.groups allTimes
  simp only [List.mem_append, or_and_right, exists_or, Set.mem_ofPred_eq]
  rw [h2 x.surcharge _ _ _ (fun v => v.1.1) (fun v => v.1.2) fun v => rfl, h2 x.vacuum _ _ _ (fun v => v.1.1) (fun v => v.1.2) fun v => rfl,
    h2 x.top _ _ _ (fun v => v.1.1) (fun v => v.1.2) fun v => rfl, h2 x.bot _ _ _ (fun v => v.1.1) (fun v => v.1.2) fun v => rfl,
    h2 x.fixed _ _ _ (fun v => v.1.2.elim [t0, t1] Prod.fst) (fun v => v.1.2.elim [0, 0] Prod.snd) fun v => (by cases h : v.1.2 <;> simp [h]),
    h2 x.pumping _ _ _ (fun v => v.1.2.1) (fun v => v.1.2.2) fun v => rfl]
  simp only [or_assoc]

/-- **C251** `produce_plots` shows every load of a `Speccon1dVR` object: a row for each kind that is given, a curve for each load, with the
boundary loads at the top and the bottom and point loads at their depths. -/
theorem C251_vr {x : Inputs} (h : Drawable x) (t0 t1 : ℝ) {n : ℕ} (hn : 0 < n) (H : ℝ) (rl : Option ℝ)
    (hne : ∃ l g nm r, x.groups t0 t1 = (l :: g, nm) :: r) (hsp : ∃ u ∈ allTimes x t0 t1, ∃ v ∈ allTimes x t0 t1, u < v) :
    ∃ a b out, IsLeast (allTimes x t0 t1) a ∧ IsGreatest (allTimes x t0 t1) b ∧ x.plotLoads t0 t1 n H rl = .ok out ∧
      out.length = (x.groups t0 t1).length ∧
      (∀ l, x.surcharge = some l → ∃ c, ∃ row ∈ out, RowShows n c a b H rl "surch" "Surcharge"
        (l.map fun v => ⟨.line v.1.1 v.1.2, .line v.2.1.1 v.2.1.2, v.2.2⟩) row) ∧
      (∀ l, x.vacuum = some l → ∃ c, ∃ row ∈ out, RowShows n c a b H rl "vac" "Vacuum"
        (l.map fun v => ⟨.line v.1.1 v.1.2, .line v.2.1.1 v.2.1.2, v.2.2⟩) row) ∧
      (∀ l, x.top = some l → ∃ c, ∃ row ∈ out, RowShows n c a b H rl "top" "Top boundary" (l.map fun v => ⟨.line v.1.1 v.1.2, .pair [0] [1], v.2⟩) row) ∧
      (∀ l, x.bot = some l → ∃ c, ∃ row ∈ out, RowShows n c a b H rl "bot" "Bot boundary" (l.map fun v => ⟨.line v.1.1 v.1.2, .pair [1] [1], v.2⟩) row) ∧
      (∀ l, x.fixed = some l → ∃ c, ∃ row ∈ out, RowShows n c a b H rl "fixed p" "Fixed ppress"
        (l.map fun v => ⟨.line (v.1.2.elim [t0, t1] Prod.fst) (v.1.2.elim [0, 0] Prod.snd), .pair [v.1.1] [1], v.2⟩) row) ∧
      ∀ l, x.pumping = some l → ∃ c, ∃ row ∈ out, RowShows n c a b H rl "pump" "Pumping velocity"
        (l.map fun v => ⟨.line v.1.2.1 v.1.2.2, .pair [v.1.1] [1], v.2⟩) row := by
  rw [← times_groups] at hsp ⊢
  obtain ⟨l0, g0, nm, r, e0⟩ := hne
  obtain ⟨a, b, out, ha, hb, e, hl, hr⟩ := C251_figure (gs := (x.groups t0 t1).map Prod.fst) (names := (x.groups t0 t1).map fun v => v.2.1)
    (yls := (x.groups t0 t1).map fun v => v.2.2) (by simp) (by simp) hn H rl ⟨l0, g0, r.map Prod.fst, by rw [e0]; rfl⟩ (by
      intro l hl
      obtain ⟨g, hg, hlg⟩ := List.mem_flatten.1 hl
      obtain ⟨q, hq, rfl⟩ := List.mem_map.1 hg
      exact groups_good h t0 t1 q hq l hlg) hsp
  have key : ∀ g ∈ x.groups t0 t1, ∃ c, ∃ row ∈ out, RowShows n c a b H rl g.2.1 g.2.2 g.1 row := by
    intro g hg
    obtain ⟨i, hi⟩ := List.getElem?_of_mem hg
    obtain ⟨row, er, hrow⟩ := hr i g.1 g.2.1 g.2.2 (by simp [hi]) (by simp [hi]) (by simp [hi])
    exact ⟨_, row, List.mem_of_getElem? er, hrow⟩
  have kk : ∀ {α : Type} {l : Option (List α)} {name yl : String} {f : α → Load} (hs : ∀ g ∈ grp l name yl f, g ∈ x.groups t0 t1),
      ∀ v, l = some v → ∃ c, ∃ row ∈ out, RowShows n c a b H rl name yl (v.map f) row := by
    intro α l name yl f hs v ev
    exact key _ (hs _ (mem_grp.2 ⟨v, ev, rfl⟩))
  refine ⟨a, b, out, ha, hb, e, by simpa using hl, ?_, ?_, ?_, ?_, ?_, ?_⟩
  · exact kk fun g hg => by unfold Inputs.groups; simp only [List.mem_append]; tauto
  · exact kk fun g hg => by unfold Inputs.groups; simp only [List.mem_append]; tauto
  · exact kk fun g hg => by unfold Inputs.groups; simp only [List.mem_append]; tauto
  · exact kk fun g hg => by unfold Inputs.groups; simp only [List.mem_append]; tauto
  · have := kk (l := x.fixed) (name := "fixed p") (yl := "Fixed ppress")
      (f := fun v => ⟨match v.1.2 with | none => .line [t0, t1] [0, 0] | some p => .line p.1 p.2, .pair [v.1.1] [1], v.2⟩)
      fun g hg => by unfold Inputs.groups; simp only [List.mem_append]; tauto
    intro l el
    obtain ⟨c, row, hrow, hs⟩ := this l el
    refine ⟨c, row, hrow, ?_⟩
    have ef : (fun v : (ℝ × Option (List ℝ × List ℝ)) × Option (ℝ × ℝ) =>
        (⟨.line (v.1.2.elim [t0, t1] Prod.fst) (v.1.2.elim [0, 0] Prod.snd), .pair [v.1.1] [1], v.2⟩ : Load)) =
        fun v => ⟨match v.1.2 with | none => .line [t0, t1] [0, 0] | some p => .line p.1 p.2, .pair [v.1.1] [1], v.2⟩ := by
      funext v
      obtain ⟨⟨z, o⟩, om⟩ := v
      cases o <;> rfl
    rw [ef]
    exact hs
  · exact kk fun g hg => by unfold Inputs.groups; simp only [List.mem_append]; tauto

/-- **C251** An object without loads: `produce_plots` fails. -/
theorem C251_vr_no_loads (t0 t1 : ℝ) (n : ℕ) (H : ℝ) (rl : Option ℝ) :
    Inputs.plotLoads ⟨none, none, none, none, none, none⟩ t0 t1 n H rl = .error .valueError := rfl

/-! ## C252: materials -/

/-- **C252** Each material is drawn once, in order, with its label, all in one style. -/
theorem C252_materials {zx : List ((List ℝ × List ℝ) × String)} (hne : zx ≠ []) (hg : ∀ m ∈ zx, Wide m.1) {n : ℕ} (hn : 0 < n) (H : ℝ) (rl : Option ℝ) :
    ∃ out, plotMaterials (zx.map fun m => (TimeArg.line m.1.1 m.1.2, m.2)) n H rl = .ok out ∧ out.length = zx.length ∧
      ∀ (k : ℕ) (m : (List ℝ × List ℝ) × String), zx[k]? = some m → ∃ c : Curve, out[k]? = some c ∧ c.label = m.2 ∧ c.style = 0 ∧ ShowsDepth H rl (.line m.1.1 m.1.2) c.pts := by
  have hm : ∃ out, (zx.map fun m => (TimeArg.line m.1.1 m.1.2, m.2)).mapM (drawMaterial H rl) = (.ok out : Except PyErr _) ∧ out.length = zx.length ∧
      ∀ (k : ℕ) (m : (List ℝ × List ℝ) × String), zx[k]? = some m → ∃ c : Curve, out[k]? = some c ∧ c.label = m.2 ∧ c.style = 0 ∧ ShowsDepth H rl (.line m.1.1 m.1.2) c.pts := by
    clear hne
    induction zx with
    | nil => exact ⟨[], rfl, rfl, fun k m e => by simp at e⟩
    | cons m zx ih =>
      obtain ⟨out, e, hl, hk⟩ := ih fun w hw => hg w (List.mem_cons_of_mem _ hw)
      obtain ⟨⟨a1, a2⟩, a3⟩ := hg m List.mem_cons_self
      obtain ⟨pts, ep, hp⟩ := C250_depth (d := .line m.1.1 m.1.2) ⟨a1, a2, a3⟩ H rl
      refine ⟨⟨m.2, 0, pts⟩ :: out, ?_, by simp [hl], ?_⟩
      · have e0 : drawMaterial H rl (.line m.1.1 m.1.2, m.2) = .ok ⟨m.2, 0, pts⟩ := by
          unfold drawDepth at ep
          unfold drawMaterial
          change (do let s ← subdivideXY m.1.1 m.1.2 (some (extent m.1.1 / 8)) 4 none; pure ((s.1.zip s.2).map fun q => (q.2, depthToReducedLevel q.1 H rl)) : Except PyErr _) = _ at ep
          change (do let s ← subdivideXY m.1.1 m.1.2 (some (extent m.1.1 / 8)) 4 none; pure ⟨m.2, 0, (s.1.zip s.2).map fun q => (q.2, depthToReducedLevel q.1 H rl)⟩ : Except PyErr Curve) = _
          cases es : subdivideXY m.1.1 m.1.2 (some (extent m.1.1 / 8)) 4 none with
          | error err =>
            rw [es] at ep
            cases ep
          | ok s =>
            rw [es] at ep
            have : (s.1.zip s.2).map (fun q => (q.2, depthToReducedLevel q.1 H rl)) = pts := Except.ok.inj ep
            rw [← this]
            rfl
        rw [List.map_cons, List.mapM_cons, e, e0]
        rfl
      · intro k w hw
        cases k with
        | zero =>
          simp only [List.getElem?_cons_zero, Option.some.injEq] at hw
          subst hw
          exact ⟨_, rfl, rfl, rfl, hp⟩
        | succ k =>
          obtain ⟨c, ec, hc⟩ := hk k w (by simpa using hw)
          exact ⟨c, by simpa using ec, hc⟩
  obtain ⟨out, e, hl, hk⟩ := hm
  refine ⟨out, ?_, hl, hk⟩
  unfold plotMaterials
  rw [if_neg (by simpa using hne), if_neg hn.ne']
  exact e

theorem mem_opt {α β : Type} {o : Option α} {f : α → β} {m : β} : m ∈ (o.map f).toList ↔ ∃ p, o = some p ∧ m = f p := by
  cases o <;> simp

/-- **C252** No materials: no figure. -/
theorem C252_nothing (n : ℕ) (H : ℝ) (rl : Option ℝ) : plotMaterials [] n H rl = .error .valueError := rfl

/-- **C252** `produce_plots` of a `Speccon1dVR` object: the materials that are given, in the order `mv`, `kv`, `kh`, `et`, each with the
label made of its own reference value. -/
theorem C252_vr (label : String → ℝ → String) {mv kv kh et : Option (List ℝ × List ℝ)} (mvref kvref khref etref : ℝ) {n : ℕ} (hn : 0 < n) (H : ℝ)
    (rl : Option ℝ) (hm : mv.isSome) (h1 : ∀ p, mv = some p → Wide p) (h2 : ∀ p, kv = some p → Wide p) (h3 : ∀ p, kh = some p → Wide p)
    (h4 : ∀ p, et = some p → Wide p) :
    ∃ out, plotMaterialsVR label mv kv kh et mvref kvref khref etref n H rl = .ok out ∧
      out.map Curve.label = (if mv.isSome then [label "m_v" mvref] else []) ++ (if kv.isSome then [label "k_v" kvref] else []) ++
        (if kh.isSome then [label "k_h" khref] else []) ++ (if et.isSome then [label "eta" etref] else []) ∧
      (∀ p, mv = some p → ∃ c ∈ out, c.label = label "m_v" mvref ∧ ShowsDepth H rl (.line p.1 p.2) c.pts) ∧
      (∀ p, kv = some p → ∃ c ∈ out, c.label = label "k_v" kvref ∧ ShowsDepth H rl (.line p.1 p.2) c.pts) ∧
      (∀ p, kh = some p → ∃ c ∈ out, c.label = label "k_h" khref ∧ ShowsDepth H rl (.line p.1 p.2) c.pts) ∧
      ∀ p, et = some p → ∃ c ∈ out, c.label = label "eta" etref ∧ ShowsDepth H rl (.line p.1 p.2) c.pts := by
  set zx : List ((List ℝ × List ℝ) × String) := (mv.map fun p => (p, label "m_v" mvref)).toList ++ (kv.map fun p => (p, label "k_v" kvref)).toList ++
    (kh.map fun p => (p, label "k_h" khref)).toList ++ (et.map fun p => (p, label "eta" etref)).toList with hz
  have mem : ∀ m, m ∈ zx ↔ (∃ p, mv = some p ∧ m = (p, label "m_v" mvref)) ∨ (∃ p, kv = some p ∧ m = (p, label "k_v" kvref)) ∨
      (∃ p, kh = some p ∧ m = (p, label "k_h" khref)) ∨ ∃ p, et = some p ∧ m = (p, label "eta" etref) := by
    intro m
    rw [hz]
    simp only [List.mem_append, mem_opt, or_assoc]
  obtain ⟨out, e, hl, hk⟩ := C252_materials (zx := zx) (by
      obtain ⟨p, hp⟩ := Option.isSome_iff_exists.1 hm
      intro h0
      have := (mem (p, label "m_v" mvref)).2 (Or.inl ⟨p, hp, rfl⟩)
      rw [h0] at this
      cases this) (by
      intro m hmem
      rcases (mem m).1 hmem with ⟨p, hp, rfl⟩ | ⟨p, hp, rfl⟩ | ⟨p, hp, rfl⟩ | ⟨p, hp, rfl⟩
      · exact h1 p hp
      · exact h2 p hp
      · exact h3 p hp
      · exact h4 p hp) hn H rl
  have ez : (zx.map fun m => (TimeArg.line m.1.1 m.1.2, m.2)) =
      (mv.map fun p => (TimeArg.line p.1 p.2, label "m_v" mvref)).toList ++ (kv.map fun p => (TimeArg.line p.1 p.2, label "k_v" kvref)).toList ++
      (kh.map fun p => (TimeArg.line p.1 p.2, label "k_h" khref)).toList ++ (et.map fun p => (TimeArg.line p.1 p.2, label "eta" etref)).toList := by
    rw [hz]
    cases mv <;> cases kv <;> cases kh <;> cases et <;> rfl
  have hlab : out.map Curve.label = zx.map Prod.snd := by
    apply List.ext_getElem?
    intro k
    rw [List.getElem?_map, List.getElem?_map]
    cases hzk : zx[k]? with
    | none =>
      have : out[k]? = none := by
        rw [List.getElem?_eq_none_iff] at hzk ⊢
        omega
      rw [this]; rfl
    | some m =>
      obtain ⟨c, ec, h, _⟩ := hk k m hzk
      rw [ec]
      simp [h]
  have pick : ∀ m ∈ zx, ∃ c ∈ out, c.label = m.2 ∧ ShowsDepth H rl (.line m.1.1 m.1.2) c.pts := by
    intro m hmem
    obtain ⟨k, hkk⟩ := List.getElem?_of_mem hmem
    obtain ⟨c, ec, h, _, hs⟩ := hk k m hkk
    exact ⟨c, List.mem_of_getElem? ec, h, hs⟩
  refine ⟨out, ?_, ?_, ?_, ?_, ?_, ?_⟩
  · unfold plotMaterialsVR
    rw [← ez]
    exact e
  · rw [hlab, hz]
    cases mv <;> cases kv <;> cases kh <;> cases et <;> rfl
  · exact fun p hp => pick _ ((mem _).2 (Or.inl ⟨p, hp, rfl⟩))
  · exact fun p hp => pick _ ((mem _).2 (Or.inr (Or.inl ⟨p, hp, rfl⟩)))
  · exact fun p hp => pick _ ((mem _).2 (Or.inr (Or.inr (Or.inl ⟨p, hp, rfl⟩))))
  · exact fun p hp => pick _ ((mem _).2 (Or.inr (Or.inr (Or.inr ⟨p, hp, rfl⟩))))

theorem mem_mat {o : Option (List ℝ × List ℝ)} {s : String} {m : TimeArg × String} : m ∈ mat o s ↔ ∃ p, o = some p ∧ m = (.line p.1 p.2, s) := mem_opt

/-- **C252** Any list of materials, each of which may be missing: the given ones are drawn, in order. -/
theorem C252_given (os : List (Option (List ℝ × List ℝ) × String)) (hs : ∃ o ∈ os, o.1.isSome) (hw : ∀ o ∈ os, ∀ p, o.1 = some p → Wide p) {n : ℕ}
    (hn : 0 < n) (H : ℝ) (rl : Option ℝ) : ∃ out, plotMaterials (os.flatMap fun o => mat o.1 o.2) n H rl = .ok out ∧
      out.map Curve.label = (os.filter fun o => o.1.isSome).map Prod.snd ∧
      ∀ o ∈ os, ∀ p, o.1 = some p → ∃ c ∈ out, c.label = o.2 ∧ ShowsDepth H rl (.line p.1 p.2) c.pts := by
  set zx : List ((List ℝ × List ℝ) × String) := os.flatMap fun o => (o.1.map fun p => (p, o.2)).toList with hz
  have mem : ∀ m, m ∈ zx ↔ ∃ o ∈ os, o.1 = some m.1 ∧ m.2 = o.2 := by
    intro m
    rw [hz, List.mem_flatMap]
    constructor
    · rintro ⟨o, ho, h⟩
      obtain ⟨p, hp, rfl⟩ := mem_opt.1 h
      exact ⟨o, ho, hp, rfl⟩
    · rintro ⟨o, ho, hp, h⟩
      exact ⟨o, ho, mem_opt.2 ⟨m.1, hp, by rw [← h]⟩⟩
  obtain ⟨o0, h0, h00⟩ := hs
  obtain ⟨p0, hp0⟩ := Option.isSome_iff_exists.1 h00
  obtain ⟨out, e, hl, hk⟩ := C252_materials (zx := zx) (by
      intro h
      have := (mem (p0, o0.2)).2 ⟨o0, h0, hp0, rfl⟩
      rw [h] at this
      cases this) (by
      intro m hm
      obtain ⟨o, ho, h1, -⟩ := (mem m).1 hm
      exact hw o ho _ h1) hn H rl
  have ez : (zx.map fun m => (TimeArg.line m.1.1 m.1.2, m.2)) = os.flatMap fun o => mat o.1 o.2 := by
    rw [hz, List.map_flatMap]
    congr 1
    funext o
    unfold mat
    cases o.1 <;> rfl
  have es : zx.map Prod.snd = (os.filter fun o => o.1.isSome).map Prod.snd := by
    rw [hz, List.map_flatMap]
    clear_value zx
    clear * -
    induction os with
    | nil => rfl
    | cons o os ih =>
      rw [List.flatMap_cons, ih]
      obtain ⟨a, b⟩ := o
      cases a <;> rfl
  refine ⟨out, by rw [← ez]; exact e, ?_, ?_⟩
  · rw [← es]
    apply List.ext_getElem?
    intro k
    rw [List.getElem?_map, List.getElem?_map]
    cases hzk : zx[k]? with
    | none =>
      have : out[k]? = none := by
        rw [List.getElem?_eq_none_iff] at hzk ⊢
        omega
      rw [this]; rfl
    | some m =>
      obtain ⟨c, ec, h, _⟩ := hk k m hzk
      rw [ec]
      simp [h]
  · intro o ho p hp
    obtain ⟨k, hkk⟩ := List.getElem?_of_mem ((mem (p, o.2)).2 ⟨o, ho, hp, rfl⟩)
    obtain ⟨c, ec, h, _, hs⟩ := hk k _ hkk
    exact ⟨c, List.mem_of_getElem? ec, h, hs⟩

/-- **C252** Speccon1dVRW: `mv`, `kv`, `kh`, `kw`, `et`. -/
theorem C252_vrw (label : String → ℝ → String) (mv kv kh kw et : Option (List ℝ × List ℝ)) (mvref kvref khref kwref etref : ℝ) {n : ℕ} (hn : 0 < n) (H : ℝ)
    (rl : Option ℝ) (hm : mv.isSome) (hw : ∀ o ∈ [mv, kv, kh, kw, et], ∀ p, o = some p → Wide p) :
    ∃ out, plotMaterialsVRW label mv kv kh kw et mvref kvref khref kwref etref n H rl = .ok out ∧
      out.map Curve.label = (([(mv, label "m_v" mvref), (kv, label "k_v" kvref), (kh, label "k_h" khref), (kw, label "k_w" kwref),
        (et, label "eta" etref)].filter fun o => o.1.isSome).map Prod.snd) ∧
      ∀ o ∈ [(mv, label "m_v" mvref), (kv, label "k_v" kvref), (kh, label "k_h" khref), (kw, label "k_w" kwref), (et, label "eta" etref)], ∀ p,
        o.1 = some p → ∃ c ∈ out, c.label = o.2 ∧ ShowsDepth H rl (.line p.1 p.2) c.pts := by
  obtain ⟨out, e, h⟩ := C252_given [(mv, label "m_v" mvref), (kv, label "k_v" kvref), (kh, label "k_h" khref), (kw, label "k_w" kwref),
    (et, label "eta" etref)] ⟨_, List.mem_cons_self, hm⟩ (by
      intro o ho
      have : o.1 ∈ [mv, kv, kh, kw, et] := List.mem_map_of_mem (f := Prod.fst) ho
      exact hw _ this) hn H rl
  refine ⟨out, ?_, h⟩
  rw [← e]
  unfold plotMaterialsVRW
  simp only [List.flatMap_cons, List.flatMap_nil, List.append_nil, List.append_assoc]

/-- **C252** Speccon1dVRC: `mv`, `kv`, `kvc`, `kh`, `khc`, `et`, if `kvc` and `khc` are both given or both missing. -/
theorem C252_vrc (label : String → ℝ → String) (mv kv kvc kh khc et : Option (List ℝ × List ℝ)) (mvref kvref kvcref khref khcref etref : ℝ) {n : ℕ}
    (hn : 0 < n) (H : ℝ) (rl : Option ℝ) (hm : mv.isSome) (hc : kvc.isSome = khc.isSome) (hw : ∀ o ∈ [mv, kv, kvc, kh, khc, et], ∀ p, o = some p → Wide p) :
    ∃ out, plotMaterialsVRC label mv kv kvc kh khc et mvref kvref kvcref khref khcref etref n H rl = .ok out ∧
      out.map Curve.label = (([(mv, label "m_v" mvref), (kv, label "k_v" kvref), (kvc, label "k_vc" kvcref), (kh, label "k_h" khref),
        (khc, label "k_hc" khcref), (et, label "eta" etref)].filter fun o => o.1.isSome).map Prod.snd) ∧
      ∀ o ∈ [(mv, label "m_v" mvref), (kv, label "k_v" kvref), (kvc, label "k_vc" kvcref), (kh, label "k_h" khref), (khc, label "k_hc" khcref),
        (et, label "eta" etref)], ∀ p, o.1 = some p → ∃ c ∈ out, c.label = o.2 ∧ ShowsDepth H rl (.line p.1 p.2) c.pts := by
  obtain ⟨out, e, h⟩ := C252_given [(mv, label "m_v" mvref), (kv, label "k_v" kvref), (kvc, label "k_vc" kvcref), (kh, label "k_h" khref),
    (khc, label "k_hc" khcref), (et, label "eta" etref)] ⟨_, List.mem_cons_self, hm⟩ (by
      intro o ho
      have : o.1 ∈ [mv, kv, kvc, kh, khc, et] := List.mem_map_of_mem (f := Prod.fst) ho
      exact hw _ this) hn H rl
  refine ⟨out, ?_, h⟩
  rw [← e]
  unfold plotMaterialsVRC
  have : (if khc.isSome then [(kvc.elim TimeArg.missing fun p => TimeArg.line p.1 p.2, label "k_vc" kvcref)] else []) = mat kvc (label "k_vc" kvcref) := by
    cases kvc <;> cases khc <;> first | rfl | cases hc
  rw [this]
  simp only [List.flatMap_cons, List.flatMap_nil, List.append_nil, List.append_assoc]

/-- **C252** Speccon1dVRC asks for the wrong one: with `khc` but without `kvc` there is an exception, with `kvc` but without `khc` the
permeability `kvc` is not drawn. -/
theorem C252_vrc_latent (label : String → ℝ → String) (p q : List ℝ × List ℝ) (hp : Wide p) (hq : Wide q) (r1 r2 r3 r4 r5 r6 : ℝ) {n : ℕ} (hn : 0 < n) (H : ℝ)
    (rl : Option ℝ) : plotMaterialsVRC label (some p) none none none (some q) none r1 r2 r3 r4 r5 r6 n H rl = .error .typeError ∧
      ∃ out, plotMaterialsVRC label (some p) none (some q) none none none r1 r2 r3 r4 r5 r6 n H rl = .ok out ∧ out.map Curve.label = [label "m_v" r1] := by
  constructor
  · obtain ⟨out, e, hl, -⟩ := C252_materials (zx := [(p, label "m_v" r1)]) (by simp) (by
      intro m hm
      rw [List.mem_singleton] at hm
      subst hm
      exact hp) hn H rl
    unfold plotMaterialsVRC plotMaterials
    unfold plotMaterials at e
    rw [if_neg (by simp), if_neg hn.ne'] at e
    rw [if_neg (by simp [mat]), if_neg hn.ne']
    have l1 : mat (some p) (label "m_v" r1) ++ mat none (label "k_v" r2) ++
      (if (some q).isSome then [((none : Option (List ℝ × List ℝ)).elim TimeArg.missing fun p => TimeArg.line p.1 p.2, label "k_vc" r3)] else []) ++
      mat none (label "k_h" r4) ++ mat (some q) (label "k_hc" r5) ++ mat none (label "eta" r6) =
      (TimeArg.line p.1 p.2, label "m_v" r1) :: (TimeArg.missing, label "k_vc" r3) :: [(TimeArg.line q.1 q.2, label "k_hc" r5)] := rfl
    rw [l1, List.mapM_cons, List.mapM_cons]
    have e2 : [(TimeArg.line p.1 p.2, label "m_v" r1)].mapM (drawMaterial H rl) = .ok out := e
    rw [List.mapM_cons] at e2
    cases e3 : drawMaterial H rl (TimeArg.line p.1 p.2, label "m_v" r1) with
    | error err => rw [e3] at e2; cases e2
    | ok c => rfl
  · obtain ⟨out, e, h, -⟩ := C252_given [(some p, label "m_v" r1)] ⟨_, List.mem_cons_self, rfl⟩ (by
      intro o ho
      rw [List.mem_singleton] at ho
      subst ho
      intro p' h
      cases h
      exact hp) hn H rl
    exact ⟨out, e, h⟩

/-! ## Examples -/

/-- A cyclic surcharge and a load at the top. -/
noncomputable def exInputs : Inputs :=
  ⟨some [(([0, 1, 5], [0, 10, 10]), ([0, 1], [1, 0.5]), some (2, 0))], none, some [(([0, 8], [0, -20]), none)], none, some [((0.3, none), none)], none⟩

/-- Non-vacuity of C250: the history of a cyclic load. -/
example : ∃ pts, drawTime 0 5 ⟨.line [0, 1, 5] [0, 10, 10], .pair [0] [1], some (2, 0)⟩ = .ok pts ∧
    Shows [0, 1, 5] [0, 10, 10] (cyc (some (2, 0))) (pitch 0 5 (some (2, 0))) pts :=
  C250_history _ _ rfl (by norm_num) (by norm_num) (by rintro w h; cases h; norm_num)

/-- Non-vacuity of C250: a distribution with depth. -/
example : ∃ pts, drawDepth 3 (some 10) (.line [0, 0.4, 1] [1, 0.5, 0.5]) = .ok pts ∧ ShowsDepth 3 (some 10) (.line [0, 0.4, 1] [1, 0.5, 0.5]) pts :=
  C250_depth (d := .line [0, 0.4, 1] [1, 0.5, 0.5]) ⟨rfl, by norm_num, 0, by simp, 1, by simp, by norm_num⟩ _ _

theorem exInputs_ok : Drawable exInputs where
  surcharge l h v hv := by
    cases h
    rw [List.mem_singleton] at hv
    subst hv
    exact ⟨⟨rfl, by norm_num⟩, ⟨⟨rfl, by norm_num⟩, 0, by simp, 1, by simp, by norm_num⟩, by rintro w h; cases h; norm_num⟩
  vacuum l h := by cases h
  top l h v hv := by
    cases h
    rw [List.mem_singleton] at hv
    subst hv
    exact ⟨⟨rfl, by norm_num⟩, by rintro w h; cases h⟩
  bot l h := by cases h
  fixed l h v hv := by
    cases h
    rw [List.mem_singleton] at hv
    subst hv
    exact ⟨fun p h => (by cases h), fun w h => (by cases h)⟩
  pumping l h := by cases h

/-- Non-vacuity of C251: three rows. -/
example : ∃ out, exInputs.plotLoads 0 20 32 3 none = .ok out ∧ out.length = 3 := by
  obtain ⟨a, b, out, _, _, e, hl, _⟩ := C251_vr exInputs_ok 0 20 (n := 32) (by norm_num) 3 none ⟨_, _, _, _, rfl⟩
    ⟨0, Or.inl ⟨_, rfl, _, List.mem_singleton.2 rfl, by simp⟩, 1, Or.inl ⟨_, rfl, _, List.mem_singleton.2 rfl, by simp⟩, by norm_num⟩
  exact ⟨out, e, hl⟩

/-- Non-vacuity of C251: an empty list of surcharges, and a load at the top. -/
example : plotGenericLoads [[], [⟨.line [0, 8] [0, -20], .pair [0] [1], none⟩]] ["a", "b"] (some ["A", "B"]) none 32 3 none = .error .unboundLocal :=
  C251_first_empty rfl rfl _ _ _ ⟨_, List.mem_singleton.2 rfl, by simp⟩

/-- Non-vacuity of C251: a pair instead of a PolyLine. -/
example : plotGenericLoads [[⟨.pair [0, 8] [0, -20], .pair [0] [1], none⟩]] ["a"] (some ["A"]) none 32 3 none = .error .attributeError :=
  C251_first_not_line rfl rfl _ _ _ fun x y h => by cases h

/-- Non-vacuity of C252: two materials. -/
example : ∃ out, plotMaterialsVR (fun s _ => s) (some ([0, 0.5, 1], [1, 2, 2])) none (some ([0, 1], [1, 3])) none 1 1 1 1 32 3 none = .ok out ∧
    out.map Curve.label = ["m_v", "k_h"] := by
  obtain ⟨out, e, h, _⟩ := C252_vr (fun s _ => s) (mv := some ([0, 0.5, 1], [1, 2, 2])) (kv := none) (kh := some ([0, 1], [1, 3])) (et := none) 1 1 1 1
    (n := 32) (by norm_num) 3 none rfl
    (fun p h => by cases h; exact ⟨⟨rfl, by norm_num⟩, 0, by simp, 1, by simp, by norm_num⟩) (fun p h => by cases h)
    (fun p h => by cases h; exact ⟨⟨rfl, by norm_num⟩, 0, by simp, 1, by simp, by norm_num⟩) (fun p h => by cases h)
  exact ⟨out, e, h⟩

/-- Non-vacuity of C252: Speccon1dVRC. -/
example : ∃ out, plotMaterialsVRC (fun s _ => s) (some ([0, 0.5, 1], [1, 2, 2])) none (some ([0, 1], [1, 3])) none (some ([0, 1], [1, 4])) none 1 1 1 1 1 1
    32 3 none = .ok out ∧ out.map Curve.label = ["m_v", "k_vc", "k_hc"] := by
  obtain ⟨out, e, h, _⟩ := C252_vrc (fun s _ => s) (some ([0, 0.5, 1], [1, 2, 2])) none (some ([0, 1], [1, 3])) none (some ([0, 1], [1, 4])) none 1 1 1 1 1 1
    (n := 32) (by norm_num) 3 none rfl rfl (by
      intro o ho p hp
      simp only [List.mem_cons, List.not_mem_nil, or_false] at ho
      rcases ho with rfl | rfl | rfl | rfl | rfl | rfl <;> cases hp <;> exact ⟨⟨rfl, by norm_num⟩, 0, by simp, 1, by simp, by norm_num⟩)
  exact ⟨out, e, h⟩

/-- Non-vacuity of C252: Speccon1dVRW. -/
example : ∃ out, plotMaterialsVRW (fun s _ => s) (some ([0, 0.5, 1], [1, 2, 2])) none none (some ([0, 1], [1, 3])) none 1 1 1 1 1
    32 3 none = .ok out ∧ out.map Curve.label = ["m_v", "k_w"] := by
  obtain ⟨out, e, h, _⟩ := C252_vrw (fun s _ => s) (some ([0, 0.5, 1], [1, 2, 2])) none none (some ([0, 1], [1, 3])) none 1 1 1 1 1
    (n := 32) (by norm_num) 3 none rfl (by
      intro o ho p hp
      simp only [List.mem_cons, List.not_mem_nil, or_false] at ho
      rcases ho with rfl | rfl | rfl | rfl | rfl <;> cases hp <;> exact ⟨⟨rfl, by norm_num⟩, 0, by simp, 1, by simp, by norm_num⟩)
  exact ⟨out, e, h⟩

end Geotecha.Plot.Loads
