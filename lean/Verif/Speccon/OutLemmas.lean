import Verif.Speccon.LoadMatrices
import Verif.Speccon.ModelVR
import Verif.Piecewise.Props

/-!
# Output functions of speccon1d.py in terms of the load histories (helpers)
-/

set_option linter.unusedVariables false
open Real intervalIntegral MeasureTheory Filter Topology
namespace Geotecha.Speccon
open Geotecha.Spec Geotecha.Piecewise

theorem unit_interp (y1 y2 z : ℝ) (b : Bool) (h0 : 0 ≤ z) (h1 : z ≤ 1) :
    interpSegs (⟨[0], [1], [y1], [y2]⟩ : Segs4 ℝ) z b = .ok (y1 + (y2 - y1) * z) := by
  have h := C03_forms_agree [0, 1] [y1, y2] z b (by simp) (by simp) (by simp) (by simp) (by simpa using h0) (by simpa using h1)
  have e : convertToSegs [(0:ℝ), 1] [y1, y2] = .ok ⟨[0], [1], [y1], [y2]⟩ := by
    rw [convertToSegs_eq (by simp)]
    simp [pieces, toSegs4]
  rw [e] at h
  simp only [Except.bind] at h
  rw [h]
  have hne : ∃ a ∈ [(0:ℝ), 1], ∃ b ∈ [(0:ℝ), 1], a < b := ⟨0, by simp, 1, by simp, by norm_num⟩
  cases b with
  | false =>
    rw [C01_interp_left _ _ _ (by simp) (by simp) hne]
    simp only [List.zip_cons_cons, List.zip_nil_right, polyLeft, line]
    rw [if_neg (by linarith)]
    rw [if_pos ⟨by norm_num, h1⟩]
    simp
  | true =>
    rw [C01_interp_right _ _ _ (by simp) (by simp) hne]
    simp only [List.zip_cons_cons, List.zip_nil_right, polyRight, mirror, List.map_cons, List.map_nil, List.reverse_cons, List.reverse_nil,
      List.nil_append, List.cons_append, polyLeft, line]
    rw [if_neg (by linarith)]
    rw [if_pos ⟨by norm_num, by linarith⟩]
    congr 1; ring

theorem unit_avg (y1 y2 z1 z2 : ℝ) (h0 : 0 ≤ z1) (h12 : z1 < z2) (h1 : z2 ≤ 1) :
    ∃ v, avgSegs (⟨[0], [1], [y1], [y2]⟩ : Segs4 ℝ) z1 z2 = .ok v ∧ v * (z2 - z1) = ∫ z in z1..z2, (y1 + (y2 - y1) * z) := by
  obtain ⟨v, hv, hi⟩ := C07_average [((0, y1), (1, y2))] ⟨List.isChain_singleton _, by simp⟩ (by simp) z1 z2 (by simpa using h0) h12
    (by simpa using h1)
  refine ⟨v, hv, hi.trans (integral_congr_Ioo' h12.le (fun z ha hb => ?_))⟩
  simp only [segPoints, List.flatMap_cons, List.flatMap_nil, List.append_nil, polyLeft, line]
  rw [if_neg (by linarith), if_pos ⟨by norm_num, by linarith⟩]
  ring

theorem outLoop_ok {vs : Option (List (PolyLine ℝ))} {om : Option (List Om)} {s tend : ℝ} {hs : List ((ℝ → ℝ) × ℝ)}
    (hl : Loads vs om s tend hs) {f : PolyLine ℝ → Except PyErr ℝ} {t w : ℝ} (h1 : s ≤ t) (h2 : t ≤ tend)
    (hf : ∀ p v, pinterp p t = .ok v → f p = .ok (w * v)) : outLoop f vs om t = .ok (w * total hs t) := by
  cases vs with
  | none =>
    have : hs = [] := hl
    subst this
    simp [outLoop, total]
  | some l =>
    unfold outLoop
    simp only [Loads] at hl
    dsimp only
    generalize l.zip (omList l om) = L at hl ⊢
    induction hl with
    | nil => simp [sumM, total]
    | @cons q x l' hs' hq hr ih =>
      obtain ⟨v, e1, e2⟩ := hq.solve.1 t h1 h2
      rw [sumM, hf q.1 v e1, ih]
      simp only [Bind.bind, Except.bind, pure, Except.pure, total, List.map_cons, List.sum_cons, ← e2]
      congr 1; ring

theorem pinterpMul_ok {p : PolyLine ℝ} {t v z y1 y2 : ℝ} (h : pinterp p t = .ok v) (h0 : 0 ≤ z) (h1 : z ≤ 1) :
    pinterpMul p y1 y2 t z = .ok ((y1 + (y2 - y1) * z) * v) := by
  unfold pinterp at h
  unfold pinterpMul interpProd
  rw [unit_interp y1 y2 z false h0 h1]
  cases hx : p.getX.1 with
  | error e => rw [hx] at h; cases h
  | ok x =>
    cases hy : p.getY.1 with
    | error e => rw [hx, hy] at h; cases h
    | ok y =>
      rw [hx, hy] at h
      simp only [Bind.bind, Except.bind] at h ⊢
      rw [h]
      rfl

theorem pavgMul_ok {p : PolyLine ℝ} {t v z1 z2 y1 y2 : ℝ} (h : pinterp p t = .ok v) (h0 : 0 ≤ z1) (h12 : z1 < z2) (h1 : z2 ≤ 1) :
    pavgMul p y1 y2 t z1 z2 = .ok ((∫ z in z1..z2, (y1 + (y2 - y1) * z)) / (z2 - z1) * v) := by
  unfold pinterp at h
  unfold pavgMul
  obtain ⟨w, hw, hw'⟩ := unit_avg y1 y2 z1 z2 h0 h12 h1
  rw [hw]
  have e : w = (∫ z in z1..z2, (y1 + (y2 - y1) * z)) / (z2 - z1) := by
    rw [← hw', mul_div_assoc, div_self (by linarith), mul_one]
  cases hx : p.getX.1 with
  | error e => rw [hx] at h; cases h
  | ok x =>
    cases hy : p.getY.1 with
    | error e => rw [hx, hy] at h; cases h
    | ok y =>
      rw [hx, hy] at h
      simp only [Bind.bind, Except.bind] at h ⊢
      rw [h, e]
      rfl

/-! ## The product integral over part of the depth -/

theorem layered_ae {zt zb : List ℝ} {top bot : ℝ} (h : Layered zt zb top bot) {f g : ℝ → ℝ}
    (hk : ∀ k, k < zt.length → ∀ z, zt.getD k 0 < z → z < zb.getD k 0 → f z = g z) :
    ∀ᵐ z ∂volume.restrict (Set.Ioc top bot), f z = g z := by
  refine layered_rec (Q := fun a b => ∀ᵐ z ∂volume.restrict (Set.Ioc a b), f z = g z) h ?_ ?_
  · intro a b c hab hbc h1 h2
    rw [← Set.Ioc_union_Ioc_eq_Ioc hab hbc, ae_restrict_union_iff]
    exact ⟨h1, h2⟩
  · intro k hk'
    rw [← restrict_Ioo_eq_restrict_Ioc]
    filter_upwards [ae_restrict_mem measurableSet_Ioo] with z hz
    exact hk k hk' z hz.1 hz.2

theorem integral_congr_part {f g : ℝ → ℝ} {z1 z2 : ℝ} (h : ∀ᵐ z ∂volume.restrict (Set.Ioc (0:ℝ) 1), f z = g z) (h0 : 0 ≤ z1)
    (h12 : z1 ≤ z2) (h1 : z2 ≤ 1) : ∫ z in z1..z2, f z = ∫ z in z1..z2, g z := by
  rw [integral_of_le h12, integral_of_le h12]
  refine MeasureTheory.integral_congr_ae ?_
  exact ae_restrict_of_ae_restrict_of_subset (Set.Ioc_subset_Ioc h0 h1) h

theorem segs_of_layered {zt zb y1 y2 : List ℝ} {f : ℝ → ℝ} (hz : Layered zt zb 0 1) (hf : LinearIn f y1 y2 zt zb) :
    ∃ L : List (Seg ℝ), toSegs4 L = ⟨zt, zb, y1, y2⟩ ∧ Contiguous L ∧ ∃ hn : L ≠ [], (L.head hn).1.1 = 0 ∧ (L.getLast hn).2.1 = 1 ∧
      ∀ᵐ z ∂volume.restrict (Set.Ioc (0:ℝ) 1), polyLeft (segPoints L) z = f z := by
  have l1 := hf.lent
  have l2 := hf.lenb
  have l3 := hz.len
  have hp := hz.pos
  obtain ⟨L, hL⟩ := C07_all_inputs (⟨zt, zb, y1, y2⟩ : Segs4 ℝ) ⟨l3, l1, l2⟩
  have a1 : L.map (·.1.1) = zt := congrArg Segs4.x1 hL
  have a2 : L.map (·.2.1) = zb := congrArg Segs4.x2 hL
  have a3 : L.map (·.1.2) = y1 := congrArg Segs4.y1 hL
  have a4 : L.map (·.2.2) = y2 := congrArg Segs4.y2 hL
  have hlen : L.length = zt.length := by rw [← a1]; simp
  have hc : Contiguous L := by
    constructor
    · rw [List.isChain_iff_getElem]
      intro i hi
      have := hz.joined i (by omega)
      simp only [← a1, ← a2, List.getElem_map] at this
      exact this
    · intro s hs
      obtain ⟨i, hi, rfl⟩ := List.mem_iff_getElem.1 hs
      have := hz.thick i (by omega)
      simp only [← a1, ← a2, List.getElem_map] at this
      exact this
  have hn : L ≠ [] := by intro h; rw [h] at hlen; simp at hlen; omega
  refine ⟨L, hL, hc, hn, ?_, ?_, ?_⟩
  · have := hz.first
    simp only [← a1, List.getElem_map] at this
    rw [List.head_eq_getElem, this]
  · have := hz.last
    simp only [← a1, ← a2, List.getElem_map, List.length_map] at this
    rw [List.getLast_eq_getElem, this]
  · refine layered_ae hz (fun k hk z h1 h2 => ?_)
    have hkL : k < L.length := by omega
    have n1 : nth (nodes L) k = zt.getD k 0 := by rw [nth_nodes hkL, a1]
    have n2 : nth (nodes L) (k+1) = zb.getD k 0 := by rw [nth_nodes_succ hc hkL, a2]
    rw [polyLeft_seg hc hkL (by rw [n1]; exact h1.le) (by rw [n2]; exact h2.le) (by
      intro i hi
      refine lt_of_le_of_lt ?_ (by rw [← n1] at h1; exact h1)
      exact nth_mono (nodes_sorted hc) (by omega) (by rw [nodes_length]; omega)),
      linearIn_getD hf k hk z h1 h2]
    rw [nth_px_even, nth_px_odd, nth_py_even, nth_py_odd, a1, a2, a3, a4]
    simp only [line, slope]

theorem integrateProd_ok {zt zb y1 y2 w1 w2 : List ℝ} {f g : ℝ → ℝ} (hz : Layered zt zb 0 1) (hf : LinearIn f y1 y2 zt zb)
    (hg : LinearIn g w1 w2 zt zb) {z1 z2 : ℝ} (h0 : 0 ≤ z1) (h12 : z1 < z2) (h1 : z2 ≤ 1) :
    integrateProd ⟨zt, zb, y1, y2⟩ ⟨zt, zb, w1, w2⟩ z1 z2 = .ok (∫ z in z1..z2, f z * g z) := by
  obtain ⟨L, e1, c1, n1, a0, a1, ha⟩ := segs_of_layered hz hf
  obtain ⟨M, e2, c2, n2, b0, b1, hb⟩ := segs_of_layered hz hg
  have hx : L.map (fun s => (s.1.1, s.2.1)) = M.map (fun s => (s.1.1, s.2.1)) := by
    have p1 : L.map (·.1.1) = M.map (·.1.1) := (congrArg Segs4.x1 e1).trans (congrArg Segs4.x1 e2).symm
    have p2 : L.map (·.2.1) = M.map (·.2.1) := (congrArg Segs4.x2 e1).trans (congrArg Segs4.x2 e2).symm
    have : ∀ N : List (Seg ℝ), N.map (fun s => (s.1.1, s.2.1)) = (N.map (·.1.1)).zip (N.map (·.2.1)) := by
      intro N; rw [List.zip_map']
    rw [this, this, p1, p2]
  have := C08_product_exact L M c1 c2 n1 hx z1 z2 (by rw [a0]; exact h0) h12 (by rw [a1]; exact h1)
  rw [e1, e2] at this
  rw [this]
  congr 1
  refine integral_congr_part ?_ h0 h12.le h1
  filter_upwards [ha, hb] with z p q
  rw [p, q]

theorem pintegrateMul_ok {S : Set ℝ} (hS : TolSep S) {p b c : PolyLine ℝ} {f g : ℝ → ℝ} (hb : Profile S b f) (hc : Profile S c g)
    {t v z1 z2 : ℝ} (h : pinterp p t = .ok v) (h0 : 0 ≤ z1) (h12 : z1 < z2) (h1 : z2 ≤ 1) :
    pintegrateMul p b c t z1 z2 = .ok ((∫ z in z1..z2, f z * g z) * v) := by
  obtain ⟨b', c', zt, zb, y1, y2, w1, w2, e, _, _, e1, e2, hl, hf, hg⟩ := common2 hS hb hc
  unfold pinterp at h
  unfold pintegrateMul xaYaIntegrateProd
  simp only [e, Bind.bind, Except.bind, e1, e2]
  rw [integrateProd_ok hl hf hg h0 h12 h1]
  cases hx : p.getX.1 with
  | error e => rw [hx] at h; cases h
  | ok x =>
    cases hy : p.getY.1 with
    | error e => rw [hx, hy] at h; cases h
    | ok y =>
      rw [hx, hy] at h
      simp only [Bind.bind, Except.bind] at h ⊢
      rw [h]
      rfl

end Geotecha.Speccon
