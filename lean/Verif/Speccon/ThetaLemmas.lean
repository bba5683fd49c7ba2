import Verif.Speccon.Bounded
import Verif.Speccon.ModelOut

/-!
# The depth integrals of the load matrices as integrals of the profile curves (helpers)
-/

set_option linter.unusedVariables false
open Real intervalIntegral MeasureTheory Filter Topology
namespace Geotecha.Speccon
open Geotecha.Spec Geotecha.Piecewise

theorem getD_m {m : List ℝ} {i : ℕ} (hi : i < m.length) : m[i] = m.getD i 0 := by simp [hi]

theorem common2 {S : Set ℝ} (hS : TolSep S) {a b : PolyLine ℝ} {f g : ℝ → ℝ} (ha : Profile S a f) (hb : Profile S b g) :
    ∃ a' b' zt zb y1 y2 w1 w2, commonLines [a, b] = .ok [a', b'] ∧ Profile S a' f ∧ Profile S b' g ∧
      a'.getSegs.1 = .ok ⟨zt, zb, y1, y2⟩ ∧ b'.getSegs.1 = .ok ⟨zt, zb, w1, w2⟩ ∧ Layered zt zb 0 1 ∧ LinearIn f y1 y2 zt zb ∧
      LinearIn g w1 w2 zt zb := by
  obtain ⟨out, ho, hl, zt, zb, H⟩ := common_profiles hS [a, b] [f, g] rfl (by
    intro k hk
    match k with
    | 0 => exact ha
    | 1 => exact hb
    | k + 2 => simp at hk) (by simp)
  match out, hl with
  | [a', b'], _ =>
    obtain ⟨p1, y1, y2, e1⟩ := H 0 (by simp)
    obtain ⟨p2, w1, w2, e2⟩ := H 1 (by simp)
    simp only [List.getElem_cons_zero, List.getElem_cons_succ] at p1 p2 e1 e2
    obtain ⟨s, hs, hlay, hlin⟩ := p1.segs
    rw [e1] at hs; cases hs
    obtain ⟨s, hs, hlay2, hlin2⟩ := p2.segs
    rw [e2] at hs; cases hs
    exact ⟨a', b', zt, zb, y1, y2, w1, w2, ho, p1, p2, e1, e2, hlay, hlin, hlin2⟩

theorem common3 {S : Set ℝ} (hS : TolSep S) {a b c : PolyLine ℝ} {f g h : ℝ → ℝ} (ha : Profile S a f) (hb : Profile S b g)
    (hc : Profile S c h) :
    ∃ a' b' c' zt zb y1 y2 w1 w2 x1 x2, commonLines [a, b, c] = .ok [a', b', c'] ∧ Profile S a' f ∧ Profile S b' g ∧ Profile S c' h ∧
      a'.getSegs.1 = .ok ⟨zt, zb, y1, y2⟩ ∧ b'.getSegs.1 = .ok ⟨zt, zb, w1, w2⟩ ∧ c'.getSegs.1 = .ok ⟨zt, zb, x1, x2⟩ ∧
      Layered zt zb 0 1 ∧ LinearIn f y1 y2 zt zb ∧ LinearIn g w1 w2 zt zb ∧ LinearIn h x1 x2 zt zb := by
  obtain ⟨out, ho, hl, zt, zb, H⟩ := common_profiles hS [a, b, c] [f, g, h] rfl (by
    intro k hk
    match k with
    | 0 => exact ha
    | 1 => exact hb
    | 2 => exact hc
    | k + 3 => simp at hk) (by simp)
  match out, hl with
  | [a', b', c'], _ =>
    obtain ⟨p1, y1, y2, e1⟩ := H 0 (by simp)
    obtain ⟨p2, w1, w2, e2⟩ := H 1 (by simp)
    obtain ⟨p3, x1, x2, e3⟩ := H 2 (by simp)
    simp only [List.getElem_cons_zero, List.getElem_cons_succ] at p1 p2 p3 e1 e2 e3
    obtain ⟨s, hs, hlay, hlin⟩ := p1.segs
    rw [e1] at hs; cases hs
    obtain ⟨s, hs, hlay2, hlin2⟩ := p2.segs
    rw [e2] at hs; cases hs
    obtain ⟨s, hs, hlay3, hlin3⟩ := p3.segs
    rw [e3] at hs; cases hs
    exact ⟨a', b', c', zt, zb, y1, y2, w1, w2, x1, x2, ho, p1, p2, p3, e1, e2, e3, hlay, hlin, hlin2, hlin3⟩

variable {S : Set ℝ} {a b c : PolyLine ℝ} {f g h : ℝ → ℝ} {m : List ℝ}

theorem pAf_ok (impl : Impl) (ha : Profile S a f) (hm : DistinctAbs m) : ∃ th, pAf impl m a = .ok th ∧
    ∀ i j, i < m.length → j < m.length → th i j = ∫ z in (0:ℝ)..1, f z * sin (m.getD i 0 * z) * sin (m.getD j 0 * z) := by
  obtain ⟨s, hs, h1, h2⟩ := ha.segs
  refine ⟨_, by unfold pAf; rw [hs]; rfl, fun i j hi hj => ?_⟩
  rw [C27_af impl m _ _ _ _ f h1 h2 hm i j hi hj, getD_m hi, getD_m hj]

theorem pDaDf_ok (impl : Impl) (ha : Profile S a f) (hm : DistinctAbs m) : ∃ th, pDaDf impl m a = .ok th ∧
    ∀ i j, i < m.length → j < m.length →
      th i j = -(m.getD i 0 * m.getD j 0) * ∫ z in (0:ℝ)..1, f z * cos (m.getD i 0 * z) * cos (m.getD j 0 * z) := by
  obtain ⟨s, hs, h1, h2⟩ := ha.segs
  refine ⟨_, by unfold pDaDf; rw [hs]; rfl, fun i j hi hj => ?_⟩
  rw [C28_DaDf impl m _ _ _ _ f h1 h2 hm i j hi hj, getD_m hi, getD_m hj]

theorem pAbf_ok (hS : TolSep S) (impl : Impl) (ha : Profile S a f) (hb : Profile S b g) (hm : DistinctAbs m) :
    ∃ th, pAbf impl m a b = .ok th ∧ ∀ i j, i < m.length → j < m.length →
      th i j = ∫ z in (0:ℝ)..1, f z * g z * sin (m.getD i 0 * z) * sin (m.getD j 0 * z) := by
  obtain ⟨a', b', zt, zb, y1, y2, w1, w2, e, _, _, e1, e2, h1, h2, h3⟩ := common2 hS ha hb
  refine ⟨_, by unfold pAbf; simp only [e, Bind.bind, Except.bind, e1, e2]; rfl, fun i j hi hj => ?_⟩
  rw [C42_abf impl m _ _ _ _ _ _ f g h1 h2 h3 hm i j hi hj, getD_m hi, getD_m hj]

theorem pAb_ok (hS : TolSep S) (ha : Profile S a f) (hb : Profile S b g) (hm : ∀ v ∈ m, v ≠ 0) :
    ∃ th, pAb m a b = .ok th ∧ ∀ i, i < m.length → th i = ∫ z in (0:ℝ)..1, f z * g z * sin (m.getD i 0 * z) := by
  obtain ⟨a', b', zt, zb, y1, y2, w1, w2, e, _, _, e1, e2, h1, h2, h3⟩ := common2 hS ha hb
  refine ⟨_, by unfold pAb; simp only [e, Bind.bind, Except.bind, e1, e2]; rfl, fun i hi => ?_⟩
  rw [C29_ab .vectorized m _ _ _ _ _ _ f g h1 h2 h3 i hi (hm _ (List.getElem_mem _)), getD_m hi]

theorem pAbc_ok (hS : TolSep S) (ha : Profile S a f) (hb : Profile S b g) (hc : Profile S c h) (hm : ∀ v ∈ m, v ≠ 0) :
    ∃ th, pAbc m a b c = .ok th ∧ ∀ i, i < m.length → th i = ∫ z in (0:ℝ)..1, f z * g z * h z * sin (m.getD i 0 * z) := by
  obtain ⟨a', b', c', zt, zb, y1, y2, w1, w2, x1, x2, e, _, _, _, e1, e2, e3, h1, h2, h3, h4⟩ := common3 hS ha hb hc
  refine ⟨_, by unfold pAbc; simp only [e, Bind.bind, Except.bind, e1, e2, e3]; rfl, fun i hi => ?_⟩
  rw [C44_abc .vectorized m _ _ _ _ _ _ _ _ f g h h1 h2 h3 h4 i hi (hm _ (List.getElem_mem _)), getD_m hi]

theorem pDaDb_ok (hS : TolSep S) (ha : Profile S a f) {d e kend : ℝ} (hb : Profile S b (fun z => e + d * z)) (hm : ∀ v ∈ m, v ≠ 0)
    (hk : Tendsto f (𝓝[<] 1) (𝓝 kend)) :
    ∃ th, pDaDb m a b = .ok th ∧ ∀ i, i < m.length →
      th i = kend * d * sin (m.getD i 0) - ∫ z in (0:ℝ)..1, f z * d * (m.getD i 0 * cos (m.getD i 0 * z)) := by
  obtain ⟨a', b', zt, zb, y1, y2, w1, w2, ee, _, _, e1, e2, h1, h2, h3⟩ := common2 hS ha hb
  refine ⟨_, by unfold pDaDb; simp only [ee, Bind.bind, Except.bind, e1, e2]; rfl, fun i hi => ?_⟩
  have hpos := h1.pos
  have hlen := h1.len
  have l1 := h3.lent
  have l2 := h3.lenb
  have l3 := h2.lent
  have l4 := h2.lenb
  have hsl : ∀ k (hk : k < zt.length), (w2[k] - w1[k]) / (zb[k] - zt[k]) = d := by
    intro k hk
    have ht := h1.thick k hk
    have g1 := h3.eq k hk (zt[k] + (zb[k] - zt[k]) / 3) (by linarith) (by linarith)
    have g2 := h3.eq k hk (zt[k] + (zb[k] - zt[k]) * 2 / 3) (by linarith) (by linarith)
    have h0 : zb[k] - zt[k] ≠ 0 := by linarith
    generalize (w2[k] - w1[k]) / (zb[k] - zt[k]) = D at *
    have : (D - d) * ((zb[k] - zt[k]) / 3) = 0 := by linear_combination g1 - g2
    rcases mul_eq_zero.1 this with h | h
    · linarith
    · exfalso; apply h0; linarith
  obtain ⟨n, hn⟩ : ∃ n, n + 1 = zt.length := ⟨zt.length - 1, by omega⟩
  rw [C45_DaDb .vectorized m y1 y2 w1 w2 zt zb f (fun _ => d) h1 h2 l1 l2 (fun k hk z _ _ => (hsl k hk).symm) i hi
    (hm _ (List.getElem_mem _)) n hn, hsl n (by omega), hsl 0 (by omega), getD_m hi]
  have hend : y2[n] = kend := by
    have hz1 : zb[n] = 1 := by
      rw [← h1.last]; congr 1; omega
    have ht := h1.thick n (by omega)
    have hlim : Tendsto (fun z => y1[n] + (y2[n] - y1[n]) / (zb[n] - zt[n]) * (z - zt[n])) (𝓝[<] 1) (𝓝 y2[n]) := by
      have hc : Continuous (fun z => y1[n] + (y2[n] - y1[n]) / (zb[n] - zt[n]) * (z - zt[n])) := by fun_prop
      have := (hc.tendsto 1).mono_left (nhdsWithin_le_nhds (s := Set.Iio 1))
      have ev : y1[n] + (y2[n] - y1[n]) / (zb[n] - zt[n]) * (1 - zt[n]) = y2[n] := by
        rw [hz1] at ht ⊢
        have : 1 - zt[n] ≠ 0 := by linarith
        field_simp
        ring
      rwa [ev] at this
    refine tendsto_nhds_unique (hlim.congr' ?_) hk
    rw [hz1] at ht
    filter_upwards [Ioo_mem_nhdsLT ht] with z hz
    exact (h2.eq n (by omega) z hz.1 (by rw [hz1]; exact hz.2)).symm
  rw [hend]
  simp

/-- `zdistTop` is the line from 1 at the top to 0 at the bottom (or to 1 if only the top drains). -/
theorem zdistTop_ok (ha : Profile S a f) (drn : ℤ) (hd : drn = 0 ∨ drn = 1) :
    ∃ q, zdistTop drn a = .ok q ∧ Profile S q (fun z => 1 + (drn - 1 : ℝ) * z) := by
  obtain ⟨s, hs, h1, h2, h3, h4⟩ := profile_line ha
  rcases hd with rfl | rfl
  · obtain ⟨q, hq, hp⟩ := h4 (fun x => 1 - x) 1 (-1) (fun x => by ring)
    refine ⟨q, ?_, hp.congr (fun z _ _ => by push_cast; ring)⟩
    unfold zdistTop
    rw [hs]
    simp only [Bind.bind, Except.bind, h3]
    exact hq
  · obtain ⟨q, hq, hp⟩ := h4 (fun _ => 1) 1 0 (fun x => by ring)
    refine ⟨q, ?_, hp.congr (fun z _ _ => by push_cast; ring)⟩
    unfold zdistTop
    rw [hs]
    simp only [Bind.bind, Except.bind, if_true]
    exact hq

theorem zdistBot_ok (ha : Profile S a f) : ∃ q, zdistBot a = .ok q ∧ Profile S q (fun z => z) := by
  obtain ⟨s, hs, h1, h2, h3, h4⟩ := profile_line ha
  obtain ⟨q, hq, hp⟩ := h4 (fun x => x) 0 1 (fun x => by ring)
  refine ⟨q, ?_, hp⟩
  unfold zdistBot
  rw [hs]
  simpa [Bind.bind, Except.bind] using hq

end Geotecha.Speccon
