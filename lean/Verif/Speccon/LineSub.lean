import Verif.Speccon.SuperposeUnsat
import Verif.Piecewise.Wrappers

/-! # The difference of two depth profiles is a depth profile

`_make_set` of speccon1d_unsat subtracts PolyLines of compressibilities; the theorems about settlements (C95, C96, C237, C243) ask for the
difference to be a profile.  Here that is proved for lines without superfluous points. -/

set_option autoImplicit false
set_option linter.unusedVariables false

namespace Geotecha.Spec

/-- No three neighbouring points of the line are (nearly) on one line, and no point (nearly) comes back to the one but one before. -/
def Sharp (pts : List (ℝ × ℝ)) : Prop := ∀ i p q r, pts[i]? = some p → pts[i + 1]? = some q → pts[i + 2]? = some r →
  (1 / 100000000) ^ 2 < (r.1 - p.1) ^ 2 + (r.2 - p.2) ^ 2 ∧ ¬ NearLine p r q (1 / 100000000)

/-- Where the two lines step, the difference steps by more than the PolyLine tolerance or not at all. -/
def StepsDiffer (a b : List (ℝ × ℝ)) : Prop := ∀ v, v ∈ a.map Prod.fst ∨ v ∈ b.map Prod.fst →
  RealStep (firstAt a v - firstAt b v) (lastAt a v - lastAt b v)

end Geotecha.Spec

namespace Geotecha.Speccon
open Geotecha.Spec Geotecha.Piecewise

theorem sharp_kept {pts : List (ℝ × ℝ)} (h : Sharp pts) :
    removeSuperfluous (pts.map Prod.fst) (pts.map Prod.snd) (1/100000000) = .ok (pts.map Prod.fst, pts.map Prod.snd) := by
  unfold removeSuperfluous
  rw [if_neg (by simp)]
  by_cases h2 : (pts.map Prod.fst).length ≤ 2
  · rw [if_pos h2]
  rw [if_neg h2]
  simp only [List.length_map, not_le] at h2
  have key : ∀ n, n ≤ pts.length - 2 →
      (List.range' 2 n).foldl (rsStep (pts.map Prod.fst) (pts.map Prod.snd) (1/100000000)) (List.range pts.length, 0) = (List.range pts.length, n) := by
    intro n
    induction n with
    | zero => intro _; rfl
    | succ n ih =>
      intro hn
      rw [List.range'_1_concat, List.foldl_append, ih (by omega)]
      have e0 : pts[n]? = some pts[n] := List.getElem?_eq_getElem (by omega)
      have e1 : pts[n + 1]? = some pts[n + 1] := List.getElem?_eq_getElem (by omega)
      have e2 : pts[n + 2]? = some pts[n + 2] := List.getElem?_eq_getElem (by omega)
      obtain ⟨g1, g2⟩ := h n _ _ _ e0 e1 e2
      have nx : ∀ k (hk : k < pts.length), nth (pts.map Prod.fst) k = pts[k].1 := fun k hk => by rw [nth_eq_getElem (by simpa using hk)]; simp
      have ny : ∀ k (hk : k < pts.length), nth (pts.map Prod.snd) k = pts[k].2 := fun k hk => by rw [nth_eq_getElem (by simpa using hk)]; simp
      have n0 : n < pts.length := by omega
      have n1 : n + 1 < pts.length := by omega
      have n2 : n + 2 < pts.length := by omega
      have d : dist2 (pts.map Prod.fst) (pts.map Prod.snd) n (2 + n) = (pts[n+2].1 - pts[n].1) ^ 2 + (pts[n+2].2 - pts[n].2) ^ 2 := by
        rw [Nat.add_comm 2 n]; unfold dist2; rw [nx _ n2, nx _ n0, ny _ n2, ny _ n0]
      have c : crossAt (pts.map Prod.fst) (pts.map Prod.snd) n (2 + n) (n + 1) =
          (pts[n+2].1 - pts[n].1) * (pts[n].2 - pts[n+1].2) - (pts[n+2].2 - pts[n].2) * (pts[n].1 - pts[n+1].1) := by
        rw [Nat.add_comm 2 n]; unfold crossAt; rw [nx _ n2, nx _ n0, ny _ n2, ny _ n0, nx _ n1, ny _ n1]
      have hd : 0 < (pts[n+2].1 - pts[n].1) ^ 2 + (pts[n+2].2 - pts[n].2) ^ 2 := lt_trans (by norm_num) g1
      have hc := mt (nearLine_of_cross (p := pts[n]) (q := pts[n+2]) (r := pts[n+1]) hd) g2
      simp only [List.foldl_cons, List.foldl_nil]
      unfold rsStep
      dsimp only
      rw [if_neg (by rw [d]; exact not_le.2 g1), if_pos]
      · congr 1; omega
      · rw [List.any_eq_true]
        refine ⟨n + 1, by rw [show 2 + n - (n + 1) = 1 by omega]; simp, ?_⟩
        rw [decide_eq_true_iff, d, c]
        exact not_le.1 hc
  have := key (pts.length - 2) le_rfl
  simp only [List.length_map]
  rw [this]
  dsimp only
  have e : ∀ z : List ℝ, z.length = pts.length → (List.range pts.length).map (nth z) = z := by
    intro z hz
    refine List.ext_getElem (by simp [hz]) ?_
    intro i hi hi2
    rw [List.getElem_map, List.getElem_range, nth_eq_getElem hi2]
  rw [e _ (by simp), e _ (by simp)]


theorem zip_cols (l : List (ℝ × ℝ)) : (l.map Prod.fst).zip (l.map Prod.snd) = l := (List.zip_of_prod rfl rfl).symm

/-- **C249** The difference of two depth profiles. -/
theorem C249_difference {S : Set ℝ} (hS : TolSep S) {p q : PolyLine ℝ} {f g : ℝ → ℝ} (hp : Profile S p f) (hq : Profile S q g)
    {a b : List (ℝ × ℝ)} (ea : p.getXY.1 = .ok a) (eb : q.getXY.1 = .ok b) (ha : Sharp a) (hb : Sharp b) (hd : StepsDiffer a b) :
    ∃ d, lineSub p q = .ok d ∧ Profile S d (fun z => f z - g z) := by
  obtain ⟨a', ea', sa, oa, ⟨na, a0, a1⟩, ma, ra, fa⟩ := hp.ex
  obtain ⟨b', eb', sb, ob, ⟨nb, b0, b1⟩, mb, rb, fb⟩ := hq.ex
  obtain rfl : a = a' := by rw [ea] at ea'; injection ea'
  obtain rfl : b = b' := by rw [eb] at eb'; injection eb'
  have proper : ∀ {c : List (ℝ × ℝ)} (nc : c ≠ []), (c.head nc).1 = 0 → (c.getLast nc).1 = 1 → ProperLine (c.map Prod.fst, c.map Prod.snd) := by
    intro c nc c0 c1
    exact ⟨by simp, _, List.mem_map_of_mem (List.head_mem nc), _, List.mem_map_of_mem (List.getLast_mem nc), by rw [c0, c1]; norm_num⟩
  have memS : ∀ l ∈ [(a.map Prod.fst, a.map Prod.snd), (b.map Prod.fst, b.map Prod.snd)], ∀ u ∈ l.1, u ∈ S := by
    intro l hl u hu
    simp only [List.mem_cons, List.not_mem_nil, or_false] at hl
    rcases hl with rfl | rfl
    · obtain ⟨w, hw, rfl⟩ := List.mem_map.1 hu; exact ma w hw
    · obtain ⟨w, hw, rfl⟩ := List.mem_map.1 hu; exact mb w hw
  obtain ⟨pts, e, l2, so, mem, st, off⟩ := addSub_core (-1) (a := (a.map Prod.fst, a.map Prod.snd)) (b := (b.map Prod.fst, b.map Prod.snd))
    (proper na a0 a1) (proper nb b0 b1) (Or.inl ⟨oa, rfl⟩) (Or.inl ⟨ob, rfl⟩) (sharp_kept ha) (sharp_kept hb)
    (fun l hl m hm u hu v hv huv => hS u (memS l hl u hu) v (memS m hm v hv) huv) (by
      intro v hv
      simp only [ptsOf, zip_cols]
      have := hd v hv
      rw [show ∀ x y : ℝ, x + -1 * y = x - y from fun x y => by ring, show ∀ x y : ℝ, x + -1 * y = x - y from fun x y => by ring]
      exact this)
  simp only [ptsOf, zip_cols] at st off
  have hsub : (fun u v : ℝ => u + -1 * v) = (· - ·) := by funext u v; ring
  rw [hsub] at e
  have hne : pts ≠ [] := by rintro rfl; simp at l2
  have nodes : ∀ w ∈ pts, w.1 ∈ a.map Prod.fst ∨ w.1 ∈ b.map Prod.fst := fun w hw => (mem w.1).1 (List.mem_map_of_mem hw)
  have bounds : ∀ {c : List (ℝ × ℝ)} (nc : c ≠ []), (c.head nc).1 = 0 → (c.getLast nc).1 = 1 → SortedLe (c.map Prod.fst) →
      ∀ w ∈ c.map Prod.fst, 0 ≤ w ∧ w ≤ 1 := by
    intro c nc c0 c1 sc w hw
    obtain ⟨i, hi, rfl⟩ := List.mem_iff_getElem.1 hw
    have hl : 0 < (c.map Prod.fst).length := by omega
    have u0 : (c.map Prod.fst)[0] = 0 := by rw [← c0]; simp [List.head_eq_getElem]
    have u1 : (c.map Prod.fst)[(c.map Prod.fst).length - 1] = 1 := by rw [← c1]; simp [List.getLast_eq_getElem]
    constructor
    · rw [← u0]
      rcases Nat.eq_zero_or_pos i with h | h
      · subst h; exact le_rfl
      · exact List.pairwise_iff_getElem.1 sc 0 i hl hi h
    · rw [← u1]
      rcases Nat.lt_or_eq_of_le (show i ≤ (c.map Prod.fst).length - 1 by omega) with h | h
      · exact List.pairwise_iff_getElem.1 sc i _ hi (by omega) h
      · subst h; exact le_rfl
  have bd : ∀ w ∈ pts.map Prod.fst, 0 ≤ w ∧ w ≤ 1 := fun w hw => by
    rcases (mem w).1 hw with h | h
    · exact bounds na a0 a1 oa w h
    · exact bounds nb b0 b1 ob w h
  have m0 : (0:ℝ) ∈ pts.map Prod.fst := (mem 0).2 (Or.inl (a0 ▸ List.mem_map_of_mem (List.head_mem na)))
  have m1 : (1:ℝ) ∈ pts.map Prod.fst := (mem 1).2 (Or.inl (a1 ▸ List.mem_map_of_mem (List.getLast_mem na)))
  have h0 : (pts.head hne).1 = 0 := by
    refine le_antisymm ?_ (bd _ (List.mem_map_of_mem (List.head_mem hne))).1
    obtain ⟨i, hi, hz⟩ := List.mem_iff_getElem.1 m0
    rw [← hz, show (pts.head hne).1 = (pts.map Prod.fst)[0]'(by simpa using List.length_pos_iff.2 hne) by simp [List.head_eq_getElem]]
    rcases Nat.eq_zero_or_pos i with h | h
    · subst h; exact le_rfl
    · exact List.pairwise_iff_getElem.1 so 0 i (by omega) hi h
  have h1 : (pts.getLast hne).1 = 1 := by
    refine le_antisymm (bd _ (List.mem_map_of_mem (List.getLast_mem hne))).2 ?_
    obtain ⟨i, hi, hz⟩ := List.mem_iff_getElem.1 m1
    rw [← hz, show (pts.getLast hne).1 = (pts.map Prod.fst)[(pts.map Prod.fst).length - 1]'(by omega) by simp [List.getLast_eq_getElem]]
    rcases Nat.lt_or_eq_of_le (show i ≤ (pts.map Prod.fst).length - 1 by omega) with h | h
    · exact List.pairwise_iff_getElem.1 so i _ hi (by omega) h
    · subst h; exact le_rfl
  refine ⟨⟨some pts, false, false, none⟩, ?_, ⟨pts, rfl, ?_, so, ⟨hne, h0, h1⟩, ?_, ?_, ?_⟩⟩
  · unfold lineSub
    rw [ea, eb]
    show addSub (· - ·) (a.map Prod.fst, a.map Prod.snd) (b.map Prod.fst, b.map Prod.snd) = _
    rw [e]
    simp only [PolyLine.ofXY]
    rw [if_neg (by omega)]
  · have hl : (pts.map Prod.fst).length = (pts.map Prod.snd).length := by simp
    simp [PolyLine.getSegs, PolyLine.getX, PolyLine.getY, PolyLine.getXY, convertToSegs_eq hl, zip_cols]
  · intro w hw
    rcases nodes w hw with h | h
    · obtain ⟨c, hc, e⟩ := List.mem_map.1 h; rw [← e]; exact ma c hc
    · obtain ⟨c, hc, e⟩ := List.mem_map.1 h; rw [← e]; exact mb c hc
  · intro w hw
    obtain ⟨s1, s2⟩ := st w.1 (nodes w hw)
    rw [s1, s2, show ∀ x y : ℝ, x + -1 * y = x - y from fun x y => by ring, show ∀ x y : ℝ, x + -1 * y = x - y from fun x y => by ring]
    exact hd w.1 (nodes w hw)
  · intro z z0 z1 hz
    have hz' : ¬ (z ∈ a.map Prod.fst ∨ z ∈ b.map Prod.fst) := fun h => by
      obtain ⟨w, hw, e⟩ := List.mem_map.1 ((mem z).2 h)
      exact hz w hw e
    rw [off z hz', fa z z0 z1 (fun c hc e => hz' (Or.inl (e ▸ List.mem_map_of_mem hc))),
      fb z z0 z1 (fun c hc e => hz' (Or.inr (e ▸ List.mem_map_of_mem hc)))]
    ring

/-- Four lines of compressibility, without superfluous points, whose steps differ: what the settlements of unsaturated soil ask for
(C95, C96, C237, C243) holds. -/
theorem C249_settle_ready {x : UnsatIn} {S : Set ℝ} {s tend : ℝ} {U : Unsat} (h : UnsatInput x S s tend U) (hS : TolSep S)
    (lens : ∀ l d, x.surchargeTime = some l → x.surchargeDepth = some d → d.length = l.length ∧ OmLen l x.surchargeOm)
    (none : x.surchargeDepth = none → x.surchargeTime = none) {w1 w2 a1 a2 : List (ℝ × ℝ)}
    (e1 : x.m1kw.getXY.1 = .ok w1) (e2 : x.m2w.getXY.1 = .ok w2) (e3 : x.m1ka.getXY.1 = .ok a1) (e4 : x.m2a.getXY.1 = .ok a2)
    (s1 : Sharp w1) (s2 : Sharp w2) (s3 : Sharp a1) (s4 : Sharp a2) (dw : StepsDiffer w2 w1) (da : StepsDiffer a2 a1) :
    SettleReady x S U :=
  ⟨lens, none, C249_difference hS h.m2w h.m1kw e2 e1 s2 s1 dw, C249_difference hS h.m2a h.m1ka e4 e3 s4 s3 da⟩

theorem Ex.layers_sharp : Sharp [(0, 1), (1/2, 1), (1/2, 2), (1, 2)] := by
  intro i p q r e1 e2 e3
  have hi : i = 0 ∨ i = 1 := by
    have := (List.getElem?_eq_some_iff.1 e3).1
    simp at this
    omega
  rcases hi with rfl | rfl <;> simp at e1 e2 e3 <;> subst e1 <;> subst e2 <;> subst e3
  · refine ⟨by norm_num, ?_⟩
    rintro ⟨s, h⟩
    norm_num at h
    nlinarith [sq_nonneg (s - 4/5)]
  · refine ⟨by norm_num, ?_⟩
    rintro ⟨s, h⟩
    norm_num at h
    nlinarith [sq_nonneg (s - 4/5)]

theorem Ex.const_sharp (c : ℝ) : Sharp [(0, c), (1, c)] := by
  intro i p q r e1 e2 e3
  have := (List.getElem?_eq_some_iff.1 e3).1
  simp at this

theorem Ex.layers_steps {c : ℝ} (c0 : 0 ≤ c) (c1 : c ≤ 10) : StepsDiffer [(0, 1), (1/2, 1), (1/2, 2), (1, 2)] [(0, c), (1, c)] := by
  intro v hv
  have : v = 0 ∨ v = 1/2 ∨ v = 1 := by
    simp at hv
    rcases hv with h | h <;> simp_all <;> tauto
  rcases this with rfl | rfl | rfl
  · left; norm_num [firstAt, lastAt, polyLeft, polyRight, line]
  · right; norm_num [firstAt, lastAt, polyLeft, polyRight, line, mirror]
    have := abs_le.2 ⟨(by linarith : -10 ≤ 2 - c), (by linarith : 2 - c ≤ 10)⟩
    linarith
  · left; norm_num [firstAt, lastAt, polyLeft, polyRight, line]

/-- Two layers of compressibility: the difference with a homogeneous one is the two differences. -/
example : ∃ d, lineSub Ex.layers (Ex.const 3) = .ok d ∧ Profile {0, 1/2, 1} d (fun z => Ex.layersF z - 3) :=
  C249_difference Ex.depths_sep Ex.layers_profile (Ex.const_profile 3) rfl rfl Ex.layers_sharp (Ex.const_sharp 3) (Ex.layers_steps (by norm_num) (by norm_num))

/-- `Ex.unsat` with two layers of compressibility `m2w` and `m2a`. -/
noncomputable def Ex.layeredInput : UnsatIn := { Ex.unsatInput with m2w := Ex.layers, m2a := Ex.layers }

noncomputable def Ex.layered : Unsat := { Ex.unsat with m2w := Ex.layersF, m2a := Ex.layersF }

theorem Ex.layered_ok : UnsatInput Ex.layeredInput {0, 1/2, 1} 0 5 Ex.layered where
  sep := Ex.depths_sep
  drn := Or.inl rfl
  drnU := rfl
  H := by norm_num [Ex.layeredInput, Ex.unsatInput]
  dT := one_ne_zero
  mvref := by norm_num [Ex.layeredInput, Ex.unsatInput]
  ua := one_ne_zero
  ref := rfl
  m1kw := Ex.const_profile 3
  m2w := Ex.layers_profile
  m1ka := Ex.const_profile 4
  m2a := Ex.layers_profile
  n := Ex.const_profile 1
  sat := Ex.const_profile (1/2)
  kw := ⟨_, 2, Ex.layers_profile, Ex.layers_end, fun z => rfl, rfl⟩
  Da := ⟨_, 2, Ex.layers_profile, Ex.layers_end, fun z => rfl, rfl⟩
  surcharge := Ex.unsat_ok.surcharge
  water := ⟨⟨[(fun t => 100 * mult none t, 0)], .cons (Ex.load_history _) .nil, fun t => by simp [Ex.layered, Ex.unsat, total, mult], by simp [Ex.layered, Ex.unsat, total0]⟩,
    (fun l e => by cases e), [], rfl, fun t => by simp [Ex.layered, Ex.unsat, total], by simp [Ex.layered, Ex.unsat, total0]⟩
  air := ⟨⟨[], rfl, fun t => by simp [Ex.layered, Ex.unsat, total], by simp [Ex.layered, Ex.unsat, total0]⟩,
    (fun l e => by cases e), [], rfl, fun t => by simp [Ex.layered, Ex.unsat, total], by simp [Ex.layered, Ex.unsat, total0]⟩

example : SettleReady Ex.layeredInput {0, 1/2, 1} Ex.layered :=
  C249_settle_ready Ex.layered_ok Ex.depths_sep
    (fun l d e1 e2 => by cases e1; cases e2; exact ⟨rfl, by simp [OmLen, omList, Ex.layeredInput, Ex.unsatInput]⟩) (fun e => by cases e)
    rfl rfl rfl rfl (Ex.const_sharp 3) Ex.layers_sharp (Ex.const_sharp 4) Ex.layers_sharp (Ex.layers_steps (by norm_num) (by norm_num)) (Ex.layers_steps (by norm_num) (by norm_num))

/-- A difference that steps less than the tolerance loses its step: equal layers, subtracted, leave no step, and steps of the tolerance or less are dropped. -/
example : ¬ StepsDiffer [(0, 1), (1/2, 1), (1/2, 2), (1, 2)] [(0, 1), (1/2, 1), (1/2, 2 + 1/1000000), (1, 2)] := by
  intro h
  rcases h (1/2) (Or.inl (by simp)) with k | k
  · norm_num [firstAt, lastAt, List.find?] at k
  · norm_num [firstAt, lastAt, List.find?] at k

end Geotecha.Speccon
