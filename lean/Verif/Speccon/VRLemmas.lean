import Verif.Speccon.PropsOut
import Verif.Speccon.SpecVR
import Verif.Piecewise.PropsPoly

/-!
# Helpers for C77: scaling of load histories, the right hand side of the modal equations
-/

set_option linter.unusedVariables false
open Real intervalIntegral MeasureTheory Filter Topology
namespace Geotecha.Speccon
open Geotecha.Spec Geotecha.Piecewise

theorem polyLeft_scale (c x : ℝ) : ∀ pts : List (ℝ × ℝ), polyLeft (pts.map (fun q => (q.1, q.2 * c))) x = polyLeft pts x * c
  | [] => by simp [polyLeft]
  | [p] => by simp [polyLeft]
  | p :: q :: r => by
    have ih := polyLeft_scale c x (q :: r)
    simp only [List.map_cons, polyLeft] at ih ⊢
    split_ifs
    · rfl
    · simp only [line]; ring
    · exact ih

theorem polyRight_scale (c x : ℝ) (pts : List (ℝ × ℝ)) : polyRight (pts.map (fun q => (q.1, q.2 * c))) x = polyRight pts x * c := by
  unfold polyRight
  rw [← polyLeft_scale]
  simp [mirror, Function.comp_def]

theorem zip_map_scale (c : ℝ) (T P : List ℝ) : T.zip (P.map (fun v => v * c)) = (T.zip P).map (fun q => (q.1, q.2 * c)) := by
  induction T generalizing P with
  | nil => simp
  | cons a T ih =>
    cases P with
    | nil => simp
    | cons b P => simp [ih]

theorem LoadHistory.scale {p : PolyLine ℝ} {om : Om} {s tend : ℝ} {h : ℝ → ℝ} {h0 : ℝ} (H : LoadHistory p om s tend h h0) {c : ℝ} (hc : c ≠ 0)
    (f : ℝ → ℝ) (hf : ∀ v, f v = v * c) :
    ∃ q, scaled f p = .ok q ∧ LoadHistory q om s tend (fun t => h t * c) (h0 * c) := by
  obtain ⟨T, P, hx, hy, hl, hs, hr, n, hn, hspan, hs0, hz, hend, hh0, hh⟩ := H.ex
  have hxy : ∃ l, p.getXY.1 = .ok l ∧ l.map Prod.fst = T ∧ l.map Prod.snd = P := by
    have k0 := getX_fst p
    have k1 := getY_fst p
    rw [hx] at k0
    rw [hy] at k1
    rcases hq : p.getXY.1 with e | l <;> rw [hq] at k0 k1 <;> simp only [Except.map, reduceCtorEq, Except.ok.injEq] at k0 k1
    exact ⟨l, rfl, k0.symm, k1.symm⟩
  obtain ⟨l, hl0, hl1, hl2⟩ := hxy
  have hfe : f = fun v => v * c := funext hf
  have hlen2 : (P.map f).length = T.length := by simp [hl]
  have e : PolyLine.ofX_Y T (P.map f) = .ok ⟨some (T.zip (P.map f)), true, true, none⟩ := by
    unfold PolyLine.ofX_Y
    rw [if_neg]
    rw [hlen2]
    omega
  refine ⟨⟨some (T.zip (P.map f)), true, true, none⟩, ?_, ⟨T, P.map f, ?_, ?_, hlen2, hs, ?_, n, hn, hspan, hs0, ?_, hend, ?_, ?_⟩⟩
  · unfold scaled
    rw [mapY_fst, hl0]
    simp only [hl1, hl2, e, Out.ofLine]
  · simp only [PolyLine.getX, PolyLine.getXY]
    rw [List.map_fst_zip (by omega)]
  · simp only [PolyLine.getY, PolyLine.getXY]
    rw [List.map_snd_zip (by omega)]
  · intro k hk hk'
    rintro ⟨h1, h2⟩
    rw [List.length_map] at hk'
    refine hr k hk hk' ⟨h1, ?_⟩
    simp only [List.getElem_map, hf] at h2
    exact mul_right_cancel₀ hc h2
  · refine hz.imp id (fun h => ?_)
    cases P with
    | nil => simp
    | cons a P => simp only [List.map_cons, List.getD_cons_zero] at h ⊢; rw [hf, h, zero_mul]
  · rw [hh0]
    cases P with
    | nil => simp
    | cons a P => simp only [List.map_cons, List.getD_cons_zero]; rw [hf]; ring
  · intro t h1 h2
    rw [hh t h1 h2, hfe, zip_map_scale, polyRight_scale]
    ring

theorem mapM_scaled {s tend c : ℝ} (hc : c ≠ 0) (f : ℝ → ℝ) (hf : ∀ v, f v = v * c) : ∀ (l : List (PolyLine ℝ)) (o : List Om)
    (hs : List ((ℝ → ℝ) × ℝ)), o.length = l.length → List.Forall₂ (fun q x => LoadHistory q.1 q.2 s tend x.1 x.2) (l.zip o) hs →
    ∃ l', l.mapM (scaled f) = .ok l' ∧ l'.length = l.length ∧
      List.Forall₂ (fun q x => LoadHistory q.1 q.2 s tend x.1 x.2) (l'.zip o) (hs.map (fun x => (fun t => x.1 t * c, x.2 * c))) := by
  intro l
  induction l with
  | nil =>
    intro o hs _ h
    simp only [List.zip_nil_left, List.forall₂_nil_left_iff] at h
    subst h
    exact ⟨[], rfl, rfl, by simp⟩
  | cons p l ih =>
    intro o hs hl h
    cases o with
    | nil => simp at hl
    | cons w o =>
      simp only [List.zip_cons_cons] at h
      cases h with
      | @cons _ x _ hs h1 h2 =>
        obtain ⟨q, e1, h3⟩ := LoadHistory.scale h1 hc f hf
        obtain ⟨l', e2, e3, h4⟩ := ih o hs (by simpa using hl) h2
        refine ⟨q :: l', ?_, by simp [e3], ?_⟩
        · rw [List.mapM_cons, e1, e2]; rfl
        · simp only [List.zip_cons_cons, List.map_cons]
          exact .cons h3 h4

/-- One source: depth, and rate divided by `mvref H`. -/
def PumpLoad (s tend c : ℝ) (q : (ℝ × PolyLine ℝ) × Om) (p : ℝ × (ℝ → ℝ)) : Prop :=
  q.1.1 = p.1 ∧ ∃ h h0, LoadHistory q.1.2 q.2 s tend h h0 ∧ ∀ t, p.2 t = h t / c

theorem pump_scaled {s tend c : ℝ} (hc : c ≠ 0) : ∀ (l : List (ℝ × PolyLine ℝ)) (o : List Om)
    (hs : List (ℝ × (ℝ → ℝ))), o.length = l.length → List.Forall₂ (PumpLoad s tend c) (l.zip o) hs →
    ∃ mags, l.mapM (fun q => scaled (fun v => v / c) q.2) = .ok mags ∧ mags.length = l.length ∧
      List.Forall₂ (PointLoad s tend) (((l.zip mags).map (fun q => ((q.1.1, 1, some q.2) : ℝ × ℝ × Option (PolyLine ℝ)))).zip o)
        (hs.map (fun p => (p.1, 1, p.2))) := by
  intro l
  induction l with
  | nil =>
    intro o hs _ h
    simp only [List.zip_nil_left, List.forall₂_nil_left_iff] at h
    subst h
    exact ⟨[], rfl, rfl, by simp⟩
  | cons p l ih =>
    intro o hs hl h
    cases o with
    | nil => simp at hl
    | cons w o =>
      simp only [List.zip_cons_cons] at h
      cases h with
      | @cons _ x _ hs h1 h2 =>
        obtain ⟨hz, g, g0, hg, hx⟩ := h1
        obtain ⟨q, e1, h3⟩ := LoadHistory.scale hg (c := 1 / c) (by simpa using hc) (fun v => v / c) (fun v => by ring)
        obtain ⟨l', e2, e3, h4⟩ := ih o hs (by simpa using hl) h2
        refine ⟨q :: l', ?_, by simp [e3], ?_⟩
        · rw [List.mapM_cons, e2]; simp only [e1]; rfl
        · simp only [List.zip_cons_cons, List.map_cons]
          refine .cons ⟨hz, rfl, g0 * (1 / c), ?_⟩ h4
          have : x.2 = fun t => g t * (1 / c) := by funext t; rw [hx]; ring
          simp only [this]
          exact h3

theorem total_scale (hs : List ((ℝ → ℝ) × ℝ)) (c t : ℝ) :
    total (hs.map (fun x => ((fun t => x.1 t * c, x.2 * c) : (ℝ → ℝ) × ℝ))) t = c * total hs t ∧
    total0 (hs.map (fun x => ((fun t => x.1 t * c, x.2 * c) : (ℝ → ℝ) × ℝ))) = c * total0 hs := by
  unfold total total0
  induction hs with
  | nil => simp
  | cons x hs ih =>
    simp only [List.map_cons, List.sum_cons, ih.1, ih.2]
    constructor <;> ring

theorem loads_congr {vs : Option (List (PolyLine ℝ))} {om : Option (List Om)} {s tend : ℝ} {hs : List ((ℝ → ℝ) × ℝ)}
    (h : Loads vs om s tend hs) : ∀ x ∈ hs, ∀ t, s ≤ t → t ≤ tend → IntervalIntegrable x.1 volume s t := by
  intro x hx t h1 h2
  obtain ⟨p, o, H⟩ := h.hist x hx
  exact H.solve.2.1 t h1 h2

end Geotecha.Speccon
