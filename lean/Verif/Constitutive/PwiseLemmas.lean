import Verif.Constitutive.Pwise
import Verif.Constitutive.Props

set_option linter.unusedVariables false
namespace Geotecha.Const

/-- `(x, y)` lies on the segment from `p` to `q`. -/
def OnSeg (p q : ℝ × ℝ) (x y : ℝ) : Prop := ∃ t, 0 ≤ t ∧ t ≤ 1 ∧ x = p.1 + t * (q.1 - p.1) ∧ y = p.2 + t * (q.2 - p.2)

/-- `(x, y)` lies on the polyline through the points. -/
def OnGraph : List (ℝ × ℝ) → ℝ → ℝ → Prop
  | p :: q :: r, x, y => OnSeg p q x y ∨ OnGraph (q :: r) x y
  | [p], x, y => x = p.1 ∧ y = p.2
  | [], _, _ => False

theorem OnSeg.swap {p q : ℝ × ℝ} {x y : ℝ} (h : OnSeg p q x y) : OnSeg p.swap q.swap y x := by
  obtain ⟨t, h0, h1, hx, hy⟩ := h; exact ⟨t, h0, h1, hy, hx⟩

theorem OnSeg.rev {p q : ℝ × ℝ} {x y : ℝ} (h : OnSeg p q x y) : OnSeg q p x y := by
  obtain ⟨t, h0, h1, hx, hy⟩ := h
  exact ⟨1 - t, by linarith, by linarith, by rw [hx]; ring, by rw [hy]; ring⟩

theorem OnGraph.swap {l : List (ℝ × ℝ)} {x y : ℝ} (h : OnGraph l x y) : OnGraph (l.map Prod.swap) y x := by
  induction l with
  | nil => exact h
  | cons p l ih =>
    cases l with
    | nil => exact ⟨h.2, h.1⟩
    | cons q r =>
      rcases h with h | h
      · exact Or.inl h.swap
      · exact Or.inr (ih h)

theorem onGraph_head (p : ℝ × ℝ) (r : List (ℝ × ℝ)) : OnGraph (p :: r) p.1 p.2 := by
  cases r with
  | nil => exact ⟨rfl, rfl⟩
  | cons q r => exact Or.inl ⟨0, le_refl _, zero_le_one, by ring, by ring⟩

theorem onGraph_append_left {l : List (ℝ × ℝ)} {x y : ℝ} (h : OnGraph l x y) (m : List (ℝ × ℝ)) : OnGraph (l ++ m) x y := by
  induction l with
  | nil => exact absurd h id
  | cons p l ih =>
    cases l with
    | nil =>
      obtain ⟨rfl, rfl⟩ := h
      exact onGraph_head p m
    | cons q r =>
      rcases h with h | h
      · exact Or.inl h
      · exact Or.inr (ih h)

theorem onGraph_concat {l : List (ℝ × ℝ)} {q p : ℝ × ℝ} {x y : ℝ} (h : OnSeg q p x y) : OnGraph (l ++ [q] ++ [p]) x y := by
  induction l with
  | nil => exact Or.inl h
  | cons a l ih =>
    cases l with
    | nil => exact Or.inr ih
    | cons b l => exact Or.inr ih

theorem OnGraph.reverse {l : List (ℝ × ℝ)} {x y : ℝ} (h : OnGraph l x y) : OnGraph l.reverse x y := by
  induction l with
  | nil => exact h
  | cons p l ih =>
    cases l with
    | nil => exact h
    | cons q r =>
      rcases h with h | h
      · rw [List.reverse_cons, List.reverse_cons]
        exact onGraph_concat h.rev
      · rw [List.reverse_cons]
        exact onGraph_append_left (ih h) _

/-- First coordinates strictly increasing. -/
def Inc (l : List (ℝ × ℝ)) : Prop := l.Pairwise (fun p q => p.1 < q.1)

theorem Inc.tail {p : ℝ × ℝ} {l : List (ℝ × ℝ)} (h : Inc (p :: l)) : Inc l := (List.pairwise_cons.1 h).2

theorem onSeg_range {p q : ℝ × ℝ} {x y : ℝ} (hpq : p.1 < q.1) (h : OnSeg p q x y) : p.1 ≤ x ∧ x ≤ q.1 := by
  obtain ⟨t, h0, h1, hx, _⟩ := h
  have := mul_nonneg h0 (sub_pos.2 hpq).le
  have := mul_le_mul_of_nonneg_right h1 (sub_pos.2 hpq).le
  constructor <;> linarith

theorem onGraph_ge {p : ℝ × ℝ} {l : List (ℝ × ℝ)} (hi : Inc (p :: l)) {x y : ℝ} (h : OnGraph (p :: l) x y) : p.1 ≤ x := by
  induction l generalizing p with
  | nil => exact h.1.symm.le
  | cons q r ih =>
    have hpq := (List.pairwise_cons.1 hi).1 q List.mem_cons_self
    rcases h with h | h
    · exact (onSeg_range hpq h).1
    · exact le_trans hpq.le (ih hi.tail h)

/-- On increasing data the interpolant of an abscissa of the polyline is its ordinate. -/
theorem interp_of_onGraph {l : List (ℝ × ℝ)} (hi : Inc l) {x y : ℝ} (h : OnGraph l x y) : npInterp x l = y := by
  induction l with
  | nil => exact absurd h id
  | cons p l ih =>
    cases l with
    | nil => exact h.2.symm
    | cons q r =>
      have hpq := (List.pairwise_cons.1 hi).1 q List.mem_cons_self
      have hd : q.1 - p.1 ≠ 0 := (sub_pos.2 hpq).ne'
      rw [npInterp]
      rcases h with h | h
      · obtain ⟨t, h0, h1, hx, hy⟩ := h
        have hr := onSeg_range hpq ⟨t, h0, h1, hx, hy⟩
        rw [if_neg (not_lt.2 hr.1)]
        split_ifs with h2
        · rw [hx, hy]; field_simp; ring
        · have hxq : x = q.1 := le_antisymm hr.2 (not_lt.1 h2)
          have ht : t = 1 := by
            rw [hxq] at hx
            have : (t - 1) * (q.1 - p.1) = 0 := by linarith
            rcases mul_eq_zero.1 this with h | h
            · linarith
            · exact absurd h hd
          rw [ht] at hy
          exact ih hi.tail (by have := onGraph_head q r; rw [hxq, show y = q.2 by rw [hy]; ring]; exact this)
      · have hq := onGraph_ge hi.tail h
        rw [if_neg (not_lt.2 (le_trans hpq.le hq)), if_neg (not_lt.2 hq)]
        exact ih hi.tail h

/-- The interpolant lies on the polyline when the abscissa is in the range of the data. -/
theorem onGraph_interp {l : List (ℝ × ℝ)} (hi : Inc l) {x : ℝ} (h1 : ∃ p ∈ l, p.1 ≤ x) (h2 : ∃ p ∈ l, x ≤ p.1) : OnGraph l x (npInterp x l) := by
  induction l with
  | nil => obtain ⟨p, hp, _⟩ := h1; simp at hp
  | cons p l ih =>
    have hpx : p.1 ≤ x := by
      obtain ⟨a, ha, hax⟩ := h1
      rcases List.mem_cons.1 ha with rfl | ha
      · exact hax
      · exact le_trans ((List.pairwise_cons.1 hi).1 a ha).le hax
    cases l with
    | nil =>
      obtain ⟨a, ha, hax⟩ := h2
      simp at ha; subst ha
      exact ⟨le_antisymm hax hpx, rfl⟩
    | cons q r =>
      have hpq := (List.pairwise_cons.1 hi).1 q List.mem_cons_self
      have hd : 0 < q.1 - p.1 := sub_pos.2 hpq
      rw [npInterp, if_neg (not_lt.2 hpx)]
      split_ifs with h3
      · refine Or.inl ⟨(x - p.1) / (q.1 - p.1), div_nonneg (by linarith) hd.le, (div_le_one hd).2 (by linarith), ?_, ?_⟩
        · field_simp; ring
        · field_simp; ring
      · refine Or.inr (ih hi.tail ⟨q, List.mem_cons_self, not_lt.1 h3⟩ ?_)
        obtain ⟨a, ha, hax⟩ := h2
        rcases List.mem_cons.1 ha with rfl | ha
        · exact ⟨q, List.mem_cons_self, by linarith⟩
        · exact ⟨a, ha, hax⟩

/-- Strictly monotone list (either direction). -/
def Mono (l : List ℝ) : Prop := l.Pairwise (· < ·) ∨ l.Pairwise (· > ·)

theorem anyDiff_inc {l : List ℝ} (h : l.Pairwise (· < ·)) : anyDiffNonpos l = false := by
  induction l with
  | nil => rfl
  | cons a l ih =>
    cases l with
    | nil => rfl
    | cons b r =>
      rw [anyDiffNonpos, ih (List.pairwise_cons.1 h).2, Bool.or_false]
      have := (List.pairwise_cons.1 h).1 b List.mem_cons_self
      simp [this]

theorem anyDiff_dec {a b : ℝ} {l : List ℝ} (h : (a :: b :: l).Pairwise (· > ·)) : anyDiffNonpos (a :: b :: l) = true := by
  have := (List.pairwise_cons.1 h).1 b List.mem_cons_self
  rw [anyDiffNonpos]
  simp [le_of_lt this]

theorem inc_zip {xs ys : List ℝ} (h : xs.Pairwise (· < ·)) : Inc (List.zip xs ys) := by
  induction xs generalizing ys with
  | nil => simp [Inc]
  | cons a xs ih =>
    cases ys with
    | nil => simp [Inc]
    | cons b ys =>
      rw [List.zip_cons_cons]
      refine List.pairwise_cons.2 ⟨fun p hp => ?_, ih (List.pairwise_cons.1 h).2⟩
      exact (List.pairwise_cons.1 h).1 p.1 (List.of_mem_zip (a := p.1) (b := p.2) hp).1

theorem inc_zip_rev {xs ys : List ℝ} (h : xs.Pairwise (· > ·)) : Inc (List.zip xs ys).reverse := by
  unfold Inc
  rw [List.pairwise_reverse]
  have : ∀ (xs ys : List ℝ), xs.Pairwise (· > ·) → (List.zip xs ys).Pairwise (fun p q => q.1 < p.1) := by
    intro xs
    induction xs with
    | nil => intro ys _; simp
    | cons a xs ih =>
      intro ys h
      cases ys with
      | nil => simp
      | cons b ys =>
        rw [List.zip_cons_cons]
        refine List.pairwise_cons.2 ⟨fun p hp => ?_, ih ys (List.pairwise_cons.1 h).2⟩
        exact (List.pairwise_cons.1 h).1 p.1 (List.of_mem_zip (a := p.1) (b := p.2) hp).1
  exact this xs ys h

/-- A transformation of the keys that keeps their order. -/
def SameOrder (key xp : List ℝ) : Prop := (key.Pairwise (· < ·) → xp.Pairwise (· < ·)) ∧ (key.Pairwise (· > ·) → xp.Pairwise (· > ·))

theorem single_rev {key xp fp : List ℝ} (hl : xp.length = key.length) (h : key.length ≤ 1) : (List.zip xp fp).reverse = List.zip xp fp := by
  have : (List.zip xp fp).length ≤ 1 := by rw [List.length_zip]; omega
  match hz : List.zip xp fp, this with
  | [], _ => rfl
  | [a], _ => rfl

/-- The data as used by `interpSl` are increasing, and have the same polyline. -/
theorem interpSl_data {key xp fp : List ℝ} (hm : Mono key) (hs : SameOrder key xp) (hl : xp.length = key.length) :
    ∃ l, interpSl key xp fp = (fun x => npInterp x l) ∧ Inc l ∧ (l = List.zip xp fp ∨ l = (List.zip xp fp).reverse) := by
  rcases hm with h | h
  · refine ⟨List.zip xp fp, ?_, inc_zip (hs.1 h), Or.inl rfl⟩
    funext x; unfold interpSl; rw [anyDiff_inc h]; rfl
  · refine ⟨(List.zip xp fp).reverse, ?_, inc_zip_rev (hs.2 h), Or.inr rfl⟩
    funext x
    unfold interpSl
    match key, hl, h with
    | [], hl, _ => rw [single_rev hl (by simp)]; simp
    | [a], hl, _ => rw [single_rev hl (by simp)]; simp
    | a :: b :: r, hl, h => rw [anyDiff_dec h]; rfl

theorem interpSl_of_onGraph {key xp fp : List ℝ} (hm : Mono key) (hs : SameOrder key xp) (hl : xp.length = key.length) {x y : ℝ}
    (h : OnGraph (List.zip xp fp) x y) : interpSl key xp fp x = y := by
  obtain ⟨l, he, hi, hl'⟩ := interpSl_data (fp := fp) hm hs hl
  rw [he]
  refine interp_of_onGraph hi ?_
  rcases hl' with rfl | rfl
  · exact h
  · exact h.reverse

theorem onGraph_interpSl {key xp fp : List ℝ} (hm : Mono key) (hs : SameOrder key xp) (hl : xp.length = key.length) (hf : fp.length = xp.length) {x : ℝ}
    (h1 : ∃ a ∈ xp, a ≤ x) (h2 : ∃ a ∈ xp, x ≤ a) : OnGraph (List.zip xp fp) x (interpSl key xp fp x) := by
  obtain ⟨l, he, hi, hl'⟩ := interpSl_data (fp := fp) hm hs hl
  rw [he]
  have lift : ∀ a ∈ xp, ∃ p ∈ List.zip xp fp, p.1 = a := by
    intro a ha
    have : a ∈ (List.zip xp fp).map Prod.fst := by rw [List.map_fst_zip (by omega)]; exact ha
    obtain ⟨p, hp, rfl⟩ := List.mem_map.1 this
    exact ⟨p, hp, rfl⟩
  have g1 : ∃ p ∈ List.zip xp fp, p.1 ≤ x := by
    obtain ⟨a, ha, hax⟩ := h1; obtain ⟨p, hp, rfl⟩ := lift a ha; exact ⟨p, hp, hax⟩
  have g2 : ∃ p ∈ List.zip xp fp, x ≤ p.1 := by
    obtain ⟨a, ha, hax⟩ := h2; obtain ⟨p, hp, rfl⟩ := lift a ha; exact ⟨p, hp, hax⟩
  rcases hl' with rfl | rfl
  · exact onGraph_interp hi g1 g2
  · have := onGraph_interp hi (x := x) (by obtain ⟨p, hp, h⟩ := g1; exact ⟨p, by simpa using hp, h⟩) (by obtain ⟨p, hp, h⟩ := g2; exact ⟨p, by simpa using hp, h⟩)
    have h3 := this.reverse
    rwa [List.reverse_reverse] at h3

theorem zip_swap (xp fp : List ℝ) : (List.zip xp fp).map Prod.swap = List.zip fp xp := by
  induction xp generalizing fp with
  | nil => simp
  | cons a xp ih => cases fp with
    | nil => simp
    | cons b fp => simp [ih]

/-! ## Logarithmic scales -/

theorem log10_lt {a b : ℝ} (ha : 0 < a) (h : a < b) : log10 a < log10 b := Real.logb_lt_logb (by norm_num) ha h
theorem log10_le {a b : ℝ} (ha : 0 < a) (h : a ≤ b) : log10 a ≤ log10 b := by
  rcases h.lt_or_eq with h | h
  · exact (log10_lt ha h).le
  · rw [h]

/-- Admissible data: same lengths, strictly monotone in both coordinates, positive where a logarithm is taken. -/
structure PwOk (d : PwData) : Prop where
  len : d.ea.length = d.xs.length
  mx : Mono d.xs
  my : Mono d.ea
  px : d.xlog = true → ∀ a ∈ d.xs, 0 < a
  py : d.ylog = true → ∀ a ∈ d.ea, 0 < a

theorem sameOrder_tr (b : Bool) (l : List ℝ) (h : b = true → ∀ a ∈ l, 0 < a) : SameOrder l (if b then l.map log10 else l) := by
  cases b with
  | false => exact ⟨id, id⟩
  | true =>
    have h := h rfl
    constructor
    · intro hp
      simp only [if_true]
      rw [List.pairwise_map]
      exact hp.imp_of_mem (fun ha hb hab => log10_lt (h _ ha) hab)
    · intro hp
      simp only [if_true]
      rw [List.pairwise_map]
      exact hp.imp_of_mem (fun ha hb hab => log10_lt (h _ hb) hab)

theorem tr_mem {b : Bool} {l : List ℝ} {a : ℝ} (h : a ∈ l) : tr b a ∈ (if b then l.map log10 else l) := by
  cases b with
  | false => exact h
  | true => exact List.mem_map_of_mem h

theorem tr_le {b : Bool} {x y : ℝ} (h : b = true → 0 < x) (hxy : x ≤ y) : tr b x ≤ tr b y := by
  cases b with
  | false => exact hxy
  | true => exact log10_le (h rfl) hxy

theorem tr_lt {b : Bool} {x y : ℝ} (h : b = true → 0 < x) (hxy : x < y) : tr b x < tr b y := by
  cases b with
  | false => exact hxy
  | true => exact log10_lt (h rfl) hxy

theorem tr_untr (b : Bool) (x : ℝ) : tr b (untr b x) = x := by
  cases b with
  | false => rfl
  | true => exact log10_pow x

theorem untr_tr {b : Bool} {x : ℝ} (h : b = true → 0 < x) : untr b (tr b x) = x := by
  cases b with
  | false => rfl
  | true => exact pow_log10 (h rfl)

theorem X_len (d : PwData) : d.X.length = d.xs.length := by unfold PwData.X; split_ifs <;> simp
theorem Y_len (d : PwData) : d.Y.length = d.ea.length := by unfold PwData.Y; split_ifs <;> simp

theorem X_order {d : PwData} (h : PwOk d) : SameOrder d.xs d.X := sameOrder_tr _ _ h.px
theorem Y_order {d : PwData} (h : PwOk d) : SameOrder d.ea d.Y := sameOrder_tr _ _ h.py

/-- Within the range of the data. -/
def InRange (l : List ℝ) (x : ℝ) : Prop := (∃ a ∈ l, a ≤ x) ∧ ∃ a ∈ l, x ≤ a

theorem inRange_pos {b : Bool} {l : List ℝ} (h : b = true → ∀ a ∈ l, 0 < a) {x : ℝ} (hx : InRange l x) : b = true → 0 < x := fun hb => by
  obtain ⟨⟨a, ha, hax⟩, _⟩ := hx
  exact lt_of_lt_of_le (h hb a ha) hax

theorem X_range {d : PwData} (h : PwOk d) {x : ℝ} (hx : InRange d.xs x) : InRange d.X (tr d.xlog x) := by
  have hp := inRange_pos h.px hx
  obtain ⟨⟨a, ha, hax⟩, b, hb, hxb⟩ := hx
  exact ⟨⟨_, tr_mem ha, tr_le (fun e => h.px e a ha) hax⟩, _, tr_mem hb, tr_le hp hxb⟩

theorem Y_range {d : PwData} (h : PwOk d) {x : ℝ} (hx : InRange d.ea x) : InRange d.Y (tr d.ylog x) := by
  have hp := inRange_pos h.py hx
  obtain ⟨⟨a, ha, hax⟩, b, hb, hxb⟩ := hx
  exact ⟨⟨_, tr_mem ha, tr_le (fun e => h.py e a ha) hax⟩, _, tr_mem hb, tr_le hp hxb⟩

theorem graph_X {d : PwData} (h : PwOk d) {x : ℝ} (hx : InRange d.xs x) :
    OnGraph (List.zip d.X d.Y) (tr d.xlog x) (interpSl d.xs d.X d.Y (tr d.xlog x)) :=
  onGraph_interpSl h.mx (X_order h) (X_len d) (by rw [Y_len, X_len, h.len]) (X_range h hx).1 (X_range h hx).2

theorem graph_Y {d : PwData} (h : PwOk d) {e : ℝ} (he : InRange d.ea e) :
    OnGraph (List.zip d.X d.Y) (interpSl d.ea d.Y d.X (tr d.ylog e)) (tr d.ylog e) := by
  have := (onGraph_interpSl (fp := d.X) h.my (Y_order h) (Y_len d) (by rw [Y_len, X_len, h.len]) (Y_range h he).1 (Y_range h he).2).swap
  rwa [zip_swap] at this

theorem of_graph_X {d : PwData} (h : PwOk d) {x y : ℝ} (hg : OnGraph (List.zip d.X d.Y) x y) : interpSl d.xs d.X d.Y x = y :=
  interpSl_of_onGraph h.mx (X_order h) (X_len d) hg

theorem of_graph_Y {d : PwData} (h : PwOk d) {x y : ℝ} (hg : OnGraph (List.zip d.X d.Y) x y) : interpSl d.ea d.Y d.X y = x := by
  refine interpSl_of_onGraph h.my (Y_order h) (Y_len d) ?_
  have := hg.swap
  rwa [zip_swap] at this

end Geotecha.Const
