import Verif.Constitutive.PwiseLemmas

/-! # C55–C57: piecewise linear permeability and compression models -/

set_option linter.unusedVariables false
namespace Geotecha.Const

/-- Abscissae `xs` and ordinates `ea` are acceptable data for a model with the given log switches: equally many of each,
each strictly monotone (in whichever direction), positive on a logarithmic axis. -/
structure DataOk (xs ea : List ℝ) (xlog ylog : Bool) : Prop where
  len : xs.length = ea.length
  mx : xs.Pairwise (· < ·) ∨ xs.Pairwise (· > ·)
  my : ea.Pairwise (· < ·) ∨ ea.Pairwise (· > ·)
  px : xlog = true → ∀ a ∈ xs, 0 < a
  py : ylog = true → ∀ a ∈ ea, 0 < a

theorem pwInit_ok {xs ea : List ℝ} {xl yl : Bool} (h : DataOk xs ea xl yl) : pwInit xs ea xl yl = .ok ⟨xs, ea, xl, yl⟩ := by
  unfold pwInit; rw [if_neg (by simp [h.len])]

theorem pwInit_PwOk {xs ea : List ℝ} {xl yl : Bool} (h : DataOk xs ea xl yl) {d : PwData} (hd : pwInit xs ea xl yl = .ok d) : PwOk d := by
  rw [pwInit_ok h] at hd
  cases hd
  exact ⟨h.len.symm, h.mx, h.my, h.px, h.py⟩

theorem pwInit_fields {xs ea : List ℝ} {xl yl : Bool} {d : PwData} (hd : pwInit xs ea xl yl = .ok d) :
    d = ⟨xs, ea, xl, yl⟩ := by
  unfold pwInit at hd
  split_ifs at hd
  cases hd; rfl

/-- **C55** permeability recovered from the void ratio it gives. -/
theorem C55_k_recovered {ka ea : List ℝ} {xl yl : Bool} (h : DataOk ka ea xl yl) {d : PwData} (hd : pwInit ka ea xl yl = .ok d)
    {k : ℝ} (hk : (∃ a ∈ ka, a ≤ k) ∧ ∃ a ∈ ka, k ≤ a) : d.kFromE (d.eFromK k) = k := by
  have ok := pwInit_PwOk h hd
  have hf := pwInit_fields hd
  have hk' : InRange d.xs k := by rw [hf]; exact hk
  unfold PwData.kFromE PwData.eFromK
  rw [tr_untr, of_graph_Y ok (graph_X ok hk')]
  exact untr_tr (inRange_pos ok.px hk')

/-- **C55** void ratio recovered from the permeability it gives. -/
theorem C55_e_recovered {ka ea : List ℝ} {xl yl : Bool} (h : DataOk ka ea xl yl) {d : PwData} (hd : pwInit ka ea xl yl = .ok d)
    {e : ℝ} (he : (∃ a ∈ ea, a ≤ e) ∧ ∃ a ∈ ea, e ≤ a) : d.eFromK (d.kFromE e) = e := by
  have ok := pwInit_PwOk h hd
  have hf := pwInit_fields hd
  have he' : InRange d.ea e := by rw [hf]; exact he
  unfold PwData.kFromE PwData.eFromK
  rw [tr_untr, of_graph_X ok (graph_Y ok he')]
  exact untr_tr (inRange_pos ok.py he')

theorem onGraph_mem {l : List (ℝ × ℝ)} {p : ℝ × ℝ} (h : p ∈ l) : OnGraph l p.1 p.2 := by
  induction l with
  | nil => simp at h
  | cons a l ih =>
    rcases List.mem_cons.1 h with rfl | h
    · exact onGraph_head _ _
    · cases l with
      | nil => simp at h
      | cons b r => exact Or.inr (ih h)

theorem tr_zip_mem {d : PwData} {k e : ℝ} (h : (k, e) ∈ List.zip d.xs d.ea) : (tr d.xlog k, tr d.ylog e) ∈ List.zip d.X d.Y := by
  have : List.zip d.X d.Y = (List.zip d.xs d.ea).map (fun p => (tr d.xlog p.1, tr d.ylog p.2)) := by
    unfold PwData.X PwData.Y
    have a : (if d.xlog then d.xs.map log10 else d.xs) = d.xs.map (tr d.xlog) := by
      unfold tr; cases d.xlog <;> simp
    have b : (if d.ylog then d.ea.map log10 else d.ea) = d.ea.map (tr d.ylog) := by
      unfold tr; cases d.ylog <;> simp
    rw [a, b, List.zip_map]; rfl
  rw [this]
  exact List.mem_map.2 ⟨_, h, rfl⟩

/-- **C55** both relations pass through every data point. -/
theorem C55_through_data {ka ea : List ℝ} {xl yl : Bool} (h : DataOk ka ea xl yl) {d : PwData} (hd : pwInit ka ea xl yl = .ok d)
    {k e : ℝ} (hm : (k, e) ∈ List.zip ka ea) : d.eFromK k = e ∧ d.kFromE e = k := by
  have ok := pwInit_PwOk h hd
  have hf := pwInit_fields hd
  have hm' : (k, e) ∈ List.zip d.xs d.ea := by rw [hf]; exact hm
  have hg := onGraph_mem (tr_zip_mem hm')
  unfold PwData.kFromE PwData.eFromK
  rw [of_graph_X ok hg, of_graph_Y ok hg]
  have := List.of_mem_zip hm'
  exact ⟨untr_tr (fun b => ok.py b _ this.2), untr_tr (fun b => ok.px b _ this.1)⟩

/-- **C55** tables of different lengths are rejected with an `IndexError`; all others are accepted. -/
theorem C55_length (ka ea : List ℝ) (xl yl : Bool) :
    (ka.length ≠ ea.length → pwInit ka ea xl yl = .error .indexError) ∧
    (ka.length = ea.length → pwInit ka ea xl yl = .ok ⟨ka, ea, xl, yl⟩) := by
  unfold pwInit
  exact ⟨fun h => if_pos h, fun h => if_neg (not_not.2 h)⟩

/-- Reversing both tables. -/
theorem C55_order_irrelevant {ka ea : List ℝ} {xl yl : Bool} (h : DataOk ka ea xl yl) {d d' : PwData} (hd : pwInit ka ea xl yl = .ok d)
    (hd' : pwInit ka.reverse ea.reverse xl yl = .ok d') {k : ℝ} (hk : (∃ a ∈ ka, a ≤ k) ∧ ∃ a ∈ ka, k ≤ a) :
    d'.eFromK k = d.eFromK k := by
  have h' : DataOk ka.reverse ea.reverse xl yl :=
    ⟨by simp [h.len], by rw [List.pairwise_reverse, List.pairwise_reverse]; exact h.mx.symm,
     by rw [List.pairwise_reverse, List.pairwise_reverse]; exact h.my.symm,
     fun b a ha => h.px b a (by simpa using ha), fun b a ha => h.py b a (by simpa using ha)⟩
  have ok := pwInit_PwOk h hd
  have ok' := pwInit_PwOk h' hd'
  have hf := pwInit_fields hd
  have hf' := pwInit_fields hd'
  have hk' : InRange d.xs k := by rw [hf]; exact hk
  have g := (graph_X ok hk').reverse
  have hz : (List.zip d.X d.Y).reverse = List.zip d'.X d'.Y := by
    have hl : d.X.length = d.Y.length := by rw [X_len, Y_len, ok.len]
    have : (List.zip d.X d.Y).reverse = List.zip d.X.reverse d.Y.reverse := by
      simp only [List.zip_eq_zipWith]
      exact (List.reverse_zipWith hl)
    rw [this, hf, hf']
    unfold PwData.X PwData.Y
    cases xl <;> cases yl <;> simp
  rw [hz] at g
  have g' := of_graph_X ok' g
  unfold PwData.eFromK
  rw [show d'.ylog = d.ylog by rw [hf, hf'], show d'.xlog = d.xlog by rw [hf, hf'], g']

/-! ## Compression: C56 -/

/-- `Cr` does not exceed the slope of the compression line anywhere: for two data points the line falls (on the chosen axes) at least
as fast as the recompression line. -/
def Flatter (Cr : ℝ) (sa ea : List ℝ) (xl yl : Bool) : Prop :=
  ∀ p ∈ List.zip sa ea, ∀ q ∈ List.zip sa ea, p.1 < q.1 → Cr * (tr xl q.1 - tr xl p.1) ≤ tr yl p.2 - tr yl q.2

def Steep (c : ℝ) (l : List (ℝ × ℝ)) : Prop := l.Pairwise (fun p q => c * (q.1 - p.1) ≤ p.2 - q.2)

theorem steep_head {c : ℝ} {p : ℝ × ℝ} {l : List (ℝ × ℝ)} (h : Steep c (p :: l)) {x y : ℝ} (hg : OnGraph (p :: l) x y) :
    c * (x - p.1) ≤ p.2 - y := by
  induction l generalizing p with
  | nil => obtain ⟨rfl, rfl⟩ := hg; simp
  | cons q r ih =>
    have hpq := (List.pairwise_cons.1 h).1 q List.mem_cons_self
    rcases hg with hg | hg
    · obtain ⟨t, h0, h1, rfl, rfl⟩ := hg
      have := mul_le_mul_of_nonneg_left hpq h0
      nlinarith
    · have := ih (List.pairwise_cons.1 h).2 hg
      linarith

theorem steep_graph {c : ℝ} {l : List (ℝ × ℝ)} (hi : Inc l) (h : Steep c l) {x y x' y' : ℝ} (hg : OnGraph l x y) (hg' : OnGraph l x' y') (hxx : x ≤ x') :
    c * (x' - x) ≤ y - y' := by
  induction l with
  | nil => exact absurd hg id
  | cons p l ih =>
    cases l with
    | nil => obtain ⟨rfl, rfl⟩ := hg; obtain ⟨rfl, rfl⟩ := hg'; simp
    | cons q r =>
      have hpq := (List.pairwise_cons.1 h).1 q List.mem_cons_self
      have hlt := (List.pairwise_cons.1 hi).1 q List.mem_cons_self
      rcases hg with hg | hg
      · rcases hg' with hg' | hg'
        · obtain ⟨t, h0, h1, rfl, rfl⟩ := hg
          obtain ⟨u, h0', h1', rfl, rfl⟩ := hg'
          have htu : t ≤ u := by
            by_contra hc
            have := mul_pos (sub_pos.2 (not_le.1 hc)) (sub_pos.2 hlt)
            linarith
          have := mul_le_mul_of_nonneg_left hpq (sub_nonneg.2 htu)
          nlinarith
        · have h2 := steep_head (List.pairwise_cons.1 h).2 hg'
          obtain ⟨t, h0, h1, rfl, rfl⟩ := hg
          have := mul_le_mul_of_nonneg_left hpq (sub_nonneg.2 h1)
          nlinarith
      · rcases hg' with hg' | hg'
        · have := onGraph_ge hi.tail hg
          have h3 := onSeg_range hlt hg'
          have hx : x = q.1 := by linarith [h3.2]
          have hx' : x' = q.1 := by linarith [h3.2]
          have e1 := interp_of_onGraph hi (x := x) (y := y) (Or.inr hg)
          have e2 := interp_of_onGraph hi (x := x') (y := y') (Or.inl hg')
          rw [hx] at e1; rw [hx'] at e2
          rw [hx, hx', ← e1, ← e2]; simp
        · exact ih hi.tail (List.pairwise_cons.1 h).2 hg hg'

theorem zip_tr (d : PwData) : List.zip d.X d.Y = (List.zip d.xs d.ea).map (fun p => (tr d.xlog p.1, tr d.ylog p.2)) := by
  unfold PwData.X PwData.Y
  have a : (if d.xlog then d.xs.map log10 else d.xs) = d.xs.map (tr d.xlog) := by
    unfold tr; cases d.xlog <;> simp
  have b : (if d.ylog then d.ea.map log10 else d.ea) = d.ea.map (tr d.ylog) := by
    unfold tr; cases d.ylog <;> simp
  rw [a, b, List.zip_map]; rfl

/-- The polyline as an increasing list. -/
theorem inc_graph {d : PwData} (ok : PwOk d) : ∃ l, Inc l ∧ (l = List.zip d.X d.Y ∨ l = (List.zip d.X d.Y).reverse) := by
  obtain ⟨l, _, h1, h2⟩ := interpSl_data (fp := d.Y) ok.mx (X_order ok) (X_len d)
  exact ⟨l, h1, h2⟩

theorem flatter_steep {d : PwData} (ok : PwOk d) {Cr : ℝ} (hf : Flatter Cr d.xs d.ea d.xlog d.ylog) {l : List (ℝ × ℝ)} (hi : Inc l)
    (hl : l = List.zip d.X d.Y ∨ l = (List.zip d.X d.Y).reverse) : Steep Cr l := by
  have hm : ∀ p ∈ l, ∃ a ∈ List.zip d.xs d.ea, p = (tr d.xlog a.1, tr d.ylog a.2) := by
    intro p hp
    have : p ∈ List.zip d.X d.Y := by rcases hl with rfl | rfl <;> simpa using hp
    rw [zip_tr] at this
    obtain ⟨a, ha, rfl⟩ := List.mem_map.1 this
    exact ⟨a, ha, rfl⟩
  refine List.Pairwise.imp_of_mem ?_ hi
  intro p q hp hq hpq
  obtain ⟨a, ha, rfl⟩ := hm p hp
  obtain ⟨b, hb, rfl⟩ := hm q hq
  refine hf a ha b hb ?_
  by_contra hc
  have := tr_le (b := d.xlog) (fun e => ok.px e _ (List.of_mem_zip (a := b.1) (b := b.2) hb).1) (not_lt.1 hc)
  exact absurd hpq (not_lt.2 this)

theorem flatter_graph {d : PwData} (ok : PwOk d) {Cr : ℝ} (hf : Flatter Cr d.xs d.ea d.xlog d.ylog) {x y x' y' : ℝ}
    (hg : OnGraph (List.zip d.X d.Y) x y) (hg' : OnGraph (List.zip d.X d.Y) x' y') (hxx : x ≤ x') : Cr * (x' - x) ≤ y - y' := by
  obtain ⟨l, hi, hl⟩ := inc_graph ok
  have hs := flatter_steep ok hf hi hl
  rcases hl with rfl | rfl
  · exact steep_graph hi hs hg hg' hxx
  · exact steep_graph hi hs hg.reverse hg'.reverse hxx

theorem onGraph_yrange {l : List (ℝ × ℝ)} {x y : ℝ} (h : OnGraph l x y) : (∃ p ∈ l, p.2 ≤ y) ∧ ∃ p ∈ l, y ≤ p.2 := by
  induction l with
  | nil => exact absurd h id
  | cons p l ih =>
    cases l with
    | nil => exact ⟨⟨p, by simp, h.2.symm.le⟩, p, by simp, h.2.le⟩
    | cons q r =>
      rcases h with h | h
      · obtain ⟨t, h0, h1, _, rfl⟩ := h
        rcases le_total p.2 q.2 with hpq | hpq
        · exact ⟨⟨p, by simp, by nlinarith⟩, q, by simp, by nlinarith⟩
        · exact ⟨⟨q, by simp, by nlinarith⟩, p, by simp, by nlinarith⟩
      · obtain ⟨⟨a, ha, h1⟩, b, hb, h2⟩ := ih h
        exact ⟨⟨a, List.mem_cons_of_mem _ ha, h1⟩, b, List.mem_cons_of_mem _ hb, h2⟩

/-- In transformed coordinates: the ordinate between two ordinates of the polyline is attained. -/
theorem graph_Y' {d : PwData} (ok : PwOk d) {x y x' y' e : ℝ} (hg : OnGraph (List.zip d.X d.Y) x y) (hg' : OnGraph (List.zip d.X d.Y) x' y')
    (h1 : y ≤ e) (h2 : e ≤ y') : OnGraph (List.zip d.X d.Y) (interpSl d.ea d.Y d.X e) e := by
  obtain ⟨⟨p, hp, hpy⟩, _⟩ := onGraph_yrange hg
  obtain ⟨_, q, hq, hqy⟩ := onGraph_yrange hg'
  have := (onGraph_interpSl (fp := d.X) ok.my (Y_order ok) (Y_len d) (by rw [Y_len, X_len, ok.len])
    ⟨p.2, (List.of_mem_zip (a := p.1) (b := p.2) hp).2, le_trans hpy h1⟩ ⟨q.2, (List.of_mem_zip (a := q.1) (b := q.2) hq).2, le_trans h2 hqy⟩).swap
  rwa [zip_swap] at this

/-- **C56** normally consolidated: the two relations are inverse to each other on the range of the data. -/
theorem C56_normally_consolidated {sa ea : List ℝ} {xl yl : Bool} (h : DataOk sa ea xl yl) {d : PwData} (hd : pwInit sa ea xl yl = .ok d) (Cr : ℝ) :
    (∀ s, ((∃ a ∈ sa, a ≤ s) ∧ ∃ a ∈ sa, s ≤ a) → d.stressFromE Cr (d.eFromStress Cr s none) none = s) ∧
    (∀ e, ((∃ a ∈ ea, a ≤ e) ∧ ∃ a ∈ ea, e ≤ a) → d.eFromStress Cr (d.stressFromE Cr e none) none = e) ∧
    ∀ s e, (s, e) ∈ List.zip sa ea → d.eFromStress Cr s none = e := by
  have hs : ∀ s, d.eFromStress Cr s none = d.eFromK s := by
    intro s; unfold PwData.eFromStress PwData.eFromK; simp
  have he : ∀ e, d.stressFromE Cr e none = d.kFromE e := fun e => rfl
  refine ⟨fun s hr => ?_, fun e hr => ?_, fun s e hm => ?_⟩
  · rw [hs, he]; exact C55_k_recovered h hd hr
  · rw [hs, he]; exact C55_e_recovered h hd hr
  · rw [hs]; exact (C55_through_data h hd hm).1

/-- **C56** stress recovered from the void ratio it gives under a given preconsolidation stress. -/
theorem C56_stress_recovered {sa ea : List ℝ} {xl yl : Bool} (h : DataOk sa ea xl yl) {d : PwData} (hd : pwInit sa ea xl yl = .ok d)
    {Cr : ℝ} (hCr : 0 < Cr) (hfl : Flatter Cr sa ea xl yl) {s p : ℝ}
    (hs : (∃ a ∈ sa, a ≤ s) ∧ ∃ a ∈ sa, s ≤ a) (hp : (∃ a ∈ sa, a ≤ p) ∧ ∃ a ∈ sa, p ≤ a) :
    d.stressFromE Cr (d.eFromStress Cr s (some p)) (some p) = s := by
  have ok := pwInit_PwOk h hd
  have hf := pwInit_fields hd
  have hs' : InRange d.xs s := by rw [hf]; exact hs
  have hp' : InRange d.xs p := by rw [hf]; exact hp
  have hfl' : Flatter Cr d.xs d.ea d.xlog d.ylog := by rw [hf]; exact hfl
  have gs := graph_X ok hs'
  have gp := graph_X ok hp'
  have us := untr_tr (inRange_pos ok.px hs')
  unfold PwData.stressFromE PwData.eFromStress
  simp only [Option.getD_some, tr_untr]
  rcases le_total p s with hps | hsp
  · rw [max_eq_right hps, sub_self, mul_zero, add_zero, of_graph_Y ok gs]
    have hle := tr_le (b := d.xlog) (inRange_pos ok.px hp') hps
    have := flatter_graph ok hfl' gp gs hle
    rw [min_eq_left]
    · rw [add_sub_cancel, us]
    · rw [le_div_iff₀ hCr]; linarith
  · rw [max_eq_left hsp]
    have hle := tr_le (b := d.xlog) (inRange_pos ok.px hs') hsp
    have hst := flatter_graph ok hfl' gs gp hle
    have hnn := mul_nonneg hCr.le (sub_nonneg.2 hle)
    set E := interpSl d.xs d.X d.Y (tr d.xlog p) + Cr * (tr d.xlog p - tr d.xlog s) with hE
    have ge := graph_Y' ok gp gs (e := E) (by linarith) (by linarith)
    have hge : tr d.xlog s ≤ interpSl d.ea d.Y d.X E := by
      by_contra hc
      have hc := not_le.1 hc
      have := flatter_graph ok hfl' ge gs hc.le
      have := mul_pos hCr (sub_pos.2 hc)
      linarith
    have e2 : (interpSl d.xs d.X d.Y (tr d.xlog p) - E) / Cr = tr d.xlog s - tr d.xlog p := by
      rw [hE]; field_simp; ring
    rw [e2, min_eq_right (by linarith), add_sub_cancel, us]

/-- **C56** void ratio recovered from the stress it gives under a given preconsolidation stress. -/
theorem C56_e_recovered {sa ea : List ℝ} {xl yl : Bool} (h : DataOk sa ea xl yl) {d : PwData} (hd : pwInit sa ea xl yl = .ok d)
    {Cr : ℝ} (hCr : 0 < Cr) (hfl : Flatter Cr sa ea xl yl) {e p : ℝ}
    (he : (∃ a ∈ ea, a ≤ e) ∧ ∃ a ∈ ea, e ≤ a) (hp : (∃ a ∈ sa, a ≤ p) ∧ ∃ a ∈ sa, p ≤ a) :
    d.eFromStress Cr (d.stressFromE Cr e (some p)) (some p) = e := by
  have ok := pwInit_PwOk h hd
  have hf := pwInit_fields hd
  have he' : InRange d.ea e := by rw [hf]; exact he
  have hp' : InRange d.xs p := by rw [hf]; exact hp
  have hfl' : Flatter Cr d.xs d.ea d.xlog d.ylog := by rw [hf]; exact hfl
  have gp := graph_X ok hp'
  have ge := graph_Y ok he'
  have ue := untr_tr (inRange_pos ok.py he')
  have up := untr_tr (inRange_pos ok.px hp')
  have hmono : ∀ a b : ℝ, a ≤ b → untr d.xlog a ≤ untr d.xlog b := by
    intro a b hab
    cases d.xlog with
    | false => exact hab
    | true => exact Real.rpow_le_rpow_of_exponent_le (by norm_num) hab
  unfold PwData.stressFromE PwData.eFromStress
  simp only [Option.getD_some]
  set E := tr d.ylog e with hE
  set P := tr d.xlog p with hP
  rcases le_total P (interpSl d.ea d.Y d.X E) with hle | hle
  · have := flatter_graph ok hfl' gp ge hle
    rw [min_eq_left (by rw [le_div_iff₀ hCr]; linarith), add_sub_cancel]
    have hm : max p (untr d.xlog (interpSl d.ea d.Y d.X E)) = untr d.xlog (interpSl d.ea d.Y d.X E) :=
      max_eq_right (by rw [← up]; exact hmono _ _ hle)
    rw [hm, tr_untr, sub_self, mul_zero, add_zero, of_graph_X ok ge, ue]
  · have := flatter_graph ok hfl' ge gp hle
    have hmin : (interpSl d.xs d.X d.Y P - E) / Cr ≤ interpSl d.ea d.Y d.X E - P := by
      rw [div_le_iff₀ hCr]; linarith
    rw [min_eq_right hmin]
    have hm : max p (untr d.xlog (P + (interpSl d.xs d.X d.Y P - E) / Cr)) = p :=
      max_eq_left (by
        have := hmono (P + (interpSl d.xs d.X d.Y P - E) / Cr) P (by linarith)
        rwa [up] at this)
    rw [hm, tr_untr, ← ue]
    congr 1
    rw [← hP]
    field_simp
    ring

end Geotecha.Const
