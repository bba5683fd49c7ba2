import Verif.Quad.Model
import Mathlib.Tactic.FieldSimp
import Mathlib.Tactic.LinearCombination
import Mathlib.Tactic.Ring

set_option linter.unusedVariables false
namespace Geotecha.Quad
variable {K : Type} [Field K] [DecidableEq K]

/-! # C22 Shanks transformation -/

/-- The first `n` elements of `A + a q^k`, starting with `k = s`. -/
def geo (A a q : K) (s n : ℕ) : List K := (List.range n).map (fun k => A + a * q^(s+k))

theorem geo_succ (A a q : K) (s n : ℕ) : geo A a q s (n+1) = (A + a*q^s) :: geo A a q (s+1) n := by
  unfold geo
  rw [List.range_succ_eq_map]
  simp only [List.map_cons, Nat.add_zero, List.map_map]
  congr 1
  refine List.map_congr_left (fun k _ => ?_)
  simp only [Function.comp, Nat.succ_eq_add_one]
  congr 3; omega

theorem geo_length (A a q : K) (s n : ℕ) : (geo A a q s n).length = n := by simp [geo]

theorem geo_last (A a q : K) (s n : ℕ) : (geo A a q s (n+1)).getLastD 0 = A + a*q^(s+n) := by
  unfold geo
  rw [List.range_succ, List.map_append]
  simp [List.getLastD_eq_getLast?]

theorem pass_geo {A a q : K} (ha : a ≠ 0) (hq : q ≠ 0) (hq1 : q ≠ 1) (s n : ℕ) :
    shanksPass (geo A a q s (n+2)) = some (List.replicate n A) := by
  induction n generalizing s with
  | zero => rw [geo_succ, geo_succ]; rfl
  | succ n ih =>
    have ih' := ih (s+1)
    rw [geo_succ, geo_succ] at ih'
    rw [geo_succ, geo_succ, geo_succ]
    rw [shanksPass, ih']
    have h1 : q - 1 ≠ 0 := sub_ne_zero.2 hq1
    have hs : q^s ≠ 0 := pow_ne_zero _ hq
    have hd : A + a * q^(s+1+1) - 2 * (A + a*q^(s+1)) + (A + a*q^s) = a * q^s * (q-1)^2 := by ring
    try dsimp only
    rw [hd, if_neg (mul_ne_zero (mul_ne_zero ha hs) (pow_ne_zero _ h1))]
    rw [List.replicate_succ]
    congr 2
    field_simp
    ring

theorem pass_const {A : K} (n : ℕ) (h : 3 ≤ n) : shanksPass (List.replicate n A) = none := by
  obtain ⟨m, rfl⟩ : ∃ m, n = m + 3 := ⟨n - 3, by omega⟩
  rw [List.replicate_succ, List.replicate_succ, List.replicate_succ, shanksPass]
  try dsimp only
  rw [if_pos (by ring)]

theorem loop_const {A : K} (f n : ℕ) (h : 1 ≤ n) : shanksLoop f (List.replicate n A) = A := by
  obtain ⟨m, rfl⟩ : ∃ m, n = m + 1 := ⟨n - 1, by omega⟩
  have hl : (List.replicate (m+1) A).getLastD 0 = A := by rw [List.replicate_succ']; simp [List.getLastD_eq_getLast?]
  cases f with
  | zero => exact hl
  | succ f =>
    rw [shanksLoop]
    split_ifs with h2
    · exact hl
    · rw [pass_const _ (by simp at h2; omega)]
      exact hl

theorem loop_geo {A a q : K} (hq1 : q ≠ 1) (s n f : ℕ) (hn : 3 ≤ n) (hf : 1 ≤ f) : shanksLoop f (geo A a q s n) = A := by
  obtain ⟨m, rfl⟩ : ∃ m, n = m + 2 := ⟨n - 2, by omega⟩
  obtain ⟨f, rfl⟩ : ∃ g, f = g + 1 := ⟨f - 1, by omega⟩
  by_cases ha : a = 0
  · subst ha
    have : geo A 0 q s (m+2) = List.replicate (m+2) A := by
      unfold geo
      simp
    rw [this]; exact loop_const _ _ (by omega)
  · by_cases hq : q = 0
    · have hl : (geo A a q s (m+2)).getLastD 0 = A := by rw [geo_last, hq, zero_pow (by omega), mul_zero, add_zero]
      rw [shanksLoop, if_neg (by rw [geo_length]; omega)]
      -- either a zero denominator or the new window
      by_cases hm : m = 1
      · subst hm
        rw [geo_succ, geo_succ, geo_succ]
        rw [show geo A a q (s+1+1+1) 0 = [] from rfl, shanksPass]
        try dsimp only
        have e1 : q^(s+1) = 0 := by rw [hq, zero_pow (by omega)]
        have e2 : q^(s+1+1) = 0 := by rw [hq, zero_pow (by omega)]
        rw [e1, e2, mul_zero, add_zero]
        by_cases hs : a * q^s = 0
        · rw [hs]
          rw [if_pos (by ring)]
          rfl
        · have hd : A - 2 * A + (A + a*q^s) = a*q^s := by ring
          rw [hd, if_neg hs, shanksPass]
          · try dsimp only
            have : (A * (A + a * q^s) - A^2) / (a*q^s) = A := by
              rw [show A * (A + a * q^s) - A^2 = A * (a*q^s) by ring, mul_div_assoc, div_self hs, mul_one]
            rw [this]
            cases f <;> simp [shanksLoop, List.getLastD_eq_getLast?]
          · simp
      · have hnone : shanksPass (geo A a q s (m+2)) = none := by
          obtain ⟨p, rfl⟩ : ∃ p, m = p + 2 := ⟨m - 2, by omega⟩
          rw [geo_succ, geo_succ, geo_succ, geo_succ]
          have e1 : q^(s+1) = 0 := by rw [hq, zero_pow (by omega)]
          have e2 : q^(s+1+1) = 0 := by rw [hq, zero_pow (by omega)]
          have e3 : q^(s+1+1+1) = 0 := by rw [hq, zero_pow (by omega)]
          rw [shanksPass, shanksPass]
          simp only [e1, e2, e3, mul_zero, add_zero]
          rw [if_pos (show A - 2 * A + A = 0 by ring)]
          split_ifs <;> rfl
        rw [hnone]
        exact hl
    · rw [shanksLoop, if_neg (by rw [geo_length]; omega), pass_geo ha hq hq1]
      exact loop_const _ _ (by omega)

/-- `shanks` of at least three terms of `A + a q^k`, `q ≠ 1`, is exactly `A`, for every `ind` that leaves at least three
terms to extrapolate from. -/
theorem C22_geometric (A a q : K) (hq1 : q ≠ 1) (n : ℕ) (ind : ℤ) (hind : (0 ≤ ind ∧ ind + 3 ≤ n) ∨ (ind ≤ -3 ∧ 3 ≤ n)) :
    shanks ((List.range n).map (fun k => A + a * q^k)) (some ind) = A := by
  have hg : (List.range n).map (fun k => A + a * q^k) = geo A a q 0 n := by simp [geo]
  rw [hg]
  unfold shanks
  simp only [geo_length]
  set j := (max (if ind < 0 then (n:ℤ) + ind else ind) 0).toNat with hj
  have hj3 : j + 3 ≤ n := by
    rw [hj]; split_ifs <;> omega
  rw [if_neg (by omega)]
  have hdrop : (geo A a q 0 n).drop j = geo A a q j (n - j) := by
    unfold geo
    apply List.ext_getElem
    · simp
    · intro i h1 h2
      simp
  rw [hdrop]
  exact loop_geo hq1 _ _ _ (by omega) (by omega)

theorem pass_affine (c d : K) (hc : c ≠ 0) (l : List K) :
    shanksPass (l.map (fun x => c * x + d)) = (shanksPass l).map (fun m => m.map (fun x => c * x + d)) := by
  induction l with
  | nil => rfl
  | cons a l ih =>
    match l, ih with
    | [], _ => rfl
    | [b], _ => rfl
    | b :: e :: r, ih =>
      rw [List.map_cons] at ih
      rw [List.map_cons, List.map_cons, List.map_cons, shanksPass, shanksPass]
      rw [List.map_cons] at ih
      have hd : c * e + d - 2 * (c * b + d) + (c * a + d) = c * (e - 2 * b + a) := by ring
      try dsimp only
      rw [hd]
      by_cases h0 : e - 2 * b + a = 0
      · rw [if_pos (by rw [h0, mul_zero]), if_pos h0]; rfl
      · rw [if_neg (mul_ne_zero hc h0), if_neg h0, ih]
        cases shanksPass (b :: e :: r) with
        | none => rfl
        | some m =>
          simp only [Option.map_some, List.map_cons]
          congr 2
          have h0' : e - 2 * b + a ≠ 0 := h0
          rw [div_eq_iff (mul_ne_zero hc h0')]
          have : (e * a - b^2) / (e - 2 * b + a) * (e - 2*b + a) = e * a - b^2 := div_mul_cancel₀ _ h0'
          linear_combination (-c^2) * this

theorem getLastD_affine (c d : K) (l : List K) (h : l ≠ []) :
    (l.map (fun x => c * x + d)).getLastD 0 = c * l.getLastD 0 + d := by
  rw [List.getLastD_eq_getLast?, List.getLastD_eq_getLast?, List.getLast?_map, List.getLast?_eq_some_getLast h]
  rfl

theorem pass_length {l m : List K} (h : shanksPass l = some m) : m.length = l.length - 2 := by
  induction l generalizing m with
  | nil => cases h; rfl
  | cons a l ih =>
    rcases l with _ | ⟨b, _ | ⟨e, r⟩⟩
    · cases h; rfl
    · cases h; rfl
    · rw [shanksPass] at h
      try dsimp only at h
      split_ifs at h
      revert h
      cases hp : shanksPass (b :: e :: r) with
      | none => intro h; cases h
      | some m' =>
        intro h
        cases h
        have := ih hp
        simp at this ⊢
        omega

theorem loop_affine (c d : K) (hc : c ≠ 0) (f : ℕ) (l : List K) (h : l ≠ []) :
    shanksLoop f (l.map (fun x => c * x + d)) = c * shanksLoop f l + d := by
  induction f generalizing l with
  | zero => exact getLastD_affine c d l h
  | succ f ih =>
    rw [shanksLoop, shanksLoop, List.length_map, pass_affine c d hc]
    split_ifs with h2
    · exact getLastD_affine c d l h
    · cases hp : shanksPass l with
      | none => exact getLastD_affine c d l h
      | some m =>
        refine ih m ?_
        intro hm
        have := pass_length hp
        rw [hm] at this
        simp at this; omega

/-- `shanks` commutes with scaling and shifting of the data, for every sequence and every `ind`. -/
theorem C22_affine (c d : K) (hc : c ≠ 0) (seq : List K) (h : seq ≠ []) (ind : Option ℤ) :
    shanks (seq.map (fun x => c * x + d)) ind = c * shanks seq ind + d := by
  unfold shanks
  cases ind with
  | none => exact getLastD_affine c d seq h
  | some ind =>
    simp only [List.length_map]
    split_ifs with h1 h2 h3
    · exact getLastD_affine c d seq h
    · rw [← List.map_drop]
      refine loop_affine c d hc _ _ ?_
      intro hd
      rw [List.drop_eq_nil_iff] at hd
      exact h2 hd
    · exact getLastD_affine c d seq h
    · rw [← List.map_drop]
      refine loop_affine c d hc _ _ ?_
      intro hd
      rw [List.drop_eq_nil_iff] at hd
      exact h3 hd

/-! ## The epsilon table -/

theorem go_length {l as ps r : List K} {last : K} (hl : as.length = ps.length + 1) (h : tableRow.go last as ps = some r) :
    r.length = ps.length := by
  induction ps generalizing last as r with
  | nil =>
    cases as with
    | nil => simp at hl
    | cons a as => rw [tableRow.go] at h; cases h; rfl; simp
  | cons p ps ih =>
    cases as with
    | nil => simp at hl
    | cons a as =>
      rw [tableRow.go] at h
      try dsimp only at h
      split_ifs at h
      revert h
      cases hp : tableRow.go (a + 1 / (last - p)) as ps with
      | none => intro h; cases h
      | some m =>
        intro h; cases h
        simp at hl
        simp [ih hl hp]

/-- What the loop establishes: at most `bound` rows, lower triangular, second column the Shanks transforms. -/
def TableGood (seq : List K) (bound : ℕ) (r : List (List K)) : Prop :=
    r.length ≤ bound ∧ ∀ k (h : k < r.length), r[k].length = k + 1 ∧ (1 ≤ k → r[k].getD 1 0 =
        (seq.getD (k+1) 0 * seq.getD (k-1) 0 - seq.getD k 0 ^ 2) / (seq.getD (k+1) 0 - 2 * seq.getD k 0 + seq.getD (k-1) 0))

/-- The loop keeps: the table is lower triangular, column 0 holds the reciprocal differences, and column 1 the Shanks
transforms. -/
theorem tableLoop_inv (seq : List K) (fuel i : ℕ) (t : List (List K)) (hi : t.length = i)
    (hrow : ∀ k (h : k < t.length), t[k].length = k + 1 ∧ t[k].getD 0 0 = 1 / (seq.getD (k+1) 0 - seq.getD k 0) ∧
      seq.getD (k+1) 0 - seq.getD k 0 ≠ 0 ∧ (1 ≤ k → t[k].getD 1 0 =
        (seq.getD (k+1) 0 * seq.getD (k-1) 0 - seq.getD k 0 ^ 2) / (seq.getD (k+1) 0 - 2 * seq.getD k 0 + seq.getD (k-1) 0))) :
    TableGood seq (i + fuel) (tableLoop seq fuel i t) := by
  induction fuel generalizing i t with
  | zero =>
    simp only [tableLoop]
    exact ⟨by omega, fun k h => ⟨(hrow k h).1, (hrow k h).2.2.2⟩⟩
  | succ fuel ih =>
    simp only [tableLoop]
    set prev := (if i = 0 then [] else t.getD (i-1) []) with hprev
    cases hr : tableRow (seq.getD i 0) (seq.getD (i+1) 0) prev with
    | none =>
      try dsimp only
      split_ifs
      · refine ⟨by simp; omega, fun k h => ?_⟩
        rw [List.getElem_dropLast]
        have h' : k < t.length := by simp at h; omega
        exact ⟨(hrow k h').1, (hrow k h').2.2.2⟩
      · exact ⟨by omega, fun k h => ⟨(hrow k h).1, (hrow k h).2.2.2⟩⟩
    | some row =>
      try dsimp only
      have hplen : prev.length = i := by
        rw [hprev]
        split_ifs with h0
        · simp [h0]
        · have : i - 1 < t.length := by omega
          rw [List.getD_eq_getElem?_getD, List.getElem?_eq_getElem this, Option.getD_some, (hrow (i-1) this).1]
          omega
      unfold tableRow at hr
      try dsimp only at hr
      split_ifs at hr with hb0
      revert hr
      cases hg : tableRow.go (1 / (seq.getD (i+1) 0 - seq.getD i 0)) (seq.getD i 0 :: prev) prev with
      | none => intro hr; cases hr
      | some rr =>
        intro hr
        cases hr
        have hrl := go_length (l := []) (by simp) hg
        have := ih (i+1) (t ++ [1 / (seq.getD (i+1) 0 - seq.getD i 0) :: rr]) (by simp [hi]) ?_
        · refine ⟨by have := this.1; omega, this.2⟩
        · intro k h
          by_cases hk : k < t.length
          · rw [List.getElem_append_left hk]; exact hrow k hk
          · have hki : k = i := by simp at h; omega
            subst hki
            rw [List.getElem_append_right (by omega)]
            simp only [hi, Nat.sub_self, List.getElem_singleton]
            refine ⟨by simp [hrl, hplen], rfl, hb0, fun h1 => ?_⟩
            have hk1 : k - 1 < t.length := by omega
            have hr1 := hrow (k-1) hk1
            have hprev' : prev = t[k-1] := by
              rw [hprev, if_neg (by omega), List.getD_eq_getElem?_getD, List.getElem?_eq_getElem hk1]; rfl
            rw [← hprev'] at hr1
            obtain ⟨p, ps, hps⟩ : ∃ p ps, prev = p :: ps := by
              cases hpp : prev with
              | nil => rw [hpp] at hplen; simp at hplen; omega
              | cons p ps => exact ⟨p, ps, rfl⟩
            rw [hps] at hg hr1
            rw [tableRow.go] at hg
            try dsimp only at hg
            split_ifs at hg with hb
            revert hg
            cases hg' : tableRow.go (seq.getD k 0 + 1 / (1 / (seq.getD (k+1) 0 - seq.getD k 0) - p)) (p :: ps) ps with
            | none => intro hg; cases hg
            | some rr' =>
              intro hg
              cases hg
              have hp : p = 1 / (seq.getD k 0 - seq.getD (k-1) 0) := by
                have := hr1.2.1
                rw [show k - 1 + 1 = k by omega] at this
                exact this
              have hd1 : seq.getD k 0 - seq.getD (k-1) 0 ≠ 0 := by
                have := hr1.2.2.1
                rw [show k - 1 + 1 = k by omega] at this
                exact this
              show seq.getD k 0 + 1 / (1 / (seq.getD (k+1) 0 - seq.getD k 0) - p) = _
              rw [hp] at hb ⊢
              generalize seq.getD k 0 = y at *
              generalize seq.getD (k+1) 0 = z at *
              generalize seq.getD (k-1) 0 = x at *
              have hdd : z - 2*y + x ≠ 0 := by
                intro hz
                apply hb
                have : z - y = y - x := by linear_combination hz
                rw [this, sub_self]
              have hdd' : (y - x) - (z - y) ≠ 0 := by
                intro hz; apply hdd; linear_combination -hz
              have e : 1 / (z - y) - 1 / (y - x) = ((y - x) - (z - y)) / ((z - y) * (y - x)) := by field_simp
              rw [e, one_div_div, eq_div_iff hdd, add_mul, div_mul_eq_mul_div, div_eq_of_eq_mul hdd'
                (c := -((z-y)*(y-x))) (by ring)]
              ring

/-- `shanks_table` is lower triangular with at most `len(seq) - 1` rows, and the second entry of row `i ≥ 1` is the Shanks
transform `(A_{i+1} A_{i-1} - A_i^2) / (A_{i+1} - 2 A_i + A_{i-1})` of the data. -/
theorem C22_table (seq : List K) (t : List (List K)) (h : shanksTable seq = .ok t) :
    2 ≤ seq.length ∧ t.length ≤ seq.length - 1 ∧ ∀ i (hi : i < t.length), t[i].length = i + 1 ∧
      (1 ≤ i → t[i].getD 1 0 = (seq.getD (i+1) 0 * seq.getD (i-1) 0 - seq.getD i 0 ^ 2)
        / (seq.getD (i+1) 0 - 2 * seq.getD i 0 + seq.getD (i-1) 0)) := by
  unfold shanksTable at h
  split_ifs at h with hl
  simp only [Except.ok.injEq] at h
  subst h
  have := tableLoop_inv seq (if (seq.length - 1) % 2 = 1 then seq.length - 1 - 1 else seq.length - 1) 0 [] rfl (by simp)
  refine ⟨by omega, ?_, this.2⟩
  have h1 := this.1
  split_ifs at h1 ⊢ <;> omega

/-- `shanks_table` of at least three terms of a geometric sequence stops with two rows and ends with the exact limit. -/
theorem C22_table_geometric (A a q : K) (ha : a ≠ 0) (hq : q ≠ 0) (hq1 : q ≠ 1) (n : ℕ) (hn : 3 ≤ n) :
    ∃ r0 r1, shanksTable ((List.range n).map (fun k => A + a * q^k)) = .ok [r0, r1] ∧ r1.getLast? = some A := by
  have h1 : q - 1 ≠ 0 := sub_ne_zero.2 hq1
  have g : ∀ k, k < n → ((List.range n).map (fun k => A + a * q^k)).getD k 0 = A + a*q^k := fun k hk => by
    rw [List.getD_eq_getElem?_getD, List.getElem?_eq_getElem (by simpa using hk)]; simp
  unfold shanksTable
  set seq := (List.range n).map (fun k => A + a * q^k) with hseq
  have hlen : seq.length = n := by simp [hseq]
  rw [if_neg (by omega), hlen]
  show ∃ r0 r1, Except.ok (tableLoop seq (if (n - 1) % 2 = 1 then n - 1 - 1 else n - 1) 0 []) = _ ∧ _
  set stop := (if (n - 1) % 2 = 1 then n - 1 - 1 else n - 1) with hstop
  have hs : stop = 2 ∨ (4 ≤ stop ∧ 5 ≤ n) := by rw [hstop]; split_ifs <;> omega
  have d0 : A + a * q^(0+1) - (A + a*q^0) = a * (q-1) := by ring
  have d1 : A + a * q^(1+1) - (A + a*q^1) = a * q * (q-1) := by ring
  have n0 : a * (q-1) ≠ 0 := mul_ne_zero ha h1
  have n1 : a * q * (q-1) ≠ 0 := mul_ne_zero (mul_ne_zero ha hq) h1
  have row0 : tableRow (seq.getD 0 0) (seq.getD (0+1) 0) [] = some [1 / (a*(q-1))] := by
    rw [g 0 (by omega), g (0+1) (by omega)]
    unfold tableRow
    try dsimp only
    rw [d0, if_neg n0, tableRow.go]
    simp
  have e1 : 1 / (a*q*(q-1)) - 1/(a*(q-1)) = -(1/(a*q)) := by field_simp; ring
  have row1 : tableRow (seq.getD 1 0) (seq.getD (1+1) 0) [1 / (a*(q-1))] = some [1 / (a*q*(q-1)), A] := by
    rw [g 1 (by omega), g (1+1) (by omega)]
    unfold tableRow
    try dsimp only
    rw [d1, if_neg n1, tableRow.go]
    try dsimp only
    rw [e1, if_neg (by simp [ha, hq]), tableRow.go]
    · try dsimp only
      have : A + a*q^1 + 1 / -(1/(a*q)) = A := by field_simp; ring
      rw [this]
    · simp
  have row2 : 4 ≤ stop → 5 ≤ n → tableRow (seq.getD 2 0) (seq.getD (2+1) 0) [1 / (a*q*(q-1)), A] = none := by
    intro _ h5
    rw [g 2 (by omega), g (2+1) (by omega)]
    unfold tableRow
    try dsimp only
    have d2 : A + a * q^(2+1) - (A + a*q^2) = a * q^2 * (q-1) := by ring
    have n2 : a * q^2 * (q-1) ≠ 0 := mul_ne_zero (mul_ne_zero ha (pow_ne_zero _ hq)) h1
    rw [d2, if_neg n2, tableRow.go]
    try dsimp only
    have e2 : 1 / (a*q^2*(q-1)) - 1/(a*q*(q-1)) = -(1/(a*q^2)) := by field_simp; ring
    have n3 : -(1/(a*q^2)) ≠ 0 := by simp [ha, hq]
    rw [e2, if_neg n3, tableRow.go]
    try dsimp only
    have : A + a*q^2 + 1 / -(1/(a*q^2)) = A := by field_simp; ring
    rw [this, sub_self, if_pos rfl]
  refine ⟨[1 / (a*(q-1))], [1 / (a*q*(q-1)), A], ?_, rfl⟩
  rcases hs with h2 | ⟨h4, h5⟩
  · rw [h2, tableLoop, if_pos rfl, row0]
    try dsimp only
    rw [tableLoop, if_neg (by omega)]
    simp only [List.nil_append, Nat.zero_add, Nat.sub_self, List.getD_cons_zero]
    rw [row1]
    try dsimp only
    rw [tableLoop]
    rfl
  · obtain ⟨f, hf⟩ : ∃ f, stop = f + 3 := ⟨stop - 3, by omega⟩
    rw [hf, tableLoop, if_pos rfl, row0]
    try dsimp only
    rw [tableLoop, if_neg (by omega)]
    simp only [List.nil_append, Nat.zero_add, Nat.sub_self, List.getD_cons_zero]
    rw [row1]
    try dsimp only
    rw [tableLoop, if_neg (by omega)]
    have : ([[1 / (a*(q-1))]] ++ [[1 / (a*q*(q-1)), A]]).getD (1+1-1) [] = [1 / (a*q*(q-1)), A] := rfl
    rw [this]
    have e := row2 h4 h5
    rw [show (1+1) = 2 from rfl, e]
    rfl

/-! Non-vacuity -/
example : shanks [(3:ℚ), 2, 3/2, 5/4, 9/8] (some 0) = 1 := by
  have := C22_geometric (1:ℚ) 2 (1/2) (by norm_num) 5 0 (by omega)
  rw [← this]; norm_num [List.range_succ]
example : ∃ t, shanksTable [(3:ℚ), 2, 3/2] = .ok t := ⟨_, rfl⟩

end Geotecha.Quad
