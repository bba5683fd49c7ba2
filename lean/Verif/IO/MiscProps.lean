import Verif.IO.Misc
import Verif.IO.StemProps
import Mathlib.Tactic.Linarith
import Mathlib.Tactic.Ring
import Mathlib.Tactic.FieldSimp
import Mathlib.Tactic.NormNum

/-! # C66, C67, C68 -/

set_option linter.unusedVariables false
namespace Geotecha.IO

theorem round_near (x : ℚ) : |(roundHalfEven x : ℚ) - x| ≤ 1 / 2 := by
  have h1 := Int.floor_le x
  have h2 := Int.lt_floor_add_one x
  unfold roundHalfEven
  rw [abs_le]
  split_ifs with a b c
  · constructor <;> linarith
  · push_cast; constructor <;> linarith
  · constructor <;> linarith
  · push_cast; constructor <;> linarith

theorem pyMod_bounds (x : ℚ) {y : ℚ} (hy : 0 < y) : 0 ≤ pyMod x y ∧ pyMod x y < y := by
  unfold pyMod
  have h1 := Int.floor_le (x / y)
  have h2 := Int.lt_floor_add_one (x / y)
  rw [le_div_iff₀ hy] at h1
  rw [div_lt_iff₀ hy] at h2
  constructor <;> nlinarith

/-- **C66** for a non-negative time the printed hours and minutes are right: hours are not negative, minutes are below 60, and the printed time is within
half a hundredth of a second of the time given. -/
theorem C66_value (sec : ℚ) (h : 0 ≤ sec) :
    0 ≤ (hms sec).1 ∧ 0 ≤ (hms sec).2.1 ∧ (hms sec).2.1 < 60 ∧ 0 ≤ (hms sec).2.2 ∧ (hms sec).2.2 ≤ 6000 ∧
    |3600 * ((hms sec).1 : ℚ) + 60 * ((hms sec).2.1 : ℚ) + ((hms sec).2.2 : ℚ) / 100 - sec| ≤ 1 / 200 := by
  obtain ⟨a1, a2⟩ := pyMod_bounds sec (y := 60 * 60) (by norm_num)
  obtain ⟨b1, b2⟩ := pyMod_bounds sec (y := 60) (by norm_num)
  have e1 : pyInt (sec / (60 * 60)) = ⌊sec / (60 * 60)⌋ := by unfold pyInt; rw [if_pos (by positivity)]
  have e2 : pyInt (pyMod sec (60 * 60) / 60) = ⌊pyMod sec (60 * 60) / 60⌋ := by unfold pyInt; rw [if_pos (by positivity)]
  have hr := round_near (100 * pyMod sec 60)
  rw [abs_le] at hr
  have key : sec = 3600 * (⌊sec / (60 * 60)⌋ : ℚ) + 60 * (⌊pyMod sec (60 * 60) / 60⌋ : ℚ) + pyMod sec 60 := by
    have f1 : (⌊sec / 60⌋ : ℤ) = 60 * ⌊sec / (60 * 60)⌋ + ⌊pyMod sec (60 * 60) / 60⌋ := by
      have : pyMod sec (60 * 60) / 60 = sec / 60 - ((60 * ⌊sec / (60 * 60)⌋ : ℤ) : ℚ) := by unfold pyMod; push_cast; ring
      rw [this, Int.floor_sub_intCast]; ring
    have f2 : pyMod sec 60 = sec - 60 * (⌊sec / 60⌋ : ℚ) := rfl
    rw [f2, f1]; push_cast; ring
  unfold hms
  dsimp only
  rw [e1, e2]
  refine ⟨Int.floor_nonneg.2 (by positivity), Int.floor_nonneg.2 (by positivity), ?_, ?_, ?_, ?_⟩
  · rw [Int.floor_lt]; push_cast; rw [div_lt_iff₀ (by norm_num)]; linarith
  · have : (-1 : ℚ) < (roundHalfEven (100 * pyMod sec 60) : ℚ) := by linarith [hr.1]
    have := Int.cast_lt (R := ℚ).1 (by push_cast; exact this : ((-1 : ℤ) : ℚ) < _)
    omega
  · have : (roundHalfEven (100 * pyMod sec 60) : ℚ) < 6001 := by linarith [hr.2]
    have := Int.cast_lt (R := ℚ).1 (by push_cast; exact this : _ < ((6001 : ℤ) : ℚ))
    omega
  · rw [abs_le]
    constructor <;> linarith [hr.1, hr.2]

/-- **C66** the seconds field can read `60.00` (the minute is not carried). -/
theorem C66_sixty : hms (59999 / 1000) = (0, 0, 6000) := by decide +kernel

/-- **C66** a negative time is not printed as such: minus one second reads `0:59:59.00`. -/
theorem C66_negative : hms (-1) = (0, 59, 5900) := by decide +kernel

example : hms 3725 = (1, 2, 500) := by decide +kernel

/-! ## C67 -/

theorem saveGrid_heap (path ext : String) (ds : List ℕ) (s : GridState) :
    (∀ d ∈ ds, (saveGrid path ext ds s).heap d = ⟨none, none, none⟩) ∧ (∀ d, d ∉ ds → (saveGrid path ext ds s).heap d = s.heap d) := by
  induction ds generalizing s with
  | nil => simp [saveGrid]
  | cons d ds ih =>
    obtain ⟨i1, i2⟩ := ih (saveOne path ext s d)
    have hs : (saveOne path ext s d).heap = fun e => if e = d then ⟨none, none, none⟩ else s.heap e := by
      unfold saveOne; dsimp only; split <;> rfl
    have e : saveGrid path ext (d :: ds) s = saveGrid path ext ds (saveOne path ext s d) := rfl
    rw [e]
    constructor
    · intro x hx
      by_cases hm : x ∈ ds
      · exact i1 x hm
      · rcases List.mem_cons.1 hx with rfl | hx
        · rw [i2 _ hm, hs]; simp
        · exact absurd hx hm
    · intro x hx
      rw [List.mem_cons, not_or] at hx
      rw [i2 x hx.2, hs]; simp [hx.1]

/-- What is written for a dictionary. -/
def fileOf (path ext : String) (c : DataDict) : String := path ++ c.name.getD "" ++ ext
def textOf (c : DataDict) (t : String) : String := (match c.header with | some h => h ++ "\n" | none => "") ++ t

/-- **C67** each file exists afterwards with the contents of the last dictionary (of those with data) that names it, and other files are untouched —
for distinct dictionaries. -/
theorem C67_written (path ext : String) (ds : List ℕ) (hnd : ds.Nodup) (s : GridState) :
    (∀ f, (∀ d ∈ ds, ∀ t, (s.heap d).data = some t → fileOf path ext (s.heap d) ≠ f) → (saveGrid path ext ds s).files f = s.files f) ∧
    (∀ as d bs t, ds = as ++ d :: bs → (s.heap d).data = some t →
      (∀ e ∈ bs, ∀ t', (s.heap e).data = some t' → fileOf path ext (s.heap e) ≠ fileOf path ext (s.heap d)) →
      (saveGrid path ext ds s).files (fileOf path ext (s.heap d)) = some (textOf (s.heap d) t)) := by
  induction ds generalizing s with
  | nil => simp [saveGrid]
  | cons d ds ih =>
    rw [List.nodup_cons] at hnd
    obtain ⟨i1, i2⟩ := ih hnd.2 (saveOne path ext s d)
    have hs : ∀ e, e ≠ d → (saveOne path ext s d).heap e = s.heap e := by
      intro e he; unfold saveOne; dsimp only; split <;> simp [he]
    have hne : ∀ e ∈ ds, e ≠ d := by rintro e he rfl; exact hnd.1 he
    have e : saveGrid path ext (d :: ds) s = saveGrid path ext ds (saveOne path ext s d) := rfl
    have hf : ∀ f, (∀ t, (s.heap d).data = some t → fileOf path ext (s.heap d) ≠ f) → (saveOne path ext s d).files f = s.files f := by
      intro f h
      unfold saveOne
      dsimp only
      split
      · rfl
      · rename_i t ht
        have := h t ht
        unfold fileOf at this
        dsimp only
        rw [if_neg (fun e => this e.symm)]
    rw [e]
    constructor
    · intro f h
      rw [i1 f ?_, hf f (fun t ht => h d (by simp) t ht)]
      intro x hx t ht
      rw [hs x (hne x hx)] at ht ⊢
      exact h x (by simp [hx]) t ht
    · intro as x bs t hl hdat hlast
      cases as with
      | nil =>
        simp only [List.nil_append, List.cons.injEq] at hl
        obtain ⟨rfl, rfl⟩ := hl
        rw [i1]
        · unfold saveOne
          dsimp only
          rw [hdat]
          dsimp only
          unfold fileOf textOf
          rw [if_pos rfl]
          cases (s.heap d).header <;> rfl
        · intro y hy t' ht'
          rw [hs y (hne y hy)] at ht' ⊢
          exact hlast y hy t' ht'
      | cons a as =>
        simp only [List.cons_append, List.cons.injEq] at hl
        obtain ⟨rfl, rfl⟩ := hl
        have hx : x ≠ d := hne x (by simp)
        have := i2 as x bs t rfl (by rw [hs x hx]; exact hdat) (by
          intro y hy t' ht'
          rw [hs y (hne y (by simp [hy]))] at ht' ⊢
          rw [hs x hx]
          exact hlast y hy t' ht')
        rw [hs x hx] at this
        exact this

/-- **C67** the caller's dictionaries are emptied by the call, so saving the same dictionaries a second time (anywhere) writes no file at all. -/
theorem C67_mutates (path ext path' ext' : String) (ds : List ℕ) (s : GridState) :
    (∀ d ∈ ds, (saveGrid path ext ds s).heap d = ⟨none, none, none⟩) ∧
    (saveGrid path' ext' ds (saveGrid path ext ds s)).files = (saveGrid path ext ds s).files := by
  refine ⟨(saveGrid_heap path ext ds s).1, ?_⟩
  have h := (saveGrid_heap path ext ds s).1
  generalize saveGrid path ext ds s = s1 at h
  have : ∀ (es : List ℕ) (s1 : GridState), (∀ d ∈ es, (s1.heap d).data = none) → (saveGrid path' ext' es s1).files = s1.files := by
    intro es
    induction es with
    | nil => intro s1 _; rfl
    | cons d es ih =>
      intro s1 h
      have e : saveGrid path' ext' (d :: es) s1 = saveGrid path' ext' es (saveOne path' ext' s1 d) := rfl
      rw [e, ih]
      · unfold saveOne; dsimp only; rw [h d (by simp)]
      · intro x hx
        unfold saveOne; dsimp only; rw [h d (by simp)]
        dsimp only
        split_ifs
        · rfl
        · exact h x (by simp [hx])
  exact this ds s1 (fun d hd => by rw [h d hd])

example : ∃ s : GridState, (saveGrid "out" ".csv" [0, 1] s).files "out_a.csv" = some "1,2" ∧ (saveGrid "out" ".csv" [0, 1] s).files "out_b.csv" = some "h\n3" :=
  ⟨⟨fun d => if d = 0 then ⟨some "1,2", some "_a", none⟩ else ⟨some "3", some "_b", some "h"⟩, fun _ => none⟩, by decide +kernel, by decide +kernel⟩

/-! ## C68 -/

/-- An independent reader for the lines written: `name = literal` (a name has no space), `None`, a decimal integer, or a string in single quotes
without quote, backslash or newline. Blank lines are skipped. -/
def readInt : List Char → Option ℤ
  | '-' :: ds => if ds ≠ [] ∧ ds.all isDig then some (-(intOf ds : ℤ)) else none
  | ds => if ds ≠ [] ∧ ds.all isDig then some (intOf ds : ℤ) else none

def plainStr (s : List Char) : Bool := s.all fun c => c != '\'' && c != '\\' && c != '\n'

def readLit (s : List Char) : Option AVal :=
  if s = ['N', 'o', 'n', 'e'] then some .none
  else match s with
    | '\'' :: t => if t.getLast? = some '\'' ∧ plainStr t.dropLast then some (.str t.dropLast) else none
    | _ => (readInt s).map .int

def readLine (l : List Char) : Option (List Char × AVal) :=
  match l.span (· != ' ') with
  | (nm, ' ' :: '=' :: ' ' :: lit) => (readLit lit).map fun v => (nm, v)
  | _ => none

/-- Lines of a text. -/
def splitNl : List Char → List (List Char)
  | [] => [[]]
  | c :: s => if c = '\n' then [] :: splitNl s else match splitNl s with
    | [] => [[c]]
    | l :: ls => (c :: l) :: ls

/-- Read lines, skipping blank ones: `none` if some line is not understood. -/
def readLines : List (List Char) → Option (List (List Char × AVal))
  | [] => some []
  | l :: ls => if l = [] then readLines ls else match readLine l, readLines ls with
    | some x, some xs => some (x :: xs)
    | _, _ => none

def readText (t : List Char) : Option (List (List Char × AVal)) := readLines (splitNl t)

theorem splitNl_ne (s : List Char) : splitNl s ≠ [] := by
  cases s with
  | nil => simp [splitNl]
  | cons c s => rw [splitNl]; split_ifs; · simp
                split <;> simp

theorem splitNl_append (a b : List Char) : splitNl (a ++ '\n' :: b) = splitNl a ++ splitNl b := by
  induction a with
  | nil => simp [splitNl]
  | cons c a ih =>
    rw [List.cons_append, splitNl, splitNl]
    split_ifs with hc
    · rw [ih]; rfl
    · rw [ih]
      cases h : splitNl a with
      | nil => exact absurd h (splitNl_ne a)
      | cons l ls => rfl

theorem splitNl_line {l : List Char} (h : '\n' ∉ l) : splitNl l = [l] := by
  induction l with
  | nil => rfl
  | cons c l ih =>
    rw [List.mem_cons, not_or] at h
    rw [splitNl, if_neg (fun e => h.1 e.symm), ih h.2]

theorem readLines_append (a b : List (List Char)) : readLines (a ++ b) = match readLines a, readLines b with
    | some x, some y => some (x ++ y)
    | _, _ => none := by
  induction a with
  | nil => simp only [List.nil_append, readLines]; cases readLines b <;> rfl
  | cons l a ih =>
    rw [List.cons_append, readLines, readLines]
    split_ifs with hl
    · exact ih
    · rw [ih]
      cases readLine l <;> cases readLines a <;> cases readLines b <;> rfl

/-- Names that can be attribute names as far as the text is concerned. -/
def NameOk (v : List Char) : Prop := v ≠ [] ∧ ' ' ∉ v ∧ '\n' ∉ v

/-- Values that survive: `None`, integers, and strings without quote, backslash or newline. -/
def ValOk : AVal → Prop
  | .str s => plainStr s = true
  | _ => True

theorem dig_facts {c : Char} (h : isDig c = true) : c ≠ '-' ∧ c ≠ '\'' ∧ c ≠ 'N' ∧ c ≠ '\n' := by
  refine ⟨?_, ?_, ?_, ?_⟩ <;> · rintro rfl; revert h; decide

theorem readInt_text (i : ℤ) : readInt (zfillInt 0 i) = some i ∧ (zfillInt 0 i).head? ≠ some 'N' ∧ (zfillInt 0 i).head? ≠ some '\'' ∧ '\n' ∉ zfillInt 0 i := by
  obtain ⟨s1, s2, s3⟩ := strNat_spec i.natAbs
  have hall : (strNat i.natAbs).all isDig = true := by rw [List.all_eq_true]; exact s2
  unfold zfillInt
  split_ifs with h
  · simp only [Nat.zero_sub, List.replicate_zero, List.nil_append]
    refine ⟨?_, by simp, by simp, ?_⟩
    · rw [readInt, if_pos ⟨s3, hall⟩, s1]; congr 1; omega
    · rw [List.mem_cons, not_or]
      exact ⟨by decide, fun hm => (dig_facts (s2 _ hm)).2.2.2 rfl⟩
  · simp only [Nat.zero_sub, List.replicate_zero, List.nil_append]
    obtain ⟨c, cs, hc⟩ := List.exists_cons_of_ne_nil s3
    have hd := dig_facts (s2 c (by rw [hc]; simp))
    refine ⟨?_, ?_, ?_, fun hm => (dig_facts (s2 _ hm)).2.2.2 rfl⟩
    · rw [hc] at s1 s3 hall ⊢
      rw [readInt]
      · rw [if_pos ⟨s3, hall⟩, s1]; congr 1; omega
      · intro ds e; injection e with e; exact hd.1 e
    · rw [hc]; simp [hd.2.2.1]
    · rw [hc]; simp [hd.2.1]

theorem readLit_text {v : AVal} (h : ValOk v) : readLit v.text = some v ∧ '\n' ∉ v.text := by
  cases v with
  | none => exact ⟨by decide, by decide⟩
  | int i =>
    obtain ⟨h1, h2, h3, h4⟩ := readInt_text i
    refine ⟨?_, h4⟩
    show readLit (zfillInt 0 i) = _
    unfold readLit
    rw [if_neg (fun e => h2 (by rw [e]; rfl))]
    split
    · rename_i t e; exact absurd (by rw [e]; rfl) h3
    · rw [h1]; rfl
  | str s =>
    have h' : plainStr s = true := h
    constructor
    · unfold readLit AVal.text
      rw [if_neg (by simp)]
      simp [h']
    · unfold AVal.text
      unfold plainStr at h'
      rw [List.all_eq_true] at h'
      intro hm
      simp only [List.mem_cons, List.mem_append, List.not_mem_nil, or_false] at hm
      rcases hm with hm | hm | hm
      · exact absurd hm (by decide)
      · have := h' _ hm; simp at this
      · exact absurd hm (by decide)

theorem span_name (nm rest : List Char) (h : ' ' ∉ nm) : (nm ++ ' ' :: rest).span (· != ' ') = (nm, ' ' :: rest) := by
  rw [List.span_eq_takeWhile_dropWhile]
  have hp : ∀ c ∈ nm, (c != ' ') = true := by
    intro c hc; simp; rintro rfl; exact h hc
  rw [List.takeWhile_append_of_pos hp, List.dropWhile_append_of_pos hp]
  simp

theorem readLine_attr {o : List Char → AVal} {v : List Char} (hn : NameOk v) (hv : ValOk (o v)) :
    attrLine o v ≠ [] ∧ '\n' ∉ attrLine o v ∧ readLine (attrLine o v) = some (v, o v) := by
  obtain ⟨h1, h2⟩ := readLit_text hv
  unfold attrLine
  refine ⟨by simp [hn.1], ?_, ?_⟩
  · simp only [List.mem_append, not_or]
    exact ⟨⟨hn.2.2, by decide⟩, h2⟩
  · unfold readLine
    have : v ++ [' ', '=', ' '] ++ (o v).text = v ++ ' ' :: ('=' :: ' ' :: (o v).text) := by simp
    rw [this, span_name v _ hn.2.1]
    show Option.map (fun w => (v, w)) (readLit (o v).text) = _
    rw [h1]; rfl

/-- **C68** the text written for an object (as saved in `_input_parsed`) reads back, line by line, as exactly its attributes: those that are not
`None` first, then the others, each with its value. -/
theorem C68_round_trip (o : List Char → AVal) (as : List (List Char)) (hn : ∀ v ∈ as, NameOk v) (hv : ∀ v ∈ as, ValOk (o v)) :
    readText (attrText o as) = some (((as.filter fun v => decide (o v ≠ .none)) ++ as.filter fun v => decide (o v = .none)).map fun v => (v, o v)) := by
  have main : ∀ bs : List (List Char), (∀ v ∈ bs, v ∈ as) →
      readLines (splitNl (['\n'].intercalate (bs.map (attrLine o)))) = some (bs.map fun v => (v, o v)) := by
    intro bs hb
    induction bs with
    | nil => rfl
    | cons v bs ih =>
      have ih := ih (fun w hw => hb w (by simp [hw]))
      obtain ⟨h1, h2, h3⟩ := readLine_attr (hn v (hb v (by simp))) (hv v (hb v (by simp)))
      cases bs with
      | nil =>
        have : ['\n'].intercalate ([v].map (attrLine o)) = attrLine o v := by simp [List.intercalate]
        rw [this, splitNl_line h2, readLines, if_neg h1, h3, readLines]; rfl
      | cons m ms =>
        have : ['\n'].intercalate ((v :: m :: ms).map (attrLine o)) = attrLine o v ++ '\n' :: ['\n'].intercalate ((m :: ms).map (attrLine o)) := by
          simp [List.intercalate]
        rw [this, splitNl_append, splitNl_line h2, List.singleton_append, readLines, if_neg h1, h3, ih]
        rfl
  set g := as.filter fun v => decide (o v ≠ .none) with hg
  set n := as.filter fun v => decide (o v = .none) with hnn
  have m1 := main g (fun v hv => (List.mem_filter.1 hv).1)
  have m2 := main n (fun v hv => (List.mem_filter.1 hv).1)
  have e : attrText o as = ['\n'].intercalate (g.map (attrLine o)) ++ '\n' :: ([] ++ '\n' :: ([] ++ '\n' :: (['\n'].intercalate (n.map (attrLine o)) ++ '\n' :: []))) := by
    unfold attrText; rw [← hg, ← hnn]; simp
  unfold readText
  rw [e, splitNl_append, splitNl_append, splitNl_append, splitNl_append, readLines_append, m1, readLines_append, readLines_append, readLines_append, m2]
  simp [splitNl, readLines]

/-- **C68** nothing is escaped: a string value containing a quote is written as a line that does not read back. -/
theorem C68_quote : readText (attrText (fun _ => .str "it's".toList) ["title".toList]) = none := by decide +kernel

/-- **C68** a string can also inject a line: the text of one attribute reads back as two. -/
theorem C68_injection :
    readText (attrText (fun _ => .str "x'\ny = '1".toList) ["a".toList]) = some [("a".toList, .str "x".toList), ("y".toList, .str "1".toList)] := by
  decide +kernel

example : readText (attrText (fun v => if v = "H".toList then .int 12 else if v = "prefix".toList then .str "out".toList else .none)
    ["kv".toList, "H".toList, "prefix".toList]) = some [("H".toList, .int 12), ("prefix".toList, .str "out".toList), ("kv".toList, .none)] := by decide +kernel

end Geotecha.IO
