import Verif.IO.GenCode

/-! # C255: generated initialisation code initialises as `initialize_objects_attributes` does -/

set_option autoImplicit false
set_option linter.unusedVariables false

namespace Geotecha.IO.GenCode

/-! ## Specification -/

/-- What `initialize_objects_attributes` makes of the attributes of an object. -/
def initialised (defaults : Attrs) (nf : PV) (vs : List (List Char)) (o : Attrs) : Attrs :=
  fun w => if w ∈ vs then some ((defaults w).getD nf) else o w

/-- A name. -/
def Name (v : List Char) : Prop := v ≠ [] ∧ ∀ c ∈ v, isId c = true

/-- Values whose text reads back: strings without quotes, backslashes and line breaks; numbers as their text. -/
def Plain : PV → Prop
  | .none => True
  | .bool _ => True
  | .num t => t ≠ [] ∧ ∀ c ∈ t, isNumChar c = true
  | .str s => ∀ c ∈ s, c ≠ '\'' ∧ c ≠ '\\' ∧ c ≠ '\n'

/-! ## Reading -/

theorem strip_append (p l : List Char) : strip p (p ++ l) = some l := by
  induction p with
  | nil => cases l <;> rfl
  | cons a p ih => simp [strip, ih]

theorem lines_append {l : List Char} (h : ∀ c ∈ l, c ≠ '\n') (r acc : List Char) : lines (l ++ '\n' :: r) acc = (acc.reverse ++ l) :: lines r [] := by
  induction l generalizing acc with
  | nil => simp [lines]
  | cons c l ih =>
    rw [List.cons_append, lines, if_neg (h c List.mem_cons_self), ih (fun d hd => h d (List.mem_cons_of_mem _ hd))]
    simp

theorem takeWhile_id {v : List Char} (h : ∀ c ∈ v, isId c = true) {d : Char} (hd : isId d = false) (r : List Char) :
    (v ++ d :: r).takeWhile isId = v ∧ (v ++ d :: r).dropWhile isId = d :: r := by
  induction v with
  | nil => simp [hd]
  | cons c v ih =>
    obtain ⟨a, b⟩ := ih fun e he => h e (List.mem_cons_of_mem _ he)
    have hc := h c List.mem_cons_self
    rw [List.cons_append, List.takeWhile_cons, List.dropWhile_cons, hc]
    exact ⟨by simp [a], by simpa using b⟩

theorem readStr_plain {s : List Char} (h : ∀ c ∈ s, c ≠ '\'' ∧ c ≠ '\\' ∧ c ≠ '\n') (r acc : List Char) (hr : r ≠ []) :
    readStr (s ++ r) acc = readStr r (s.reverse ++ acc) := by
  induction s generalizing acc with
  | nil => rfl
  | cons c s ih =>
    obtain ⟨h1, h2, h3⟩ := h c List.mem_cons_self
    have hne : s ++ r ≠ [] := by simp [hr]
    rw [List.cons_append, readStr.eq_def]
    split
    · rename_i e; exact absurd e (by simp)
    · rename_i e; exact absurd (List.cons.inj e).1 h1
    · rename_i e; exact absurd (List.cons.inj e).1 h1
    · rename_i e; exact absurd (List.cons.inj e).1 h2
    · rename_i e; exact absurd (List.cons.inj e).1 h2
    · rename_i e; exact absurd (List.cons.inj e).1 h2
    · rename_i e
      obtain ⟨rfl, rfl⟩ := List.cons.inj e
      rw [if_neg h2, ih fun d hd => h d (List.mem_cons_of_mem _ hd)]
      simp

theorem num_not (t : List Char) (h : ∀ c ∈ t, isNumChar c = true) : t ≠ ['N', 'o', 'n', 'e'] ∧ t ≠ ['T', 'r', 'u', 'e'] ∧ t ≠ ['F', 'a', 'l', 's', 'e'] := by
  refine ⟨?_, ?_, ?_⟩ <;> rintro rfl
  · exact absurd (h 'N' (by decide)) (by decide)
  · exact absurd (h 'T' (by decide)) (by decide)
  · exact absurd (h 'F' (by decide)) (by decide)

theorem readVal_quote (r : List Char) : readVal ('\'' :: r) = (readStr r []).map .str := by
  unfold readVal
  rw [if_neg (by intro h; cases h), if_neg (by intro h; cases h), if_neg (by intro h; cases h), if_neg (by
    rintro ⟨-, h⟩
    rw [List.all_cons] at h
    rw [show isNumChar '\'' = false by decide] at h
    cases h)]
  rfl

theorem readVal_show {x : PV} (h : Plain x) : readVal (show' x) = some x := by
  cases x with
  | none => rfl
  | bool b => cases b <;> rfl
  | num t =>
    obtain ⟨h1, h2⟩ := h
    obtain ⟨a, b, c⟩ := num_not t h2
    show readVal t = _
    unfold readVal
    rw [if_neg a, if_neg b, if_neg c, if_pos ⟨h1, List.all_eq_true.2 h2⟩]
  | str s =>
    show readVal ('\'' :: (s ++ ['\''])) = _
    rw [readVal_quote, readStr_plain h _ _ (by simp)]
    show (some (s.reverse ++ []).reverse).map PV.str = _
    simp

theorem show_ne {x : PV} (h : Plain x) : show' x ≠ [] := by
  cases x with
  | none => simp [show']
  | bool b => cases b <;> simp [show']
  | num t => exact h.1
  | str s => simp [show']

theorem show_nl {x : PV} (h : Plain x) : ∀ c ∈ show' x, c ≠ '\n' := by
  cases x with
  | none => decide
  | bool b => cases b <;> decide
  | num t =>
    intro c hc e
    subst e
    exact absurd (h.2 _ hc) (by decide)
  | str s =>
    intro c hc
    simp only [show', List.mem_cons, List.mem_append, List.not_mem_nil, or_false] at hc
    rcases hc with rfl | hc | rfl
    · decide
    · exact (h c hc).2.2
    · decide

theorem id_nl {v : List Char} (h : ∀ c ∈ v, isId c = true) : ∀ c ∈ v, c ≠ '\n' := by
  intro c hc e
  subst e
  exact absurd (h _ hc) (by decide)

theorem readLine_start {obj v : List Char} (hv : ∀ c ∈ v, isId c = true) (r : List Char) :
    readLine obj (obj ++ ('.' :: (v ++ ([' ', '=', ' '] ++ r)))) = match readVal r with
      | some x => some (.lit v x)
      | none => (readGet obj r).map fun g => .get v g.1 g.2.1 g.2.2 := by
  obtain ⟨a, b⟩ := takeWhile_id hv (d := ' ') (by decide) (['=', ' '] ++ r)
  unfold readLine
  rw [show obj ++ ('.' :: (v ++ ([' ', '=', ' '] ++ r))) = (obj ++ ['.']) ++ (v ++ ' ' :: (['=', ' '] ++ r)) by simp, strip_append]
  show (strip [' ', '=', ' '] ((v ++ ' ' :: (['=', ' '] ++ r)).dropWhile isId)).bind _ = _
  rw [b, show (' ' :: (['=', ' '] ++ r)) = [' ', '=', ' '] ++ r from rfl, strip_append]
  show (match readVal r with | some x => _ | none => _ : Option Stmt) = _
  cases readVal r with
  | some x =>
    show some (Stmt.lit ((v ++ ' ' :: (['=', ' '] ++ r)).takeWhile isId) x) = _
    rw [a]
  | none =>
    show (readGet obj r).bind (fun g => some (Stmt.get ((v ++ ' ' :: (['=', ' '] ++ r)).takeWhile isId) g.1 g.2.1 g.2.2)) = _
    rw [a]
    cases readGet obj r <;> rfl

theorem readLine_lit {obj v : List Char} (hv : ∀ c ∈ v, isId c = true) {x : PV} (hx : Plain x) : readLine obj (lineVal obj v x) = some (.lit v x) := by
  unfold lineVal
  rw [readLine_start hv, readVal_show hx]

theorem readLine_get {obj dn v : List Char} (ho : Name obj) (hd : ∀ c ∈ dn, isId c = true) (hv : ∀ c ∈ v, isId c = true) {x : PV} (hx : Plain x) :
    readLine obj (lineGet obj dn v x) = some (.get v dn v x) := by
  unfold lineGet
  rw [readLine_start hv]
  have hval : readVal (obj ++ ('.' :: (dn ++ (['.', 'g', 'e', 't', '(', '\''] ++ (v ++ (['\'', ',', ' '] ++ (show' x ++ [')']))))))) = none := by
    obtain ⟨hne, hid⟩ := ho
    cases obj with
    | nil => exact absurd rfl hne
    | cons c obj =>
      have hc := hid c List.mem_cons_self
      have hdot : '.' ∈ c :: obj ++ ('.' :: (dn ++ (['.', 'g', 'e', 't', '(', '\''] ++ (v ++ (['\'', ',', ' '] ++ (show' x ++ [')'])))))) := by simp
      have hpar : '(' ∈ c :: obj ++ ('.' :: (dn ++ (['.', 'g', 'e', 't', '(', '\''] ++ (v ++ (['\'', ',', ' '] ++ (show' x ++ [')'])))))) := by simp
      unfold readVal
      rw [if_neg (by intro e; rw [e] at hdot; exact absurd hdot (by decide)), if_neg (by intro e; rw [e] at hdot; exact absurd hdot (by decide)),
        if_neg (by intro e; rw [e] at hdot; exact absurd hdot (by decide)), if_neg (by
          rintro ⟨-, h⟩
          exact absurd (List.all_eq_true.1 h _ hpar) (by decide))]
      have : strip ['\''] (c :: obj ++ ('.' :: (dn ++ (['.', 'g', 'e', 't', '(', '\''] ++ (v ++ (['\'', ',', ' '] ++ (show' x ++ [')']))))))) = none := by
        rw [List.cons_append]
        show (if '\'' = c then _ else none) = none
        rw [if_neg]
        rintro rfl
        exact absurd hc (by decide)
      rw [this]
  rw [hval]
  have hget : readGet obj (obj ++ ('.' :: (dn ++ (['.', 'g', 'e', 't', '(', '\''] ++ (v ++ (['\'', ',', ' '] ++ (show' x ++ [')']))))))) = some (dn, v, x) := by
    obtain ⟨a, b⟩ := takeWhile_id hd (d := '.') (by decide) (['g', 'e', 't', '(', '\''] ++ (v ++ (['\'', ',', ' '] ++ (show' x ++ [')']))))
    obtain ⟨a', b'⟩ := takeWhile_id hv (d := '\'') (by decide) ([',', ' '] ++ (show' x ++ [')']))
    unfold readGet
    rw [show obj ++ ('.' :: (dn ++ (['.', 'g', 'e', 't', '(', '\''] ++ (v ++ (['\'', ',', ' '] ++ (show' x ++ [')'])))))) =
      (obj ++ ['.']) ++ (dn ++ '.' :: (['g', 'e', 't', '(', '\''] ++ (v ++ (['\'', ',', ' '] ++ (show' x ++ [')']))))) by simp, strip_append]
    simp only [Option.bind_eq_bind, Option.bind_some]
    rw [a, b, show ('.' :: (['g', 'e', 't', '(', '\''] ++ (v ++ (['\'', ',', ' '] ++ (show' x ++ [')']))))) =
      ['.', 'g', 'e', 't', '(', '\''] ++ (v ++ '\'' :: ([',', ' '] ++ (show' x ++ [')']))) by simp, strip_append]
    simp only [Option.bind_some]
    rw [a', b', show ('\'' :: ([',', ' '] ++ (show' x ++ [')']))) = ['\'', ',', ' '] ++ (show' x ++ [')']) from rfl, strip_append]
    simp only [Option.bind_some]
    rw [if_pos (by simp), List.dropLast_concat, readVal_show hx]
    rfl
  rw [hget]
  rfl

/-! ## Programs -/

theorem parse_nil (obj : List Char) : parse obj [] = some [] := rfl

theorem parse_cons {obj l : List Char} (hl : ∀ c ∈ l, c ≠ '\n') (hne : l ≠ []) (code : List Char) :
    parse obj (l ++ '\n' :: code) = (readLine obj l).bind fun s => (parse obj code).map fun ss => s :: ss := by
  unfold parse
  rw [lines_append hl]
  simp only [List.reverse_nil, List.nil_append]
  rw [List.filter_cons_of_pos (by cases l with | nil => exact absurd rfl hne | cons => rfl), List.mapM_cons]
  cases readLine obj l with
  | none => rfl
  | some s => cases ((lines code []).filter fun l => !l.isEmpty).mapM (readLine obj) <;> rfl

theorem run_cons {obj l : List Char} (hl : ∀ c ∈ l, c ≠ '\n') (hne : l ≠ []) (code : List Char) {s : Stmt} (hs : readLine obj l = some s)
    (dicts : List Char → Option Attrs) (o : Attrs) : run obj (l ++ '\n' :: code) dicts o = (parse obj code).bind fun ss => exec dicts (s :: ss) o := by
  unfold run
  rw [parse_cons hl hne, hs]
  cases parse obj code <;> rfl

theorem lineVal_nl {obj v : List Char} (ho : Name obj) (hv : Name v) {x : PV} (hx : ∀ c ∈ show' x, c ≠ '\n') : ∀ c ∈ lineVal obj v x, c ≠ '\n' := by
  intro c hc
  simp only [lineVal, List.mem_append, List.mem_cons, List.not_mem_nil, or_false] at hc
  rcases hc with hc | rfl | hc | (rfl | rfl | rfl) | hc
  · exact id_nl ho.2 c hc
  · decide
  · exact id_nl hv.2 c hc
  · decide
  · decide
  · decide
  · exact hx c hc

theorem lineGet_nl {obj dn v : List Char} (ho : Name obj) (hd : Name dn) (hv : Name v) {x : PV} (hx : Plain x) : ∀ c ∈ lineGet obj dn v x, c ≠ '\n' := by
  intro c hc
  simp only [lineGet, List.mem_append, List.mem_cons, List.not_mem_nil, or_false] at hc
  rcases hc with hc | rfl | hc | (rfl | rfl | rfl) | hc | rfl | hc | (rfl | rfl | rfl | rfl | rfl | rfl) | hc | (rfl | rfl | rfl) | hc | rfl
  all_goals first
    | exact id_nl ho.2 c hc
    | exact id_nl hv.2 c hc
    | exact id_nl hd.2 c hc
    | exact show_nl hx c hc
    | decide

theorem initialised_cons (defaults : Attrs) (nf : PV) (v : List Char) (vs : List (List Char)) (o : Attrs) :
    initialised defaults nf vs (fun w => if w = v then some ((defaults v).getD nf) else o w) = initialised defaults nf (v :: vs) o := by
  funext w
  unfold initialised
  by_cases h : w ∈ vs
  · rw [if_pos h, if_pos (List.mem_cons_of_mem _ h)]
  · rw [if_neg h]
    by_cases e : w = v
    · subst e
      beta_reduce
      rw [if_pos rfl, if_pos List.mem_cons_self]
    · beta_reduce
      rw [if_neg e, if_neg (by simp [e, h])]

/-- **C255** With the values written out (`defaults_name=None`): pasted into a class and run, the code sets exactly the attributes that
`initialize_objects_attributes` sets, to the same values. -/
theorem C255_values {obj : List Char} (ho : Name obj) (defaults : Attrs) (nf : PV) (vs : List (List Char)) (hv : ∀ v ∈ vs, Name v)
    (hp : ∀ v ∈ vs, Plain ((defaults v).getD nf)) (dicts : List Char → Option Attrs) (o : Attrs) :
    run obj (gen defaults none obj nf vs) dicts o = some (initialised defaults nf vs o) := by
  induction vs generalizing o with
  | nil => rfl
  | cons v vs ih =>
    have h1 := hv v List.mem_cons_self
    have h2 := hp v List.mem_cons_self
    show run obj (lineVal obj v ((defaults v).getD nf) ++ '\n' :: gen defaults none obj nf vs) dicts o = _
    rw [run_cons (lineVal_nl ho h1 (show_nl h2)) (by simp [lineVal]) _ (readLine_lit h1.2 h2)]
    have := ih (fun w hw => hv w (List.mem_cons_of_mem _ hw)) (fun w hw => hp w (List.mem_cons_of_mem _ hw))
      (fun w => if w = v then some ((defaults v).getD nf) else o w)
    rw [initialised_cons] at this
    exact this

/-- **C255** With the dict of defaults (`defaults_name` given, say `_attribute_defaults`): the same, whatever the values in the dict are. -/
theorem C255_dict {obj dn : List Char} (ho : Name obj) (hd : Name dn) (defaults : Attrs) {nf : PV} (hn : Plain nf) (vs : List (List Char)) (hv : ∀ v ∈ vs, Name v)
    (dicts : List Char → Option Attrs) (hdict : dicts dn = some defaults) (o : Attrs) :
    run obj (gen defaults (some dn) obj nf vs) dicts o = some (initialised defaults nf vs o) := by
  induction vs generalizing o with
  | nil => rfl
  | cons v vs ih =>
    have h1 := hv v List.mem_cons_self
    have := ih (fun w hw => hv w (List.mem_cons_of_mem _ hw)) (fun w => if w = v then some ((defaults v).getD nf) else o w)
    rw [initialised_cons] at this
    cases hs : (defaults v).isSome with
    | true =>
      have e : gen defaults (some dn) obj nf (v :: vs) = lineGet obj dn v nf ++ '\n' :: gen defaults (some dn) obj nf vs := by
        simp only [gen, hs, if_true]
      rw [e, run_cons (lineGet_nl ho hd h1 hn) (by simp [lineGet]) _ (readLine_get ho hd.2 h1.2 hn)]
      rw [← this]
      unfold run
      congr 1
      funext ss
      simp only [exec, hdict]
    | false =>
      have hdv : defaults v = none := by simpa using hs
      have e : gen defaults (some dn) obj nf (v :: vs) = lineVal obj v nf ++ '\n' :: gen defaults (some dn) obj nf vs := by
        simp only [gen, hs, Bool.false_eq_true, if_false]
      rw [e, run_cons (lineVal_nl ho h1 (show_nl hn)) (by simp [lineVal]) _ (readLine_lit h1.2 hn)]
      rw [← this]
      unfold run
      congr 1
      funext ss
      simp only [exec, hdv, Option.getD_none]

/-- **C255** A default like `it's` is written out as code which is not Python. -/
theorem C255_quote {obj v a b : List Char} (ho : Name obj) (hv : Name v) (defaults : Attrs) (nf : PV) (vs : List (List Char))
    (ha : ∀ c ∈ a, c ≠ '\'' ∧ c ≠ '\\' ∧ c ≠ '\n') (hb : Name b) (hd : defaults v = some (.str (a ++ '\'' :: b))) (dicts : List Char → Option Attrs) (o : Attrs) :
    run obj (gen defaults none obj nf (v :: vs)) dicts o = none := by
  have e : gen defaults none obj nf (v :: vs) = lineVal obj v (.str (a ++ '\'' :: b)) ++ '\n' :: gen defaults none obj nf vs := by
    simp only [gen, hd, Option.getD_some]
  have hnl : ∀ c ∈ show' (.str (a ++ '\'' :: b)), c ≠ '\n' := by
    intro c hc
    simp only [show', List.mem_cons, List.mem_append, List.not_mem_nil, or_false] at hc
    rcases hc with rfl | (hc | rfl | hc) | rfl
    · decide
    · exact (ha c hc).2.2
    · decide
    · exact id_nl hb.2 c hc
    · decide
  have hr : readLine obj (lineVal obj v (.str (a ++ '\'' :: b))) = none := by
    unfold lineVal
    rw [readLine_start hv.2]
    have h1 : readVal (show' (.str (a ++ '\'' :: b))) = none := by
      show readVal ('\'' :: ((a ++ '\'' :: b) ++ ['\''])) = none
      rw [readVal_quote, List.append_assoc, readStr_plain ha _ _ (by simp)]
      obtain ⟨c, b, rfl⟩ := List.exists_cons_of_ne_nil hb.1
      rfl
    rw [h1]
    have h2 : readGet obj (show' (.str (a ++ '\'' :: b))) = none := by
      unfold readGet
      have : strip (obj ++ ['.']) (show' (.str (a ++ '\'' :: b))) = none := by
        obtain ⟨c, r, rfl⟩ := List.exists_cons_of_ne_nil ho.1
        show (if c = '\'' then _ else none) = none
        rw [if_neg]
        rintro rfl
        exact absurd (ho.2 _ List.mem_cons_self) (by decide)
      rw [this]
      rfl
    rw [h2]
    rfl
  rw [e]
  unfold run
  rw [parse_cons (lineVal_nl ho hv hnl) (by simp [lineVal]), hr]
  rfl

/-- **C255** A default with a backslash before an `n` comes back with a line break in its place. -/
theorem C255_backslash {obj v a b : List Char} (ho : Name obj) (hv : Name v) (defaults : Attrs) (nf : PV)
    (ha : ∀ c ∈ a, c ≠ '\'' ∧ c ≠ '\\' ∧ c ≠ '\n') (hb : ∀ c ∈ b, c ≠ '\'' ∧ c ≠ '\\' ∧ c ≠ '\n') (hd : defaults v = some (.str (a ++ '\\' :: 'n' :: b)))
    (dicts : List Char → Option Attrs) (o : Attrs) :
    run obj (gen defaults none obj nf [v]) dicts o = some fun w => if w = v then some (.str (a ++ '\n' :: b)) else o w := by
  have e : gen defaults none obj nf [v] = lineVal obj v (.str (a ++ '\\' :: 'n' :: b)) ++ '\n' :: [] := by
    simp only [gen, hd, Option.getD_some]
  have hnl : ∀ c ∈ show' (.str (a ++ '\\' :: 'n' :: b)), c ≠ '\n' := by
    intro c hc
    simp only [show', List.mem_cons, List.mem_append, List.not_mem_nil, or_false] at hc
    rcases hc with rfl | (hc | rfl | rfl | hc) | rfl
    · decide
    · exact (ha c hc).2.2
    · decide
    · decide
    · exact (hb c hc).2.2
    · decide
  have hr : readLine obj (lineVal obj v (.str (a ++ '\\' :: 'n' :: b))) = some (.lit v (.str (a ++ '\n' :: b))) := by
    unfold lineVal
    rw [readLine_start hv.2]
    have h1 : readVal (show' (.str (a ++ '\\' :: 'n' :: b))) = some (.str (a ++ '\n' :: b)) := by
      show readVal ('\'' :: ((a ++ '\\' :: 'n' :: b) ++ ['\''])) = _
      rw [readVal_quote, List.append_assoc, readStr_plain ha _ _ (by simp)]
      show (readStr (b ++ ['\'']) ('\n' :: (a.reverse ++ []))).map PV.str = _
      rw [readStr_plain hb _ _ (by simp)]
      show (some (b.reverse ++ ('\n' :: (a.reverse ++ []))).reverse).map PV.str = _
      simp
    rw [h1]
  rw [e, run_cons (lineVal_nl ho hv hnl) (by simp [lineVal]) _ hr]
  rfl

/-! ## Examples -/

/-- `H=1.0`, `implementation='vectorized'`. -/
def exDefaults : Attrs := fun v => if v = "H".toList then some (.num "1.0".toList) else if v = "implementation".toList then some (.str "vectorized".toList) else none

/-- Non-vacuity of C255: values written out. -/
example (o : Attrs) : run "self".toList (gen exDefaults none "self".toList .none ["H".toList, "implementation".toList, "kv".toList]) (fun _ => none) o =
    some (initialised exDefaults .none ["H".toList, "implementation".toList, "kv".toList] o) :=
  C255_values (by unfold Name; decide) _ _ _ (by unfold Name; decide) (by
    intro v hv
    simp only [List.mem_cons, List.not_mem_nil, or_false] at hv
    rcases hv with rfl | rfl | rfl
    · exact (by decide : "1.0".toList ≠ [] ∧ ∀ c ∈ "1.0".toList, isNumChar c = true)
    · exact (by decide : ∀ c ∈ "vectorized".toList, c ≠ '\'' ∧ c ≠ '\\' ∧ c ≠ '\n')
    · trivial) _ _

/-- Non-vacuity of C255: the dict. -/
example (o : Attrs) : run "self".toList (gen exDefaults (some "_attribute_defaults".toList) "self".toList (.str "no".toList) ["H".toList, "kv".toList])
    (fun d => if d = "_attribute_defaults".toList then some exDefaults else none) o = some (initialised exDefaults (.str "no".toList) ["H".toList, "kv".toList] o) :=
  C255_dict (nf := .str "no".toList) (by unfold Name; decide) (by unfold Name; decide) _ (by decide : ∀ c ∈ "no".toList, c ≠ '\'' ∧ c ≠ '\\' ∧ c ≠ '\n') _ (by unfold Name; decide) _ rfl _

/-- Non-vacuity of C255: `it's`. -/
example (o : Attrs) : run "self".toList (gen (fun _ => some (.str "it's".toList)) none "self".toList .none ["a".toList]) (fun _ => none) o = none :=
  C255_quote (a := "it".toList) (b := "s".toList) (by unfold Name; decide) (by unfold Name; decide) _ _ _ (by decide) (by unfold Name; decide) rfl _ _

/-- Non-vacuity of C255: a file name of Windows. -/
example (o : Attrs) : run "self".toList (gen (fun _ => some (.str "c:\\new".toList)) none "self".toList .none ["a".toList]) (fun _ => none) o =
    some fun w => if w = "a".toList then some (.str "c:\new".toList) else o w :=
  C255_backslash (a := "c:".toList) (b := "ew".toList) (by unfold Name; decide) (by unfold Name; decide) _ _ (by decide) (by decide) rfl _ _

end Geotecha.IO.GenCode
