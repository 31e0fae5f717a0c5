import Verif.Spec.MacroCheck
/-!
# Which macros are checked (C159-C161)
-/
namespace Splint.MacroCheckProps
open Splint.MacroCheck Splint.MacroCheckSpec

/-! ## The name -/

theorem idChar_not_blank {c : Char} (h : IdChar c) : isBlank c = false ∧ stops c = false := by
  have key : ∀ d : Char, (d.isAlphanum = false ∧ d ≠ '_') → c ≠ d := by
    rintro d ⟨h1, h2⟩ rfl
    rcases h with h | h
    · rw [h1] at h; exact Bool.noConfusion h
    · exact h2 h
  have k1 := key ' ' (by decide)
  have k2 := key '\t' (by decide)
  have k3 := key '(' (by decide)
  have k4 := key '\\' (by decide)
  have k5 := key '\n' (by decide)
  have k6 : isCntrl c = false := by
    have hr : 48 ≤ c.toNat ∧ c.toNat ≤ 122 := by
      rcases h with h | h
      · simp only [Char.isAlphanum, Char.isAlpha, Char.isUpper, Char.isLower, Char.isDigit, Bool.or_eq_true,
          Bool.and_eq_true, decide_eq_true_eq, UInt32.le_iff_toNat_le, ge_iff_le] at h
        have e1 : 'A'.val.toNat = 65 := rfl
        have e2 : 'Z'.val.toNat = 90 := rfl
        have e3 : 'a'.val.toNat = 97 := rfl
        have e4 : 'z'.val.toNat = 122 := rfl
        have e5 : '0'.val.toNat = 48 := rfl
        have e6 : '9'.val.toNat = 57 := rfl
        have hn : c.toNat = c.val.toNat := rfl
        rw [hn]
        rcases h with (⟨h1, h2⟩ | ⟨h1, h2⟩) | ⟨h1, h2⟩ <;> constructor <;> omega
      · subst h; decide
    simp only [isCntrl, Bool.or_eq_false_iff, decide_eq_false_iff_not, beq_eq_false_iff_ne]
    omega
  simp [isBlank, stops, k1, k2, k3, k4, k5, k6]

theorem dropWhile_all {p : Char → Bool} {w s : List Char} (h : ∀ c ∈ w, p c = true)
    (hs : ∀ c, s.head? = some c → p c = false) : (w ++ s).dropWhile p = s := by
  induction w with
  | nil =>
    cases s with
    | nil => rfl
    | cons c s => simp [hs c rfl]
  | cons c w ih =>
    simp only [List.cons_append, List.dropWhile_cons, h c (by simp), if_true]
    exact ih fun c hc => h c (by simp [hc])

theorem takeWhile_all {p : Char → Bool} {w s : List Char} (h : ∀ c ∈ w, p c = true)
    (hs : ∀ c, s.head? = some c → p c = false) : (w ++ s).takeWhile p = w := by
  induction w with
  | nil =>
    cases s with
    | nil => rfl
    | cons c s => simp [hs c rfl]
  | cons c w ih =>
    simp only [List.cons_append, List.takeWhile_cons, h c (by simp), if_true]
    rw [ih fun c hc => h c (by simp [hc])]

theorem blank_of {w : List Char} (h : ∀ c ∈ w, c = ' ' ∨ c = '\t') : ∀ c ∈ w, isBlank c = true := by
  intro c hc
  rcases h c hc with rfl | rfl <;> rfl

/-- what is left after `# define` -/
theorem parse_defines {text n rest : List Char} (h : Defines text n rest) :
    parse text = some ((n ++ rest).takeWhile (fun c => !stops c), (n ++ rest).dropWhile fun c => !stops c) := by
  obtain ⟨w1, w2, h1, h2, _, hn, hi, _, rfl⟩ := h
  have e1 : (w1 ++ (['d', 'e', 'f', 'i', 'n', 'e'] ++ (w2 ++ (n ++ rest)))).dropWhile isBlank
      = ['d', 'e', 'f', 'i', 'n', 'e'] ++ (w2 ++ (n ++ rest)) :=
    dropWhile_all (blank_of h1) (by intro c hc; cases hc; rfl)
  have e2 : (w2 ++ (n ++ rest)).dropWhile isBlank = n ++ rest :=
    dropWhile_all (blank_of h2) (by
      intro c hc
      cases n with
      | nil => exact absurd rfl hn
      | cons d n => cases hc; exact (idChar_not_blank (hi _ (by simp))).1)
  have e0 : '#' :: w1 ++ ['d', 'e', 'f', 'i', 'n', 'e'] ++ w2 ++ n ++ rest
      = '#' :: (w1 ++ (['d', 'e', 'f', 'i', 'n', 'e'] ++ (w2 ++ (n ++ rest)))) := by simp
  rw [e0]
  simp only [parse, e1]
  have e3 : (['d', 'e', 'f', 'i', 'n', 'e'] ++ (w2 ++ (n ++ rest))).drop 6 = w2 ++ (n ++ rest) := rfl
  rw [if_pos ⟨rfl, by simp⟩, e3, e2]

/-- The full statement: the name that is looked up is that of the macro, and it is seen if it has parameters. -/
def C159_full : Prop :=
  ∀ text n rest, Defines text n rest → parse text = some (n, rest)

/-- **C159** The name is found if white space, a parenthesis, a backslash or nothing follows it, and what follows is what
is looked at for parameters. Missing: other characters after the name. -/
theorem C159_partial (text n rest : List Char) (h : Defines text n rest)
    (hr : ∀ c, rest.head? = some c → c ∈ [' ', '\t', '\n', '(', '\\']) :
    parse text = some (n, rest) := by
  rw [parse_defines h]
  obtain ⟨_, _, _, _, _, _, hi, _, _⟩ := h
  have h1 : ∀ c ∈ n, (fun c => !stops c) c = true := fun c hc => by simp [(idChar_not_blank (hi c hc)).2]
  have h2 : ∀ c, rest.head? = some c → (fun c => !stops c) c = false := by
    intro c hc
    have := hr c hc
    simp only [List.mem_cons, List.not_mem_nil, or_false] at this
    rcases this with rfl | rfl | rfl | rfl | rfl <;> rfl
  rw [takeWhile_all h1 h2, dropWhile_all h1 h2]

example : Defines ['#', ' ', 'd', 'e', 'f', 'i', 'n', 'e', '\t', 'f', '1', '(', 'x', ')'] ['f', '1'] ['(', 'x', ')'] :=
  ⟨[' '], ['\t'], by simp, by simp, by simp, by simp, by
    intro c hc
    simp only [List.mem_cons, List.not_mem_nil, or_false] at hc
    rcases hc with rfl | rfl <;> exact .inl rfl, by
    intro c hc
    simp only [List.head?_cons, Option.some.injEq] at hc
    subst hc
    rintro (h | h) <;> exact absurd h (by decide), rfl⟩

/-- **C159** Any other character after the name is taken to belong to it: a string, an operator or a comment. -/
theorem C159_other (text n rest : List Char) (c : Char) (h : Defines text n (c :: rest)) (hc : stops c = false) :
    ∃ m r, parse text = some (n ++ c :: m, r) := by
  rw [parse_defines h]
  obtain ⟨_, _, _, _, _, _, hi, _, _⟩ := h
  have h1 : ∀ m : List Char, (∀ c ∈ m, stops c = false) →
      (m ++ c :: rest).takeWhile (fun c => !stops c) = m ++ c :: rest.takeWhile fun c => !stops c := by
    intro m hm
    induction m with
    | nil => simp [hc]
    | cons d m ih =>
      simp only [List.cons_append, List.takeWhile_cons, hm d (by simp), Bool.not_false, if_true]
      rw [ih fun c hc => hm c (by simp [hc])]
  rw [h1 n fun c hc => (idChar_not_blank (hi c hc)).2]
  exact ⟨_, _, rfl⟩

/-- `#define a"x"` -/
def quoted : List Char := ['#', 'd', 'e', 'f', 'i', 'n', 'e', ' ', 'a', '"', 'x', '"']

theorem quoted_defines : Defines quoted ['a'] ['"', 'x', '"'] :=
  ⟨[], [' '], by simp, by simp, by simp, by simp, by
    intro c hc
    simp only [List.mem_cons, List.not_mem_nil, or_false] at hc
    subst hc; exact .inl rfl, by
    intro c hc
    simp only [List.head?_cons, Option.some.injEq] at hc
    subst hc
    rintro (h | h) <;> exact absurd h (by decide), rfl⟩

theorem C159_full_is_false : ¬C159_full := by
  intro h
  have := h quoted _ _ quoted_defines
  have e : parse quoted = some (['a', '"', 'x', '"'], []) := by decide
  rw [e] at this
  exact absurd this (by decide)

theorem space_iff (c : Char) : isSpace c = true ↔ Space c := by
  simp only [isSpace, Space, Bool.or_eq_true, beq_iff_eq, Bool.and_eq_true, decide_eq_true_eq, List.mem_cons,
    List.not_mem_nil, or_false]
  constructor
  · rintro (h | ⟨h1, h2⟩)
    · exact .inl h
    · have hc : c = Char.ofNat c.toNat := (Char.ofNat_toNat c).symm
      generalize hk : c.toNat = k at *
      have : k = 9 ∨ k = 10 ∨ k = 11 ∨ k = 12 ∨ k = 13 := by omega
      rcases this with rfl | rfl | rfl | rfl | rfl <;> subst hc
      · exact .inr (.inl rfl)
      · exact .inr (.inr (.inl rfl))
      · exact .inr (.inr (.inr (.inl rfl)))
      · exact .inr (.inr (.inr (.inr (.inl rfl))))
      · exact .inr (.inr (.inr (.inr (.inr rfl))))
  · rintro (rfl | rfl | rfl | rfl | rfl | rfl) <;> decide

/-- **C159** A macro without parameters is taken to be empty just if nothing but white space follows its name. -/
theorem C159_empty (rest : List Char) : noContent rest = true ↔ ∀ c ∈ rest, Space c := by
  have h : ∀ r : List Char, (r.dropWhile isSpace).isEmpty = true ↔ ∀ c ∈ r, isSpace c = true := by
    intro r
    induction r with
    | nil => simp
    | cons c r ih =>
      by_cases hc : isSpace c = true
      · simp only [List.dropWhile_cons, hc, if_true, ih, List.mem_cons, forall_eq_or_imp, true_and]
      · simp [hc]
  simp only [← space_iff]
  cases rest with
  | nil => simp [noContent]
  | cons c r => simp only [noContent, Bool.and_eq_true, h, List.mem_cons, forall_eq_or_imp]

example : noContent [' ', '\t'] = true ∧ noContent ['\\', '\n'] = false := by decide

/-! ## The comments before a definition -/

variable {O : Opts} {W : Place} {M : Marks} {T : Table}

theorem unknown_marks {n rest : List Char} : ∃ f, (unknownMacro O W M T n rest).marks = { M with fcn := f } := by
  unfold unknownMacro
  dsimp only
  split_ifs <;> first | exact ⟨M.fcn, rfl⟩ | exact ⟨false, rfl⟩

theorem decide_marks {n rest : List Char} : ∃ f, (decideMacro O W M T n rest).marks =
    { M with notParse := false, notFcn := M.notFcn && M.notParse, fcn := f } := by
  unfold decideMacro
  by_cases h1 : M.notParse = true
  · rw [if_pos h1]
    exact ⟨M.fcn, by simp [h1]⟩
  · rw [if_neg h1]
    have h1' : M.notParse = false := by simpa using h1
    by_cases h2 : (M.notFcn || W.stdLib) = true
    · rw [if_pos h2]
      exact ⟨M.fcn, by simp [h1']⟩
    · rw [if_neg h2]
      have h2' : M.notFcn = false := by
        cases h : M.notFcn
        · rfl
        · rw [h] at h2; exact absurd rfl h2
      have hM : ∀ f, ({ M with notParse := false, notFcn := M.notFcn && M.notParse, fcn := f } : Marks)
          = { M with fcn := f } := by
        intro f; cases M; simp_all
      simp only [hM]
      split
      · split_ifs
        · exact unknown_marks
        · exact ⟨M.fcn, rfl⟩
        · exact ⟨M.fcn, rfl⟩
      · exact unknown_marks

theorem shouldCheck_free {text : List Char} (h : (M.iter || M.const || M.endIter) = false) :
    shouldCheck O W M T text = (parse text).map fun p =>
      let o := decideMacro O W M T p.1 p.2
      if o.checked then o else { o with table := record o.table p.1 } := by
  simp [shouldCheck, h]

/-- The full statement: `notfunction` and `notparseable` are for one definition only. -/
def C160_full : Prop :=
  ∀ (O : Opts) (W : Place) (M : Marks) (T : Table) (text : List Char) (o : Out), shouldCheck O W M T text = some o →
    o.marks.notFcn = false ∧ o.marks.notParse = false

/-- **C160** `notparseable` is for one definition only, and so is `notfunction` unless both were given and no constant
or iterator is expected. -/
theorem C160_once_exactly (text : List Char) (o : Out) (h : shouldCheck O W M T text = some o) :
    o.marks.notParse = false ∧
    (o.marks.notFcn = true ↔ M.notFcn = true ∧ M.notParse = true ∧ M.iter = false ∧ M.const = false ∧
      M.endIter = false) := by
  by_cases hx : (M.iter || M.const || M.endIter) = true
  · simp only [shouldCheck, hx, if_true] at h
    by_cases hn : (M.notFcn || M.notParse) = true
    · rw [if_pos hn] at h
      obtain rfl := Option.some.inj h
      refine ⟨rfl, ?_⟩
      cases hi : M.iter <;> cases hc : M.const <;> cases he : M.endIter <;> simp_all
    · rw [if_neg hn] at h
      obtain rfl := Option.some.inj h
      cases h1 : M.notFcn <;> cases h2 : M.notParse <;> simp_all
      split_ifs <;> simp_all
  · have hx' : (M.iter || M.const || M.endIter) = false := by simpa using hx
    rw [shouldCheck_free hx', Option.map_eq_some_iff] at h
    obtain ⟨p, _, rfl⟩ := h
    obtain ⟨f, hf⟩ := @decide_marks O W M T p.1 p.2
    have : (let o := decideMacro O W M T p.1 p.2
      if o.checked then o else { o with table := record o.table p.1 }).marks = (decideMacro O W M T p.1 p.2).marks := by
      dsimp only
      split_ifs <;> rfl
    rw [this, hf]
    cases h1 : M.iter <;> cases h2 : M.const <;> cases h3 : M.endIter <;> simp_all

example : ((shouldCheck {} {} { notFcn := true } (fun _ => none) quoted).map (·.marks)) = some {} ∧
    ((shouldCheck {} {} { notFcn := true, notParse := true } (fun _ => none) quoted).map (·.marks))
      = some { notFcn := true } := by decide

/-- **C160** If both are given, `notfunction` is left for the definition after it, which is then not checked either,
whatever it is. -/
theorem C160_left_over (T1 T2 : Table) (O1 O2 : Opts) (W1 W2 : Place) (t1 t2 : List Char) (o1 o2 : Out)
    (h1 : shouldCheck O1 W1 { notFcn := true, notParse := true } T1 t1 = some o1)
    (h2 : shouldCheck O2 W2 o1.marks T2 t2 = some o2) : o2.checked = false := by
  rw [shouldCheck_free rfl, Option.map_eq_some_iff] at h1
  obtain ⟨p, _, rfl⟩ := h1
  have e : (let o := decideMacro O1 W1 { notFcn := true, notParse := true } T1 p.1 p.2
      if o.checked then o else { o with table := record o.table p.1 }).marks = { notFcn := true } := by
    simp [decideMacro]
  rw [e, shouldCheck_free rfl, Option.map_eq_some_iff] at h2
  obtain ⟨q, _, rfl⟩ := h2
  simp [decideMacro]

theorem C160_full_is_false : ¬C160_full := by
  intro h
  have e : ∃ o, shouldCheck {} {} { notFcn := true, notParse := true } (fun _ => none) quoted = some o ∧
      o.marks.notFcn = true := by
    refine ⟨_, rfl, ?_⟩
    decide
  obtain ⟨o, h1, h2⟩ := e
  have := (h _ _ _ _ _ o h1).1
  rw [h2] at this
  exact Bool.noConfusion this

example : ∃ o1 o2, shouldCheck { constMacros := true } {} { notFcn := true, notParse := true } (fun _ => none)
      ['#', 'd', 'e', 'f', 'i', 'n', 'e', ' ', 'a', ' ', '1'] = some o1 ∧
    shouldCheck { constMacros := true } {} o1.marks o1.table
      ['#', 'd', 'e', 'f', 'i', 'n', 'e', ' ', 'b', ' ', '2'] = some o2 := ⟨_, _, rfl, rfl⟩

/-- **C160** After `iter`, two definitions are checked, whatever they define, and no more is expected after them;
after `constant`, one is. -/
theorem C160_iter (T1 T2 : Table) (O1 O2 : Opts) (W1 W2 : Place) (t1 t2 : List Char) :
    ∃ o1 o2, shouldCheck O1 W1 { iter := true } T1 t1 = some o1 ∧ shouldCheck O2 W2 o1.marks T2 t2 = some o2 ∧
      o1.checked = true ∧ o2.checked = true ∧ o2.marks = {} :=
  ⟨_, _, rfl, rfl, rfl, rfl, rfl⟩

theorem C160_const (text : List Char) :
    ∃ o, shouldCheck O W { const := true } T text = some o ∧ o.checked = true ∧ o.marks = {} := ⟨_, rfl, rfl, rfl⟩

/-! ## The decision -/

theorem lookup_known {n : Name} : (lookup T n).isSome = true ↔ ∃ e, Known T n e := by
  unfold lookup Known
  cases h : T n with
  | none => simp
  | some e => cases hp : e.priv <;> simp [hp, Option.filter]

theorem record_known (n : Name) : ∃ e, Known (record T n) n e := by
  unfold record lookup
  cases h : T n with
  | none => exact ⟨_, by simp [Table.set]; rfl, rfl⟩
  | some e =>
    cases hp : e.priv
    · refine ⟨setDefined e, by simp [Option.filter, hp, Table.set], ?_⟩
      unfold setDefined
      split <;> exact hp
    · exact ⟨{ expanded := true, defn := .preproc }, by simp [Option.filter, hp, Table.set], rfl⟩

theorem record_other {n m : Name} (h : m ≠ n) : record T n m = T m := by
  unfold record
  cases lookup T n <;> simp [Table.set, h]

theorem unknown_table {n rest : List Char} :
    (unknownMacro O W M T n rest).table = T ∨
      (¬(∃ e, Known T n e) ∧ (unknownMacro O W M T n rest).table = T.set n { decl := .preproc }) := by
  unfold unknownMacro
  dsimp only
  split_ifs <;> first | exact .inl rfl | exact .inr ⟨fun h => absurd (lookup_known.2 h) (by assumption), rfl⟩

theorem unknown_checked_known {n rest : List Char} (h : (unknownMacro O W M T n rest).checked = true) :
    ∃ e, Known (unknownMacro O W M T n rest).table n e := by
  have hs : ∃ e, Known (T.set n { decl := .preproc }) n e := ⟨_, by simp [Table.set]; rfl, rfl⟩
  have hl : (lookup T n).isSome = true → ∃ e, Known T n e := lookup_known.1
  revert h
  unfold unknownMacro
  dsimp only
  split_ifs <;> simp_all

/-- **C161** After a definition that no comment asked to be checked, its name is in the symbol table, where others see
it; and no other name is changed. -/
theorem C161_known (text : List Char) (o : Out) (hi : M.iter = false) (hc : M.const = false)
    (he : M.endIter = false) (h : shouldCheck O W M T text = some o) :
    ∃ n rest, parse text = some (n, rest) ∧ (∃ e, Known o.table n e) ∧ ∀ m, m ≠ n → o.table m = T m := by
  rw [shouldCheck_free (by simp [hi, hc, he]), Option.map_eq_some_iff] at h
  obtain ⟨⟨n, rest⟩, hp, rfl⟩ := h
  refine ⟨n, rest, hp, ?_⟩
  dsimp only
  have ht : (decideMacro O W M T n rest).table = T ∨ (decideMacro O W M T n rest).table = T.set n { decl := .preproc } := by
    unfold decideMacro
    split_ifs
    · exact .inl rfl
    · exact .inl rfl
    · split
      · split_ifs
        · exact unknown_table.imp id (·.2)
        · exact .inl rfl
        · exact .inl rfl
      · exact unknown_table.imp id (·.2)
  have hother : ∀ m, m ≠ n → (decideMacro O W M T n rest).table m = T m := by
    intro m hm
    rcases ht with h | h <;> rw [h]
    simp [Table.set, hm]
  by_cases hk : (decideMacro O W M T n rest).checked = true
  · rw [if_pos hk]
    refine ⟨?_, hother⟩
    revert hk
    unfold decideMacro
    split_ifs
    · intro h; exact absurd h (by simp)
    · intro h; exact absurd h (by simp)
    · split
      · rename_i e hl
        have hkn : ∃ e, Known T n e := by
          unfold lookupReal at hl
          cases h : T n with
          | none => simp [h] at hl
          | some d =>
            refine ⟨d, h, ?_⟩
            cases hp : d.priv
            · rfl
            · simp [h, Option.filter, hp] at hl
        split_ifs
        · exact unknown_checked_known
        · exact fun _ => hkn
        · exact fun _ => hkn
      · exact unknown_checked_known
  · rw [if_neg hk]
    exact ⟨record_known n, fun m hm => (record_other hm).trans (hother m hm)⟩

example : ((shouldCheck { constMacros := true } {} {} (fun _ => none)
    ['#', 'd', 'e', 'f', 'i', 'n', 'e', ' ', 'a', ' ', '1']).map fun o => (o.checked, o.table ['a']))
    = some (true, some { decl := .preproc }) := by decide

/-- whether a macro that is nothing else is checked -/
def Wanted (O : Opts) (W : Place) (rest : List Char) : Prop :=
  ¬(W.system = true ∧ O.sysDirExpand = true) ∧
    if rest.head? = some '(' then O.fcnMacros = true
    else O.constMacros = true ∧ ∃ c ∈ rest, ¬Space c

theorem wanted_params {rest : List Char} : hasParams rest = true ↔ rest.head? = some '(' := by
  simp [hasParams]

theorem notEmpty_iff {rest : List Char} : noContent rest = false ↔ ∃ c ∈ rest, ¬Space c := by
  constructor
  · intro h
    by_contra hn
    push Not at hn
    rw [(C159_empty rest).2 hn] at h
    exact Bool.noConfusion h
  · rintro ⟨c, hc, hs⟩
    by_contra hn
    exact hs ((C159_empty rest).1 (by simpa using hn) c hc)

theorem existsType_set {n : Name} : existsType (T.set n { decl := .preproc }) n = false := by
  simp [existsType, Table.set, Option.filter]

theorem existsType_iff {n : Name} : existsType T n = true ↔ ∃ e, Known T n e ∧ e.datatype = true := by
  unfold existsType Known
  cases h : T n with
  | none => simp
  | some e => cases hp : e.priv <;> cases hd : e.datatype <;> simp [hp, hd, Option.filter]

theorem unknown_checked {n rest : List Char} :
    (unknownMacro O W M T n rest).checked = true ↔
      Wanted O W rest ∧ ¬∃ e, Known T n e ∧ e.datatype = true := by
  have hset : ¬(lookup T n).isSome = true → ¬∃ e, Known T n e ∧ e.datatype = true :=
    fun h ⟨e, he, _⟩ => h (lookup_known.2 ⟨e, he⟩)
  have hset2 : ¬(lookup T n).isSome = true → existsType T n = false := by
    intro h
    by_contra hn
    exact hset h (existsType_iff.1 (by simpa using hn))
  rw [← existsType_iff]
  unfold Wanted
  rw [← notEmpty_iff]
  simp only [← wanted_params]
  unfold unknownMacro
  dsimp only
  by_cases h1 : (W.system && O.sysDirExpand) = true
  · simp only [Bool.and_eq_true] at h1
    simp [h1]
  · have h1' : ¬(W.system = true ∧ O.sysDirExpand = true) := by simpa using h1
    rw [if_neg h1]
    by_cases h2 : hasParams rest = true
    · rw [if_pos h2, if_pos h2]
      by_cases h3 : O.fcnMacros = true
      · rw [if_pos h3]
        by_cases h4 : (lookup T n).isSome = true
        · rw [if_pos h4]
          cases existsType T n <;> simp [h1', h3]
        · rw [if_neg h4]
          simp only [existsType_set, hset2 h4]
          simp [h1', h3]
      · rw [if_neg h3]
        simp [h3]
    · rw [if_neg h2, if_neg h2]
      by_cases h3 : O.constMacros = true
      · rw [if_pos h3]
        by_cases h4 : (lookup T n).isSome = true
        · simp only [h4, if_true]
          cases existsType T n <;> cases noContent rest <;> simp [h1', h3]
        · simp only [h4]
          simp only [Bool.false_eq_true, if_false, existsType_set, hset2 h4]
          cases noContent rest <;> simp [h1', h3]
      · rw [if_neg h3]
        simp [h3]

theorem ordinary_iff {n : Name} : (∃ e, Known T n e ∧ Ordinary e) ↔
    ∃ e, lookupReal T n = some e ∧ lastPreproc e = false := by
  unfold lookupReal Known Ordinary
  cases h : T n with
  | none => simp
  | some e =>
    cases hp : e.priv <;> cases hx : e.expanded <;> cases hd : e.defn <;> cases hc : e.decl <;>
      simp [Option.filter, lastPreproc, hp, hx, hd, hc]

theorem real_known {n : Name} {e : Ent} (h : lookupReal T n = some e) : Known T n e := by
  unfold lookupReal at h
  cases ht : T n with
  | none => simp [ht] at h
  | some d =>
    cases hp : d.priv
    · cases hx : d.expanded
      · simp [ht, Option.filter, hp, hx] at h; subst h; exact ⟨ht, hp⟩
      · simp [ht, Option.filter, hp, hx] at h
    · simp [ht, Option.filter, hp] at h

/-- **C161** When a macro is checked that no comment was given for: if its name is that of something else, by the flags
for that; if not, by those for macros, unless it is a type. -/
theorem C161_exactly (text n rest : List Char) (o : Out) (hm : NoMarks M) (hp : parse text = some (n, rest))
    (h : shouldCheck O W M T text = some o) :
    o.checked = true ↔ W.stdLib = false ∧
      ((∃ e, Known T n e ∧ Ordinary e ∧
          if e.spec then O.specMacros = true
          else rest.head? = some '(' ∧ (O.libMacros = true ∨ O.fcnMacros = true)) ∨
       ((¬∃ e, Known T n e ∧ Ordinary e) ∧ Wanted O W rest ∧ ¬∃ e, Known T n e ∧ e.datatype = true)) := by
  obtain ⟨h1, h2, h3, h4, h5⟩ := hm
  rw [shouldCheck_free (by simp [h3, h4, h5]), hp] at h
  simp only [Option.map_some] at h
  have ho : o.checked = (decideMacro O W M T n rest).checked := by
    rw [← Option.some.inj h]
    split_ifs <;> simp_all
  rw [ho]
  have uniq : ∀ {e e' : Ent}, Known T n e → Known T n e' → e = e' := fun a b => Option.some.inj (a.1.symm.trans b.1)
  simp only [decideMacro, h1, h2, Bool.false_or, Bool.false_eq_true, if_false]
  cases hs : W.stdLib
  · simp only [Bool.false_eq_true, if_false, true_and]
    cases hl : lookupReal T n with
    | none =>
      have hno : ¬∃ e, Known T n e ∧ Ordinary e := by
        rw [ordinary_iff]; rintro ⟨e, he, _⟩; rw [hl] at he; cases he
      rw [unknown_checked]
      constructor
      · exact fun h => .inr ⟨hno, h⟩
      · rintro (⟨e, hk, ho, _⟩ | ⟨_, h⟩)
        · exact absurd ⟨e, hk, ho⟩ hno
        · exact h
    | some e =>
      have hk := real_known hl
      by_cases hpp : lastPreproc e = true
      · have hno : ¬∃ e, Known T n e ∧ Ordinary e := by
          rw [ordinary_iff]
          rintro ⟨d, hd, hd'⟩
          rw [hl] at hd
          obtain rfl := Option.some.inj hd
          rw [hpp] at hd'
          exact Bool.noConfusion hd'
        simp only [hpp, if_true]
        rw [unknown_checked]
        constructor
        · exact fun h => .inr ⟨hno, h⟩
        · rintro (⟨e, hk, ho, _⟩ | ⟨_, h⟩)
          · exact absurd ⟨e, hk, ho⟩ hno
          · exact h
      · obtain ⟨d, hd, hdo⟩ := ordinary_iff.2 ⟨e, hl, by simpa using hpp⟩
        obtain rfl := uniq hd hk
        simp only [hpp]
        constructor
        · intro h
          refine .inl ⟨d, hd, hdo, ?_⟩
          cases hsp : d.spec
          · simp [hsp, hasParams] at h
            simpa using h
          · simpa [hsp] using h
        · rintro (⟨e, hk', _, h⟩ | ⟨hno, _⟩)
          · obtain rfl := uniq hk' hd
            cases hsp : e.spec
            · simp [hsp] at h
              simpa [hsp, hasParams] using h
            · simpa [hsp] using h
          · exact absurd ⟨d, hd, hdo⟩ hno
  · simp

example : NoMarks {} := ⟨rfl, rfl, rfl, rfl, rfl⟩

/-- The full statement: the same definition is decided the same when it is read again. -/
def C161_full : Prop :=
  ∀ (O : Opts) (W : Place) (M : Marks) (T : Table) (text : List Char) (o o' : Out), NoMarks M →
    shouldCheck O W M T text = some o → shouldCheck O W o.marks o.table text = some o' → o'.checked = o.checked

/-- a variable that is declared -/
def declared : Table := fun n => if n = ['a'] then some { decl := .code } else none
/-- `#define a 1` -/
def defA : List Char := ['#', 'd', 'e', 'f', 'i', 'n', 'e', ' ', 'a', ' ', '1']

/-- **C161** A macro with the name of something that is only declared, or is in a library, is expanded; but that makes it
a macro, so it is checked if it is defined again. -/
theorem C161_again (text n rest : List Char) (e : Ent) (o o' : Out) (hm : NoMarks M) (hl : W.stdLib = false)
    (hp : parse text = some (n, rest)) (hk : Known T n e) (hx : e.expanded = false) (hs : e.spec = false)
    (ht : e.datatype = false) (hd : e.defn = .lib ∨ (e.defn = .undef ∧ e.decl = .code)) (hpar : rest.head? ≠ some '(')
    (hw : Wanted O W rest) (h : shouldCheck O W M T text = some o)
    (h' : shouldCheck O W o.marks o.table text = some o') : o.checked = false ∧ o'.checked = true := by
  have hord : Ordinary e := ⟨hx, .inr (hd.imp id fun h => ⟨.inl h.1, by rw [h.2]; decide⟩)⟩
  have hc : o.checked = false := by
    by_contra hn
    rcases ((C161_exactly text n rest o hm hp h).1 (by simpa using hn)).2 with ⟨d, hk', _, hq⟩ | ⟨hno, _⟩
    · obtain rfl := Option.some.inj (hk'.1.symm.trans hk.1)
      simp only [hs, Bool.false_eq_true, if_false] at hq
      exact hpar hq.1
    · exact hno ⟨e, hk, hord⟩
  refine ⟨hc, ?_⟩
  have hm0 := hm
  obtain ⟨h1, h2, h3, h4, h5⟩ := hm
  have hreal : lookupReal T n = some e := by simp [lookupReal, hk.1, Option.filter, hk.2, hx]
  have hlast : lastPreproc e = false := by rcases hd with hd | ⟨hd, hd'⟩ <;> simp [lastPreproc, hd, *]
  rw [shouldCheck_free (by simp [h3, h4, h5]), hp] at h
  have hdec : decideMacro O W M T n rest = { checked := false, marks := M, table := T } := by
    simp [decideMacro, h1, h2, hl, hreal, hlast, hs, hasParams, hpar]
  simp only [Option.map_some, hdec] at h
  have ho := (Option.some.inj h).symm
  simp only [Bool.false_eq_true, if_false] at ho
  have hM : o.marks = M := by rw [ho]
  have hT : o.table n = some { e with defn := .preproc } := by
    rw [ho]
    rcases hd with hd | ⟨hd, _⟩ <;> simp [record, lookup, hk.1, Option.filter, hk.2, Table.set, setDefined, hd]
  rw [hM] at h'
  refine (C161_exactly text n rest o' hm0 hp h').2 ⟨hl, .inr ⟨?_, hw, ?_⟩⟩
  · rintro ⟨d, hk', hd⟩
    obtain rfl := Option.some.inj (hk'.1.symm.trans hT)
    simp [Ordinary] at hd
  · rintro ⟨d, hk', hd⟩
    obtain rfl := Option.some.inj (hk'.1.symm.trans hT)
    simp [ht] at hd

example : Known declared ['a'] { decl := .code } ∧ parse defA = some (['a'], [' ', '1']) ∧
    Wanted { constMacros := true } {} [' ', '1'] := by
  refine ⟨⟨rfl, rfl⟩, by decide, by simp, ?_⟩
  rw [if_neg (by decide)]
  refine ⟨rfl, '1', by simp, ?_⟩
  rw [← space_iff]
  decide

theorem setDefined_same (e : Ent) : (setDefined e).priv = e.priv ∧ (setDefined e).datatype = e.datatype ∧
    (setDefined e).spec = e.spec ∧ (¬Ordinary e → ¬Ordinary (setDefined e)) ∧ (e.defn = .code → setDefined e = e) := by
  unfold setDefined Ordinary
  cases h : e.defn <;> simp [h]

/-- what is known of a name after its definition -/
theorem table_at {text n rest : List Char} {o : Out} (hm : NoMarks M) (hp : parse text = some (n, rest))
    (h : shouldCheck O W M T text = some o) :
    o.table n = T n ∨
    ((¬∃ e, Known T n e) ∧ ∃ e, o.table n = some e ∧ e.priv = false ∧ e.datatype = false ∧ ¬Ordinary e) ∨
    (o.checked = false ∧ ∃ e, Known T n e ∧ o.table n = some (setDefined e)) := by
  obtain ⟨h1, h2, h3, h4, h5⟩ := hm
  rw [shouldCheck_free (by simp [h3, h4, h5]), hp] at h
  have h := (Option.some.inj h).symm
  have ht : (decideMacro O W M T n rest).table = T ∨
      (¬(∃ e, Known T n e) ∧ (decideMacro O W M T n rest).table = T.set n { decl := .preproc }) := by
    unfold decideMacro
    split_ifs
    · exact .inl rfl
    · exact .inl rfl
    · split
      · split_ifs
        · exact unknown_table
        · exact .inl rfl
        · exact .inl rfl
      · exact unknown_table
  by_cases hk : (decideMacro O W M T n rest).checked = true
  · have ho : o = decideMacro O W M T n rest := by rw [h]; exact if_pos hk
    rcases ht with ht | ⟨hn, ht⟩
    · left; rw [ho, ht]
    · right; left
      exact ⟨hn, { decl := .preproc }, by rw [ho, ht]; simp [Table.set], rfl, rfl, by simp [Ordinary]⟩
  · have ho : o = { decideMacro O W M T n rest with table := record (decideMacro O W M T n rest).table n } := by
      rw [h]; exact if_neg hk
    have hoc : o.checked = false := by rw [ho]; simpa using hk
    rcases ht with ht | ⟨hn, ht⟩
    · have hot : o.table = record T n := by rw [ho, ht]
      cases hl : lookup T n with
      | none =>
        right; left
        refine ⟨fun hx => ?_, { expanded := true, defn := .preproc }, ?_, rfl, rfl, by simp [Ordinary]⟩
        · have := lookup_known.2 hx; rw [hl] at this; exact Bool.noConfusion this
        · rw [hot]; simp [record, hl, Table.set]
      | some e =>
        right; right
        refine ⟨hoc, e, ?_, ?_⟩
        · unfold lookup at hl
          obtain ⟨d, hd⟩ := lookup_known.1 (by unfold lookup; rw [hl]; rfl)
          have : (T n).filter (fun e => !e.priv) = some d := by simp [hd.1, Option.filter, hd.2]
          rw [hl] at this
          obtain rfl := Option.some.inj this
          exact hd
        · rw [hot]; simp [record, hl, Table.set]
    · right; left
      refine ⟨hn, { decl := .preproc, defn := .preproc }, ?_, rfl, rfl, by simp [Ordinary]⟩
      rw [ho, ht]
      simp [record, lookup, Table.set, Option.filter, setDefined]

/-- **C161** The same definition is decided the same when it is read again, if its name is not that of something else, if
that is defined in the code, or if the macro was checked. Missing: names of other things, see `C161_again`. -/
theorem C161_same_partial (text n rest : List Char) (o o' : Out) (hm : NoMarks M) (hp : parse text = some (n, rest))
    (h : shouldCheck O W M T text = some o) (h' : shouldCheck O W o.marks o.table text = some o')
    (hk : ∀ e, Known T n e → Ordinary e → e.defn = .code ∨ o.checked = true) : o'.checked = o.checked := by
  have hm' : NoMarks o.marks := by
    have h1 := C160_once_exactly text o h
    obtain ⟨g1, g2, g3, g4, g5⟩ := hm
    rw [shouldCheck_free (by simp [g3, g4, g5]), hp] at h
    have h := (Option.some.inj h).symm
    obtain ⟨f, hf⟩ := @decide_marks O W M T n rest
    have ho : o.marks = (decideMacro O W M T n rest).marks := by
      rw [h]; dsimp only; split_ifs <;> rfl
    rw [ho, hf]
    exact ⟨rfl, by simp [g2], g3, g4, g5⟩
  have key : ∀ (T' : Table), (∀ e, (Known T' n e ∧ Ordinary e) ↔ (Known T n e ∧ Ordinary e)) →
      ((∃ e, Known T' n e ∧ e.datatype = true) ↔ ∃ e, Known T n e ∧ e.datatype = true) → o.table = T' →
      o'.checked = o.checked := by
    intro T' ha hb hT
    rw [hT] at h'
    have e1 := C161_exactly text n rest o hm hp h
    have e2 := C161_exactly text n rest o' hm' hp h'
    rw [hb] at e2
    simp only [← and_assoc, ha] at e1 e2
    exact Bool.eq_iff_iff.2 (e2.trans e1.symm)
  rcases table_at hm hp h with ht | ⟨hn, e, he, hpv, hdt, hno⟩ | ⟨hc, e, he, ht⟩
  · exact key o.table (fun e => by simp only [Known, ht]) (by simp only [Known, ht]) rfl
  · refine key o.table (fun d => ⟨fun ⟨hd, hdo⟩ => ?_, fun ⟨hd, _⟩ => absurd ⟨d, hd⟩ hn⟩)
      ⟨fun ⟨d, hd, hdd⟩ => ?_, fun ⟨d, hd, _⟩ => absurd ⟨d, hd⟩ hn⟩ rfl
    · obtain rfl := Option.some.inj (he.symm.trans hd.1)
      exact absurd hdo hno
    · obtain rfl := Option.some.inj (he.symm.trans hd.1)
      rw [hdt] at hdd; exact Bool.noConfusion hdd
  · obtain ⟨s1, s2, s3, s4, s5⟩ := setDefined_same e
    have hu : ∀ {d}, Known T n d → d = e := fun hd => Option.some.inj (hd.1.symm.trans he.1)
    by_cases ho : Ordinary e
    · have : setDefined e = e := s5 ((hk e he ho).resolve_right (by rw [hc]; exact Bool.noConfusion))
      rw [this, ← he.1] at ht
      exact key o.table (fun e => by simp only [Known, ht]) (by simp only [Known, ht]) rfl
    · refine key o.table (fun d => ⟨fun ⟨hd, hdo⟩ => ?_, fun ⟨hd, hdo⟩ => absurd (hu hd ▸ hdo) ho⟩)
        ⟨fun ⟨d, hd, hdd⟩ => ?_, fun ⟨d, hd, hdd⟩ => ?_⟩ rfl
      · obtain rfl := Option.some.inj (ht.symm.trans hd.1)
        exact absurd hdo (s4 ho)
      · obtain rfl := Option.some.inj (ht.symm.trans hd.1)
        exact ⟨e, he, s2 ▸ hdd⟩
      · obtain rfl := hu hd
        exact ⟨setDefined d, ⟨ht, s1.trans hd.2⟩, s2.trans hdd⟩

example : NoMarks {} ∧ parse defA = some (['a'], [' ', '1']) ∧ ∀ e, ¬Known (fun _ => none) ['a'] e :=
  ⟨⟨rfl, rfl, rfl, rfl, rfl⟩, by decide, fun e h => by cases h.1⟩

theorem C161_full_is_false : ¬C161_full := by
  intro h
  have e : ∃ o o', shouldCheck { constMacros := true } {} {} declared defA = some o ∧
      shouldCheck { constMacros := true } {} o.marks o.table defA = some o' ∧ o'.checked ≠ o.checked := by
    refine ⟨_, _, rfl, rfl, ?_⟩
    decide
  obtain ⟨o, o', h1, h2, h3⟩ := e
  exact h3 (h _ _ _ _ _ o o' ⟨rfl, rfl, rfl, rfl, rfl⟩ h1 h2)

end Splint.MacroCheckProps
