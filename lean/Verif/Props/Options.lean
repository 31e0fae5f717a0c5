import Verif.Proofs.Options
/-! C90: options are processed one after the other.  C91: every option has the effect of its flag. -/
namespace Splint
open Flag Opt

/-! ### C90 -/

/-- Every list of arguments is made of names of files, options and options with an argument, but for
an option at the end whose argument is missing. -/
theorem C90_items (args : List Word) :
    ∃ is tail, (∀ i ∈ is, Opt.Spec.Item.Ok i) ∧ args = Opt.Spec.spell is ++ tail
      ∧ (tail = [] ∨ ∃ a, tail = [a] ∧ Opt.Spec.signed a ∧ Opt.Spec.Wants a) := by
  suffices h : ∀ n, ∀ args : List Word, args.length ≤ n → ∃ is tail,
      (∀ i ∈ is, Opt.Spec.Item.Ok i) ∧ args = Opt.Spec.spell is ++ tail
      ∧ (tail = [] ∨ ∃ a, tail = [a] ∧ Opt.Spec.signed a ∧ Opt.Spec.Wants a) from
    h args.length args (Nat.le_refl _)
  have add : ∀ (i : Opt.Spec.Item) (args : List Word), i.Ok → (∃ is tail,
      (∀ i ∈ is, Opt.Spec.Item.Ok i) ∧ args = Opt.Spec.spell is ++ tail
      ∧ (tail = [] ∨ ∃ a, tail = [a] ∧ Opt.Spec.signed a ∧ Opt.Spec.Wants a)) → ∃ is tail,
      (∀ i ∈ is, Opt.Spec.Item.Ok i) ∧ i.words ++ args = Opt.Spec.spell is ++ tail
      ∧ (tail = [] ∨ ∃ a, tail = [a] ∧ Opt.Spec.signed a ∧ Opt.Spec.Wants a) := by
    rintro i args hi ⟨is, tail, h1, h2, h3⟩
    refine ⟨i :: is, tail, ?_, ?_, h3⟩
    · intro x hx
      rcases List.mem_cons.1 hx with rfl | hx
      · exact hi
      · exact h1 x hx
    · rw [h2]; simp [Opt.Spec.spell]
  intro n
  induction n with
  | zero =>
    intro args h
    have : args = [] := List.length_eq_zero_iff.1 (by omega)
    exact ⟨[], [], by simp, by simp [this, Opt.Spec.spell], .inl rfl⟩
  | succ n ih =>
    intro args h
    cases args with
    | nil => exact ⟨[], [], by simp, by simp [Opt.Spec.spell], .inl rfl⟩
    | cons a rest =>
      rw [List.length_cons] at h
      by_cases hs : Opt.Spec.signed a
      · by_cases hw : Opt.Spec.Wants a
        · cases rest with
          | nil => exact ⟨[], [a], by simp, by simp [Opt.Spec.spell], .inr ⟨a, rfl, hs, hw⟩⟩
          | cons v rest =>
            rw [List.length_cons] at h
            exact add (.optArg a v) rest ⟨hs, hw⟩ (ih rest (by omega))
        · exact add (.opt a) rest ⟨hs, hw⟩ (ih rest (by omega))
      · exact add (.file a) rest hs (ih rest (by omega))

/-- Options are processed one after the other: what an option does is not affected by what is
before or after it on the command line or in the options file, and nothing is left out. -/
def C90_full : Prop :=
  ∀ (cl : Bool) (is : List Opt.Spec.Item) (b : List Word), (∀ i ∈ is, Opt.Spec.Item.Ok i) →
    loop cl (Opt.Spec.spell is ++ b) = is.flatMap (fun i => loop cl i.words) ++ loop cl b

theorem OptEx.wants_i : Opt.Spec.Wants c!"-i" :=
  ⟨FLG_INIT, by decide +kernel, .inl ((wants_iff _).2 (by decide +kernel))⟩

theorem OptEx.signed_minus (n : Word) : Opt.Spec.signed ('-' :: n) := ⟨_, _, rfl, .inl rfl⟩
theorem OptEx.signed_plus (n : Word) : Opt.Spec.signed ('+' :: n) := ⟨_, _, rfl, .inr rfl⟩

theorem OptEx.not_signed {c : Char} {n : Word} (h : c ≠ '-' ∧ c ≠ '+') :
    ¬Opt.Spec.signed (c :: n) := by
  rintro ⟨d, m, he, hd⟩
  simp only [List.cons.injEq] at he
  rw [← he.1] at hd
  tauto

/-- `splint -i lcl.lci +strict x.c`: everything after the initialisation file is ignored, even the
name of the file to check. -/
theorem C90_full_is_false : ¬C90_full := by
  intro h
  have h1 := h true [.optArg c!"-i" c!"l.lci"] [c!"+strict", c!"x.c"] (by
    intro i hi
    rw [List.mem_singleton] at hi
    subst hi
    exact ⟨OptEx.signed_minus _, OptEx.wants_i⟩)
  revert h1
  decide +kernel

/-- What happens exactly: the items are processed one after the other, each as if it were alone, up
to the first `-i` with its argument or the first obsolete option; nothing after it is. -/
theorem C90_exactly (cl : Bool) (is : List Opt.Spec.Item) (h : ∀ i ∈ is, Opt.Spec.Item.Ok i)
    (b : List Word) :
    loop cl (Opt.Spec.spell is ++ b)
      = (Opt.Spec.reached is).flatMap (fun i => loop cl i.words)
        ++ if is.any Opt.Spec.Item.ends then [] else loop cl b := loop_items cl is h b

theorem OptEx.reached_all {is : List Opt.Spec.Item} (h : ∀ i ∈ is, i.ends = false) :
    Opt.Spec.reached is = is := by
  induction is with
  | nil => rfl
  | cons i is ih =>
    rw [Opt.Spec.reached, h i (by simp), ih (fun x hx => h x (by simp [hx]))]
    rfl

/-- Without `-i` and obsolete options every option is processed, in order, as if it were alone.
Missing: `-i` (`C90_full_is_false`) and the obsolete options (`C91_bounds_full_is_false`). -/
theorem C90_partial (cl : Bool) (is : List Opt.Spec.Item) (b : List Word)
    (h : ∀ i ∈ is, Opt.Spec.Item.Ok i) (he : ∀ i ∈ is, i.ends = false) :
    loop cl (Opt.Spec.spell is ++ b) = is.flatMap (fun i => loop cl i.words) ++ loop cl b := by
  rw [C90_exactly cl is h b, OptEx.reached_all he, if_neg]
  simpa using he

/-- The items `x.c -nullderef -linelen 90 -Idir`. -/
def OptEx.items : List Opt.Spec.Item :=
  [.file c!"x.c", .opt c!"-nullderef", .optArg c!"+linelen" c!"90", .opt c!"-Idir",
   .optArg c!"-I" c!"inc"]

theorem OptEx.not_wants {a : Word} {f : Nat} (hi : identify (Opt.Spec.name a) = .flag f)
    (ha : argOf f = .none ∨ argOf f = .special)
    (hl : a.length ≠ 2 ∨ ¬(f = FLG_INCLUDEPATH ∨ f = FLG_SPECPATH)) : ¬Opt.Spec.Wants a := by
  rintro ⟨g, hg, h⟩
  rw [hi] at hg
  cases hg
  rcases h with h | h
  · rw [wants_iff] at h; tauto
  · tauto

theorem OptEx.items_ok : ∀ i ∈ OptEx.items, Opt.Spec.Item.Ok i := by
  unfold OptEx.items
  simp only [List.mem_cons, List.not_mem_nil, or_false, forall_eq_or_imp, forall_eq]
  refine ⟨OptEx.not_signed (by decide), ⟨OptEx.signed_minus _, ?_⟩, ⟨OptEx.signed_plus _, ?_⟩,
    ⟨OptEx.signed_minus _, ?_⟩, ⟨OptEx.signed_minus _, ?_⟩⟩
  · exact OptEx.not_wants (f := FLG_NULLDEREF) (by decide +kernel) (by decide +kernel) (by decide)
  · exact ⟨FLG_LINELEN, by decide +kernel, .inl ((wants_iff _).2 (by decide +kernel))⟩
  · exact OptEx.not_wants (f := FLG_INCLUDEPATH) (by decide +kernel) (by decide +kernel) (by decide)
  · exact ⟨FLG_INCLUDEPATH, by decide +kernel, .inr ⟨.inl rfl, rfl⟩⟩

example : (∀ i ∈ OptEx.items, Opt.Spec.Item.Ok i) ∧ (∀ i ∈ OptEx.items, i.ends = false)
    ∧ loop true (Opt.Spec.spell OptEx.items)
      = [.file c!"x.c", .set FLG_NULLDEREF false, .set FLG_LINELEN true, .value FLG_LINELEN c!"90",
         .incl c!"dir", .incl c!"inc"] :=
  ⟨OptEx.items_ok, by decide +kernel, by decide +kernel⟩

theorem OptEx.files_append (l l' : List Opt.Act) : filesOf (l ++ l') = filesOf l ++ filesOf l' := by
  simp [filesOf]

theorem OptEx.files_signed (cl : Bool) {a : Word} (h : Opt.Spec.signed a) (nxt : Option Word) :
    filesOf (one cl a nxt).1 = [] := by
  unfold one
  rw [if_pos ((isOption_iff a).2 h)]
  cases identify (flagName a) with
  | invalid => rfl
  | modeName => rfl
  | skip => rfl
  | flag f =>
    simp only
    repeat' split
    all_goals first
      | rfl
      | (unfold path; simp only; (repeat' split) <;> simp [filesOf] <;> (split <;> simp_all))
      | (unfold controlFlag; (repeat' split) <;> rfl)

/-- The names of files among the effects of an item. -/
def OptEx.fileOf : Opt.Spec.Item → Option Word
  | .file a => some a
  | _ => none

/-- The files that are checked are exactly the arguments that are neither options nor arguments of
options, in order; without `-i` and obsolete options, all of them. -/
theorem C90_files_partial (cl : Bool) (is : List Opt.Spec.Item) (h : ∀ i ∈ is, Opt.Spec.Item.Ok i)
    (he : ∀ i ∈ is, i.ends = false) :
    filesOf (loop cl (Opt.Spec.spell is)) = is.filterMap OptEx.fileOf := by
  have := C90_partial cl is [] h he
  rw [List.append_nil] at this
  rw [this, loop_nil, List.append_nil]
  clear this he
  induction is with
  | nil => rfl
  | cons i is ih =>
    rw [List.flatMap_cons, OptEx.files_append, ih (fun x hx => h x (by simp [hx]))]
    have hi := h i (by simp)
    cases i with
    | file a =>
      simp only [Opt.Spec.Item.words]
      rw [loop_cons, one_file cl hi]
      simp [filesOf, OptEx.fileOf]
    | opt a =>
      simp only [Opt.Spec.Item.words]
      rw [loop_cons, OptEx.files_append, OptEx.files_signed cl hi.1]
      cases (one cl a (List.head? [])).2 <;> simp [filesOf, List.filterMap_cons, OptEx.fileOf]
    | optArg a v =>
      simp only [Opt.Spec.Item.words]
      rw [loop_cons, OptEx.files_append, OptEx.files_signed cl hi.1]
      simp only [List.head?_cons, List.tail_cons]
      rw [one_optArg cl hi.1 hi.2]
      split_ifs <;> simp [filesOf, List.filterMap_cons, OptEx.fileOf]

example : OptEx.items.filterMap OptEx.fileOf = [c!"x.c"] := by decide +kernel

/-! ### C91 -/

/-- The option for the flag `f`, spelled `n` after the sign. -/
theorem OptEx.one_flag (cl : Bool) {f : Nat} {r : Row} (hr : table[f]? = some r) {n : Word}
    (hn : Flag.Spec.bare n = r.name) {c : Char} (hc : c = '-' ∨ c = '+')
    (hl : f ∉ Opt.Spec.letters) (hh : f ≠ FLG_HELP)
    (hm : cl = true → f ∉ Opt.Spec.controlsMessages) (nxt : Option Word) :
    one cl (c :: n) nxt = controlFlag cl f (c == '+') nxt := by
  have hi : identify (flagName (c :: n)) = .flag f := by
    have h1 : Flag.Spec.bare (flagName (c :: n)) = r.name := by
      rw [← hn]
      unfold flagName
      simp only [List.drop_succ_cons, List.drop_zero]
      split_ifs with h
      · cases n with
        | nil => simp at h
        | cons d n =>
          simp only [List.head?_cons, Option.some.injEq] at h
          subst h
          simp [Flag.Spec.bare, Flag.Spec.punctuation]
      · rfl
    rcases C37_names hr h1 with h | h
    · exact h
    · exact absurd h hl
  unfold one
  have ho : isOption (c :: n) = true := by rcases hc with rfl | rfl <;> rfl
  rw [if_pos ho, hi]
  simp only [Opt.Spec.letters, List.mem_cons, List.not_mem_nil, or_false] at hl
  simp only
  rw [if_neg hh, if_neg (by tauto), if_neg (by tauto), if_neg]
  · simp
  · intro h
    simp only [Bool.and_eq_true] at h
    have h2 := hm h.1
    have h3 := h.2
    simp only [isMessageControl, Bool.or_eq_true, beq_iff_eq] at h3
    simp only [Opt.Spec.controlsMessages, List.mem_cons, List.not_mem_nil, or_false] at h2
    tauto

/-- A flag without an argument, written with either sign and the name punctuated in any way, is set
or cleared and nothing else happens.  On the command line this is without the flags that control
messages, which the first pass sets (`C92_control`). -/
theorem C91_flag (cl : Bool) {f : Nat} {r : Row} (hr : table[f]? = some r) (ha : r.arg = .none)
    {n : Word} (hn : Flag.Spec.bare n = r.name) {c : Char} (hc : c = '-' ∨ c = '+')
    (hm : cl = true → f ∉ Opt.Spec.controlsMessages) (b : List Word) :
    loop cl ((c :: n) :: b) = .set f (c == '+') :: loop cl b := by
  have hA : argOf f = .none := by simp [argOf, hr, ha]
  have hs : ¬(f ∈ Opt.Spec.letters ∨ f = FLG_HELP) := by
    rw [← argOf_special, hA]; decide
  rw [loop_cons, OptEx.one_flag cl hr hn hc (fun h => hs (.inl h)) (fun h => hs (.inr h)) hm,
    controlFlag_nxt _ _ _ _ hA]
  rfl

example : loop true [c!"+null-deref", c!"--usedef"]
    = [.set FLG_NULLDEREF true, .set FLG_USEDEF false] := by decide +kernel

/-- A flag that takes a number or a character is set or cleared and given the next argument. -/
theorem C91_value (cl : Bool) {f : Nat} {r : Row} (hr : table[f]? = some r)
    (ha : r.arg = .number ∨ r.arg = .char) {n : Word} (hn : Flag.Spec.bare n = r.name) {c : Char}
    (hc : c = '-' ∨ c = '+') (hm : cl = true → f ∉ Opt.Spec.controlsMessages) (v : Word)
    (b : List Word) :
    loop cl ((c :: n) :: v :: b) = .set f (c == '+') :: .value f v :: loop cl b := by
  have hA : argOf f = r.arg := by simp [argOf, hr]
  have hs : ¬(f ∈ Opt.Spec.letters ∨ f = FLG_HELP) := by
    rw [← argOf_special, hA]; rcases ha with h | h <;> rw [h] <;> decide
  rw [loop_cons, OptEx.one_flag cl hr hn hc (fun h => hs (.inl h)) (fun h => hs (.inr h)) hm]
  have e : controlFlag cl f (c == '+') (some v) = ([.set f (c == '+'), .value f v], .skip) := by
    unfold controlFlag
    have h1 : hasArgument f = true := by
      unfold hasArgument; rw [hA]; rcases ha with h | h <;> rw [h] <;> decide
    have h2 : (hasNumber f || hasChar f) = true := by
      unfold hasNumber hasChar
      rw [hr]
      rcases ha with h | h <;> simp [h]
    rw [if_pos h1, if_pos h2]
  simp only [List.head?_cons, List.tail_cons]
  rw [e]
  rfl

example : (table[FLG_LINELEN]?).map (·.arg) = some .number
    ∧ loop false [c!"-line_len", c!"100", c!"+strict"]
      = [.set FLG_LINELEN false, .value FLG_LINELEN c!"100", .mode c!"strict"] := by decide +kernel

/-- A flag that takes a text, other than `-f`, `-i` and `-mts`, is set or cleared and given the next
argument. -/
theorem C91_string (cl : Bool) {f : Nat} {r : Row} (hr : table[f]? = some r)
    (ha : r.arg = .string ∨ r.arg = .file ∨ r.arg = .path ∨ r.arg = .dir)
    (hf : f ≠ FLG_OPTF ∧ f ≠ FLG_INIT ∧ f ≠ FLG_MTSFILE) {n : Word}
    (hn : Flag.Spec.bare n = r.name) {c : Char}
    (hc : c = '-' ∨ c = '+') (hm : cl = true → f ∉ Opt.Spec.controlsMessages) (v : Word)
    (b : List Word) :
    loop cl ((c :: n) :: v :: b) = .set f (c == '+') :: .string f v :: loop cl b := by
  have hA : argOf f = r.arg := by simp [argOf, hr]
  have hs : ¬(f ∈ Opt.Spec.letters ∨ f = FLG_HELP) := by
    rw [← argOf_special, hA]; rcases ha with h | h | h | h <;> rw [h] <;> decide
  rw [loop_cons, OptEx.one_flag cl hr hn hc (fun h => hs (.inl h)) (fun h => hs (.inr h)) hm]
  have e : controlFlag cl f (c == '+') (some v) = ([.set f (c == '+'), .string f v], .skip) := by
    unfold controlFlag
    have h1 : hasArgument f = true := by
      unfold hasArgument; rw [hA]; rcases ha with h | h | h | h <;> rw [h] <;> decide
    have h2 : (hasNumber f || hasChar f) = false := by
      unfold hasNumber hasChar
      rw [hr]
      rcases ha with h | h | h | h <;> simp [h]
    have h3 : hasString f = true := by
      unfold hasString; rw [hA]; rcases ha with h | h | h | h <;> rw [h] <;> decide
    rw [if_pos h1, h2, if_neg (by decide), h3, Bool.true_or, Bool.true_or, if_pos rfl]
    simp only
    rw [if_neg hf.1, if_neg hf.2.1, if_neg hf.2.2]
  simp only [List.head?_cons, List.tail_cons]
  rw [e]
  rfl

example : loop true [c!"-tmpdir", c!"/var/tmp"]
    = [.set FLG_TMPDIR false, .string FLG_TMPDIR c!"/var/tmp"] := by decide +kernel

/-- What is written after `-D` and `-U` goes to the preprocessor, with the letter; what is written
after `-I` and `-S` is a directory that is added. -/
theorem C91_letters (cl : Bool) {c : Char} (hc : c = '-' ∨ c = '+') (s : Word) (b : List Word) :
    loop cl ((c :: 'D' :: s) :: b) = .pass ('D' :: s) :: loop cl b
    ∧ loop cl ((c :: 'U' :: s) :: b) = .pass ('U' :: s) :: loop cl b
    ∧ (s ≠ [] → c :: 'I' :: s ≠ c!"-I-" → loop cl ((c :: 'I' :: s) :: b) = .incl s :: loop cl b)
    ∧ (s ≠ [] → loop cl ((c :: 'S' :: s) :: b) = .spec s :: loop cl b)
    ∧ (∀ d, loop cl ([c, 'I'] :: d :: b) = .incl d :: loop cl b)
    ∧ (∀ d, loop cl ([c, 'S'] :: d :: b) = .spec d :: loop cl b) := by
  have ho : ∀ n, isOption (c :: n) = true := by intro n; rcases hc with rfl | rfl <;> rfl
  have h1 : ∀ (d : Char) (n : Word), d ≠ '-' → flagName (c :: d :: n) = d :: n := by
    intro d n hd
    simp [flagName, hd]
  refine ⟨?_, ?_, ?_, ?_, ?_, ?_⟩
  · rw [loop_cons]; unfold one
    rw [if_pos (ho _), h1 _ _ (by decide), (C37_letters s).2.2.1]; rfl
  · rw [loop_cons]; unfold one
    rw [if_pos (ho _), h1 _ _ (by decide), (C37_letters s).2.2.2]; rfl
  · intro hs hne
    rw [loop_cons]; unfold one
    rw [if_pos (ho _), h1 _ _ (by decide), (C37_letters s).1]
    have e : path FLG_INCLUDEPATH (c :: 'I' :: s) b.head? = ([.incl s], .next) := by
      unfold path
      rw [if_neg hne]
      simp [hs]
    simp only
    rw [if_neg (by decide), if_neg (by decide), if_pos (by decide), e]; rfl
  · intro hs
    rw [loop_cons]; unfold one
    rw [if_pos (ho _), h1 _ _ (by decide), (C37_letters s).2.1]
    have e : path FLG_SPECPATH (c :: 'S' :: s) b.head? = ([.spec s], .next) := by
      unfold path
      rw [if_neg (by simp)]
      simp [hs]
    simp only
    rw [if_neg (by decide), if_neg (by decide), if_pos (by decide), e]; rfl
  · intro d
    rw [loop_cons]; unfold one
    rw [if_pos (ho _), h1 _ _ (by decide), (C37_letters []).1]
    simp only [List.head?_cons, List.tail_cons]
    rw [if_neg (by decide), if_neg (by decide), if_pos (by decide)]
    simp [path]
  · intro d
    rw [loop_cons]; unfold one
    rw [if_pos (ho _), h1 _ _ (by decide), (C37_letters []).2.1]
    simp only [List.head?_cons, List.tail_cons]
    rw [if_neg (by decide), if_neg (by decide), if_pos (by decide)]
    simp [path]

example : loop true [c!"-DX=1", c!"-I", c!"inc", c!"-Sspec", c!"-Iinc2"]
    = [.pass c!"DX=1", .incl c!"inc", .spec c!"spec", .incl c!"inc2"] := by decide +kernel

/-- "allow -- before flags" (`src/flags.c:1702`): a second `-` makes no difference. -/
def C91_dashes_full : Prop :=
  ∀ (cl : Bool) (n : Word) (b : List Word), loop cl (('-' :: '-' :: n) :: b)
    = loop cl (('-' :: n) :: b)

/-- `--Iinc` adds the directory `Iinc`, `--DX` passes `-DX` where `DX` is expected, and a third `-`
counts as part of the name. -/
theorem C91_dashes_full_is_false : ¬C91_dashes_full := by
  intro h
  have h1 := h true c!"Iinc" []
  revert h1
  decide +kernel

example : loop true [c!"--DX"] = [.pass c!"-DX"] ∧ loop true [c!"-DX"] = [.pass c!"DX"]
    ∧ loop true [c!"--I", c!"inc"] = [.incl c!"I", .file c!"inc"] := by decide +kernel

/-- For modes and flags that are not recognised by their first letter a second `-` makes no
difference.  Missing: the letters (`C91_dashes_full_is_false`), and names that are not recognised,
where the message shows the option as it was written. -/
theorem C91_dashes_partial (cl : Bool) {n : Word} (hn : n.head? ≠ some '-')
    (hk : (∃ f, identify n = .flag f ∧ f ≠ FLG_HELP ∧ f ∉ Opt.Spec.letters) ∨ identify n = .modeName) (b : List Word) :
    loop cl (('-' :: '-' :: n) :: b) = loop cl (('-' :: n) :: b) := by
  have e1 : flagName ('-' :: '-' :: n) = n := by simp [flagName]
  have e2 : flagName ('-' :: n) = n := by
    unfold flagName
    rw [if_neg]
    · rfl
    · intro h
      exact hn (by simpa using h)
  have key : ∀ nxt, one cl ('-' :: '-' :: n) nxt = one cl ('-' :: n) nxt := by
    intro nxt
    unfold one
    have o1 : ∀ m, isOption ('-' :: m) = true := fun m => rfl
    rw [if_pos (o1 _), if_pos (o1 _), e1, e2]
    rcases hk with ⟨f, hf, hh, hl⟩ | hf
    · rw [hf]
      simp only [Opt.Spec.letters, List.mem_cons, List.not_mem_nil, or_false] at hl
      simp only
      have l1 : ¬(f = FLG_DEFINE ∨ f = FLG_UNDEFINE) := by tauto
      have l2 : ¬(f = FLG_INCLUDEPATH ∨ f = FLG_SPECPATH) := by tauto
      rw [if_neg hh, if_neg hh, if_neg l1, if_neg l1, if_neg l2, if_neg l2]
      rfl
    · rw [hf]
  rw [loop_cons, loop_cons, key]

example : (∃ f, identify c!"nullderef" = .flag f ∧ f ≠ FLG_HELP ∧ f ∉ Opt.Spec.letters)
    ∧ loop true [c!"--null-deref", c!"--strict"] = [.set FLG_NULLDEREF false, .mode c!"strict"] :=
  ⟨⟨FLG_NULLDEREF, by decide +kernel⟩, by decide +kernel⟩

/-- No option leads to an access outside the tables of flags. -/
def C91_bounds_full : Prop := ∀ (cl : Bool) (args : List Word), Opt.Act.outOfBounds ∉ loop cl args

/-- `splint -bool x.c`: the obsolete flag is recognised as `SKIP_FLAG`, which is used as an index. -/
theorem C91_bounds_full_is_false : ¬C91_bounds_full := by
  intro h
  have h1 := h true [c!"-bool", c!"x.c"]
  revert h1
  decide +kernel

theorem OptEx.lookup_skip (n : Word) : lookupName n = .skip ↔ n ∈ Opt.Spec.obsolete := by
  constructor
  · intro h
    unfold lookupName at h
    split at h
    · cases h
    · split at h
      · rename_i i hl
        subst h
        have key : ∀ l : List (Word × Ident), l.lookup n = some .skip → (n, Ident.skip) ∈ l := by
          intro l hl
          induction l with
          | nil => cases hl
          | cons p l ih =>
            rw [List.lookup_cons] at hl
            by_cases hp : n = p.1
            · have hb : (n == p.1) = true := by simpa using hp
              rw [hb] at hl
              simp only [Option.some.injEq] at hl
              rw [hp, ← hl]
              simp
            · have hb : (n == p.1) = false := by simpa using hp
              rw [hb] at hl
              exact List.mem_cons_of_mem _ (ih hl)
        have hm := key _ hl
        have : synonyms.all (fun p => p.2 != .skip || Opt.Spec.obsolete.contains p.1) = true := by
          decide +kernel
        have := List.all_eq_true.1 this _ hm
        simpa using this
      · split at h <;> cases h
  · have : Opt.Spec.obsolete.all (fun n => lookupName n = .skip) = true := by decide +kernel
    intro h
    simpa using List.all_eq_true.1 this n h

theorem OptEx.identify_skip (n : Word) :
    identify n = .skip ↔ (∀ c ∈ n.head?, c ∉ c!"ISDU") ∧ canonicalise n ∈ Opt.Spec.obsolete := by
  unfold identify
  cases n with
  | nil =>
    have : canonicalise [] ∉ Opt.Spec.obsolete := by decide +kernel
    simp [this]
  | cons c n =>
    simp only [List.head?_cons, Option.mem_def, Option.some.injEq, forall_eq', List.mem_cons,
      List.not_mem_nil, or_false, not_or]
    rw [← OptEx.lookup_skip]
    by_cases h1 : c = 'I'
    · simp [h1]
    · by_cases h2 : c = 'S'
      · simp [h2]
      · by_cases h3 : c = 'D'
        · simp [h3]
        · by_cases h4 : c = 'U'
          · simp [h4]
          · simp [h1, h2, h3, h4]

theorem OptEx.one_bounds (cl : Bool) (a : Word) (nxt : Option Word) :
    Opt.Act.outOfBounds ∈ (one cl a nxt).1
      ↔ Opt.Spec.signed a ∧ identify (Opt.Spec.name a) = .skip := by
  rw [← isOption_iff, ← flagName_eq]
  unfold one
  by_cases h : isOption a = true
  · rw [if_pos h]
    cases identify (flagName a) with
    | invalid => simp
    | modeName => simp
    | skip => simp [h]
    | flag f =>
      simp only [reduceCtorEq, and_false, iff_false]
      repeat' split
      all_goals first
        | (simp; done)
        | (unfold path; simp only; (repeat' split) <;> simp <;> (split <;> simp))
        | (unfold controlFlag; (repeat' split) <;> simp)
  · rw [if_neg h]
    simp [h]

/-- What happens exactly: tables are accessed outside their bounds if an option with an obsolete
name, spelled in any way, is reached. -/
theorem C91_bounds_exactly (cl : Bool) (is : List Opt.Spec.Item)
    (h : ∀ i ∈ is, Opt.Spec.Item.Ok i) :
    Opt.Act.outOfBounds ∈ loop cl (Opt.Spec.spell is)
      ↔ ∃ a, Opt.Spec.Item.opt a ∈ Opt.Spec.reached is
        ∧ (∀ c ∈ (Opt.Spec.name a).head?, c ∉ c!"ISDU")
        ∧ canonicalise (Opt.Spec.name a) ∈ Opt.Spec.obsolete := by
  have h1 := C90_exactly cl is h []
  rw [List.append_nil] at h1
  rw [h1]
  have h2 : (if is.any Opt.Spec.Item.ends = true then [] else loop cl []) = [] := by simp
  rw [h2, List.append_nil, List.mem_flatMap]
  have hr : ∀ i ∈ Opt.Spec.reached is, Opt.Spec.Item.Ok i := by
    have : ∀ i ∈ Opt.Spec.reached is, i ∈ is := by
      clear * -
      induction is with
      | nil => simp [Opt.Spec.reached]
      | cons i is ih =>
        intro x hx
        rw [Opt.Spec.reached] at hx
        split_ifs at hx
        · rw [List.mem_singleton] at hx; simp [hx]
        · rcases List.mem_cons.1 hx with rfl | hx
          · simp
          · exact List.mem_cons_of_mem _ (ih x hx)
    exact fun i hi => h i (this i hi)
  constructor
  · rintro ⟨i, hi, hm⟩
    have ho := hr i hi
    cases i with
    | file a =>
      simp only [Opt.Spec.Item.words] at hm
      rw [loop_cons, one_file cl ho] at hm
      simp at hm
    | opt a =>
      simp only [Opt.Spec.Item.words] at hm
      rw [loop_cons] at hm
      rcases List.mem_append.1 hm with hm | hm
      · exact ⟨a, hi, (OptEx.identify_skip _).1 ((OptEx.one_bounds _ _ _).1 hm).2⟩
      · cases hx : (one cl a (List.head? [])).2 <;> rw [hx] at hm <;> simp at hm
    | optArg a v =>
      simp only [Opt.Spec.Item.words] at hm
      rw [loop_cons] at hm
      rcases List.mem_append.1 hm with hm | hm
      · obtain ⟨_, f, hf, _⟩ := ho
        have := ((OptEx.one_bounds _ _ _).1 hm).2
        rw [hf] at this
        cases this
      · rw [one_optArg cl ho.1 ho.2] at hm
        split_ifs at hm <;> simp at hm
  · rintro ⟨a, hi, hc⟩
    refine ⟨.opt a, hi, ?_⟩
    simp only [Opt.Spec.Item.words]
    rw [loop_cons]
    exact List.mem_append_left _ ((OptEx.one_bounds _ _ _).2
      ⟨(hr _ hi).1, (OptEx.identify_skip _).2 hc⟩)

example : canonicalise (Opt.Spec.name c!"--static_mods") ∈ Opt.Spec.obsolete
    ∧ Opt.Act.outOfBounds ∈ loop false [c!"x", c!"--static_mods"] := by decide +kernel

end Splint
