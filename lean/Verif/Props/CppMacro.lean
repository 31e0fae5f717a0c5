import Verif.Proofs.CppJoin
import Verif.Proofs.CppSize
/-!
# C75, C76, C78, C79: expansion of macros

C75: the expansion of a macro is its replacement list with the arguments in it, and definitions with a wrong `#` or `##` are
reported. C76: `#` gives one string literal whose value is the argument as written. C78: tokens that come from different places
stay apart. C79: no buffer is too small.
-/
namespace Splint.CppMacro
open Spec

/-- The two statements of C75 for a definition: which are reported; and what the others give, but for the markers. -/
def Correct (ps : Params) (fn : Bool) (buf : List Char) (args : Nat → Arg) (str : List Char → List Char) : Prop :=
  ((collect ps fn buf).error = false ↔
    isPaste (tokens fn (body buf)) = false ∧ wellFormed ps false .none (tighten (tokens fn (body buf))) = true) ∧
  ((collect ps fn buf).error = false → ∃ out, expand (collect ps fn buf) args false = some out ∧
    erase out = erase (replaced ps args str .none (tighten (tokens fn (body buf)))))

/-- C75, for arguments without characters that are special inside of the preprocessor. -/
def C75_full : Prop :=
  ∀ (ps : Params) (fn : Bool) (buf : List Char) (args : Nat → Arg), Plain args → '@' ∉ body buf →
    ((body buf).head?.map isHor).getD false = false → (fn = false → ps = []) → Correct ps fn buf args makeString

/-! ## Examples -/

def c (s : String) : List Char := s.toList

/-- one argument -/
def one (s : String) : Nat → Arg := fun _ => { raw := c s, expanded := c s }

def two (s t : String) : Nat → Arg := fun i => if i = 0 then { raw := c s, expanded := c s, follow := c t } else { raw := c t, expanded := c t }

theorem one_plain (s : String) (h1 : '@' ∉ c s) (h2 : ¬ ['\n', '-'] <:+: c s) (h3 : paired (c s) = true) : Plain (one s) :=
  ⟨fun _ => h1, fun _ => by simp [one], fun _ => h2, fun _ => h3⟩

/-! ## It does not hold -/

/-- `#define f(x) 1.x`: a parameter is found inside of a number. -/
theorem C75_number_split : (collect [(c "x", false)] true (c "1.x")).error = false ∧
    (expand (collect [(c "x", false)] true (c "1.x")) (one "q") false).map erase = some (c "1.q") ∧
    tokens true (c "1.x") = [.num (c "1.x")] := by
  refine ⟨?_, ?_, ?_⟩ <;> decide +kernel

/-- `#define f(x) x## `, with a blank at the end, is not reported; without it, it is. -/
theorem C75_blank_missed : (collect [(c "x", false)] true (c "x## ")).error = false ∧ (collect [(c "x", false)] true (c "x##")).error = true := by
  constructor <;> decide +kernel

/-- `#define f() #y` is not reported, and the `#` is lost. -/
theorem C75_hash_missed : (collect [] true (c "#y")).error = false ∧
    (expand (collect [] true (c "#y")) (one "") false).map erase = some (c "y") := by
  constructor <;> decide +kernel

theorem C75_full_is_false : ¬ C75_full := by
  intro h
  have := ((h [(c "x", false)] true (c "x## ") (one "q") (one_plain _ (by decide) (by decide) (by decide)) (by decide) (by decide) (by simp)).1).1
    C75_blank_missed.1
  revert this
  decide +kernel

/-! ## What does hold -/

/-- Which definitions are reported, and what all others give. Compared with C75: no part of a number is a parameter, a macro with
an empty list of parameters has no `#`, and `##` before blanks at the end is allowed. -/
theorem C75_expansion_partial {ps : Params} {fn : Bool} {args : Nat → Arg} (buf : List Char) (h : Plain args) (h1 : '@' ∉ body buf)
    (h2 : numbersSafe ps (lex isHor (body buf))) (h3 : ((body buf).head?.map isHor).getD false = false)
    (h4 : ps = [] → fn = true → Tok.hash ∉ lex isHor (body buf)) :
    ((collect ps fn buf).error = false ↔
      isPaste (tokens fn (body buf)) = false ∧ wellFormed ps (blankAfter buf) .none (tighten (tokens fn (body buf))) = true) ∧
    ((collect ps fn buf).error = false → ∃ out, expand (collect ps fn buf) args false = some out ∧
      erase out = erase (replaced ps args makeString .none (tighten (tokens fn (body buf))))) :=
  collect_spec buf h h1 h2 h3 h4

theorem replaced_congr {ps : Params} {args : Nat → Arg} {s t : List Char → List Char} (h : ∀ i, s (args i).raw = t (args i).raw)
    (m : Mode) (ts : List Tok) : replaced ps args s m ts = replaced ps args t m ts := by
  fun_induction replaced ps args s m ts with
  | case1 => rfl
  | case2 _ ts ih => rw [replaced, ih]
  | case3 _ ts ih => rw [replaced, ih]
  | case4 m w ts ih =>
    rw [replaced, ih]
    congr 1
    unfold value
    split
    · rfl
    · rw [h]
  | case5 m t ts h1 h2 h3 ih =>
    cases t <;> first | exact absurd rfl (h3 _) | (rw [replaced, ih] <;> simp) | simp_all

/-- With strings as the standard says, if the arguments are `Clean`, and no blanks follow the text. -/
theorem C75_standard_partial {ps : Params} {fn : Bool} {args : Nat → Arg} (buf : List Char) (h : Plain args) (hc : ∀ i, Clean (args i).raw)
    (h1 : '@' ∉ body buf) (h2 : numbersSafe ps (lex isHor (body buf))) (h3 : ((body buf).head?.map isHor).getD false = false)
    (h4 : ps = [] → fn = true → Tok.hash ∉ lex isHor (body buf)) (h5 : blankAfter buf = false) : Correct ps fn buf args stringized := by
  have := C75_expansion_partial (ps := ps) (fn := fn) buf h h1 h2 h3 h4
  rw [h5, replaced_congr (t := stringized) fun i => makeString_eq (hc i)] at this
  exact this

/-- `#define f(x, y) x ## y + (x) #y` -/
def exBuf : List Char := c "x ## y + (x) #y"
def exPs : Params := [(c "x", false), (c "y", false)]

theorem exPlain : Plain (two "a" "\"b\"") := by
  refine ⟨fun i => ?_, fun i => ?_, fun i => ?_, fun i => ?_⟩ <;> unfold two <;> split <;> decide

example : Plain (two "a" "\"b\"") ∧ '@' ∉ body exBuf ∧ numbersSafe exPs (lex isHor (body exBuf)) ∧
    ((body exBuf).head?.map isHor).getD false = false ∧ (exPs = [] → true = true → Tok.hash ∉ lex isHor (body exBuf)) ∧
    blankAfter exBuf = false ∧ (collect exPs true exBuf).error = false ∧
    (expand (collect exPs true exBuf) (two "a" "\"b\"") false).map erase = some (c "a\"b\" + (a) \"\\\"b\\\"\"") := by
  refine ⟨exPlain, by decide +kernel, ?_, by decide +kernel, by simp [exPs], by decide +kernel, by decide +kernel, by decide +kernel⟩
  intro l hl
  have : ∀ t ∈ lex isHor (body exBuf), ∀ l, t ≠ Tok.num l := by
    have e : (lex isHor (body exBuf)).all (fun t => match t with | .num _ => false | _ => true) = true := by decide +kernel
    intro t ht l hx
    have := List.all_eq_true.1 e t ht
    rw [hx] at this
    simp at this
  exact absurd rfl (this _ hl l)

theorem exClean (i : Nat) : Clean ((two "a" "\"b\"") i).raw := by
  unfold two
  split
  · refine ⟨by decide, by decide +kernel, ?_⟩
    have e : lex isSp (c "a") = [.word (c "a")] := by decide +kernel
    simp only [e]
    intro t ht _
    obtain rfl : t = _ := by simpa using ht
    decide
  · refine ⟨by decide, by decide +kernel, ?_⟩
    have e : lex isSp (c "\"b\"") = [.lit (c "\"b\"")] := by decide +kernel
    simp only [e]
    intro t ht _
    obtain rfl : t = _ := by simpa using ht
    decide

/-- so the second theorem applies as well -/
example : ∀ i, Clean ((two "a" "\"b\"") i).raw := exClean

/-! ## C76: strings -/

/-- C76: for any argument. -/
def C76_full : Prop :=
  ∀ raw : List Char, (∀ d ∈ raw, isPrint d = true) → makeString raw = stringized raw

/-- An `@` and the blank after it are changed: the argument `'@' ` is not affected, but `@ b` is. -/
theorem C76_marker : makeString (c "a@ b") = c "\"ab\"" ∧ stringized (c "a@ b") = c "\"a@ b\"" := by
  constructor <;> decide +kernel

/-- A backslash outside of literals hides the start of the next one. -/
theorem C76_backslash : makeString (c "\\\"a\\n\"") = c "\"\\\\\"a\\n\\\"\"" ∧ stringized (c "\\\"a\\n\"") = c "\"\\\\\"a\\\\n\\\"\"" := by
  constructor <;> decide +kernel

theorem C76_full_is_false : ¬ C76_full := by
  intro h
  have := h (c "a@ b") (by decide)
  rw [C76_marker.1, C76_marker.2] at this
  revert this
  decide

/-- The string that is made of an argument (without `@`, stray backslashes and characters that cannot be printed) is that of
the standard. -/
theorem C76_string_partial {raw : List Char} (h : Clean raw) : makeString raw = stringized raw := makeString_eq h

/-- It is one string literal, whose value is the argument as written with single blanks. -/
theorem C76_literal {raw : List Char} (h : Clean raw) :
    ∃ l, makeString raw = '"' :: l ++ ['"'] ∧ litBody '"' (l ++ ['"']) = (l ++ ['"'], []) ∧ unquote l = squeezed (skipWs (lex isSp raw)) := by
  obtain ⟨h1, h2⟩ := stringized_literal h.stray
  refine ⟨inner (skipWs (lex isSp raw)), makeString_eq h, ?_, h2⟩
  simpa [stringized] using h1

theorem exString : Clean (c " a  == \"b\\n\" ") := by
  refine ⟨by decide, by decide +kernel, ?_⟩
  have e : lex isSp (c " a  == \"b\\n\" ") = [.ws (c " "), .word (c "a"), .ws (c "  "), .oth '=', .oth '=', .ws (c " "), .lit (c "\"b\\n\""), .ws (c " ")] := by
    decide +kernel
  simp only [e]
  intro t ht hw d hd
  simp only [List.mem_cons, List.not_mem_nil, or_false] at ht
  rcases ht with rfl | rfl | rfl | rfl | rfl | rfl | rfl | rfl
  all_goals first | exact absurd rfl (hw _) | (revert d; decide)

example : Clean (c " a  == \"b\\n\" ") ∧ makeString (c " a  == \"b\\n\" ") = c "\"a == \\\"b\\\\n\\\"\"" :=
  ⟨exString, by decide +kernel⟩

/-! ## C78: tokens stay apart -/

/-- C78: two tokens between which no marker is written are read again as two tokens. -/
def C78_full : Prop :=
  ∀ (a b : List Char) (d : Char), isToken a → (∀ x, a.getLast? = some x → unsafeChars x d = false) → first (a ++ d :: b) = a

/-- `a->b` from `a-` and `>b` -/
theorem C78_arrow_missed : unsafeChars '-' '>' = false ∧ first (c "->b") = c "->" := by constructor <;> decide +kernel

/-- `#define DIV(a, b) a/b` and `DIV(x, *p)`: a comment starts. -/
theorem C78_comment_missed : unsafeChars '/' '*' = false ∧ first (c "/*p") = c "/*" := by constructor <;> decide +kernel

/-- digraphs -/
theorem C78_digraph_missed : (unsafeChars '<' ':' = false ∧ first (c "<:") = c "<:") ∧ (unsafeChars '%' '>' = false ∧ first (c "%>") = c "%>") := by
  refine ⟨⟨?_, ?_⟩, ?_, ?_⟩ <;> decide +kernel

/-- names that end in a dollar -/
theorem C78_dollar_missed : unsafeChars '$' 'b' = false ∧ first (c "a$b") = c "a$b" := by constructor <;> decide +kernel

theorem C78_full_is_false : ¬ C78_full := by
  intro h
  have := h (c "-") (c "b") '>' ⟨by decide, by decide +kernel⟩ (fun x hx => by
    have : x = '-' := by simpa [c] using hx.symm
    rw [this]; exact C78_arrow_missed.1)
  revert this
  decide +kernel

/-- Apart from the pairs listed in `missed`, tokens stay apart. -/
theorem C78_apart_partial {a b : List Char} {d : Char} (ht : isToken a)
    (hu : ∀ x, a.getLast? = some x → unsafeChars x d = false ∧ missed x d = false) : first (a ++ d :: b) = a :=
  first_append ht hu

example : isToken (c "1e5") ∧ (∀ x, (c "1e5").getLast? = some x → unsafeChars x '*' = false ∧ missed x '*' = false) :=
  ⟨⟨by decide, by decide +kernel⟩, fun x hx => by
    have : x = '5' := by simpa [c] using hx.symm
    rw [this]; decide⟩

/-! ## C79: buffers -/

/-- C79: expansions do not write outside of the buffers. -/
def C79_full : Prop :=
  (∀ ps fn buf, (collect ps fn buf).size + 1 ≤ maxSize buf) ∧
  ∀ ps fn buf args restZero, ∃ out, expand (collect ps fn buf) args restZero = some out ∧ out.length ≤ xbufLen (collect ps fn buf) args

/-- `#define cat3(a, b, c) a##b c` with the arguments `p`, `q` and a name in its own expansion, before which there is a marker:
the test for a marker after `q` reads that of the next argument. -/
def crash : Nat → Arg := fun i =>
  if i = 0 then { raw := c "p", expanded := c "p", follow := c "q@-foo" }
  else if i = 1 then { raw := c "q", expanded := c "q", follow := c "@-foo" }
  else { raw := c "@-foo", expanded := c "@-foo" }

theorem C79_overrun : (collect [(c "a", false), (c "b", false), (c "c", false)] true (c "a##b c")).error = false ∧
    expand (collect [(c "a", false), (c "b", false), (c "c", false)] true (c "a##b c")) crash false = none := by
  constructor <;> decide +kernel

theorem C79_full_is_false : ¬ C79_full := by
  intro h
  obtain ⟨out, h1, _⟩ := h.2 [(c "a", false), (c "b", false), (c "c", false)] true (c "a##b c") crash false
  rw [C79_overrun.2] at h1
  cases h1

/-- The text of a definition fits in the room for it, with a null character at its end. -/
theorem C79_definition (ps : Params) (fn : Bool) (buf : List Char) : (collect ps fn buf).size + 1 ≤ maxSize buf := by
  have := collect_size ps fn buf
  have e : maxSize buf = room (body buf) + 5 := rfl
  omega

/-- The bound is reached: `#define f(x) @`. -/
example : (collect [(c "x", false)] true (c "@")).size + 1 = maxSize (c "@") := by decide +kernel

/-- An expansion fits in the room for it, unless a marker is found past the end of an argument. -/
theorem C79_expansion {d : Def} {args : Nat → Arg} {restZero : Bool} {out : List Char} (h : expand d args restZero = some out) :
    out.length ≤ xbufLen d args := by
  unfold expand at h
  split at h
  · cases h
  · cases h
    exact subst_length d args restZero

/-- This is so if no argument has an `@` in or after it. -/
theorem C79_no_overrun_partial {d : Def} {args : Nat → Arg} {restZero : Bool} (h : Plain args) :
    ∃ out, expand d args restZero = some out ∧ out.length ≤ xbufLen d args := by
  have : expand d args restZero = some (subst d args restZero) := by
    unfold expand
    rw [if_neg]
    rw [Bool.not_eq_true, List.any_eq_false]
    intro q _
    rw [no_overrun h]
    simp
  exact ⟨_, this, C79_expansion this⟩

/-- It is lost exactly if, for a parameter after `##`, the argument is a word or less after white space and a marker follows it. -/
theorem C79_lost_exactly (d : Def) (args : Nat → Arg) (restZero : Bool) :
    expand d args restZero = none ↔ ∃ q ∈ d.segs, q.2.stringify = false ∧ q.2.rawBefore = true ∧
      ∃ t, ((args q.2.arg).raw.dropWhile isSp).dropWhile isId = t ∧
        ((t = [] ∧ ['@', '-'] <+: (args q.2.arg).follow) ∨ (t = ['@'] ∧ ['-'] <+: (args q.2.arg).follow)) := by
  have key : ∀ q : List Char × Pat, overrun q.2 (args q.2.arg) = true ↔ q.2.stringify = false ∧ q.2.rawBefore = true ∧
      ∃ t, ((args q.2.arg).raw.dropWhile isSp).dropWhile isId = t ∧
        ((t = [] ∧ ['@', '-'] <+: (args q.2.arg).follow) ∨ (t = ['@'] ∧ ['-'] <+: (args q.2.arg).follow)) := by
    intro q
    unfold overrun
    simp only [Bool.and_eq_true, Bool.not_eq_true', exists_eq_left', and_assoc]
    refine and_congr_right fun _ => and_congr_right fun _ => ?_
    split
    · next h => rw [h, List.isPrefixOf_iff_prefix]; simp
    · next h => rw [h, List.isPrefixOf_iff_prefix]; simp
    · next h1 h2 =>
      constructor
      · intro h; cases h
      · rintro (⟨h, _⟩ | ⟨h, _⟩)
        · exact absurd h h1
        · exact absurd h h2
  unfold expand
  split
  · next h =>
    simp only [true_iff]
    obtain ⟨q, hq, ho⟩ := List.any_eq_true.1 h
    exact ⟨q, hq, (key q).1 ho⟩
  · next h =>
    constructor
    · intro h'; cases h'
    · rintro ⟨q, hq, ho⟩
      exact absurd (List.any_eq_true.2 ⟨q, hq, (key q).2 ho⟩) h

example : Plain (two "a" "\"b\"") := exPlain
example : expand (collect exPs true exBuf) (two "a" "\"b\"") false ≠ none := by decide +kernel

end Splint.CppMacro
