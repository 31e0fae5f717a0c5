import Verif.Proofs.CppExpGroup
import Verif.Proofs.CppExpSafe
import Verif.Proofs.CppExpAccept
import Verif.Proofs.CppExpNum
/-! # C08, C09: expressions after `#if` -/
namespace Splint.CppExp
open CExp

/-! ## C08: the value is that of C -/

/-- C08 as stated: the value of every expression of the grammar of C, if C gives it one. -/
def C08_full : Prop :=
  ∀ (e : CExp) (v : Int), e.inGrammar = true → e.eval = some v → parse e.tokens = .value (toLong v) 0

/-- `2 * -3` is a syntax error. -/
theorem C08_full_is_false : ¬ C08_full := by
  intro h
  have := h (bin .mul (lit 2 false) (un .minus (lit 3 false))) (-6) (by decide) (by decide)
  exact absurd this (by decide +kernel)

/-- What holds of C08: the value is that of C for all expressions of the grammar of C, whichever
parentheses are left out, with all 64-bit values, provided that

* the tree, with signs moved in front of the products they begin, is one the parser can read
  (`readable`),
* that tree has a value with shift counts below 32,
* quotients and remainders that begin with a sign are signed,
* in the branches of conditionals, signed numbers are not divided by unsigned ones.

Missing: the other expressions. Each of the conditions is needed, see below. -/
theorem C08_partial (e : CExp) (v : Int) (hg : e.inGrammar = true) (hv : e.eval = some v)
    (hr : e.regroup.readable = true) (h32 : (e.regroup.evalW 32).isSome = true)
    (hq : e.signedQuotients = true) (hp : e.plainTypes false = true) : parse e.tokens = .value (toLong v) 0 := by
  obtain ⟨v', hv'⟩ := Option.isSome_iff_exists.1 h32
  have hT := inGrammar_inType e hg
  have hvv : v' = v := (regroup_agree 64 e hT hq v hv).1 v' (evalW_mono _ _ hv')
  subst hvv
  have hT' : e.regroup.inType = true := by rw [regroup_inType]; exact hT
  have hp' : e.regroup.plainTypes false = true := by rw [regroup_plainTypes]; exact hp
  have := (weval_eval e.regroup hT' hp' v' hv').1
  rw [← regroup_tokens, parse_readable _ hr, this]

/-- `-2 * 3 + (1 ? 50 : 20) % 43 << 2 == 4 && !0 || 1 / 0`. -/
example :
    let e := bin .oror (bin .andand (bin .eq (bin .lsh (bin .plus (bin .mul (un .minus (lit 2 false)) (lit 3 false))
      (bin .mod (paren (cond (lit 1 false) (lit 50 false) (lit 20 false))) (lit 43 false))) (lit 2 false)) (lit 4 false))
      (un .not_ (lit 0 false))) (bin .div (lit 1 false) (lit 0 false))
    e.inGrammar = true ∧ e.eval = some 1 ∧ e.regroup.readable = true ∧ (e.regroup.evalW 32).isSome = true ∧
      e.signedQuotients = true ∧ e.plainTypes false = true ∧ e.regroup ≠ e := by decide +kernel

/-- Signs after an operator that binds at least as tightly as `+`, and after another sign, are syntax
errors. -/
theorem C08_sign_not_read : ∀ e ∈ [bin .mul (lit 2 false) (un .minus (lit 3 false)),
      bin .plus (lit 1 false) (un .minus (lit 2 false)), un .minus (un .minus (lit 1 false)),
      un .not_ (un .minus (lit 1 false)), bin .minus (lit 1 false) (bin .mul (un .minus (lit 2 false)) (lit 3 false))],
    e.inGrammar = true ∧ e.eval.isSome = true ∧ parse e.tokens = .syntaxError := by decide +kernel

/-- So are conditionals and commas in the middle of a conditional. -/
theorem C08_middle_not_read : ∀ e ∈ [cond (lit 1 false) (cond (lit 1 false) (lit 2 false) (lit 3 false)) (lit 4 false),
      cond (lit 1 false) (bin .comma (lit 2 false) (lit 3 false)) (lit 4 false)],
    e.inGrammar = true ∧ e.eval.isSome = true ∧ parse e.tokens = .syntaxError := by decide +kernel

/-- `1 << 40` is 0. -/
theorem C08_shift_wrong : let e := bin .lsh (lit 1 false) (lit 40 false)
    e.inGrammar = true ∧ e.eval = some (2 ^ 40) ∧ parse e.tokens = .value 0 0 := by decide +kernel

/-- `-1 / 2u` is 0, but should be `2^63 - 1`. -/
theorem C08_quotient_wrong : let e := bin .div (un .minus (lit 1 false)) (lit 2 true)
    e.inGrammar = true ∧ e.regroup.readable = true ∧ e.plainTypes false = true ∧
      e.eval = some (2 ^ 63 - 1) ∧ parse e.tokens = .value 0 0 := by decide +kernel

/-- `(1 ? -1 : 0 / 1u) > 0` is false, but should be true: the conditional is unsigned. -/
theorem C08_type_wrong :
    let e := bin .gt (paren (cond (lit 1 false) (un .minus (lit 1 false)) (bin .div (lit 0 false) (lit 1 true)))) (lit 0 false)
    e.inGrammar = true ∧ e.regroup.readable = true ∧ e.signedQuotients = true ∧
      e.eval = some 1 ∧ parse e.tokens = .value 0 0 := by decide +kernel

/-- `-4611686018427387904 * 2 / 4` has the wrong sign: the product overflows without the sign in it. -/
theorem C08_overflow_wrong :
    let e := bin .div (bin .mul (un .minus (lit (2 ^ 62) false)) (lit 2 false)) (lit 4 false)
    e.inGrammar = true ∧ e.regroup.readable = true ∧ e.signedQuotients = true ∧ e.plainTypes false = true ∧
      e.eval = some (-2 ^ 61) ∧ parse e.tokens = .value (2 ^ 61) 0 := by decide +kernel

/-- The lines the parser reads: no expression whose tree is `readable` is a syntax error or confuses
the stack. -/
theorem C08_reads (e : CExp) (h : e.readable = true) : parse e.tokens ≠ .syntaxError ∧ parse e.tokens ≠ .bad := by
  rw [parse_readable e h]
  split <;> simp

example : (bin .plus (lit 1 false) (bin .mul (lit 2 false) (un .not_ (lit 3 false)))).readable = true := by decide

/-- And no others: a line that has a value and no error is spelled by a tree of that kind. -/
theorem C08_accepts (ts : List Tok) (v : Int) (hv : ∀ v u, Tok.num v u ∈ ts → toLong v = v)
    (h : parse ts = .value v 0) : ∃ e : CExp, e.readable = true ∧ e.tokens = ts := parse_accepts ts v hv h

/-- `-1 * 2 < (3)`. -/
example : parse [.op .minus, .num 1 false, .op .mul, .num 2 false, .op .lt, .op .lpar, .num 3 false, .op .rpar] =
    .value 1 0 := by decide +kernel

theorem parenthesised_facts (e : CExp) (h : e.parenthesised = true) (ht : e.inType = true) :
    e.regroup.readable = true ∧ e.signedQuotients = true ∧ (e.isPrimary = true → e.regroup.isPrimary = true) ∧
    ((∀ o x, e ≠ un o x) → ∀ o x, e.regroup ≠ un o x) := by
  have hprim : ∀ x : CExp, x.isPrimary = true → 30 ≤ x.ledge ∧ 30 ≤ x.redge := by
    intro x hx; cases x <;> simp [isPrimary] at hx <;> simp [ledge, redge]
  have hun : ∀ x : CExp, x.isPrimary = true → ∀ o y, x ≠ un o y := by
    intro x hx o y hxy; subst hxy; simp [isPrimary] at hx
  induction e with
  | lit => simp [regroup, readable, signedQuotients, isPrimary]
  | paren e ih =>
    obtain ⟨h1, h2, _⟩ := ih h ht
    simp [regroup, readable, signedQuotients, isPrimary, h1, h2]
  | un o e ih =>
    simp only [parenthesised, Bool.and_eq_true] at h
    simp only [inType, Bool.and_eq_true] at ht
    obtain ⟨h1, h2, h3, _⟩ := ih h.1 ht.2
    have := hprim _ (h3 h.2)
    have ho : o.rprio ≤ 30 := by cases o <;> decide
    refine ⟨by simp [regroup, readable, ht.1, h1]; omega, h2, by simp [isPrimary], fun h => absurd rfl (h o e)⟩
  | bin o a b iha ihb =>
    simp only [parenthesised, Bool.and_eq_true] at h
    simp only [inType, Bool.and_eq_true] at ht
    obtain ⟨h1, h2, h3, h4⟩ := iha h.1.1.1 ht.1.2
    obtain ⟨k1, k2, k3, k4⟩ := ihb h.1.2 ht.2
    have e1 := hprim _ (h3 h.1.1.2)
    have e2 := hprim _ (k3 h.2)
    have hne := hun _ (h3 h.1.1.2)
    have hreg : (bin o a b).regroup = bin o a.regroup b.regroup := by
      rw [regroup]
      rcases product_cases o a.regroup b.regroup with ⟨s, x, hx, _⟩ | h
      · exact absurd hx (hne s x)
      · exact h
    have hl : o.lprio < 30 := by cases o <;> first | decide | simp [Op.isBinary] at ht
    have hr : o.rprio ≤ 30 := by cases o <;> decide
    refine ⟨?_, ?_, by simp [isPrimary], fun _ o' x' => by rw [hreg]; simp⟩
    · rw [hreg]
      simp [readable, ht.1.1, h1, k1]
      omega
    · simp only [signedQuotients, h2, k2, Bool.and_self, Bool.true_and]
  | cond c a b ihc iha ihb =>
    simp only [parenthesised, Bool.and_eq_true] at h
    simp only [inType, Bool.and_eq_true] at ht
    obtain ⟨g1, g2, g3, _⟩ := ihc h.1.1.1.1.1 ht.1.1
    obtain ⟨h1, h2, h3, _⟩ := iha h.1.1.1.2 ht.1.2
    obtain ⟨k1, k2, k3, _⟩ := ihb h.1.2 ht.2
    have e0 := hprim _ (g3 h.1.1.1.1.2)
    have e1 := hprim _ (h3 h.1.1.2)
    have e2 := hprim _ (k3 h.2)
    refine ⟨by simp [regroup, readable, g1, h1, k1]; omega, by simp [signedQuotients, g2, h2, k2], by simp [isPrimary],
      fun _ o' x' => by simp [regroup]⟩

theorem parenthesised_regroup (e : CExp) (h : e.parenthesised = true) : e.regroup = e := by
  induction e with
  | lit => rfl
  | paren e ih => simp [regroup, ih h]
  | un o e ih => simp only [parenthesised, Bool.and_eq_true] at h; simp [regroup, ih h.1]
  | bin o a b iha ihb =>
    simp only [parenthesised, Bool.and_eq_true] at h
    rw [regroup, iha h.1.1.1, ihb h.1.2]
    cases a <;> simp [isPrimary] at h <;> rfl
  | cond c a b ihc iha ihb =>
    simp only [parenthesised, Bool.and_eq_true] at h
    simp [regroup, ihc h.1.1.1.1.1, iha h.1.1.1.2, ihb h.1.2]

theorem parenthesised_grammar (e : CExp) (h : e.parenthesised = true) (ht : e.inType = true) : e.inGrammar = true := by
  have hprim : ∀ x : CExp, x.isPrimary = true → x.grammarLevel = 14 := by
    intro x hx; cases x <;> simp [isPrimary] at hx <;> simp [CExp.grammarLevel]
  induction e with
  | lit => exact ht
  | paren e ih => exact ih h ht
  | un o e ih =>
    simp only [parenthesised, Bool.and_eq_true] at h
    simp only [inType, Bool.and_eq_true] at ht
    simp [inGrammar, ht.1, ih h.1 ht.2, hprim _ h.2]
  | bin o a b iha ihb =>
    simp only [parenthesised, Bool.and_eq_true] at h
    simp only [inType, Bool.and_eq_true] at ht
    have hl : o.grammarLevel < 14 := by cases o <;> decide
    simp [inGrammar, ht.1.1, iha h.1.1.1 ht.1.2, ihb h.1.2 ht.2, hprim _ h.1.1.2, hprim _ h.2]
    omega
  | cond c a b ihc iha ihb =>
    simp only [parenthesised, Bool.and_eq_true] at h
    simp only [inType, Bool.and_eq_true] at ht
    simp [inGrammar, ihc h.1.1.1.1.1 ht.1.1, iha h.1.1.1.2 ht.1.2, ihb h.1.2 ht.2, hprim _ h.1.1.1.1.2, hprim _ h.2]

/-- C08 for expressions in which every operand is a literal or in parentheses: then the grammar is no
matter, and only the last conditions remain. -/
theorem C08_parenthesised_partial (e : CExp) (v : Int) (hp : e.parenthesised = true) (ht : e.inType = true)
    (hq : e.plainTypes false = true) (hv : e.evalW 32 = some v) : parse e.tokens = .value (toLong v) 0 := by
  obtain ⟨h1, h2, _, _⟩ := parenthesised_facts e hp ht
  have hr := parenthesised_regroup e hp
  exact C08_partial e v (parenthesised_grammar e hp ht) (evalW_mono _ _ hv) h1 (by rw [hr, hv]; rfl) h2 hq

/-- `(-(-1)) * (2u + 3)`. -/
example :
    let e := bin .mul (paren (un .minus (paren (un .minus (lit 1 false))))) (paren (bin .plus (lit 2 true) (lit 3 false)))
    e.parenthesised = true ∧ e.inType = true ∧ e.plainTypes false = true ∧ e.evalW 32 = some 5 := by decide +kernel

/-- C08 for the literals: decimal, octal and hexadecimal numbers below `2^64` with the suffixes of C90 have
the value of the numeral, and are unsigned if the suffix says so or they are not below `2^63`. -/
theorem C08_number (base : Nat) (pre ds : String) (m : Nat) (suf : String × Bool) (hs : suf ∈ numberSuffixes)
    (hb : (base = 10 ∧ pre = "" ∧ ∃ c cs, ds.toList = c :: cs ∧ c ≠ '0') ∨ (base = 8 ∧ pre = "" ∧ ∃ cs, ds.toList = '0' :: cs) ∨
      (base = 16 ∧ (pre = "0x" ∨ pre = "0X") ∧ ds.toList ≠ []))
    (hn : numeral base ds.toList 0 = some m) (hm : m < 2 ^ 64) :
    parseNumber (pre.toList ++ ds.toList ++ suf.1.toList) = some (toLong m, suf.2 || decide (2 ^ 63 ≤ m), 0) := by
  generalize hds : ds.toList = D at *
  have hbase : base = 8 ∨ base = 10 ∨ base = 16 := by
    rcases hb with ⟨h, _⟩ | ⟨h, _⟩ | ⟨h, _⟩ <;> simp [h]
  have hloop := digitsLoop_numeral hbase hs D 0 m hn
  have h0 : toLong ((0 : Nat) : Int) = 0 := rfl
  rw [h0] at hloop
  have hdot := numeral_dot D 0 m hn
  have hsd := suffix_dot suf hs
  have hneg := toLong_neg hm
  have fin : ∀ r, r = some (toLong (m : Int), (0 : Nat), suf.2) →
      r.map (fun x => (x.1, x.2.2 || decide (x.1 < 0), x.2.1)) =
        some (toLong (m : Int), suf.2 || decide (2 ^ 63 ≤ m), 0) := by
    intro r hr
    subst hr
    simp only [Option.map_some, hneg]
  rcases hb with ⟨rfl, rfl, c, cs, rfl, hc⟩ | ⟨rfl, rfl, cs, rfl⟩ | ⟨rfl, hp, hne⟩
  · have : '.' ∉ "".toList ++ c :: cs ++ suf.1.toList := by
      simp only [List.mem_append, not_or]
      exact ⟨⟨by decide, hdot⟩, hsd⟩
    unfold parseNumber
    rw [if_neg this]
    refine fin _ ?_
    have e : "".toList ++ c :: cs ++ suf.1.toList = c :: (cs ++ suf.1.toList) := by simp
    rw [e]
    split
    · rename_i heq; simp only [List.cons.injEq] at heq; exact absurd heq.1 hc
    · rename_i heq; simp only [List.cons.injEq] at heq; exact absurd heq.1 hc
    · rename_i heq; simp only [List.cons.injEq] at heq; exact absurd heq.1 hc
    · exact hloop
  · have hd : '.' ∉ "".toList ++ '0' :: cs ++ suf.1.toList := by
      simp only [List.mem_append, not_or]
      exact ⟨⟨by decide, hdot⟩, hsd⟩
    unfold parseNumber
    rw [if_neg hd]
    refine fin _ ?_
    have e : "".toList ++ '0' :: cs ++ suf.1.toList = '0' :: (cs ++ suf.1.toList) := by simp
    rw [e]
    have hx : ∀ x t, cs ++ suf.1.toList = x :: t → x ≠ 'x' ∧ x ≠ 'X' := by
      intro x t hxt
      cases cs with
      | nil =>
        have key : ∀ p ∈ numberSuffixes, ∀ x ∈ p.1.toList, x ≠ 'x' ∧ x ≠ 'X' := by decide +kernel
        exact key suf hs x (by simp only [List.nil_append] at hxt; rw [hxt]; simp)
      | cons c cs =>
        simp only [List.cons_append, List.cons.injEq] at hxt
        obtain ⟨rfl, _⟩ := hxt
        have hn' := hn
        simp only [numeral] at hn'
        have : digitValue 8 '0' = some 0 := by decide
        rw [this] at hn'
        simp only [Option.bind_some] at hn'
        cases hd : digitValue 8 c with
        | none => rw [hd] at hn'; simp at hn'
        | some d => exact (digitValue_ne hd).2
    split
    · rename_i heq; simp only [List.cons.injEq, true_and] at heq; exact absurd rfl (hx _ _ heq).1
    · rename_i heq; simp only [List.cons.injEq, true_and] at heq; exact absurd rfl (hx _ _ heq).2
    · rename_i heq; simp only [List.cons.injEq, true_and] at heq; subst heq; exact hloop
    · rename_i h; exact absurd rfl (h _)
  · cases D with
    | nil => simp at hne
    | cons c cs =>
      rcases hp with rfl | rfl
      · have hd : '.' ∉ "0x".toList ++ c :: cs ++ suf.1.toList := by
          simp only [List.mem_append, not_or]
          exact ⟨⟨by decide, hdot⟩, hsd⟩
        unfold parseNumber
        rw [if_neg hd]
        exact fin _ hloop
      · have hd : '.' ∉ "0X".toList ++ c :: cs ++ suf.1.toList := by
          simp only [List.mem_append, not_or]
          exact ⟨⟨by decide, hdot⟩, hsd⟩
        unfold parseNumber
        rw [if_neg hd]
        exact fin _ hloop

/-- `0xfFuL`. -/
example : numeral 16 "fF".toList 0 = some 255 ∧ ("uL", true) ∈ numberSuffixes := by decide

/-- The suffix `LL` of C99 is reported as an error. -/
theorem C08_long_long_error : parseNumber "1LL".toList = some (1, false, 1) := by decide +kernel

/-! ## C09: the stack is never left -/

/-- C09 as stated: every line has a value or an error. -/
def C09_full : Prop := ∀ ts : List Tok, parse ts ≠ .bad ∧ parse ts ≠ .trap

/-- `1 : 2` looks at the slot below the bottom of the stack. -/
theorem C09_full_is_false : ¬ C09_full := by
  intro h
  exact absurd (h [.num 1 false, .op .colon, .num 2 false]).1 (by decide +kernel)

/-- An empty line and `(` return a value that was never written; `1 )` looks at the operator of the
bottom, which was never written; `1 : 2` at the slot below the bottom; `&& 1`, `1 || && 1`, `, 1 : 2` and
`1 ? : 2 : 3` at operands that were never written. -/
theorem C09_not_safe : ∀ ts ∈ [[], [.op .lpar], [.num 1 false, .op .rpar], [.num 1 false, .op .colon, .num 2 false],
      [.op .andand, .num 1 false], [.num 1 false, .op .oror, .op .andand, .num 1 false],
      [.op .comma, .num 1 false, .op .colon, .num 2 false],
      [.num 1 false, .op .quest, .op .colon, .num 2 false, .op .colon, .num 3 false]],
    parse ts = .bad := by decide +kernel

/-- `(-9223372036854775807 - 1) / -1`, written so that it is read, and `(-1) * (-9223372036854775807 - 1)`
crash. -/
theorem C09_traps :
    let m := paren (bin .minus (un .minus (lit (2 ^ 63 - 1) false)) (lit 1 false))
    let n := paren (un .minus (lit 1 false))
    parse (bin .div m n).tokens = .trap ∧ parse (bin .mod m n).tokens = .trap ∧
      parse (bin .mul n m).tokens = .trap ∧ parse (bin .rsh n (lit 32 false)).tokens = .trap := by decide +kernel

/-- What holds of C09: lines that pass a simple check from left to right (`Tok.safe`: not empty,
parentheses balanced, `&&`, `||`, `?`, `:` and commas directly after an operand, a `?` or a comma before
each colon) stay in the stack and use only what was written, however wrong they are otherwise. Without
`*`, `/`, `%`, `<<` and `>>` they do not crash either.

Missing: the other lines, see `C09_not_safe` and `C09_traps`. -/
theorem C09_partial (ts : List Tok) (h : Tok.safe ts = true) : parse ts ≠ .bad ∧
    ((∀ o, Tok.op o ∈ ts → o.risky = false) → parse ts ≠ .trap) := parse_safe ts h

/-- `1 2 + ) ) ! ~ (` is not safe, but `( 1 2 + - ) ! 3 && ( ) ( 4 )` is. -/
example : Tok.safe [.op .lpar, .num 1 false, .num 2 false, .op .plus, .op .minus, .op .rpar, .op .not_, .num 3 false,
    .op .andand, .op .lpar, .op .rpar, .op .lpar, .num 4 false, .op .rpar] = true := by decide

/-- For every line, safe or not, there is room on the stack whenever an operator is pushed. -/
theorem C09_room (ts : List Tok) (o : Op) (s s' : State) (h : runToks ts init = .next s)
    (hr : reduceLoop o.lprio s = .next s') :
    s'.below.length + 1 < (if s'.below.length + 1 = s'.cap then 2 * s'.cap else s'.cap) := by
  have h1 := runToks_room ts init s (by simp [init]) h
  have h2 := reduceLoop_room o.lprio _ s s' (Nat.le_refl _) hr
  split <;> omega

/-- Twenty open parentheses fill the first stack. -/
example : ∃ s, runToks (List.replicate 20 (.op .lpar)) init = .next s ∧ reduceLoop Op.lpar.lprio s = .next s ∧
    s.below.length = 20 ∧ s.cap = 40 := by
  refine ⟨(List.replicate 20 ()).foldl (fun s _ => match push .lpar s with | .next s => s | _ => s) init, ?_, ?_, ?_, ?_⟩ <;>
    decide +kernel

end Splint.CppExp
