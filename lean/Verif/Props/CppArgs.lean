import Verif.Proofs.CppArgs
/-!
# C77: the arguments of a macro call

A call of a macro ends at its closing parenthesis, its arguments are what is between the commas outside of inner parentheses,
and a wrong number of them is reported.
-/
namespace Splint.CppArgs
open Spec

/-- What to say of a number of arguments. -/
def judged (nargs : Nat) (va : Bool) (n : Nat) : Verdict :=
  if n = nargs then .ok else if va = true ∧ n + 1 = nargs then .restZero else .error

/-- C77: after the opening parenthesis. -/
def C77_full : Prop :=
  ∀ (nargs : Nat) (va : Bool) (as : List (List AT)) (r : List AT), (va = true → 0 < nargs) → as ≠ [] → areArgs nargs va 0 as →
    call nargs va (joined as ++ .rp :: r) =
      some (judged nargs va (given nargs as), (List.range nargs).map (fun k => as.getD k []), r)

/-- `f()` for a macro with one parameter is reported, though its argument may be empty; `f( )` is not. -/
theorem C77_empty_reported : call 1 false [.rp] = some (.error, [[]], []) ∧
    call 1 false [.txt [' '], .rp] = some (.ok, [[.txt [' ']]], []) := by
  constructor <;> decide +kernel

theorem C77_full_is_false : ¬ C77_full := by
  intro h
  have := h 1 false [[]] [] (by simp) (by simp) (by
    intro k a hk
    cases k with
    | zero =>
      simp only [List.getElem?_cons_zero, Option.some.injEq] at hk
      subst hk
      refine ⟨⟨fun q hq => by simp at hq; subst hq; simp [closes], rfl⟩, ?_⟩
      simp only [takesRest, Bool.false_and, Bool.false_eq_true, if_false]
      intro q hq
      simp at hq
    | succ k => simp at hk)
  have e := C77_empty_reported.1
  simp only [joined, List.nil_append] at this
  rw [e] at this
  simp [judged, given] at this

/-! ## What holds -/

/-- The arguments of a call are exactly those of the standard, and what remains is what follows the parenthesis. -/
theorem C77_arguments (nargs : Nat) (va : Bool) (l : List AT) (as : List (List AT)) (r : List AT) :
    scan nargs va 0 l = some (as, r) ↔ l = joined as ++ .rp :: r ∧ as ≠ [] ∧ areArgs nargs va 0 as :=
  ⟨scan_sound nargs va 0 l as r, fun ⟨h, h1, h2⟩ => h ▸ scan_complete nargs va r as 0 h1 h2⟩

/-- `f(a, (b, c), d)` for two parameters, with and without a rest -/
example : scan 2 true 0 [.txt ['a'], .comma, .lp, .txt ['b'], .comma, .txt ['c'], .rp, .comma, .txt ['d'], .rp, .txt [';']] =
      some ([[.txt ['a']], [.lp, .txt ['b'], .comma, .txt ['c'], .rp, .comma, .txt ['d']]], [.txt [';']]) ∧
    scan 2 false 0 [.txt ['a'], .comma, .lp, .txt ['b'], .comma, .txt ['c'], .rp, .comma, .txt ['d'], .rp, .txt [';']] =
      some ([[.txt ['a']], [.lp, .txt ['b'], .comma, .txt ['c'], .rp], [.txt ['d']]], [.txt [';']]) := by
  constructor <;> decide +kernel

/-- A call is reported as not ended exactly if no parenthesis closes it. -/
theorem C77_unterminated (nargs : Nat) (va : Bool) (l : List AT) :
    call nargs va l = none ↔ ∀ p r, l = p ++ .rp :: r → ¬ balanced p := by
  have e : call nargs va l = none ↔ scan nargs va 0 l = none := by simp [call]
  rw [e]
  refine ⟨scan_none nargs va 0 l, fun h => ?_⟩
  cases hs : scan nargs va 0 l with
  | none => rfl
  | some x =>
    exfalso
    obtain ⟨h1, h2, h3⟩ := scan_sound nargs va 0 l x.1 x.2 hs
    refine h _ _ h1 ?_
    -- arguments joined by commas are balanced
    have key : ∀ (as : List (List AT)), (∀ a ∈ as, balanced a) → balanced (joined as) := by
      intro as
      induction as with
      | nil => intro _; exact ⟨fun q hq => by simp [joined] at hq; subst hq; simp [closes], rfl⟩
      | cons a as ih =>
        intro hb
        have ha := hb a (by simp)
        by_cases hn : as = []
        · subst hn; exact ha
        · have hi := ih fun b hb' => hb b (by simp [hb'])
          rw [joined_cons _ _ hn]
          constructor
          · intro q hq
            rcases List.prefix_or_prefix_of_prefix hq (List.prefix_append a _) with hq2 | ⟨c, rfl⟩
            · exact ha.1 q hq2
            · have hc := (List.prefix_append_right_inj _).1 hq
              have ho := ha.2
              rw [closes_append, opens_append]
              cases c with
              | nil => simp only [closes, opens, List.count_nil] at *; omega
              | cons t c =>
                obtain ⟨rfl, hc2⟩ := List.cons_prefix_cons.1 hc
                have := hi.1 c hc2
                rw [closes_cons, opens_cons]
                simp
                omega
          · have h1 := ha.2
            have h2 := hi.2
            rw [closes_append, opens_append, closes_cons, opens_cons]
            simp
            omega
    refine key _ fun a ha => ?_
    obtain ⟨k, hk⟩ := List.getElem?_of_mem ha
    exact (h3 k a hk).1

example : call 1 false [.txt ['a'], .lp, .rp] = none ∧ call 1 false [.lp, .rp, .rp] = some (.ok, [[.lp, .rp]], []) := by
  constructor <;> decide +kernel

theorem number_eq (nargs : Nat) (as : List (List AT)) (h : ¬ (nargs ≠ 0 ∧ as.map textOf = [[]])) :
    number nargs as = given nargs as := by
  unfold number given
  split
  · next a =>
    have hd : ∀ l : List Char, l.dropWhile CppMacro.isSp = [] ↔ ∀ c ∈ l, CppMacro.isSp c = true := by
      intro l
      induction l with
      | nil => simp
      | cons x l ih => by_cases hx : CppMacro.isSp x = true <;> simp [hx, ih]
    by_cases h0 : nargs = 0
    · subst h0
      simp only [if_true, true_and, textOf]
      by_cases hx : ∀ c ∈ a.flatMap AT.text, CppMacro.isSp c = true
      · rw [if_pos ((hd _).2 hx), if_pos hx]
      · rw [if_neg (fun e => hx ((hd _).1 e)), if_neg hx]
    · have : textOf a ≠ [] := fun e => h ⟨h0, by simp [e]⟩
      simp [h0, this]
  · next h' =>
    split
    · next a => exact absurd rfl (h' a)
    · rfl

/-- The number of arguments is judged as it should be, except for an empty argument of a macro that has parameters. -/
theorem C77_number_partial (nargs : Nat) (va : Bool) (as : List (List AT)) (r : List AT) (hv : va = true → 0 < nargs) (h1 : as ≠ [])
    (h2 : areArgs nargs va 0 as) (h3 : ¬ (nargs ≠ 0 ∧ as.map textOf = [[]])) :
    call nargs va (joined as ++ .rp :: r) =
      some (judged nargs va (given nargs as), (List.range nargs).map (fun k => as.getD k []), r) := by
  unfold call
  rw [scan_complete nargs va r as 0 h1 h2]
  simp only [Option.map_some, Option.some.injEq, Prod.mk.injEq, and_true]
  rw [number_eq nargs as h3]
  generalize given nargs as = n
  unfold verdict judged
  cases va with
  | false =>
    simp only [Bool.false_eq_true, and_false, if_false, false_and]
    split_ifs <;> first | rfl | omega
  | true =>
    have := hv rfl
    simp only [and_true, true_and]
    split_ifs <;> first | rfl | omega

/-- In that case the macro is taken to be called without arguments. -/
theorem C77_empty_exactly (nargs : Nat) (va : Bool) (a r : List AT) (h0 : nargs ≠ 0) (h1 : areArgs nargs va 0 [a]) (h2 : textOf a = []) :
    call nargs va (a ++ .rp :: r) = some (if nargs = 1 ∧ va = true then .restZero else .error,
      (List.range nargs).map (fun k => [a].getD k []), r) := by
  unfold call
  have := scan_complete nargs va r [a] 0 (by simp) h1
  simp only [joined] at this
  rw [this]
  simp only [Option.map_some, Option.some.injEq, Prod.mk.injEq, and_true, number, h0, if_false, h2, if_true]
  unfold verdict
  have : 0 < nargs := by omega
  simp only [h0, false_and, if_false, this, if_true]
  by_cases hn : nargs = 1
  · simp [hn]
  · have : ¬ (0 + 1 = nargs) := by omega
    simp [hn, this]

theorem exArgs : areArgs 2 false 0 [[.txt ['a']], [.lp, .comma, .rp]] := by
  intro k a hk
  match k with
  | 0 =>
    simp only [List.getElem?_cons_zero, Option.some.injEq] at hk
    subst hk
    exact (scan_sound 2 false 0 [.txt ['a'], .rp] [[.txt ['a']]] [] (by decide +kernel)).2.2 0 _ rfl
  | 1 =>
    simp only [List.getElem?_cons_succ, List.getElem?_cons_zero, Option.some.injEq] at hk
    subst hk
    exact (scan_sound 2 false 1 [.lp, .comma, .rp, .rp] [[.lp, .comma, .rp]] [] (by decide +kernel)).2.2 0 _ rfl
  | k + 2 => simp at hk

example : areArgs 2 false 0 [[.txt ['a']], [.lp, .comma, .rp]] ∧ ¬ ((2 : Nat) ≠ 0 ∧ [[AT.txt ['a']], [.lp, .comma, .rp]].map textOf = [[]]) :=
  ⟨exArgs, by simp⟩

example : areArgs 1 false 0 [[.txt []]] ∧ textOf [.txt []] = [] :=
  ⟨(scan_sound 1 false 0 [.txt [], .rp] [[.txt []]] [] (by decide +kernel)).2.2, rfl⟩

end Splint.CppArgs
