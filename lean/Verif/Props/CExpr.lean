import Verif.Proofs.CExprEval
import Verif.Proofs.ConstraintTerm
/-! C25, C29, C30: bounds expressions. -/
namespace Splint
open Bounds Bounds.Spec Bounds.Expr

namespace BoundsEx

/-- references are the same only if they are equal -/
abbrev sim : Nat → Nat → Bool := fun r s => r == s

abbrev x : Expr := .term (.ref 0 none)
abbrev y : Expr := .term (.ref 1 none)
abbrev p : Expr := .term (.ref 2 none)
/-- a reference to the constant 5 -/
abbrev five : Expr := .term (.ref 3 (some 5))

/-- `x` is 3, `y` is 7, `p` points to the start of a buffer of 10 elements, `five` is 5 -/
def ρ : State where
  ref | 0 => .int 3 | 1 => .int 7 | 2 => .ptr 0 0 | 3 => .int 5 | _ => .int 0
  node _ := .int 0
  size _ _ := 9

theorem same : Same sim ρ := by intro r s h; rw [eq_of_beq h]

end BoundsEx

/-- Simplification preserves the value of every expression that has one. -/
def C25_full : Prop :=
  ∀ (sim : Nat → Nat → Bool) (ρ : State) (e : Expr) (v : Val),
    Same sim ρ → Fits ρ e → eval ρ e = some v → eval ρ (simplify sim e) = some v

/-- `10 - (3 - y)` becomes `(0 - y) + 7`: the operator is read before `removeZero` changes it. -/
theorem C25_full_is_false : ¬C25_full := by
  intro h
  have := h BoundsEx.sim BoundsEx.ρ (.bin .minus (.lit 10) (.bin .minus (.lit 3) BoundsEx.y)) (.int 14)
    BoundsEx.same (by simp [Fits, TermFits]) (by decide +kernel)
  revert this
  decide +kernel

/-- `10 + (0 - y)` becomes `y + 10` -/
theorem C25_minus_lost :
    simplify BoundsEx.sim (.bin .plus (.lit 10) (.bin .minus (.lit 0) BoundsEx.y))
      = .bin .plus BoundsEx.y (.lit 10) := by decide +kernel

/-- the difference of two constants that have names, or of a literal and a named constant, becomes
their sum -/
theorem C25_difference_is_sum :
    simplify BoundsEx.sim (.bin .minus BoundsEx.five BoundsEx.five) = .lit 10
    ∧ simplify BoundsEx.sim (.bin .minus (.lit 7) BoundsEx.five) = .lit 12 := by decide +kernel

/-- `maxSet(x + p)`, with the pointer on the right, becomes `maxSet(x) - p` -/
theorem C25_pointer_right :
    eval BoundsEx.ρ (.un .maxSet (.bin .plus BoundsEx.x BoundsEx.p)) = some (.int 6)
    ∧ eval BoundsEx.ρ (simplify BoundsEx.sim (.un .maxSet (.bin .plus BoundsEx.x BoundsEx.p)))
      = none := by decide +kernel

/-- a literal that does not fit into an `int` is changed -/
theorem C25_truncated :
    simplify BoundsEx.sim (.bin .plus BoundsEx.x (.lit (2 ^ 31)))
      = .bin .plus BoundsEx.x (.lit (-(2 ^ 31))) := by decide +kernel

/-- Simplification preserves the value of regular expressions (`Spec.Regular`), in which a named
constant occurs only as a right operand, `c - e` not as a right operand, and the operands of `-` do
not begin with the same variable; under `maxSet` and the like, the pointer is on the left of `+`, and
the literals are small.  Missing: the other expressions, for which it can fail as shown above. -/
theorem C25_value_partial {sim : Nat → Nat → Bool} {ρ : State} {e : Expr} {k : Option Term}
    (hr : Regular sim Const (fun _ => True) True false k e) (ht : Typed ρ false e) (hf : Fits ρ e) (hm : mag e < 2 ^ 31)
    {v : Val} (hv : eval ρ e = some v) : eval ρ (simplify sim e) = some v :=
  (simplify_inv e (fun _ h => h) hm ⟨hr, hv, ht, hf, Nat.le_refl _⟩).1.val

/-- `maxSet(((2 + p) + x) - 5)` -/
example : ∃ e k v, Regular BoundsEx.sim Const (fun _ => True) True false k e
    ∧ Typed BoundsEx.ρ false e ∧ Fits BoundsEx.ρ e ∧ mag e < 2 ^ 31 ∧ eval BoundsEx.ρ e = some v ∧ simplify BoundsEx.sim e ≠ e := by
  refine ⟨.un .maxSet (.bin .minus (.bin .plus (.bin .plus (.lit 2) BoundsEx.p) BoundsEx.x) (.lit 5)),
    some (.ref 2 none), .int 9, ?_, ?_, ?_, by decide, by decide +kernel, by decide +kernel⟩
  · refine .un (.binC (.binG (s := .ref 0 none) (.cplus (.lit 2) (.term rfl)) (.term rfl) trivial ?_) (.lit 5))
    rintro _ t ⟨⟩; rfl
  · refine ⟨⟨⟨⟨trivial, trivial, rfl, fun _ _ => .inl (.lit 2)⟩, trivial, rfl, fun _ _ => .inr ?_⟩,
      trivial, rfl, by intro _ h; cases h⟩, 0, 0, rfl⟩
    intro v hv; cases hv; rfl
  · simp [Fits, TermFits]

/-- Simplification of a constant expression yields its value. -/
theorem C25_constants {sim : Nat → Nat → Bool} {ρ : State} {e : Expr}
    (hc : Const e) (hf : Fits ρ e) (hm : mag e < 2 ^ 31) {v : Val} (hv : eval ρ e = some v) :
    ∃ n, simplify sim e = .lit n ∧ v = .int n := by
  obtain ⟨n, h1, h2, _⟩ := const_inv (sim := sim) hm hc hv hf (Nat.le_refl _)
  exact ⟨n, h1, h2⟩

/-- `(7 - 5) - 9` -/
example : Const (.bin .minus (.bin .minus (.lit 7) (.lit 5)) (.lit 9)) :=
  .bin (.bin (.lit 7) (.lit 5)) (.lit 9)

/-- Simplification of a regular expression moves all its constants into one literal at the end: the
result is regular with literals as the only constants, and does not begin with one. -/
theorem C25_form_partial {sim : Nat → Nat → Bool} {ρ : State} {e : Expr} {k : Option Term}
    (hr : Regular sim Const (fun _ => True) True false k e) (ht : Typed ρ false e) (hf : Fits ρ e) (hm : mag e < 2 ^ 31)
    (hv : (eval ρ e).isSome) :
    Regular sim IsLit (fun _ => True) True false k (simplify sim e)
    ∧ ∀ n b, simplify sim e ≠ .bin .plus (.lit n) b := by
  obtain ⟨v, hv⟩ := Option.isSome_iff_exists.1 hv
  obtain ⟨h1, h2⟩ := simplify_inv e (fun _ h => h) hm ⟨hr, hv, ht, hf, Nat.le_refl _⟩
  exact ⟨h1.reg, fun n b h => by have := h2 _ _ h; simp [isLit] at this⟩

/-- Leaving out a zero, as in `a - (0 - b)`, preserves the value of every expression that has one. -/
theorem C25_removeZero {ρ : State} {e : Expr} {v : Val} (h : eval ρ e = some v) :
    eval ρ (removeZero e) = some v := by
  unfold removeZero
  split
  · next op a b =>
    unfold dropZero
    split
    · next o t =>
      simp only [eval, evalTerm] at h ⊢
      cases ha : eval ρ a with
      | none => simp [ha] at h
      | some x =>
        cases ht : eval ρ t with
        | none => simp [ha, ht] at h
        | some y =>
          rw [ha, ht] at h
          obtain ⟨xb, xo⟩ := x
          obtain ⟨yb, yo⟩ := y
          cases op <;> cases o <;> cases xb <;> cases yb <;>
            simp_all [Val.apply, Val.add, Val.sub, BinOp.combine] <;> (rw [← h]) <;> congr 1 <;> omega
    · exact h
  · exact h

/-- `x - (0 - y)` -/
example : removeZero (.bin .minus BoundsEx.x (.bin .minus (.lit 0) BoundsEx.y))
      = .bin .plus BoundsEx.x BoundsEx.y
    ∧ eval BoundsEx.ρ (.bin .minus BoundsEx.x (.bin .minus (.lit 0) BoundsEx.y)) = some (.int 10) := by
  decide +kernel

/-- Replacing `old` by `new` does not change the value of an expression in a state in which the two
are equal. -/
theorem C29_replace {sim : Nat → Nat → Bool} {ρ : State} (hs : Same sim ρ)
    {old new e : Expr} (ho : Fits ρ old) (he : Fits ρ e) (heq : eval ρ old = eval ρ new) :
    eval ρ (replace sim old new e) = eval ρ e :=
  Expr.replace_eval hs ho he heq

example : Same BoundsEx.sim BoundsEx.ρ ∧ Fits BoundsEx.ρ BoundsEx.y
    ∧ eval BoundsEx.ρ BoundsEx.y = eval BoundsEx.ρ (.bin .plus BoundsEx.x (.lit 4))
    ∧ replace BoundsEx.sim BoundsEx.y (.bin .plus BoundsEx.x (.lit 4))
        (.un .maxSet (.bin .plus BoundsEx.p BoundsEx.y))
      = .un .maxSet (.bin .plus BoundsEx.p (.bin .plus BoundsEx.x (.lit 4))) :=
  ⟨BoundsEx.same, by simp [Fits, TermFits], by decide, by decide⟩

/-- The same for constraints. -/
theorem C29_constraint {sim : Nat → Nat → Bool} {ρ : State} (hs : Same sim ρ)
    {old new : Expr} {c : Constraint} (ho : Fits ρ old) (hl : Fits ρ c.l) (hr : Fits ρ c.r)
    (heq : eval ρ old = eval ρ new) : Holds ρ (c.replace sim old new) ↔ Holds ρ c := by
  simp only [Holds, Constraint.replace, C29_replace hs ho hl heq, C29_replace hs ho hr heq]

example : Constraint.replace BoundsEx.sim BoundsEx.y (.lit 7) ⟨BoundsEx.y, .gte, .lit 2⟩
    = ⟨.lit 7, .gte, .lit 2⟩ := by decide

/-- The occurs-check says yes exactly if some part is similar to what is looked for. -/
theorem C29_search {sim : Nat → Nat → Bool} {old e : Expr} :
    search sim old e = true ↔ ∃ s, Part s e ∧ similar sim s old = true :=
  Expr.search_iff

/-- If the occurs-check says no, nothing is replaced. -/
theorem C29_absent {sim : Nat → Nat → Bool} {old new e : Expr} (h : search sim old e = false) :
    replace sim old new e = e :=
  Expr.replace_absent h

example : search BoundsEx.sim BoundsEx.y (.bin .plus BoundsEx.p BoundsEx.x) = false := by decide

/-- Similar expressions have the same value. -/
theorem C29_similar {sim : Nat → Nat → Bool} {ρ : State} (hs : Same sim ρ) {e f : Expr}
    (he : Fits ρ e) (hf : Fits ρ f) (h : similar sim e f = true) : eval ρ e = eval ρ f :=
  Expr.similar_eval hs he hf h

/-- a named constant is similar to the literal -/
example : similar BoundsEx.sim (.bin .plus BoundsEx.x BoundsEx.five) (.bin .plus BoundsEx.x (.lit 5))
    = true := by decide

/-- If what is put in does not contain what is replaced, then that no longer occurs afterwards as a
variable. -/
theorem C29_gone {sim : Nat → Nat → Bool} {t : Term} {new e : Expr}
    (h : search sim (.term t) new = false) :
    search sim (.term t) (replace sim (.term t) new e) = false := by
  induction e with
  | term u =>
    simp only [replace]
    split
    · exact h
    · next hn => simpa [search] using hn
  | un o e ih => simpa [replace, similar, search] using ih
  | bin o a b iha ihb => simpa [replace, similar, search] using ⟨iha, ihb⟩

example : search BoundsEx.sim BoundsEx.y (.bin .plus BoundsEx.x (.lit 4)) = false := by decide

/-- Simplification of every expression returns: the recursion is no deeper than eight times the
number of its nodes. -/
theorem C30_expression (sim : Nat → Nat → Bool) (e : Expr) :
    ∃ f, simplifyN sim (8 * size e) e = some f := by
  obtain ⟨y, hy, _⟩ := simplifyN_some sim (bound e) e (weight_bound e)
  exact ⟨y, hy⟩

/-- Simplification of every constraint returns: the sides are exchanged no more often than sixteen
times the number of its nodes. -/
theorem C30_constraint (sim : Nat → Nat → Bool) (c : Constraint) :
    ∃ d, Constraint.simplifyN sim (16 * (size c.l + size c.r)) c = some d :=
  Constraint.simplifyN_bound sim c

/-- More room for the recursion does not change the result, so that there is one. -/
theorem C30_one_result {sim : Nat → Nat → Bool} {c d d' : Constraint} {m n : Nat}
    (h : Constraint.simplifyN sim m c = some d) (h' : Constraint.simplifyN sim n c = some d') :
    d = d' :=
  (Constraint.simplify_of sim h).symm.trans (Constraint.simplify_of sim h')

/-- A constraint is left alone exactly if one of its sides has at least 20 operators and operands. -/
theorem C30_too_deep (c : Constraint) :
    c.tooDeep = true ↔ 20 ≤ nodes c.l ∨ 20 ≤ nodes c.r := by
  have h : ∀ e : Expr, depth e = nodes e := by
    intro e
    induction e with
    | term => rfl
    | un _ _ ih => simp [depth, nodes, ih]
    | bin _ _ _ iha ihb => simp [depth, nodes, iha, ihb]; omega
  simp only [Constraint.tooDeep, h, decide_eq_true_eq]
  split <;> omega

theorem C30_left_alone (sim : Nat → Nat → Bool) {c : Constraint}
    (h : 20 ≤ nodes c.l ∨ 20 ≤ nodes c.r) : Constraint.simplify sim c = c := by
  refine Constraint.simplify_of sim (n := 1) ?_
  rw [Constraint.simplifyN, if_pos ((C30_too_deep c).2 h)]

example : ∃ c : Constraint, 20 ≤ nodes c.r ∧ nodes c.l = 1 :=
  ⟨⟨BoundsEx.x, .gte, (List.replicate 10 BoundsEx.y).foldl (.bin .plus) (.lit 1)⟩, by decide⟩

/-- `5 <= x + 3` is exchanged once and becomes `x >= 2` -/
example : Constraint.simplifyN BoundsEx.sim 1 ⟨.lit 5, .lte, .bin .plus BoundsEx.x (.lit 3)⟩ = none
    ∧ Constraint.simplifyN BoundsEx.sim 2 ⟨.lit 5, .lte, .bin .plus BoundsEx.x (.lit 3)⟩
      = some ⟨BoundsEx.x, .gte, .lit 2⟩ := by decide +kernel

end Splint
