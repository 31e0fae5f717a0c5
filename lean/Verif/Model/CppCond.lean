import Verif.Model.CppSkip
/-!
# The stack of conditionals: src/cpplib.c

What the directives for conditional compilation do with the lines of one file. A line is given by what
kind of directive it is; what the other lines do, and how a condition is evaluated, is left open.
-/
namespace Splint.CppCond
open CppSkip (Kind)

/-- The type in a frame, as it is tested: `T_ELSE`, or any of the others (conditional_skip always puts
`T_IF`; skip_if_group may put `T_IFDEF` or `T_IFNDEF`, cpplib.c:5745, but tests for `T_ELSE` only). -/
inductive FType where
  | tIf
  | tElif
  | tElse
deriving DecidableEq, Repr

/-- cppIfStackFrame, cpplib.h: without the position, and without the macro that guards the file, which is
modelled with #include. -/
structure Frame where
  succeeded : Bool
  type : FType
deriving DecidableEq, Repr

/-- The rest of the preprocessor: which directive a line is; the value of the condition (`value != 0` in
do_if, `!skip` in do_xifdef) and the state after it is evaluated; any line that is not for a conditional;
what is left of the line of an #elif that belongs to no conditional (do_elif returns before it reads the
line, cpplib.c:5473-5478). -/
structure Env (α σ : Type) where
  kind : α → Kind
  cond : σ → α → Bool × σ
  exec : σ → α → σ
  stray : σ → α → σ

variable {α σ : Type}

/-- `skip_if_group` with `any` 0, cpplib.c:5676-5860, by lines: how often it complains, the frames it
leaves above that of the caller, and the lines from where it ends. The first argument has the frames
pushed since. A line where the caller's own frame is on top and an #else, #elif or #endif comes is where
it ends; the test in 5759 fails, because the caller's frame is above the buffer's. -/
def skipLines (kind : α → Kind) : List FType → List α → Nat × List FType × List α
  | st, [] => (0, st, [])
  | st, l :: ls =>
    match kind l, st with
    | .opens, st => skipLines kind (.tIf :: st) ls
    | .other, st => skipLines kind st ls
    | _, [] => (0, [], l :: ls)
    | .endif, _ :: st => skipLines kind st ls
    | .elif, t :: st =>
      ((skipLines kind (.tElif :: st) ls).1 + (if t = .tElse then 1 else 0), (skipLines kind (.tElif :: st) ls).2)
    | .els, t :: st =>
      ((skipLines kind (.tElse :: st) ls).1 + (if t = .tElse then 1 else 0), (skipLines kind (.tElse :: st) ls).2)

theorem skipLines_le (kind : α → Kind) : ∀ (st : List FType) (ls : List α), (skipLines kind st ls).2.2.length ≤ ls.length := by
  intro st ls
  fun_induction skipLines kind st ls <;> simp only [List.length_cons, List.length_nil] at * <;> omega

/-- The frames that are left when the file ends in a skipped group; `if_succeeded` is 0 in each. -/
def leftover (st : List FType) : List Frame := st.map fun t => { succeeded := false, type := t }

/-- The lines of a file: how often the preprocessor complains, the stack at the end, and the state.
cpplib_getToken with cppReader_handleDirective, and do_if 5454-5463, do_xifdef 5552-5635, conditional_skip
5642-5668, do_elif 5470-5515, do_else 5869-5913, do_endif 5919-5988. The bottom of the stack is the
buffer's `if_stack`. -/
def run (E : Env α σ) (st : List Frame) (s : σ) (ls : List α) : Nat × List Frame × σ :=
  match ls with
  | [] => (0, st, s)
  | l :: ls =>
    match E.kind l with
    | .other => run E st (E.exec s l) ls
    | .opens =>
      if (E.cond s l).1 then run E ({ succeeded := true, type := .tIf } :: st) (E.cond s l).2 ls
      else
        let k := skipLines E.kind [] ls
        let r := run E (leftover k.2.1 ++ { succeeded := false, type := .tIf } :: st) (E.cond s l).2 k.2.2
        (k.1 + r.1, r.2)
    | .elif =>
      match st with
      | [] => let r := run E [] (E.stray s l) ls; (1 + r.1, r.2)
      | f :: st =>
        let n := if f.type = .tElse then 1 else 0
        if f.succeeded then
          let k := skipLines E.kind [] ls
          let r := run E (leftover k.2.1 ++ { f with type := .tElif } :: st) s k.2.2
          (n + k.1 + r.1, r.2)
        else if (E.cond s l).1 then
          let r := run E ({ succeeded := true, type := .tElif } :: st) (E.cond s l).2 ls
          (n + r.1, r.2)
        else
          let k := skipLines E.kind [] ls
          let r := run E (leftover k.2.1 ++ { f with type := .tElif } :: st) (E.cond s l).2 k.2.2
          (n + k.1 + r.1, r.2)
    | .els =>
      match st with
      | [] => let r := run E [] s ls; (1 + r.1, r.2)
      | f :: st =>
        let n := if f.type = .tElse then 1 else 0
        if f.succeeded then
          let k := skipLines E.kind [] ls
          let r := run E (leftover k.2.1 ++ { f with type := .tElse } :: st) s k.2.2
          (n + k.1 + r.1, r.2)
        else
          let r := run E ({ succeeded := true, type := .tElse } :: st) s ls
          (n + r.1, r.2)
    | .endif =>
      match st with
      | [] => let r := run E [] s ls; (1 + r.1, r.2)
      | _ :: st => run E st s ls
termination_by ls.length
decreasing_by
  all_goals first
    | (simp only [List.length_cons]; omega)
    | (have := skipLines_le E.kind [] ls; simp only [List.length_cons]; omega)

end Splint.CppCond
