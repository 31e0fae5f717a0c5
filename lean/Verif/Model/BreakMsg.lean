import Verif.Model.Clauses
/-!
# Messages about break and continue

Model of `exprNode_continue` and `exprNode_break` (src/exprNode.c:8014-8182) as functions of what they ask
the context (`Ctx.query` in Model/Clauses).
-/
namespace Splint.Clauses

/-- What a `break` is preceded by. -/
inductive BreakQual
  | none_ | safe | inner | loop | switch_
  deriving DecidableEq, Repr

/-- What a `continue` is preceded by. -/
inductive ContQual
  | none_ | safe | inner
  deriving DecidableEq, Repr

inductive Jump
  | brk (q : BreakQual)
  | cont (q : ContQual)
  deriving DecidableEq, Repr

/-- The flags under which a message is reported; `syntax_` with the text of the message. -/
inductive JMsg
  | loopLoopBreak | switchLoopBreak | loopSwitchBreak | switchSwitchBreak
  | loopLoopContinue
  | notInnerContinue
  | notInside | notDeepSwitch | notDeepLoop | breaksSwitch | breaksLoop
  deriving DecidableEq, Repr

/-- exprNode.c:8014-8055 and 8057-8182; `none` outside is an internal bug report (a clause that is no loop
and no switch where one is expected). -/
def jumpMessage (j : Jump) (q : Clause × Clause × Bool × Bool × Bool × Bool) : Option (Option JMsg) :=
  let (brkC, next, deepLoop, deepSwitch, deepLoopSwitch, _) := q
  match j with
  | .cont .safe => some none
  | .cont .inner => some (if deepLoop then none else some .notInnerContinue)
  | .cont .none_ => some (if deepLoop then some .loopLoopContinue else none)
  | .brk bq =>
    if brkC = .none_ then some (some .notInside)
    else match bq with
      | .safe => some none
      | .inner =>
        if brkC = .switch_ then some (if deepSwitch then none else some .notDeepSwitch)
        else some (if deepLoop then none else some .notDeepLoop)
      | .loop => some (if brkC = .switch_ then some .breaksSwitch else none)
      | .switch_ => some (if brkC ≠ .switch_ then some .breaksLoop else none)
      | .none_ =>
        if brkC = .switch_ then
          match next with
          | .none_ => some none
          | .while_ | .doWhile | .for_ | .iter => some (some .loopSwitchBreak)
          | .switch_ => some (some .switchSwitchBreak)
          | _ => none
        else if deepLoop then some (some .loopLoopBreak)
        else if deepLoopSwitch then some (some .switchLoopBreak)
        else some none

end Splint.Clauses
