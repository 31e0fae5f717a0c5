import Verif.Tactics
/-!
# The arguments of a call

Model of `checkArgsReal` (src/exprNode.c:2506-2717), `checkOneArg` (10494-10575), `checkAnyCall`
(10577-10717), and of `functionCallSafe` (3749-3933), `checkGlobMods` (2882-3212) and
`exprNode_functionCall` (3978-4061) as far as they decide which of the arguments are checked, and which
of their side effects are side effects of the call.

Simplifications:
* whether the type of an argument matches that of its parameter (`exprNode_matchArgType`) is given, and what
  is done to check the argument further (`transferChecks_passParam`, `exprNode_checkUse`) is an event;
* an expression is represented by the references it sets (`sets`; `msets` is treated alike);
* the conversions of the format are given as the list of the arguments for which `checkOneArg` is called
  (the events `arg` of Model/Format, and of Model/Message for `checkMessageArgs`);
* the other checks of a call (order of evaluation, globals, modifies clauses, state clauses) are elsewhere;
* calls of iterators, and parameters declared with `yield` or `sef`, are left out.

The outcome `none` is an internal bug (`llassert`).
-/
namespace Splint.ArgPass

/-- a parameter -/
structure Param where
  /-- `...` -/
  elips : Bool
  /-- declared with `only` or `unique` -/
  unique : Bool
  deriving DecidableEq, Repr

/-- a list of parameters: not declared (`uentryList_isMissingParams`), `(void)`, or given -/
inductive Params
  | missing
  | void
  | list (ps : List Param)
  deriving DecidableEq, Repr

/-- an argument; `bad` is the error node -/
inductive Arg
  | bad
  | expr (fits : Bool) (abstractPtr : Bool) (sets : List Nat)
  deriving DecidableEq, Repr

inductive Special
  | none | printf | scanf | message
  deriving DecidableEq, Repr

inductive Against
  | param (i : Nat)
  | conversion
  deriving DecidableEq, Repr

inductive Event
  /-- the type of the argument does not match -/
  | type (i : Nat)
  /-- a pointer to an abstract type is passed as `void *` -/
  | abstVoid (i : Nat)
  /-- the number of arguments is wrong: "declared void", "expects at least", "expects" -/
  | voidCount (n : Nat)
  | leastCount (n m : Nat)
  | count (n m : Nat)
  /-- the format is no constant -/
  | formatConst
  /-- `transferChecks_passParam` -/
  | pass (i : Nat) (a : Against)
  /-- `checkUniqueParams` -/
  | unique (i : Nat)
  /-- `exprNode_checkUse` -/
  | use (i : Nat)
  deriving DecidableEq, Repr

/-- the node of the function: what was done so far, and what it sets -/
structure Node where
  events : List Event
  sets : List Nat
  deriving DecidableEq, Repr

def Node.event (n : Node) (e : Event) : Node := ⟨n.events ++ [e], n.sets⟩

/-- `exprNode_mergeUSs`, exprNode.c:10130-10138 -/
def Node.merge (n : Node) (sets : List Nat) : Node := ⟨n.events, n.sets ++ sets⟩

/-- `checkOneArg`, exprNode.c:10494-10575 -/
def oneArg (a : Against) (i : Nat) (sets : List Nat) (n : Node) : Node :=
  (n.event (.pass i a)).merge sets

/-- the arguments that belong to the conversions of the format, exprNode.c:1562-1762, 1880-2083, 2160-2295 -/
def convs (as : List Arg) (l : List Nat) (n : Node) : Node :=
  l.foldl (fun (n : Node) (i : Nat) => match (as[i]? : Option Arg) with
    | some (.expr _ _ sets) => oneArg .conversion i sets n
    | _ => n) n

/-- `checkPrintfArgs`, `checkScanfArgs` and `checkMessageArgs`, exprNode.c:1446-1788, 1790-2103, 2105-2316: `argno` is the
number of the arguments before `...`; the format is known if there are `conv` -/
def checkFormat (sp : Special) (nparams : Nat) (conv : Option (List Nat)) (as : List Arg) (argno : Nat) (n : Node) :
    Option Node :=
  if sp ≠ .message ∧ nparams ≠ argno + 1 then none
  else if argno = 0 then none
  else match as[argno - 1]? with
    | none => none
    | some a => match conv with
      | some l => some (convs as l n)
      | none => some (if sp = .printf ∧ a ≠ .bad then n.event .formatConst else n)

/-- what is reported about the type of an argument, exprNode.c:2603-2672 -/
def checkType (i : Nat) (a : Arg) (n : Node) : Node :=
  match a with
  | .bad => n
  | .expr fits abstractPtr _ =>
    if fits then n else if abstractPtr then n.event (.abstVoid i) else n.event (.type i)

/-- the loop over the parameters, exprNode.c:2553-2679: the node, the number of special arguments, and whether `...`
was reached -/
def argsLoop (sp : Special) (nparams : Nat) (conv : Option (List Nat)) (as : List Arg) :
    Nat → List Param → Node → Option (Node × Nat × Bool)
  | _, [], n => some (n, 0, false)
  | i, p :: ps, n =>
    if p.elips then
      if sp = .none then some (n, 0, true)
      else (checkFormat sp nparams conv as i n).map fun n => (n, i, true)
    else match as[i]? with
      | none => some (n, 0, false)
      | some a => argsLoop sp nparams conv as (i + 1) ps (checkType i a n)

/-- `checkArgsReal`, exprNode.c:2506-2717 -/
def checkArgs (sp : Special) (conv : Option (List Nat)) (params : Params) (as : List Arg) (n : Node) :
    Option (Node × Nat) :=
  match params with
  | .missing => some (n, 0)
  | .void => some (if as.length ≠ 0 then n.event (.voidCount as.length) else n, 0)
  | .list ps =>
    (argsLoop sp ps.length conv as 0 ps n).bind fun r =>
      match ps.getLast? with
      | none => none
      | some last =>
        let nargs := if r.2.2 then ps.length else as.length
        some (if ps.length ≠ nargs then
            (if last.elips then r.1.event (.leastCount nargs (ps.length - 1)) else r.1.event (.count nargs ps.length))
          else r.1, r.2.1)

/-- the parameter of `uentryList_current`, while the list is not finished; the list of `(void)` has one element -/
def current (params : Params) (i : Nat) : Option Param :=
  match params with
  | .missing => none
  | .void => if i = 0 then some ⟨false, false⟩ else none
  | .list ps => ps[i]?

/-- the body of the loop over the arguments, exprNode.c:10604-10641 -/
def anyStep (params : Params) (special : Nat) (n : Node) (a : Arg) (i : Nat) : Node :=
  match a with
  | .bad => n
  | .expr _ _ sets =>
    match current params i with
    | some p =>
      if special = 0 ∨ i + 1 < special then
        let n := oneArg (.param i) i sets n
        if p.unique then n.event (.unique i) else n
      else n
    | none => (if special = 0 then n.event (.use i) else n).merge sets

def anyLoop (params : Params) (special : Nat) : Nat → List Arg → Node → Node
  | _, [], n => n
  | i, a :: as, n => anyLoop params special (i + 1) as (anyStep params special n a i)

/-- what is called -/
inductive Callee
  /-- the name of a function, with what it may modify, and whether its exit depends on its argument -/
  | function (mods : Option (List Nat)) (condExit : Bool)
  /-- the name of a variable; `direct` tells that its type is a function type, and not only the name of one
  (`ctype_isFunction` without `ctype_realType`) -/
  | pointer (direct : Bool)
  /-- an expression without name; `strict` is one of the flags `modnomods` and `globunspec` -/
  | computed (strict : Bool)
  /-- something of unknown type -/
  | unknown
  deriving DecidableEq, Repr

structure Call where
  callee : Callee
  special : Special
  conv : Option (List Nat)
  params : Params
  args : List Arg
  /-- what the expression for the function itself sets -/
  sets : List Nat
  deriving DecidableEq, Repr

structure Result where
  events : List Event
  /-- what the call sets -/
  sets : List Nat
  /-- does it set anything (`sRef_makeUnconstrained`)? -/
  any : Bool
  deriving DecidableEq, Repr

/-- the arguments of a function of unknown type, exprNode.c:4030-4046 -/
def unknownLoop : Nat → List Arg → Node → Node
  | _, [], n => n
  | i, .bad :: as, n => unknownLoop (i + 1) as n
  | i, .expr _ _ sets :: as, n => unknownLoop (i + 1) as ((n.event (.use i)).merge sets)

/-- `exprNode_functionCall`, exprNode.c:3978-4061, with `functionCallSafe`, 3749-3933, and `checkGlobMods`, 2882-3212 -/
def call (c : Call) : Option Result :=
  match c.callee with
  | .unknown =>
    let n := unknownLoop 0 c.args ⟨[], c.sets⟩
    some ⟨n.events, n.sets, true⟩
  | .function mods condExit =>
    (checkArgs c.special c.conv c.params c.args ⟨[], c.sets⟩).bind fun r =>
      let n := anyLoop c.params r.2 0 c.args r.1
      if condExit && c.args.isEmpty then none
      else some ⟨n.events, n.sets ++ mods.getD [], mods.isNone⟩
  | .pointer direct =>
    (checkArgs .none c.conv c.params c.args ⟨[], c.sets⟩).map fun r => ⟨r.1.events, c.sets, !direct⟩
  | .computed strict =>
    (checkArgs .none c.conv c.params c.args ⟨[], c.sets⟩).map fun r =>
      ⟨(if strict then r.1 else anyLoop c.params 0 0 c.args r.1).events, c.sets, true⟩

end Splint.ArgPass
