import Verif.Model.Usymtab
/-!
The marks for the uses of variables: `uentry_setUsed` (src/uentry.c:10686-10796, `e->used`), how they are
handed on when branches are merged (`uentry_setState`, 10072-10088; `uentry_mergeUses`, 10090-10100;
`uentry_mergeSetStates`, 10660-10666), and the messages of `usymtab_allUsed` (src/usymtab.c:3470-3725) that
`usymtab_exitScope` (4410-4566) asks for.

The state of an entry of Model/Usymtab is its mark here.  `uentry_mergeState` joins the marks whether or not
execution goes on after the branch (it calls `uentry_mergeSetStates` in any case), so the flags of the
branches do not matter.  All entries are variables of the user's files that are not parameters and not of
function type; every message is reported.  A message is the name of the variable.
-/
namespace Splint.Symtab.Uses

open Splint.Symtab

def orOps : Ops Bool := ⟨fun a b => a || b, fun _ s => s⟩

/-- The mark of a variable of which the false branch has the entry `f`, 3087-3139: if the true branch has
an entry too the mark is replaced, else joined. -/
def mergeFalse (tt : Table Bool) (f : Entry Bool) (old : Bool) : Bool :=
  match tt.find f.name with
  | some t => f.state || t.state
  | none => old || f.state

/-- `usymtab_popBranches`, 3001-3215 -/
def popBranches : Stack Bool → Option (Stack Bool)
  | ft :: tt :: env =>
    if ft.kind = .fbranch ∧ tt.kind = .tbranch then
      let env := updates (mergeFalse tt) ft.entries env
      some (updates (fun t old => old || t.state) (tt.entries.filter fun t => (ft.find t.name).isNone) env)
    else none
  | _ => none

/-- `usymtab_popTrueBranch`, 2529-2547 -/
def popTrueBranch (st : Stack Bool) : Option (Stack Bool) := (altBranch st).bind popBranches

/-- `usymtab_popOrBranch`, 2571-2614, and `usymtab_popAndBranch`, 2694-2739 -/
def popOne : Stack Bool → Option (Stack Bool)
  | t :: env => if t.kind = .tbranch then some (updates (fun e old => old || e.state) t.entries env) else none
  | [] => none

/-- One round of the loop of `usymtab_exitSwitch`, 2810-2876. -/
def mergeCase (outer : List (Entry Bool)) : Stack Bool → Stack Bool
  | l :: t :: r =>
    let st := updates (fun c old => old || c.state) t.entries (l :: t :: r)
    let st := if t.escape || t.mustBreak then st else
      updates (fun c old => old || c.state) (outer.filter fun c => (t.find c.name).isNone) st
    match st with
    | l :: _ :: r => l :: r
    | st => st
  | st => st

def mergeCases (outer : List (Entry Bool)) : Nat → Stack Bool → Stack Bool
  | 0, st => st
  | n + 1, st => mergeCases outer n (mergeCase outer st)

/-- `usymtab_exitSwitch`, 2751-2936. Without any `case`, the loop goes over the cases of an enclosing
`switch`, which are removed. -/
def exitSwitch (st : Stack Bool) : Option (Stack Bool) :=
  let n := (st.takeWhile (·.kind == .cbranch)).length
  match st.drop n with
  | sw :: outer =>
    if sw.kind = .switch then
      match n, outer with
      | _, [] => none
      | 0, outer => some (outer.dropWhile (·.kind == .cbranch))
      | n + 1, top :: _ =>
        match mergeCases top.entries n st with
        | l :: _ => some (updates (fun e old => old || e.state) l.entries outer)
        | [] => none
    else none
  | [] => none

/-- the names of the entries without a mark: `usymtab_allUsed`, 3498 -/
def unused (t : Table Bool) : List Nat := (t.entries.filter fun e => !e.state).map (·.name)

/-- `usymtab_exitScope`, 4410-4566: the table below the cases is left, with messages unless it is the block
of a `switch` (4477-4480). -/
def leave : Stack Bool → Option (Stack Bool × List Nat)
  | t :: r =>
    if t.kind = .cbranch then (leave r).map fun q => (t :: q.1, q.2)
    else if t.kind = .normal then
      match r with
      | u :: r =>
        some ({ u with mustBreak := t.mustBreak, escape := t.escape } :: r,
          if u.kind = .switch then [] else unused t)
      | [] => none
    else none
  | [] => none

mutual

/-- Statements, as far as they concern uses. -/
inductive Prog where
  | skip
  | use (x : Nat)
  | decl (x : Nat)
  | seq (a b : Prog)
  | block (b : Prog)
  /-- `if` without `else`; the body of a loop -/
  | ifThen (b : Prog)
  /-- `if` with `else`; `?:` -/
  | ifElse (a b : Prog)
  /-- the second operand of `&&` or `||` -/
  | second (b : Prog)
  /-- `switch` with the declarations at the start of its block -/
  | switch (ds : List Nat) (cs : Cases)

inductive Cases where
  | nil
  | cons (b : Prog) (e : End) (cs : Cases)

end

def declares : List Nat → Stack Bool → Stack Bool
  | [], st => st
  | x :: ds, st => declares ds (declare x false st)

mutual

/-- The tables after a statement, and the messages. -/
def run : Prog → Stack Bool → Option (Stack Bool × List Nat)
  | .skip, st => some (st, [])
  | .use x, st => some (update x (fun _ => true) st, [])
  | .decl x, st => some (declare x false st, [])
  | .seq a b, st => (run a st).bind fun q => (run b q.1).map fun q' => (q'.1, q.2 ++ q'.2)
  | .block b, st => (run b (push .normal st)).bind fun q => (leave q.1).map fun q' => (q'.1, q.2 ++ q'.2)
  | .ifThen b, st => (run b (push .tbranch st)).bind fun q => (popTrueBranch q.1).map fun st => (st, q.2)
  | .ifElse a b, st =>
    (run a (push .tbranch st)).bind fun q => (altBranch q.1).bind fun st => (run b st).bind fun q' =>
      (popBranches q'.1).map fun st => (st, q.2 ++ q'.2)
  | .second b, st => (run b (push .tbranch st)).bind fun q => (popOne q.1).map fun st => (st, q.2)
  | .switch ds cs, st =>
    (runCases cs (declares ds (push .normal (push .switch st)))).bind fun q =>
      (leave q.1).bind fun q' => (exitSwitch q'.1).map fun st => (st, q.2 ++ q'.2)

def runCases : Cases → Stack Bool → Option (Stack Bool × List Nat)
  | .nil, st => some (st, [])
  | .cons b e cs, st =>
    (newCase orOps st).bind fun st => (run b st).bind fun q =>
      (runCases cs (setEnd e q.1)).map fun q' => (q'.1, q.2 ++ q'.2)

end

/-- a function: what is left at its end -/
def function (p : Prog) : Option (List Nat) := (run (.block p) [⟨.normal, 0, [], false, false⟩]).map (·.2)

end Splint.Symtab.Uses
