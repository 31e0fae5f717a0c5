import Verif.Tactics
/-!
The check that a macro evaluates a parameter exactly once: `uentry_setUsed` (src/uentry.c:10686-10796),
`uentry_mergeSetStates` (10599-10666), `uentry_setState` (10072-10088), `uentry_mergeUses` (10090-10100),
`context_inConditional` (src/context.c:1696-1712), the ends of branches in src/usymtab.c (2529-2614,
2694-2739, 2751-2936, 3001-3215), the order of the calls in src/cgrammar.y (1960-1995, 2165-2186) and the
message of `usymtab_allUsed` for parameters (src/usymtab.c:3513-3540).

One parameter, not annotated (neither `sef` nor `yield`), of a macro that is checked as a function; the
entries of other names do not matter for it.  A table has an entry for it or not.  Each occurrence of the
name is one call of `uentry_setUsed`.  Every message is reported; of messages only whether there is one.
+whileloopexec is off.  `for` loops, labels and `sizeof` are left out.  Every case ends with `break` or leaves
the macro.
-/
namespace Splint.MacroParam

/-- `used`, and whether the kind is `VKREFSEFPARAM`. -/
structure Ent where
  used : Bool
  sef : Bool
  deriving DecidableEq, Repr

/-- `uentry_setUsed`, 10724-10768; `cond`: `context_inConditional`. With whether there is a message. -/
def setUsed (cond : Bool) (e : Ent) : Ent × Bool :=
  if e.sef then (⟨true, e.sef⟩, false)
  else if cond then (⟨true, true⟩, true)
  else if e.used then (⟨true, true⟩, true)
  else (⟨true, false⟩, false)

/-- `uentry_mergeSetStates`, 10599-10666 -/
def merge (res other : Ent) : Ent × Bool :=
  if !other.sef && !res.sef then
    if res.used = other.used then (res, false) else (⟨true, true⟩, true)
  else (⟨other.used || res.used, res.sef⟩, false)

/-- `uentry_mergeUses`, 10090-10100 -/
def mergeUses (res other : Ent) : Ent := ⟨other.used || res.used, res.sef⟩

/-- `uentry_setState`, 10072-10088 -/
def setState (res other : Ent) : Ent := ⟨other.used, res.sef⟩

mutual

inductive Body where
  | skip
  /-- the parameter -/
  | use
  | seq (a b : Body)
  /-- the second operand of `&&` or `||` -/
  | second (a : Body)
  | ifThen (a : Body)
  /-- `if` with `else`; `?:` -/
  | ifElse (a b : Body)
  | loop (c a : Body)
  | doWhile (a c : Body)
  /-- `do a while (0)` -/
  | once (a : Body)
  /-- `allpaths`: there is a `default` or a case for every member of the enumeration -/
  | switch (allpaths : Bool) (first : Body) (rest : Cases)
  /-- `return` and the like -/
  | stop

inductive Cases where
  | nil
  | cons (a : Body) (cs : Cases)

end

mutual

/-- `exprNode_mustEscape` -/
def escapes : Body → Bool
  | .stop => true
  | .seq a b => escapes a || escapes b
  | .ifElse a b => escapes a && escapes b
  | .doWhile a c => escapes a || escapes c
  | .once a => escapes a
  | .switch allpaths a cs => allpaths && escapes a && escapesAll cs
  | .loop c _ => escapes c
  | .skip => false
  | .use => false
  | .second _ => false
  | .ifThen _ => false

def escapesAll : Cases → Bool
  | .nil => true
  | .cons a cs => escapes a && escapesAll cs

end

/-- What is known: the entry of the innermost table, whether there was a message, and the mark of the
parameter itself (10763-10766). -/
structure St where
  cur : Option Ent
  msg : Bool
  param : Bool
  deriving DecidableEq, Repr

/-- `usymtab_popTrueBranch`, 2529-2547, `usymtab_popOrBranch`, 2571-2614, `usymtab_popAndBranch`, 2694-2739:
`t` is the entry of the branch and `old` what the lookup in the table outside finds. -/
def popOne (old : Ent) (t cur : Option Ent) : Option Ent × Bool :=
  match t with
  | none => (cur, false)
  | some te => (some (merge old te).1, (merge old te).2)

/-- `usymtab_popBranches`, 3001-3215 -/
def popBranches (tEsc fEsc : Bool) (old : Ent) (t f cur : Option Ent) : Option Ent × Bool :=
  match f, t with
  | some fe, some te =>
    if !fEsc then
      if !tEsc then (some (setState old (merge fe te).1), (merge fe te).2)
      else (some (setState old (mergeUses fe te)), false)
    else (some (merge (setState old te) fe).1, (merge (setState old te) fe).2)
  | some fe, none => (some (merge old fe).1, (merge old fe).2)
  | none, some te =>
    if fEsc then (some (setState old (mergeUses te old)), false)
    else (some (merge old te).1, (merge old te).2)
  | none, none => (cur, false)

/-- The loop of `usymtab_exitSwitch`, 2797-2876, over the entries of the cases, the last one first. -/
def mergeCases (old : Ent) (lastEsc : Bool) : Option Ent → List (Option Ent) → Option Ent × Bool
  | l, [] => (l, false)
  | l, t :: ts =>
    let q : Option Ent × Bool := match t with
      | none => (l, false)
      | some te =>
        if lastEsc then (some (setState (l.getD old) (mergeUses te (l.getD old))), false)
        else (some (merge (l.getD old) te).1, (merge (l.getD old) te).2)
    let q' := mergeCases old false q.1 ts
    (q'.1, q.2 || q'.2)

/-- `usymtab_exitSwitch`, 2751-2936 -/
def exitSwitch (allpaths lastEsc : Bool) (old : Ent) (cs : List (Option Ent)) (cur : Option Ent) : Option Ent × Bool :=
  match cs with
  | [] => (cur, false)
  | l :: ts =>
    let q := mergeCases old lastEsc l ts
    match q.1 with
    | none => (cur, q.2)
    | some le =>
      if allpaths then (some (setState old (mergeUses le old)), q.2)
      else (some (merge old le).1, q.2 || (merge old le).2)

def Cases.last (a : Body) : Cases → Body
  | .nil => a
  | .cons b cs => Cases.last b cs

mutual

/-- `vis`: what a lookup outside the innermost table finds. -/
def run (cond : Bool) (vis : Ent) : Body → St → St
  | .skip, s => s
  | .stop, s => s
  | .use, s =>
    let q := setUsed cond (s.cur.getD vis)
    ⟨some q.1, s.msg || q.2, true⟩
  | .seq a b, s => run cond vis b (run cond vis a s)
  | .second a, s =>
    let s1 := run cond (s.cur.getD vis) a { s with cur := none }
    let q := popOne (s.cur.getD vis) s1.cur s.cur
    ⟨q.1, s1.msg || q.2, s1.param⟩
  | .ifThen a, s =>
    let s1 := run cond (s.cur.getD vis) a { s with cur := none }
    let q := popOne (s.cur.getD vis) s1.cur s.cur
    ⟨q.1, s1.msg || q.2, s1.param⟩
  | .ifElse a b, s =>
    let s1 := run cond (s.cur.getD vis) a { s with cur := none }
    let s2 := run cond (s.cur.getD vis) b { s1 with cur := none }
    let q := popBranches (escapes a) (escapes b) (s.cur.getD vis) s1.cur s2.cur s.cur
    ⟨q.1, s2.msg || q.2, s2.param⟩
  | .loop c a, s =>
    let s0 := run cond vis c s
    let s1 := run true (s0.cur.getD vis) a { s0 with cur := none }
    let q := popOne (s0.cur.getD vis) s1.cur s0.cur
    ⟨q.1, s1.msg || q.2, s1.param⟩
  | .doWhile a c, s => run cond vis c (run cond vis a s)
  | .once a, s => run cond vis a s
  | .switch allpaths a cs, s =>
    let s1 := run true (s.cur.getD vis) a { s with cur := none }
    let q := runCases (s.cur.getD vis) cs [s1.cur] s1
    let e := exitSwitch allpaths (escapes (Cases.last a cs)) (s.cur.getD vis) q.1 s.cur
    ⟨e.1, q.2.msg || e.2, q.2.param⟩

/-- The entries of the cases, the last first. -/
def runCases (vis : Ent) : Cases → List (Option Ent) → St → List (Option Ent) × St
  | .nil, es, s => (es, s)
  | .cons a cs, es, s =>
    let s1 := run true vis a { s with cur := none }
    runCases vis cs (s1.cur :: es) s1

end

/-- Whether there is a message about the parameter: when the body is checked, or that it is not used. -/
def reported (b : Body) : Bool :=
  let s := run false ⟨false, false⟩ b ⟨some ⟨false, false⟩, false, false⟩
  s.msg || !s.param

end Splint.MacroParam
