import Verif.Model.SRefSet
/-!
# Null guards

Model of src/guardSet.c:36-356 and of the places in src/exprNode.c that compute the guards of an
expression: 236-239 (`exprNode_resetSref`), 527-618 (copies), 3822-3843 (calls of null tests),
4168-4187 (`exprNode_addParens`), 4649-4680 (`!`), 5385-5419 (`&&`, `||`, `==`, `!=`, other operators),
6344-6400 (`exprNode_cond`), 6898-6910 (`exprNode_produceGuards`), 8222-8251 (`exprNode_comma`),
11317-11328 (`reflectNullTest`); the productions for `&&` and `||` in src/cgrammar.y:1036-1060; and
the uses of guards in src/usymtab.c: 2609-2613, 3190-3203, 5505-5570.

Expressions have no side effects here: assignments and calls other than declared null tests are opaque
expressions without a reference. Pointer arithmetic, which keeps the reference of its operand, is left
out, and so are error nodes and types that are unknown. Messages are not modelled.
-/
namespace Splint
open SRefSet

/-- `struct s_guardSet`, guardSet.h. -/
structure GuardSet where
  tguard : Option SRefSet
  fguard : Option SRefSet

/-- A `guardSet`, which may be the null pointer. -/
abbrev Guards := Option GuardSet

namespace Guards

/-- `guardSet_getTrueGuards`, guardSet.c:55-67. -/
def trueSet (g : Guards) : Option SRefSet := g.bind (·.tguard)

/-- `guardSet_getFalseGuards`, guardSet.c:81-91. -/
def falseSet (g : Guards) : Option SRefSet := g.bind (·.fguard)

/-- `guardSet_or`, guardSet.c:93-125. The outer `none` is a bad access in a set. -/
def or_ (cm : Nat → Nat → Bool) (s t : Guards) : Option Guards :=
  match s, t with
  | none, none => some none
  | s, none => some (some ⟨none, s.falseSet⟩)
  | s, some t => do
    let tg ← intersect cm s.trueSet t.tguard
    let fg ← SRefSet.union cm s.falseSet t.fguard
    some (some ⟨tg, fg⟩)

/-- `guardSet_and`, guardSet.c:127-158. -/
def and_ (cm : Nat → Nat → Bool) (s t : Guards) : Option Guards :=
  match s, t with
  | none, none => some none
  | s, none => some (some ⟨s.trueSet, none⟩)
  | s, some t => do
    let tg ← SRefSet.union cm s.trueSet t.tguard
    let fg ← intersect cm s.falseSet t.fguard
    some (some ⟨tg, fg⟩)

/-- `guardSet_union`, guardSet.c:160-181. -/
def union (cm : Nat → Nat → Bool) (s t : Guards) : Option Guards :=
  match t with
  | none => some s
  | some t =>
    match s with
    | none => some (some ⟨newCopy t.tguard, newCopy t.fguard⟩)
    | some s => do
      let tg ← SRefSet.union cm s.tguard t.tguard
      let fg ← SRefSet.union cm s.fguard t.fguard
      some (some ⟨tg, fg⟩)

/-- `guardSet_levelUnion` and `guardSet_levelUnionFree`, guardSet.c:183-233. -/
def levelUnion (cm : Nat → Nat → Bool) (s t : Guards) (level : Int) : Option Guards :=
  match t with
  | none => some s
  | some t =>
    match s with
    | none => do
      let tg ← levelCopy t.tguard level
      let fg ← levelCopy t.fguard level
      some (some ⟨tg, fg⟩)
    | some s => do
      let tg ← SRefSet.levelUnion cm s.tguard t.tguard level
      let fg ← SRefSet.levelUnion cm s.fguard t.fguard level
      some (some ⟨tg, fg⟩)

/-- `guardSet_flip`, guardSet.c:235-244. -/
def flip (g : Guards) : Guards := g.map fun g => ⟨g.fguard, g.tguard⟩

/-- `guardSet_invert`, guardSet.c:246-258. -/
def invert (g : Guards) : Guards := g.map fun g => ⟨newCopy g.fguard, newCopy g.tguard⟩

/-- `guardSet_copy`, guardSet.c:260-272. -/
def copy (g : Guards) : Guards := g.map fun g => ⟨newCopy g.tguard, newCopy g.fguard⟩

/-- `sRef_isMeaningful`, sRef.h:180-181. -/
def meaningful : SRef → Bool
  | .unknown _ | .new _ | .type _ => false
  | _ => true

/-- `guardSet_addTrueGuard`, guardSet.c:274-287. -/
def addTrue (cm : Nat → Nat → Bool) (g : Guards) (s : Option SRef) : Option Guards :=
  match s with
  | none => some g
  | some s =>
    if meaningful s then
      (insert cm g.trueSet s).map fun x => some ⟨some x, g.falseSet⟩
    else some g

/-- `guardSet_addFalseGuard`, guardSet.c:289-302. -/
def addFalse (cm : Nat → Nat → Bool) (g : Guards) (s : Option SRef) : Option Guards :=
  match s with
  | none => some g
  | some s =>
    if meaningful s then
      (insert cm g.falseSet s).map fun x => some ⟨g.trueSet, some x⟩
    else some g

/-- `guardSet_isGuarded`, guardSet.c:328-334. -/
def isGuarded (g : Guards) (s : SRef) : Bool := member (elemsOf g.trueSet) s

/-- `guardSet_mustBeNull`, guardSet.c:336-345. -/
def mustBeNull (g : Guards) (s : SRef) : Bool := member (elemsOf g.falseSet) s

/-- `guardSet_delete`, guardSet.c:69-79. -/
def delete (cm : Nat → Nat → Bool) (g : Guards) (s : SRef) : Option Guards :=
  g.map fun g => some ⟨g.tguard.map fun x => (x.delete cm s).2, g.fguard⟩

end Guards

/-- Expressions without side effects, as far as guards go. -/
inductive GExpr where
  /-- An lvalue; `isPtr` tells whether its type is a pointer. -/
  | ref (s : SRef) (isPtr : Bool)
  /-- Anything without a reference and without guards. -/
  | other (n : Nat) (isPtr : Bool)
  /-- `e != 0` (`ne`) or `e == 0`, in either order. -/
  | nullTest (ne : Bool) (e : GExpr)
  | not_ (e : GExpr)
  | and_ (a b : GExpr)
  | or_ (a b : GExpr)
  | paren (e : GExpr)
  /-- A call of a function declared `nullwhentrue` (`whenTrue`) or `falsewhennull`, number `n`. -/
  | call (whenTrue : Bool) (n : Nat) (arg : GExpr)
  /-- Any other binary operator, number `n`, with arithmetic result. -/
  | op (n : Nat) (a b : GExpr)
  | comma (a b : GExpr)
  | cond (c a b : GExpr)
deriving DecidableEq, Repr

/-- The parts of `struct s_exprNode` that matter. -/
structure GNode where
  sref : Option SRef
  isPtr : Bool
  guards : Guards

namespace GNode

/-- `exprNode_produceGuards`, exprNode.c:6898-6910. -/
def produce (cm : Nat → Nat → Bool) (e : GNode) : Option GNode := do
  let g ← if e.isPtr then Guards.addTrue cm e.guards e.sref else some e.guards
  some ⟨none, e.isPtr, g⟩

/-- `reflectNullTest`, exprNode.c:11317-11328. -/
def reflect (cm : Nat → Nat → Bool) (e : GNode) (ne : Bool) : Option Guards :=
  if ne then Guards.addTrue cm e.guards e.sref else Guards.addFalse cm e.guards e.sref

end GNode

namespace GExpr

/-- The node built for an expression. -/
def node (cm : Nat → Nat → Bool) : GExpr → Option GNode
  | ref s p => some ⟨some s, p, none⟩
  | other _ p => some ⟨none, p, none⟩
  | paren e => do
    let x ← e.node cm
    some ⟨x.sref, x.isPtr, x.guards.copy⟩
  | nullTest ne e => do
    let x ← e.node cm
    let g ← x.reflect cm ne
    some ⟨none, false, g.copy⟩
  | not_ e => do
    let x ← e.node cm
    let g ← if x.isPtr then Guards.addFalse cm x.guards.copy.flip x.sref else some x.guards.copy.flip
    some ⟨none, false, g⟩
  | and_ a b => do
    let x ← a.node cm
    let x ← x.produce cm
    let y ← b.node cm
    let y ← y.produce cm
    let g ← Guards.and_ cm x.guards.copy y.guards
    some ⟨none, false, g⟩
  | or_ a b => do
    let x ← a.node cm
    let x ← x.produce cm
    let y ← b.node cm
    let y ← y.produce cm
    let g ← Guards.or_ cm x.guards.copy y.guards
    some ⟨none, false, g⟩
  | call whenTrue _ arg => do
    let x ← arg.node cm
    let g ← if whenTrue then Guards.addFalse cm none x.sref else Guards.addTrue cm none x.sref
    some ⟨none, false, g⟩
  | op _ a b => do
    let x ← a.node cm
    let _ ← b.node cm
    some ⟨none, false, x.guards.copy⟩
  | comma a b => do
    let x ← a.node cm
    let y ← b.node cm
    some ⟨y.sref, y.isPtr, x.guards.copy⟩
  | cond c a b => do
    let x ← c.node cm
    let x ← x.produce cm
    let y ← a.node cm
    let _ ← b.node cm
    some ⟨y.sref, y.isPtr, x.guards.copy⟩

/-- The guards of the branch taken if the condition is true (`context_enterTrueAux`,
context.c:1742-1747) or false (`context_enterFalseClauseAux`, context.c:1807-1813). -/
def branch (cm : Nat → Nat → Bool) (c : GExpr) (b : Bool) : Option Guards := do
  let x ← c.node cm
  let x ← x.produce cm
  some (if b then x.guards.copy else x.guards.invert)

end GExpr

/-- The guards of an enclosing scope of level `level` after `if (c) A else B` where `A` (`t`) or `B`
(`f`) does not come back; usymtab.c:3190-3203 in `usymtab_popBranches`. -/
def afterBranches (cm : Nat → Nat → Bool) (env : Guards) (c : GExpr) (level : Int) (t f : Bool) :
    Option Guards := do
  let x ← c.node cm
  let x ← x.produce cm
  let env ← if t then Guards.levelUnion cm env x.guards.invert level else some env
  if f then Guards.levelUnion cm env x.guards level else some env

/-- The guards of the scope after a loop with condition `c`; context.c:2406 (`while`), 2428 (`do`),
2468 (`for`), with `usymtab_addGuards`, usymtab.c:5505-5509. -/
def afterLoop (cm : Nat → Nat → Bool) (env : Guards) (c : GExpr) : Option Guards := do
  let x ← c.node cm
  let x ← x.produce cm
  Guards.union cm env x.guards.invert

/-- The guards of the scope after `a || b` where `b` does not come back; usymtab.c:2609-2613 in
`usymtab_popOrBranch`, called with the whole expression (cgrammar.y:1057-1058). -/
def afterOr (cm : Nat → Nat → Bool) (env : Guards) (a b : GExpr) (level : Int) : Option Guards := do
  let x ← (GExpr.or_ a b).node cm
  Guards.levelUnion cm env x.guards.invert level

/-- The enclosing scopes that are looked at, innermost first, with their levels: the result of
following `usymtab_dropEnv` (usymtab.c:4649-4679). -/
abbrev GuardScopes := List (Int × Guards)

/-- The lowest level to look at, usymtab.c:5515-5524. -/
def lowLevel (s : SRef) : Int :=
  match s.rootBase with
  | some (.cvar _ l _) => if l < 2 then 2 else l
  | _ => 2

/-- `usymtab_isGuardedAux`, usymtab.c:5511-5546. -/
def scopesGuarded (sc : GuardScopes) (s : SRef) : Bool :=
  (sc.takeWhile fun x => decide (lowLevel s ≤ x.1)).any fun x => x.2.isGuarded s

/-- `usymtab_unguard`, usymtab.c:5548-5570. -/
def unguard (cm : Nat → Nat → Bool) (sc : GuardScopes) (s : SRef) : Option GuardScopes := do
  let inner ← (sc.takeWhile fun x => decide (lowLevel s ≤ x.1)).mapM fun x =>
    if x.2.isGuarded s then (Guards.delete cm x.2 s).map fun g => (x.1, g) else some x
  some (inner ++ sc.dropWhile fun x => decide (lowLevel s ≤ x.1))

end Splint
