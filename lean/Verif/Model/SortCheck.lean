/-!
# Sorts of the terms in specifications

Model of `computePossibleSorts`, `checkSort`, `assignSorts`, `checkLclPredicate`, `standardOperators`
(src/checking.c:48-191, 222-416, 538-820), `symtable_opsWithLegalDomain`, `domainMatches` (src/symtable.c:2070-2135),
`sortSet_insert`, `sortSet_choose`, `sortSet_member` (src/sortSet.c:98-141) and `sort_equal` (src/sort.c:3036-3050).

Sorts, operators and the table of sorts are numbers and functions on them. Leaves are terms whose possible sorts are
known when they are made (src/abstract.c:4039-4122, 4172-4258): variables, constants, literals, quantified terms.
Arguments in square or matched brackets, each of which is checked as a whole term first, are left out, and so are the
texts and places of messages. Every term is taken to be looked at once; doing it again adds nothing, since the sorts
are a set and `error_reported` is set. `sort_makeVec`, `sort_makeTuple` and `sort_makeUnionVal` are taken to give a
sort; for a synonym they report an internal error.
-/
namespace Splint
namespace SortCheck

/-- `sigNode` -/
structure Sig where
  dom : List Nat
  range : Nat
deriving DecidableEq, Repr

/-- The operators `standardOperators` knows. -/
inductive Std where
  | no
  /-- `if __ then __ else __` -/
  | ite
  /-- `__'`, `__^`, `\any`, `\pre`, `\post` -/
  | state
  /-- `*__` -/
  | deref
  /-- `=`, `!=` and others -/
  | compare
  /-- `fresh`, `unchanged`, `modifies`, `trashed` -/
  | object
  /-- `sizeof` -/
  | size
  /-- `maxIndex`, `minIndex` -/
  | index
deriving DecidableEq, Repr

structure Env where
  /-- `sort_getUnderlying` -/
  under : Nat → Nat
  /-- `g_sortBool`, which `g_sortCapBool` is a synonym of -/
  bool : Nat
  int : Nat
  /-- `symtable_opInfo`, the signatures -/
  ops : Nat → List Sig
  std : Nat → Std
  /-- the sort of the value of an object, array, struct or union -/
  stateVal : Nat → Option Nat
  /-- the base sort of a pointer -/
  derefVal : Nat → Option Nat
  isObj : Nat → Bool
  isSized : Nat → Bool
  isIndexed : Nat → Bool

/-! ### Terms; `given` is the sort after a colon, 0 if there is none -/

mutual
inductive T where
  | leaf (lit : Bool) (given : Nat) (sorts : List Nat)
  | app (f : Nat) (given : Nat) (args : Ts)
inductive Ts where
  | nil
  | cons (t : T) (ts : Ts)
end

inductive Msg where
  /-- "not declared for", "declared ... given", "Undeclared operator", "declared for ... arguments" -/
  | undeclared (f : Nat)
  /-- "can have more than one possible type" -/
  | many
  /-- "Ambiguous operator" -/
  | ambiguous (f : Nat)
  /-- "Operator not found" -/
  | notFound (f : Nat)
  /-- "expects a boolean term" -/
  | notBool
deriving DecidableEq, Repr

/-- `sort_equal` -/
def eqv (env : Env) (a b : Nat) : Bool := a == b || env.under a == env.under b

/-- `sortSet_member` -/
def mem (env : Env) (s : Nat) (l : List Nat) : Bool := l.any fun x => eqv env s x

/-- `sortSet_insert` -/
def ins (env : Env) (l : List Nat) (s : Nat) : List Nat := if mem env s l then l else l ++ [s]

def insAll (env : Env) : List Nat → List Nat → List Nat
  | l, [] => l
  | l, s :: ss => insAll env (ins env l s) ss

/-- `domainMatches` -/
def domainMatches (env : Env) : List Nat → List (List Nat) → Bool
  | [], _ => true
  | d :: ds, a :: as => mem env d a && domainMatches env ds as
  | _ :: _, [] => false

/-- `symtable_opsWithLegalDomain` -/
def legal (env : Env) (f given : Nat) (as : List (List Nat)) : List Sig :=
  (env.ops f).filter fun sig =>
    sig.dom.length == as.length && (given == 0 || eqv env sig.range given) && domainMatches env sig.dom as

/-- `standardOperators` -/
def standards (env : Env) (f : Nat) (as : List (List Nat)) : List Nat :=
  match env.std f, as with
  | .object, [a] => (a.filter env.isObj).map fun _ => env.bool
  | .size, [a] => (a.filter env.isSized).map fun _ => env.int
  | .index, [a] => (a.filter env.isIndexed).map fun _ => env.int
  | .state, [a] => a.filterMap env.stateVal
  | .deref, [a] => a.filterMap env.derefVal
  | .ite, [c, a, b] =>
    if mem env env.bool c then
      match a, b with
      | [x], [y] => if eqv env x y then [x] else []
      | _, _ => []
    else []
  | .compare, [a, b] =>
    match a with
    | [x] => (b.filter fun y => eqv env x y).map fun _ => env.bool
    | _ => []
  | _, _ => []

mutual
/-- `computePossibleSorts`: `possibleSorts` -/
def poss (env : Env) : T → List Nat
  | .leaf _ _ ss => ss
  | .app f given args =>
    match possArgs env args with
    | none => []
    | some as => insAll env (insAll env [] ((legal env f given as).map Sig.range)) (insAll env [] (standards env f as))
/-- The loop over the arguments: none if it fails, else `argSorts`. -/
def possArgs (env : Env) : Ts → Option (List (List Nat))
  | .nil => some []
  | .cons t ts =>
    match poss env t, possArgs env ts with
    | [], _ => none
    | _, none => none
    | a, some as => some (a :: as)
end

mutual
/-- `computePossibleSorts`: the messages -/
def errs (env : Env) : T → List Msg
  | .leaf _ _ _ => []
  | .app f given args =>
    errsArgs env args ++
      match possArgs env args with
      | none => []
      | some _ => if (poss env (.app f given args)).isEmpty then [.undeclared f] else []
def errsArgs (env : Env) : Ts → List Msg
  | .nil => []
  | .cons t ts => errs env t ++ errsArgs env ts
end

/-- `possibleOps` -/
def possOps (env : Env) : T → List Sig
  | .leaf _ _ _ => []
  | .app f given args =>
    match possArgs env args with
    | none => []
    | some as => legal env f given as

/-- `termNodeList_empty` -/
def Ts.empty : Ts → Bool
  | .nil => true
  | .cons _ _ => false

mutual
/-- `assignSorts`: the messages -/
def assign (env : Env) : T → Nat → List Msg
  | .leaf _ _ _, _ => []
  | .app f given args, s =>
    match (possOps env (.app f given args)).filter fun sig => eqv env s sig.range with
    | [] => if (poss env (.app f given args)).length == 1 then [] else [.notFound f]
    | [op] => if args.empty then assignArgs env args op.dom else []
    | _ => [.ambiguous f]
def assignArgs (env : Env) : Ts → List Nat → List Msg
  | .cons t ts, d :: ds => assign env t d ++ assignArgs env ts ds
  | _, _ => []
end

def isLit : T → Bool
  | .leaf l _ _ => l
  | _ => false

/-- The messages about parts of the term, for which `error_reported` of the term is not set. -/
def inner (env : Env) : T → List Msg
  | .leaf _ _ _ => []
  | .app _ _ args => errsArgs env args

/-- The messages about the term itself. -/
def own (env : Env) (t : T) : List Msg :=
  match poss env t with
  | [] => (errs env t).drop (inner env t).length
  | [s] => assign env t s
  | _ => if isLit t then [] else [.many]

/-- `checkSort` -/
def check (env : Env) (t : T) : List Msg := inner env t ++ own env t

/-- The sort of a term after `checkSort`; 0 for none. -/
def sortOf (env : Env) (t : T) : Nat :=
  match poss env t with
  | [s] => s
  | _ => 0

/-- `checkLclPredicate`, after `checkSort` -/
def predicate (env : Env) (t : T) : List Msg :=
  check env t ++
    if (own env t).isEmpty then
      if eqv env (sortOf env t) env.bool then []
      else if sortOf env t == 0 then []
      else [.notBool]
    else []

end SortCheck
end Splint
