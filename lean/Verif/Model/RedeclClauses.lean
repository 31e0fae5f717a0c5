import Verif.Model.Modify
/-!
# Clauses in redeclarations: globals, modifies, requires and ensures

`src/uentry.c`, 1726-2036 (`checkGlobalsConformance`, `checkModifiesConformance`) and 9389-9465
(`uentry_mergeConstraints`), as called by `uentry_mergeDefinition`, where `completeConform` is FALSE.

Simplified: the lists are lists, with the first element first. Variables in globals lists are given by numbers, and by
whether they are file static. In modifies lists, the marks that say whether an element is modified belong to the
elements of the old list; that the structure of a global variable may be in several lists is not modelled. That what is
file static is removed at the end of the file (`context_recordFileGlobals`, `context_recordFileModifies`) is not
modelled. Constraints are an arbitrary type.
-/
namespace Splint.RedeclClauses
open SRef hiding new

/-! ## Globals -/

inductive GName where
  | var (static_ : Bool) (i : Nat)
  | internal | spec | system | nothing
deriving DecidableEq, Repr

/-- what is written before the name in the list: nothing, out, undef, killed -/
inductive GState where
  | plain | out | undef | killed
deriving DecidableEq, Repr

abbrev Globs := List (GName × GState)

inductive GMsg where
  /-- "Globals list for f includes internal state, x, but ... without globals internalState." -/
  | internal
  /-- "Function f inconsistently declared (in same file) with file static global x in globals list" -/
  | sameFile (g : GName)
  /-- "Function f inconsistently declared with x in globals list" -/
  | listed (g : GName)
  /-- "Function f global x inconsistently declared as (non-)out global" -/
  | outGlobal (g : GName) (isOut : Bool)
deriving DecidableEq, Repr

structure GEnv where
  /-- `mustConform` -/
  must : Bool
  /-- the old entry is static -/
  oldStatic : Bool
  /-- both are declared in the same file -/
  sameFile : Bool
  /-- the message is not suppressed -/
  shown : GMsg → Bool

/-- `globSet_lookup`, globSet.c:90-102 -/
def lookup (l : Globs) (g : GName) : Option GState := (l.find? fun e => e.1 = g).map (·.2)

/-- `globSet_insert` -/
def insert (l : Globs) (e : GName × GState) : Globs := if (lookup l e.1).isSome then l else l ++ [e]

def isStatic : GName → Bool
  | .var b _ => b
  | _ => false

/-- 1737-1795: a file static variable; `hi` is `hasInternalState` -/
def globStatic (env : GEnv) (old : Globs) (hi : Bool) (e : GName × GState) : List GMsg × Globs × Bool :=
  if (lookup old e.1).isSome then ([], old, hi)
  else if hi = false ∧ lookup old .internal = none ∧ lookup old .spec = none then
    let first := env.must && !env.oldStatic
    ((if first then [.internal] else [])
        ++ (if !(first && env.shown .internal) && env.sameFile && env.must then [.sameFile e.1] else []),
      insert (insert old (.internal, .plain)) e, true)
  else (if env.sameFile && env.must then [.sameFile e.1] else [], insert old e, hi)

/-- 1796-1839: anything else -/
def globOther (env : GEnv) (old : Globs) (e : GName × GState) : List GMsg × Globs :=
  match lookup old e.1 with
  | none =>
    if env.must then ([.listed e.1], if env.shown (.listed e.1) then insert old e else old) else ([], old)
  | some s =>
    (if env.must ∧ (decide (e.2 = .out) ≠ decide (s = .out)) then [.outGlobal e.1 (decide (e.2 = .out))] else [], old)

/-- 1735-1840 -/
def globElems (env : GEnv) : Globs → Globs → Bool → List GMsg × Globs × Bool
  | [], old, hi => ([], old, hi)
  | e :: new, old, hi =>
    let r := if isStatic e.1 then globStatic env old hi e else ((globOther env old e).1, (globOther env old e).2, hi)
    let q := globElems env new r.2.1 r.2.2
    (r.1 ++ q.1, q.2)

/-- 1725-1887: the list that is in effect afterwards, and the messages -/
def globsStep (env : GEnv) (old new : Globs) : List GMsg × Globs :=
  ((globElems env new old false).1, (globElems env new old false).2.1)

/-- one declaration after the other -/
def globsRun (env : GEnv) : Globs → List Globs → List GMsg × Globs
  | old, [] => ([], old)
  | old, d :: ds => ((globsStep env old d).1 ++ (globsRun env (globsStep env old d).2 ds).1,
      (globsRun env (globsStep env old d).2 ds).2)

/-! ## Modifies -/

inductive MMsg where
  /-- "Modifies list for f includes internal state, but ... without modifies internal." -/
  | internal
  /-- "Modifies list for f contains x, not modifiable according to ..." -/
  | notModifiable (s : SRef)
deriving DecidableEq, Repr

structure MEnv where
  mod : ModEnv
  /-- `ctype_match`, for `sRef_realSame` -/
  cm : Nat → Nat → Bool
  must : Bool
  oldStatic : Bool
  /-- the addresses of `sRef_makeInternalState ()` and `sRef_makeSpecState ()` -/
  internalAddr : Nat
  specAddr : Nat

/-- `sRefSet_isSameMember` -/
def sameMember (cm : Nat → Nat → Bool) (l : Mods) (s : SRef) : Bool := SRefSet.isSameMember cm (l.map (·.1)) s

/-- `sRefSet_insert` -/
def minsert (cm : Nat → Nat → Bool) (l : Mods) (e : SRef × Bool) : Mods := if sameMember cm l e.1 then l else l ++ [e]

/-- 1929-1966: an element of the new list; `mi` is `modInternal` -/
def modElem (env : MEnv) (old : Mods) (mi : Bool) (e : SRef × Bool) : Option (List MMsg × Mods × Bool) :=
  if SRefSet.isStatic e.1 then
    if mi = false ∧ sameMember env.cm old (special env.internalAddr .internal) = false
        ∧ sameMember env.cm old (special env.specAddr .specState) = false then
      some (if env.must && !env.oldStatic then [.internal] else [],
        minsert env.cm (minsert env.cm old (special env.internalAddr .internal, false)) e, true)
    else some ([], minsert env.cm old e, mi)
  else do
    let r ← canModifyVal env.mod old e.1
    if r.1 then some ([], minsert env.cm r.2 e, mi)
    else some (if env.must then [.notModifiable e.1] else [], r.2, mi)

/-- 1924-2001 -/
def modElems (env : MEnv) : Mods → Mods → Bool → Option (List MMsg × Mods × Bool)
  | [], old, mi => some ([], old, mi)
  | e :: new, old, mi => do
    let r ← modElem env old mi e
    let q ← modElems env new r.2.1 r.2.2
    some (r.1 ++ q.1, q.2)

/-- what a function says about modifications -/
structure MFcn where
  hasMods : Bool
  mods : Mods
deriving DecidableEq

/-- 1894-2036 -/
def modsStep (env : MEnv) (old new : MFcn) : Option (List MMsg × MFcn) := do
  let r ← modElems env new.mods old.mods false
  some (r.1, ⟨old.hasMods || new.hasMods, r.2.1⟩)

/-! ## Requires and ensures -/

/-- `functionConstraint`; `none` is `functionConstraint_undefined` -/
inductive Cons (C : Type) where
  | base (c : C)
  | conj (a b : Option (Cons C))

inductive CMsg where
  /-- "Preconditions for f redeclared. Dropping previous precondition: ..." -/
  | pre
  | post
deriving DecidableEq, Repr

structure Contract (C : Type) where
  pre : Option (Cons C)
  post : Option (Cons C)

/-- where a declaration is -/
structure Place where
  /-- in a file with properties for the checker (`.xh`) -/
  xh : Bool
  /-- at the place of the old entry -/
  same : Bool
deriving DecidableEq, Repr

/-- 9397-9428 -/
def preStep {C : Type} (p : Place) (old new : Option (Cons C)) : List CMsg × Option (Cons C) :=
  match new with
  | none => ([], old)
  | some n =>
    if p.xh then ([], some (.conj old (some n)))
    else if p.same then ([], old)
    else ([.pre], some n)

/-- 9430-9463 -/
def postStep {C : Type} (p : Place) (old new : Option (Cons C)) : List CMsg × Option (Cons C) :=
  match new with
  | none => ([], old)
  | some n => if p.xh then ([], some (.conj old (some n))) else ([.post], some n)

/-- 9389-9465 -/
def contractStep {C : Type} (p : Place) (old new : Contract C) : List CMsg × Contract C :=
  ((preStep p old.pre new.pre).1 ++ (postStep p old.post new.post).1,
    ⟨(preStep p old.pre new.pre).2, (postStep p old.post new.post).2⟩)

/-- one declaration after the other -/
def contractRun {C : Type} : Contract C → List (Place × Contract C) → List CMsg × Contract C
  | c, [] => ([], c)
  | c, d :: ds => ((contractStep d.1 c d.2).1 ++ (contractRun (contractStep d.1 c d.2).2 ds).1,
      (contractRun (contractStep d.1 c d.2).2 ds).2)

end Splint.RedeclClauses
