import Verif.Model.FinalScope
/-!
# The parts of storage that is released

Models `checkCompletelyDestroyed` (src/transferChecks.c:1332-1635) with `dependentReference` (4418-4466),
`transferChecks_globalDestroyed`, `transferChecks_localDestroyed`, `transferChecks_structDestroyed` (1295-1330) and the
predicates of src/sRef.c and src/Headers/sRef.h it uses (sRef.c:8063-8066, 8092-8095, 8115-8118, 8152-8155, 9772-9836;
sRef.h:468-506, 525-527).

Simplifications. References are numbers. `sRef_constructDeadDeref` and `sRef_makeField` find the derived references, or make
new ones; here they all are there from the start (`deref`, `fields`), so there may be any number of them, and none of them
is the part of two others. What changes are the references that take over (`takes`) and those that die
(`dies`); these changes are listed, in order, but do not act on parts that are examined later: it is
assumed that nothing that takes over is a part of the same storage. All messages are
turned on, and the expression that is shown with a message is left out.
-/
namespace Splint.Destroyed
open Transfer (isOnly isDependent)

/-- What `ctype_realType` of the type is; unions are `other`. -/
inductive Ty
  | ptr | arr | struct | other
deriving DecidableEq, Repr

/-- A reference that `usymtab_aliasedBy` gives. -/
structure Alias where
  ref : Nat
  al : AlKind
deriving DecidableEq, Repr

structure Part where
  ty : Ty
  al : AlKind
  ds : SState := .defined
  known : Bool := true
  /-- `sRef_isDefinitelyNull`, and `sRef_definitelyNull` -/
  null : Bool := false
  /-- `usymtab_isDefinitelyNull` -/
  guardNull : Bool := false
  /-- `sRef_isObserver`, `sRef_isExposed` -/
  shown : Bool := false
  /-- `usymtab_aliasedBy` -/
  aliases : List Alias := []
  /-- `sRef_hasDerived` -/
  derived : Bool := true
deriving DecidableEq, Repr

structure Graph where
  part : Nat → Part
  deref : Nat → Nat
  fields : Nat → List Nat

inductive Ev
  /-- only storage is not released -/
  | leak (r : Nat)
  /-- only storage may not have been released -/
  | maybe (r : Nat)
  /-- a message about an internal bug, shown to developers only -/
  | tooDeep (r : Nat)
  /-- an alias becomes `only` (src/transferChecks.c:1387-1390) -/
  | takes (r : Nat)
  /-- `sRef_kill` -/
  | dies (r : Nat)
deriving DecidableEq, Repr

/-- `dependentReference` (src/transferChecks.c:4418-4466): an owned alias, or else the first -/
def dependentReference (as : List Alias) : Option Alias :=
  match as.find? (·.al = .owned) with
  | some a => some a
  | none => as.head?

/-- Is nothing to be done (src/transferChecks.c:1351-1402, 1427-1431)? The events are those of an alias that takes over. -/
def settled (p : Part) (r : Nat) : Option (List Ev) :=
  if !p.known then some []
  else if p.null then some []
  else if isDependent p.al || p.al = .shared || p.al = .kept then some []
  else match dependentReference p.aliases with
    | some a => some ((if isDependent a.al then [] else [.takes a.ref]) ++ [.dies r])
    | none => if p.guardNull then some [] else none

/-- Are messages hidden from here on (src/transferChecks.c:1409-1425)? -/
def hides (strict isField : Bool) (p : Part) : Bool :=
  p.ds = .pDefined && (p.ty = .ptr || p.ty = .arr) && !isField && !strict

/-- Must the part be released itself (src/transferChecks.c:1446-1460)? -/
def mustRelease (p : Part) : Bool :=
  (p.al = .fresh || isOnly p.al) && !(p.ds = .dead || p.ds = .unuseable || p.null || p.shown)

/-- The message about a part that must be released (src/transferChecks.c:1462-1538) -/
def report (p : Part) (r : Nat) (hide : Bool) : Bool × List Ev :=
  if p.ds = .hoffa || p.ds = .relDef then (false, if hide then [] else [.maybe r, .dies r])
  else if p.ds = .undefined then (true, [])
  else (false, if hide then [] else [.leak r])

/-- `checkCompletelyDestroyed`; the number is `MAXDEPTH + 1 - depth` (`MAXDEPTH` is 10, src/Headers/system_constants.h:39) -/
def check (G : Graph) (strict : Bool) : Nat → Bool → Bool → Bool → Nat → Bool × List Ev
  | 0, _, _, _, r => (true, [.tooDeep r])
  | n + 1, top, isField, hide, r =>
    let p := G.part r
    match settled p r with
    | some l => (true, l)
    | none =>
      let hide := hide || hides strict isField p
      if !top && mustRelease p then report p r hide
      else if !top && (p.ds = .dead || (p.ds = .pDefined && !p.derived)) then (true, [])
      else match p.ty with
        | .ptr => check G strict n false false hide (G.deref r)
        | .arr =>
          if (p.ds = .unknown || p.ds = .allocated) && !p.derived then (false, [])
          else check G strict n false false hide (G.deref r)
        | .struct =>
          if n = 0 then (true, [.tooDeep r])
          else
            let rs := (G.fields r).map fun f => check G strict n false true hide f
            (rs.all (·.1), rs.flatMap (·.2))
        | .other => (true, [])

/-- `transferChecks_globalDestroyed` (src/transferChecks.c:1295-1300) -/
def globalDestroyed (G : Graph) (strict : Bool) (r : Nat) : Bool × List Ev := check G strict 11 true false false r

/-- `transferChecks_localDestroyed`, `transferChecks_structDestroyed` (src/transferChecks.c:1302-1330) -/
def localDestroyed (G : Graph) (strict : Bool) (r : Nat) : List Ev :=
  if (G.part r).shown || (G.part r).ds = .partial_ then [] else (check G strict 11 true false false r).2

/-- `sRef_kill` (src/sRef.c:5726-5755) for a part whose bases, from the innermost, are the given ones: the part is dead, and
defined bases are partly defined up to the first that is not. Left out: the alias kind is set back to the declared one; shared
storage and constants are not killed. -/
def killBases (G : Graph) : List Nat → Nat → SState
  | [], x => (G.part x).ds
  | b :: bs, x => if (G.part b).ds = .defined then if x = b then .pDefined else killBases G bs x else (G.part x).ds

def kill (G : Graph) (bases : List Nat) (r : Nat) : Graph :=
  { G with part := fun x =>
      if x = r then { G.part r with ds := .dead, derived := false } else { G.part x with ds := killBases G bases x } }

end Splint.Destroyed
