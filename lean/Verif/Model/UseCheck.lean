import Verif.Model.SRef
import Verif.Model.Ynm
import Verif.Model.Kinds
/-!
# Uses of storage

Model of src/exprNode.c:10175-10334 (`exprNode_checkUse`), of src/sRef.c:3440-3464
(`sRef_getBaseSafe`), 3407-3432 (`sRef_getBase`), 4719-4769 (`sRef_isValidLvalue`), 5150-5259
(`sRef_setDefinedAux`), 5914-5952 (`sRef_isAddress`, `sRef_isThroughArrayFetch`), 6005-6043
(`sRef_isField`, `sRef_isPointer`), 8062-8066, 8091-8095 and 8151-8155 (`sRef_isDead`,
`sRef_isPossiblyDead`, `sRef_isUnuseable`).

The definition state of a reference is kept by its address. Only the states of a reference and of
those that contain it are modelled; `sRef_setDefinedAux` also defines or forgets other references
derived from these. The reports are what is handed to `optgenerror`; the change of the ownership of
kept storage after a report is left out. The set of uses is modelled in Model/EvalOrder.
-/
namespace Splint
namespace UseCheck
open SRef

abbrev States := Nat → SState

structure Env where
  /-- `context_getFlag (FLG_STRICTUSERELEASED)` -/
  strict : Bool
  /-- `context_inProtectVars ()` -/
  protect : Bool
  /-- Whether a reference has a union type. -/
  isUnion : SRef → Bool
  /-- Whether the target of a pointer, as found or built by `sRef_constructPointer`, is allocated,
  undefined or special (sRef.c:5197-5199). -/
  openTarget : SRef → Bool

/-- `sRef_isValidLvalue`, sRef.c:4719-4769. -/
def lvalue (env : Env) (st : States) : SRef → Ynm
  | conj a x y =>
    if st a = .unknown then
      if lvalue env st x = .yes then if lvalue env st y = .yes then .yes else .maybe
      else if lvalue env st y = .yes then .maybe else .no
    else byState env (st a)
  | s => byState env (st s.addr)
where
  /-- sRef.c:4745-4768 -/
  byState (env : Env) : SState → Ynm
    | .hoffa => if env.strict then .maybe else .yes
    | .defined | .fixed | .relDef | .pDefined | .partial_ | .special | .allocated | .killed
    | .unknown => .yes
    | _ => .no

/-- `sRef_getBaseSafe`, sRef.c:3440-3464. -/
def baseSafe : SRef → Option SRef
  | conj _ a _ => baseSafe a
  | ptr _ r | field _ r _ | fetch _ r _ => some r
  | _ => none

/-- The loop of `sRef_isThroughArrayFetch`, sRef.c:5931-5952, with `sRef_getBase`, 3407-3432. -/
def throughFetch : SRef → Bool
  | fetch .. => true
  | ptr _ r | field _ r _ | adr _ r | derived _ r | external _ r => throughFetch r
  | conj _ a b => isFetch a || isFetch b || throughFetch a
  | _ => false
where
  isFetch : SRef → Bool
    | fetch .. => true
    | conj _ a b => isFetch a || isFetch b
    | _ => false

/-- `sRef_isField`, sRef.c:6005-6009. -/
def isField : SRef → Bool
  | field .. => true
  | conj _ a b => isField a || isField b
  | _ => false

/-- `sRef_isPointer`, sRef.c:6039-6043. -/
def isPointer : SRef → Bool
  | ptr .. => true
  | conj _ a b => isPointer a || isPointer b
  | _ => false

/-- `sRef_isAddress`, sRef.c:5921-5925. -/
def isAddress : SRef → Bool
  | adr .. => true
  | conj _ a b => isAddress a || isAddress b
  | _ => false

def isUnknown : SRef → Bool
  | unknown _ => true
  | _ => false

def isConst : SRef → Bool
  | const _ => true
  | _ => false

/-- The variables of exprNode.c:10197-10201. -/
structure Found where
  error : Option SRef := none
  last : Option SRef := none
  dead : Bool := false
  unuseable : Bool := false
  errorMaybe : Bool := false
deriving DecidableEq, Repr

/-- The body of the loop, exprNode.c:10205-10239. -/
def look (env : Env) (st : States) (s : SRef) (f : Found) : Found :=
  match lvalue env st s with
  | .yes => f
  | .maybe => ⟨some s, f.error, st s.addr == .hoffa, st s.addr == .unuseable, true⟩
  | .no => ⟨some s, f.error, st s.addr == .dead, st s.addr == .unuseable, false⟩

/-- The loop of exprNode.c:10203-10242; `n` is more than the number of passes. -/
def findError (env : Env) (st : States) : Nat → SRef → Found → Found
  | 0, _, f => f
  | n + 1, s, f =>
    if isUnknown s then f
    else match baseSafe s with
      | none => look env st s f
      | some b => findError env st n b (look env st s f)

inductive Flag where
  | strictUseReleased | useReleased | useDef
deriving DecidableEq, Repr

inductive Msg where
  | released | inconsistent | undefined
deriving DecidableEq, Repr

structure Report where
  flag : Flag
  msg : Msg
  ref : SRef
  /-- Whether the message says "may be". -/
  hedged : Bool
deriving DecidableEq, Repr

def set (st : States) (a : Nat) (v : SState) : States := fun b => if b = a then v else st b

/-- `sRef_setDefinedAux`, sRef.c:5150-5259. -/
def setDefined (env : Env) : SRef → States → States
  | ptr a p, st =>
    let st := set st a .defined
    if st p.addr = .allocated ∨ st p.addr = .special then setDefined env p st else st
  | fetch a p i, st =>
    let st := set st a .defined
    if i = none ∨ i = some 0 then
      let st := if env.openTarget p ∧ (st p.addr = .allocated ∨ st p.addr = .special) then
        setDefined env p st else st
      if st p.addr = .allocated ∨ st p.addr = .pDefined ∨ st p.addr = .special then
        set st p.addr .defined
      else st
    else st
  | field a p _, st =>
    let st := set st a .defined
    if env.isUnion p then setDefined env p st else st
  | s, st => set st s.addr .defined

/-- The reference that is reported, exprNode.c:10246-10251. -/
def chosen (f : Found) (e : SRef) : SRef :=
  match f.last with
  | some l => if isField l && isPointer e then l else e
  | none => e

/-- The report of exprNode.c:10253-10317. -/
def report (f : Found) (e : SRef) : Report :=
  if f.dead then
    if throughFetch e then ⟨.strictUseReleased, .released, e, true⟩
    else ⟨.useReleased, .released, e, f.errorMaybe⟩
  else if f.unuseable then ⟨.useDef, .inconsistent, e, f.errorMaybe⟩
  else ⟨.useDef, .undefined, e, f.errorMaybe⟩

/-- exprNode.c:10319-10324. -/
def afterReport (env : Env) (e : SRef) (st : States) : States :=
  let st := setDefined env e st
  if isAddress e then
    match e.rootBase with
    | some r => setDefined env r st
    | none => st
  else st

/-- `exprNode_checkUse`, exprNode.c:10175-10334: the report and the states afterwards. -/
def checkUse (env : Env) (st : States) (s : SRef) : Option Report × States :=
  if isUnknown s || isConst s || env.protect then (none, st)
  else
    let f := findError env st s.size s {}
    match f.error with
    | none => (none, st)
    | some e => (some (report f (chosen f e)), afterReport env (chosen f e) st)

/-- `n` uses of the same storage: their reports, and the states afterwards. -/
def uses (env : Env) (s : SRef) : Nat → States → List (Option Report) × States
  | 0, st => ([], st)
  | n + 1, st =>
    let r := checkUse env st s
    let q := uses env s n r.2
    (r.1 :: q.1, q.2)

end UseCheck
end Splint
