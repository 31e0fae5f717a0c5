import Verif.Model.Ynm
import Verif.Model.Kinds
/-!
# Whether transferred storage is completely defined

Model of src/transferChecks.c:301-1288 (`checkCompletelyDefined`) as far as it is about definition and
release: the checks of stack storage (336-386), of exposure, meta state and ownership of parts (388-628) and
of null parts (696-775) only report and do not change the result; they are left out. So is
that a reported reference counts as defined afterwards: its state is not read again in the same check.

References are abstract; what is asked of them is given by an environment. `f` is the storage that is
transferred (`fref`), `t` what it is transferred to (`tref`). Fields have names.
-/
namespace Splint
namespace CompleteDef

/-- `transferKind` -/
inductive Transfer where
  | globReturn | globPass | paramReturn | leave | doAssign | fieldAssign | globInit | fcnPass | fcnReturn
deriving DecidableEq, Repr

/-- The real type of the transferred storage. -/
inductive View where
  | unknown | pointer | struct | union | other
deriving DecidableEq, Repr

structure Env (α β : Type) where
  /-- `sRef_isKnown (fref)` -/
  known : α → Bool
  state : α → SState
  view : α → View
  /-- `sRef_isNew (fref) || sRef_isType (fref)` -/
  fresh : α → Bool
  deref : α → α
  /-- `sRef_derivedFields`, those that are fields -/
  mentioned : α → List (Nat × α)
  /-- `ctype_getFields`, as built by `sRef_makeField` -/
  fields : α → List (Nat × α)
  tstate : β → SState
  /-- `ctype_isAP (tct) || ctype_isUnknown (tct)` -/
  tpointer : β → Bool
  /-- `ctype_isKnown (tct)` -/
  tknown : β → Bool
  tderef : β → β
  tfield : β → Nat → β
  recursive : β → Bool
  /-- `ctype_match (ct, tct)` -/
  fits : α → β → Bool
  /-- Whether a report of released storage is shown. -/
  shown : α → Bool
  /-- `context_getFlag (FLG_UNIONDEF)` -/
  unionDef : Bool

inductive Rep (α : Type) where
  /-- "Released storage … reachable from …" (transferChecks.c:630-694) -/
  | releasedPart (f : α)
  /-- "… was released" (863-876) -/
  | released (f : α)
  /-- "… not completely defined" (793-862, 877-896) -/
  | undefined (f : α)
  /-- "… contains undefined field" (1057-1118) -/
  | fields (f : α) (names : List Nat)
  /-- "Union … has no defined field" (1203-1262) -/
  | union (f : α)
deriving DecidableEq, Repr

/-- transferChecks.c:777-784 -/
def excused : SState → Bool
  | .relDef | .partial_ | .allocated | .special => true
  | _ => false

/-- `sRef_isPdefined (fref) || sRef_isAnyDefined (fref)` -/
def partlyDefined : SState → Bool
  | .defined | .relDef | .partial_ | .pDefined => true
  | _ => false

/-- transferChecks.c:790-793 -/
def passable (s : SState) : Bool := partlyDefined s || s == .allocated || s == .unknown

/-- The reports and the result for storage whose state is not passable, transferChecks.c:794-911. -/
def notDefined {α β : Type} (env : Env α β) (tt : Transfer) (f : α) (top report : Bool) :
    List (Rep α) × Ynm :=
  match tt with
  | .globReturn | .globPass => (if report then [.undefined f] else [], .no)
  | .paramReturn | .leave => (if report && !top then [.undefined f] else [], .no)
  | _ =>
    if tt ≠ .doAssign ∧ env.fresh f = false then
      (if report then if env.state f = .dead then [.released f] else [.undefined f] else [], .no)
    else ([], .yes)

/-- The fields of a structure that are looked at, with what they are transferred to (transferChecks.c:972-1055). -/
def items {α β : Type} (env : Env α β) (f : α) (t : β) : List (Nat × α × β) :=
  if partlyDefined (env.state f) then (env.mentioned f).map fun p => (p.1, p.2, env.tfield t p.1)
  else if env.state f = .allocated then (env.fields f).map fun p => (p.1, p.2, env.tfield t p.1)
  else []

/-- The fields of a union that are looked at (transferChecks.c:1172-1201). -/
def unionItems {α β : Type} (env : Env α β) (f : α) (t : β) : List (Nat × α × β) :=
  (env.mentioned f).map fun p => (p.1, p.2, env.tfield t p.1)

/-- The structure case after its fields, transferChecks.c:1057-1136; `rs` are the results of the
fields. -/
def structResult {α : Type} (tt : Transfer) (f : α) (partly inUnion du report : Bool)
    (rs : List (Nat × List (Rep α) × Ynm)) : List (Rep α) × Ynm :=
  let badNames := (rs.filter fun r => r.2.2 == .no).map (·.1)
  let hasOne := if partly then !rs.isEmpty else rs.any fun r => r.2.2 != .no
  let reps := rs.flatMap fun r => r.2.1
  let own := if !badNames.isEmpty && (!inUnion || hasOne) && tt != .leave then [Rep.fields f badNames] else []
  (reps ++ own,
    if inUnion then if du then (if hasOne then .yes else .no) else .maybe
    else if !report || badNames.isEmpty then .yes else .no)

/-- The union case after its fields, transferChecks.c:1203-1270. -/
def unionResult {α β : Type} (env : Env α β) (tt : Transfer) (f : α) (inUnion report : Bool)
    (rs : List (Nat × List (Rep α) × Ynm)) : List (Rep α) × Ynm :=
  let good := rs.any fun r => r.2.2 == .yes
  let reps := rs.flatMap fun r => r.2.1
  let isOk := partlyDefined (env.state f)
  let own := if !good && !isOk && env.unionDef && !inUnion && tt != .doAssign && tt != .fieldAssign &&
    tt != .globInit then [Rep.union f] else []
  (reps ++ own, if !report || isOk then .yes else .no)

/-- The part of transferChecks.c:913-1286 that goes into the storage; `rec` checks a part. -/
def inside {α β : Type} (env : Env α β) (tt : Transfer) (inUnion : Bool) (f : α) (t : β) (du report : Bool)
    (rec_ : α → β → Bool → Bool → List (Rep α) × Ynm) : List (Rep α) × Ynm :=
  match env.view f with
  | .unknown => ([], .yes)
  | .pointer =>
    if env.state f = .unknown then ([], .no)
    else if env.tpointer t then rec_ (env.deref f) (env.tderef t) false report
    else ([], .yes)
  | .struct =>
    if env.fits f t then
      if env.state f = .unknown then ([], .yes)
      else structResult tt f (partlyDefined (env.state f)) inUnion du report
        ((items env f t).map fun p =>
          (p.1, if env.recursive p.2.2 then ([], .yes) else rec_ p.2.1 p.2.2 false false))
    else ([], .yes)
  | .union =>
    if env.state f = .unknown then ([], .yes)
    else if env.tknown t && env.fits f t then
      unionResult env tt f inUnion report
        ((unionItems env f t).map fun p =>
          (p.1, rec_ p.2.1 p.2.2 (decide (1 < (unionItems env f t).length)) false))
    else ([], .yes)
  | .other => ([], .yes)

/-- `checkCompletelyDefined`, transferChecks.c:301-1288; the first argument is `MAXDEPTH + 1 - depth`. -/
def check {α β : Type} (env : Env α β) (tt : Transfer) (inUnion : Bool) :
    Nat → α → β → Bool → Bool → Bool → List (Rep α) × Ynm
  | 0, _, _, _, _, _ => ([], .yes)
  | n + 1, f, t, top, du, report =>
    if !env.known f then ([], .yes)
    else if !top && env.state f == .dead && du then ([], .no)
    else if !top && env.state f == .dead && env.shown f then ([.releasedPart f], .yes)
    else
      let r :=
        if excused (env.tstate t) then ([], .yes)
        else if !passable (env.state f) then notDefined env tt f top report
        else inside env tt inUnion f t du report fun f t du report => check env tt inUnion n f t false du report
      ((if !top && env.state f == .dead then [.releasedPart f] else []) ++ r.1, r.2)

/-- The calls of `checkCompletelyDefined` from outside: transferChecks.c:2309, 2325 and 3470. -/
def transfer {α β : Type} (env : Env α β) (tt : Transfer) (f : α) (t : β) : List (Rep α) × Ynm :=
  check env tt false 11 f t true false true

end CompleteDef
end Splint
