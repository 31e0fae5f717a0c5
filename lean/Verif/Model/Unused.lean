/-!
# Declarations that are not used

Model of `usymtab_allUsed` (src/usymtab.c:3470-3715), with `uentry_isParam`, `uentry_isRefParam`,
`uentry_isExpandedMacro` (src/uentry.c:5558-5589), `uentry_setParam`, `uentry_setRefParam` (6337-6398) and the
qualifiers `sef` and `returned` of parameters (2548-2573, 2831-2836).

`optgenerror` is an oracle: it tells whether a message is shown, or is suppressed by a flag or a comment. The fields
of structures are numbers, so that entries can share them. `cleanupMessages`, the texts, and what `uentry_setUsed`
reports of macro parameters are left out.
-/
namespace Splint
namespace Unused

/-- src/Headers/uentry.h:24-32 -/
inductive VKind where
  | spec | normal | param | yieldParam | refYieldParam | retParam | refParam | sefParam | refSefParam | sefRetParam
  | refSefRetParam | expMacro
deriving DecidableEq, Repr

inductive EKind where
  | var (v : VKind) | function | iter | endIter | enumConst | constant | datatype | tag
deriving DecidableEq, Repr

/-- src/Headers/fileloc.h:15-19 -/
inductive LocKind where
  | normal | spec | lib | stdLib | stdHdr | import_ | builtin | preproc | rc | external
deriving DecidableEq, Repr

structure Loc where
  kind : LocKind
  /-- `lineno >= 0` -/
  valid : Bool := true
  /-- `fileTable_isSpecialFile` -/
  special : Bool := false
deriving DecidableEq, Repr

structure Entry where
  kind : EKind
  used : Bool := false
  declared : Option Loc
  defined : Option Loc := none
  /-- the name is `...` -/
  dots : Bool := false
  /-- `sRef_isSafe` -/
  safe : Bool := false
  /-- `uentry_hasRealName` -/
  realName : Bool := true
  /-- `uentry_hasName` -/
  hasName : Bool := true
  /-- `ctype_isFunction` of its type -/
  fnType : Bool := false
  /-- the fields of the structure or union its type is, or leads to by pointers and arrays -/
  fields : List Nat := []
deriving DecidableEq, Repr

inductive Flag where
  | macroParams | paramUnused | funcUnused | enumMemUnused | constUnused | typeUnused | varUnused
deriving DecidableEq, Repr

inductive Report where
  | entry (i : Nat) (f : Flag)
  | field (i x : Nat)
deriving DecidableEq, Repr

structure Env where
  /-- `context_inMacro` -/
  inMacro : Bool := false
  /-- `FLG_UNUSEDSPECIAL` -/
  unusedSpecial : Bool := false
  /-- `optgenerror` -/
  shown : Report → Bool

/-- 3481-3486 -/
def loc (e : Entry) : Option Loc :=
  match e.declared with
  | some l => some l
  | none => e.defined

def isInvalid : Option Loc → Bool
  | some l => !l.valid
  | none => true

def isLib : Option Loc → Bool
  | some l => l.kind == .lib || l.kind == .stdHdr || l.kind == .stdLib
  | none => false

def isBuiltin : Option Loc → Bool
  | some l => l.kind == .builtin
  | none => false

def isSpecial : Option Loc → Bool
  | some l => l.special
  | none => false

def isUser : Option Loc → Bool
  | some l => l.kind == .normal
  | none => false

/-- 3488-3493 -/
def skipped (env : Env) (e : Entry) : Bool :=
  isInvalid (loc e) || isLib (loc e) || isBuiltin (loc e) ||
    ((isSpecial (loc e) || isSpecial e.defined) && !env.unusedSpecial)

def isParam : EKind → Bool
  | .var .param | .var .yieldParam => true
  | _ => false

def isRefParam : EKind → Bool
  | .var .refParam | .var .refYieldParam | .var .refSefParam | .var .refSefRetParam => true
  | _ => false

/-- The message for an entry that is not used, 3513-3646. -/
def complaint (env : Env) (e : Entry) : Option Flag :=
  if isParam e.kind then
    if env.inMacro then
      if e.kind == .var .yieldParam then none
      else if e.safe then none
      else if e.realName then some .macroParams
      else none
    else if e.dots then none
    else some .paramUnused
  else match e.kind with
    | .function | .iter => if isUser (loc e) then some .funcUnused else none
    | .endIter => none
    | .tag => none -- not reached, 3497
    | .enumConst => if isUser (loc e) then some .enumMemUnused else none
    | .constant => if isUser (loc e) then some .constUnused else none
    | .datatype => if isUser (loc e) then some .typeUnused else none
    | k =>
      if !isRefParam k && k != .var .expMacro then
        if e.fnType then
          if isUser (loc e) then some .funcUnused else none
        else if isUser (loc e) then some .varUnused else none
      else none

/-- The loop over the fields, 3663-3697. `marked` are the fields that are used. -/
def fieldLoop (env : Env) (i : Nat) (named : Bool) : List Nat → List Nat → List Report × List Nat
  | [], marked => ([], marked)
  | x :: xs, marked =>
    if x ∈ marked then fieldLoop env i named xs marked
    else
      let r := fieldLoop env i named xs (x :: marked)
      if named && env.shown (.field i x) then (.field i x :: r.1, r.2) else r

/-- One round of the loop. -/
def step (env : Env) (i : Nat) (e : Entry) (marked : List Nat) : List Report × List Nat :=
  if skipped env e then ([], marked)
  else if !e.used && e.kind != .tag then
    match complaint env e with
    | some f => if env.shown (.entry i f) then ([.entry i f], marked) else ([], marked)
    | none => ([], marked)
  else if e.kind == .datatype || e.kind == .tag then fieldLoop env i e.hasName e.fields marked
  else ([], marked)

/-- The loop from the entry with the number `i` on; the reports, the entries, and the fields that are used. -/
def pass (env : Env) : Nat → List Entry → List Nat → List Report × List Entry × List Nat
  | _, [], marked => ([], [], marked)
  | i, e :: es, marked =>
    let r := step env i e marked
    let q := pass env (i + 1) es r.2
    (r.1 ++ q.1, { e with used := e.used || !r.1.isEmpty } :: q.2.1, q.2.2)

/-- `usymtab_allUsed` -/
def allUsed (env : Env) (es : List Entry) (marked : List Nat) : List Report × List Entry × List Nat :=
  pass env 0 es marked

/-- `uentry_setParam` -/
def setParam : VKind → VKind
  | .yieldParam => .yieldParam
  | .sefParam => .sefParam
  | .sefRetParam => .sefRetParam
  | _ => .param

inductive Qual where
  | sef | returned
deriving DecidableEq, Repr

/-- `uentry_reflectQualifiers` for the two qualifiers that change the kind of a parameter. -/
def reflect (v : VKind) : Qual → VKind
  | .sef => match v with
    | .yieldParam => .yieldParam
    | .retParam => .sefRetParam
    | _ => .sefParam
  | .returned => .retParam

end Unused
end Splint
