import Verif.Listed
/-!
# State kinds and their merges

Model of src/Headers/varKinds.h, src/varKinds.c and of the state merges of src/sRef.c.
Dropped everywhere: the `stateInfo` records (where a state was set, used only in hints) and
message texts.
-/
namespace Splint

/-- `nstate`, Headers/varKinds.h:47-61. -/
inductive NState
  | error | unknown | notNull | mNotNull | relNull | constNull | posNull | defNull | absNull
  deriving DecidableEq, Repr

/-- The integer values of the enumeration, Headers/varKinds.h:47-61. -/
def NState.toInt : NState → Int
  | .error => -1 | .unknown => 0 | .notNull => 1 | .mNotNull => 2 | .relNull => 3
  | .constNull => 4 | .posNull => 5 | .defNull => 6 | .absNull => 7

/-- `nstate_possiblyNull`, varKinds.c:99-106. -/
def NState.possiblyNull (n : NState) : Bool :=
  decide (n.toInt ≥ NState.constNull.toInt) && decide (n.toInt ≤ NState.absNull.toInt)

/-- `nstate_perhapsNull`, varKinds.c:108-115. -/
def NState.perhapsNull (n : NState) : Bool :=
  decide (n.toInt ≥ NState.relNull.toInt) && decide (n.toInt ≤ NState.absNull.toInt)

/-- `sRef_combineNullState`, sRef.c:9550-9609: the new `res->nullstate`.
`sRef_resetAliasKind` (sRef.c:88-94) does nothing. -/
def NState.combine (n1 n2 : NState) : NState :=
  if n1 = n2 ∨ n2 = .unknown then n1
  else match n1 with
    | .error => .error
    | .unknown => n2
    | .posNull => .posNull
    | .defNull => .posNull
    | .relNull => .relNull
    | .notNull => if n2 = .mNotNull then .notNull else .posNull
    | .mNotNull => if n2 = .notNull then .notNull else .posNull
    | .constNull => n2
    | .absNull => n2

/-- `sstate`, Headers/varKinds.h:12-36 (`SS_LAST`, never assigned, is left out). -/
inductive SState
  | unknown | unuseable | undefined | mUndefined | allocated | pDefined | defined | partial_
  | dead | hoffa | fixed | relDef | undefGlob | killed | undefKilled | special
  deriving DecidableEq, Repr

/-- `sRef_combineDefState`, sRef.c:9086-9144: the new `res->defstate`; `none` is the internal
bug report of `BADDEFAULT` (sRef.c:9135). -/
def SState.combine (s1 s2 : SState) : Option SState :=
  if s1 = s2 ∨ s2 = .unknown then some s1
  else match s1 with
    | .unknown => some s2
    | .fixed => if s2 = .defined then some s1 else some s2
    | .defined => some s2
    | .pDefined | .allocated => if s2 ≠ .defined then some s2 else some s1
    | .hoffa | .relDef | .unuseable | .undefined | .partial_ | .undefGlob | .killed | .dead
    | .special => some s1
    | .mUndefined | .undefKilled => none

/-- `exkind`, Headers/varKinds.h:105-110. -/
inductive ExKind
  | unknown | normal | exposed | observer
  deriving DecidableEq, Repr

/-- `sRef_combineExKinds`, sRef.c:8763-8781. -/
def ExKind.combine (a1 a2 : ExKind) : ExKind :=
  if a1 = a2 ∨ a2 = .unknown then a1
  else if a1 = .unknown then a2
  else .observer

/-- `alkind`, Headers/varKinds.h:80-103. -/
inductive AlKind
  | unknown | error | only | impOnly | keep | kept | temp | impTemp | shared | unique
  | returned | fresh | stack | refCounted | refs | killRef | newRef | owned | dependent
  | impDependent | static | local_
  deriving DecidableEq, Repr

namespace AlKind

/-- `alkind_isImplicit`, Headers/varKinds.h:135-136. -/
def isImplicit (a : AlKind) : Bool := a = .impOnly || a = .impDependent || a = .impTemp
/-- `alkind_isDependent`, Headers/varKinds.h:137. -/
def isDependent (a : AlKind) : Bool := a = .dependent || a = .impDependent
/-- `alkind_isOnly`, Headers/varKinds.h:138. -/
def isOnly (a : AlKind) : Bool := a = .only || a = .impOnly
/-- `alkind_isTemp`, Headers/varKinds.h:139. -/
def isTemp (a : AlKind) : Bool := a = .temp || a = .impTemp

/-- `alkind_derive`, varKinds.c:152-188 (`alkind_isKnown (a)` is `a != AK_UNKNOWN`). -/
def derive (outer inner : AlKind) : AlKind :=
  match outer with
  | .error | .unknown => inner
  | .kept | .keep | .only | .impOnly | .owned | .impDependent | .dependent =>
    if inner = .shared then .shared
    else if outer = .dependent then .impDependent
    else if outer = .only then .impOnly
    else outer
  | .refCounted | .newRef | .killRef | .refs | .stack | .static => outer
  | .temp | .impTemp | .shared | .unique | .local_ | .fresh | .returned =>
    if inner ≠ .unknown then inner else outer

/-- `alkind_isMeaningless`, varKinds.c:379-385. -/
def isMeaningless (a : AlKind) : Bool :=
  a = .error || a = .unknown || a = .returned || a = .stack || a = .refCounted || a = .refs ||
  a = .killRef || a = .newRef || a = .local_

/-- `alkind_compatible`, varKinds.c:387-426. -/
def compatible (a1 a2 : AlKind) : Bool :=
  if a1 = a2 then true
  else if a2 = .error then true
  else if a2 = .unknown then isMeaningless a1 || a1 = .impTemp
  else match a1 with
    | .error => true
    | .unknown => isMeaningless a2 || a2 = .impTemp
    | .impOnly => a2 = .keep || a2 = .fresh || a2 = .only
    | .only => a2 = .keep || a2 = .fresh || a2 = .impOnly
    | .owned => false
    | .impDependent => a2 = .dependent
    | .dependent => a2 = .impDependent
    | .keep => a2 = .only || a2 = .fresh || a2 = .impOnly
    | .kept => false
    | .impTemp => a2 = .temp
    | .temp => a2 = .impTemp
    | .shared => false
    | .unique => a2 = .temp
    | .returned => isMeaningless a2
    | .fresh => isOnly a2
    | .stack => isMeaningless a2
    | .refCounted => isMeaningless a2
    | .refs => isMeaningless a2
    | .killRef => isMeaningless a2
    | .newRef => isMeaningless a2
    | .local_ => isMeaningless a2
    | .static => isMeaningless a2

/-- `alkind_equal`, varKinds.c:428-446. -/
def equal (a1 a2 : AlKind) : Bool :=
  if a1 = a2 then true
  else if a2 = .error then true
  else match a1 with
    | .error => true
    | .impOnly => a2 = .only
    | .only => a2 = .impOnly
    | .impDependent => a2 = .dependent
    | .dependent => a2 = .impDependent
    | .impTemp => a2 = .temp
    | .temp => a2 = .impTemp
    | _ => false

/-- `alkind_fixImplicit`, varKinds.c:448-456. -/
def fixImplicit (a : AlKind) : AlKind :=
  if a = .impTemp then .temp
  else if a = .impOnly then .impOnly
  else if a = .impDependent then .dependent
  else a

/-- `alkind_resolve`, transferChecks.c:72-78. -/
def resolve (a1 a2 : AlKind) : AlKind :=
  if a1 = .unknown ∨ a1 = .error then a2
  else if a2 = .unknown ∨ a2 = .error ∨ a2 = .local_ then a1
  else if a1 = .local_ then a2
  else a1

end AlKind

/-- `exitkind`, Headers/varKinds.h:201-216. -/
inductive ExitKind
  | error | unknown | neverEscape | goto_ | mayGoto | mayExit | mustExit | trueExit | falseExit
  | mustReturn | mayReturn | mayReturnExit | mustReturnExit
  deriving DecidableEq, Repr

namespace ExitKind

/-- `exitkind_mustEscape`, Headers/varKinds.h:250-253. -/
def mustEscape (e : ExitKind) : Bool :=
  e = .mustExit || e = .mustReturn || e = .mustReturnExit || e = .goto_

/-- `exitkind_isConditionalExit`, Headers/varKinds.h:240-242. -/
def isConditionalExit (e : ExitKind) : Bool := e = .trueExit || e = .falseExit

/-- `exitkind_makeConditional`, varKinds.c:480-492. -/
def makeConditional (k : ExitKind) : ExitKind :=
  match k with
  | .trueExit | .falseExit | .mustExit => .mayExit
  | .mustReturn => .mayReturn
  | .mustReturnExit => .mayReturnExit
  | .goto_ => .mayGoto
  | k => k

/-- `exitkind_couldExit`, varKinds.c:580-594. -/
def couldExit (e : ExitKind) : Bool :=
  match e with
  | .mayExit | .mustExit | .trueExit | .falseExit | .mayReturnExit | .mustReturnExit | .goto_
  | .mayGoto => true
  | _ => false

/-- `exitkind_couldReturn`, varKinds.c:596-606. -/
def couldReturn (e : ExitKind) : Bool :=
  match e with
  | .mustReturn | .mayReturn | .mayReturnExit | .mustReturnExit => true
  | _ => false

/-- `exitkind_couldGoto`, varKinds.c:608-611. -/
def couldGoto (e : ExitKind) : Bool := e = .goto_ || e = .mayGoto

/-- `exitkind_couldEscape`, varKinds.c:613-617. -/
def couldEscape (e : ExitKind) : Bool := couldReturn e || couldExit e || couldGoto e

/-- `exitkind_combine`, varKinds.c:494-578. -/
def combine (k1 k2 : ExitKind) : ExitKind :=
  if k1 = k2 then k1
  else if k2 = .error then .error
  else match k1 with
    | .error => .error
    | .unknown | .neverEscape => makeConditional k2
    | .mustExit =>
      match k2 with
      | .mustReturnExit | .mustReturn => .mustReturnExit
      | .mayReturnExit | .mayReturn => .mayReturnExit
      | _ => .mayExit
    | .mayExit | .trueExit | .falseExit =>
      match k2 with
      | .mustReturnExit | .mayReturnExit | .mayReturn | .mustReturn => .mayReturnExit
      | _ => .mayExit
    | .mustReturn =>
      match k2 with
      | .mustReturnExit | .mustExit => .mustReturnExit
      | .mayReturnExit | .trueExit | .falseExit | .mayExit => .mayReturnExit
      | _ => .mayReturn
    | .mayReturn => if couldExit k2 then .mayReturnExit else .mayReturn
    | .mustReturnExit =>
      match k2 with
      | .mustReturn | .mustExit => .mustReturnExit
      | _ => .mayReturnExit
    | .mayReturnExit => .mayReturnExit
    | .goto_ | .mayGoto => if couldExit k2 then .mayReturnExit else .mayGoto

end ExitKind

instance : Listed NState where
  all := [.error, .unknown, .notNull, .mNotNull, .relNull, .constNull, .posNull, .defNull,
    .absNull]
  complete a := by cases a <;> decide

instance : Listed SState where
  all := [.unknown, .unuseable, .undefined, .mUndefined, .allocated, .pDefined, .defined,
    .partial_, .dead, .hoffa, .fixed, .relDef, .undefGlob, .killed, .undefKilled, .special]
  complete a := by cases a <;> decide

instance : Listed ExKind where
  all := [.unknown, .normal, .exposed, .observer]
  complete a := by cases a <;> decide

instance : Listed AlKind where
  all := [.unknown, .error, .only, .impOnly, .keep, .kept, .temp, .impTemp, .shared, .unique,
    .returned, .fresh, .stack, .refCounted, .refs, .killRef, .newRef, .owned, .dependent,
    .impDependent, .static, .local_]
  complete a := by cases a <;> decide

instance : Listed ExitKind where
  all := [.error, .unknown, .neverEscape, .goto_, .mayGoto, .mayExit, .mustExit, .trueExit,
    .falseExit, .mustReturn, .mayReturn, .mayReturnExit, .mustReturnExit]
  complete a := by cases a <;> decide

instance : Listed Bool where
  all := [false, true]
  complete a := by cases a <;> decide

/-! ## The merge of two branch states of one reference -/

/-- The parts of an `sRef` read and written by the head of `sRef_mergeStateAux`. -/
structure MState where
  defstate : SState
  nullstate : NState
  aliaskind : AlKind
  expkind : ExKind
  /-- `sRef_isConst` -/
  isConst : Bool := false
  /-- `sRef_isLocalVar` -/
  isLocalVar : Bool := true
  deriving DecidableEq, Repr

/-- What the merge asks of its surroundings. -/
structure MergeEnv where
  /-- `usymtab_isAltDefinitelyNullDeep (res)` -/
  altNull : Bool
  /-- `usymtab_isDefinitelyNullDeep (other)` -/
  otherNull : Bool
  deriving DecidableEq, Repr

namespace MState

/-- `sRef_definitelyNull`, sRef.c:8198-8203, and `sRef_isDefinitelyNull`, sRef.c:9827-9831. -/
def definitelyNull (s : MState) : Bool := s.nullstate = .defNull || s.nullstate = .constNull

/-- `sRef_isFresh`, sRef.c:9822-9825. -/
def isFresh (s : MState) : Bool := s.aliaskind = .fresh

/-- `sRef_combineAliasKindsError`, sRef.c:8789-8952: the new `res->aliaskind` and whether the
branch-state warning is issued (before suppression).  The intermediate `AK_ERROR` of
lines 8920 and 8946 is always overwritten at line 8950, so whether the warning is really
printed does not matter; `sRef_maybeKill` (line 8926) only changes the definition state of a
storage reached through an array fetch and is left out. -/
def combineAliasKindsError (env : MergeEnv) (res other : MState) : AlKind × Bool :=
  let ares := res.aliaskind
  let aother := other.aliaskind
  if ares.isDependent then
    if aother = .kept then (.kept, false)
    else if aother = .local_ ∨ aother = .static ∨ aother.isTemp then (.dependent, false)
    else (ares, false)
  else if aother.isDependent then
    if ares = .kept then (.kept, false)
    else if ares = .local_ ∨ ares = .static ∨ ares.isTemp then (.dependent, false)
    else (ares, false)
  else if (ares = .local_ ∨ ares = .unique ∨ ares = .static ∨ ares.isTemp) ∧ other.isFresh then
    if env.altNull then (ares, false)
    else (if res.isLocalVar then .local_ else .unknown, true)
  else if (aother = .local_ ∨ aother = .unique ∨ aother = .static ∨ aother.isTemp) ∧ res.isFresh
  then
    if env.otherNull then (aother, false)
    else (if res.isLocalVar then .local_ else .unknown, true)
  else if ares = .newRef ∧ aother = .refCounted ∧ other.isConst then (.newRef, false)
  else if aother = .newRef ∧ ares = .refCounted ∧ res.isConst then (.newRef, false)
  else if res.isLocalVar ∧ ((ares = .kept ∧ aother = .local_) ∨ (aother = .kept ∧ ares = .local_))
  then (.kept, false)
  else if (ares = .owned ∧ aother = .only) ∨ (aother = .owned ∧ ares = .only) then (.owned, false)
  else (if res.isLocalVar then .local_ else .unknown, true)

/-- `sRef_combineAliasKinds`, sRef.c:8954-9084. -/
def combineAliasKinds (env : MergeEnv) (res other : MState) : AlKind × Bool :=
  let ares := res.aliaskind
  let aother := other.aliaskind
  if ares.equal aother ∨ aother = .unknown ∨ aother = .error then (ares, false)
  else if res.defstate = .dead ∨ other.defstate = .dead then (.error, false)
  else if ares = .unknown ∨ ares = .error ∨ res.defstate = .undefined ∨ res.definitelyNull then
    (aother, false)
  else if other.defstate = .undefined ∨ other.definitelyNull then (ares, false)
  else if ((ares = .unique ∨ ares.isTemp) ∧ aother = .local_) ∨
      ((aother = .unique ∨ aother.isTemp) ∧ ares = .local_) then (.local_, false)
  else if (ares = .owned ∧ aother = .fresh) ∨ (aother = .owned ∧ ares = .fresh) then
    (.fresh, false)
  else if (ares = .keep ∧ aother = .fresh) ∨ (aother = .keep ∧ ares = .fresh) then (.keep, false)
  else if (ares = .local_ ∧ aother = .stack) ∨ (aother = .local_ ∧ ares = .stack) then
    (.stack, false)
  else if (ares = .local_ ∧ (aother = .owned ∧ other.isLocalVar)) ∨
      (aother = .local_ ∧ (ares = .owned ∧ res.isLocalVar)) then (.local_, false)
  else if (ares = .fresh ∧ aother.isOnly) ∨ (aother = .fresh ∧ ares.isOnly) then (.fresh, false)
  else if (aother = .fresh ∧ res.definitelyNull) ∨ (ares = .fresh ∧ other.definitelyNull) then
    (if ares ≠ .fresh then .fresh else ares, false)
  else if (res.isFresh ∧ other.isConst) ∨ (other.isFresh ∧ res.isConst) then (.fresh, false)
  else if (aother = .static ∧ res.isConst) ∨ (ares = .static ∧ other.isConst) then
    (if ares ≠ .static then .static else ares, false)
  else combineAliasKindsError env res other

/-- Lines 3825-3888 of `sRef_mergeStateAux`, sRef.c: adjustment for released and null storage. -/
def adjustDead (res other : MState) : MState × MState :=
  if other.defstate = .dead ∧ ((res.aliaskind.isOnly ∧ res.definitelyNull) ∨
      (res.defstate = .undefined ∨ res.defstate = .unuseable)) then
    if res.defstate = .undefined ∨ res.defstate = .unuseable then
      ({ res with defstate := .unuseable }, other)
    else ({ res with defstate := .dead }, other)
  else if res.defstate = .dead ∧ ((other.aliaskind.isOnly ∧ other.definitelyNull) ∨
      (other.defstate = .undefined ∨ other.defstate = .unuseable)) then
    if other.defstate = .undefined ∨ other.defstate = .unuseable then
      ({ res with defstate := .unuseable }, other)
    else ({ res with defstate := .dead }, other)
  else if res.defstate = .defined ∧ (other.defstate = .allocated ∧ other.definitelyNull) then
    (res, { other with defstate := .defined })
  else if other.defstate = .defined ∧ (res.defstate = .allocated ∧ res.definitelyNull) then
    ({ res with defstate := .defined }, other)
  else (res, other)

/-- Lines 3900-3928 of `sRef_mergeStateAux`, sRef.c. -/
def adjustAlias (res other : MState) : MState × MState :=
  let other := if other.aliaskind.isOnly ∧ other.defstate = .dead then
    { other with aliaskind := .unknown } else other
  let res := if res.aliaskind.isOnly ∧ res.defstate = .dead then
    { res with aliaskind := .unknown } else res
  let other := if other.aliaskind.isDependent ∧ res.defstate = .dead then
    { other with aliaskind := .unknown, defstate := .dead } else other
  let res := if res.aliaskind.isDependent ∧ other.defstate = .dead then
    { res with aliaskind := .unknown, defstate := .dead } else res
  (res, other)

/-- `sRef_mergeStateAux`, sRef.c:3804-4016, for references of the same kind: the new state of
`res` and whether a branch-state warning is issued; `none` is an internal bug report.  Derived
references (fields, dereferences) and user-defined states are left out here. -/
def merge (env : MergeEnv) (res other : MState) : Option (MState × Bool) :=
  let (res, other) := adjustDead res other
  let (res, other) := adjustAlias res other
  let (al, warned) := combineAliasKinds env res other
  match SState.combine res.defstate other.defstate with
  | none => none
  | some d =>
    some ({ res with
      aliaskind := al
      defstate := d
      nullstate := NState.combine res.nullstate other.nullstate
      expkind := ExKind.combine res.expkind other.expkind }, warned)

end MState
end Splint
