import Verif.Model.Kinds
/-!
# Transfers of storage

Models `checkTransferAux` (src/transferChecks.c:3415-4003) and the checks it calls: `checkTransferNullAux`
(2503-2598), `checkTransferAssignAux` (2602-2766), `checkOnlyTransferAux` (2774-2924), `checkOwnedTransferAux`
(2931-3017), `checkFreshTransferAux` (3020-3169), `checkTransferExposure` (3172-3405); then `checkTransfer`
(4317-4415), the end of `transferChecks_passParam` (2158-2205), and the changes of a reference they make (src/sRef.c).

A transfer hands the storage of one reference, `f`, to another, `t`: in a call, a `return`, an assignment, an
assignment of a field or the initialisation of a global variable. The other values of `transferKind` are never
passed to `checkTransfer` (the callers are at src/transferChecks.c:1779, 2202, 2389, 2405, 2425, 2459).

Simplifications. Both references are valid and reasonable (`sRef_isReasonable`). A message is known by its flag;
`on` says which are shown, and the texts are left out. What the symbol table, the types and the expressions tell
about the references is given by the fields of `Fact`; among it the answers of `checkCompletelyDefined`
(whether storage is defined: not modelled), `usymtab_aliasedBy` (other references to the same storage) and
`sRef_sameName`. The changes of a reference that run through all aliases (`sRef_killComplete` ...) are modelled for the
reference itself; those of its base and of derived references are left out, and so is the bookkeeping of
`sRef_setLastReference` and of the places shown with messages. `checkMetaStateTransfer` is left out.
-/
namespace Splint.Transfer

/-- `transferKind` (src/Headers/transferChecks.h:34-44), those used in `checkTransfer` -/
inductive TT
  | fcnReturn | doAssign | fieldAssign | fcnPass | globInit
  deriving DecidableEq, Repr

/-- The messages, by their flag. -/
inductive Msg
  | nullInit | nullAssign | nullPass | nullRet
  | mustFreeFresh | mustFreeOnly | newRefTrans | onlyTrans | onlyUnqGlobalTrans | ownedTrans | freshTrans
  | readOnlyTrans | observerTrans | exposeTrans | dependentTrans | sharedTrans | keepTrans | tempTrans
  | keptTrans | refCountTrans | immediateTrans | staticTrans | staticInitTrans | unknownTrans | unknownInitTrans
  deriving DecidableEq, Repr

/-- A reference: its state, and what is fixed about it. -/
structure Ref where
  /-- `aliaskind`, `oaliaskind` -/
  al : AlKind
  oal : AlKind
  /-- `expkind`, `oexpkind` -/
  ex : ExKind
  oex : ExKind
  /-- `defstate`, `nullstate` -/
  defst : SState
  null : NState
  /-- `SK_NEW`: a value that has no name, as the result of a call -/
  isNew : Bool := false
  /-- `SK_CONST` -/
  isConst : Bool := false
  isParam : Bool := false
  /-- `SK_CVAR` -/
  isCvar : Bool := false
  /-- `SK_ADR` -/
  isAddress : Bool := false
  /-- `sRef_isLocalVar`, `sRef_isNSLocalVar` (not `static`) -/
  isLocal : Bool := false
  nsLocal : Bool := false
  /-- `sRef_isFileOrGlobalScope` of it, and of its root -/
  isGlobal : Bool := false
  rootGlobal : Bool := false
  /-- `sRef_isNSLocalVar` of its root -/
  rootNsLocal : Bool := false
  /-- `sRef_isUnknownArrayFetch`, `sRef_isThroughArrayFetch`, `sRef_isUnionField`, `sRef_isAllocIndexRef`,
  `sRef_isReference`, `sRef_isStackAllocated` -/
  unknownFetch : Bool := false
  throughFetch : Bool := false
  unionField : Bool := false
  allocIndex : Bool := false
  isReference : Bool := false
  stackAllocated : Bool := false
  /-- `ctype_isMutable` and `ctype_isSU` of its (real) type -/
  isMutable : Bool := true
  isSU : Bool := false
  deriving DecidableEq, Repr

/-- What is known besides the two references. -/
structure Fact where
  tt : TT
  /-- do not change `fref`, `tref` (set in the passes over aliases) -/
  ffix : Bool := false
  tfix : Bool := false
  /-- whether a message is shown (`optgenerror`) -/
  on : Msg → Bool
  /-- `optgenerror2` with `FLG_STRICTUSERELEASED` -/
  strictReleased : Bool := true
  strictDestroy : Bool := false
  passUnknown : Bool := false
  memImplicit : Bool := true
  depArrays : Bool := false
  /-- the references have the same name; are the same -/
  sameName : Bool := false
  same : Bool := false
  /-- `usymtab_isGuarded (fref)`, `usymtab_isDefinitelyNull (tref)` -/
  guarded : Bool := false
  tDefNull : Bool := false
  /-- for references of state `NS_ABSNULL`: the answer found through their types -/
  fAbsPossibly : Bool := false
  tAbsPerhaps : Bool := false
  /-- the type is a pointer or array (`ctype_isRealAP (ttyp)`) -/
  isPointer : Bool := true
  /-- `context_inGlobalScope` -/
  globalScope : Bool := false
  /-- `sRef_hasLastReference (tref)` -/
  hasLast : Bool := false
  /-- `transferChecks_canLoseReference` of `tref` and of `fref`, `canLoseLocalReference (fref)` -/
  canLoseT : Bool := false
  canLoseF : Bool := false
  canLoseLocalF : Bool := false
  /-- there is a `dependentReference (fref)`, and it is a local variable -/
  depLocal : Bool := false
  /-- the answer of `checkCompletelyDefined` -/
  defok : Bool := true
  /-- of the expression: it is the null constant, a string literal, its type is mutable, an array -/
  nullValue : Bool := false
  stringLit : Bool := false
  expMutable : Bool := true
  expArray : Bool := false
  /-- `ctype_isRealArray` of the type of the expression assigned to -/
  toArray : Bool := false

/-- The two references, and the messages so far. -/
structure St where
  f : Ref
  t : Ref
  out : List Msg := []
  deriving DecidableEq, Repr

/-! ## Changes of a reference -/

/-- `alkind_isOnly`, `alkind_isTemp`, `alkind_isDependent` (src/Headers/varKinds.h:135-142) -/
def isOnly (a : AlKind) : Bool := a == .only || a == .impOnly
def isTemp (a : AlKind) : Bool := a == .temp || a == .impTemp
def isDependent (a : AlKind) : Bool := a == .dependent || a == .impDependent

/-- `sRef_setAliasKind` (src/sRef.c:5001-5017), also `sRef_clearAliasState` (4989-4993, with `AK_ERROR`),
`sRef_clearAliasKind` (src/Headers/sRef.h:199, with `AK_UNKNOWN`) and `sRef_setShared` (src/sRef.c:5465-5479) -/
def Ref.setAl (k : AlKind) (r : Ref) : Ref := { r with al := k }

/-- `sRef_setDependent`, `sRef_setOwned`, `sRef_setKept`, `sRef_setFresh` (src/sRef.c:5642-5687, 5715-5724): constants
stay as they are -/
def Ref.setNC (k : AlKind) (r : Ref) : Ref := if r.isConst then r else { r with al := k }

/-- `sRef_setKeptAux`, `sRef_setDependentAux` (src/sRef.c:5689-5703) -/
def Ref.setC (k : AlKind) (r : Ref) : Ref := if r.al = .shared then r else r.setNC k

/-- `sRef_kill` (src/sRef.c:5726-5755) -/
def Ref.kill (r : Ref) : Ref :=
  if r.al = .shared || r.isConst then r else { r with al := r.oal, defst := .dead }

/-- `sRef_maybeKill` (src/sRef.c:5757-5787) -/
def Ref.maybeKill (r : Ref) : Ref := { r with al := r.oal, defst := .hoffa }

/-- `sRef_killAux` (src/sRef.c:5793-5806) -/
def Ref.killC (r : Ref) : Ref :=
  if r.al = .shared then r else if r.unknownFetch then r.maybeKill else r.kill

/-- `sRef_resetState` (src/sRef.c:7610-7654) -/
def Ref.reset (r : Ref) : Ref :=
  if r.oal = .killRef && !r.isParam then { r with ex := r.oex }
  else if r.al ≠ .refCounted && r.al ≠ .refs then { r with ex := r.oex, al := r.oal }
  else { r with ex := r.oex }

def Ref.exposed (r : Ref) : Bool := r.ex == .exposed
def Ref.observer (r : Ref) : Bool := r.ex == .observer
/-- exposed or observer -/
def Ref.shown (r : Ref) : Bool := r.exposed || r.observer

/-- `sRef_isDefinitelyNull` (src/sRef.c:9827-9831), `sRef_definitelyNull` (8199-8203) -/
def Ref.isDefNull (r : Ref) : Bool := r.null == .defNull || r.null == .constNull

def St.modF (g : Ref → Ref) (s : St) : St := { s with f := g s.f }
def St.modT (g : Ref → Ref) (s : St) : St := { s with t := g s.t }

/-- Changing a reference only if a condition holds. -/
def St.modFIf (c : Bool) (g : Ref → Ref) (s : St) : St := if c then s.modF g else s
def St.modTIf (c : Bool) (g : Ref → Ref) (s : St) : St := if c then s.modT g else s

/-- `voptgenerror` -/
def St.say (e : Fact) (m : Msg) (s : St) : St := if e.on m then { s with out := s.out ++ [m] } else s

/-- `if (optgenerror (...)) ...` -/
def St.sayThen (e : Fact) (m : Msg) (k : St → St) (s : St) : St :=
  if e.on m then k { s with out := s.out ++ [m] } else s

/-! ## The checks -/

/-- `sRef_possiblyNull`, `sRef_perhapsNull` (src/sRef.c:7969-8003, 8158-8192) -/
def possiblyNull (e : Fact) (r : Ref) : Bool :=
  if r.null = .absNull then e.fAbsPossibly else r.null.possiblyNull
def perhapsNull (e : Fact) (r : Ref) : Bool :=
  if r.null = .absNull then e.tAbsPerhaps else r.null.perhapsNull

/-- `checkTransferNullAux` (src/transferChecks.c:2503-2598). `sRef_setNullError` is left out. -/
def checkNull (e : Fact) (s : St) : St :=
  if possiblyNull e s.f && !e.guarded && e.isPointer then
    if s.t.al ≠ .local_ && s.t.al ≠ .fresh && !perhapsNull e s.t && e.tt ≠ .doAssign then
      if e.tt = .globInit then
        if s.t.null = .notNull || s.t.null = .mNotNull then s.say e .nullInit else s.say e .nullAssign
      else if e.tt = .fcnPass then s.say e .nullPass else s.say e .nullRet
    else s
  else s

/-- The first part of `checkTransferAssignAux` (src/transferChecks.c:2620-2710): storage that is lost -/
def checkLost (e : Fact) (s : St) : St :=
  let t := s.t
  if (isOnly t.al || t.al = .fresh || t.al = .newRef || t.al = .owned)
      && !(t.defst = .dead || t.defst = .undefined || t.defst = .unuseable || t.defst = .partial_
            || t.isDefNull || t.stackAllocated || t.allocIndex)
      && !e.same && !e.tDefNull then
    if e.canLoseT then s
    else
      let flg := if t.al = .fresh then Msg.mustFreeFresh else .mustFreeOnly
      if e.hasLast then s.say e flg
      else if e.globalScope then s
      else if t.al = .newRef then s.sayThen e flg (·.modT (Ref.setAl .error))
      else if !(t.unknownFetch && !e.strictDestroy) && !t.unionField && t.defst ≠ .relDef then s.say e flg
      else s
  else s

/-- reference counted receivers in `checkTransferAssignAux` (src/transferChecks.c:2714-2741) -/
def assignCounted (e : Fact) (s : St) : St :=
  if s.t.al = .refCounted then
    let s1 :=
      if s.f.al = .newRef then s.modT (Ref.setAl .newRef)
      else if s.f.isConst then s.modT (Ref.setAl .error)
      else s
    if !s1.t.nsLocal && s1.f.al = .refCounted && (s1.f.defst = .defined || s1.f.defst = .relDef)
    then s1.say e .newRefTrans else s1
  else s

/-- addresses of local storage in `checkTransferAssignAux` (src/transferChecks.c:2747-2751) -/
def assignStack (s : St) : St := s.modTIf (s.f.al = .stack && !s.f.isSU) (Ref.setAl .stack)

/-- new storage in `checkTransferAssignAux` (src/transferChecks.c:2753-2764) -/
def assignFresh (e : Fact) (s : St) : St :=
  s.modTIf (s.t.nsLocal && s.t.al ≠ .owned && s.t.isMutable && isOnly s.f.al && s.f.isNew && !e.tfix)
    (Ref.setNC .fresh)

/-- The second part of `checkTransferAssignAux` (src/transferChecks.c:2712-2766). `fixAssignLhs` is `sRef_resetStateComplete`
(2337-2341). -/
def assignState (e : Fact) (s : St) : St :=
  assignFresh e (assignStack (assignCounted e (s.modT Ref.reset)))

/-- `checkTransferAssignAux` (src/transferChecks.c:2602-2766). Of `sRef_copyState` the states modelled here. -/
def checkAssign (e : Fact) (s : St) : St :=
  if e.sameName then
    s.modT fun t => { t with al := s.f.al, ex := s.f.ex, defst := s.f.defst, null := s.f.null }
  else assignState e (checkLost e s)

/-- The check for definition in `checkTransferAux` (src/transferChecks.c:3451-3485) -/
def checkDefined (e : Fact) (s : St) : St :=
  if !e.ffix && !e.tfix then
    let either := e.tt = .doAssign || e.tt = .fieldAssign
    let called := !either || (!s.t.nsLocal
      && ((s.t.defst = .defined || s.t.defst = .relDef || s.t.defst = .partial_) || s.t.defst = .unknown))
    s.modTIf ((!called || e.defok) && either) fun t => { t with defst := s.f.defst }
  else s

/-- `checkTransferExposure` (src/transferChecks.c:3172-3405) -/
def checkExposure (e : Fact) (s : St) : St :=
  let fkind := s.f.al
  let tkind := s.t.al
  if s.f.observer && s.f.isMutable then
    if s.t.shown || tkind = .local_ then
      s.modTIf (e.tt = .doAssign && tkind = .local_ && !e.tfix) (Ref.setAl fkind)
    else if e.tt ≠ .fcnPass then
      -- what is done if there was a message
      let fin : St → St := fun s => s.modTIf (e.tt ≠ .globInit) (Ref.setAl .error)
      if e.stringLit && e.tt = .globInit then (s.say e .readOnlyTrans).modF (Ref.setAl .error)
      else if (e.tt = .doAssign || e.tt = .fieldAssign) && (s.t.nsLocal || (e.stringLit && e.toArray)) then s
      else if e.stringLit && e.on .readOnlyTrans then fin { s with out := s.out ++ [.readOnlyTrans] }
      else s.sayThen e .observerTrans fin
    else if isTemp tkind || isDependent tkind || tkind = .refCounted then s
    else if tkind ≠ .error then s.sayThen e .observerTrans (·.modF (Ref.setAl .error))
    else s
  else if s.f.exposed && s.f.isMutable then
    match e.tt with
    | .fcnReturn => if !(s.t.shown || s.f.isParam) then s.say e .exposeTrans else s
    | .fcnPass =>
      if !(s.t.shown || (tkind = .unknown || isDependent tkind || isTemp tkind || tkind = .killRef
            || tkind = .refCounted)) then
        if tkind = .unique || tkind = .error then s
        else s.sayThen e .exposeTrans (·.modF (Ref.setAl .error))
      else s
    | .doAssign | .fieldAssign =>
      let s1 :=
        if !(s.t.exposed || !s.t.isCvar || (tkind = .unknown || isDependent tkind || tkind = .refCounted
              || tkind = .newRef || tkind = .fresh || tkind = .local_))
        then s.say e .exposeTrans else s
      s1.modTIf (!e.tfix) fun t => { t with ex := .exposed }
    | .globInit => s
  else s

/-- `checkOnlyTransferAux` (src/transferChecks.c:2774-2924) -/
def checkOnly (e : Fact) (s : St) : St :=
  let tkind := s.t.al
  if s.t.shown then
    if e.tt = .fcnReturn && s.f.isNew && tkind ≠ .error then s.say e .onlyTrans else s
  else if isOnly tkind || tkind = .keep || tkind = .owned then s
  else if e.tt = .fcnPass && (tkind = .unknown || isTemp tkind || tkind = .unique) then
    s.modFIf (s.f.al = .fresh && tkind = .unknown && !e.passUnknown && !e.ffix) (Ref.setAl .unknown)
  else if tkind = .local_ || tkind = .fresh || tkind = .unknown then
    if e.tt = .doAssign && s.f.isNew && isOnly s.f.al then
      if tkind = .unknown && s.t.rootGlobal && e.on .onlyUnqGlobalTrans then
        St.modT (Ref.setAl .error) { s with out := s.out ++ [.onlyUnqGlobalTrans] }
      else s.modTIf (!e.ffix) (Ref.setNC .fresh)
    else if tkind = .local_ then
      if e.sameName then s
      else s.modTIf (!e.tfix && s.f.throughFetch && e.depArrays) (Ref.setNC .dependent)
    else s.say e .onlyTrans
  else if tkind = .error || (tkind = .unknown && !e.memImplicit) then s
  else if (tkind = .kept || tkind = .stack || isDependent tkind) && s.t.nsLocal then s
  else s.sayThen e .onlyTrans fun s =>
    s.modFIf (e.tt = .doAssign && !e.ffix && s.f.rootNsLocal) (Ref.setAl .unknown)

/-- `checkOwnedTransferAux` (src/transferChecks.c:2931-3017) -/
def checkOwned (e : Fact) (s : St) : St :=
  let tkind := s.t.al
  if s.t.shown then
    if e.tt = .fcnReturn && s.f.isNew then s.say e .ownedTrans else s
  else if isOnly tkind || tkind = .keep || isDependent tkind || tkind = .owned then s
  else if tkind = .local_ || tkind = .fresh || tkind = .unknown then
    s.modTIf (e.tt = .doAssign && s.f.isNew && isOnly s.f.al && !e.tfix) (Ref.setNC .fresh)
  else if e.tt = .fcnPass && (tkind = .unknown || isTemp tkind || tkind = .unique) then
    s.modFIf (s.f.al = .fresh && tkind = .unknown && !e.passUnknown && !e.ffix) (Ref.setAl .unknown)
  else
    let s1 :=
      if tkind = .unknown && !e.memImplicit then s
      else if tkind = .kept && s.t.nsLocal then s
      else s.say e .ownedTrans
    s1.modFIf (e.tt = .doAssign && !e.ffix) (Ref.setAl .unknown)

/-- The first part of `checkFreshTransferAux` (src/transferChecks.c:3026-3073): what is returned -/
def freshReturn (e : Fact) (s : St) : St :=
  let tkind := s.t.al
  if e.tt = .fcnReturn && !(isOnly tkind || tkind = .newRef) then
    if tkind = .unknown && !e.memImplicit then s
    else if tkind = .error then s.modFIf (!e.ffix) Ref.killC
    else if tkind = .refCounted then s.sayThen e .newRefTrans (·.modF Ref.killC)
    else s.sayThen e .freshTrans (·.modF Ref.killC)
  else s

/-- The second part of `checkFreshTransferAux` (src/transferChecks.c:3075-3169) -/
def freshGive (e : Fact) (tkind : AlKind) (s : St) : St :=
  if isOnly tkind then
    if e.tt = .doAssign && !s.t.isGlobal then s.modFIf (!e.ffix && !s.t.nsLocal) (Ref.setC .kept)
    else if s.f.isConst then s
    else s.modFIf (!e.ffix) Ref.killC
  else if tkind = .owned then s.modFIf (!e.ffix) (Ref.setC .dependent)
  else if tkind = .refCounted && e.tt = .fcnReturn && s.f.al = .fresh then s.modFIf (!e.ffix) Ref.killC
  else if tkind = .keep then s.modFIf (!e.ffix && !s.t.nsLocal) (Ref.setC .kept)
  else if tkind = .shared then s.modFIf (!e.ffix) (Ref.setAl .shared)
  else if tkind = .local_ || tkind = .unknown then
    if e.tt = .doAssign || e.tt = .fcnReturn then
      (s.modTIf (!e.tfix) (Ref.setNC .owned)).modFIf (!e.ffix && !e.tfix) (Ref.setC .dependent)
    else s.modFIf e.passUnknown (Ref.setAl .unknown)
  else s

/-- `checkFreshTransferAux` (src/transferChecks.c:3020-3169) -/
def checkFresh (e : Fact) (s : St) : St := freshGive e s.t.al (freshReturn e s)

/-- The part of `checkTransferAux` for dependent storage (src/transferChecks.c:3523-3589) -/
def checkDependent (e : Fact) (s : St) : St :=
  let tkind := s.t.al
  if e.tt = .fcnReturn && s.t.shown then s
  else if (isOnly tkind || tkind = .keep || tkind = .owned) || (e.tt ≠ .fcnPass && isTemp tkind) then
    let freed := s.f.isLocal && e.depLocal
    let s1 := s.modFIf freed Ref.kill
    if e.canLoseLocalF then s1
    else if !freed && e.tt ≠ .fieldAssign then s1.say e .dependentTrans
    else s1
  else
    s.modTIf (e.tt = .doAssign && (tkind = .fresh || tkind = .local_) && !e.tfix && !e.ffix) (Ref.setNC .dependent)

/-- for shared storage (src/transferChecks.c:3590-3621) -/
def checkShared (e : Fact) (s : St) : St :=
  let tkind := s.t.al
  if isOnly tkind || (e.tt ≠ .fcnPass && !s.t.shown && isTemp tkind) then s.say e .sharedTrans
  else s.modTIf (tkind = .fresh || tkind = .local_) (Ref.setAl .shared)

/-- for `keep` storage (src/transferChecks.c:3622-3655) -/
def checkKeep (e : Fact) (s : St) : St :=
  let tkind := s.t.al
  if tkind = .keep || tkind = .local_ || (e.tt = .fcnReturn && s.t.exposed)
      || ((e.tt = .doAssign || e.tt = .fieldAssign) && (isOnly tkind || tkind = .owned)) then
    s.modF (Ref.setNC .kept)
  else if e.tt = .fcnPass && (isTemp tkind || tkind = .owned) then s
  else if tkind ≠ .error then s.say e .keepTrans
  else s

/-- for `temp` and `kept` storage (src/transferChecks.c:3656-3706) -/
def checkTemp (e : Fact) (s : St) : St :=
  let fkind := s.f.al
  let tkind := s.t.al
  if isOnly tkind || tkind = .shared || (isTemp fkind && e.tt ≠ .fcnReturn && isDependent tkind)
      || tkind = .owned || tkind = .keep then
    if !e.nullValue && (e.expMutable || (e.expArray && s.f.isParam))
        && (!(e.tt = .doAssign || e.tt = .fieldAssign) || s.t.isReference) then
      let m := if isTemp fkind then Msg.tempTrans else .keptTrans
      if s.f.throughFetch && !e.strictReleased then s else s.say e m
    else s
  else s

/-- for reference counted storage (src/transferChecks.c:3707-3778) -/
def checkCounted (e : Fact) (s : St) : St :=
  let fkind := s.f.al
  let tkind := s.t.al
  if tkind = .newRef then (if s.f.isConst then s else s.say e .refCountTrans)
  else if e.tt = .doAssign || e.tt = .fieldAssign then
    if fkind = .refCounted && !s.t.isLocal then s.say e .refCountTrans else s
  else if tkind = .refCounted || isTemp tkind then s
  else if tkind = .killRef then s.modFIf (!e.ffix && !e.tfix && e.tt ≠ .fcnReturn) Ref.killC
  else if tkind ≠ .error then s.say e .refCountTrans
  else s

/-- The checks by the kind of the source (src/transferChecks.c:3502-3778) -/
def byKind (e : Fact) (s : St) : St :=
  match s.f.al with
  | .only | .impOnly => checkOnly e s
  | .fresh => checkFresh e s
  | .owned => checkOwned e s
  | .dependent | .impDependent => checkDependent e s
  | .shared => checkShared e s
  | .keep => checkKeep e s
  | .temp | .impTemp | .kept => checkTemp e s
  | .refCounted | .killRef => checkCounted e s
  | _ => s

/-- The receiver is `only` or `keep` (src/transferChecks.c:3781-3882); `fkind`, `tkind` are the kinds from before
`byKind`. -/
def giveOnly (e : Fact) (fkind tkind : AlKind) (s : St) : St :=
  let s1 :=
    if s.f.isAddress then (s.say e .immediateTrans).modF (Ref.setAl .error)
    else if (fkind = .unknown || fkind = .static) && !s.f.isDefNull && (!e.ffix && !e.tfix) && !e.nullValue then
      s.say e (if e.tt = .globInit then (if fkind = .static then .staticInitTrans else .unknownInitTrans)
        else if fkind = .static then .staticTrans else .unknownTrans)
    else s
  if fkind = .shared then s1
  else if e.tt = .doAssign then
    s1.modFIf (!e.ffix && (!s1.t.nsLocal && !e.sameName))
      (if e.tfix then Ref.setNC .kept else Ref.setC .kept)
  else if tkind = .keep then s1.modFIf (!e.ffix) (if e.tfix then Ref.setNC .kept else Ref.setC .kept)
  else s1.modFIf (!e.ffix) (if e.tfix then Ref.kill else Ref.killC)

/-- The changes by the kind of the receiver (src/transferChecks.c:3781-3996) -/
def byReceiver (e : Fact) (fkind tkind : AlKind) (s : St) : St :=
  if isOnly tkind || tkind = .keep then giveOnly e fkind tkind s
  else if tkind = .owned then
    if fkind ≠ .shared && (e.tt ≠ .doAssign || !e.sameName) then
      s.modFIf (!e.ffix) (if e.tfix then Ref.setNC .dependent else Ref.setC .dependent)
    else s
  else if tkind = .shared then
    s.modFIf ((fkind = .fresh || fkind = .local_) && !e.ffix) (Ref.setAl .shared)
  else if tkind = .unknown && e.memImplicit then
    if isDependent fkind && !e.nullValue && e.expMutable
        && (!(e.tt = .doAssign || e.tt = .fieldAssign) || s.t.isReference) && !e.canLoseF
    then s.say e .dependentTrans else s
  else if tkind = .newRef then s.modFIf (!e.ffix && !e.tfix) Ref.killC
  else if tkind = .killRef then
    if e.tt = .fcnReturn then (if s.f.al = .newRef then s.say e .refCountTrans else s)
    else if s.f.al = .newRef then s.modF Ref.killC
    else if s.f.al = .refCounted && s.f.isCvar && !s.f.isLocal then s.say e .refCountTrans
    else s
  else s

/-- `checkTransferAux` (src/transferChecks.c:3415-4003) -/
def checkAux (e : Fact) (s : St) : St :=
  let s := if !e.ffix && !e.tfix then checkNull e s else s
  let s := if e.tt = .doAssign then checkAssign e s else s
  let s := checkDefined e s
  let s := checkExposure e s
  byReceiver e s.f.al s.t.al (byKind e s)

/-- One pass of the loop over the aliases of the source in `checkTransfer` (src/transferChecks.c:4378-4409): the alias `a`
stands for the source, and the facts are those about the alias. What is kept is the receiver and the messages. -/
def aliasPass (tt : TT) (s : St) (a : Ref × Fact) : St :=
  let r := checkAux { a.2 with tt := tt, ffix := false, tfix := true } { s with f := a.1 }
  { r with f := s.f }

/-- `checkTransfer` (src/transferChecks.c:4317-4415) without its loop over the aliases of a local receiver (4345-4376, no
receiver of a call or a `return` is a local variable): `aliases` are those of the source that are known, named, and do
not start from a local variable or outside. Changes of an alias during the passes over other aliases are left out. -/
def checkTransfer (e : Fact) (aliases : List (Ref × Fact)) (s : St) : St :=
  let s := if s.f.isLocal then aliases.foldl (aliasPass e.tt) s else s
  checkAux { e with ffix := false, tfix := false } s

/-- The end of `transferChecks_passParam` (src/transferChecks.c:2158-2205): `special` if the parameter has a state
clause (then nothing is checked here, 2103), `returned` if it is returned (`uentry_isReturned`). -/
def passParam (e : Fact) (special returned : Bool) (aliases : List (Ref × Fact)) (s : St) : St :=
  if special then s
  else
    let s1 :=
      if s.f.isNew then
        if (s.f.al = .fresh || isOnly s.f.al) && !isOnly s.t.al && s.t.al ≠ .keep && s.t.al ≠ .owned
            && s.t.al ≠ .error && !returned then s.say e .mustFreeFresh
        else if s.f.al = .newRef && s.t.al ≠ .killRef && s.t.al ≠ .error then s.say e .mustFreeFresh
        else s
      else s
    checkTransfer { e with tt := .fcnPass } aliases s1

end Splint.Transfer
