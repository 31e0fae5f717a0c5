import Verif.Model.SRefSet
/-!
# Alias tables

Model of src/aliasTable.c:88-159 (`aliasTable_lookupRefs`, `aliasTable_addMustAlias`), 161-190
(`aliasTable_addSet`), 204-262 (`aliasTable_clearAliases`), 268-502 (`aliasTable_aliasedBy`,
`aliasTable_canAlias`), 585-702 (unions of tables), of src/sRefSet.c:842-942 (derived references of
the elements of a set), of src/usymtab.c:5733-5821 (aliases of the current table) and of
src/exprNode.c:11370-11374 (`updateAliases`).

The undefined table and the empty one are identified, and the arrays of the table always have room
(`aliasTable_grow`). The outer `none` is an access outside the array of a set.
-/
namespace Splint

/-- What the functions ask about references: the reference derived from an element by `*`, by a field
or by an index, if its type allows it (`sRef_constructPointer`, `sRef_makeNCField`,
`sRef_makeArrayFetch`, `sRef_makeArrayFetchKnown`), by `&` (`sRef_makeAddress`), the same reference
with another base (`sRef_fixBase`), equality of names (`sRef_sameName`), `sRef_isDirectParam` and
`sRef_fixOuterRef`. -/
structure AliasEnv where
  pointer : SRef → Option SRef
  field : SRef → Nat → Option SRef
  fetch : SRef → Option Int → Option SRef
  address : SRef → SRef
  fixBase : SRef → SRef → SRef
  sameName : SRef → SRef → Bool
  isDirectParam : SRef → Bool
  fixOuter : SRef → SRef

abbrev AliasTable := List AliasEntry

namespace AliasTable
open SRef SRefSet

/-- `aliasTable_lookupRefs`, aliasTable.c:88-105. -/
def lookupRefs (t : AliasTable) (sr : SRef) : Option Nat := t.findIdx? fun e => sr.same e.key

/-- `sRef_isAddress`, sRef.c. -/
def isAdr : SRef → Bool
  | .adr .. => true
  | _ => false

/-- The loops of sRefSet.c:842-942: the set of the derived references of the elements. -/
def mapSet (cm : Nat → Nat → Bool) (f : SRef → Option SRef) (s : Option SRefSet) :
    Option (Option SRefSet) :=
  insertAll cm none ((elemsOf s).filterMap f)

/-- The value of the key with index `ind`. -/
def valueAt (t : AliasTable) (ind : Option Nat) : Option SRefSet :=
  match ind with
  | none => none
  | some i => match t[i]? with
    | some e => e.value
    | none => none

/-- `aliasTable_canAlias`, `aliasTable_canAliasLimit` and `aliasTable_canAliasAux`,
aliasTable.c:386-502, with `n = ALIASSEARCHLIMIT - lim`. -/
def canAliasLimit (env : AliasEnv) (cm : Nat → Nat → Bool) (t : AliasTable) :
    Nat → SRef → Option (Option SRefSet)
  | n, .conj _ x y => do
    let a ← canAliasLimit env cm t n x
    let b ← canAliasLimit env cm t n y
    union cm a b
  | 0, _ => some none
  | n + 1, .ptr a r => do
    let tmp ← canAliasLimit env cm t n r
    let ret ← mapSet cm env.pointer tmp
    union cm ret (valueAt t (lookupRefs t (.ptr a r)))
  | n + 1, .adr a r => do
    let tmp ← canAliasLimit env cm t n r
    let ret ← mapSet cm (fun el => if isAdr el then none else some (env.address el)) tmp
    union cm ret (valueAt t (lookupRefs t (.adr a r)))
  | n + 1, .field a r f => do
    let tmp ← canAliasLimit env cm t n r
    let ret ← mapSet cm (fun el => env.field el f) tmp
    union cm ret (valueAt t (lookupRefs t (.field a r f)))
  | n + 1, .fetch a r i => do
    let tmp ← canAliasLimit env cm t n r
    let ret ← mapSet cm (fun el => env.fetch el i) tmp
    union cm ret (valueAt t (lookupRefs t (.fetch a r i)))
  | _ + 1, sr => some (newCopy (valueAt t (lookupRefs t sr)))

/-- `ALIASSEARCHLIMIT`, system_constants.h:51. -/
def searchLimit : Nat := 8

/-- `aliasTable_canAlias`, aliasTable.c:386-402. -/
def canAlias (env : AliasEnv) (cm : Nat → Nat → Bool) (t : AliasTable) (sr : SRef) :
    Option (Option SRefSet) := canAliasLimit env cm t searchLimit sr

/-- `sRef_isExternal`. -/
def isExternal : SRef → Bool
  | .external .. => true
  | _ => false

/-- The keys with an element similar to `sr`, aliasTable.c:335-352. -/
def keysOf (env : AliasEnv) (t : AliasTable) (sr : SRef) : List SRef :=
  (t.filter fun e => !sr.same e.key &&
    (elemsOf e.value).any fun cur => !isExternal cur && sr.similar cur).map fun e => env.fixOuter e.key

/-- `aliasTable_aliasedBy`, `aliasTable_aliasedByLimit` and `aliasTable_aliasedByAux`,
aliasTable.c:268-384. -/
def aliasedByLimit (env : AliasEnv) (cm : Nat → Nat → Bool) (t : AliasTable) :
    Nat → SRef → Option (Option SRefSet)
  | n, .conj _ x y => do
    let a ← aliasedByLimit env cm t n x
    let b ← aliasedByLimit env cm t n y
    union cm a b
  | 0, _ => some none
  | n + 1, .ptr a r => do
    let abl ← aliasedByLimit env cm t n r
    let res ← mapSet cm env.pointer abl
    insertAll cm res (keysOf env t (.ptr a r))
  | n + 1, .adr a r => do
    let abl ← aliasedByLimit env cm t n r
    let res ← mapSet cm (fun el => if isAdr el then none else some (env.address el)) abl
    insertAll cm res (keysOf env t (.adr a r))
  | n + 1, .field a r f => do
    let abl ← aliasedByLimit env cm t n r
    let res ← mapSet cm (fun el => env.field el f) abl
    insertAll cm res (keysOf env t (.field a r f))
  | n + 1, .fetch a r i => do
    let abl ← aliasedByLimit env cm t n r
    let res ← mapSet cm (fun el => env.fetch el i) abl
    insertAll cm res (keysOf env t (.fetch a r i))
  | _ + 1, sr => insertAll cm none (keysOf env t sr)

/-- `usymtab_allAliases`, usymtab.c:5788-5804, of a reference of known kind. -/
def allAliases (env : AliasEnv) (cm : Nat → Nat → Bool) (t : AliasTable) (sr : SRef) :
    Option (Option SRefSet) := do
  let a ← aliasedByLimit env cm t searchLimit sr
  let b ← canAlias env cm t sr
  union cm a b

/-- `aliasTable_addMustAlias`, aliasTable.c:111-159. -/
def addMustAlias (env : AliasEnv) (cm : Nat → Nat → Bool) (t : AliasTable) (sr al : SRef) :
    Option AliasTable := do
  let ss ← canAlias env cm t al
  match lookupRefs t sr with
  | none => do
    let v ← unionExcept cm (some (single al)) ss sr
    some (t ++ [⟨sr, v⟩])
  | some i =>
    match t[i]? with
    | none => none
    | some e => do
      let v ← insert cm e.value al
      let v ← unionExcept cm (some v) ss e.key
      some (t.set i ⟨e.key, v⟩)

/-- `aliasTable_addSet`, aliasTable.c:161-190. -/
def addSet (t : AliasTable) (key : SRef) (value : Option SRefSet) : AliasTable :=
  if (elemsOf value).isEmpty then t else t ++ [⟨key, value⟩]

/-- What `aliasTable_clearAliasesAux` does to one entry, aliasTable.c:251-260. -/
def clearEntry (sr : SRef) (e : AliasEntry) : AliasEntry :=
  if e.key.includedBy sr then ⟨e.key, e.value.map SRefSet.clear⟩
  else ⟨e.key, e.value.map fun s => (s.deleteBase sr).2⟩

/-- `aliasTable_clearAliasesAux`, aliasTable.c:244-262. -/
def clearAliasesAux (t : AliasTable) (sr : SRef) : AliasTable := t.map (clearEntry sr)

def isCvar : SRef → Bool
  | .cvar .. => true
  | _ => false

def isParam : SRef → Bool
  | .param .. => true
  | _ => false

/-- `sRef_isLocalVar`, sRef.c:9478-9487. -/
def isLocalVar : SRef → Bool
  | .cvar _ l _ => decide (l > fileScope)
  | _ => false

/-- The loop of `aliasTable_clearAliases`, aliasTable.c:224-236, over a set that it changes. `n`
bounds the number of rounds. -/
def clearParams (env : AliasEnv) (ind : Nat) (sr rb : SRef) : Nat → Nat → AliasTable → AliasTable
  | 0, _, t => t
  | n + 1, i, t =>
    match (elemsOf (valueAt t (some ind)))[i]? with
    | none => t
    | some el =>
      clearParams env ind sr rb n (i + 1)
        (if isParam el && env.sameName el rb then clearAliasesAux t (env.fixBase sr el) else t)

/-- `aliasTable_clearAliases`, aliasTable.c:204-242. -/
def clearAliases (env : AliasEnv) (t : AliasTable) (sr : SRef) : AliasTable :=
  let t' :=
    match sr.rootBase with
    | some rb =>
      if !isCvar sr && isLocalVar rb then
        match lookupRefs t rb with
        | some ind => clearParams env ind sr rb (elemsOf (valueAt t (some ind))).length 0 t
        | none => t
      else t
    | none => t
  clearAliasesAux t' sr

/-- `sRef_isMeaningful`, sRef.h:180-181, of a reference that is not null, and not a constant. -/
def canHaveAlias : SRef → Bool
  | .unknown _ | .new _ | .type _ | .const _ => false
  | _ => true

/-- `sRef_isAddress (al) && sRef_isDirectParam (sRef_getBase (al))`, usymtab.c:5754. -/
def addressOfParam (env : AliasEnv) : SRef → Bool
  | .adr _ b => env.isDirectParam b
  | _ => false

/-- `usymtab_addForceMustAlias`, usymtab.c:5746-5772. -/
def addForce (env : AliasEnv) (cm : Nat → Nat → Bool) (t : AliasTable) (s al : SRef) :
    Option AliasTable :=
  if canHaveAlias s && canHaveAlias al && !addressOfParam env al then do
    let t ← addMustAlias env cm t s al
    if isLocalVar s && isLocalVar al then addMustAlias env cm t al s else some t
  else some t

/-- `usymtab_addMustAlias`, usymtab.c:5733-5740. -/
def addAlias (env : AliasEnv) (cm : Nat → Nat → Bool) (t : AliasTable) (s al : SRef) :
    Option AliasTable :=
  if s.similar al then some t else addForce env cm t s al

/-- `updateAliases`, exprNode.c:11370-11374, for an assignment of a mutable type to a known
reference. -/
def assign (env : AliasEnv) (cm : Nat → Nat → Bool) (t : AliasTable) (s1 s2 : SRef) :
    Option AliasTable := addAlias env cm (clearAliases env t s1) s1 s2

/-- Pruning a value, `sRefSet_levelPrune`. -/
def pruneValue (level : Int) (v : Option SRefSet) : Option (Option SRefSet) :=
  match v with
  | none => some none
  | some s => (s.levelPrune level).map some

/-- One round of the loop of `aliasTable_levelUnion`, aliasTable.c:661-692. -/
def unionEntry (cm : Nat → Nat → Bool) (level : Int) (t1 : AliasTable) (e : AliasEntry) :
    Option AliasTable :=
  if e.key.lexLevel ≤ level then do
    let value ← pruneValue level (newCopy e.value)
    if (elemsOf value).length > 0 then
      match lookupRefs t1 e.key with
      | none => some (addSet t1 e.key value)
      | some i =>
        match t1[i]? with
        | none => none
        | some e1 => do
          let v ← union cm e1.value value
          some (t1.set i ⟨e1.key, v⟩)
    else some t1
  else some t1

/-- `aliasTable_levelUnion`, aliasTable.c:642-695. -/
def levelUnion (cm : Nat → Nat → Bool) (t1 t2 : AliasTable) (level : Int) : Option AliasTable := do
  let t1 ← aliasLevelPrune t1 level
  t2.foldlM (unionEntry cm level) t1

/-- One round of the loop of `aliasTable_levelUnionSeq`, aliasTable.c:602-633. -/
def seqEntry (level : Int) (t1 : AliasTable) (e : AliasEntry) : Option AliasTable :=
  if e.key.lexLevel ≤ level then do
    let value ← pruneValue level e.value
    match lookupRefs t1 e.key with
    | none => some (addSet t1 e.key value)
    | some i =>
      match t1[i]? with
      | none => none
      | some e1 => some (t1.set i ⟨e1.key, value⟩)
  else some t1

/-- `aliasTable_levelUnionSeq`, aliasTable.c:585-640, of a second table that is not undefined. -/
def levelUnionSeq (t1 t2 : AliasTable) (level : Int) : Option AliasTable := do
  let t1 ← aliasLevelPrune t1 level
  t2.foldlM (seqEntry level) t1

end AliasTable
end Splint
