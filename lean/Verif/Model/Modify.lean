import Verif.Model.SRefSet
/-!
# Modifies clauses

Model of src/sRef.c:1127-1151 (`sRef_canModifyVal`, `sRef_canModify`), 1157-1240
(`sRef_checkModifyVal`), 1248-1322 (`sRef_checkModify`), 1364-1446 (`sRef_doModifyVal`), 1455-1532
(`sRef_doModify`), of src/sRefSet.c:682-698 (`sRefSet_modifyMember`), of src/context.c:2091-2127
(`context_checkGlobMod`), of src/exprChecks.c:1157-1181 and 1238-1254 (`checkModifyAuxAux`, for
storage that is not reached through an alias) and 594-653 (the report of unused list elements).

The references are not null. The only effect of `sRef_setModified` (sRef.c:1096-1119) that is
modelled is `modified := TRUE`; reference counts are not. `none` is `BADBRANCH`.
-/
namespace Splint

/-- `chkind`, Headers/uentry.h: the annotation of a global variable. -/
inductive ChKind where
  | unknown | unchecked | checked | checkMod | checkedStrict
deriving DecidableEq, Repr

/-- The flags of modifies checking. -/
structure ModFlags where
  allGlobals : Bool
  modGlobs : Bool
  modGlobsUnspec : Bool
  modStrictGlobsUnspec : Bool
  modGlobsUnchecked : Bool
  internalGlobs : Bool
  mustMod : Bool
  modifies : Bool
  modNoMods : Bool
deriving DecidableEq, Repr

/-- `context_checkGlobMod`, context.c:2091-2127, for a variable with annotation `k`; `hasMods` is
`context_hasMods ()`. -/
def checkGlobMod (fl : ModFlags) (hasMods : Bool) (k : ChKind) : Bool :=
  if (k = .checked ∨ k = .checkMod ∨ k = .checkedStrict) ∨ (k ≠ .unchecked ∧ fl.allGlobals = true) then
    if hasMods then fl.modGlobs
    else if k = .checkedStrict then fl.modGlobsUnspec
    else fl.modStrictGlobsUnspec
  else if hasMods then fl.modGlobsUnchecked
  else false

/-- What the functions ask about the context: the flags, whether the function has a modifies clause,
the annotation of a variable (by level and index), and whether a parameter is `only`
(`alkind_isOnly (sRef_getOrigAliasKind (s))`). -/
structure ModEnv where
  flags : ModFlags
  hasMods : Bool
  annotation : Int → Int → ChKind
  isOnly : Int → Bool

namespace SRef

/-- The elements of a modifies clause with their `modified` marks. -/
abbrev Mods := List (SRef × Bool)

/-- `sRefSet_member`, sRefSet.c:603-607. -/
def listed (sl : Mods) (s : SRef) : Bool := sl.any fun e => s.similar e.1

/-- `sRefSet_modifyMember`, sRefSet.c:682-698. -/
def modifyMember (sl : Mods) (s : SRef) : Bool × Mods :=
  (listed sl s, sl.map fun e => (e.1, e.2 || s.similar e.1))

/-- `sRef_checkModifyVal`, sRef.c:1157-1240. -/
def checkModifyVal (env : ModEnv) (sl : Mods) : SRef → Option Bool
  | cvar a l i =>
    if isFileOrGlobal (cvar a l i) then
      if checkGlobMod env.flags env.hasMods (env.annotation l i) then some (listed sl (cvar a l i))
      else some true
    else some true
  | param a n => some (listed sl (param a n) || env.isOnly n)
  | fetch a r i => if listed sl (fetch a r i) then some true else checkModifyVal env sl r
  | field a r f => if listed sl (field a r f) then some true else checkModifyVal env sl r
  | ptr a r => if listed sl (ptr a r) then some true else checkModifyVal env sl r
  | adr a r => if listed sl (adr a r) then some true else checkModifyVal env sl r
  | conj _ x y => do
    if ← checkModifyVal env sl x then checkModifyVal env sl y else some false
  | special a .internal =>
    if env.flags.internalGlobs then some (listed sl (special a .internal)) else some true
  | special a .system => some (listed sl (special a .system))
  | special _ .nothing | special _ .specState => some true
  | unconstrained .. | const _ | unknown _ | object .. | new _ | type _ | derived .. | external .. =>
    some true
  | result _ => none

/-- `sRef_checkModify`, sRef.c:1248-1322. -/
def checkModify (env : ModEnv) (sl : Mods) : SRef → Option Bool
  | cvar a l i =>
    if isFileOrGlobal (cvar a l i) then
      if checkGlobMod env.flags env.hasMods (env.annotation l i) then some (listed sl (cvar a l i))
      else some true
    else some true
  | param .. => some true
  | fetch a r i => if listed sl (fetch a r i) then some true else checkModifyVal env sl r
  | field a r f =>
    match r with
    | param .. => some true
    | r => if listed sl (field a r f) then some true else checkModifyVal env sl r
  | ptr a r => if listed sl (ptr a r) then some true else checkModifyVal env sl r
  | adr a r => if listed sl (adr a r) then some true else checkModifyVal env sl r
  | conj _ x y => do
    if ← checkModify env sl x then checkModify env sl y else some false
  | special a .internal =>
    if env.flags.internalGlobs then some (listed sl (special a .internal)) else some true
  | special a .system => some (listed sl (special a .system))
  | special _ .nothing | special _ .specState => some true
  | unconstrained .. | const _ | unknown _ | object .. | new _ | type _ | derived .. | external .. =>
    some true
  | result _ => none

/-- `sRef_doModifyVal`, sRef.c:1364-1446: the answer and the clause afterwards. -/
def doModifyVal (env : ModEnv) (sl : Mods) : SRef → Option (Bool × Mods)
  | cvar a l i =>
    if isFileOrGlobal (cvar a l i) then
      if checkGlobMod env.flags env.hasMods (env.annotation l i) then
        some (modifyMember sl (cvar a l i))
      else some (true, (modifyMember sl (cvar a l i)).2)
    else some (true, sl)
  | param a n =>
    some ((modifyMember sl (param a n)).1 || env.isOnly n, (modifyMember sl (param a n)).2)
  | fetch a r i => do
    let m := modifyMember sl (fetch a r i)
    let d ← doModifyVal env m.2 r
    some (m.1 || d.1, d.2)
  | field a r f => do
    let m := modifyMember sl (field a r f)
    let d ← doModifyVal env m.2 r
    some (m.1 || d.1, d.2)
  | ptr a r => do
    let m := modifyMember sl (ptr a r)
    let d ← doModifyVal env m.2 r
    some (m.1 || d.1, d.2)
  | adr a r => do
    let m := modifyMember sl (adr a r)
    let d ← doModifyVal env m.2 r
    some (m.1 || d.1, d.2)
  | conj _ x y => do
    let m ← doModifyVal env sl x
    let d ← doModifyVal env m.2 y
    some (m.1 && d.1, d.2)
  | special a .internal =>
    if env.flags.internalGlobs then some (modifyMember sl (special a .internal))
    else some (true, (modifyMember sl (special a .internal)).2)
  | special a .system => some (modifyMember sl (special a .system))
  | special _ .nothing | special _ .specState => some (true, sl)
  | unconstrained .. | const _ | unknown _ | object .. | new _ | type _ | derived .. | external .. =>
    some (true, sl)
  | result _ => none

/-- `sRef_doModify`, sRef.c:1455-1532. -/
def doModify (env : ModEnv) (sl : Mods) : SRef → Option (Bool × Mods)
  | cvar a l i =>
    if isFileOrGlobal (cvar a l i) then
      if checkGlobMod env.flags env.hasMods (env.annotation l i) then
        some (modifyMember sl (cvar a l i))
      else some (true, (modifyMember sl (cvar a l i)).2)
    else some (true, sl)
  | param .. => some (true, sl)
  | fetch a r i => do
    let m := modifyMember sl (fetch a r i)
    let d ← doModifyVal env m.2 r
    some (m.1 || d.1, d.2)
  | field a r f =>
    match r with
    | param .. => some (true, sl)
    | r => do
      let m := modifyMember sl (field a r f)
      let d ← doModifyVal env m.2 r
      some (m.1 || d.1, d.2)
  | ptr a r => do
    let m := modifyMember sl (ptr a r)
    let d ← doModifyVal env m.2 r
    some (m.1 || d.1, d.2)
  | adr a r => do
    let m := modifyMember sl (adr a r)
    let d ← doModifyVal env m.2 r
    some (m.1 || d.1, d.2)
  | conj _ x y => do
    let m ← doModify env sl x
    let d ← doModify env m.2 y
    some (m.1 && d.1, d.2)
  | special _ .internal => some (true, sl)
  | special a .system => some (modifyMember sl (special a .system))
  | special _ .nothing | special _ .specState => some (true, sl)
  | unconstrained .. | const _ | unknown _ | object .. | new _ | type _ | derived .. | external .. =>
    some (true, sl)
  | result _ => none

/-- `sRef_canModifyVal`, sRef.c:1127-1138. -/
def canModifyVal (env : ModEnv) (sl : Mods) (s : SRef) : Option (Bool × Mods) :=
  if env.flags.mustMod then doModifyVal env sl s else (checkModifyVal env sl s).map fun b => (b, sl)

/-- `sRef_canModify`, sRef.c:1140-1151. -/
def canModify (env : ModEnv) (sl : Mods) (s : SRef) : Option (Bool × Mods) :=
  if env.flags.mustMod then doModify env sl s else (checkModify env sl s).map fun b => (b, sl)

/-- `checkModifyAuxAux`, exprChecks.c:1157-1254, without an alias: whether a modification is
reported, and the clause afterwards. -/
def modification (env : ModEnv) (sl : Mods) (s : SRef) : Option (Bool × Mods) :=
  if env.flags.modifies && (env.hasMods || env.flags.modNoMods) then do
    let r ← canModify env sl s
    if r.1 then some (false, r.2)
    else
      match s.rootBase with
      | some (cvar a l i) =>
        if isFileOrGlobal (cvar a l i) &&
            !checkGlobMod env.flags env.hasMods (env.annotation l i) then some (false, r.2)
        else some (true, r.2)
      | _ => some (true, r.2)
  else if env.flags.mustMod then do
    let r ← canModify env sl s
    some (false, r.2)
  else some (false, sl)

/-- The modifications of a function body, one after the other: the reports, and the clause at the
end. -/
def modifications (env : ModEnv) : Mods → List SRef → Option (List Bool × Mods)
  | sl, [] => some ([], sl)
  | sl, s :: l => do
    let r ← modification env sl s
    let q ← modifications env r.2 l
    some (r.1 :: q.1, q.2)

/-- The elements for which the end of the function reports that they were not modified,
exprChecks.c:594-653. -/
def unused (sl : Mods) : List SRef :=
  (sl.filter fun e =>
    match e.1 with
    | special _ .nothing | special _ .specState => false
    | special _ .internal => !e.2 && !(sl.any fun x => x.1.isFileStatic)
    | _ => !e.2).map (·.1)

end SRef
end Splint
