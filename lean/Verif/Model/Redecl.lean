import Verif.Model.Kinds
import Verif.Model.FlagTable
/-!
# Redeclarations: `checkFunctionConformance` and `checkVarConformance`

`src/uentry.c`, 7540-8175 and 8346-8710 (the comparison of a declaration with what is known from earlier ones), as called
by `uentry_mergeDefinition` (9590-9900), where `completeConform` is FALSE.

Simplified: specifications (`uentry_isReallySpecified`) and user-defined states are left out. Types are an
arbitrary type with the matches given (`ctype_match`, `ctype_matchDef`); types with alternatives, globals and modifies
lists are left out. Of the null state and the definition state of a variable, which are in its information and in its
reference, the first is modelled. An entry that was forward declared only is not modelled.
-/
namespace Splint.Redecl

abbrev Text := List Char

/-- the kind of a parameter: `vkind`, without those of iterators and references -/
inductive VKind where
  | spec | normal | param | retParam | sefParam | sefRetParam
deriving DecidableEq, Repr

inductive Checked where
  | unknown | unchecked | checked | checkMod | checkedStrict
deriving DecidableEq, Repr

/-- the messages, in short -/
inductive Msg where
  /-- "... declared as possibly null storage" -/
  | posNull
  /-- "... declared as notnull storage" -/
  | notNull
  | defState
  | alias_
  /-- "... implicitly declared as temp storage" -/
  | aliasImplicit
  | exposure
  /-- "Parameter inconsistently declared as returned parameter" -/
  | returned
  | sef
  | checked
  /-- "Function inconsistently declared to return" -/
  | retType
  | exit
  | nullPred
  | specialCode
  /-- "Function redeclared with n args" -/
  | nargs
  /-- "Parameter n has inconsistent type" -/
  | paramType (n : Nat)
  /-- "Definition parameter name does not match" -/
  | paramName (n : Nat)
deriving DecidableEq, Repr

structure Env where
  /-- `mustConform` -/
  must : Bool
  /-- the result of `optgenerror`: the message is not suppressed -/
  shown : Msg → Bool

/-- messages, and what is known of the old and of the new entry afterwards -/
abbrev Out (S : Type) := List Msg × S × S

/-- 7540-7678. `fn`: the new entry is a function; `ua`: its type (or that of its result) is an abstract type. -/
def nullStep (env : Env) (fn ua : Bool) (old new : NState) : Out NState :=
  if old = .absNull then ([], if fn && new == .unknown then old else new, new)
  else match new with
    | .unknown => ([], old, old)
    | .posNull =>
      if old = .mNotNull ∧ ua then ([], old, old)
      else (if (old = .notNull ∨ old = .mNotNull ∨ old = .unknown) ∧ env.must then [.posNull] else [], .posNull, new)
    | .mNotNull => (if old ≠ .mNotNull ∧ env.must then [.notNull] else [], .mNotNull, new)
    | _ => ([], old, if fn && old == .unknown then new else old)

/-- 7680-7752 -/
def defStep (env : Env) (old new : SState) : Out SState :=
  if new ≠ old ∧ new ≠ .unknown ∧ new ≠ .defined then (if env.must then [.defState] else [], new, new)
  else ([], old, old)

/-- 7754-7847. `datatype`: the new entry is a type. -/
def aliasStep (env : Env) (fn datatype : Bool) (old new : AlKind) : Out AlKind :=
  if new.isImplicit ∨ (new = .refCounted ∧ datatype = false) then ([], old, old)
  else if new = .unknown ∨ old.equal new then ([], old, new)
  else if old ≠ .unknown then
    if env.must then ([.alias_], if env.shown .alias_ then .error else new, new) else ([], new, new)
  else (if env.must ∧ fn = false then [.aliasImplicit] else [], new, new)

def exKnown (e : ExKind) : Bool := e ≠ .unknown && e ≠ .normal

/-- 7849-7919 -/
def expStep (env : Env) (old new : ExKind) : Out ExKind :=
  if exKnown new then
    if old ≠ new then (if env.must then [.exposure] else [], new, new) else ([], old, new)
  else ([], old, old)

structure Ann where
  null : NState
  defn : SState
  alias_ : AlKind
  exp : ExKind
deriving DecidableEq, Repr

/-- 8053-8066 -/
def annStep (env : Env) (fn ua : Bool) (old new : Ann) : Out Ann :=
  let d := defStep env old.defn new.defn
  let n := nullStep env fn ua old.null new.null
  let a := aliasStep env fn false old.alias_ new.alias_
  let e := expStep env old.exp new.exp
  (d.1 ++ n.1 ++ a.1 ++ e.1, ⟨n.2.1, d.2.1, a.2.1, e.2.1⟩, ⟨n.2.2, d.2.2, a.2.2, e.2.2⟩)

def isRet (k : VKind) : Bool := k = .retParam || k = .sefRetParam
def isSef (k : VKind) : Bool := k = .sefParam || k = .sefRetParam

/-- 8084-8103: the first check, and the kind of the old entry after it -/
def retStep (env : Env) (old new : VKind) : List Msg × VKind :=
  if isRet new ∧ isRet old = false then ([.returned], if env.shown .returned then new else old) else ([], old)

/-- 8106-8124 -/
def sefStep (env : Env) (old new : VKind) : List Msg × VKind :=
  if isSef new ∧ isSef old = false then ([.sef], if env.shown .sef then new else old) else ([], old)

/-- 8084-8133: the kind of both entries -/
def kindStep (env : Env) (old new : VKind) : List Msg × VKind :=
  let r := retStep env old new
  let s := sefStep env r.2 new
  (r.1 ++ s.1, if s.2 = .spec then new else s.2)

/-- 8135-8173; `userFile`: the old entry is from a file of the user -/
def checkedStep (userFile : Bool) (old new : Checked) : List Msg × Checked :=
  if new ≠ .unknown ∧ new ≠ old then
    (if old = .unknown ∧ userFile = false then [] else [.checked], new)
  else ([], old)

structure Param (T : Type) where
  name : Option Text
  typ : T
  kind : VKind
  checked : Checked
  ann : Ann
  /-- the type is abstract -/
  ua : Bool
  userFile : Bool
deriving DecidableEq

/-- 8069-8175 -/
def varStep {T : Type} (env : Env) (old new : Param T) : List Msg × Param T × Param T :=
  let k := kindStep env old.kind new.kind
  let c := checkedStep old.userFile old.checked new.checked
  let a := annStep env false new.ua old.ann new.ann
  (k.1 ++ c.1 ++ a.1,
    { old with name := if old.name = none then new.name else old.name, kind := k.2, checked := c.2, ann := a.2.1 },
    { new with kind := k.2, checked := c.2, ann := a.2.2 })

/-- 8549-8571: the name without the prefix -/
def strip (pfx : Option Text) (n : Text) : Text :=
  match pfx with
  | some p => if p.isPrefixOf n then n.drop p.length else n
  | none => n

/-- 8538-8590 -/
def nameMsgs (names : Option (Option Text)) (i : Nat) (old new : Option Text) : List Msg :=
  match names, old, new with
  | some pfx, some o, some n => if strip pfx o ≠ strip pfx n then [.paramName i] else []
  | _, _, _ => []

structure Tys (T : Type) where
  /-- `ctype_match` -/
  same : T → T → Bool
  /-- `ctype_matchDef` -/
  sameDef : T → T → Bool
  known : T → Bool
  /-- `uentry_isElipsisMarker` -/
  elips : T → Bool

/-- 8523-8657: the parameters from the `i`-th on; they are compared as long as there are both. What is left is the new
list. -/
def paramsStep {T : Type} (env : Env) (ty : Tys T) (names : Option (Option Text)) :
    Nat → List (Param T) → List (Param T) → List Msg × List (Param T) × List (Param T)
  | i, o :: os, n :: ns =>
    let v := if ty.elips o.typ || ty.elips n.typ then ([], o, n) else varStep env o n
    let ms := nameMsgs names i v.2.1.name v.2.2.name
    let ts := if ty.same o.typ n.typ then [] else [.paramType i]
    -- 7463: the type of the old entry is changed
    let o' := if ts = [] ∨ env.shown (.paramType i) = false then v.2.1 else { v.2.1 with typ := n.typ }
    let r := paramsStep env ty names (i + 1) os ns
    (v.1 ++ ms ++ ts ++ r.1, o' :: r.2.1, v.2.2 :: r.2.2)
  | _, os, ns => ([], os, ns)

structure Fcn (T : Type) where
  ret : T
  ann : Ann
  /-- the type of the result is abstract -/
  ua : Bool
  exit : ExitKind
  /-- `truenull` and the like -/
  nullPred : Option Nat
  /-- `printflike` and the like -/
  special : Option Nat
  /-- none: declared without a prototype -/
  params : Option (List (Param T))

/-- 8432-8508: of an annotation that is given in both; nothing is changed in the old entry -/
def keepStep {A : Type} [DecidableEq A] (m : Msg) (none' : A) (old new : A) : List Msg :=
  if new ≠ none' ∧ new ≠ old then [m] else []

/-- 8346-8710: a declaration; the result is the old entry, with which the next one is compared -/
def fcnStep {T : Type} (env : Env) (ty : Tys T) (names : Option (Option Text)) (old new : Fcn T) : List Msg × Fcn T :=
  let r := if ty.known old.ret && ty.known new.ret && !ty.sameDef new.ret old.ret && env.must then [.retType] else []
  let a := annStep env true new.ua old.ann new.ann
  let es := keepStep .exit .unknown old.exit new.exit ++ keepStep .nullPred none old.nullPred new.nullPred
    ++ keepStep .specialCode none old.special new.special
  match old.params, new.params with
  | some os, some ns =>
    let p := paramsStep env ty names 0 os ns
    (r ++ a.1 ++ es ++ (if os.length ≠ ns.length then [.nargs] else []) ++ p.1,
      { old with ret := new.ret, ua := new.ua, ann := a.2.1, params := some p.2.2 })
  | none, some ns => (r ++ a.1 ++ es, { old with ret := new.ret, ua := new.ua, ann := a.2.1, params := some ns })
  | _, none => (r ++ a.1 ++ es, { old with ann := a.2.1 })

/-- all declarations, one after the other -/
def run {S D : Type} (step : S → D → List Msg × S) : S → List D → List Msg × S
  | s, [] => ([], s)
  | s, d :: ds => ((step s d).1 ++ (run step (step s d).2 ds).1, (run step (step s d).2 ds).2)

end Splint.Redecl
