import Verif.Model.NameCheck
/-!
# The Czech, Slovak and Czechoslovak naming conventions

Model of src/nameChecks.c:38-58 (`czechPrefix`, `slovakPrefix`) and 446-1107 (`checkNationalName`,
`checkCzechName`, `checkSlovakName`, `checkExternalName`), with `cstring_beforeChar` (src/cstring.c) and
`uentry_addAccessType` (src/uentry.c:3658-3681).

A declaration is replaced by the answers of the predicates the checks ask of it; the table of types by a
function from names. A report is a value naming the convention and the reason; texts, locations, and that the
flag `namechecks` or a comment may suppress a report, are left out, and so is `hasNameError`.
-/
namespace Splint
namespace National
open NameCheck

/-- The kind of a declaration; `macro` is an expanded macro, `other` a tag or an enumeration constant. -/
inductive Kind where
  | function | iter | macro_ | variable_ | constant | datatype | other
deriving DecidableEq, Repr

/-- The groups of flags: `FLG_CZECHFUNCTIONS`, `FLG_CZECHMACROS` and so on. -/
inductive Group where
  | functions | macros | vars | constants | types
deriving DecidableEq, Repr

inductive Conv where
  | czech | slovak | czechoslovak
deriving DecidableEq, Repr

structure Decl where
  kind : Kind
  name : Bytes
  /-- `uentry_isStatic` -/
  static : Bool := false
  /-- `uentry_isGlobalVariable` -/
  global : Bool := true
  /-- `ctype_isAbstract` of its type, and the type -/
  abstract : Option Nat := none
  /-- `ctype_isUA` of its type -/
  ua : Bool := false
deriving DecidableEq, Repr

/-- What `usymtab_lookupAbstractType` gives for a name: a user type that is not abstract, an abstract type,
the type of truth values, or something else. -/
inductive TypeKind where
  | user | abstract (t : Nat) | bool | other
deriving DecidableEq, Repr

structure Env where
  /-- The flag of a convention for a group. -/
  on : Conv → Group → Bool
  /-- `FLG_ACCESSCZECH`, `FLG_ACCESSSLOVAK`, `FLG_ACCESSCZECHOSLOVAK` -/
  accessOn : Conv → Bool
  /-- `FLG_SLOVAK` -/
  slovakMode : Bool
  /-- `FLG_GLOBPREFIX`, `FLG_CONSTPREFIX` -/
  globPrefix : Bool
  constPrefix : Bool
  /-- `context_fileAccessTypes` -/
  fileTypes : List Nat
  /-- `context_hasAccess` -/
  hasAccess : Nat → Bool
  /-- `context_canAccessBool` -/
  boolAccess : Bool
  /-- `usymtab_getTypeId (context_getBoolName ())` -/
  boolType : Nat
  /-- `usymtab_existsTypeEither` with `usymtab_lookupAbstractType` -/
  types : Bytes → Option TypeKind
  /-- `context_moduleName` -/
  module_ : Bytes

inductive Why where
  /-- the name of a type has an underscore -/
  | underscore
  /-- the name of a type has an uppercase letter -/
  | upper
  /-- the name should begin with the name of its type -/
  | noTypePrefix
  /-- the name has no prefix though types are accessible -/
  | noPrefix
  /-- the prefix names an abstract type that is not accessible -/
  | notAccessible
  /-- the prefix is not the name of a type -/
  | notType
  /-- the name is neither a Czech nor a Slovak one -/
  | neither
deriving DecidableEq, Repr

/-- What a check gives: the reports, the types the declaration gets access to, the result. -/
structure Out where
  reports : List (Conv × Why) := []
  access : List Nat := []
  ok : Bool := true
deriving DecidableEq, Repr

def underscore : UInt8 := 95

/-- The part in front of the first character that has the property; empty if there is none
(`cstring_beforeChar`, `slovakPrefix`) -/
def before (p : UInt8 → Bool) (name : Bytes) : Bytes :=
  if name.any p then name.takeWhile (fun c => !p c) else []

/-- nameChecks.c:38-41 -/
def czechPrefix (name : Bytes) : Bytes := before (· == underscore) name

/-- nameChecks.c:43-57 -/
def slovakPrefix (name : Bytes) : Bytes := before isupper name

def fail (report : Bool) (c : Conv) (w : Why) : Out := { reports := if report then [(c, w)] else [], ok := false }

/-- nameChecks.c:795-803 -/
def builtin : List Bytes := ["int", "char", "short", "long", "unsigned", "signed", "float", "double"].map lit

/-- `if (!uentry_isVar (ue)) uentry_addAccessType (ue, tid)`; macros are variables -/
def gives (d : Decl) (t : Nat) : Out :=
  { access := if d.kind == .variable_ || d.kind == .macro_ then [] else [t] }

/-- A name with a prefix: nameChecks.c:697-836, the same as 946-1086. -/
def prefixed (env : Env) (c : Conv) (d : Decl) (report : Bool) (pfx : Bytes) : Out :=
  match env.types pfx with
  | some (.abstract t) =>
    if env.hasAccess t then {}
    else if env.accessOn c || env.accessOn .czechoslovak then gives d t
    else fail report c .notAccessible
  | some .bool =>
    if env.boolAccess then {}
    else if env.accessOn c || env.accessOn .czechoslovak then gives d env.boolType
    else fail report c .notAccessible
  | some _ => {}
  | none =>
    if builtin.contains pfx then {}
    else if pfx == env.module_ then {}
    else fail report c .notType

/-- the loop of nameChecks.c:604-627; is there an underscore that is not the second or third character? -/
def badUnderscore : Nat → Bytes → Bool
  | _, [] => false
  | n, c :: cs => if c == underscore && n != 2 && n != 3 then true else badUnderscore (n + 1) cs

/-- `checkCzechName`, nameChecks.c:593-846 -/
def checkCzech (env : Env) (d : Decl) (report : Bool) : Out :=
  if d.kind == .datatype then
    if badUnderscore 1 d.name then fail report .czech .underscore else {}
  else
    let pfx := czechPrefix d.name
    if pfx.isEmpty then
      match d.kind with
      | .variable_ | .macro_ | .constant =>
        match d.abstract with
        | some t => if env.hasAccess t then fail report .czech .noTypePrefix else {}
        | none => {}
      | .function | .iter => if env.fileTypes.isEmpty then {} else fail report .czech .noPrefix
      | _ => {}
    else prefixed env .czech d report pfx

/-- `checkSlovakName`, nameChecks.c:848-1095 -/
def checkSlovak (env : Env) (d : Decl) (report : Bool) : Out :=
  if d.kind == .datatype then
    if env.slovakMode && d.name.any isupper then fail report .slovak .upper else {}
  else
    let pfx := slovakPrefix d.name
    if pfx.isEmpty then
      if env.fileTypes.isEmpty then {}
      else if d.kind == .function then fail report .slovak .noPrefix
      else if d.ua then fail report .slovak .noTypePrefix
      else {}
    else prefixed env .slovak d report pfx

/-- the loop of nameChecks.c:530-567 -/
def csType : Nat → Bytes → List (Conv × Why)
  | _, [] => []
  | n, c :: cs =>
    if isupper c then [(.czechoslovak, .upper)]
    else if c == underscore && n != 2 && n != 3 then [(.czechoslovak, .underscore)]
    else csType (n + 1) cs

/-- The flags that apply (nameChecks.c:455-503); `none` if nothing is checked. -/
def group (env : Env) (d : Decl) : Option Group :=
  match d.kind with
  | .function | .iter => some .functions
  | .macro_ => some .macros
  | .variable_ => if d.global && env.globPrefix then none else some .vars
  | .constant => some .constants
  | .datatype => some .types
  | .other => none

/-- `checkNationalName`, nameChecks.c:446-591. A constant is no global variable, so the flag `constprefix` (483) is
never asked. -/
def checkNational (env : Env) (d : Decl) : Out :=
  match group env d with
  | none => {}
  | some g =>
    let isFun := d.kind == .function
    let cz := if env.on .czech g || (isFun && env.accessOn .czech) then checkCzech env d (env.on .czech g) else {}
    let sl := if env.on .slovak g || (isFun && env.accessOn .slovak) then checkSlovak env d (env.on .slovak g) else {}
    let cs : Out :=
      if env.on .czechoslovak g then
        if d.kind == .datatype then { reports := csType 1 d.name }
        else
          let a := checkCzech env d false
          let b := checkSlovak env d false
          { reports := if a.ok || b.ok then [] else [(.czechoslovak, .neither)], access := a.access ++ b.access }
      else {}
    { reports := cz.reports ++ sl.reports ++ cs.reports, access := cz.access ++ sl.access ++ cs.access }

/-- `checkExternalName`, nameChecks.c:1097-1107 -/
def checkExternal (env : Env) (d : Decl) : Out := if d.static then {} else checkNational env d

end National
end Splint
