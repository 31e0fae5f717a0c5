import Verif.Tactics
/-!
# Type specifiers

Model of src/ctype.c: `ctype_combine` (2401-2661), `ctype_resolve` (2664-2673), `ctype_fromQual`
(2675-2684); of src/qtype.c: `qtype_combine` (147-158); and of the rules of src/cgrammar.y for
`typeSpecifier` (1426-1441), `completeType` (1443-1446), `completeTypeSpecifierAux` (1461-1465) and
`optCompleteType` (1467-1470).

Simplifications:
* storage classes, qualifiers, annotations, alternate types and enumerations are left out; structures,
  unions, type names, `void` and pointers are all `other` (the functions treat them alike);
* the messages are only told apart as far as the flag `ignorequals` suppresses them (`syntax`) or not
  (`dup`).
-/
namespace Splint.TypeSpec

/-- `ctype_unknown`, `ctype_char` and so on. -/
inductive Ty where
  | unknown | char | uchar | int | uint | sint | usint | lint | ulint | llint | ullint
  | float | double | ldouble | bool | other
  deriving DecidableEq, Repr

/-- The kinds of messages: `FLG_DUPLICATEQUALS` and `FLG_SYNTAX`. -/
inductive Msg where
  | dup | syntax
  deriving DecidableEq, Repr

/-- The end of the cases for `FLG_SYNTAX`: `if (!context_getFlag (FLG_IGNOREQUALS)) llerror (...)`. -/
def syn (ignore : Bool) : List Msg := if ignore then [] else [.syntax]

/-- `ctype_combine`, 2401-2661: the type and the messages. -/
def combine (ignore : Bool) (dominant modifier : Ty) : Ty × List Msg :=
  if modifier = .unknown then (dominant, [])
  else if dominant = .unknown then (modifier, [])
  else if modifier = .uint then
    if dominant = .int then (.uint, [])
    else if dominant = .lint then (.ulint, [])
    else if dominant = .sint then (.usint, [])
    else if dominant = .char then (.uchar, [])
    else if dominant = .llint then (.ullint, [])
    else if dominant = .uint ∨ dominant = .uchar then (.uint, [.dup])
    else (dominant, [.dup])
  else if modifier = .llint then
    if dominant = .int then (.llint, [])
    else if dominant = .uint then (.ullint, [])
    else (dominant, [.dup])
  else if modifier = .lint then
    if dominant = .int then (.lint, [])
    else if dominant = .uint then (.ulint, [])
    else if dominant = .double then (.ldouble, [])
    else if dominant = .lint ∨ dominant = .ulint ∨ dominant = .sint ∨ dominant = .usint
        ∨ dominant = .ldouble then
      if dominant = .lint then (.llint, [])
      else if dominant = .ulint then (.ullint, [])
      else if dominant = .sint ∨ dominant = .usint then (.lint, syn ignore)
      else (.lint, [.dup])
    else (dominant, [])
  else if modifier = .sint then
    if dominant = .int then (.sint, [])
    else if dominant = .uint then (.usint, [])
    else if dominant = .sint ∨ dominant = .usint then (.uint, [.dup])
    else (dominant, syn ignore)
  else if modifier = .ulint then
    if dominant = .int then (modifier, [])
    else if dominant = .lint ∨ dominant = .ulint then (modifier, [.dup])
    else if dominant = .uint ∨ dominant = .usint then (modifier, [.dup])
    else (dominant, syn ignore)
  else if modifier = .usint then
    if dominant = .int then (modifier, [])
    else if dominant = .sint ∨ dominant = .usint then (modifier, [.dup])
    else if dominant = .uint then (modifier, [.dup])
    else (dominant, syn ignore)
  else (dominant, [])

/-- The words of a type: `typeSpecifier` and the `typeModifier`s of it. -/
inductive Word where
  | char | int | float | double | bool | other | signed | unsigned | short | long
  deriving DecidableEq, Repr

/-- The type of a word, `ctype_fromQual` for the modifiers. -/
def Word.ty : Word → Ty
  | .char => .char | .int => .int | .float => .float | .double => .double | .bool => .bool
  | .other => .other | .signed => .int | .unsigned => .uint | .short => .sint | .long => .lint

/-- `completeTypeSpecifierAux`, `optCompleteType` and `qtype_combine`: the words that follow are combined
first, and the word is their modifier. -/
def spec (ignore : Bool) : List Word → Ty × List Msg
  | [] => (.unknown, [])
  | w :: ws =>
    let r := spec ignore ws
    let c := combine ignore r.1 w.ty
    (c.1, r.2 ++ c.2)

/-- `ctype_isAnytype`, 1247-1251: the type `anytype` is `ctype_unknown`, because `ctype_makeConj`
(1373-1376) returns its argument for it when `ctype_makeAnytype` (1234-1245) is to make it. -/
def isAnytype (t : Ty) : Bool := t == .unknown

/-- `ctype_resolve`, 2664-2673. -/
def resolve (t : Ty) : Ty := if t = .unknown ∧ !isAnytype t then .int else t

/-- The rule `completeType`. -/
def completeType (ignore : Bool) (ws : List Word) : Ty × List Msg :=
  (resolve (spec ignore ws).1, (spec ignore ws).2)

end Splint.TypeSpec
