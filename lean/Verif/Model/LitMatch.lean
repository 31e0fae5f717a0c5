import Verif.Model.Prim
/-!
# Literals that are accepted for a type

Models `exprNode_matchLiteral` (src/exprNode.c:9845-9973), with `ctype_isInt` (src/ctype.c:826-834),
`ctype_isRegularInt` (837-846), `ctype_isChar` (857-861), `ctype_isDirectBool` (946-949), `ctype_isRealInt`
(1003-1015), `ctype_isAnyFloat` (2687-2690), `ctype_isUnsigned` (2693-2703), `ctype_realishType` (223-244),
`ctype_isNumAbstract` (270-278), `ctype_isArrayPtr` (1878-1881).

Simplifications: a type is a tree; what a named type stands for is part of it. Alternate types (`CT_CONJ`) and types
named by `-booltype` are left out. If the type of the literal matches a pointer, or is a pointer to void, is given with
the literal. Numbers are not bounded (they are `long` in the code), and the value of a floating literal is left out
since it is not looked at.
-/
namespace Splint.LitMatch
open Prim (P)

/-- `ctype` -/
inductive Ty where
  | prim (p : P)
  | enum
  /-- `CT_USER` and what it is defined as -/
  | user (rep : Ty)
  /-- `CT_ABST`, or `CT_NUMABST` if `num`; whether there is access to it, and its representation -/
  | abst (num access : Bool) (rep : Ty)
  /-- pointers and arrays -/
  | ptr
  /-- structures, unions, functions -/
  | other
deriving DecidableEq, Repr

structure Flags where
  prim : Prim.Flags := {}
  boolInt : Bool := false
  enumInt : Bool := false
  numLiteral : Bool := false
  numAbstractLit : Bool := false

/-- the value of an expression (`multiVal`) -/
inductive Lit where
  | int (v : Int)
  | double
  /-- a character, as a signed number -/
  | char (v : Int)
  | str
  /-- there is no value -/
  | unknown
deriving DecidableEq, Repr

/-- what is known of the expression -/
structure Exp where
  lit : Lit
  ty : Ty
  /-- `ctype_match` of its type and the one expected -/
  same : Bool := false
  /-- `ctype_isVoidPointer` of its type -/
  voidPtr : Bool := false

variable (F : Flags)

/-- `ctype_realType`, `ctype_realishType` -/
def real : Ty → Ty
  | .user r => real r
  | .abst n a r => if a then real r else .abst n a r
  | c => c

/-- `ctype_isInt` (src/ctype.c:826-834) -/
def isInt : Ty → Bool
  | .prim p => p == .unknown || p.isAnyInt || (p.isAnyChar && F.prim.charInt) || (p == .bool && F.boolInt)
  | .enum => F.enumInt
  | _ => false

/-- `ctype_isRegularInt` (src/ctype.c:837-846) -/
def isRegularInt : Ty → Bool
  | .prim p => p == .unknown || Prim.closeEnough F.prim false .int p || (p.isAnyChar && F.prim.charInt)
      || (p == .bool && F.boolInt)
  | .enum => F.enumInt
  | _ => false

/-- `ctype_isRealInt` (src/ctype.c:1003-1015) -/
def isRealInt (c : Ty) : Bool := isInt F (real c)

/-- `ctype_isUnsigned` (src/ctype.c:2693-2703): the type itself is compared -/
def isUnsigned : Ty → Bool
  | .prim p => p.isAnyUnsignedInt || p == .uchar
  | _ => false

/-- `ctype_isChar` (src/ctype.c:857-861) -/
def isChar (c : Ty) : Bool :=
  (match c with | .prim p => p == .unknown || p.isAnyChar | _ => false) || (F.prim.charInt && isInt F c)

/-- `ctype_isAnyFloat` (src/ctype.c:2687-2690) -/
def isAnyFloat : Ty → Bool
  | .prim p => p.isAnyReal
  | _ => false

/-- `ctype_isNumAbstract` (src/ctype.c:270-278) -/
def isNumAbstract : Ty → Bool
  | .abst n _ _ => n
  | _ => false

/-- an integer (src/exprNode.c:9854-9938) -/
def matchInt (c : Ty) (e : Exp) (v : Int) : Bool :=
  if isNumAbstract c && F.numAbstractLit then true
  else if real c = .prim .bool then false
  else if isRealInt F c then
    if isUnsigned c && decide (v < 0) then false
    else if F.numLiteral && (isRegularInt F e.ty || v == 0) then true
    else v == 0
  else if isChar F c then false
  else if c = .ptr then v == 0 && (e.same || e.voidPtr)
  else if isAnyFloat c then F.numLiteral
  else false

/-- `exprNode_matchLiteral` (src/exprNode.c:9845-9973) -/
def matchLiteral (c : Ty) (e : Exp) : Bool :=
  match e.lit with
  | .int v => matchInt F c e v
  | .double => isAnyFloat c
  | .char v => isChar F c && !(isUnsigned c && decide (v < 0))
  | _ => false

end Splint.LitMatch
