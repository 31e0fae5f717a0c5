import Verif.Model.Prim
/-!
# Checks of binary operators

Models the messages of `exprNode_makeOp` (src/exprNode.c:5329-6038), with `checkIntegral` (5254-5318),
`checkNumerics` (10727-10909), `exprNode_isNonNegative` (1163-1187), `exprNode_isZero` (1147-1161),
`exprNode_isNullValue` (658-672), and the predicates on types they use (src/ctype.c: `ctype_isInt` 826-834,
`ctype_isReal` 952-955, `ctype_isNumeric` 976-981, `ctype_isRealNumeric` 991-1000, `ctype_isRealInt` 1003-1015,
`ctype_isRealBool` 1036-1051, `ctype_isRealPointer` 1054-1060, `ctype_isUnsigned` 2693-2703,
`ctype_fixArrayPtr` 2186-2194).

Simplifications: the type of an operand is given as what `ctype_realishType` makes of it, and whether the declared
type is known; conjunctions of types and abstract types are left out; whether the types of the operands match
(`ctype_match`, C65 to C67, and `exprNode_matchTypes`) is a parameter; a message is reported if its flag is on; the
type and the value of the result, its guards and its reference are left out.
-/
namespace Splint.OpCheck
open Prim (P)

inductive Op where
  | mul | div | mulA | divA
  | add | sub | subA | addA
  | shl | shr | shlA | shrA
  | band | bandA | xor | bor | xorA | borA
  | mod | modA
  | eq | ne | lt | gt | le | ge
  | land | lor
deriving DecidableEq, Repr

/-- a type, named types being replaced by what they stand for -/
inductive Ty where
  | prim (p : P)
  | enum
  | ptr
  | arr
  /-- a structure, a union or a function -/
  | other
deriving DecidableEq, Repr

structure Opnd where
  ty : Ty
  /-- the declared type is known -/
  known : Bool := true
  /-- its value, if it is a known integer (`multiVal_isInt`) -/
  val : Option Int := none
  /-- `sRef_possiblyNull` and not `usymtab_isGuarded` -/
  null : Bool := false
  /-- the name of the variable it is, if it is one -/
  var : Option String := none
  /-- `exprNode_isFalseConstant` -/
  isFalse : Bool := false
deriving DecidableEq, Repr

inductive Flg where
  | type | ptrArith | nullPtrArith | shiftNegative | shiftImpl | bitwiseOps | strictOps | realCompare
  | realRelate | ptrNum | unsignedCompare | boolCompare | boolOps
deriving DecidableEq, Repr

structure Env where
  /-- the flags that are on -/
  on : Flg → Bool
  charInt : Bool := false
  boolInt : Bool := false
  enumInt : Bool := false
  /-- `context_canAccessBool` -/
  accessBool : Bool := false
  /-- `ctype_match` of the types of the operands -/
  tmatch : Bool := true
  /-- `exprNode_matchTypes` of the operands -/
  ematch : Bool := true

inductive Msg where
  /-- "Incompatible types for ..." -/
  | incompatible
  /-- "Operands of ... have incompatible types" -/
  | opTypes
  /-- "Pointer arithmetic" -/
  | ptrArith
  /-- "Pointer arithmetic involving possibly null pointer" -/
  | nullPtr
  /-- "Right operand of ... may be negative" -/
  | shiftRight
  /-- "Left operand of ... may be negative" -/
  | shiftLeft
  /-- "Left operand of ... is not unsigned value" -/
  | bitLeft
  /-- "Right operand of ... is not unsigned value" -/
  | bitRight
  /-- "Operands of ... are non-integer" -/
  | intBoth
  | intLeft
  | intRight
  /-- "Operands of ... are non-numeric" -/
  | numBoth
  /-- "Left operand of ... is non-numeric" -/
  | numLeft
  /-- "Right operand of ... is non-numeric" -/
  | numRight
  /-- "Dangerous equality comparison" -/
  | realEq
  /-- "Possibly dangerous relational comparison" -/
  | realRel
  /-- "Comparison of pointer and numeric" -/
  | ptrNum
  /-- "Comparison of unsigned value involving zero" -/
  | unsignedZero
  /-- "Use of == with bool variables" -/
  | boolCompare
  /-- "Operands of ... are non-boolean" -/
  | boolBoth
  /-- "Left operand of ... is non-boolean" -/
  | boolLeft
  /-- "Right operand of ... is non-boolean" -/
  | boolRight
deriving DecidableEq, Repr

variable (E : Env)

/-- `voptgenerror` -/
def emit (f : Flg) (m : Msg) : List Msg := if E.on f then [m] else []

/-- `ctype_isInt` -/
def isInt : Ty → Bool
  | .prim p => p = .unknown || p.isAnyInt || (p.isAnyChar && E.charInt) || (p = .bool && E.boolInt)
  | .enum => E.enumInt
  | _ => false

/-- `ctype_isReal` -/
def isReal : Ty → Bool
  | .prim p => p.isAnyReal
  | _ => false

/-- `ctype_isNumeric` -/
def isNumeric (t : Ty) : Bool := isInt E t || isReal t || t = .enum

/-- `ctype_realType` of a type that is no named type -/
def realType (t : Ty) : Ty := if t = .prim .bool && E.accessBool then .prim .int else t

/-- `ctype_isRealInt`: an enumeration is not `CTK_PLAIN` -/
def isRealInt : Ty → Bool
  | .prim p => isInt E (realType E (.prim p))
  | .enum => E.enumInt
  | _ => false

/-- `ctype_isRealNumeric` -/
def isRealNumeric : Ty → Bool
  | .prim p => isNumeric E (realType E (.prim p))
  | _ => false

/-- `ctype_isRealBool` -/
def isRealBool : Ty → Bool
  | .prim p => p = .bool || (E.boolInt && isInt E (.prim p))
  | _ => false

/-- `ctype_isRealPointer` -/
def isRealPointer (t : Ty) : Bool := t = .ptr

/-- `ctype_isUnsigned` -/
def isUnsigned : Ty → Bool
  | .prim .uint | .prim .uchar | .prim .usint | .prim .ulint | .prim .ullint | .prim .unsignedIntegral => true
  | _ => false

/-- `ctype_fixArrayPtr` -/
def fixArrayPtr (t : Ty) : Ty := if t = .arr then .ptr else t

/-- `exprNode_isNonNegative` -/
def isNonNegative (e : Opnd) : Bool :=
  match e.val with
  | some v => decide (0 ≤ v)
  | none => e.ty = .enum

/-- `exprNode_isZero` and `exprNode_isNullValue` -/
def isZero (e : Opnd) : Bool := e.val = some 0

/-- `checkIntegral` (src/exprNode.c:5254-5318) -/
def checkIntegral (a b : Opnd) : List Msg :=
  if isRealInt E a.ty && isRealInt E b.ty then []
  else if !E.on .strictOps then []
  else if !isInt E a.ty && !isInt E b.ty then emit E .strictOps .intBoth
  else if !isInt E a.ty then emit E .strictOps .intLeft
  else emit E .strictOps .intRight

/-- the comparisons: `comparop` -/
def isCompare : Op → Bool
  | .eq | .ne | .lt | .gt | .le | .ge => true
  | _ => false

/-- `ctype_isChar` (src/ctype.c:855-860) -/
def isChar (t : Ty) : Bool :=
  match t with
  | .prim p => p = .unknown || p.isAnyChar || (E.charInt && isInt E t)
  | _ => E.charInt && isInt E t

/-- `ctype_isBool` (src/ctype.c:902-943) -/
def isBool (t : Ty) : Bool := t = .prim .bool || (E.boolInt && isInt E t)

/-- `checkNumerics` (src/exprNode.c:10727-10909), given the types and not the operands: that of the left one may
have been changed -/
def checkNumerics (op : Op) (s t : Ty) : List Msg :=
  if !E.tmatch then
    if (isRealInt E s || isReal s) && (isRealInt E t || isReal t) then []
    else emit E .type .incompatible
  else if isRealNumeric E s && isRealNumeric E t then []
  else if !E.on .strictOps then []
  else if !isNumeric E s && !isNumeric E t then
    if isCompare op && ((s = .enum && t = .enum) || (isBool E s && isBool E t) || (isChar E s && isChar E t)) then []
    else emit E .strictOps .numBoth
  else if !isNumeric E s then emit E .strictOps .numRight
  else if !isNumeric E t then emit E .strictOps .numLeft
  else []

/-- `case TPLUS` (src/exprNode.c:5472-5681) -/
def checkAdd (op : Op) (a b : Opnd) : List Msg :=
  let s := fixArrayPtr a.ty
  if (isRealPointer s && !isZero a) && (!isRealPointer b.ty && isRealInt E b.ty) then
    emit E .ptrArith .ptrArith ++ (if a.null then emit E .nullPtrArith .nullPtr else [])
  else if (!isRealPointer s && isRealInt E s) && (isRealPointer b.ty && !isZero b) then
    -- `sRef_possiblyNull (e1->sref)`: of the integer
    emit E .ptrArith .ptrArith ++ (if a.null then emit E .nullPtrArith .nullPtr else [])
  else checkNumerics E op s b.ty

/-- the shifts (src/exprNode.c:5693-5729): the messages, and whether the last one was reported -/
def checkShift (a b : Opnd) : List Msg × Bool :=
  let right := !isUnsigned b.ty && !isNonNegative b
  let left := !isUnsigned a.ty && !isNonNegative a
  ((if right then emit E .shiftNegative .shiftRight else [])
    ++ (if left then emit E .shiftImpl .shiftLeft else []),
   if left then E.on .shiftImpl else right && E.on .shiftNegative)

/-- the other bitwise operators (src/exprNode.c:5730-5765) -/
def checkBits (a b : Opnd) : List Msg × Bool :=
  if !isUnsigned a.ty then
    if isNonNegative a then ([], false) else (emit E .bitwiseOps .bitLeft, E.on .bitwiseOps)
  else if !isUnsigned b.ty then
    if !isNonNegative b then (emit E .bitwiseOps .bitRight, E.on .bitwiseOps) else ([], false)
  else ([], false)

def isShift : Op → Bool
  | .shl | .shr | .shlA | .shrA => true
  | _ => false

/-- `case LEFT_ASSIGN` (src/exprNode.c:5683-5781) -/
def checkBitwise (op : Op) (a b : Opnd) : List Msg :=
  let r := if isShift op then checkShift E a b else checkBits E a b
  r.1 ++ (if r.2 then [] else checkIntegral E a b)

/-- the names of the least differences -/
def epsilon (e : Opnd) : Bool :=
  e.var = some "FLT_EPSILON" || e.var = some "DBL_EPSILON" || e.var = some "LDBL_EPSILON"

/-- `case EQ_OP` up to the fallthrough (src/exprNode.c:5790-5866) -/
def checkReal (op : Op) (a b : Opnd) : List Msg :=
  if (isReal a.ty && !isInt E a.ty) || (isReal b.ty && !isInt E b.ty) then
    if (op = .lt || op = .gt) && (epsilon a || epsilon b) then []
    else if op = .eq || op = .ne then emit E .realCompare .realEq
    else emit E .realRelate .realRel
  else []

/-- `case LE_OP` (src/exprNode.c:5867-5959) -/
def checkRelate (op : Op) (a b : Opnd) : List Msg :=
  let hasError := !E.ematch && E.on .type
  (if !E.ematch then emit E .type .opTypes else [])
  ++ (if hasError || (isRealNumeric E a.ty && isRealNumeric E b.ty) || (isRealPointer a.ty && isRealPointer b.ty)
      then []
      else if (isRealNumeric E a.ty && isRealPointer b.ty) || (isRealPointer a.ty && isRealNumeric E b.ty)
      then emit E .ptrNum .ptrNum
      else checkNumerics E op a.ty b.ty)
  ++ (if (op = .lt || op = .le || op = .ge)
        && ((isUnsigned a.ty && isZero b) || (isUnsigned b.ty && isZero a))
      then emit E .unsignedCompare .unsignedZero else [])
  ++ (if (op = .eq || op = .ne) && (a.ty = .prim .bool && b.ty = .prim .bool)
        && (a.var.isSome || b.var.isSome) && !(a.isFalse || b.isFalse)
      then emit E .boolCompare .boolCompare else [])

/-- `case AND_OP` (src/exprNode.c:5961-6012) -/
def checkLogic (a b : Opnd) : List Msg :=
  if isRealBool E a.ty && isRealBool E b.ty then []
  else if !E.on .boolOps then []
  else if !isRealBool E a.ty && !isRealBool E b.ty then emit E .boolOps .boolBoth
  else if !isRealBool E a.ty then emit E .boolOps .boolLeft
  else if !isRealBool E b.ty then emit E .boolOps .boolRight
  else []

/-- the messages of `exprNode_makeOp` -/
def makeOp (op : Op) (a b : Opnd) : List Msg :=
  if !a.known || !b.known then []
  else match op with
    | .mul | .div | .mulA | .divA => checkNumerics E op a.ty b.ty
    | .add | .sub | .subA | .addA => checkAdd E op a b
    | .shl | .shr | .shlA | .shrA | .band | .bandA | .xor | .bor | .xorA | .borA => checkBitwise E op a b
    | .mod | .modA => checkIntegral E a b
    | .eq | .ne | .lt | .gt => checkReal E op a b ++ checkRelate E op a b
    | .le | .ge => checkRelate E op a b
    | .land | .lor => checkLogic E a b

end Splint.OpCheck
