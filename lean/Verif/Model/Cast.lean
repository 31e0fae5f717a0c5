import Verif.Tactics
/-!
# What is reported for a cast

Models `exprNode_cast` (src/exprNode.c:5003-5244), with `ctype_realType` (src/ctype.c:181-204), `ctype_getBaseType`
(2012-2067), `ctype_baseArrayPtr` (456-495), `ctype_isRealAP` (1085-1091), `ctype_isRealAbstract` (287-293),
`ctype_isAbstract` (261-268), `ctype_isNumAbstract` (270-278), `ctype_isFunction` (776-786, src/ctbase.i:1921-1940),
`ctype_isVoidPointer` (src/ctype.c:1798-1815), `ctype_isArrayPtr` (1878-1881) and `ctype_isVoid` (795-798).

Simplifications: a type is a tree and not an index into the table of types; what a named type stands for is part of
it, so there are no types that stand for themselves. Alternate types (`CT_CONJ`) and the boolean type are left out,
structures, unions and enumerations are among the other types (`other`). Arrays of fixed and of open size are the
same. `ctype_match` and `ctype_equal` are parameters. What is known of the storage (`sRef_isFresh` ...) is given.
The flags `zeroptr` and `abstvoidp` are looked at; the others only decide if a report is shown, and the reports here
are those with all of them on. The copy of the expression that is returned is left out, but for the exposure that is
taken off it.
-/
namespace Splint.Cast

/-- `ctype` -/
inductive Ty where
  | unknown
  | void
  /-- primitive types, structures, unions and enumerations -/
  | other (n : Nat)
  | fcn (r : Ty)
  /-- `CT_ABST` or, if `num`, `CT_NUMABST`; the number of the type and its representation -/
  | abst (num : Bool) (id : Nat) (rep : Ty)
  /-- `CT_USER`: the number of the type and what it is defined as -/
  | user (id : Nat) (rep : Ty)
  | ptr (b : Ty)
  | arr (b : Ty)
deriving DecidableEq, Repr

structure Env where
  /-- `context_hasAccess` -/
  access : Nat → Bool
  /-- `ctype_match` -/
  same : Ty → Ty → Bool
  /-- `ctype_equal` -/
  equal : Ty → Ty → Bool
  /-- `FLG_ZEROPTR` -/
  zeroPtr : Bool
  /-- `FLG_ABSTVOIDP` -/
  abstVoidP : Bool

/-- what is known of the expression that is cast -/
structure Operand where
  t : Ty
  /-- `exprNode_isZero` -/
  zero : Bool := false
  /-- `exprNode_isNumLiteral` -/
  numLit : Bool := false
  /-- `sRef_isFresh` -/
  fresh : Bool := false
  /-- `sRef_isExposed` -/
  exposed : Bool := false
  /-- `sRef_isOnly` -/
  only : Bool := false
  /-- `ctype_isVisiblySharable` of its type -/
  sharable : Bool := false
  /-- `sRef_isExternallyVisible` -/
  extVisible : Bool := false

/-- the messages, with the types that are named in them -/
inductive Rep where
  /-- "New fresh storage cast to void" -/
  | freshLost
  /-- "Cast from function pointer type `a` to non-function pointer `b`" -/
  | fromFcn (a b : Ty)
  /-- "Cast from non-function pointer type `a` to function pointer `b`" -/
  | toFcn (a b : Ty)
  /-- "Cast to underlying abstract type", for a pointer to void -/
  | toAbstVoidP (c : Ty)
  /-- "Cast to underlying abstract type" -/
  | toUnder (c : Ty)
  | fromAbstVoidP (t : Ty)
  /-- "Cast from underlying abstract type" -/
  | fromUnder (t : Ty)
  /-- "Redundant cast involving abstract type" -/
  | redundant (b : Ty)
  /-- "Cast from abstract type" -/
  | fromAbst (b : Ty)
  /-- "Cast from literal to numabstract type" -/
  | litToNum (b : Ty)
  /-- "Cast to numabstract type" -/
  | toNum (b : Ty)
  /-- "Cast to abstract type" -/
  | toAbst (b : Ty)
  /-- "Cast to abstract type from externally visible mutable storage exposes rep" -/
  | exposes (c : Ty)
deriving DecidableEq, Repr

variable (E : Env)

/-- `ctype_realType` (src/ctype.c:181-204), `uentry_getRealType` (src/uentry.c:6447-6522) -/
def realType : Ty → Ty
  | .user _ r => realType r
  | .abst n i r => if E.access i then realType r else .abst n i r
  | c => c

/-- `ctype_getBaseType` (src/ctype.c:2012-2067): named types are not looked through -/
def getBase : Ty → Ty
  | .ptr b => getBase b
  | .arr b => getBase b
  | c => c

/-- `ctype_isArrayPtr` (src/ctype.c:1878-1881) of a type that is no named one -/
def isAP : Ty → Bool
  | .ptr _ => true
  | .arr _ => true
  | _ => false

/-- `ctype_baseArrayPtr` (src/ctype.c:456-495): it goes to the real type first. There is no base of other types; none
is asked for here. -/
def basePtr (c : Ty) : Ty :=
  match realType E c with
  | .ptr b => b
  | .arr b => b
  | _ => .unknown

/-- `ctype_isFunction` (src/ctype.c:776-786, src/ctbase.i:1921-1940): pointers to functions are taken for them, and
named types are not looked through -/
def isFunction : Ty → Bool
  | .fcn _ => true
  | .ptr (.fcn _) => true
  | _ => false

/-- `ctype_isAbstract` (src/ctype.c:261-268) -/
def isAbstract : Ty → Bool
  | .abst _ _ _ => true
  | _ => false

/-- `ctype_isNumAbstract` (src/ctype.c:270-278) -/
def isNumAbstract : Ty → Bool
  | .abst n _ _ => n
  | _ => false

/-- `context_hasAccess (ctype_typeId (c))`: only asked for named types -/
def accessTo : Ty → Bool
  | .abst _ i _ => E.access i
  | .user i _ => E.access i
  | _ => false

/-- `ctype_isVoidPointer` (src/ctype.c:1798-1815) -/
def isVoidPtr (c : Ty) : Bool :=
  match realType E c with
  | .ptr .void => true
  | _ => false

/-- the condition `ctype_isRealAbstract (b) && !context_hasAccess (ctype_typeId (b))` -/
def closed (b : Ty) : Bool := isAbstract (realType E b) && !accessTo E b

/-- the reports on pointers to functions (src/exprNode.c:5074-5096) -/
def fcnReports (c t : Ty) : List Rep :=
  (if isFunction (basePtr E (realType E c)) && (isAP (realType E t)
      && !isFunction (realType E (basePtr E (realType E t)))) then [.fromFcn c t] else []) ++
  (if !isFunction (basePtr E c) && (isAP (realType E t)
      && isFunction (realType E (basePtr E (realType E t)))) then [.toFcn c t] else [])

/-- the reports on abstract types, of a cast to a pointer or array (src/exprNode.c:5098-5150) -/
def ptrReports (c : Ty) (e : Operand) : List Rep :=
  if e.zero && E.zeroPtr && !(isAbstract (realType E (getBase c)) && accessTo E (getBase c)) then []
  else
    (if closed E (getBase c) then
      if isVoidPtr E e.t || e.t == .unknown then (if E.abstVoidP then [] else [.toAbstVoidP c])
      else [.toUnder c]
    else []) ++
    (if closed E (getBase e.t) then
      if c == .unknown || isVoidPtr E c then (if E.abstVoidP then [] else [.fromAbstVoidP e.t])
      else [.fromUnder e.t]
    else [])

/-- the reports of a cast to another type (src/exprNode.c:5152-5217) -/
def plainReports (c : Ty) (e : Operand) : List Rep :=
  let bt := realType E (getBase e.t)
  let bc := realType E (getBase c)
  (if isAbstract bt && !accessTo E bt then
    if E.same c e.t then (if E.equal c e.t then [.redundant bt] else [])
    else [.fromAbst bt]
  else []) ++
  (if isAbstract bc && !accessTo E bc then
    if E.same c e.t then []
    else if isNumAbstract bc then (if e.numLit then [.litToNum bc] else [.toNum bc])
    else [.toAbst bc]
  else [])

/-- the part on exposure (src/exprNode.c:5219-5241): the report -/
def exposeReports (c : Ty) (e : Operand) : List Rep :=
  if isAbstract c then
    if e.exposed || e.only then []
    else if e.sharable && e.extVisible && !(isAbstract e.t && accessTo E e.t) then [.exposes c] else []
  else []

/-- Is the exposure taken off the storage (`sRef_clearExKindComplete`, src/exprNode.c:5224)? -/
def clears (c : Ty) (e : Operand) : Bool := isAbstract c && (e.exposed || e.only)

/-- `exprNode_cast` (src/exprNode.c:5003-5244): what is reported for a cast of `e` to `c` -/
def castReports (c : Ty) (e : Operand) : List Rep :=
  (if c = .void then (if e.fresh then [.freshLost] else [])
   else if isAP (realType E c) then fcnReports E c e.t ++ ptrReports E c e
   else plainReports E c e) ++ exposeReports E c e

end Splint.Cast
