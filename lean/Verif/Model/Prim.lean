import Verif.Tactics
/-!
# Numeric types that match

Model of src/cprim.c: `cprim_isNumeric` (36-39), `cprim_closeEnoughDeep` (61-72), `cprim_closeEnough`
(75-78), `cprim_closeEnoughAux` (81-428), `cprim_isInt` (476-480), and of the macros of
src/Headers/cprim.h (39-97).

Simplifications:
* the values of flags are fields of a structure (`context_getFlag`, and `context_flagOn` at the current
  position for `charint`, `shortint` and `longint`, src/context.c:4410-4428);
* the recursive calls of `cprim_closeEnough` have `CTX_LINT` or `CTX_ULINT` in place of an arbitrary
  integral type, so that they go at most two levels deep: they are written out.
-/
namespace Splint.Prim

/-- `CTX_UNKNOWN` to `CTX_LDOUBLE`, src/Headers/cprim.h:21-86. -/
inductive P where
  | unknown | void | bool | uchar | char | int | uint | sint | usint | lint | ulint | llint | ullint
  | anyIntegral | unsignedIntegral | signedIntegral | float | double | ldouble
  deriving DecidableEq, Repr

/-- `cprim_isAnyChar` -/
def P.isAnyChar : P → Bool
  | .uchar | .char => true
  | _ => false

/-- `cprim_isAnyInt` -/
def P.isAnyInt : P → Bool
  | .int | .uint | .sint | .usint | .lint | .ulint | .llint | .ullint
  | .anyIntegral | .unsignedIntegral | .signedIntegral => true
  | _ => false

/-- `cprim_isAnyUnsignedInt` -/
def P.isAnyUnsignedInt : P → Bool
  | .uint | .usint | .ulint | .ullint | .unsignedIntegral => true
  | _ => false

/-- `cprim_isAnyReal` -/
def P.isAnyReal : P → Bool
  | .float | .double | .ldouble => true
  | _ => false

structure Flags where
  matchAnyIntegral : Bool := false
  ignoreQuals : Bool := false
  ignoreSigns : Bool := false
  longIntegral : Bool := false
  longUnsignedIntegral : Bool := false
  longUnsignedUnsignedIntegral : Bool := false
  longSignedIntegral : Bool := false
  relaxTypes : Bool := false
  floatDouble : Bool := false
  relaxQuals : Bool := false
  charInt : Bool := false
  shortInt : Bool := false
  longInt : Bool := false
  deriving DecidableEq, Repr

/-- `cprim_isInt`, 476-480. -/
def isInt (f : Flags) (c : P) : Bool := c.isAnyInt || (c.isAnyChar && f.charInt)

/-- `cprim_isNumeric`, 36-39. -/
def isNumeric (f : Flags) (c : P) : Bool := c.isAnyReal || isInt f c

/-- The changes for `FLG_IGNORESIGNS`, 262-317. -/
def dropSign : P → P
  | .uchar => .char | .uint => .int | .ulint => .lint | .ullint => .llint | .usint => .sint
  | c => c

/-- The `switch` for `FLG_IGNOREQUALS`, 226-260. -/
def ignoring (f : Flags) (c1 c2 : P) : Bool :=
  match c1 with
  | .char | .uchar => c2.isAnyChar || (c2.isAnyInt && f.charInt)
  | .double | .float | .ldouble => c2.isAnyReal
  | .int | .lint | .llint | .ullint | .sint | .uint | .ulint | .usint =>
    c2.isAnyInt || (c2.isAnyChar && f.charInt)
  | _ => false

/-- The `switch` with `FLG_RELAXQUALS`, 335-385. -/
def relaxed (f : Flags) (c1 c2 : P) : Bool :=
  match c1 with
  | .double => c2 = .float
  | .ldouble => c2 = .double || c2 = .float
  | .sint => (c2 = .char && f.charInt) || (c2 = .int && f.shortInt) || (c2 = .lint && f.shortInt && f.longInt)
  | .int => c2 = .sint || (c2.isAnyChar && f.charInt) || (c2 = .lint && f.longInt)
  | .llint => c2 = .sint || c2 = .int || c2 = .lint || (c2.isAnyChar && f.charInt)
  | .ullint => c2 = .usint || c2 = .uint || c2 = .ulint || (c2.isAnyChar && f.charInt)
  | .lint => c2 = .sint || c2 = .int || (c2.isAnyChar && f.charInt)
  | .uint => c2 = .usint || (c2 = .uchar && f.charInt)
  | .usint => c2 = .uchar && f.charInt
  | .ulint => c2 = .uint || c2 = .usint || (c2 = .uchar && f.charInt)
  | .uchar => c2 = .uint && f.charInt
  | .char => (c2 = .int || c2 = .sint) && f.charInt
  | _ => false

/-- The `switch` without it, 386-428, with its cases that fall through. -/
def unrelaxed (f : Flags) (c1 c2 : P) : Bool :=
  match c1 with
  | .sint =>
    (c2 = .int && f.shortInt) || (c2 = .int && f.longInt) || (c2 = .sint && f.shortInt)
      || (c2 = .int && f.longInt) || (c2 = .char && f.charInt)
  | .int =>
    (c2 = .int && f.longInt) || (c2 = .sint && f.shortInt) || (c2 = .int && f.longInt)
      || (c2 = .char && f.charInt)
  | .lint => (c2 = .int && f.longInt) || (c2 = .char && f.charInt)
  | .llint => c2 = .char && f.charInt
  | .uint | .usint | .ulint | .ullint => c2 = .uchar && f.charInt
  | .uchar => c2 = .uint && f.charInt
  | .char => (c2 = .int || c2 = .sint) && f.charInt
  | _ => false

/-- From the test of `FLG_RELAXTYPES` on, 221-428. -/
def base (f : Flags) (deep : Bool) (c1 c2 : P) : Bool :=
  if f.relaxTypes && isNumeric f c1 && isNumeric f c2 then true
  else if f.ignoreQuals && ignoring f c1 c2 then true
  else
    let d1 := if f.ignoreSigns then dropSign c1 else c1
    let d2 := if f.ignoreSigns then dropSign c2 else c2
    if d1 = d2 then true
    else if f.floatDouble && ((d1 = .float && d2 = .double) || (d2 = .float && d1 = .double)) then true
    else if !deep && f.relaxQuals then relaxed f d1 d2
    else unrelaxed f d1 d2

/-- The function for types that are not arbitrary integral types. -/
def plain (f : Flags) (deep : Bool) (c1 c2 : P) : Bool := if c1 = c2 then true else base f deep c1 c2

/-- The tests of `c2`, 163-216. In that for `CTX_SIGNEDINTEGRAL` it is `c2` that is tested again. -/
def right (f : Flags) (deep : Bool) (c1 c2 : P) : Bool :=
  match c2 with
  | .anyIntegral =>
    if f.matchAnyIntegral then c1.isAnyInt || (c1.isAnyChar && f.charInt)
    else if f.longIntegral then plain f false c1 .lint
    else if f.longUnsignedIntegral then plain f false c1 .ulint
    else false
  | .unsignedIntegral =>
    if f.matchAnyIntegral then c1.isAnyInt || (c1.isAnyChar && f.charInt)
    else if f.longUnsignedUnsignedIntegral then plain f false c1 .ulint
    else false
  | .signedIntegral =>
    if f.matchAnyIntegral then c2.isAnyInt || (c2.isAnyChar && f.charInt)
    else if f.longSignedIntegral then plain f false c1 .lint
    else false
  | _ => plain f deep c1 c2

/-- `cprim_closeEnoughAux`, 81-428. -/
def closeEnough (f : Flags) (deep : Bool) (c1 c2 : P) : Bool :=
  if c1 = c2 then true
  else match c1 with
  | .anyIntegral =>
    if f.matchAnyIntegral || f.ignoreQuals then c2.isAnyInt || (c2.isAnyChar && f.charInt)
    else if f.longIntegral then right f false .lint c2
    else if f.longUnsignedIntegral then right f false .ulint c2
    else false
  | .unsignedIntegral =>
    if f.matchAnyIntegral then c2.isAnyInt || (c2.isAnyChar && f.charInt)
    else if f.ignoreQuals then
      if f.ignoreSigns then c2.isAnyUnsignedInt || (c2 = .uchar && f.charInt)
      else c2.isAnyInt || (c2.isAnyChar && f.charInt)
    else if f.longUnsignedUnsignedIntegral then right f false .ulint c2
    else false
  | .signedIntegral =>
    if f.matchAnyIntegral then c2.isAnyInt || (c2.isAnyChar && f.charInt)
    else if f.ignoreQuals then c2.isAnyInt || (c2.isAnyChar && f.charInt)
    else if f.longSignedIntegral then right f false .lint c2
    else false
  | _ => right f deep c1 c2

end Splint.Prim
