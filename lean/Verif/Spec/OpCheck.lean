import Verif.Model.OpCheck
/-!
# What the checks of operators are for

The texts of the flags (src/flags.def:250-335, 421-440), read as statements about the values the operands may
have. Nothing here refers to the functions of the model, only to operators, types and operands.
-/
namespace Splint.OpCheck.Spec
open Prim (P) 

/-- the unsigned types of C -/
def unsignedTys : List Ty :=
  [.prim .uchar, .prim .usint, .prim .uint, .prim .ulint, .prim .ullint, .prim .unsignedIntegral]

/-- the floating types -/
def floatTys : List Ty := [.prim .float, .prim .double, .prim .ldouble]

/-- The integers an operand may have as value: the one that is known; none below zero, if its type is unsigned;
and none below zero for an enumeration, unless the value is known ("not always true if programmer defines enum
values, but then the constant should be known"). -/
def Values (e : Opnd) (z : Int) : Prop :=
  (∀ v, e.val = some v → z = v) ∧ (e.ty ∈ unsignedTys → 0 ≤ z) ∧ (e.ty = .enum → e.val = none → 0 ≤ z)

def MayBeNegative (e : Opnd) : Prop := ∃ z, Values e z ∧ z < 0

def shifts : List Op := [.shl, .shr, .shlA, .shrA]
def bitwise : List Op := [.band, .bandA, .bor, .borA, .xor, .xorA]
def adds : List Op := [.add, .sub, .addA, .subA]
def relations : List Op := [.lt, .gt, .le, .ge]

/-- the meaning of a comparison -/
def Holds : Op → Int → Int → Prop
  | .eq, x, y => x = y
  | .ne, x, y => x ≠ y
  | .lt, x, y => x < y
  | .gt, x, y => y < x
  | .le, x, y => x ≤ y
  | .ge, x, y => y ≤ x
  | _, _, _ => False

/-- The comparison says nothing: its result is the same for all values of the operands. -/
def Constant (op : Op) (a b : Opnd) : Prop :=
  (∀ x y, Values a x → Values b y → Holds op x y) ∨ (∀ x y, Values a x → Values b y → ¬ Holds op x y)

/-- an unsigned operand whose value is not known -/
def UnsignedVar (e : Opnd) : Prop := e.ty ∈ unsignedTys ∧ e.val = none

/-- an operand that is the constant zero -/
def IsZeroConst (e : Opnd) : Prop := e.val = some 0

/-- a pointer that is not the constant 0; an array is one as well -/
def Pointer (e : Opnd) : Prop := (e.ty = .ptr ∨ e.ty = .arr) ∧ e.val ≠ some 0

/-- the types that are integers whatever the flags -/
def Integer (e : Opnd) : Prop := ∃ p : P, e.ty = .prim p ∧ p.isAnyInt = true

/-- one of the operands is a pointer, the other an integer: they are given in this order -/
def PointerAndInt (a b : Opnd) (p : Opnd) : Prop :=
  (Pointer a ∧ Integer b ∧ p = a) ∨ (Integer a ∧ Pointer b ∧ p = b)

end Splint.OpCheck.Spec
