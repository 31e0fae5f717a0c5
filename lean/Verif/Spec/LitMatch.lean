import Verif.Model.LitMatch
/-!
# The values of a type
-/
namespace Splint.LitMatchSpec
open Splint.LitMatch
open Prim (P)

/-- The primitive type that a type stands for. -/
inductive Stands : Ty → P → Prop
  | prim {p} : Stands (.prim p) p
  | user {r p} : Stands r p → Stands (.user r) p
  | rep {n r p} : Stands r p → Stands (.abst n true r) p

/-- How many bits a type has, in some implementation of C. -/
abbrev Bits := P → Nat

/-- the integer types of C without a sign, and with one (`char` may or may not have one, and is left out) -/
def Unsigned (p : P) : Prop := p ∈ [P.uchar, .uint, .usint, .ulint, .ullint]
def Signed (p : P) : Prop := p ∈ [P.int, .sint, .lint, .llint]

/-- The numbers that a type has. -/
def Has (bits : Bits) (p : P) (v : Int) : Prop :=
  (Unsigned p → 0 ≤ v ∧ v < 2 ^ bits p) ∧ (Signed p → -2 ^ (bits p - 1) ≤ v ∧ v < 2 ^ (bits p - 1))

end Splint.LitMatchSpec
