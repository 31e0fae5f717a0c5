import Verif.Model.Declarator
/-!
# The type of a declarator in C

C99 6.7.5: a declarator is read from the outside in.
-/
namespace Splint
namespace Declarator

/-- The type that a declarator gives its name, if `t` is what comes before. -/
def cType : Dcl → CT → CT
  | .id, t => t
  | .paren n d, t => cType d (ptrs n t)
  | .arr d, t => cType d (.arr t)
  | .farr d k, t => cType d (.farr t k)
  | .fcn d ps, t => cType d (.fcn t ps)

/-- The declaration `T *...* d`. -/
def cDeclared (n : Nat) (d : Dcl) (t : CT) : CT := cType d (ptrs n t)

/-- `d[..][..]`, with sizes or without -/
def arrays : Dcl → List (Option Nat) → Dcl
  | d, [] => d
  | d, none :: l => arrays (.arr d) l
  | d, some k :: l => arrays (.farr d k) l

/-- arrays of arrays of `t`, the first size first -/
def arrayType : List (Option Nat) → CT → CT
  | [], t => t
  | none :: l, t => .arr (arrayType l t)
  | some k :: l, t => .farr (arrayType l t) k

/-- Array types without their sizes. -/
def arrayTypes : Nat → CT → CT
  | 0, t => t
  | n + 1, t => .arr (arrayTypes n t)

def isFcn : CT → Bool
  | .fcn _ _ => true
  | _ => false

def isArr : CT → Bool
  | .arr _ | .farr _ _ => true
  | _ => false

/-- The types C has: no arrays of functions, no functions that return functions or arrays (C99 6.7.5.2, 6.7.5.3). -/
def Legal : CT → Prop
  | .base _ => True
  | .ptr c => Legal c
  | .arr c | .farr c _ => isFcn c = false ∧ Legal c
  | .fcn r _ => isFcn r = false ∧ isArr r = false ∧ Legal r
  | _ => False

/-- A type declarations start from: no pointer, array or function. -/
def Plain (t : CT) : Prop := ∃ b, t = .base b

/-- The declarator consists of parentheses and the name. -/
def Trivial : Dcl → Prop
  | .id => True
  | .paren n d => n = 0 ∧ Trivial d
  | _ => False

end Declarator
end Splint
