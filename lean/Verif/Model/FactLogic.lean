import Verif.Tactics
/-!
Lists of constraints: `constraintList_add`, `constraintList_addList` (constraintList.c:88-162) and
`constraintList_logicalOr` (constraintList.c:380-427).

Whether a constraint follows from a list (`constraintList_resolve`) and the constraint that substitution
of the equalities of a list gives (`constraint_substitute`) are parameters: their model is
Model/Constraint.lean, and under which conditions they are right is stated by C27 and C28.  So what is
proved here holds for them and for anything else in their place.
-/
namespace Splint.Facts

/-- the operations on single constraints -/
structure Logic (C : Type) where
  /-- `constraintList_resolve` -/
  resolve : C → List C → Bool
  /-- `constraint_substitute` -/
  subst : C → List C → C

variable {C : Type}

/-- `constraintList_add` -/
def Logic.add (L : Logic C) (s : List C) (el : C) : List C :=
  if L.resolve el s then s else s ++ [el]

/-- `constraintList_addList` -/
def Logic.addList (L : Logic C) : List C → List C → List C
  | s, [] => s
  | s, el :: l => L.addList (L.add s el) l

/-- one of the two loops of `constraintList_logicalOr` -/
def Logic.orLoop (L : Logic C) (other : List C) : List C → List C → List C
  | ret, [] => ret
  | ret, el :: l =>
    L.orLoop other
      (if (L.resolve el other || L.resolve (L.subst el other) other) && !L.resolve el ret
        then L.add ret el else ret) l

/-- `constraintList_logicalOr` -/
def Logic.or (L : Logic C) (l1 l2 : List C) : List C :=
  L.orLoop l1 (L.orLoop l2 [] l1) l2

end Splint.Facts
