import Verif.Tactics
/-!
# Comparing alternate types of two declarations

Model of `ctype_sameAltTypes` (src/ctype.c:586-643), of the types it is used for (uentry.c:8413, 8616, 9347), and of
the types that are made of `/*@alt t1, t2, ...@*/` (cgrammar.y:1448-1458, `qtype_mergeAlt`, qtype.c:122-146, `ctype_makeExplicitConj`,
ctype.c:1196-1219).

Simplifications: types that are not alternatives are values that can be compared, and `ctype_compare` is 0 exactly for equal
types (for alternatives: ctbase.i:2503-2511, with the flag `isExplicit`); function types are not combined, no type is
`anytype`, and the flag `impconj` is off.  A failing `llassert` is `none`.
-/
namespace Splint.SameAlt

inductive Ty (α : Type)
  | leaf (a : α)
  | alt (a b : Ty α) (isExplicit : Bool)
  deriving DecidableEq, Repr

variable {α : Type} [DecidableEq α]

def Ty.isConj : Ty α → Bool
  | .leaf _ => false
  | .alt .. => true

/-- `ctype_sameAltTypes`, ctype.c:586-643 -/
def same : Ty α → Ty α → Option Bool
  | .alt a1 b1 _, .alt a2 b2 _ =>
    if a1 = a2 then
      if b1 = b2 then some true
      else if b1.isConj && b2.isConj then same b1 b2
      else some false
    else if a1 = b2 then
      if b1 = a2 then some true
      else if b1.isConj && a2.isConj then same b1 a2
      else some false
    else some false
  | _, _ => none

/-- the type declared by `t /*@alt t1, ..., tn@*/`: cgrammar.y:1448-1458 -/
def declared : α → List α → Ty α
  | t, [] => .leaf t
  | t, t1 :: ts => .alt (.leaf t) (declared t1 ts) true

end Splint.SameAlt
