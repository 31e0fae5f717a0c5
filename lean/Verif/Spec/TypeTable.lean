import Verif.Model.TypeTable
/-!
Types as C has them, for C134 and C135.
-/
namespace Splint.TypeTable.Spec
open Splint.TypeTable

/-- the states that a sequence of operations leads to -/
inductive Later (nm : Names) : St → St → Prop
  | refl (st : St) : Later nm st st
  | step {st st' st'' : St} {op : Op} {n : Nat} (h : Later nm st st') (hs : step nm st' op = some (st'', n)) :
      Later nm st st''

/-- the states that can occur -/
def Reachable (nm : Names) (st : St) : Prop := Later nm init st

/-- a type that is not an alternative: by its number, or by what it is equal to -/
inductive Leaf where
  | num (i : Nat)
  | cls (k : Nat)
  deriving DecidableEq

/-- The type is one of the alternatives of type `i`. -/
inductive Alt (tab : List Entry) : Nat → Leaf → Prop
  | num {i : Nat} {e : Entry} (h : tab[i]? = some e) (hc : ∀ a b x, e.ct ≠ .conj a b x)
      (ho : ∀ k, e.ct ≠ .other k) : Alt tab i (.num i)
  | cls {i k : Nat} {e : Entry} (h : tab[i]? = some e) (hk : e.ct = .other k) : Alt tab i (.cls k)
  | left {i a b : Nat} {x : Bool} {e : Entry} {l : Leaf} (h : tab[i]? = some e) (hk : e.ct = .conj a b x)
      (ha : Alt tab a l) : Alt tab i l
  | right {i a b : Nat} {x : Bool} {e : Entry} {l : Leaf} (h : tab[i]? = some e) (hk : e.ct = .conj a b x)
      (hb : Alt tab b l) : Alt tab i l

/-- the type named: any type name that stands for the boolean type or for `void *` is replaced -/
def Stands (nm : Names) (tab : List Entry) (c d : Nat) : Prop :=
  (d = bool ∧ ∃ e u, tab[c]? = some e ∧ e.ct = .user u ∧ nm.isBool u = true)
  ∨ (d = voidPtr ∧ ∃ e u, tab[c]? = some e ∧ e.ct = .user u ∧ nm.isBool u = false ∧ nm.isVoidPtr u = true)
  ∨ (d = c ∧ ∀ e u, tab[c]? = some e → e.ct = .user u → nm.isBool u = false ∧ nm.isVoidPtr u = false)

end Splint.TypeTable.Spec
