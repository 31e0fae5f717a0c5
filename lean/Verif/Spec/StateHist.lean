import Verif.Model.StateHist
/-!
# What the history of a state must satisfy
-/
namespace Splint.StateHist

/-- The history `l` is stored at `p`, in the cells `is`. -/
inductive Stored (h : Heap) : Option Nat → List Nat → List Change → Prop
  | nil : Stored h none [] []
  | cons {a : Nat} {is : List Nat} {l : List Change} : Stored h (h a).previous is l → a ∉ is →
      Stored h (some a) (a :: is) ((h a).val :: l)

/-- in reverse order of the locations -/
def Ordered (l : List Change) : Prop := l.Pairwise fun a b => before a b = false

/-- The full property: with `showdeephistory`, all the changes recorded are shown, in reverse order of their locations; otherwise
the last of these; and the history is the same afterwards. -/
def C145_full : Prop :=
  ∀ (h : Heap) (p : Option Nat) (is : List Nat) (l : List Change), Stored h p is l →
    ∀ deep fuel h' shown, display deep fuel h p = some (h', shown) →
      (∃ s, s.Perm l ∧ Ordered s ∧ shown = if deep then s else s.take 1) ∧ ∃ is', Stored h' p is' l

/-- the order of `stateInfo_sort`: each not before the next -/
def InOrder : List Change → Prop
  | [] => True
  | [_] => True
  | a :: b :: l => before a b = false ∧ InOrder (b :: l)

/-- the histories that an old and a new one may be merged to: the value of the new one -/
def C146_full : Prop :=
  ∀ old new : List Change, update old new = new

end Splint.StateHist
