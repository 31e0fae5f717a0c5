import Verif.Model.Destroyed
import Verif.Spec.FinalScope
/-! The parts of storage that have to be released with it. -/
namespace Splint.Destroyed.Spec
open FinalScope.Spec (ownKind)

/-- Storage that is there, and that nothing else holds. -/
def Held (p : Part) : Prop :=
  p.known = true ∧ p.null = false ∧ p.guardNull = false ∧ p.aliases = [] ∧
    p.al ≠ .dependent ∧ p.al ≠ .impDependent ∧ p.al ≠ .shared ∧ p.al ≠ .kept

/-- The reference must release its storage, and it was not released yet. -/
def Unreleased (p : Part) : Prop :=
  ownKind p.al = true ∧ p.shown = false ∧ p.ds ≠ .dead ∧ p.ds ≠ .unuseable ∧ p.ds ≠ .undefined

/-- `q` is a part of `r`. -/
inductive Contains (G : Graph) (r : Nat) : Nat → Prop
  | deref : (G.part r).ty = .ptr ∨ (G.part r).ty = .arr → Contains G r (G.deref r)
  | field {q} : (G.part r).ty = .struct → q ∈ G.fields r → Contains G r q

/-- `q` is a part of `r`, or a part of a part and so on; all between are there, are not released, and need not be released
on their own. -/
inductive Inside (G : Graph) (r : Nat) : Nat → Prop
  | part {q} : Held (G.part r) → Contains G r q → Inside G r q
  | next {q s} : Inside G r q → Held (G.part q) → ownKind (G.part q).al = false → (G.part q).ds ≠ .dead → Contains G q s →
      Inside G r s

/-! ## What is reached -/

/-- only or fresh storage that was not released -/
def Own (p : Part) : Prop :=
  (p.al = .only ∨ p.al = .impOnly ∨ p.al = .fresh) ∧ p.shown = false ∧ p.ds ≠ .dead ∧ p.ds ≠ .unuseable

/-- an array, or what a pointer refers to, of which some elements were defined or released; this is not said of
fields, and with `strictdestroy` makes no difference -/
def Hid (strict field : Bool) (p : Part) : Prop :=
  strict = false ∧ field = false ∧ p.ds = .pDefined ∧ (p.ty = .ptr ∨ p.ty = .arr)

/-- `Path G strict top f h r k h' f' q`: `q` is reached from `r` in `k` steps. `top`: `r` is where it starts; `f`, `f'`: `r`
and `q` are fields; `h`, `h'`: messages are hidden before `r` and `q`. -/
inductive Path (G : Graph) (strict : Bool) : Bool → Bool → Prop → Nat → Nat → Prop → Bool → Nat → Prop
  | here {top f h r} : Path G strict top f h r 0 h f r
  | deref {top f h r k h' f' q} : Held (G.part r) →
      (top = true ∨ ¬ Own (G.part r) ∧ (G.part r).ds ≠ .dead ∧ ((G.part r).ds = .pDefined → (G.part r).derived = true)) →
      ((G.part r).ty = .ptr ∨ (G.part r).ty = .arr ∧
        ((G.part r).derived = true ∨ (G.part r).ds ≠ .unknown ∧ (G.part r).ds ≠ .allocated)) →
      Path G strict false false (h ∨ Hid strict f (G.part r)) (G.deref r) k h' f' q → Path G strict top f h r (k + 1) h' f' q
  | field {top f h r k h' f' q m} : Held (G.part r) →
      (top = true ∨ ¬ Own (G.part r) ∧ (G.part r).ds ≠ .dead ∧ ((G.part r).ds = .pDefined → (G.part r).derived = true)) →
      (G.part r).ty = .struct → m ∈ G.fields r →
      Path G strict false true (h ∨ Hid strict f (G.part r)) m k h' f' q → Path G strict top f h r (k + 1) h' f' q

end Splint.Destroyed.Spec
