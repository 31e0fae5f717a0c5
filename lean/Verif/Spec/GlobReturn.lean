import Verif.Model.GlobReturn
/-!
# The state that globals should be in when a function returns
-/
namespace Splint.GlobReturnSpec
open Splint.GlobReturn

/-- the global that something is about -/
def Ev.about : Ev → Nat
  | .notReleased g | .undef g | .references g _ | .null g | .destroyed g | .transfer g _ => g

/-- A global that the function does not release is defined, its storage is its own, and it is not null unless it is
declared so. -/
structure Good (x : Glob) : Prop where
  defd : x.st ≠ .undefined
  own : x.st ≠ .dead ∧ x.kept = false
  null : x.ptr = true → x.mayNull = true → x.declNull = true

/-- Messages, and not checks that are made elsewhere. -/
def Message : Ev → Prop
  | .destroyed _ | .transfer _ _ => False
  | _ => True

/-- A global has something to do with the function. -/
def Concerns (sglobs : List Ref) (uglobs : List Nat) (g : Nat) : Prop := (∃ r ∈ sglobs, r.g = g) ∨ g ∈ uglobs

end Splint.GlobReturnSpec
