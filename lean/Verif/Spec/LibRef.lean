import Verif.Model.LibRef
/-!
Which references a library can hold, and which texts may follow them.
-/
namespace Splint.Lib.Spec
open Reader

/-- The numbers the reader gets right: those that are not negative, and those whose only digit other
than a zero is the first. -/
def Num (n : Int) : Prop :=
  -2 ^ 31 ≤ n ∧ n < 2 ^ 31 ∧ (0 ≤ n ∨ ∃ d k : Nat, d < 10 ∧ n = -(d * 10 ^ k : Nat))

/-- The value `v` of a reference whose last part has the value `w`: it is a good number, and the
part has a value, too. -/
def Value (v : Option Int) (w : Option (Option Int)) : Prop :=
  ∀ x, v = some x → Num x ∧ w ≠ some none

/-- References as the program makes them (no address of a pointer target and no pointer to an
address, no two equal alternatives), of storage that has a name in the library. -/
inductive Good (eqv : Ref → Ref → Bool) : Ref → Prop
  | param {v n} : Value v none → Num n → -1 ≤ n → Good eqv (.param v n)
  | fetch {v i r} : Value v (some r.val) → (∀ x, i = some x → Num x) → Good eqv r →
      Good eqv (.fetch v i r)
  | field {v f r} : Value v (some r.val) → '.' ∉ f → '\n' ∉ f → Good eqv r → Good eqv (.field v f r)
  | ptr {v r} : Value v (some r.val) → Good eqv r → (∀ w q, r ≠ .adr w q) → Good eqv (.ptr v r)
  | adr {v r} : Value v (some r.val) → Good eqv r → (∀ w q, r ≠ .ptr w q) →
      (∀ w q, r ≠ .fetch w (some 0) q) → Good eqv (.adr v r)
  | object {v ct} : Value v none → 0 ≤ ct → ct < 2 ^ 31 → Good eqv (.object v ct)
  | special {v k} : Value v none → 0 ≤ k → k ≤ 3 → Good eqv (.special v k)
  | conj {v a b} : Value v (some b.val) → Good eqv a → Good eqv b → eqv a b = false →
      Good eqv (.conj v a b)
  | glob {v n} : Value v none → 0 ≤ n → n < 2 ^ 31 → Good eqv (.glob v n)
  | unknown {v} : Value v none → Good eqv (.unknown v)
  | result {v ct} : Value v none → 0 ≤ ct → ct < 2 ^ 31 → Good eqv (.result v ct)

/-- A text that does not continue a reference: neither its number nor with a value. -/
def Follows (s : List Char) : Prop :=
  (∀ c cs, s = c :: cs → isDig c = false) ∧ ∀ c cs, s.dropWhile isBlank = c :: cs → c ≠ '='

end Splint.Lib.Spec
