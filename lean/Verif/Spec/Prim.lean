import Verif.Model.Prim
/-! Numeric types: their values, and what the flags say about them. -/
namespace Splint.Prim.Spec

/-- The sizes that an implementation of C may have; `any`, `uns` and `sig` are the types that the types
of unknown size (such as `dev_t`, `size_t`, `ssize_t`) stand for. -/
structure Machine where
  charBits : Nat
  shortBits : Nat
  intBits : Nat
  longBits : Nat
  llongBits : Nat
  charSigned : Bool
  floatPrec : Nat
  doublePrec : Nat
  ldoublePrec : Nat
  any : P
  uns : P
  sig : P
  h1 : charBits ≤ shortBits
  h2 : shortBits ≤ intBits
  h3 : intBits ≤ longBits
  h4 : longBits ≤ llongBits
  h5 : floatPrec ≤ doublePrec
  h6 : doublePrec ≤ ldoublePrec

/-- Values: integers, and real numbers by the precision that they need. -/
inductive Value where
  | int (z : Int) | real (prec : Nat)

def signedRange (bits : Nat) (z : Int) : Prop := - 2 ^ bits ≤ 2 * z ∧ 2 * z < 2 ^ bits
def unsignedRange (bits : Nat) (z : Int) : Prop := 0 ≤ z ∧ z < 2 ^ bits

/-- the type that is meant -/
def Machine.concrete (M : Machine) : P → P
  | .anyIntegral => M.any | .unsignedIntegral => M.uns | .signedIntegral => M.sig
  | c => c

/-- The values of a type. -/
def Machine.holds (M : Machine) (c : P) : Value → Prop
  | .int z =>
    match M.concrete c with
    | .char => if M.charSigned then signedRange M.charBits z else unsignedRange M.charBits z
    | .uchar => unsignedRange M.charBits z
    | .sint => signedRange M.shortBits z
    | .usint => unsignedRange M.shortBits z
    | .int => signedRange M.intBits z
    | .uint => unsignedRange M.intBits z
    | .lint => signedRange M.longBits z
    | .ulint => unsignedRange M.longBits z
    | .llint => signedRange M.llongBits z
    | .ullint => unsignedRange M.llongBits z
    | _ => False
  | .real k =>
    match M.concrete c with
    | .float => k ≤ M.floatPrec
    | .double => k ≤ M.doublePrec
    | .ldouble => k ≤ M.ldoublePrec
    | _ => False

/-- The flags `longintegral` and so on say what the types of unknown size are. -/
def Machine.agrees (M : Machine) (f : Flags) : Prop :=
  (f.longIntegral = true → M.any = .lint)
  ∧ (f.longUnsignedIntegral = true → f.longIntegral = false → M.any = .ulint)
  ∧ (f.longUnsignedUnsignedIntegral = true → M.uns = .ulint)
  ∧ (f.longSignedIntegral = true → M.sig = .lint)

/-- None of the flags that make different types equivalent is on. -/
def strict (f : Flags) : Prop :=
  f.matchAnyIntegral = false ∧ f.ignoreQuals = false ∧ f.ignoreSigns = false ∧ f.relaxTypes = false
  ∧ f.floatDouble = false ∧ f.charInt = false ∧ f.shortInt = false ∧ f.longInt = false

/-- a type of unknown size -/
def integral (c : P) : Prop := c = .anyIntegral ∨ c = .unsignedIntegral ∨ c = .signedIntegral

instance (c : P) : Decidable (integral c) := by unfold integral; infer_instance

inductive Kind where
  | char | int | real | other
  deriving DecidableEq

def kind : P → Kind
  | .uchar | .char => .char
  | .int | .uint | .sint | .usint | .lint | .ulint | .llint | .ullint => .int
  | .float | .double | .ldouble => .real
  | _ => .other

def unsigned : P → Bool
  | .uchar | .uint | .usint | .ulint | .ullint => true
  | _ => false

def rank : P → Nat
  | .uchar | .char => 0
  | .sint | .usint => 1
  | .int | .uint => 2
  | .lint | .ulint => 3
  | .llint | .ullint => 4
  | .float => 5
  | .double => 6
  | .ldouble => 7
  | _ => 8

/-- The pairs that flags make equivalent, as documented (src/flags.def:3810-3922). -/
inductive Pair (f : Flags) : P → P → Prop where
  | charInt : f.charInt = true → Pair f .char .int
  | shortInt : f.shortInt = true → Pair f .sint .int
  | longInt : f.longInt = true → Pair f .lint .int
  | floatDouble : f.floatDouble = true → Pair f .float .double
  | signs (c d : P) : f.ignoreSigns = true → kind c ≠ .other → kind c = kind d → rank c = rank d → Pair f c d
  | quals (c d : P) : f.ignoreQuals = true → kind c ≠ .other → kind c = kind d → Pair f c d
  | types (c d : P) : f.relaxTypes = true → kind c = .int ∨ kind c = .real → kind d = .int ∨ kind d = .real →
      Pair f c d
  | any (c d : P) : f.matchAnyIntegral = true → integral c → kind d = .int → Pair f c d

/-- The ranks that may be taken for each other in a pointer. -/
def sameRank (f : Flags) (c1 c2 : P) : Prop :=
  rank c1 = rank c2
  ∨ (f.floatDouble = true ∧ rank c1 ∈ [5, 6] ∧ rank c2 ∈ [5, 6])
  ∨ (f.shortInt = true ∧ rank c1 ∈ [1, 2] ∧ rank c2 ∈ [1, 2])
  ∨ (f.longInt = true ∧ rank c1 ∈ [2, 3] ∧ rank c2 ∈ [2, 3])
  ∨ (f.shortInt = true ∧ f.longInt = true ∧ rank c1 ∈ [1, 2, 3] ∧ rank c2 ∈ [1, 2, 3])

/-- What the flags may allow to be assigned to (or, for `deep`, pointed at as) `c1`. -/
def allowed (f : Flags) (deep : Bool) (c1 c2 : P) : Prop :=
  c1 = c2
  ∨ (f.relaxTypes = true ∧ isNumeric f c1 = true ∧ isNumeric f c2 = true)
  ∨ (f.charInt = true ∧ (kind c1 = .char ∧ kind c2 = .int ∨ kind c1 = .int ∧ kind c2 = .char))
  ∨ (kind c1 = kind c2 ∧ kind c1 ≠ .other
      ∧ (f.ignoreQuals = true
        ∨ ((unsigned c1 = unsigned c2 ∨ f.ignoreSigns = true)
          ∧ (sameRank f c1 c2 ∨ (deep = false ∧ f.relaxQuals = true ∧ rank c2 ≤ rank c1)))))

end Splint.Prim.Spec
