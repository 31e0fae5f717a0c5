import Verif.Model.Format
/-! The formats of `printf` and `scanf` (C99 7.19.6.1, 7.19.6.2). -/
namespace Splint.Format.Spec
open TypeSpec

/-- the modifiers of length -/
inductive Len where
  | no | hh | h | l | ll | L | j | z | t
  deriving DecidableEq, Repr

def Len.text : Len → List Char
  | .no => [] | .hh => ['h', 'h'] | .h => ['h'] | .l => ['l'] | .ll => ['l', 'l'] | .L => ['L']
  | .j => ['j'] | .z => ['z'] | .t => ['t']

/-- the letters that have meaning, by kind -/
def signedConv : List Char := ['d', 'i']
def unsignedConv : List Char := ['o', 'u', 'x', 'X']
def floatConv : List Char := ['f', 'F', 'e', 'E', 'g', 'G', 'a', 'A']

/-- the signed and the unsigned type of a length, if the type has a name that splint knows (those of
`j`, `z` and `t` are defined by the library) -/
def signedTy : Len → Option Ty
  | .no => some .int | .hh => some .char | .h => some .sint | .l => some .lint | .ll => some .llint
  | _ => none

def unsignedTy : Len → Option Ty
  | .no => some .uint | .hh => some .uchar | .h => some .usint | .l => some .ulint | .ll => some .ullint
  | _ => none

/-- What `printf` wants for a conversion. The argument of `hh` and `h` is promoted, but was of the
smaller type. -/
def printfWants (n : Len) (c : Char) : Option Exp :=
  if c ∈ signedConv then (signedTy n).map .val
  else if c ∈ unsignedConv then (unsignedTy n).map .val
  else if c ∈ floatConv then
    if n = .no ∨ n = .l then some (.val .double) else if n = .L then some (.val .ldouble) else none
  else if c = 'n' then (signedTy n).map .ptr
  else if n ≠ .no then none
  else if c = 'c' then some .anyChar
  else if c = 's' then some .string
  else if c = 'p' then some .voidPtr
  else none

/-- What `scanf` wants. -/
def scanfWants (n : Len) (c : Char) : Option Exp :=
  if c ∈ signedConv ∨ c = 'n' then (signedTy n).map .ptr
  else if c ∈ unsignedConv then (unsignedTy n).map .ptr
  else if c ∈ floatConv then
    if n = .no then some (.ptr .float) else if n = .l then some (.ptr .double)
    else if n = .L then some (.ptr .ldouble) else none
  else if n ≠ .no then none
  else if c = 'c' then some .ptrAnyChar
  else if c = 's' then some .string
  else if c = 'p' then some .voidPtr
  else none

/-- digits, as characters -/
def digits : List Char := ['0', '1', '2', '3', '4', '5', '6', '7', '8', '9']

/-- a number or an asterisk -/
inductive Num where
  | digits (ds : List Char) | star
  deriving DecidableEq, Repr

def Num.text : Num → List Char
  | .digits ds => ds | .star => ['*']

def Num.ok : Num → Prop
  | .digits ds => ∀ c ∈ ds, c ∈ Spec.digits
  | .star => True

def Num.args : Num → List Exp
  | .digits _ => [] | .star => [.val .int]

/-- a part of a format of `printf` -/
inductive Part where
  | char (c : Char)
  | percent
  | conv (flags : List Char) (width : Num) (prec : Option Num) (len : Len) (c : Char)

def Part.text : Part → List Char
  | .char c => [c]
  | .percent => ['%', '%']
  | .conv fl w p n c =>
    '%' :: fl ++ w.text ++ (match p with | some p => '.' :: p.text | none => []) ++ n.text ++ [c]

/-- what is allowed: flags and width (which does not begin with 0), precision, a conversion with meaning -/
def Part.ok : Part → Prop
  | .char c => c ≠ '%'
  | .percent => True
  | .conv fl w p n c =>
    (∀ x ∈ fl, x ∈ ['-', '+', ' ', '#', '0']) ∧ w.ok ∧ (∀ ds, w = .digits ds → ds.head? ≠ some '0')
    ∧ (∀ p', p = some p' → p'.ok) ∧ (printfWants n c).isSome

/-- the types of the arguments -/
def Part.wants : Part → List Exp
  | .char _ => []
  | .percent => []
  | .conv _ w p n c =>
    w.args ++ (match p with | some p => p.args | none => []) ++ (printfWants n c).toList

def text (ps : List Part) : List Char := ps.flatMap Part.text
def wants (ps : List Part) : List Exp := ps.flatMap Part.wants

/-- arguments in order: each is compared with what is wanted -/
def checks : Nat → List Exp → List Event
  | _, [] => []
  | i, e :: es => .arg i e :: checks (i + 1) es

/-- `n` arguments, all of them expressions that were understood -/
def good (n : Nat) : List Bool := List.replicate n false

/-- What should happen with `n` arguments: each is compared with the type that is wanted, and a difference
in number is reported. -/
def expected (n : Nat) (ws : List Exp) : List Event :=
  checks 0 (ws.take n) ++ (List.range' n (ws.length - n)).map .missing
    ++ if ws.length < n then [.extra ws.length n] else []

/-- a part of a format of `scanf` -/
inductive SPart where
  | char (c : Char)
  | percent
  | conv (star : Bool) (width : List Char) (len : Len) (c : Char)
  | set (star : Bool) (width : List Char) (neg : Bool) (close : Bool) (cs : List Char)

def SPart.text : SPart → List Char
  | .char c => [c]
  | .percent => ['%', '%']
  | .conv st w n c => '%' :: (if st then ['*'] else []) ++ w ++ n.text ++ [c]
  | .set st w neg cl cs =>
    '%' :: (if st then ['*'] else []) ++ w ++ '[' :: (if neg then ['^'] else [])
      ++ (if cl then [']'] else []) ++ cs ++ [']']

def SPart.ok : SPart → Prop
  | .char c => c ≠ '%'
  | .percent => True
  | .conv _ w n c => (∀ c ∈ w, c ∈ digits) ∧ (scanfWants n c).isSome
  | .set _ w neg cl cs => (∀ c ∈ w, c ∈ digits) ∧ ']' ∉ cs ∧ (cl = true ∨ cs ≠ [])
    ∧ (neg = false → cl = false → cs.head? ≠ some '^')

def SPart.wants : SPart → List Exp
  | .char _ => []
  | .percent => []
  | .conv st _ n c => if st then [] else (scanfWants n c).toList
  | .set st _ _ _ _ => if st then [] else [.string]

def stext (ps : List SPart) : List Char := ps.flatMap SPart.text
def swants (ps : List SPart) : List Exp := ps.flatMap SPart.wants

end Splint.Format.Spec

namespace Splint.Format.Spec
open TypeSpec

/-- The lengths and letters that the code knows: not `hh`, `j`, `z`, `t`; not `l` for floating numbers; not
`F`, `a`, `A`; `n` only without length. -/
def printfKnown (n : Len) (c : Char) : Prop :=
  (c ∈ signedConv ++ unsignedConv ∧ n ∈ [.no, .h, .l, .ll])
  ∨ (c ∈ ['f', 'e', 'E', 'g', 'G'] ∧ n ∈ [.no, .L])
  ∨ (c ∈ ['n', 'c', 's', 'p'] ∧ n = .no)

instance (n : Len) (c : Char) : Decidable (printfKnown n c) := by unfold printfKnown; infer_instance

/-- The same for `scanf`: `l` for floating numbers is known, and `p` is not. -/
def scanfKnown (n : Len) (c : Char) : Prop :=
  (c ∈ signedConv ++ unsignedConv ∧ n ∈ [.no, .h, .l, .ll])
  ∨ (c ∈ ['f', 'e', 'E', 'g', 'G'] ∧ n ∈ [.no, .l, .L])
  ∨ (c ∈ ['n', 'c', 's'] ∧ n = .no)

instance (n : Len) (c : Char) : Decidable (scanfKnown n c) := by unfold scanfKnown; infer_instance

/-- Parts that the code knows: the flag 0 comes after the others, and a known conversion. -/
def Part.known : Part → Prop
  | .conv fl _ _ n c =>
    (∃ a z, fl = a ++ z ∧ (∀ x ∈ a, x ≠ '0') ∧ ∀ x ∈ z, x = '0') ∧ printfKnown n c
  | _ => True

/-- No part has an asterisk. -/
def Part.starless : Part → Prop
  | .conv _ w p _ _ => w ≠ .star ∧ p ≠ some .star
  | _ => True

def SPart.known : SPart → Prop
  | .conv star _ n c => star = false → scanfKnown n c
  | .set _ _ _ _ cs => '%' ∉ cs
  | _ => True

end Splint.Format.Spec
