/-!
# String comparison (`src/cstring.c`)

A defined `cstring` is a list of bytes without the terminating NUL; where an undefined
`cstring` (NULL) is possible and observable it is `none`.
-/
namespace Splint

/-- Bytes of a C string (no NUL inside). -/
abbrev Bytes := List UInt8

/-- The C library's `strcmp`, restricted to the sign of its answer: bytes are compared as
`unsigned char`, a proper prefix is smaller. -/
def strcmp : Bytes → Bytes → Int
  | [], [] => 0
  | [], _ :: _ => -1
  | _ :: _, [] => 1
  | a :: as, b :: bs => if a < b then -1 else if b < a then 1 else strcmp as bs

/-- `cstring_isEmpty`: `cstring_length (s) == 0`, Headers/cstring.h. -/
def cstring_isEmpty (c : Option Bytes) : Bool :=
  match c with
  | none => true
  | some s => s.isEmpty

/-- `cstring_equal`, cstring.c:408-414. -/
def cstring_equal (c1 c2 : Option Bytes) : Bool :=
  match c1, c2 with
  | none, _ => cstring_isEmpty c2
  | _, none => cstring_isEmpty c1
  | some s, some t => strcmp s t == 0

/-- `cstring_compare`, cstring.c:469-505. -/
def cstring_compare (c1 c2 : Option Bytes) : Int :=
  match c1, c2 with
  | none, _ => if cstring_isEmpty c2 then 0 else 1
  | _, none => if cstring_isEmpty c1 then 0 else -1
  | some s, some t => strcmp s t

end Splint
