import Verif.Model.Ynm
import Verif.Model.Reader
/-!
# Constant values and three-valued answers

Model of src/multiVal.c:100-125 (`multiVal_invert`), 205-265 (`multiVal_dump`,
`multiVal_undump`), 267-425 (`multiVal_compare`, `multiVal_add`, `multiVal_subtract`,
`multiVal_multiply`, `multiVal_divide`), src/ynm.c:31-52, src/Headers/ynm.h:24-25,
src/cstring.c:469-503 (`cstring_compare`), and of the constant record that src/uentry.c:5270-5292
writes and src/uentry.c:5010-5032 reads.

`long` has 64 bits, `int` 32 and `char` is signed with 8 bits. Floating point is a parameter: a
type `D` with the machine's operations and the two conversions the library format uses (`%f` of a
`float`, and `strtod`). The outcome `none` is undefined behaviour, an assertion failure, or an
internal bug report.
-/
namespace Splint
open Reader

/-- The machine's floating point numbers. -/
structure Floats where
  D : Type
  add : D → D → D
  sub : D → D → D
  mul : D → D → D
  neg : D → D
  /-- `x < y` -/
  lt : D → D → Bool
  /-- `%f` of the value converted to `float` -/
  text : D → List Char
  /-- `strtod` -/
  read : List Char → D × List Char

/-- A `cstring`: NULL or characters. -/
abbrev CStr := Option (List Char)

/-- `multiVal`; `unknown` is the NULL pointer. -/
inductive MultiVal (F : Floats) where
  | unknown
  | long (x : Int)
  | char (x : Int)
  | double (x : F.D)
  | str (s : CStr)

/-- `ynm_unparseCode`, ynm.h:24-25. -/
def Ynm.code : Ynm → Char
  | .no => '-'
  | .yes => '+'
  | .maybe => '='

/-- `ynm_fromCodeChar`, ynm.c:31-40. -/
def Ynm.ofCode (c : Char) : Option Ynm :=
  if c = '+' then some .yes
  else if c = '-' then some .no
  else if c = '=' then some .maybe
  else none

/-- `ynm_compare`, ynm.c:42-52. -/
def Ynm.compare (x y : Ynm) : Int :=
  match x with
  | .yes => if y = .yes then 0 else 1
  | .no => if y = .no then 0 else -1
  | .maybe => if y = .maybe then 0 else 1

/-- `generic_compare`, misc.h:43. -/
def genericCompare (gt lt : Bool) : Int := if gt then 1 else if lt then -1 else 0

/-- `strcmp`, as a sign, on the characters of a constant. -/
def charCmp : List Char → List Char → Int
  | [], [] => 0
  | [], _ :: _ => -1
  | _ :: _, [] => 1
  | a :: s, b :: t =>
    if a.toNat < b.toNat then -1 else if b.toNat < a.toNat then 1 else charCmp s t

/-- `cstring_compare`, cstring.c:469-503 (comparing a string with itself by address gives the same
answer as comparing the characters). -/
def cstrCompare (a b : CStr) : Int :=
  match a, b with
  | none, none => 0
  | none, some t => if t = [] then 0 else 1
  | some s, none => if s = [] then 0 else -1
  | some s, some t => charCmp s t

/-- Does the value fit a `long`? -/
def inLong (x : Int) : Bool := -9223372036854775808 ≤ x && x ≤ 9223372036854775807

/-- Conversion to `char`. -/
def toChar (x : Int) : Int := (x + 128) % 256 - 128

/-- Conversion of a `long` to `int`. -/
def toInt (x : Int) : Int := (x + 2147483648) % 4294967296 - 2147483648

namespace MultiVal
variable {F : Floats}

/-- The enumerator of the kind: MVLONG, MVCHAR, MVDOUBLE, MVSTRING (multiVal.h:12). -/
def kind : MultiVal F → Nat
  | unknown => 9
  | long _ => 0
  | char _ => 1
  | double _ => 2
  | str _ => 3

/-- `multiVal_makeInt` of a `long` computation; overflow is undefined behaviour. -/
def mkLong (x : Int) : Option (MultiVal F) := if inLong x then some (long x) else none

/-- `multiVal_makeChar ((char) x)`. -/
def mkChar (x : Int) : Option (MultiVal F) := some (char (toChar x))

/-- `multiVal_invert`, multiVal.c:100-123. -/
def invert : MultiVal F → Option (MultiVal F)
  | unknown => some unknown
  | long x => mkLong (-1 * x)
  | char _ => none
  | double x => some (double (F.neg x))
  | str _ => none

/-- `multiVal_add`, multiVal.c:293-309. -/
def add : MultiVal F → MultiVal F → Option (MultiVal F)
  | long x, long y => mkLong (x + y)
  | char x, char y => mkChar (x + y)
  | double x, double y => some (double (F.add x y))
  | _, _ => some unknown

/-- `multiVal_subtract`, multiVal.c:311-327. -/
def subtract : MultiVal F → MultiVal F → Option (MultiVal F)
  | long x, long y => mkLong (x - y)
  | char x, char y => mkChar (x - y)
  | double x, double y => some (double (F.sub x y))
  | _, _ => some unknown

/-- `multiVal_multiply`, multiVal.c:329-345. -/
def multiply : MultiVal F → MultiVal F → Option (MultiVal F)
  | long x, long y => mkLong (x * y)
  | char x, char y => mkChar (x * y)
  | double x, double y => some (double (F.mul x y))
  | _, _ => some unknown

/-- `multiVal_divide`, multiVal.c:347-381. -/
def divide : MultiVal F → MultiVal F → Option (MultiVal F)
  | long x, long y => if y ≠ 0 then mkLong (x.tdiv y) else some unknown
  | char x, char y => if y ≠ 0 then mkChar (x.tdiv y) else some unknown
  | _, _ => some unknown

/-- `multiVal_compare`, multiVal.c:267-291. -/
def compare : MultiVal F → MultiVal F → Int
  | unknown, unknown => 0
  | unknown, _ => -1
  | _, unknown => -1
  | m1, m2 =>
    if m1.kind ≠ m2.kind then genericCompare (m1.kind > m2.kind) (m1.kind < m2.kind)
    else match m1, m2 with
      | long x, long y => genericCompare (x > y) (x < y)
      | char x, char y => genericCompare (x > y) (x < y)
      | double x, double y => genericCompare (F.lt y x) (F.lt x y)
      | str s, str t => cstrCompare s t
      | _, _ => 0

/-- `multiVal_dump`, multiVal.c:205-225. -/
def dump : MultiVal F → List Char
  | unknown => []
  | long x => 'i' :: intText (toInt x)
  | char x => 'c' :: intText x
  | double x => 'd' :: F.text x
  | str s => 's' :: s.getD []

/-- `multiVal_undump`, multiVal.c:227-263. A string extends to the next `#`; without one the
program reads behind the end of the line. -/
def undump : List Char → Option (MultiVal F × List Char)
  | 'i' :: s => do let (n, s) ← getInt s; some (long n, s)
  | 'c' :: s => do let (n, s) ← getInt s; some (char (toChar n), s)
  | 'd' :: s => let (x, s) := F.read s; some (double x, s)
  | 's' :: s =>
    if '#' ∈ s then
      let t := s.takeWhile (· ≠ '#')
      some (str (if t = [] then none else some t), s.dropWhile (· ≠ '#'))
    else none
  | '@' :: s => some (unknown, '@' :: s)
  | '#' :: s => some (unknown, '#' :: s)
  | _ => none

end MultiVal

/-- A constant's record behind its type: value, access set number, nullability number. -/
structure ConstRec (F : Floats) where
  val : MultiVal F
  access : Nat
  nullst : Int
  name : List Char

/-- NS_UNKNOWN, varKinds.h:49. -/
def nsUnknown : Int := 0

namespace ConstRec
variable {F : Floats}

/-- uentry.c:5270-5292, without the type that comes first. -/
def dump (r : ConstRec F) : List Char :=
  (match r.val with
   | .unknown =>
     if r.access = 0 ∧ r.nullst = nsUnknown then ['$']
     else '@' :: (r.val.dump ++ '@' :: (decimal r.access ++ '@' :: intText r.nullst))
   | _ => '@' :: (r.val.dump ++ '@' :: (decimal r.access ++ '@' :: intText r.nullst)))
  ++ '#' :: r.name

/-- uentry.c:5010-5032, up to making the entry. `nstate_fromInt` (varKinds.c:43-51) accepts the
numbers of NS_ERROR … NS_ABSNULL (varKinds.h:48-60); `entries` is the number of access sets loaded
(`typeIdSet_undump`, typeIdSet.c:274-283), and the name is `reader_getStringWord`. -/
def undump (entries : Nat) (s : List Char) : Option (ConstRec F × List Char) := do
  let (v, a, n, s) ←
    match optCheckChar '$' s with
    | (true, s) => some (MultiVal.unknown, 0, nsUnknown, s)
    | (false, s) => do
      let s ← checkChar '@' s
      let (v, s) ← MultiVal.undump s
      let s ← checkChar '@' s
      let (a, s) ← getInt s
      if ¬ (0 ≤ a ∧ a < entries) then none
      let s ← checkChar '@' s
      let (n, s) ← getInt s
      if ¬ (-1 ≤ n ∧ n ≤ 7) then none
      some (v, a.toNat, n, s)
  let s ← checkChar '#' s
  let (w, s) := getWord s
  some (⟨v, a, n, w.getD []⟩, s)

end ConstRec
end Splint
