import Verif.Tactics
/-!
# Integer sets

Model of src/intSet.c.  `mem` is the whole allocation of `elements`, so that reads behind the
live entries are visible: inside the allocation they give whatever is there (the contents of a
fresh allocation are a parameter `g`), outside it the outcome is `none`.
-/
namespace Splint

/-- `intSet`, Headers/intSet.h:16-21. -/
structure IntSet where
  mem : List Int
  entries : Nat
  nspace : Int
  deriving DecidableEq, Repr

namespace IntSet

/-- `intSetBASESIZE`, Headers/intSet.h:53, Headers/system_constants.h:83. -/
def baseSize : Nat := 4

/-- Contents of a fresh allocation of `n` integers. -/
def fresh (g : Nat → Int) (n : Nat) : List Int := (List.range n).map g

/-- `intSet_new`, intSet.c:37-47. -/
def new (g : Nat → Int) : IntSet := ⟨fresh g baseSize, 0, baseSize⟩

/-- `intSet_grow`, intSet.c:49-66. -/
def grow (g : Nat → Int) (s : IntSet) : IntSet :=
  { s with nspace := baseSize, mem := s.mem.take s.entries ++ fresh g baseSize }

/-- The live elements. -/
def elems (s : IntSet) : List Int := s.mem.take s.entries

/-- The search loop of `intSet_insert`, intSet.c:80-84. -/
def scan (el : Int) : List Int → Nat
  | [] => 0
  | x :: xs => if x ≥ el then 0 else scan el xs + 1

/-- Lines intSet.c:92-113: growing and storing; the copying loop shifts the elements from `i` on
up by one.  `none` is a write outside the allocation. -/
def store (g : Nat → Int) (s : IntSet) (i : Nat) (el : Int) : Option IntSet :=
  let s := if s.nspace ≤ 0 then s.grow g else s
  if s.entries < s.mem.length then
    let live := s.mem.take s.entries
    let rest := s.mem.drop (s.entries + 1)
    let mem := if (i : Int) = s.entries - 1 then live ++ el :: rest
      else live.take i ++ el :: (live.drop i ++ rest)
    some ⟨mem, s.entries + 1, s.nspace - 1⟩
  else none

/-- `intSet_insert`, intSet.c:75-117. -/
def insert (g : Nat → Int) (s : IntSet) (el : Int) : Option (Bool × IntSet) :=
  let i := scan el s.elems
  if s.entries > 0 then
    match s.mem[i]? with
    | none => none
    | some v => if v = el then some (false, s) else (s.store g i el).map (true, ·)
  else (s.store g i el).map (true, ·)

/-- The loop of `intSet_member`, intSet.c:119-136. -/
def memberLoop (el : Int) : List Int → Bool
  | [] => false
  | x :: xs => if el = x then true else if el > x then false else memberLoop el xs

/-- `intSet_member`, intSet.c:119-136. -/
def member (s : IntSet) (el : Int) : Bool := memberLoop el s.elems

/-- `intSet_size`, Headers/intSet.h:43. -/
def size (s : IntSet) : Nat := s.entries

/-- Several insertions, from left to right. -/
def insertAll (g : Nat → Int) : List Int → IntSet → Option IntSet
  | [], s => some s
  | x :: xs, s => (s.insert g x).bind fun r => insertAll g xs r.2

/-- The loop of `intSet_unparseText`, intSet.c:138-157; `i` is the index of the next element. -/
def textLoop (last : Int) : Nat → List Int → String → String
  | _, [], st => st
  | i, x :: xs, st => textLoop last (i + 1) xs
      (if i = 0 then toString x
       else if (i : Int) = last then st ++ " or " ++ toString x
       else st ++ ", " ++ toString x)

/-- `intSet_unparseText`, intSet.c:138-157. -/
def unparseText (s : IntSet) : String := textLoop ((s.entries : Int) - 1) 0 s.elems ""

/-- The number printed as "(n others)" and the elements listed by the loop of
`context_setModeAux`, context.c:992-1011: the numbers of the elements listed (all of them, or
five) and of those left out. -/
def listed (s : IntSet) : Nat → List Int → List Int × Option Nat
  | _, [] => ([], none)
  | num, x :: xs =>
    if num + 1 > 4 && s.size > 6 then ([x], some (s.size - (num + 1)))
    else let r := listed s (num + 1) xs; (x :: r.1, r.2)

end IntSet
end Splint
