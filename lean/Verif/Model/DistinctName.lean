import Verif.Model.FlagTable
/-!
# Names that are not distinguishable

Model of `lookLike` and `cstring_genericEqual` (src/cstring.c:303-396), `cstring_equalLen`,
`cstring_equalCaseInsensitive`, `cstring_equalLenCaseInsensitive` (416-438), `checkDistinctExternalName`,
`checkDistinctInternalName` and `usymtab_checkDistinctName` (src/usymtab.c:6080-6411).

Names are defined strings, given without the terminating NUL.  Two names at the same address are not told
apart from two equal ones (`cstring_genericEqual` answers the same for both, `genericEqual_self`).
What `optgenerror` answers (whether the message is shown) is a function of the entry reported against.
-/
namespace Splint.Distinct

/-- `toupper` of a character in the C locale. -/
def upper (c : Char) : Nat := if 97 ≤ c.toNat ∧ c.toNat ≤ 122 then c.toNat - 32 else c.toNat

/-- cstring.c:303-325. -/
def lookLike (c : Char) : Char :=
  if c = 'I' ∨ c = 'l' then '1'
  else if c = 'O' ∨ c = 'o' then '0'
  else if c = 'Z' then '2'
  else if c = 'S' then '5'
  else c

/-- `cmpcode`, cstring.h. -/
inductive Cmp
  | distinct | same | case_ | lookalike
  deriving DecidableEq, Repr

/-- cstring.c:379-393. -/
def verdict (dc dl : Bool) : Cmp := if dc then .case_ else if dl then .lookalike else .same

/-- The loop of `cstring_genericEqual`, cstring.c:345-377.  If `t` has ended, its NUL is equal to no
character of `s`, has no other case and looks like no other character. -/
def cmpLoop (n : Nat) (ci la : Bool) : List Char → List Char → Nat → Bool → Bool → Cmp
  | [], [], _, dc, dl => verdict dc dl
  | [], _ :: _, _, _, _ => .distinct
  | c :: s, t, i, dc, dl =>
    if 0 < n ∧ n ≤ i then verdict dc dl
    else match t with
      | [] => .distinct
      | d :: t =>
        if d = c then cmpLoop n ci la s t (i + 1) dc dl
        else if ci = true ∧ upper d = upper c then cmpLoop n ci la s t (i + 1) true dl
        else if la = true ∧ lookLike d = lookLike c then cmpLoop n ci la s t (i + 1) dc true
        else .distinct

/-- cstring.c:327-396. -/
def genericEqual (s t : List Char) (n : Nat) (ci la : Bool) : Cmp := cmpLoop n ci la s t 0 false false

/-- `strncmp (s, t, n) == 0`. -/
def strncmpEq : List Char → List Char → Nat → Bool
  | _, _, 0 => true
  | [], [], _ => true
  | a :: s, b :: t, n + 1 => decide (a = b) && strncmpEq s t n
  | _, _, _ => false

/-- cstring.c:424-430. -/
def equalCI (s t : List Char) : Bool := decide (genericEqual s t 0 true false ≠ .distinct)

/-- cstring.c:432-438. -/
def equalLenCI (s t : List Char) (n : Nat) : Bool := decide (genericEqual s t n true false ≠ .distinct)

/-- A uentry: its address, its `uname`, and whether it is a tag. -/
structure Ent where
  addr : Nat
  raw : List Char
  tag : Bool
  deriving DecidableEq, Repr

/-- The texts of the messages, with the number of characters they speak of. -/
inductive DMsg
  | firstChars (n : Nat)
  | ignoringCase
  | firstCharsIgnoringCase (n : Nat)
  | lookalikes
  | firstCharsLookalikes (n : Nat)
  deriving DecidableEq, Repr

/-- usymtab.c:6092-6102, 6250-6253: the tag marker doesn't count. -/
def limit (n : Nat) (e : Ent) : Nat := if n ≠ 0 ∧ e.tag = true then n + 1 else n

/-- What `checkDistinctExternalName` finds for one entry, usymtab.c:6111-6221. -/
def extMatch (n : Nat) (ci : Bool) (e oe : Ent) : Option DMsg :=
  if n = 0 then
    if equalCI oe.raw e.raw then some .ignoringCase else none
  else if ci then
    if equalLenCI oe.raw e.raw n then
      if strncmpEq oe.raw e.raw n then some (.firstChars n) else some (.firstCharsIgnoringCase n)
    else none
  else if strncmpEq oe.raw e.raw n then some (.firstChars n)
  else none

/-- The loop over the global entries, usymtab.c:6104-6222: the message shown, if any, and whether further
ones are left out. -/
def extLoop (m : Ent → Option DMsg) (shown : Ent → Bool) (e : Ent) :
    List Ent → Option (Ent × DMsg) → Option (Ent × DMsg) × Bool
  | [], got => (got, false)
  | oe :: l, got =>
    if oe.addr = e.addr then extLoop m shown e l got
    else match m oe with
      | none => extLoop m shown e l got
      | some k =>
        if got.isSome then (got, true)
        else if shown oe then extLoop m shown e l (some (oe, k))
        else extLoop m shown e l none

/-- usymtab.c:6080-6239. -/
def checkExternal (n : Nat) (ci : Bool) (shown : Ent → Bool) (glob : List Ent) (e : Ent) :
    Option (Ent × DMsg) × Bool :=
  extLoop (extMatch (limit n e) ci e) shown e glob none

/-- What `checkDistinctInternalName` finds for one entry, usymtab.c:6265-6368. -/
def intMatch (n : Nat) (ci la : Bool) (e oe : Ent) : Option DMsg :=
  match genericEqual e.raw oe.raw n ci la with
  | .distinct => none
  | .same => if e.raw = oe.raw then none else some (.firstChars n)
  | .case_ => if n = 0 ∨ e.raw.length ≤ n then some .ignoringCase else some (.firstCharsIgnoringCase n)
  | .lookalike => if n = 0 ∨ e.raw.length ≤ n then some .lookalikes else some (.firstCharsLookalikes n)

/-- The loop over the entries of one scope. -/
def intLoop (m : Ent → Option DMsg) (shown : Ent → Bool) (e : Ent) : List Ent → Option (Ent × DMsg)
  | [] => none
  | oe :: l =>
    if oe.addr = e.addr then intLoop m shown e l
    else match m oe with
      | none => intLoop m shown e l
      | some k => if shown oe then some (oe, k) else intLoop m shown e l

/-- The loop over the scopes, from the innermost. -/
def intScopes (m : Ent → Option DMsg) (shown : Ent → Bool) (e : Ent) : List (List Ent) → Option (Ent × DMsg)
  | [] => none
  | l :: ls =>
    match intLoop m shown e l with
    | some r => some r
    | none => intScopes m shown e ls

/-- usymtab.c:6241-6377. -/
def checkInternal (n : Nat) (ci la : Bool) (shown : Ent → Bool) (scopes : List (List Ent)) (e : Ent) :
    Option (Ent × DMsg) :=
  intScopes (intMatch (limit n e) ci la e) shown e scopes

/-- The options. -/
structure Opts where
  external : Bool
  extLen : Nat
  extCI : Bool
  internal_ : Bool
  intLen : Nat
  intCI : Bool
  intLA : Bool

/-- usymtab.c:6379-6406, for an entry that is not built in: the messages about external and about internal
names that are shown (`uentry_setHasNameError` is called if there is one). -/
def checkDistinct (o : Opts) (shownE shownI : Ent → Bool) (scopes : List (List Ent)) (glob : List Ent)
    (atGlob : Bool) (e : Ent) : Option (Ent × DMsg) × Option (Ent × DMsg) :=
  let x := if atGlob && o.external then (checkExternal o.extLen o.extCI shownE glob e).1 else none
  let i := if x.isNone && o.internal_ then checkInternal o.intLen o.intCI o.intLA shownI scopes e else none
  (x, i)

end Splint.Distinct
