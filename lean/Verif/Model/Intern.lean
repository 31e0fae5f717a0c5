import Verif.Tactics
/-!
The names in specifications: src/lsymbol.c (a number for each name), src/tokentable.c, src/syntable.c,
src/lcltokentable.c and src/lclsyntable.c (tokens and synonyms by the numbers of their names).

Simplifications:
* characters are numbers from 1 to 255; `char` is signed; integers do not overflow, and memory does not
  run out;
* memory that is allocated but not written is `none`; reading it, and every access outside an array, is
  the outcome `none` (names) or `Err.outside` (tables);
* `strcmp` reads the stored name to its end.
-/
namespace Splint.Intern

/-! ## lsymbol.c -/

abbrev Name := List Nat

/-- `StringEntry` (77-81) -/
structure Ent where
  next : Nat
  i : Nat
  deriving DecidableEq, Repr

/-- the variables (90-99).  `FreeEntry` is the length of `ents`, and `MaxChar` that of `chars`. -/
structure St where
  hash : Nat → Nat
  chars : List (Option Nat)
  freeChar : Nat
  ents : List Ent
  maxEntry : Nat

/-- `lsymbol_initMod` (309-338) -/
def init : St := ⟨fun _ => 0, [], 0, [], 0⟩

/-- `INITCHARSTRING`, `DELTACHARSTRING` (lcl_constants.h:31-35) -/
abbrev initChars : Nat := 8192
abbrev deltaChars : Nat := 2

/-- the hash value (119-127) -/
def hashOf (n : Name) : Nat :=
  n.foldl (fun h c => (2 * h + (if c < 128 then c else c + (2 ^ 32 - 256))) % 2 ^ 32) 0 % 1024

/-- the string that begins here -/
def cstr : List (Option Nat) → Option Name
  | [] => none
  | none :: _ => none
  | some 0 :: _ => some []
  | some (c + 1) :: r => (cstr r).map ((c + 1) :: ·)

/-- `AllocChar` (219-252) with `AllocCharSpace` (208-217): where the name begins -/
def allocChar (st : St) (n : Name) : Option (St × Nat) :=
  let size := st.chars.length
  let chars :=
    if st.freeChar + n.length + 1 > size then
      st.chars ++ List.replicate ((if size = 0 then initChars else deltaChars * size) - size) none
    else st.chars
  if st.freeChar + n.length + 1 ≤ chars.length then
    some ({ st with
      chars := chars.take st.freeChar ++ (n.map some ++ [some 0]) ++ chars.drop (st.freeChar + n.length + 1)
      freeChar := st.freeChar + n.length + 1 }, st.freeChar)
  else none

/-- `AllocEntry` (271-306) with `AllocEntrySpace` (254-269).  Entry 0 is not used. -/
def allocEntry (st : St) (n : Name) (h : Nat) : Option (St × Nat) :=
  let st :=
    if st.ents.length = st.maxEntry then
      { st with
        ents := if st.maxEntry = 0 then [⟨0, 0⟩] else st.ents
        maxEntry := if st.maxEntry = 0 then 1024 else 2 * st.maxEntry }
    else st
  let ret := st.ents.length
  if ret < st.maxEntry then
    let next := st.hash h
    (allocChar { st with hash := fun k => if k = h then ret else st.hash k } n).map fun r =>
      ({ r.1 with ents := r.1.ents ++ [⟨next, r.2⟩] }, ret)
  else none

/-- the loop along a chain (151-158): `some none` if the name is not there -/
def find (st : St) (n : Name) : Nat → Nat → Option (Option Nat)
  | 0, _ => none
  | fuel + 1, ss =>
    st.ents[ss]?.bind fun e =>
      (cstr (st.chars.drop e.i)).bind fun s =>
        if s = n then some (some ss)
        else if e.next = 0 then some none
        else find st n fuel e.next

/-- `lsymbol_fromChars` (114-163) -/
def fromChars (st : St) (n : Name) : Option (St × Nat) :=
  if st.hash (hashOf n) = 0 then allocEntry st n (hashOf n)
  else
    (find st n (st.ents.length + 1) (st.hash (hashOf n))).bind fun r =>
      match r with
      | some ss => some (st, ss)
      | none => allocEntry st n (hashOf n)

/-- `lsymbol_toChars` (183-206); `none` for `NULL` -/
def toChars (st : St) (ss : Nat) : Option Name :=
  if ss = 0 then none else st.ents[ss]?.bind fun e => cstr (st.chars.drop e.i)

/-- names looked up one after the other -/
def calls (st : St) : List Name → Option (St × List Nat)
  | [] => some (st, [])
  | n :: ns => (fromChars st n).bind fun r => (calls r.1 ns).map fun q => (q.1, r.2 :: q.2)

/-! ## The tables -/

inductive Err where
  /-- an access outside of an array -/
  | outside
  /-- `llbug`, `llfatalbug`: the program ends -/
  | bug
  deriving DecidableEq, Repr

/-- what a token has of interest here -/
structure Tok where
  code : Nat
  sym : Nat
  raw : Nat
  defined : Bool
  hasSyn : Bool := false
  deriving DecidableEq, Repr

/-- `TokenTable` and `SynTable`; their sizes are the lengths -/
structure Tabs where
  toks : List (Option Tok)
  syn : List Nat
  deriving DecidableEq, Repr

/-- the size after `AllocTokenTable` (tokentable.c:118-159), or `AllocSynTable` (lclsyntable.c:110-162),
as often as needed -/
def enough (sym : Nat) : Nat → Nat → Nat
  | 0, size => size
  | fuel + 1, size =>
    if sym < size then size else enough sym fuel (if size = 0 then 1024 else 2 * size)

/-- a table enlarged to `size`, with `d` in the new places -/
def enlarge {α : Type} (l : List α) (size : Nat) (d : α) : List α := l ++ List.replicate (size - l.length) d

/-- `LSLInsertToken` (tokentable.c:38-57), `LCLInsertToken` (lcltokentable.c:43-75) -/
def insertToken (t : Tabs) (code sym raw : Nat) (defined : Bool) : Tabs × Tok :=
  let toks := enlarge t.toks (enough sym (sym + 1) t.toks.length) none
  match toks[sym]? with
  | some (some k) => ({ t with toks := toks }, k)
  | _ =>
    let k : Tok := ⟨code, sym, raw, defined, false⟩
    ({ t with toks := toks.set sym (some k) }, k)

/-- `LSLGetToken` (tokentable.c:91-103) -/
def getToken (t : Tabs) (sym : Nat) : Except Err (Option Tok) :=
  match t.toks[sym]? with
  | none => .error .outside
  | some k => .ok k

/-- `LSLSetTokenHasSyn` (tokentable.c:76-89) -/
def setHasSyn (t : Tabs) (sym : Nat) : Except Err Tabs :=
  match t.toks[sym]? with
  | none => .error .outside
  | some none => .error .bug
  | some (some k) => .ok { t with toks := t.toks.set sym (some { k with hasSyn := true }) }

/-- the second half of `LSLAddSyn` (syntable.c:101-112) and of `LCLAddSyn` (lclsyntable.c:61-75) -/
def fillSyn (t : Tabs) (ntok otok : Nat) : Except Err Tabs :=
  match t.syn[ntok]? with
  | none => .error .outside
  | some 0 => setHasSyn { t with syn := t.syn.set ntok otok } otok
  | some _ => .error .bug

/-- `SynTable_grow` (syntable.c:137-177); `SYNTABLE_BASESIZE` is 256 -/
def synGrow (syn : List Nat) (size : Nat) : List Nat :=
  if size ≤ syn.length then syn
  else enlarge syn (if size < syn.length + 256 then syn.length + 256 else size) 0

/-- `LSLAddSyn` (syntable.c:93-113) -/
def lslAddSyn (t : Tabs) (ntok otok : Nat) : Except Err Tabs :=
  fillSyn (if t.syn.length ≤ ntok then { t with syn := synGrow t.syn otok } else t) ntok otok

/-- `LCLAddSyn` (lclsyntable.c:52-75) -/
def lclAddSyn (t : Tabs) (ntok otok : Nat) : Except Err Tabs :=
  fillSyn { t with syn := enlarge t.syn (enough otok (otok + 1) t.syn.length) 0 } ntok otok

/-- `LSLIsSyn` (syntable.c:123-135), `LCLIsSyn` (lclsyntable.c:88-108) -/
def isSyn (t : Tabs) (sym : Nat) : Bool :=
  match t.syn[sym]? with
  | some s => s != 0
  | none => false

/-- `LSLGetTokenForSyn` (syntable.c:115-121), `LCLGetTokenForSyn` (lclsyntable.c:77-86) -/
def getTokenForSyn (t : Tabs) (ntok : Nat) : Except Err (Option Tok) :=
  match t.syn[ntok]? with
  | none => .error .outside
  | some s => getToken t s

/-- `ltokenTableInit` (tokentable.c:161-165), `lsynTableInit` (syntable.c:179-195) -/
def lslInit : Tabs := ⟨[], List.replicate 256 0⟩

/-- `LCLTokenTableInit`, `LCLSynTableInit` -/
def lclInit : Tabs := ⟨[], []⟩

end Splint.Intern
