import Verif.Tactics
/-!
The table of types: src/cttable.i and the functions of src/ctype.c that make types.  A type is a number,
the index of its entry.

Simplifications:
* memory is not modelled (`cttable_grow`: C46), and neither are the names of types;
* of the contents of types that are not pointers, arrays and alternatives, only what tells them apart is
  kept: the number of a primitive type, the identifier of a type name, and a number for structures,
  unions, enumerations and functions (`other`) that is the same for types that `ctype_compare` takes
  for equal;
* structures and so on are always entered anew (`cttable_addComplex` looks for an equal one among the
  last 16 entries, as it does for alternatives);
* function types are not combined with others (ctype.c:1389-1398);
* `ctype_isManifestBool` and `ctbase_isVoidPointer` of a type name are parameters.
-/
namespace Splint.TypeTable

/-- `ctbase` (ctbase.i): what a type is -/
inductive Ct where
  /-- `ctbase_undefined`, the slot for the user's bool -/
  | undef
  /-- also `CT_UNKNOWN` and `CT_BOOL` -/
  | prim (j : Nat)
  | user (u : Nat)
  | ptr (b : Nat)
  | array (b : Nat)
  | farray (b size : Nat)
  | conj (a b : Nat) (isExplicit : Bool)
  | other (k : Nat)
  deriving DecidableEq, Repr

/-- `ctentry` (ctbase.i:43-50); `none` for `ctype_dne` and `ctype_undefined` -/
structure Entry where
  ct : Ct
  base : Option Nat := none
  ptr : Option Nat := none
  array : Option Nat := none
  deriving DecidableEq, Repr

/-- the table `cttab` and the variables of ctype.c:1221-1232; 0 is `ctype_unknown` -/
structure St where
  tab : List Entry
  ic : Nat := 0
  ib : Nat := 0
  ifl : Nat := 0
  ibf : Nat := 0
  ibc : Nat := 0
  iv : Nat := 0
  ivf : Nat := 0
  ivb : Nat := 0
  ivbf : Nat := 0
  cuc : Nat := 0
  cany : Nat := 0
  deriving DecidableEq, Repr

/-- what type names are -/
structure Names where
  isBool : Nat → Bool
  isVoidPtr : Nat → Bool

/-- cprim.h:20-105 and lctype.h:57-70 -/
abbrev unknown : Nat := 0
abbrev void : Nat := 1
abbrev bool : Nat := 2
abbrev uchar : Nat := 3
abbrev char : Nat := 4
abbrev int : Nat := 5
abbrev float : Nat := 16
/-- `CTK_PREDEFINED` -/
abbrev predefined : Nat := 19
/-- `CTP_VOID`, `ctype_voidPointer` -/
abbrev voidPtr : Nat := 20
/-- `CTP_CHAR`, `ctype_string` -/
abbrev string : Nat := 23
/-- `LAST_PREDEFINED` -/
abbrev lastPredefined : Nat := 57

/-- `cttable_init` (cttable.i:419-477) -/
def init : St where
  tab := ((List.range predefined).map fun j =>
        ⟨.prim j, none, some (j + predefined), some (j + predefined + predefined)⟩)
    ++ ((List.range predefined).map fun j => ⟨.ptr j, some j, none, none⟩)
    ++ ((List.range predefined).map fun j => ⟨.array j, some j, none, none⟩)
    ++ [⟨.undef, none, none, none⟩]

/-- `cttable_addFull` (cttable.i:570-582) and the ends of the other functions -/
def push (st : St) (e : Entry) : St × Nat := ({ st with tab := st.tab ++ [e] }, st.tab.length)

/-- `ctype_makePointer` (ctype.c:322-348) and `cttable_addDerived` (cttable.i:509-521); `none` if there is
no such type -/
def makePointer (st : St) (c : Nat) : Option (St × Nat) :=
  if c = char then some (st, string)
  else if c = void then some (st, voidPtr)
  else
    st.tab[c]?.map fun e =>
      match e.ptr with
      | some p => (st, p)
      | none =>
        push { st with tab := st.tab.set c { e with ptr := some st.tab.length } }
          ⟨.ptr c, some c, none, none⟩

/-- `ctype_makeArray` (ctype.c:432-449) -/
def makeArray (st : St) (c : Nat) : Option (St × Nat) :=
  st.tab[c]?.map fun e =>
    match e.array with
    | some p => (st, p)
    | none =>
      push { st with tab := st.tab.set c { e with array := some st.tab.length } }
        ⟨.array c, some c, none, none⟩

/-- `ctype_makeFixedArray` (ctype.c:350-355) -/
def makeFixedArray (st : St) (c size : Nat) : Option (St × Nat) :=
  st.tab[c]?.map fun _ => push st ⟨.farray c size, some c, none, none⟩

/-- the base of a pointer or an array: `ctype_baseArrayPtr` (ctype.c:456-495), where the type is neither
an alternative nor an integer type -/
def baseOf (st : St) (c : Nat) : Option Nat := st.tab[c]?.bind Entry.base

/-- the last index not below `stop` with the property -/
def findBack (p : Nat → Bool) (stop : Nat) : Nat → Option Nat
  | 0 => none
  | n + 1 => if n < stop then none else if p n then some n else findBack p stop n

/-- `ctype_createUser` (ctype.c:140-147) and `cttable_addFullSafe` (cttable.i:584-613) -/
def createUser (st : St) (u : Nat) : St × Nat :=
  match findBack (fun i => (st.tab[i]?.map Entry.ct) == some (.user u)) 0 st.tab.length with
  | some i => (st, i)
  | none => push st ⟨.user u, none, none, none⟩

/-- a structure, union, enumeration or function type is entered -/
def addOther (st : St) (k : Nat) : St × Nat := push st ⟨.other k, none, none, none⟩

/-- `ctype_compare` (ctype.c:645-702) of two types, is it 0?  With `ctbase_compare` for alternatives
(ctbase.i:2505-2512). -/
def same (tab : List Entry) : Nat → Nat → Nat → Bool
  | 0, _, _ => false
  | n + 1, a, b =>
    if a = unknown then b == unknown
    else if b = unknown then false
    else
      match tab[a]?.map Entry.ct, tab[b]?.map Entry.ct with
      | some (.conj a1 b1 x), some (.conj a2 b2 y) => same tab n a1 a2 && (same tab n b1 b2 && x == y)
      | some (.other k), some (.other l) => k == l
      | some (.conj ..), _ => false
      | some (.other _), _ => false
      | _, some (.conj ..) => false
      | _, some (.other _) => false
      | _, _ => a == b

/-- `ctbase_equivStrict` (ctbase.i:2523-2526) of the new alternatives `a | b` and an entry -/
def equiv (tab : List Entry) (a b : Nat) (x : Bool) (i : Nat) : Bool :=
  match tab[i]?.map Entry.ct with
  | some (.conj a' b' y) =>
    same tab (tab.length + 1) a a' && (same tab (tab.length + 1) b b' && x == y)
  | _ => false

/-- `cttable_addComplex` (cttable.i:523-568) of `ctbase_makeConj` (ctbase.i:1945-1957).  15 is
`DEFAULT_OPTLEVEL`. -/
def addConj (st : St) (a b : Nat) (x : Bool) : St × Nat :=
  match findBack (equiv st.tab a b x) (max (st.tab.length - 1 - 15) lastPredefined) st.tab.length with
  | some i => (st, i)
  | none => push st ⟨.conj a b x, none, none, none⟩

/-- `ctype_isAnytype` (ctype.c:1247-1251) -/
def isAnytype (st : St) (c : Nat) : Bool := c == st.cany

/-- `ctype_isManifestBool` (ctype.c:879-898) and `ctbase_isVoidPointer` (ctbase.i:343-350) in
`ctype_makeConj` (1401-1419) -/
def norm (nm : Names) (st : St) (c : Nat) : Nat :=
  let c := match st.tab[c]?.map Entry.ct with
    | some (.prim j) => if j = bool then bool else c
    | some (.user u) => if nm.isBool u then bool else c
    | _ => c
  match st.tab[c]?.map Entry.ct with
  | some (.ptr b) => if b = void then voidPtr else c
  | some (.user u) => if nm.isVoidPtr u then voidPtr else c
  | _ => c

/-- one of the variables, which is set if it is not yet -/
def cached (st : St) (get : St → Nat) (set : St → Nat → St) (a b : Nat) : St × Nat :=
  if get st = unknown then
    let r := addConj st a b false
    (set r.1 r.2, r.2)
  else (st, get st)

/-- `ctype_makeConj` (ctype.c:1435-1573), for types that are known -/
def conjKnown (st : St) (c1 c2 : Nat) : St × Nat :=
  if c1 = int then
    if c2 = char then cached st St.ic (fun s n => { s with ic := n }) int char
    else if c2 = bool then cached st St.ib (fun s n => { s with ib := n }) int bool
    else if c2 = float then cached st St.ifl (fun s n => { s with ifl := n }) int float
    else if c2 = voidPtr then cached st St.iv (fun s n => { s with iv := n }) int voidPtr
    else addConj st c1 c2 false
  else if c1 = st.ib ∧ st.ib ≠ unknown then
    if c2 = float then cached st St.ibf (fun s n => { s with ibf := n }) st.ib float
    else if c2 = char then cached st St.ibc (fun s n => { s with ibc := n }) st.ib char
    else addConj st c1 c2 false
  else if c1 = st.iv then
    if c2 = bool then cached st St.ivb (fun s n => { s with ivb := n }) c1 c2
    else if c2 = float then cached st St.ivf (fun s n => { s with ivf := n }) c1 c2
    else addConj st c1 c2 false
  else if c1 = st.ivf then
    if c2 = bool then cached st St.ivbf (fun s n => { s with ivbf := n }) c1 c2
    else addConj st c1 c2 false
  else if c1 = st.ivb then
    if c2 = float then cached st St.ivbf (fun s n => { s with ivbf := n }) c1 c2
    else addConj st c1 c2 false
  else if c1 = char then
    if c2 = uchar then cached st St.cuc (fun s n => { s with cuc := n }) c1 c2
    else addConj st c1 c2 false
  else addConj st c1 c2 false

/-- `ctype_makeConj` (ctype.c:1366-1575) -/
def makeConj (nm : Names) (st : St) (c1 c2 : Nat) : St × Nat :=
  if isAnytype st c1 then (st, c1)
  else if isAnytype st c2 then (st, c2)
  else if c1 = unknown then (st, c2)
  else if c2 = unknown then (st, c1)
  else conjKnown st (norm nm st c1) (norm nm st c2)

/-- `ctype_dne` as an argument; -1 in the code, here a number that no type has -/
def dne : Nat := 2 ^ 32 - 1

/-- `ctype_makeAnytype` (ctype.c:1234-1245) -/
def makeAnytype (nm : Names) (st : St) : St × Nat :=
  if st.cany = unknown then
    let r := makeConj nm st unknown dne
    ({ r.1 with cany := r.2 }, r.2)
  else (st, st.cany)

/-- `ctype_makeExplicitConj` (ctype.c:1196-1219) -/
def makeExplicitConj (nm : Names) (st : St) (c1 c2 : Nat) : St × Nat :=
  if isAnytype st c1 || isAnytype st c2 then makeAnytype nm st
  else addConj st c1 c2 true

/-- the operations on the table -/
inductive Op where
  | pointer (c : Nat)
  | array (c : Nat)
  | fixedArray (c size : Nat)
  | user (u : Nat)
  | other (k : Nat)
  | conj (c1 c2 : Nat)
  | explicitConj (c1 c2 : Nat)
  | anytype

/-- one operation on types of the table; `none` if an argument is not a type -/
def step (nm : Names) (st : St) : Op → Option (St × Nat)
  | .pointer c => makePointer st c
  | .array c => makeArray st c
  | .fixedArray c n => makeFixedArray st c n
  | .user u => some (createUser st u)
  | .other k => some (addOther st k)
  | .conj c1 c2 =>
    if c1 < st.tab.length ∧ c2 < st.tab.length then some (makeConj nm st c1 c2) else none
  | .explicitConj c1 c2 =>
    if c1 < st.tab.length ∧ c2 < st.tab.length then some (makeExplicitConj nm st c1 c2) else none
  | .anytype => some (makeAnytype nm st)

end Splint.TypeTable
