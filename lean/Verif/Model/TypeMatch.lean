import Verif.Model.Prim
/-!
# Matching of types

Models `ctbase_genMatch` (src/ctbase.i:1287-1598), `ctype_genMatch` (src/ctype.c:1659-1679) and its callers
`ctype_match` (src/ctype.c:1741-1753), `ctype_matchDef` (1715-1739), `ctype_matchArg` (1774-1784), with what
they need: `ctbase_realType` (src/ctbase.i:318-341), `ctype_realType` (src/ctype.c:181-204),
`uentry_getRealType` (src/uentry.c:6447-6522), `uentryList_matchParams` (src/uentryList.c:190-217),
`uentryList_matchFields` (862-899), `ctbase_almostEqual` (src/ctbase.i:2581-2653),
`usymtab_matchForwardStruct` (src/usymtab.c:5473-5503).

A type is a number, an index into a table, as in the code; the table and the global symbol table are parameters.
`none` stands for a fatal error, a failed assertion or a recursion that does not end.

Simplifications: the kind of an entry of the table (`CTK_PLAIN`, `CTK_PTR` ...) follows from its contents;
`CT_EXPFCN` and `CT_ENUMLIST` are left out; tags of structures are not strings but are given with whether they are
generated (`isFakeTag`); types of entries that are no data types are left out (`entry` is then `none`); flags are
constant (they are read at the current location). The arguments `force` and `arg` of `ctbase_genMatch` are
passed on but never read, and are left out. Lists that are the same pointer are equal (`matchParams`).
-/
namespace Splint.TypeMatch
open Prim (P)

/-- `ctype`: an index, or one of the negative numbers (src/Headers/lctype.h:48-102). -/
inductive Ct where
  | ix (n : Nat)
  /-- `CTK_ELIPS` -/
  | elips
  /-- `CTK_INVALID`, `CTK_DNE` ... : there is no type -/
  | bad
deriving DecidableEq, Repr

/-- `CTX_UNKNOWN`, `CTX_VOID`, `CTX_BOOL`, `CTX_INT` (src/Headers/cprim.h:20-51) -/
def Ct.unknown : Ct := .ix 0
def Ct.void : Ct := .ix 1
def Ct.bool : Ct := .ix 2
def Ct.int : Ct := .ix 5

/-- the name of a structure, union or enumeration -/
inductive Tag where
  | empty
  | named (n : Nat)
  /-- generated for one without a name -/
  | fake (n : Nat)
deriving DecidableEq, Repr

/-- the kinds of named types: `CT_USER`, `CT_ABST`, `CT_NUMABST` -/
inductive UA where
  | user | abst | numabst
deriving DecidableEq, Repr

/-- `struct s_ctbase` (src/ctbase.i:183-199) -/
inductive Node where
  /-- `ctbase_undefined`, as in the slot for the user's bool (src/cttable.i:473-476) -/
  | undefined
  | unknown
  | bool
  | prim (p : P)
  /-- a named type: its kind and its number in the symbol table -/
  | ua (k : UA) (t : Nat)
  | enum (tag : Tag)
  | ptr (base : Ct)
  | farr (base : Ct)
  | arr (base : Ct)
  /-- a function; no parameters at all mean that they are unknown (src/uentryList.c:690-693) -/
  | fcn (r : Ct) (ps : List Ct)
  /-- a structure, or a union; its fields are in a list of the environment -/
  | su (union : Bool) (tag : Tag) (fields : Nat)
  | conj (a b : Ct)
deriving DecidableEq, Repr

/-- the entry of a named type in the symbol table -/
structure Entry where
  /-- is it the tag of a structure, union or enumeration (`uentry_isAnyTag`) -/
  tag : Bool := false
  /-- `uentry_isAbstractType` -/
  abst : Bool := false
  /-- is its name the one given by `-booltype` (`usymtab_isBoolType`) -/
  isBool : Bool := false
  /-- `info->datatype->type`: the named type itself -/
  self : Ct
  /-- `utype`: what it is defined as -/
  utype : Ct
deriving DecidableEq, Repr

/-- the flags that matter -/
structure Flags where
  prim : Prim.Flags := {}
  boolInt : Bool := false
  enumInt : Bool := false
  forwardDecl : Bool := false
  abstVoidP : Bool := false
  castFcnPtr : Bool := false

structure Env where
  /-- the table of types -/
  node : Nat → Option Node
  /-- the symbol table -/
  entry : Nat → Option Entry
  /-- `context_hasAccess` -/
  access : Nat → Bool
  /-- `context_canAccessBool` -/
  accessBool : Bool
  /-- the lists of fields of structures: names and types -/
  fields : Nat → List (Nat × Ct)
  fl : Flags

/-- `||` and `&&`, where either side may fail -/
def orM (a b : Option Bool) : Option Bool := a.bind fun x => if x then some true else b
def andM (a b : Option Bool) : Option Bool := a.bind fun x => if x then b else some false

variable (E : Env)

/-- `ctype_getCtbase` (src/ctype.c:2777-2800) -/
def get : Ct → Option Node
  | .ix n => E.node n
  | _ => none

/-- `usymtab_isBoolType` (src/usymtab.c:1582-1589) -/
def isBoolType (t : Nat) : Bool :=
  match E.entry t with
  | some e => e.isBool
  | none => false

/-- The number of a named type: `ctbase_isUA` and `ctbase_typeId`. -/
def Node.tid : Node → Option Nat
  | .ua _ t => some t
  | _ => none

/-- `ctype_isUA` and `ctype_typeId` (src/ctype.c:248-252): `some none` if it is no named type. -/
def uaOf (c : Ct) : Option (Option Nat) :=
  if c = .unknown then some none else (get E c).bind fun b => some b.tid

/-- `ctype_isManifestBool` (src/ctype.c:880-899) -/
def isManifestBool (c : Ct) : Option Bool :=
  if c = .bool then some true
  else (uaOf E c).bind fun o => match o with
    | some t => some (isBoolType E t)
    | none => some false

/-- The part of `uentry_getRealType` after the abstract types (src/uentry.c:6488-6521). `t` is the number of the
entry, `uid` that of the abstract type, and `next` is the function itself. -/
def realFrom (next : Nat → Option Ct) (t : Nat) (uid : Option Nat) (ct : Ct) : Option Ct :=
  (isManifestBool E ct).bind fun m =>
    if m then some .bool
    else (uaOf E ct).bind fun o => match o with
      | none => some ct
      | some iid =>
        if some iid = uid then some ct
        else if iid = t then some .unknown
        else next iid

/-- `uentry_getRealType` (src/uentry.c:6447-6522) -/
def getRealType : Nat → Nat → Option Ct
  | 0, _ => none
  | n + 1, t =>
    match E.entry t with
    | none => some .unknown
    | some e =>
      if e.tag then some e.utype
      else if e.abst then
        -- `uentry_getAbstractType`, and the assertion that it is a named type
        (get E e.self).bind fun b => match b.tid with
          | none => none
          | some uid =>
            if isBoolType E uid then some .bool
            else if !E.access uid then some e.self
            else realFrom E (getRealType n) t (some uid) e.utype
      else realFrom E (getRealType n) t none e.utype

/-- `ctbase_realType` (src/ctbase.i:318-341) -/
def realNode (n : Nat) (b : Node) : Option Node :=
  match b with
  | .ua _ t =>
    if isBoolType E t then some .bool
    else (getRealType E n t).bind fun c => (get E c).bind fun r => if r = .undefined then none else some r
  | b => some b

/-- `ctype_realType` (src/ctype.c:181-204) -/
def realCt (n : Nat) (c : Ct) : Option Ct :=
  if c = .elips then some c
  else (uaOf E c).bind fun o => (match o with | some t => getRealType E n t | none => some c).bind fun r =>
    (isManifestBool E r).bind fun m => if m && E.accessBool then some .int else some r

/-- `ctype_isFunction`, `ctbase_isFunction` (src/ctype.c:776-786, src/ctbase.i:1921-1940) -/
def isFunction (c : Ct) : Option Bool :=
  if c = .unknown ∨ c = .bad then some false
  else (get E c).bind fun b => match b with
    | .undefined => none
    | .fcn _ _ => some true
    | .ptr x => (get E x).bind fun f => match f with | .fcn _ _ => some true | _ => some false
    | _ => some false

/-- `ctype_isPointer` (src/ctype.c:1824-1841) -/
def isPointer (c : Ct) : Option Bool :=
  match c with
  | .elips => some false
  | c => (get E c).bind fun b => match b with | .ptr _ => some true | _ => some false

/-- `ctype_isAbstract` (src/ctype.c:261-268) -/
def isAbstract : Nat → Ct → Option Bool
  | 0, _ => none
  | n + 1, c =>
    if c = .unknown then some false
    else (get E c).bind fun b => match b with
      | .ua .abst _ => some true
      | .ua .numabst _ => some true
      | .conj x y => orM (isAbstract n x) (isAbstract n y)
      | _ => some false

/-- `ctype_isRealAbstract` (src/ctype.c:287-293) -/
def isRealAbstract : Nat → Ct → Option Bool
  | 0, _ => none
  | n + 1, c =>
    orM ((realCt E n c).bind (isAbstract E n))
      ((get E c).bind fun b => match b with
        | .conj x y => orM (isRealAbstract n x) (isRealAbstract n y)
        | _ => some false)

/-- `ctype_isRealPointer` and `ctype_isRealFunction` (src/ctype.c:1054-1060, 1094-1100): a test of the real
type. -/
def isReal (test : Ct → Option Bool) : Nat → Ct → Option Bool
  | 0, _ => none
  | n + 1, c =>
    match c with
    | .elips => (realCt E n c).bind test
    | c => (get E c).bind fun b => match b with
      | .conj x y => orM (isReal test n x) (isReal test n y)
      | _ => (realCt E n c).bind test

/-- What `ctype_toCprim` makes of a type: its number (src/Headers/lctype.h:316). The types of numbers 5 to 15
are integers, 3 and 4 characters. -/
def castInt (n : Nat) : Bool := decide (5 ≤ n ∧ n ≤ 15)
def castChar (n : Nat) : Bool := decide (3 ≤ n ∧ n ≤ 4)

/-- `ctype_isInt` (src/ctype.c:826-834) of the type of number `n` -/
def isInt (n : Nat) : Option Bool :=
  if n = 0 || castInt n || (castChar n && E.fl.prim.charInt) || (n = 2 && E.fl.boolInt) then some true
  else (E.node n).bind fun b => match b with
    | .enum _ => some E.fl.enumInt
    | _ => some false

/-- `ctype_isBool` (src/ctype.c:902-943) of the type of number `n` -/
def isBoolIx (n : Nat) : Option Bool :=
  (isManifestBool E (.ix n)).bind fun m => if m then some true else if E.fl.boolInt then isInt E n else some false

/-- `ctype_getBaseType` (src/ctype.c:2012-2067) -/
def getBaseType : Nat → Ct → Option Ct
  | 0, _ => none
  | n + 1, c =>
    match c with
    | .bad => some .bad
    | c => (get E c).bind fun b => match b with
      | .ptr x => getBaseType n x
      | .arr x => getBaseType n x
      | .farr x => getBaseType n x
      | .conj x _ => getBaseType n x
      | _ => some c

/-- `usymtab_matchForwardStruct` (src/usymtab.c:5473-5503) -/
def matchForward (n : Nat) (u1 u2 : Nat) : Option Bool :=
  match E.entry u2 with
  | none => some false
  | some e2 =>
    if !e2.tag then some false
    else match E.entry u1 with
      | none => some false
      | some e1 =>
        (isPointer E e1.utype).bind fun p =>
          if !p then some false
          else (getBaseType E n e1.utype).bind fun rb => (uaOf E rb).bind fun o => match o with
            | none => some false
            | some r =>
              if u2 = r then some true
              else match E.entry r with
                | none => some false
                | some er => (uaOf E er.utype).bind fun o' => some (o' = some u2)

/-- What is compared: types that match (in a definition or not, behind a pointer or not), or types that are
almost equal. -/
inductive Mode where
  | gen (dfn deep : Bool)
  | almost
deriving DecidableEq, Repr

/-- the recursive calls -/
abbrev Rec := Mode → Node → Node → Option Bool

/-- A call of `ctbase_genMatch` with the bases of types. -/
def viaBase (rec : Rec) (m : Mode) (x y : Ct) : Option Bool :=
  (get E x).bind fun a => (get E y).bind fun b => rec m a b

/-- `ctype_genMatch` (src/ctype.c:1659-1679) -/
def genCt (rec : Rec) (dfn deep : Bool) (x y : Ct) : Option Bool :=
  if x = y then some true
  else if x = .elips ∨ y = .elips then some false
  else viaBase E rec (.gen dfn deep) x y

/-- `ctype_almostEqual` (src/ctype.c:1691-1712) -/
def almostCt (rec : Rec) (x y : Ct) : Option Bool :=
  if x = y then some true
  else if x = .unknown ∨ y = .unknown then some false
  else viaBase E rec .almost x y

/-- the loop of `uentryList_matchParams` -/
def allParams (rec : Rec) : List Ct → List Ct → Option Bool
  | [], _ => some true
  | _, [] => some true
  | x :: xs, y :: ys => andM (genCt E rec false false x y) (allParams rec xs ys)

/-- `uentryList_matchParams` (src/uentryList.c:190-217) -/
def matchParams (rec : Rec) (p1 p2 : List Ct) : Option Bool :=
  if p1 = [] ∨ p2 = [] then some true
  else if p1.length ≠ p2.length then some false
  else allParams E rec p1 p2

/-- the loop of `uentryList_matchFields` -/
def allFields (rec : Rec) : List (Nat × Ct) → List (Nat × Ct) → Option Bool
  | [], _ => some true
  | _, [] => some true
  | x :: xs, y :: ys =>
    if x.1 = y.1 then andM (almostCt E rec x.2 y.2) (allFields rec xs ys) else some false

/-- `uentryList_matchFields` (src/uentryList.c:862-899) -/
def matchFields (rec : Rec) (f1 f2 : Nat) : Option Bool :=
  if f1 = f2 then some true
  else if E.fields f1 = [] ∨ E.fields f2 = [] then some true
  else if (E.fields f1).length ≠ (E.fields f2).length then some false
  else allFields E rec (E.fields f1) (E.fields f2)

/-- Pointers to `void` match others, but not those to abstract types (`abstvoidp`). -/
def voidCase (n : Nat) (x y : Ct) : Option Bool :=
  if E.fl.abstVoidP then some true
  else (isRealAbstract E n x).bind fun a => if a then some false
    else (isRealAbstract E n y).bind fun b => some !b

/-- A fixed array, and an array or a pointer (src/ctbase.i:1337-1367). `v` is the base of the array or
pointer. -/
def fixedCase (rec : Rec) (n : Nat) (dfn deep : Bool) (v : Ct) (fx x y : Ct) : Option Bool :=
  if v = .void then voidCase E n fx v else viaBase E rec (.gen dfn deep) x y

/-- `case CT_PTR` (src/ctbase.i:1512-1545) -/
def ptrCase (rec : Rec) (n : Nat) (dfn : Bool) (x y : Ct) : Option Bool :=
  if x = .void ∨ y = .void then
    (orM ((realCt E n x).bind (isFunction E)) ((realCt E n y).bind (isFunction E))).bind fun f =>
      if f then some !E.fl.castFcnPtr else voidCase E n x y
  else
    (isReal E (isPointer E) n x).bind fun px => (isReal E (isPointer E) n y).bind fun py =>
      (if px = py then some false
        else orM (isReal E (isFunction E) n x) (isReal E (isFunction E) n y)).bind fun no =>
        if no then some false else genCt E rec dfn true x y

/-- `case CT_ARRAY` (src/ctbase.i:1552-1555) -/
def arrCase (rec : Rec) (dfn : Bool) (x y : Ct) : Option Bool :=
  if x = .void ∨ y = .void then some true else genCt E rec dfn true x y

/-- `case CT_FCN` (src/ctbase.i:1556-1562) -/
def fcnCase (rec : Rec) (dfn : Bool) (r1 : Ct) (p1 : List Ct) (r2 : Ct) (p2 : List Ct) : Option Bool :=
  andM (genCt E rec dfn true r1 r2) (matchParams E rec p1 p2)

/-- `case CT_STRUCT`, `case CT_UNION` (src/ctbase.i:1563-1592) -/
def suCase (rec : Rec) (t1 : Tag) (f1 : Nat) (t2 : Tag) (f2 : Nat) : Option Bool :=
  match t1, t2 with
  | .fake a, .fake b => if a = b then some true else matchFields E rec f1 f2
  | .empty, _ => some false
  | _, _ => some (t1 = t2)

/-- A named type and a pointer or array: `forwarddecl` (src/ctbase.i:1446-1487). -/
def forwardCase (n : Nat) (t : Nat) (base : Ct) : Option Bool :=
  if E.fl.forwardDecl then
    (uaOf E base).bind fun o => match o with
      | some tt => matchForward E n t tt
      | none => some false
  else some false

/-- A pointer and a function: the pointer is taken off (src/ctbase.i:1413-1434). -/
def stripCase (n : Nat) (x : Ct) (k : Ct → List Ct → Option Bool) : Option Bool :=
  (realCt E n x).bind fun rx => (isFunction E rx).bind fun f =>
    if f then (get E x).bind fun b => (realNode E n b).bind fun rb => match rb with
      | .fcn r ps => k r ps
      | _ => some false
    else some false

/-- `ctbase_genMatch` after the real types were found (src/ctbase.i:1299-1597) -/
def genReal (rec : Rec) (n : Nat) (dfn deep : Bool) (a b : Node) : Option Bool :=
  match a, b with
  | .conj x y, b =>
    orM ((get E x).bind fun a => rec (.gen dfn deep) a b) ((get E y).bind fun a => rec (.gen dfn deep) a b)
  | a, .conj x y =>
    orM ((get E x).bind fun b => rec (.gen dfn deep) a b) ((get E y).bind fun b => rec (.gen dfn deep) a b)
  | .unknown, _ => some true
  | _, .unknown => some true
  | .farr x, .arr y => fixedCase E rec n dfn deep y x x y
  | .farr x, .ptr y => if dfn then some false else fixedCase E rec n dfn deep y x x y
  | .arr x, .farr y => fixedCase E rec n dfn deep x y x y
  | .ptr x, .farr y => if dfn then some false else fixedCase E rec n dfn deep x y x y
  | .bool, .prim p => if Prim.isInt E.fl.prim p then some E.fl.boolInt else some false
  | .prim p, .bool => if Prim.isInt E.fl.prim p then some E.fl.boolInt else some false
  -- the number of the named type is read as that of a type (`contents.base` for `contents.tid`)
  | .bool, .ua _ t => isBoolIx E t
  | .ua _ t, .bool => isBoolIx E t
  | .enum _, .prim p => if Prim.isInt E.fl.prim p then some E.fl.enumInt else some false
  | .prim p, .enum _ => if Prim.isInt E.fl.prim p then some E.fl.enumInt else some false
  | .ptr x, .arr y => if dfn then some false else ptrCase E rec n dfn x y
  | .arr x, .ptr y => if dfn then some false else arrCase E rec dfn x y
  | .ptr x, .fcn r2 p2 => stripCase E n x fun r1 p1 => fcnCase E rec dfn r1 p1 r2 p2
  | .fcn r1 p1, .ptr y => stripCase E n y fun r2 p2 => fcnCase E rec dfn r1 p1 r2 p2
  | .ua _ t, .ptr y => forwardCase E n t y
  | .ua _ t, .arr y => forwardCase E n t y
  | .ptr x, .ua _ t => forwardCase E n t x
  | .arr x, .ua _ t => forwardCase E n t x
  | .prim p, .prim q => some (Prim.closeEnough E.fl.prim deep p q)
  | .bool, .bool => some true
  | .ua k t, .ua l u => some (k = l && t = u)
  | .enum g, .enum h => some (g = h)
  | .ptr x, .ptr y => ptrCase E rec n dfn x y
  | .farr x, .farr y => if x = .void ∨ y = .void then some true else genCt E rec dfn deep x y
  | .arr x, .arr y => arrCase E rec dfn x y
  | .fcn r1 p1, .fcn r2 p2 => fcnCase E rec dfn r1 p1 r2 p2
  | .su u1 t1 f1, .su u2 t2 f2 => if u1 = u2 then suCase E rec t1 f1 t2 f2 else some false
  | _, _ => some false

/-- `ctbase_almostEqual` (src/ctbase.i:2581-2653) -/
def almostReal (rec : Rec) (a b : Node) : Option Bool :=
  match a, b with
  | .undefined, _ => some false
  | _, .undefined => some false
  | .farr x, .arr y => viaBase E rec .almost x y
  | .arr x, .farr y => viaBase E rec .almost x y
  | .unknown, .unknown => some true
  | .prim p, .prim q => some (p = q)
  | .bool, .bool => some true
  | .ua k t, .ua l u => some (k = l && t = u)
  | .enum g, .enum h => some (g = h)
  | .ptr x, .ptr y => almostCt E rec x y
  | .farr x, .farr y => almostCt E rec x y
  | .arr x, .arr y => almostCt E rec x y
  | .fcn r1 p1, .fcn r2 p2 => andM (almostCt E rec r1 r2) (matchParams E rec p1 p2)
  | .su u1 t1 _, .su u2 t2 _ => if u1 = u2 then (if t1 = .empty then some false else some (t1 = t2)) else some false
  | _, _ => some false

/-- `ctbase_genMatch` and `ctbase_almostEqual` -/
def run : Nat → Rec
  | 0 => fun _ _ _ => none
  | n + 1 => fun m a b =>
    match m with
    | .almost => almostReal E (run n) a b
    | .gen dfn deep =>
      if a = .undefined ∨ b = .undefined then some false
      else (realNode E n a).bind fun ra => (realNode E n b).bind fun rb => genReal E (run n) n dfn deep ra rb

/-- `ctype_genMatch`, with at most `n` nested calls -/
def genMatch (n : Nat) (dfn deep : Bool) (x y : Ct) : Option Bool := genCt E (run E n) dfn deep x y

/-- `ctype_match` (src/ctype.c:1741-1753) -/
def ctMatch (n : Nat) (x y : Ct) : Option Bool :=
  if x = y then some true
  else if x = .elips then some (y = .elips || y = .unknown)
  else if y = .elips then some false
  else viaBase E (run E n) (.gen false false) x y

/-- `ctype_matchDef` (src/ctype.c:1715-1739): like `ctype_match` without `relaxquals`, and in definitions
arrays are no pointers. -/
def ctMatchDef (n : Nat) (x y : Ct) : Option Bool :=
  if x = y then some true
  else if x = .elips then some (y = .elips || y = .unknown)
  else if y = .elips then some false
  else
    let E' := { E with fl := { E.fl with prim := { E.fl.prim with relaxQuals := false } } }
    viaBase E' (run E' n) (.gen true false) x y

/-- `ctype_matchArg` (src/ctype.c:1774-1784) -/
def ctMatchArg (n : Nat) (x y : Ct) : Option Bool :=
  if x = y then some true else viaBase E (run E n) (.gen false false) x y

end Splint.TypeMatch
