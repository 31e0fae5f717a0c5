/-!
# Storage references

Model of src/sRef.c:845-861 (`sRef_fixConj`), 1636-1640 (`cref_equal`), 1807-1916 (`sRef_similar`),
1927-2017 (`sRef_includedBy`), 2034-2100 (`sRef_realSame`), 2116-2178 (`sRef_same`), 3250-3267
(`sRef_lexLevel`), 3468-3508 (`sRef_getRootBase`), and of the kinds in
src/Headers/sRef.h:21-85.

A reference is a tree; every node has the address of its C structure, so that `s1 == s2` compares
addresses. The null pointer is modelled where a function is called with it: the inner references are
never null (sRef.h:56-73). The state of a reference (definition, null, ownership) is modelled in
Model/Kinds, not here. Names are interned as numbers. The global marker `SR_GLOBALMARKER`, for which
`sRef_includedBy` stops with an internal error, is left out. `ctype_match` is a parameter.
-/
namespace Splint

/-- `speckind`, sRef.h:21-27, without `SR_GLOBALMARKER`. -/
inductive SpecKind where
  | nothing | internal | specState | system
deriving DecidableEq, Repr

/-- `struct s_sRef` with `skind` and `sinfo`, sRef.h:29-85. -/
inductive SRef where
  | cvar (addr : Nat) (level index : Int)
  | param (addr : Nat) (no : Int)
  | fetch (addr : Nat) (arr : SRef) (ind : Option Int)
  | field (addr : Nat) (base : SRef) (name : Nat)
  | ptr (addr : Nat) (ref : SRef)
  | adr (addr : Nat) (ref : SRef)
  | conj (addr : Nat) (a b : SRef)
  | derived (addr : Nat) (ref : SRef)
  | external (addr : Nat) (ref : SRef)
  | object (addr : Nat) (ct : Nat)
  | unconstrained (addr : Nat) (name : Nat)
  | special (addr : Nat) (k : SpecKind)
  | const (addr : Nat)
  | new (addr : Nat)
  | type (addr : Nat)
  | result (addr : Nat)
  | unknown (addr : Nat)
deriving DecidableEq, Repr

namespace SRef

/-- The address of the structure. -/
def addr : SRef → Nat
  | cvar a _ _ | param a _ | fetch a _ _ | field a _ _ | ptr a _ | adr a _ | conj a _ _
  | derived a _ | external a _ | object a _ | unconstrained a _ | special a _ | const a | new a
  | type a | result a | unknown a => a

/-- `s1 == s2`. -/
def ptrEq (s t : SRef) : Bool := s.addr == t.addr

/-- Number of nodes, to show that the functions end. -/
def size : SRef → Nat
  | fetch _ r _ | field _ r _ | ptr _ r | adr _ r | derived _ r | external _ r => r.size + 1
  | conj _ a b => a.size + b.size + 1
  | _ => 1

/-- The comparison of two array indices in `sRef_same`, sRef.c:2129-2134, and `sRef_similar`: they
differ only if both are known. -/
def indMay : Option Int → Option Int → Bool
  | some i, some j => decide (i = j)
  | _, _ => true

/-- `sRef_same`, sRef.c:2116-2178. -/
def same : SRef → SRef → Bool
  | cvar a l i, t => a == t.addr || (match t with
      | cvar _ l' i' => decide (l = l' ∧ i = i') | _ => false)
  | param a n, t => a == t.addr || (match t with | param _ n' => decide (n = n') | _ => false)
  | fetch a r i, t => a == t.addr || (match t with
      | fetch _ r' i' => same r r' && indMay i i' | _ => false)
  | field a r f, t => a == t.addr || (match t with
      | field _ r' f' => same r r' && decide (f = f') | _ => false)
  | ptr a r, t => a == t.addr || (match t with | ptr _ r' => same r r' | _ => false)
  | adr a r, t => a == t.addr || (match t with | adr _ r' => same r r' | _ => false)
  | conj a x y, t => a == t.addr || (same x t && same y t)
  | special a k, t => a == t.addr || (match t with | special _ k' => decide (k = k') | _ => false)
  | derived a r, t => a == t.addr || (match t with | derived _ r' => same r r' | _ => false)
  | const a, t | unconstrained a _, t | type a, t | unknown a, t | new a, t | object a _, t
  | external a _, t | result a, t => a == t.addr

/-- `sRef_realSame`, sRef.c:2034-2100, of references that are not null. -/
def realSame (cm : Nat → Nat → Bool) : SRef → SRef → Bool
  | cvar a l i, t => a == t.addr || (match t with
      | cvar _ l' i' => decide (l = l' ∧ i = i') | _ => false)
  | param a n, t => a == t.addr || (match t with | param _ n' => decide (n = n') | _ => false)
  | fetch a r i, t => a == t.addr || (match t with
      | fetch _ r' i' => realSame cm r r' && decide (i = i') | _ => false)
  | field a r f, t => a == t.addr || (match t with
      | field _ r' f' => realSame cm r r' && decide (f = f') | _ => false)
  | ptr a r, t => a == t.addr || (match t with | ptr _ r' => realSame cm r r' | _ => false)
  | adr a r, t => a == t.addr || (match t with | adr _ r' => realSame cm r r' | _ => false)
  | conj a x y, t => a == t.addr || (realSame cm x t || realSame cm y t)
  | object a c, t => a == t.addr || (match t with | object _ c' => cm c c' | _ => false)
  | external a r, t => a == t.addr || (match t with
      | external _ r' => realSame cm r r' | _ => false)
  | special a k, t => a == t.addr || (match t with | special _ k' => decide (k = k') | _ => false)
  | derived a r, t => a == t.addr || (match t with | derived _ r' => realSame cm r r' | _ => false)
  | unconstrained a n, t => a == t.addr || (match t with
      | unconstrained _ n' => decide (n = n') | _ => false)
  | type _, _ | const _, _ | new _, _ | unknown _, _ | result _, _ => true

/-- `fileScope`, Headers/usymtab.h:362. -/
def fileScope : Int := 1

/-- `sRef_isFileStatic`, sRef.c:6073-6076. -/
def isFileStatic : SRef → Bool
  | cvar _ l _ => decide (l = fileScope)
  | _ => false

/-- `sRef_isFileOrGlobalScope`, sRef.c:6063-6066. -/
def isFileOrGlobal : SRef → Bool
  | cvar _ l _ => decide (l ≤ fileScope)
  | _ => false

/-- `sRef_isSpecInternalState`, sRef.c:4554-4558. -/
def isSpecInternal : SRef → Bool
  | special _ .internal | special _ .specState => true
  | _ => false

/-- `sRef_isSystemState`, sRef.c:4573-4576. -/
def isSystem : SRef → Bool
  | special _ .system => true
  | _ => false

mutual
/-- `sRef_similar`, sRef.c:1807-1916. -/
def similar (s t : SRef) : Bool :=
  if s.ptrEq t then true
  else
    match t with
    | conj _ x y => similar s x || similar s y
    | derived _ r => includedBy s r
    | t =>
      match s with
      | cvar _ l i => match t with | cvar _ l' i' => decide (l = l' ∧ i = i') | _ => false
      | param _ n => match t with | param _ n' => decide (n = n') | _ => false
      | fetch _ r i =>
        match t with
        | fetch _ r' i' => similar r r' && indMay i i'
        | ptr _ r' => similar r r'
        | _ => false
      | field _ r f => match t with | field _ r' f' => similar r r' && decide (f = f') | _ => false
      | ptr _ r =>
        match t with
        | ptr _ r' => similar r r'
        | fetch _ r' _ => similar r' r
        | _ => false
      | adr _ r => match t with | adr _ r' => similar r r' | _ => false
      | conj _ x y => similar x t || similar y t
      | derived _ r => includedBy t r
      | unconstrained _ n => match t with | unconstrained _ n' => decide (n = n') | _ => false
      | special _ k => match t with | special _ k' => decide (k = k') | _ => false
      | const _ | type _ | new _ | unknown _ | object _ _ | external _ _ | result _ => false
termination_by s.size + t.size
decreasing_by all_goals (simp_all only [SRef.size]; omega)

/-- `sRef_includedBy`, sRef.c:1927-2017. -/
def includedBy (s t : SRef) : Bool :=
  if s.ptrEq t then true
  else
    match t with
    | conj _ x y => similar s x || similar s y
    | t =>
      match s with
      | cvar a l i => same (cvar a l i) t
      | param a n => same (param a n) t
      | fetch _ r i =>
        match t with
        | fetch a' r' i' => if same r r' then indMay i i' else includedBy r (fetch a' r' i')
        | t => includedBy r t
      | field _ r f =>
        match t with
        | field _ r' f' => same r r' && decide (f = f')
        | t => includedBy r t
      | ptr _ r =>
        match t with
        | ptr _ r' => same r r'
        | t => includedBy r t
      | adr _ r => match t with | adr _ r' => similar r r' | _ => false
      | conj _ x y => includedBy x t || includedBy y t
      | derived _ r => includedBy r t
      | special _ .nothing => true
      | special _ .specState | special _ .internal => t.isSpecInternal || t.isFileStatic
      | special _ .system => t.isSystem
      | unconstrained _ _ | const _ | type _ | new _ | unknown _ | object _ _ | external _ _
      | result _ => false
termination_by s.size + t.size
decreasing_by all_goals (simp_all only [SRef.size]; omega)
end

/-- `sRef_fixConj`, sRef.c:845-861. -/
def fixConj : SRef → SRef
  | conj _ a _ => a.fixConj
  | s => s

/-- `sRef_getRootBaseAux`, sRef.c:3470-3503, with `n = MAXBASEDEPTH + 1 - depth`; `none` is
`sRef_undefined`. -/
def rootBaseAux : Nat → SRef → Option SRef
  | 0, _ => none
  | n + 1, adr _ r | n + 1, ptr _ r | n + 1, field _ r _ | n + 1, fetch _ r _ => rootBaseAux n r
  | n + 1, conj _ a _ => rootBaseAux n a.fixConj
  | _ + 1, s => some s

/-- `sRef_getRootBase`, sRef.c:3505-3508; `MAXBASEDEPTH` is 25. -/
def rootBase (s : SRef) : Option SRef := rootBaseAux 26 s

/-- `globScope`, Headers/usymtab.h:362. -/
def globScope : Int := 0

/-- `sRef_lexLevel`, sRef.c:3250-3267. -/
def lexLevel (s : SRef) : Int :=
  match s.fixConj.rootBase with
  | some (cvar _ l _) => l
  | _ => globScope

end SRef
end Splint
