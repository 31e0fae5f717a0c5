import Verif.Model.Reader
/-!
# Storage references in library files

Model of src/sRef.c:2452-2647 (`sRef_undumpBody`, `sRef_undump`, `sRef_dumpBody`, `sRef_dump`), with
the shapes made by 3344-3389 (`sRef_makeAddress`), 4399-4441 (`sRef_makeConj`), 6148-6151
(`sRef_buildField`), 6619-6743 (`sRef_buildArrayFetch`, `sRef_buildArrayFetchKnown`) and 6831-6874
(`sRef_buildPointer`), src/ctype.c:1977-2009 (`ctype_undump`, `ctype_dump`) and
src/sRefSet.c:984-1033 (`sRefSet_undump`, `sRefSet_dump`).

Simplifications:
* a reference is a tree; its states are left out, and so is the reuse of references derived before
  (`sRef_findDerived…`), which have the same shape;
* of values (`sRef_getValue`) only integers within `int` are modelled (strings, characters and
  floating point numbers are in Model/MultiVal);
* a type is its number in the table of types; a user type with the name of the boolean type, which
  is written as the built-in one, does not occur;
* the number of a global is the one it has in the library (after `usymtab_convertId`);
* `sRef_equivalent` is a parameter;
* `sRef_makeParam` and others keep the type `ctype_unknown`, which is left out;
* the outcome `none` is a fatal error, a failed assertion, an internal bug report, or reading behind
  the end of the line.
-/
namespace Splint.Lib
open Reader

/-- `struct s_sRef` as far as it is written: kind, parts, and value if there is one. `undef` is the
null pointer, `loc` a local variable, `other` the kinds of sRef.c:2622-2631. -/
inductive Ref where
  | undef
  | param (v : Option Int) (n : Int)
  | fetch (v : Option Int) (ind : Option Int) (arr : Ref)
  | field (v : Option Int) (name : List Char) (rec : Ref)
  | ptr (v : Option Int) (r : Ref)
  | adr (v : Option Int) (r : Ref)
  | object (v : Option Int) (ct : Int)
  | special (v : Option Int) (k : Int)
  | conj (v : Option Int) (a b : Ref)
  | glob (v : Option Int) (n : Int)
  | loc (v : Option Int)
  | unknown (v : Option Int)
  | result (v : Option Int) (ct : Int)
  | other (v : Option Int)
  deriving DecidableEq, Repr

namespace Ref

/-- `sRef_hasValue` and `sRef_getValue`, sRef.c:10164-10180. -/
def val : Ref → Option Int
  | undef => none
  | param v _ | fetch v _ _ | field v _ _ | ptr v _ | adr v _ | object v _ | special v _
  | conj v _ _ | glob v _ | loc v | unknown v | result v _ | other v => v

/-- `sRef_setValue`, sRef.c:10151-10162. -/
def setVal (x : Int) : Ref → Option Ref
  | undef => none
  | param _ n => some (param (some x) n)
  | fetch _ i r => some (fetch (some x) i r)
  | field _ f r => some (field (some x) f r)
  | ptr _ r => some (ptr (some x) r)
  | adr _ r => some (adr (some x) r)
  | object _ c => some (object (some x) c)
  | special _ k => some (special (some x) k)
  | conj _ a b => some (conj (some x) a b)
  | glob _ n => some (glob (some x) n)
  | loc _ => some (loc (some x))
  | unknown _ => some (unknown (some x))
  | result _ c => some (result (some x) c)
  | other _ => some (other (some x))

end Ref

/-- `ctype_dump`, ctype.c:1983-2009. -/
def typeText (ct : Int) : List Char := if ct < 0 then ['0'] else intText ct

/-- sRef.c:2641-2644, with the text of an integer value (multiVal.c:213). -/
def valText : Option Int → List Char
  | none => []
  | some x => '=' :: 'i' :: (intText x ++ ['='])

namespace Ref

/-- `sRef_dump` and `sRef_dumpBody`, sRef.c:2569-2647. -/
def dump : Ref → List Char
  | undef => ['-']
  | param v n => 'p' :: intText n ++ valText v
  | fetch v (some i) r => 'a' :: (intText i ++ r.dump) ++ valText v
  | fetch v none r => 'a' :: r.dump ++ valText v
  | field v f r => 'f' :: (f ++ '.' :: r.dump) ++ valText v
  | ptr v r => 't' :: r.dump ++ valText v
  | adr v r => 'd' :: r.dump ++ valText v
  | object v ct => 'o' :: typeText ct ++ valText v
  | special v k => 's' :: intText k ++ valText v
  | conj v a b => 'c' :: (a.dump ++ '.' :: b.dump) ++ valText v
  | glob v n => 'g' :: intText n ++ valText v
  | loc v => 'u' :: valText v
  | unknown v => 'u' :: valText v
  | result v ct => 'r' :: typeText ct ++ valText v
  | other v => 'x' :: valText v

/-- `sRef_buildArrayFetch` and `sRef_buildArrayFetchKnown`, sRef.c:6619-6743. -/
def mkFetch (i : Option Int) : Ref → Ref
  | undef => undef
  | r => fetch none i r

/-- `sRef_buildField`, sRef.c:6148-6151 and 6265-6362; the field exists in the record's type. -/
def mkField (f : List Char) : Ref → Ref
  | undef => undef
  | r => field none f r

/-- `sRef_makePointer`, sRef.c:7022-7029, with `sRef_buildPointer`, 6831-6874. -/
def mkPtr : Ref → Ref
  | undef => undef
  | adr _ r => r
  | r => ptr none r

/-- `sRef_makeAddress`, sRef.c:3344-3389. -/
def mkAdr : Ref → Ref
  | undef => undef
  | ptr _ r => r
  | fetch _ (some 0) r => r
  | r => adr none r

/-- `sRef_makeConj`, sRef.c:4399-4441. -/
def mkConj (eqv : Ref → Ref → Bool) (a b : Ref) : Option Ref :=
  if a = undef ∨ b = undef then none
  else if eqv a b then some a else some (conj none a b)

/-- The `switch` of sRef.c:2507-2514, with `speckind_fromInt` (sRef.c:9531-9538). -/
def mkSpecial (k : Int) : Option Ref := if 0 ≤ k ∧ k ≤ 3 then some (special none k) else none

/-- `sRef_makeParam`, sRef.c:3282-3299. -/
def mkParam (n : Int) : Option Ref := if -1 ≤ n then some (param none n) else none

/-- `(**c >= '0' && **c <= '9') || **c == '-'`, sRef.c:2470. -/
def isIndex : List Char → Bool
  | c :: _ => isDig c || c = '-'
  | [] => false

/-- sRef.c:2559-2564, with the part of `multiVal_undump` for integers. -/
def readVal (r : Ref) (s : List Char) : Option (Ref × List Char) :=
  match optCheckChar '=' s with
  | (true, 'i' :: s) => do
    let (x, s) ← getInt s
    let r ← r.setVal x
    let s ← checkChar '=' s
    some (r, s)
  | (true, _) => none
  | (false, s) => some (r, s)

/-- `sRef_undump` and `sRef_undumpBody`, sRef.c:2452-2567. The number bounds the nesting. -/
def readN (eqv : Ref → Ref → Bool) : Nat → List Char → Option (Ref × List Char)
  | 0, _ => none
  | k + 1, s => do
    let (r, s) ← match s with
      | 'g' :: s => do let (n, s) ← getInt s; some (glob none n, s)
      | 'p' :: s => do let (n, s) ← getInt s; let r ← mkParam n; some (r, s)
      | 'r' :: s => do let (n, s) ← getInt s; some (result none n, s)
      | 'a' :: s =>
        if isIndex s then do
          let (i, s) ← getInt s
          let (r, s) ← readN eqv k s
          some (mkFetch (some i) r, s)
        else do
          let (r, s) ← readN eqv k s
          some (mkFetch none r, s)
      | 'f' :: s => do
        let s' ← checkChar '.' (s.dropWhile (· ≠ '.'))
        let (r, s') ← readN eqv k s'
        some (mkField (s.takeWhile (· ≠ '.')) r, s')
      | 's' :: s => do let (n, s) ← getInt s; let r ← mkSpecial n; some (r, s)
      | 't' :: s => do let (r, s) ← readN eqv k s; some (mkPtr r, s)
      | 'd' :: s => do let (r, s) ← readN eqv k s; some (mkAdr r, s)
      | 'o' :: s => do let (n, s) ← getInt s; some (object none n, s)
      | 'c' :: s => do
        let (a, s) ← readN eqv k s
        let (b, s) ← match s with | _ :: s => readN eqv k s | [] => none
        let r ← mkConj eqv a b
        some (r, s)
      | '-' :: s => some (undef, s)
      | 'u' :: s => some (unknown none, s)
      | 'x' :: s => some (unknown none, s)
      | _ => none
    readVal r s

/-- The text bounds the nesting. -/
def undump (eqv : Ref → Ref → Bool) (s : List Char) : Option (Ref × List Char) :=
  readN eqv (s.length + 1) s

/-- `sRefSet_dump`, sRefSet.c:1006-1033. -/
def dumpList : List Ref → List Char
  | [] => []
  | [r] => r.dump
  | r :: rs => r.dump ++ ',' :: dumpList rs

/-- `c != '#' && c != '@' && c != '$' && c != '&'`, sRefSet.c:990. -/
def isEnd (c : Char) : Bool := c = '#' || c = '@' || c = '$' || c = '&'

/-- `sRefSet_undump`, sRefSet.c:984-1004: the references that are inserted, in order. -/
def readListN (eqv : Ref → Ref → Bool) : Nat → List Char → Option (List Ref × List Char)
  | 0, _ => none
  | k + 1, s =>
    match s with
    | [] => none
    | c :: s' =>
      if isEnd c then some ([], c :: s')
      else do
        let (r, s) ← undump eqv (c :: s')
        let (rs, s) ← readListN eqv k (optCheckChar ',' s).2
        some (r :: rs, s)

def undumpList (eqv : Ref → Ref → Bool) (s : List Char) : Option (List Ref × List Char) :=
  readListN eqv (s.length + 1) s

end Ref
end Splint.Lib
