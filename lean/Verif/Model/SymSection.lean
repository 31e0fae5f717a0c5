import Verif.Model.FlagTable
import Verif.Model.LibEntry
import Verif.Model.ConstraintDump
/-!
# The symbol table in library files

Model of src/usymtab.c:1731-1829 (`usymtab_dump`, up to the constraints) and 1888-2024 (`usymtab_load`,
up to the constraints), src/uentry.c:4113-4123 (`uentry_equiv`), 4185-4258 (`uentry_compare`), 5269-5292
and 5010-5036 (constants in `uentry_dumpAux` and `uentry_undump`), 6580-6606 (`uentry_nameCopy`),
src/ekind.c:30-42 (`ekind_fromInt`), 86-105 (`ekind_capName`) and src/reader.c:233-248
(`reader_readLine`).

Simplifications:
* an entry is what is written of it, see Model/LibEntry; what else is compared of two entries (whether
  they are private, what kind of storage they are, their original alias and exposure kinds, their
  types as `ctype_compare` sees them) is a parameter;
* a file is its characters, none of which is NUL;
* the outcome `none` is a fatal error, a failed assertion, an internal bug report, or reading behind
  the end of a line.
-/
namespace Splint.SymSection
open Reader Lib

/-- What the section is made of, whatever an entry is. -/
structure Codec (E : Type) where
  /-- `ekind` -/
  kind : E → Int
  /-- `uentry_rawName` -/
  name : E → List Char
  /-- `uentry_nameCopy` -/
  rename : List Char → E → E
  /-- `uentry_dump` -/
  dump : E → List Char
  /-- `uentry_undump` -/
  undump : Int → List Char → Option (E × List Char)
  /-- `uentry_equiv` -/
  equiv : E → E → Bool

/-- The table: entries, and markers behind which names are local to a file. -/
inductive Item (E : Type) where
  | marker
  | ent (e : E)
  deriving DecidableEq, Repr

/-- `ekind_capName`, ekind.c:86-105. -/
def capName (k : Int) : List Char :=
  if k = 0 then c!"Datatype" else if k = 1 then c!"Constant" else if k = 2 then c!"Enum member"
  else if k = 3 then c!"Variable" else if k = 4 then c!"Function" else if k = 5 then c!"Iterator"
  else if k = 6 then c!"Iterator finalizer" else if k = 7 then c!"Struct tag"
  else if k = 8 then c!"Union tag" else if k = 9 then c!"Enum tag" else c!"..."

/-- `"*%d (%s)\n"` -/
def heading (k : Int) (w : List Char) : List Char :=
  '*' :: (intText k ++ ' ' :: '(' :: (w ++ [')', '\n']))

/-- `KINVALID` and `KGLOBALMARKER` -/
def kInvalid : Int := -1
def kMarker : Int := 11

/-- `MAX_DUMP_LINE_LENGTH - (2 * MAX_NAME_LENGTH) - 48` -/
def maxGroup : Nat := 16384 - 2 * 1024 - 48

/-- The variables of `usymtab_dump`. -/
structure St (E : Type) where
  needNl : Bool
  last : Option E
  lastKind : Int
  len : Nat

variable {E : Type}

def nl (b : Bool) : List Char := if b then ['\n'] else []

/-- usymtab.c:1780-1785: whether an entry gets a line of its own. -/
def newLine (c : Codec E) (st : St E) (e : E) : Bool :=
  match st.last with
  | none => true
  | some a => !c.equiv a e || decide (maxGroup < st.len)

/-- The text of an entry with its number. -/
def entText (c : Codec E) (i : Nat) (e : E) : List Char :=
  '^' :: (intText i ++ ' ' :: c.dump e)

/-- The loop of `usymtab_dump`, usymtab.c:1745-1825, at the entry of number `i`. -/
def dumpFrom (c : Codec E) : Nat → St E → List (Item E) → List Char
  | _, st, [] => nl st.needNl
  | i, st, .marker :: r =>
    nl st.needNl ++ (heading kMarker c!"GlobalMarker" ++
      dumpFrom c (i + 1) { st with lastKind := kInvalid, len := 0, needNl := false } r)
  | i, st, .ent e :: r =>
    let p : List Char × St E :=
      if c.kind e ≠ st.lastKind then
        (nl st.needNl ++ heading (c.kind e) (capName (c.kind e)), ⟨false, none, c.kind e, 0⟩)
      else ([], st)
    p.1 ++
      if newLine c p.2 e then
        nl p.2.needNl ++ (entText c i e ++
          dumpFrom c (i + 1)
            { p.2 with last := some e, needNl := true,
                       len := (if p.2.needNl then 0 else p.2.len) + (entText c i e).length } r)
      else
        '#' :: (c.name e ++ dumpFrom c (i + 1) { p.2 with len := p.2.len + (c.name e).length + 1 } r)

/-- The table. -/
def dump (c : Codec E) (t : List (Item E)) : List Char := dumpFrom c 0 ⟨false, none, kInvalid, 0⟩ t

/-! ## Reading -/

inductive Line where
  | eof
  | fatal
  | got (s rest : List Char)

/-- `reader_readLine`, reader.c:233-248. -/
def readLine (f : List Char) : Line :=
  match fgets f with
  | none => .eof
  | some (s, f) => if s.length = maxLine - 1 then .fatal else .got s f

/-- usymtab.c:1996-2013: further names, and nothing else up to the end of the line. The number bounds the names. -/
def namesN : Nat → List Char → Option (List (List Char))
  | 0, _ => none
  | k + 1, s =>
    match s with
    | [] => none
    | c :: s =>
      if c = '#' then do
        let ws ← namesN k (getWord s).2
        some (((getWord s).1.getD []) :: ws)
      else if s = [] ∨ s.head? = some '\n' then some [] else none

/-- usymtab.c:1941-1948: the number of the entry, if there is one. -/
def indexOf (s : List Char) : Option (Option Int × List Char) :=
  match optCheckChar '^' s with
  | (true, s) => do
    let (i, s) ← getInt s
    some (some i, s)
  | (false, s) => some (none, s)

/-- usymtab.c:1941-2013: one line of entries; `n` is the number of those that are there. -/
def loadLine (c : Codec E) (kind : Int) (n : Nat) (s : List Char) : Option (List (Item E)) := do
  let (i, s) ← indexOf s
  if kind = kInvalid then none
  let (e, s) ← c.undump kind s
  if i = none ∨ i = some (n : Int) then
    let ws ← namesN (s.length + 1) s
    some (.ent e :: ws.map fun w => .ent (c.rename w e))
  else none

/-- The loop of `usymtab_load`, usymtab.c:1910-2018; the first number bounds the lines. -/
def loadN (c : Codec E) : Nat → Int → Nat → List Char → Option (List (Item E) × List Char)
  | 0, _, _, _ => none
  | k + 1, kind, n, f =>
    match readLine f with
    | .fatal => none
    | .eof => some ([], [])
    | .got s f =>
      match s with
      | ';' :: _ => some ([], f)
      | '*' :: s => do
        let (ek, _) ← getInt s
        if ek = kMarker then do
          let (es, f) ← loadN c k kInvalid (n + 1) f
          some (.marker :: es, f)
        else if -1 ≤ ek ∧ ek ≤ 10 then loadN c k ek n f
        else none
      | '$' :: _ => none
      | s => do
        let es ← loadLine c kind n s
        let (es', f) ← loadN c k kind (n + es.length) f
        some (es ++ es', f)

/-- usymtab.c:1904-1908: comments at the beginning; the number bounds them. -/
def skipN : Nat → List Char → Option (List Char)
  | 0, _ => none
  | k + 1, f =>
    match readLine f with
    | .fatal => none
    | .eof => some f
    | .got s f' => if s.head? = some ';' then skipN k f' else some f

/-- `usymtab_load`, up to the constraints. -/
def load (c : Codec E) (f : List Char) : Option (List (Item E) × List Char) := do
  let f ← skipN (f.length + 1) f
  loadN c (2 * f.length + 2) kInvalid 0 f

/-! ## Entries -/

open LibEntry in
/-- An entry: a constant, or any other. -/
inductive Sym (F : Floats) where
  | entry (e : Entry)
  | const (isEnum : Bool) (ct : Int) (r : ConstRec F)

namespace Sym
open LibEntry
variable {F : Floats}

/-- `ekind`, ekind.h:11-18. -/
def kind : Sym F → Int
  | .entry (.datatype ..) => 0
  | .const false _ _ => 1
  | .const true _ _ => 2
  | .entry (.var ..) => 3
  | .entry (.fcn ..) => 4
  | .entry (.iter ..) => 5
  | .entry (.endIter ..) => 6
  | .entry (.tag .struct ..) => 7
  | .entry (.tag .union ..) => 8
  | .entry (.tag .enum ..) => 9
  | .entry .elips => 10

def name : Sym F → List Char
  | .entry (.datatype _ _ _ _ _ _ _ _ w) => w
  | .const _ _ r => r.name
  | .entry (.var _ _ _ _ _ _ _ w) => w
  | .entry (.fcn _ _ w) => w
  | .entry (.iter _ _ w) => w
  | .entry (.endIter _ _ w) => w
  | .entry (.tag _ _ _ w) => w
  | .entry .elips => []

/-- `uentry_nameCopy`, uentry.c:6580-6606. -/
def rename (w : List Char) : Sym F → Sym F
  | .entry (.datatype ct a m ds ns ak ex rt _) => .entry (.datatype ct a m ds ns ak ex rt w)
  | .const b ct r => .const b ct { r with name := w }
  | .entry (.var ct vk ds ns ak ex ch _) => .entry (.var ct vk ds ns ak ex ch w)
  | .entry (.fcn ct f _) => .entry (.fcn ct f w)
  | .entry (.iter ct a _) => .entry (.iter ct a w)
  | .entry (.endIter ct a _) => .entry (.endIter ct a w)
  | .entry (.tag t ct rt _) => .entry (.tag t ct rt w)
  | .entry .elips => .entry .elips

def dump : Sym F → List Char
  | .entry e => e.dump false
  | .const _ ct r => typeText ct ++ r.dump

/-- The `Kind` of a number. -/
def kindOf (k : Int) : Option Kind :=
  if k = 0 then some .datatype else if k = 3 then some .var else if k = 4 then some .fcn
  else if k = 5 then some .iter else if k = 6 then some .endIter else if k = 7 then some (.tag .struct)
  else if k = 8 then some (.tag .union) else if k = 9 then some (.tag .enum) else none

/-- `uentry_undump`; every constant is made by `uentry_makeConstantBase`, so it is no member of an
enumeration. -/
def undump (env : Env) (k : Int) (s : List Char) : Option (Sym F × List Char) :=
  if k = 1 ∨ k = 2 then do
    let (ct, s) ← getInt s
    let (r, s) ← ConstRec.undump env.sets.toNat s
    some (.const false ct r, s)
  else do
    let kd ← kindOf k
    let (e, s) ← Entry.undump env kd s
    some (.entry e, s)

/-- `uentry_compare` is 0, uentry.c:4185-4258, with `sRef_compare`, sRef.c:1566-1634; `T` is that
`ctype_compare` is 0, `rest` all that is compared and not written. -/
def equiv (T : Int → Int → Bool) (rest : Sym F → Sym F → Bool) : Sym F → Sym F → Bool
  | a@(.entry (.var ct vk ds ns ak _ ch _)), b@(.entry (.var ct' vk' ds' ns' ak' _ ch' _)) =>
    T ct ct' && ds = ds' && ak = ak' && ns = ns' && vk = vk' && ch = ch' && rest a b
  | a@(.entry (.datatype ct ab m ds ns ak _ rt _)), b@(.entry (.datatype ct' ab' m' ds' ns' ak' _ rt' _)) =>
    T ct ct' && ds = ds' && ak = ak' && ns = ns' && T rt rt' && decide (Ynm.compare m m' = 0) && ab = ab' && rest a b
  | a@(.entry (.iter ct ac _)), b@(.entry (.iter ct' ac' _)) => T ct ct' && ac = ac' && rest a b
  | a@(.entry (.endIter ct ac _)), b@(.entry (.endIter ct' ac' _)) => T ct ct' && ac = ac' && rest a b
  | a@(.entry (.tag t ct rt _)), b@(.entry (.tag t' ct' rt' _)) =>
    decide (t = t') && T ct ct' && T rt rt' && rest a b
  | a@(.const en ct r), b@(.const en' ct' r') =>
    decide (en = en') && T ct ct' && r.nullst = r'.nullst && decide (MultiVal.compare r.val r'.val = 0) && rest a b
  | _, _ => false

/-- Everything together. -/
def codec (env : Env) (T : Int → Int → Bool) (rest : Sym F → Sym F → Bool) : Codec (Sym F) where
  kind := kind
  name := name
  rename := rename
  dump := dump
  undump := undump env
  equiv := equiv T rest

end Sym
end Splint.SymSection
