import Verif.Tactics
/-!
# Mappings from types to sorts

Models src/mapping.c:36-124 (`mapping_create`, `mapping_find`, `mapping_bind`) and its use in `lsymbol_translateSort`
(src/symtable.c:825-832) and the last part of `lsymbol_sortFromType` (src/symtable.c:585-593).

Simplifications: symbols are natural numbers without a bound, 0 is `lsymbol_undefined`; `count` has no bound. Memory
is not reused, so releasing a mapping is not modelled. The outcome `none` is an access outside of the array.
-/
namespace Splint.Mapping

abbrev Sym := Nat

def undefined : Sym := 0

/-- `MAPPING_SIZE` -/
def mappingSize : Nat := 127

/-- `MMASH` -/
def mmash (key : Sym) : Nat := key &&& mappingSize

/-- a `mapping`: `buckets` are lists of pairs of domain and range -/
structure M where
  count : Nat
  buckets : List (List (Sym × Sym))
deriving DecidableEq, Repr

/-- `mapping_create`: the array has `MAPPING_SIZE + 1` elements -/
def create : M := ⟨0, List.replicate (mappingSize + 1) []⟩

/-- the loop of `mapping_find` -/
def scan (domain : Sym) : List (Sym × Sym) → Sym
  | [] => undefined
  | e :: es => if e.1 = domain then e.2 else scan domain es

/-- `mapping_find` -/
def find (t : M) (domain : Sym) : Option Sym := (t.buckets[mmash domain]?).map (scan domain)

/-- `mapping_bind` -/
def bind (t : M) (domain range : Sym) : Option M :=
  (t.buckets[mmash domain]?).map fun entry =>
    ⟨t.count + 1, t.buckets.set (mmash domain) ((domain, range) :: entry)⟩

/-- `lsymbol_translateSort` -/
def translateSort (m : M) (s : Sym) : Option Sym := (find m s).map fun res => if res = undefined then s else res

/-- any number of bindings, the first one first -/
def bindAll : M → List (Sym × Sym) → Option M
  | t, [] => some t
  | t, b :: bs => (Mapping.bind t b.1 b.2).bind fun t => bindAll t bs

end Splint.Mapping
