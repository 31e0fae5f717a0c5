import Verif.Model.SymSection
import Verif.Spec.LibEntry
import Verif.Props.ReadBack
/-!
What one may expect of a table of symbols that is written to a library and read back.
-/
namespace Splint.SymSection.Spec
open Reader Lib LibEntry.Spec

variable {E : Type}

/-- `e` is read back as `e'`, alone on a line: its text has no newline in it, whatever ends the name
may follow, and it fits on a line (so does its number). -/
structure Reads (c : Codec E) (e e' : E) : Prop where
  kind : 0 ≤ c.kind e ∧ c.kind e ≤ 10
  word : Name (c.name e)
  named : c.name e ≠ []
  noNewline : '\n' ∉ c.dump e
  head : ∀ d ds, c.dump e = d :: ds → isBlank d = false
  text : c.dump e ≠ []
  back : ∀ s, NameEnd s → c.undump (c.kind e) (c.dump e ++ s) = some (e', s)
  short : (c.dump e).length < 16360
  shortName : (c.name e).length ≤ 2092

/-- What item number `i` of table `t` may be read back as: a marker as a marker; an entry as it would be
read alone, or as an entry before it that is equivalent, with its name. -/
def ReadAs (c : Codec E) (back : E → E) (t : List (Item E)) (i : Nat) : Item E → Prop
  | .marker => t[i]? = some .marker
  | .ent x => ∃ e, t[i]? = some (.ent e) ∧
      (x = back e ∨ ∃ (j : Nat) (a : E), j < i ∧ t[j]? = some (.ent a) ∧ c.kind a = c.kind e ∧
        c.equiv a e = true ∧ x = c.rename (c.name e) (back a))

/-- Lines that begin with a semicolon. -/
def comments : List (List Char) → List Char
  | [] => []
  | l :: ls => ';' :: (l ++ '\n' :: comments ls)

open LibEntry
variable {F : Floats}

/-- The entries a table may have: a constant is one that reads back (see C15), any other entry has a
name. -/
def ValidSym (env : Env) : Sym F → Prop
  | .entry e => Valid env e ∧ e ≠ .elips ∧ Sym.name (F := F) (.entry e) ≠ []
  | .const _ ct r => Index ct ∧ r.wf env.sets.toNat ∧ Readable r.val

/-- The text fits on a line. -/
def Fits (x : Sym F) : Prop := '\n' ∉ x.dump ∧ x.dump.length < 16360 ∧ x.name.length ≤ 2092

/-- A variable nothing is known of becomes implicitly temporary (see C108). -/
def asTempIf : Entry → Entry
  | .var ct vk ds ns ak ex ch name =>
    .var ct vk ds ns (if ds = 0 ∧ ns = 0 ∧ ak = 0 ∧ ex = 0 ∧ ch = 0 then 7 else ak) ex ch name
  | e => e

/-- What an entry is read back as when it stands alone: a member of an enumeration is a constant. -/
def asRead : Sym F → Sym F
  | .entry e => .entry (asTempIf e)
  | .const _ ct r => .const false ct r

end Splint.SymSection.Spec
