import Verif.Model.LibEntry
import Verif.Spec.LibRef
/-!
Which entries and types the program can have, as far as they are written to a library, and which
texts may follow them there.
-/
namespace Splint.LibEntry.Spec
open Reader Lib Lib.Spec

/-- A name: none of the characters that end a word (blanks, commas, number signs). -/
def Name (w : List Char) : Prop := ∀ c ∈ w, isWordChar c = true

/-- A text that does not continue a name. -/
def NameEnd (s : List Char) : Prop := ∀ c cs, s = c :: cs → isWordChar c = false

/-- The number of a type, of an entry or of a set of types. -/
def Index (n : Int) : Prop := 0 ≤ n ∧ n < 2 ^ 31

/-- Numbers of the enumerations: 16 states of definition, null states from `NS_ERROR` (-1) to
`NS_ABSNULL` (7), 22 alias kinds, 4 kinds of exposure, 13 kinds of exit, 4 special codes. -/
def DefState (n : Int) : Prop := 0 ≤ n ∧ n ≤ 15
def NullState (n : Int) : Prop := -1 ≤ n ∧ n ≤ 7
def AliasKind (n : Int) : Prop := 0 ≤ n ∧ n ≤ 21
def ExKind (n : Int) : Prop := 0 ≤ n ∧ n ≤ 3
def ExitCode (n : Int) : Prop := 0 ≤ n ∧ n ≤ 12
def SpecCode (n : Int) : Prop := 0 ≤ n ∧ n ≤ 3

/-- Built-in qualifiers are numbered from 0 to 65; an annotation has a name and is known. -/
def ValidQual (env : Env) : Qual → Prop
  | .plain n => 0 ≤ n ∧ n ≤ 65
  | .annot a => a ≠ [] ∧ '.' ∉ a ∧ env.known a = true

def ValidGlob : GRef → Prop
  | .undef => True
  | .glob n ds ns => Index n ∧ DefState ds ∧ NullState ns
  | .special k => 0 ≤ k ∧ k ≤ 3
  | .unknown => True

/-- Flags have names; a message is not empty, does not begin with a dot (warnClause.c:129) and has no
number sign in it (warnClause.c:125). -/
def ValidWarn (w : Warn) : Prop :=
  (∀ f ∈ w.flag :: w.flags, f ≠ [] ∧ '#' ∉ f ∧ '|' ∉ f) ∧
    ∀ m, w.msg = some m → m ≠ [] ∧ m.head? ≠ some '.' ∧ '#' ∉ m

def ValidClause (env : Env) (c : Clause) : Prop :=
  Index c.state ∧ Index c.kind ∧ ValidQual env c.squal ∧ ∀ r ∈ c.refs, Good env.eqv r

/-- Whether a function has `truenull` or `falsenull` is a built-in qualifier; without a clause
there is no list. -/
structure ValidFcn (env : Env) (f : Fcn) : Prop where
  ds : DefState f.ds
  ns : NullState f.ns
  exit : ExitCode f.exit
  spec : SpecCode f.spec
  nullPred : ∃ n, f.nullPred = .plain n ∧ 0 ≤ n ∧ n ≤ 65
  noGlobs : f.hasGlobs = false → f.globs = []
  globs : ∀ g ∈ f.globs, ValidGlob g
  noMods : f.hasMods = false → f.mods = []
  mods : ∀ r ∈ f.mods, Good env.eqv r
  ak : AliasKind f.ak
  ex : ExKind f.ex
  access : 0 ≤ f.access ∧ f.access < env.sets ∧ f.access < 2 ^ 31
  warn : ∀ w, f.warn = some w → ValidWarn w
  clauses : ∀ l, f.clauses = some l → ∀ c ∈ l, ValidClause env c

/-- The entries of a symbol table. The entry for the end of an iterator has no known type. -/
def Valid (env : Env) : Entry → Prop
  | .elips => True
  | .var ct vk ds ns ak ex ch name =>
    Index ct ∧ (0 ≤ vk ∧ vk ≤ 11) ∧ DefState ds ∧ NullState ns ∧ AliasKind ak ∧ ExKind ex ∧
      (0 ≤ ch ∧ ch ≤ 4) ∧ Name name
  | .datatype ct _ _ ds ns ak ex rt name =>
    Index ct ∧ DefState ds ∧ NullState ns ∧ AliasKind ak ∧ ExKind ex ∧ Index rt ∧ Name name
  | .fcn ct f name => Index ct ∧ ValidFcn env f ∧ Name name
  | .iter ct access name =>
    Index ct ∧ (0 ≤ access ∧ access < env.sets ∧ access < 2 ^ 31) ∧ Name name
  | .endIter ct access name =>
    ct = 0 ∧ (0 ≤ access ∧ access < env.sets ∧ access < 2 ^ 31) ∧ Name name
  | .tag _ ct rt name => Index ct ∧ Index rt ∧ Name name

/-- Under which heading an entry is found in the library. -/
def KindOf : Entry → Kind → Prop
  | .elips, _ => True
  | .var .., k => k = .var
  | .datatype .., k => k = .datatype
  | .fcn .., k => k = .fcn
  | .iter .., k => k = .iter
  | .endIter .., k => k = .endIter
  | .tag t .., k => k = .tag t

/-- A variable nothing is known of: no state, no null state, no alias kind, no exposure, no
checking. -/
def Blank : Entry → Prop
  | .var _ _ ds ns ak ex ch _ => ds = 0 ∧ ns = 0 ∧ ak = 0 ∧ ex = 0 ∧ ch = 0
  | _ => False

/-- The same variable, implicitly temporary (alias kind 7, `AK_IMPTEMP`). -/
def asTemp : Entry → Entry
  | .var ct vk ds ns _ ex ch name => .var ct vk ds ns 7 ex ch name
  | e => e

/-- A parameter is written without its name. -/
def unnamed : Entry → Entry
  | .var ct vk ds ns ak ex ch _ => .var ct vk ds ns ak ex ch []
  | e => e

/-- A parameter: a variable without a name, or `...`. -/
def ValidParam (env : Env) (e : Entry) : Prop :=
  Valid env e ∧ ¬ Blank e ∧ (e = .elips ∨ ∃ ct vk ds ns ak ex ch, e = .var ct vk ds ns ak ex ch [])

/-- A field: a variable or a function. -/
def ValidField (env : Env) (e : Entry) : Prop :=
  Valid env e ∧ ¬ Blank e ∧
    ((∃ ct vk ds ns ak ex ch w, e = .var ct vk ds ns ak ex ch w) ∨ ∃ ct f w, e = .fcn ct f w)

/-- Types that are complete: no function type that is still expected, no bare list of enumeration
members. -/
def ValidBase (env : Env) : Base → Prop
  | .undefined | .unknown | .bool => True
  | .prim p => 0 ≤ p ∧ p ≤ 18
  | .user t | .abst t | .numAbst t | .ptr t | .array t => Index t
  | .fixedArray t n => Index t ∧ Index n
  | .fcn ct ps => Index ct ∧ ∀ e ∈ ps, ValidParam env e
  | .struct w fs | .union w fs => '{' ∉ w ∧ ∀ e ∈ fs, ValidField env e
  | .enum w ms => '{' ∉ w ∧ ∀ m ∈ ms, m ≠ [] ∧ ',' ∉ m ∧ '}' ∉ m
  | .conj _ a b => Index a ∧ Index b
  | .expFcn _ | .enumList _ => False

/-- The numbers of a type's relatives: types, or -1 or -2 for none. -/
def Link (n : Int) : Prop := -3 ≤ n ∧ n < 2 ^ 31

structure ValidType (env : Env) (e : TEntry) : Prop where
  kind : -3 ≤ e.kind ∧ e.kind ≤ 3
  base : ValidBase env e.base
  bt : Link e.bt
  ptr : Link e.ptr
  array : Link e.array

end Splint.LibEntry.Spec
