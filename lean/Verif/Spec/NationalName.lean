import Verif.Model.NationalName
/-!
# The national naming conventions, as the manual has them

Section 12.1 of the manual: a Czech name is `<type>_<name>`, a Slovak name `<type><Name>`.
-/
namespace Splint
namespace National
open NameCheck

/-- `<prefix>_<name>`: the prefix is what is in front of the first underscore. -/
def CzechSplit (name pfx : Bytes) : Prop := ∃ rest, name = pfx ++ underscore :: rest ∧ underscore ∉ pfx

/-- `<prefix><Name>`: the prefix has no uppercase letter, the remainder starts with one. -/
def SlovakSplit (name pfx : Bytes) : Prop :=
  ∃ u rest, name = pfx ++ u :: rest ∧ isupper u = true ∧ ∀ c ∈ pfx, isupper c = false

/-- The prefix of a name by a convention. -/
def Split : Conv → Bytes → Bytes → Prop
  | .czech => CzechSplit
  | .slovak => SlovakSplit
  | .czechoslovak => fun name pfx => CzechSplit name pfx ∨ SlovakSplit name pfx

/-- The type is accessible as it is. -/
def Accessible (env : Env) : TypeKind → Prop
  | .user => True
  | .abstract t => env.hasAccess t = true
  | .bool => env.boolAccess = true
  | .other => True

/-- Types are accessible by the name of what is declared. -/
def ByName (env : Env) (c : Conv) : Prop := env.accessOn c = true ∨ env.accessOn .czechoslovak = true

/-- A prefix that may be used: the name of a type that is, or becomes, accessible, a built-in type, or the name of
the module. -/
def Usable (env : Env) (c : Conv) (pfx : Bytes) : Prop :=
  (∃ k, env.types pfx = some k ∧ (Accessible env k ∨ ByName env c)) ∨
  (env.types pfx = none ∧
    (pfx ∈ ["int", "char", "short", "long", "unsigned", "signed", "float", "double"].map lit ∨ pfx = env.module_))

/-- The type that is named by the prefix, if it is not accessible yet. -/
def Hidden (env : Env) (pfx : Bytes) (t : Nat) : Prop :=
  (env.types pfx = some (.abstract t) ∧ env.hasAccess t = false) ∨
  (env.types pfx = some .bool ∧ env.boolAccess = false ∧ t = env.boolType)

/-- It has no prefix: there is none, or it is empty. -/
def Bare (c : Conv) (name : Bytes) : Prop := ∀ pfx, Split c name pfx → pfx = []

/-- The name of an operation, variable or constant violates the convention. -/
def BadCzech (env : Env) (d : Decl) : Prop :=
  (∃ pfx, CzechSplit d.name pfx ∧ pfx ≠ [] ∧ ¬ Usable env .czech pfx) ∨
  (Bare .czech d.name ∧
    ((d.kind ∈ [.function, .iter] ∧ env.fileTypes ≠ []) ∨
     (d.kind ∈ [.variable_, .macro_, .constant] ∧ ∃ t, d.abstract = some t ∧ env.hasAccess t = true)))

def BadSlovak (env : Env) (d : Decl) : Prop :=
  (∃ pfx, SlovakSplit d.name pfx ∧ pfx ≠ [] ∧ ¬ Usable env .slovak pfx) ∨
  (Bare .slovak d.name ∧ env.fileTypes ≠ [] ∧ (d.kind = .function ∨ d.ua = true))

/-- An underscore that is not the second or third character. -/
def FarUnderscore (name : Bytes) : Prop := ∃ i, name[i]? = some underscore ∧ i ≠ 1 ∧ i ≠ 2

/-- The group of flags for a kind of declaration. -/
inductive InGroup : Kind → Group → Prop
  | function : InGroup .function .functions
  | iter : InGroup .iter .functions
  | macro_ : InGroup .macro_ .macros
  | variable_ : InGroup .variable_ .vars
  | constant : InGroup .constant .constants
  | datatype : InGroup .datatype .types

end National
end Splint
