import Verif.Model.Unused
/-!
# Which declarations are reported as unused
-/
namespace Splint
namespace Unused

/-- Where the entry is: where it is declared, else where it is defined. -/
def At (e : Entry) (l : Loc) : Prop := e.declared = some l ∨ (e.declared = none ∧ e.defined = some l)

/-- The declaration is one of the program: not of a library, not built in, not in a special file. -/
def Mine (env : Env) (e : Entry) : Prop :=
  ∃ l, At e l ∧ l.valid = true ∧ l.kind ∉ [.lib, .stdHdr, .stdLib, .builtin] ∧
    (env.unusedSpecial = false → l.special = false ∧ ∀ l', e.defined = some l' → l'.special = false)

/-- It is in a source file. -/
def InSource (e : Entry) : Prop := ∃ l, At e l ∧ l.kind = .normal

/-- The kinds of variables that are not parameters of the function that is checked or copies of them. -/
def VarLike (v : VKind) : Prop := v ∈ [.spec, .normal, .retParam, .sefParam, .sefRetParam]

/-- What is said of an unused declaration. -/
inductive Says (env : Env) (e : Entry) : Flag → Prop
  | param : env.inMacro = false → e.kind ∈ [.var .param, .var .yieldParam] → e.dots = false → Says env e .paramUnused
  | macroParam : env.inMacro = true → e.kind = .var .param → e.safe = false → e.realName = true →
      Says env e .macroParams
  | function : e.kind ∈ [.function, .iter] → InSource e → Says env e .funcUnused
  | enumConst : e.kind = .enumConst → InSource e → Says env e .enumMemUnused
  | constant : e.kind = .constant → InSource e → Says env e .constUnused
  | datatype : e.kind = .datatype → InSource e → Says env e .typeUnused
  | fnVar (v : VKind) : e.kind = .var v → VarLike v → e.fnType = true → InSource e → Says env e .funcUnused
  | var (v : VKind) : e.kind = .var v → VarLike v → e.fnType = false → InSource e → Says env e .varUnused

/-- The fields of the entry are looked at: it is a tag, or a type that is used. -/
def Looked (env : Env) (e : Entry) : Prop := Mine env e ∧ (e.kind = .tag ∨ (e.kind = .datatype ∧ e.used = true))

end Unused
end Splint
