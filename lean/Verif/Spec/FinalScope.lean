import Verif.Model.FinalScope
/-! Storage that must be released when its variable goes out of scope. -/
namespace Splint.FinalScope.Spec

/-- Kinds of storage that have to be released through the reference. -/
def ownKind : AlKind → Bool
  | .only | .impOnly | .fresh | .keep | .owned | .newRef => true
  | _ => false

/-- A reference by which storage has to be released: it is not null, and was not released. -/
def Owns (E : Env) (r : Nat) (s : RS) : Prop :=
  ownKind s.al = true ∧ s.defst ≠ .dead ∧ s.null = false ∧ E.guardNull r = false

/-- Local variables of no structure type. -/
def Plain (v : Var) : Prop := v.isFcn = false ∧ v.isGlobal = false ∧ v.isStatic = false ∧ v.isSU = false

/-- The messages that say that storage is not released. -/
def isLeak : Rep → Bool
  | .last | .newRef | .notReleased => true
  | _ => false

def Reported (v : Var) (s : St) : Prop := ∃ m, isLeak m = true ∧ (v.obj, m) ∈ s.out

/-- Each variable has a reference of its own, and each scope one variable of a name. -/
structure WF (scopes : List (List Var)) : Prop where
  refs : (scopes.flatten.map (·.ref)).Nodup
  objs : (scopes.flatten.map (·.obj)).Nodup
  names : ∀ sc ∈ scopes, (sc.map (·.name)).Nodup

/-- The variable is not hidden by one of the same name in an inner scope. -/
def Visible (scopes : List (List Var)) (v : Var) : Prop :=
  ∃ pre sc post, scopes = pre ++ sc :: post ∧ v ∈ sc ∧ ∀ s ∈ pre, ∀ w ∈ s, w.name ≠ v.name

end Splint.FinalScope.Spec
