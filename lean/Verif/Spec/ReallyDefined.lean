import Verif.Model.ReallyDefined
/-!
# Which storage is completely defined

Independent of the search: what the parts of storage are, and which part is not defined.
-/
namespace Splint
namespace ReallyDefined

variable {α : Type}

/-- A state that leaves it to the parts whether storage is defined. -/
def Open (env : Env α) (s : α) : Prop :=
  env.known s = true ∧ env.state s ∉ [.defined, .relDef, .partial_, .unuseable, .undefined, .unknown]

/-- Storage that is itself not defined. -/
def Bad (env : Env α) (s : α) : Prop :=
  env.known s = true ∧ (env.state s = .unuseable ∨ env.state s = .undefined ∨
    (env.view s = .struct ∧ env.state s = .unknown))

/-- The parts that are looked at: what a pointer points to, and the mentioned fields of a partly
defined structure. -/
inductive Part (env : Env α) : α → α → Prop
  | target (s : α) : Open env s → env.view s = .pointer → Part env s (env.deref s)
  | field (s f : α) : Open env s → env.view s = .struct → env.state s = .pDefined → f ∈ env.mentioned s →
      env.recursive f = false → Part env s f

/-- The parts that must be defined (sRef.c:4855-4857: "for structures, each field must be completely
defined"): also all fields of an allocated structure, unless they are declared reldef. -/
inductive Must (env : Env α) : α → α → Prop
  | part (s r : α) : Part env s r → Must env s r
  | all (s f : α) : Open env s → env.view s = .struct → env.state s = .allocated →
      (f, false) ∈ env.fields s → env.recursive f = false → Must env s f

/-- In at most `n` steps. -/
inductive Within (R : α → α → Prop) : Nat → α → α → Prop
  | here (n : Nat) (s : α) : Within R n s s
  | step (n : Nat) (s t u : α) : R s t → Within R n t u → Within R (n + 1) s u

end ReallyDefined
end Splint
