import Verif.Model.AliasTable
import Verif.Spec.SRefSet
/-! # What alias tables say -/
namespace Splint
open SRef

/-- The recorded facts, as texts: `(k, v)` says that `k` may have the value of `v`. -/
def AliasTable.facts (t : AliasTable) : Set (SRef × SRef) :=
  {p | ∃ e ∈ t, e.key.strip = p.1 ∧ ∃ x ∈ SRefSet.elemsOf e.value, x.strip = p.2}

namespace SRef

/-- A variable or parameter, and elements with known index, fields and targets of it, in the memory
`H`. -/
def PathRef (H : Nat → SRef) (s : SRef) : Prop :=
  s.InHeap H ∧ s.isPath = true ∧ s.every exact = true

/-- Whether the text `s` goes when the text `t` is assigned to: for a variable, a parameter and an
array element everything inside `t`; for a field (target of a pointer) everything whose innermost
field (target) is `t`. -/
def killed (s t : SRef) : Prop :=
  if t.isField then s.containers.find? isField = some t
  else if t.isPtr then s.containers.find? isPtr = some t
  else t ∈ s.containers

/-- The memory seen through the operators: what is found by `*`, by a field and by an index. -/
structure Reading where
  ptr : Nat → Nat
  field : Nat → Nat → Nat
  fetch : Nat → Option Int → Nat

/-- The value of a path, given the values of variables (as texts). -/
def value (M : Reading) (ρ : SRef → Nat) : SRef → Nat
  | ptr _ r => M.ptr (value M ρ r)
  | field _ r f => M.field (value M ρ r) f
  | fetch _ r i => M.fetch (value M ρ r) i
  | s => ρ s.strip

/-- A variable or parameter. -/
def isVar : SRef → Bool
  | cvar .. | param .. => true
  | _ => false

/-- The variable a path starts with. -/
def base : SRef → SRef
  | ptr _ r => r.base
  | field _ r _ => r.base
  | fetch _ r _ => r.base
  | s => s

end SRef

/-- The references made by the environment are the ones of the operators, in the same memory. -/
structure AliasEnv.Faithful (env : AliasEnv) (H : Nat → SRef) : Prop where
  pointer : ∀ el p, PathRef H el → env.pointer el = some p → PathRef H p ∧ p.strip = .ptr 0 el.strip
  field : ∀ el f p, PathRef H el → env.field el f = some p →
    PathRef H p ∧ p.strip = .field 0 el.strip f
  fetch : ∀ el i p, PathRef H el → env.fetch el (some i) = some p →
    PathRef H p ∧ p.strip = .fetch 0 el.strip (some i)
  fixBase : ∀ s el, PathRef H s → PathRef H el → PathRef H (env.fixBase s el)

/-- A step of a history: an assignment, or a reference whose value becomes unknown
(transferChecks.c:2238). -/
inductive AliasOp where
  | assign (s1 s2 : SRef)
  | kill (s : SRef)

namespace AliasOp

/-- The references of a step are paths. -/
def Ok (H : Nat → SRef) : AliasOp → Prop
  | assign s1 s2 => PathRef H s1 ∧ PathRef H s2
  | kill s => PathRef H s

/-- The reference whose value changes. -/
def target : AliasOp → SRef
  | assign s _ | kill s => s

/-- The code's step. -/
def run (env : AliasEnv) (cm : Nat → Nat → Bool) (t : AliasTable) : AliasOp → Option AliasTable
  | assign s1 s2 => AliasTable.assign env cm t s1 s2
  | kill s => some (AliasTable.clearAliases env t s)

/-- A history. -/
def runAll (env : AliasEnv) (cm : Nat → Nat → Bool) :
    AliasTable → List AliasOp → Option AliasTable
  | t, [] => some t
  | t, op :: ops => (op.run env cm t).bind fun t => runAll env cm t ops

end AliasOp
end Splint
