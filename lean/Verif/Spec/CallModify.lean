import Verif.Model.CallModify
import Verif.Spec.Modify
import Verif.Spec.SRefSet
/-!
# What a call may modify

Independent of the checks: when storage may not be modified, and the storage a call modifies.
-/
namespace Splint
namespace SRef

/-- Some alternative of the reference has no part that is listed or free. -/
def Forbidden (env : ModEnv) (sl : Mods) (s : SRef) : Prop :=
  ∃ c ∈ s.alts, ∀ u ∈ c, (∀ e ∈ sl, u.similar e.1 = false) ∧ u.freeRoot env = false

instance (env : ModEnv) (sl : Mods) (s : SRef) : Decidable (Forbidden env sl s) := by
  unfold Forbidden; infer_instance

/-- Where the accesses of a reference start; for a merged reference, where those of its first
alternative start. -/
def origin : SRef → SRef
  | fetch _ r _ | field _ r _ | ptr _ r | adr _ r => r.origin
  | conj _ a _ => a.origin
  | s => s

/-- The reference starts at a global variable (or one of the file) without an annotation that asks for
checking. -/
def unannotated (env : ModEnv) (s : SRef) : Bool :=
  match s.origin with
  | cvar _ l i => decide (l ≤ 1) && decide (env.annotation l i = .unknown ∨ env.annotation l i = .unchecked)
  | _ => false

/-- The reference starts at a local variable. -/
def startsLocal (s : SRef) : Bool :=
  match s.origin with
  | cvar _ l _ => decide (1 < l)
  | _ => false

def notAdr : SRef → Bool
  | adr .. => false
  | _ => true

/-- An element of a clause that says that a function modifies internal state. -/
def internalElement : SRef → Bool
  | special _ .internal | special _ .specState => true
  | _ => false

/-- An element of the called function's clause that is not looked at: internal state without
`+modinternalstrict`, and static variables of another file. -/
def skipped (env : CallEnv) (s : SRef) : Bool :=
  (s.internalElement && !env.internalStrict) || (s.isFileStatic && env.otherFile)

/-- The storage that is looked at when `t` is modified: `t`, its aliases that differ from it, and, if
`again`, those with its name. -/
def Examined (env : CallEnv) (again : Prop) (t u : SRef) : Prop :=
  u = t ∨ (u ∈ env.aliases t ∧ (u.similar t = false ∨ (again ∧ env.sameName u t = true)))

/-- Storage for which `checkCallModifyAux` has an answer: not the result of a function, at most 25
accesses, not an observer that is reported as such. -/
def Answered (env : CallEnv) (u : SRef) : Prop :=
  u.every notResult = true ∧ u.wraps ≤ 25 ∧ (env.observer u && env.modObserver) = false

/-- The element of the called function's clause can be instantiated, and there is an answer for what
it stands for. -/
def Instance (env : CallEnv) (args : List (Option (Option SRef))) (s : SRef) : Prop :=
  ∃ t, fixBaseParam env args s = some t ∧ ∀ t', t = some t' →
    Answered env t' ∧ ∀ u ∈ env.aliases t', Answered env u

end SRef
end Splint
