import Verif.Model.Modify
import Verif.Spec.SRef
/-!
# What a modifies clause permits

Independent of the recursive checks: the storage that contains a storage, the alternatives of a
merged reference, and the storage that needs no permission.
-/
namespace Splint
namespace SRef

/-- The reference and everything that contains it, for each alternative. -/
def alts : SRef → List (List SRef)
  | fetch a r i => r.alts.map (fetch a r i :: ·)
  | field a r f => r.alts.map (field a r f :: ·)
  | ptr a r => r.alts.map (ptr a r :: ·)
  | adr a r => r.alts.map (adr a r :: ·)
  | conj _ x y => x.alts ++ y.alts
  | s => [[s]]

/-- The reference and everything that contains it. -/
def parts : SRef → List SRef
  | fetch a r i => fetch a r i :: r.parts
  | field a r f => field a r f :: r.parts
  | ptr a r => ptr a r :: r.parts
  | adr a r => adr a r :: r.parts
  | conj _ x y => x.parts ++ y.parts
  | s => [s]

/-- The alternatives of the outermost merges. -/
def tops : SRef → List SRef
  | conj _ x y => x.tops ++ y.tops
  | s => [s]

/-- Storage that may be modified without permission: local variables, variables that are not
checked, `only` parameters, and storage that is not the caller's. -/
def freeRoot (env : ModEnv) : SRef → Bool
  | cvar _ l i => decide (1 < l) || !checkGlobMod env.flags env.hasMods (env.annotation l i)
  | param _ n => env.isOnly n
  | special _ .internal => !env.flags.internalGlobs
  | special _ .system => false
  | fetch .. | field .. | ptr .. | adr .. | conj .. | result .. => false
  | _ => true

/-- Storage that is free when it is assigned itself: a parameter or a field of one. -/
def freeTop : SRef → Bool
  | param .. => true
  | field _ (param ..) _ => true
  | _ => false

/-- The internal state itself. -/
def isInternal : SRef → Bool
  | special _ .internal => true
  | _ => false

def notResult : SRef → Bool
  | result _ => false
  | _ => true

/-- Storage that a clause may list. -/
def markable : SRef → Bool
  | cvar _ l _ => decide (l ≤ 1)
  | param .. | fetch .. | field .. | ptr .. | adr .. => true
  | special _ .internal | special _ .system => true
  | _ => false

/-- The accesses a reference may stand for when `*p` may be any element of `p`. -/
def MayDenote : SRef → Access → Prop
  | cvar _ l i, p => p = ⟨.cvar l i, []⟩
  | param _ n, p => p = ⟨.param n, []⟩
  | unconstrained _ n, p => p = ⟨.unconstrained n, []⟩
  | special _ k, p => p = ⟨.special k, []⟩
  | fetch _ r (some i), p => ∃ q, r.MayDenote q ∧ p = ⟨q.root, .elem i :: q.steps⟩
  | fetch _ r none, p | ptr _ r, p => ∃ q i, r.MayDenote q ∧ p = ⟨q.root, .elem i :: q.steps⟩
  | field _ r f, p => ∃ q, r.MayDenote q ∧ p = ⟨q.root, .field f :: q.steps⟩
  | adr _ r, p => ∃ q, r.MayDenote q ∧ p = ⟨q.root, .adr :: q.steps⟩
  | _, _ => False

/-- Variables, parameters and special references, and elements, fields, targets and addresses of
them. -/
def simple : SRef → Bool
  | cvar .. | param .. | unconstrained .. | special .. | fetch .. | field .. | ptr .. | adr .. => true
  | _ => false

end SRef
end Splint
