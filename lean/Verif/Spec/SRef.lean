import Verif.Model.SRef
/-!
# What storage references denote

Independent of the comparison functions: the text of a reference, and the accesses it may stand for.
-/
namespace Splint
namespace SRef

/-- The reference without addresses: what the user sees. -/
def strip : SRef → SRef
  | cvar _ l i => cvar 0 l i
  | param _ n => param 0 n
  | fetch _ r i => fetch 0 r.strip i
  | field _ r f => field 0 r.strip f
  | ptr _ r => ptr 0 r.strip
  | adr _ r => adr 0 r.strip
  | conj _ a b => conj 0 a.strip b.strip
  | derived _ r => derived 0 r.strip
  | external _ r => external 0 r.strip
  | object _ c => object 0 c
  | unconstrained _ n => unconstrained 0 n
  | special _ k => special 0 k
  | const _ => const 0
  | new _ => new 0
  | type _ => type 0
  | result _ => result 0
  | unknown _ => unknown 0

/-- The reference and its parts live in the memory `H`: an address has one structure. -/
def InHeap (H : Nat → SRef) : SRef → Prop
  | fetch a r i => H a = fetch a r i ∧ r.InHeap H
  | field a r f => H a = field a r f ∧ r.InHeap H
  | ptr a r => H a = ptr a r ∧ r.InHeap H
  | adr a r => H a = adr a r ∧ r.InHeap H
  | derived a r => H a = derived a r ∧ r.InHeap H
  | external a r => H a = external a r ∧ r.InHeap H
  | conj a x y => H a = conj a x y ∧ x.InHeap H ∧ y.InHeap H
  | s => H s.addr = s

/-- Every part of the reference has a kind in `k`. -/
def every (k : SRef → Bool) : SRef → Bool
  | fetch a r i => k (fetch a r i) && r.every k
  | field a r f => k (field a r f) && r.every k
  | ptr a r => k (ptr a r) && r.every k
  | adr a r => k (adr a r) && r.every k
  | derived a r => k (derived a r) && r.every k
  | external a r => k (external a r) && r.every k
  | conj a x y => k (conj a x y) && x.every k && y.every k
  | s => k s

/-- Variables, parameters, elements, fields, targets, addresses, derived and external storage,
unconstrained calls and special references: the kinds that `sRef_realSame` compares. -/
def comparable : SRef → Bool
  | conj .. | object .. | const _ | new _ | type _ | result _ | unknown _ => false
  | _ => true

/-- The kinds that `sRef_same` compares, with known indices. -/
def exact : SRef → Bool
  | fetch _ _ none => false
  | cvar .. | param .. | fetch _ _ (some _) | field .. | ptr _ _ | adr _ _ | derived _ _
  | special _ _ => true
  | _ => false

def notConj : SRef → Bool
  | conj .. => false
  | _ => true

def notDerived : SRef → Bool
  | derived .. => false
  | _ => true

/-- Where an access starts. -/
inductive Root where
  | cvar (level index : Int) | param (no : Int) | unconstrained (name : Nat) | special (k : SpecKind)
deriving DecidableEq, Repr

/-- A step of an access. `*p` is `p[0]`. -/
inductive Step where
  | elem (i : Int) | field (name : Nat) | adr
deriving DecidableEq, Repr

/-- An access; the last step comes first. -/
structure Access where
  root : Root
  steps : List Step
deriving DecidableEq, Repr

/-- The accesses a reference may stand for. An unknown index may be any number, one of several
references may be any of them, and storage derived from `r` is whatever is reached through `r`.
References to constants, results, types, and to fresh, external or unknown storage have none. -/
def Denotes : SRef → Access → Prop
  | cvar _ l i, p => p = ⟨.cvar l i, []⟩
  | param _ n, p => p = ⟨.param n, []⟩
  | unconstrained _ n, p => p = ⟨.unconstrained n, []⟩
  | special _ k, p => p = ⟨.special k, []⟩
  | fetch _ r (some i), p => ∃ q, r.Denotes q ∧ p = ⟨q.root, .elem i :: q.steps⟩
  | fetch _ r none, p => ∃ q i, r.Denotes q ∧ p = ⟨q.root, .elem i :: q.steps⟩
  | ptr _ r, p => ∃ q, r.Denotes q ∧ p = ⟨q.root, .elem 0 :: q.steps⟩
  | field _ r f, p => ∃ q, r.Denotes q ∧ p = ⟨q.root, .field f :: q.steps⟩
  | adr _ r, p => ∃ q, r.Denotes q ∧ p = ⟨q.root, .adr :: q.steps⟩
  | conj _ a b, p => a.Denotes p ∨ b.Denotes p
  | derived _ r, p => ∃ q l, r.Denotes q ∧ p = ⟨q.root, l ++ q.steps⟩
  | external .., _ | object .., _ | const _, _ | new _, _ | type _, _ | result _, _
  | unknown _, _ => False

/-- Some access of `s` goes through an access of `t`. -/
def Reaches (t s : SRef) : Prop :=
  ∃ q l, t.Denotes q ∧ s.Denotes ⟨q.root, l ++ q.steps⟩

/-- A path: a variable or parameter, and elements, fields and targets of it. -/
def isPath : SRef → Bool
  | cvar .. | param .. => true
  | fetch _ r _ | field _ r _ | ptr _ r => r.isPath
  | _ => false

/-- A path and everything that contains it, from the inside out. -/
def containers : SRef → List SRef
  | fetch a r i => fetch a r i :: r.containers
  | field a r f => field a r f :: r.containers
  | ptr a r => ptr a r :: r.containers
  | s => [s]

def isField : SRef → Bool
  | field .. => true
  | _ => false

def isPtr : SRef → Bool
  | ptr .. => true
  | _ => false

end SRef
end Splint
