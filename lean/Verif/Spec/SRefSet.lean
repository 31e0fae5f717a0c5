import Verif.Model.SRefSet
import Verif.Spec.SRef
import Mathlib.Data.Set.Basic
/-! # Scopes of references, and sets of their texts -/
namespace Splint
namespace SRef

/-- The scope of the variable a reference is built from; merged references count as the first one,
and everything else is global. -/
def scope : SRef → Int
  | cvar _ l _ => l
  | fetch _ r _ | field _ r _ | ptr _ r | adr _ r => r.scope
  | conj _ a _ => a.scope
  | _ => 0

/-- How many accesses a reference is built with. -/
def wraps : SRef → Nat
  | fetch _ r _ | field _ r _ | ptr _ r | adr _ r => r.wraps + 1
  | conj _ a _ => a.wraps + 1
  | _ => 0

end SRef

/-- A change of a reference set. -/
inductive SetOp where
  | insert (el : SRef)
  | delete (el : SRef)
  | clear
  | union (l : SRefSet)
  | unionExcept (l : SRefSet) (ex : SRef)
  | levelUnion (l : SRefSet) (level : Int)
  | copyInto (l : SRefSet)
  | levelPrune (level : Int)
  | clearStatics

namespace SetOp

/-- The change made by the code; the outer `none` is an access outside the array. -/
def run (cm : Nat → Nat → Bool) (s : Option SRefSet) : SetOp → Option (Option SRefSet)
  | insert el => (SRefSet.insert cm s el).map some
  | delete el => some (s.map fun s => (s.delete cm el).2)
  | clear => some (s.map SRefSet.clear)
  | union l => SRefSet.union cm s (some l)
  | unionExcept l ex => SRefSet.unionExcept cm s (some l) ex
  | levelUnion l level => SRefSet.levelUnion cm s (some l) level
  | copyInto l => SRefSet.copyInto s (some l)
  | levelPrune level =>
    match s with
    | none => some none
    | some s => (s.levelPrune level).map some
  | clearStatics => some (s.map SRefSet.clearStatics)

/-- A sequence of changes. -/
def runAll (cm : Nat → Nat → Bool) : Option SRefSet → List SetOp → Option (Option SRefSet)
  | s, [] => some s
  | s, op :: ops => (op.run cm s).bind fun s => runAll cm s ops

/-- The texts of the elements of a set. -/
def texts (l : List SRef) : Set SRef := {x | ∃ e ∈ l, e.strip = x}

/-- What the change does to the set of texts. -/
def spec (A : Set SRef) : SetOp → Set SRef
  | insert el => A ∪ {el.strip}
  | delete el => A \ {el.strip}
  | clear => ∅
  | union l => A ∪ texts l.elems
  | unionExcept l ex => A ∪ (texts l.elems \ {ex.strip})
  | levelUnion l level => A ∪ {x ∈ texts l.elems | x.scope ≤ level}
  | copyInto l => texts l.elems
  | levelPrune level => {x ∈ A | x.scope ≤ level}
  | clearStatics => {x ∈ A | x.scope ≠ 1}

/-- The references of a history are in one memory and of kinds that can be compared, and the sets
given to it are sets. `d` bounds the accesses of a reference. -/
def Ok (H : Nat → SRef) (d : Nat) : SetOp → Prop
  | insert el | delete el => good el
  | union l | levelUnion l _ | copyInto l => goodSet l
  | unionExcept l ex =>
    goodSet l ∧ good ex ∧ (∀ e ∈ l.elems, e.every SRef.exact = true) ∧ ex.every SRef.exact = true
  | clear | levelPrune _ | clearStatics => True
where
  good (e : SRef) : Prop := e.InHeap H ∧ e.every SRef.comparable = true ∧ e.wraps ≤ d
  goodSet (l : SRefSet) : Prop := (∀ e ∈ l.elems, good e) ∧ (l.elems.map SRef.strip).Nodup

end SetOp
end Splint
