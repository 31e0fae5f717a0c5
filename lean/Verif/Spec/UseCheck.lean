import Verif.Model.UseCheck
/-!
# Which uses of storage are wrong

Independent of the loop: which storage is read with a reference, and which storage may not be read.
-/
namespace Splint
namespace UseCheck
open SRef

/-- The storage that contains the storage of a reference (for several alternatives, of the first
one), from the inside out. -/
def around : SRef → List SRef
  | ptr _ r | field _ r _ | fetch _ r _ => r :: around r
  | conj _ a _ => around a
  | _ => []

/-- What a use reads: the storage and what contains it. -/
def read (s : SRef) : List SRef := s :: around s

/-- States in which storage has no value that may be used. -/
def bad (strict : Bool) : SState → Bool
  | .unuseable | .undefined | .mUndefined | .dead | .undefGlob | .undefKilled => true
  | .hoffa => strict
  | _ => false

/-- Whether storage may be read: its state is not bad; for several alternatives without a state of
their own, all of them may be read. -/
def Usable (strict : Bool) (st : States) : SRef → Prop
  | conj a x y => if st a = .unknown then Usable strict st x ∧ Usable strict st y
      else bad strict (st a) = false
  | s => bad strict (st s.addr) = false

instance decUsable (strict : Bool) (st : States) : (s : SRef) → Decidable (Usable strict st s)
  | conj a x y => by
    unfold Usable
    have := decUsable strict st x
    have := decUsable strict st y
    infer_instance
  | cvar .. | param .. | fetch .. | field .. | ptr .. | adr .. | derived .. | external .. | object ..
  | unconstrained .. | special .. | const _ | new _ | type _ | result _ | unknown _ => by
    unfold Usable; infer_instance

/-- Some alternative may be read: then the message is hedged. -/
def SomeUsable (strict : Bool) (st : States) : SRef → Prop
  | conj a x y => if st a = .unknown then Usable strict st x ∨ Usable strict st y
      else st a = .hoffa
  | s => st s.addr = .hoffa

/-- All alternatives are released storage. -/
def AllDead (st : States) : SRef → Prop
  | conj a x y => st a = .dead ∨ (st a = .unknown ∧ AllDead st x ∧ AllDead st y)
  | s => st s.addr = .dead

/-- An element of an array, or an alternative that is one. -/
inductive Element : SRef → Prop where
  | fetch {a r i} : Element (fetch a r i)
  | left {a x y} : Element x → Element (conj a x y)
  | right {a x y} : Element y → Element (conj a x y)

/-- Part of an element of an array; of alternatives that are not elements themselves only the first counts. -/
inductive InElement : SRef → Prop where
  | element {s} : Element s → InElement s
  | ptr {a r} : InElement r → InElement (ptr a r)
  | field {a r n} : InElement r → InElement (field a r n)
  | adr {a r} : InElement r → InElement (adr a r)
  | derived {a r} : InElement r → InElement (derived a r)
  | external {a r} : InElement r → InElement (external a r)
  | first {a x y} : InElement x → InElement (conj a x y)

/-- What is read before unknown storage. -/
def known (s : SRef) : List SRef := (read s).takeWhile fun r => !isUnknown r

end UseCheck
end Splint
