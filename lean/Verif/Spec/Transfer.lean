import Verif.Model.Transfer
/-!
What the annotations of storage mean: who has to release it, and who may.
-/
namespace Splint.Transfer.Spec
open Splint.Transfer

/-- Kinds of references that hold the duty to release the storage: a reference of such a kind may hand the storage over.
-/
def MayGive : AlKind → Prop
  | .only | .impOnly | .keep | .fresh | .owned | .newRef => True
  | _ => False

instance : DecidablePred MayGive := fun k => by cases k <;> simp only [MayGive] <;> infer_instance

/-- Kinds of receivers that take over the duty to release the storage. -/
def Takes : AlKind → Prop
  | .only | .impOnly | .keep | .owned => True
  | _ => False

instance : DecidablePred Takes := fun k => by cases k <;> simp only [Takes] <;> infer_instance

/-- Kinds of references whose storage will be released by way of them: those that take it over, and local storage that is
tracked until it is released. -/
def Holds : AlKind → Prop
  | .only | .impOnly | .keep | .owned | .fresh => True
  | _ => False

instance : DecidablePred Holds := fun k => by cases k <;> simp only [Holds] <;> infer_instance

/-- Messages about null pointers. -/
def ofNull : Msg → Bool
  | .nullInit | .nullAssign | .nullPass | .nullRet => true
  | _ => false

/-- A message about the transfer of the storage was shown. -/
def Reported (s : St) : Prop := ∃ m ∈ s.out, ofNull m = false

instance (s : St) : Decidable (Reported s) := by unfold Reported; infer_instance

/-- All messages are shown, and this is the pass for the references themselves. -/
structure Plain (e : Fact) : Prop where
  on : ∀ m, e.on m = true
  strict : e.strictReleased = true
  ffix : e.ffix = false
  tfix : e.tfix = false

/-- The expression is a pointer that is not known to be null, to storage that can be changed. -/
structure Proper (e : Fact) (f : Ref) : Prop where
  notNull : f.isDefNull = false
  notNullValue : e.nullValue = false
  expMutable : e.expMutable = true
  isMutable : f.isMutable = true
  notConst : f.isConst = false

/-- A reference that does not hold the duty to release its storage. -/
def Borrowed (k : AlKind) : Prop := ¬ MayGive k ∧ k ≠ .error

/-- Transfers that are not reported although the receiver will release storage that is not the source's to give. -/
def Missed (e : Fact) (f t : Ref) : Prop :=
  (f.ex = .unknown ∨ f.ex = .normal ∨ t.ex = .exposed ∨ t.ex = .observer) ∧
  ¬ (f.isAddress = true ∧ t.al ≠ .owned) ∧
  (f.al = .unique ∨ f.al = .stack ∨ f.al = .refs ∨ f.al = .returned ∨ f.al = .local_
    ∨ f.al = .shared ∧ (t.al = .keep ∨ t.al = .owned)
    ∨ (f.al = .unknown ∨ f.al = .static) ∧ t.al = .owned
    ∨ (f.al = .dependent ∨ f.al = .impDependent) ∧ (f.isLocal = true ∧ e.depLocal = true ∨ e.canLoseLocalF = true))

/-- Kinds of storage that belong to somebody else, and are told as such for every way of transfer: parameters that are lent,
storage that was handed over already, storage with a count of references, and, for a receiver that is to be the only
reference, shared storage. -/
def Lent (f t : AlKind) : Prop :=
  match f with
  | .temp | .impTemp | .kept | .refCounted | .killRef => True
  | .shared => t = .only ∨ t = .impOnly
  | _ => False

/-- What is said when storage of kind `f` is passed to a parameter of kind `t`, or returned as a result of kind `t`: nothing, or one
message. -/
def told (ret : Bool) (f t : AlKind) : Option Msg :=
  match f with
  -- new storage, and the only reference: the receiver must release it, or (in a call) lets the caller do so
  | .only | .impOnly =>
    if t ∈ [.only, .impOnly, .keep, .owned, .error, .local_] then none
    else if ret = false ∧ t ∈ [.unknown, .temp, .impTemp, .unique] then none
    else some .onlyTrans
  | .fresh =>
    if ret = false ∨ t ∈ [.only, .impOnly, .newRef, .error] then none
    else if t = .refCounted then some .newRefTrans else some .freshTrans
  | .owned =>
    if t ∈ [.only, .impOnly, .keep, .owned, .dependent, .impDependent, .local_, .fresh, .unknown] then none
    else if ret = false ∧ t ∈ [.temp, .impTemp, .unique] then none
    else some .ownedTrans
  -- somebody else must release it
  | .dependent | .impDependent =>
    if t ∈ [.only, .impOnly, .keep, .owned, .unknown] ∨ (ret = true ∧ t ∈ [.temp, .impTemp]) then some .dependentTrans else none
  | .shared =>
    if t ∈ [.only, .impOnly] ∨ (ret = true ∧ t ∈ [.temp, .impTemp]) then some .sharedTrans else none
  | .keep =>
    if t ∈ [.keep, .local_, .error] ∨ (ret = false ∧ t ∈ [.temp, .impTemp, .owned]) then none else some .keepTrans
  | .temp | .impTemp =>
    if t ∈ [.only, .impOnly, .keep, .owned, .shared] ∨ (ret = false ∧ t ∈ [.dependent, .impDependent]) then some .tempTrans else none
  | .kept => if t ∈ [.only, .impOnly, .keep, .owned, .shared] then some .keptTrans else none
  -- counted references
  | .refCounted | .killRef => if t ∈ [.refCounted, .temp, .impTemp, .killRef, .error] then none else some .refCountTrans
  | .newRef => if ret = true ∧ t = .killRef then some .refCountTrans else none
  -- nothing is known of it
  | .unknown => if t ∈ [.only, .impOnly, .keep] then some .unknownTrans else none
  | .static => if t ∈ [.only, .impOnly, .keep] then some .staticTrans else none
  | _ => none

/-- what is assumed for the table: nothing else is known of the references -/
structure Neutral (e : Fact) (f t : Ref) : Prop where
  mem : e.memImplicit = true
  l1 : e.canLoseF = false
  l2 : e.canLoseLocalF = false
  dep : e.depLocal = false
  addr : f.isAddress = false
  new : f.isNew = false
  cvar : f.isCvar = false
  ns : t.nsLocal = false
  oal : f.oal ≠ .newRef

end Splint.Transfer.Spec
