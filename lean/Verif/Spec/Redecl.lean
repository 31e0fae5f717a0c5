import Verif.Model.Redecl
/-!
# What declarations of the same name may say

Only what the declarations themselves say is used here.
-/
namespace Splint.Redecl.Spec

/-- nothing is said about null (or the same annotation as before is implied) -/
def NullPlain (n : NState) : Prop := n = .unknown ∨ n = .posNull ∨ n = .mNotNull

/-- an annotation written by the user about ownership -/
def AliasExplicit (a : AlKind) : Prop :=
  a ≠ .unknown ∧ a ≠ .error ∧ a ≠ .impOnly ∧ a ≠ .impTemp ∧ a ≠ .impDependent ∧ a ≠ .refCounted

/-- the same ownership, whether written or implied -/
def AliasSame (a b : AlKind) : Prop :=
  a = b ∨ (a = .impOnly ∧ b = .only) ∨ (a = .impTemp ∧ b = .temp) ∨ (a = .impDependent ∧ b = .dependent)

instance (a : AlKind) : Decidable (AliasExplicit a) := by unfold AliasExplicit; infer_instance
instance (a b : AlKind) : Decidable (AliasSame a b) := by unfold AliasSame; infer_instance

/-- the last element that satisfies `p`, or `s` -/
def lastOr {S : Type} (p : S → Bool) (s : S) : List S → S
  | [] => s
  | d :: ds => lastOr p (if p d then d else s) ds

/-- Two declarations contradict each other. -/
def Contradict (a b : Ann) : Prop :=
  (a.null ∈ [.posNull, .mNotNull, .relNull] ∧ b.null ∈ [.posNull, .mNotNull, .relNull] ∧ a.null ≠ b.null)
  ∨ (a.defn ∈ [.allocated, .defined, .partial_, .relDef] ∧ b.defn ∈ [.allocated, .defined, .partial_, .relDef]
      ∧ a.defn ≠ b.defn)
  ∨ (AliasExplicit a.alias_ ∧ AliasExplicit b.alias_ ∧ a.alias_ ≠ b.alias_)
  ∨ (a.exp ∈ [.exposed, .observer] ∧ b.exp ∈ [.exposed, .observer] ∧ a.exp ≠ b.exp)

end Splint.Redecl.Spec
