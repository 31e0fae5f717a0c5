import Verif.Model.Kinds
/-!
Meaning of the state kinds, stated as explicit sets of enumeration values, independent of the
functions of the model.
-/
namespace Splint.Spec

/-- The reference may be null and its dereference is to be reported. -/
def allowsNull (n : NState) : Prop := n ∈ [NState.constNull, .posNull, .defNull, .absNull]

instance : DecidablePred allowsNull := fun n => by unfold allowsNull; infer_instance

/-- Null states that checking of ordinary code produces: no annotation, compared with null,
assigned null, declared `null` or `notnull`. -/
def flowNull (n : NState) : Prop :=
  n ∈ [NState.unknown, .notNull, .mNotNull, .posNull, .defNull]

instance : DecidablePred flowNull := fun n => by unfold flowNull; infer_instance

/-- Storage whose value must not be used. -/
def unusable (s : SState) : Prop :=
  s ∈ [SState.unuseable, .undefined, .mUndefined, .dead, .hoffa, .undefGlob, .killed,
    .undefKilled]

instance : DecidablePred unusable := fun n => by unfold unusable; infer_instance

/-- States whose definition is left to the programmer (`partial`, `reldef`, `special`). -/
def programmer (s : SState) : Prop := s ∈ [SState.partial_, .relDef, .special]

instance : DecidablePred programmer := fun n => by unfold programmer; infer_instance

/-- Definition states that checking of ordinary code produces for local storage. -/
def flowDef (s : SState) : Prop :=
  s ∈ [SState.unknown, .unuseable, .undefined, .allocated, .pDefined, .defined, .dead, .hoffa]

instance : DecidablePred flowDef := fun n => by unfold flowDef; infer_instance

/-- How much of the storage is known to be defined: nothing usable, only the reference itself,
some of what is reachable, everything; `unknown` carries no obligation at all. -/
def level (s : SState) : Nat :=
  match s with
  | .allocated => 1
  | .pDefined => 2
  | .defined => 3
  | .unknown => 4
  | _ => 0

/-- Kinds with an obligation to release the storage. -/
def obliged (a : AlKind) : Prop :=
  a ∈ [AlKind.only, .impOnly, .keep, .fresh, .owned, .newRef]

instance : DecidablePred obliged := fun n => by unfold obliged; infer_instance

/-- The ownership family of a kind when implicit annotations are read as explicit ones. -/
def explicit (a : AlKind) : AlKind :=
  match a with
  | .impOnly => .only
  | .impDependent => .dependent
  | .impTemp => .temp
  | a => a

end Splint.Spec
