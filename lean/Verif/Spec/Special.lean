import Verif.Model.Special
/-!
# What may be written in comments for the checker
-/
namespace Splint.Special.Spec

def Blank (c : Char) : Prop := c = ' ' ∨ c = '\t' ∨ c = '\n'
def Sign (c : Char) : Prop := c = '-' ∨ c = '+' ∨ c = '='
instance (c : Char) : Decidable (Blank c) := by unfold Blank; infer_instance
instance (c : Char) : Decidable (Sign c) := by unfold Sign; infer_instance

/-- white space of C -/
def Space (c : Char) : Prop := Blank c ∨ c.toNat = 11 ∨ c.toNat = 12 ∨ c = '\r'

/-- what a flag without argument does -/
def effect (cls : Text → Class) (c : Char) (name : Text) : List Eff :=
  match cls name with
  | .skip => []
  | .mode => if c = '=' then [.modeRestore name] else [.mode name]
  | .invalid => [.unrecognized name]
  | .global => [.global name]
  | .simple => [.set name c]
  | .value => [.set name c, .valueRestore name]

/-- `Settings cls tail t es`: `t` is a list of settings of flags, followed by `tail`; they do `es`. -/
inductive Settings (cls : Text → Class) (tail : Text) : Text → List Eff → Prop
  | done : Settings cls tail tail []
  /-- settings may follow each other without blanks -/
  | simple {c name gap t es} : Sign c → (∀ x ∈ name, ¬ Sign x ∧ ¬ Blank x) → (cls name = .value → c = '=') →
      (∀ x ∈ gap, Blank x) → (gap = [] → t = [] ∨ ∃ d u, t = d :: u ∧ Sign d) → Settings cls tail t es →
      Settings cls tail (c :: (name ++ (gap ++ t))) (effect cls c name ++ es)
  /-- the argument is the next word -/
  | value {c name gap arg gap' t es} : c = '-' ∨ c = '+' → (∀ x ∈ name, ¬ Sign x ∧ ¬ Blank x) → cls name = .value →
      (∀ x ∈ gap, Blank x) → gap ≠ [] → (∀ x ∈ arg, ¬ Space x) → arg ≠ [] →
      (∀ x ∈ gap', Blank x) → (gap' = [] → t = []) → Settings cls tail t es →
      Settings cls tail (c :: (name ++ (gap ++ (arg ++ (gap' ++ t))))) (.set name c :: .value name arg :: es)

/-- `Names t ns`: the names `ns` with commas or blanks between them -/
inductive Names : Text → List Text → Prop
  | none {gap} : (∀ x ∈ gap, Blank x) → Names gap []
  | one {gap name} : (∀ x ∈ gap, Blank x) → name ≠ [] → (∀ x ∈ name, ¬ Blank x ∧ x ≠ ',') → Names (gap ++ name) [name]
  | cons {gap name c t ns} : (∀ x ∈ gap, Blank x) → name ≠ [] → (∀ x ∈ name, ¬ Blank x ∧ x ≠ ',') →
      c = ',' ∨ c = ' ' → Names t ns → Names (gap ++ (name ++ c :: t)) (name :: ns)

/-- the value of decimal digits -/
def decimal : Text → Nat
  | [] => 0
  | c :: r => (c.toNat - 48) * 10 ^ r.length + decimal r

end Splint.Special.Spec
