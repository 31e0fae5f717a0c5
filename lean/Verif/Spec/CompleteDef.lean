import Verif.Model.CompleteDef
/-!
# Which transferred storage is incomplete

Independent of the recursion and its loops: which parts of storage are looked at, and what is wrong with a
part.
-/
namespace Splint
namespace CompleteDef

variable {α β : Type}

/-- A part under consideration: the storage, what it is transferred to, whether it is the transferred
storage itself, whether it is one of several fields of a union, and whether it is the transferred storage or
what that points to. -/
structure Cfg (α β : Type) where
  f : α
  t : β
  top : Bool
  du : Bool
  report : Bool

/-- Storage may be undefined where the target says so. -/
def Excused (env : Env α β) (t : β) : Prop := env.tstate t ∈ [.relDef, .partial_, .allocated, .special]

/-- States that leave it to the parts. -/
def Fine (s : SState) : Prop := s ∈ [.defined, .relDef, .partial_, .pDefined, .allocated, .unknown]

/-- States of storage that has been written. -/
def Partly (s : SState) : Prop := s ∈ [.defined, .relDef, .partial_, .pDefined]

/-- The parts of this storage are looked at. -/
def Enters (env : Env α β) (f : α) (t : β) : Prop :=
  env.known f = true ∧ ¬ Excused env t ∧ Fine (env.state f)

/-- It points to something that is looked at. -/
def Follows (env : Env α β) (f : α) (t : β) : Prop :=
  Enters env f t ∧ env.view f = .pointer ∧ env.state f ≠ .unknown ∧ env.tpointer t = true

/-- A structure whose fields are looked at. -/
def Struct (env : Env α β) (f : α) (t : β) : Prop :=
  Enters env f t ∧ env.view f = .struct ∧ env.fits f t = true ∧ env.state f ≠ .unknown

/-- A union whose fields are looked at. -/
def Union (env : Env α β) (f : α) (t : β) : Prop :=
  Enters env f t ∧ env.view f = .union ∧ env.tknown t = true ∧ env.fits f t = true ∧ env.state f ≠ .unknown

/-- The fields of a structure: those that were mentioned, or all if nothing was written. -/
def Field (env : Env α β) (f : α) (t : β) (name : Nat) (f' : α) (t' : β) : Prop :=
  t' = env.tfield t name ∧ env.recursive t' = false ∧
    ((Partly (env.state f) ∧ (name, f') ∈ env.mentioned f) ∨
     (env.state f = .allocated ∧ (name, f') ∈ env.fields f))

/-- The fields of a union that were mentioned. -/
def Alt (env : Env α β) (f : α) (t : β) (f' : α) (t' : β) : Prop :=
  ∃ name, t' = env.tfield t name ∧ (name, f') ∈ env.mentioned f

/-- Several fields of a union were mentioned. -/
def Several (env : Env α β) (f : α) : Bool := decide (1 < (env.mentioned f).length)

/-- Transfers for which undefined storage is let pass. -/
def Lenient (env : Env α β) (tt : Transfer) (f : α) : Prop :=
  tt = .doAssign ∨ (tt ∈ [.fieldAssign, .globInit, .fcnPass, .fcnReturn] ∧ env.fresh f = true)

/-- Storage that is not defined itself. -/
def Undef (env : Env α β) (f : α) (t : β) : Prop :=
  env.known f = true ∧ ¬ Excused env t ∧ ¬ Fine (env.state f)

/-- From one part to the next. -/
inductive Goes (env : Env α β) : Cfg α β → Cfg α β → Prop
  | target (c : Cfg α β) : Follows env c.f c.t →
      Goes env c ⟨env.deref c.f, env.tderef c.t, false, false, c.report⟩
  | field (c : Cfg α β) (name : Nat) (f : α) (t : β) : Struct env c.f c.t → Field env c.f c.t name f t →
      Goes env c ⟨f, t, false, false, false⟩
  | alt (c : Cfg α β) (f : α) (t : β) : Union env c.f c.t → Alt env c.f c.t f t →
      Goes env c ⟨f, t, false, Several env c.f, false⟩

/-- With `n` levels left at the first part and `m` at the last. -/
inductive Visit (env : Env α β) : Nat → Cfg α β → Nat → Cfg α β → Prop
  | here (n : Nat) (c : Cfg α β) : Visit env n c n c
  | step (n m : Nat) (c d e : Cfg α β) : Goes env c d → Visit env n d m e → Visit env (n + 1) c m e

/-- A field that is not defined, or that is a pointer to undefined storage, within `n` levels. -/
inductive Hollow (env : Env α β) (tt : Transfer) : Nat → α → β → Bool → Prop
  | dead (n : Nat) (f : α) (t : β) : env.known f = true → env.state f = .dead → Hollow env tt (n + 1) f t true
  | undef (n : Nat) (f : α) (t : β) (du : Bool) : Undef env f t →
      ¬ (env.state f = .dead ∧ env.shown f = true) → ¬ Lenient env tt f → Hollow env tt (n + 1) f t du
  | unknownTarget (n : Nat) (f : α) (t : β) (du : Bool) : Enters env f t → env.view f = .pointer →
      env.state f = .unknown → Hollow env tt (n + 1) f t du
  | target (n : Nat) (f : α) (t : β) (du : Bool) : Follows env f t →
      Hollow env tt n (env.deref f) (env.tderef t) false → Hollow env tt (n + 1) f t du

/-- What is reported about a part, with `m` more levels left. -/
inductive Wrong (env : Env α β) (tt : Transfer) : Nat → Cfg α β → Rep α → Prop
  | releasedPart (m : Nat) (c : Cfg α β) : env.known c.f = true → c.top = false → env.state c.f = .dead →
      c.du = false → Wrong env tt m c (.releasedPart c.f)
  | undefined (m : Nat) (c : Cfg α β) : Undef env c.f c.t → c.report = true →
      ¬ (c.top = false ∧ env.state c.f = .dead ∧ (c.du = true ∨ env.shown c.f = true)) →
      (tt ∈ [.globReturn, .globPass] ∨ (tt ∈ [.paramReturn, .leave] ∧ c.top = false) ∨
        (tt ∈ [.fieldAssign, .globInit, .fcnPass, .fcnReturn] ∧ env.fresh c.f = false ∧
          env.state c.f ≠ .dead)) →
      Wrong env tt m c (.undefined c.f)
  | released (m : Nat) (c : Cfg α β) : Undef env c.f c.t → c.report = true →
      ¬ (c.top = false ∧ (c.du = true ∨ env.shown c.f = true)) →
      tt ∈ [.fieldAssign, .globInit, .fcnPass, .fcnReturn] → env.fresh c.f = false →
      env.state c.f = .dead → Wrong env tt m c (.released c.f)
  | fields (m : Nat) (c : Cfg α β) (names : List Nat) : Struct env c.f c.t → tt ≠ .leave → names ≠ [] →
      (∀ name, name ∈ names ↔ ∃ f t, Field env c.f c.t name f t ∧ Hollow env tt m f t false) →
      Wrong env tt m c (.fields c.f names)
  | union (m : Nat) (c : Cfg α β) : Union env c.f c.t → ¬ Partly (env.state c.f) → env.unionDef = true →
      tt ∉ [.doAssign, .fieldAssign, .globInit] →
      (∀ f t, Alt env c.f c.t f t → Hollow env tt m f t (Several env c.f)) →
      Wrong env tt m c (.union c.f)

/-- Storage that does not pass: it is not defined, points to such storage, is a structure with a field that is
not defined, or a union that was not written. -/
inductive Fails (env : Env α β) (tt : Transfer) : Nat → α → β → Bool → Prop
  | undef (n : Nat) (f : α) (t : β) (top : Bool) : Undef env f t →
      ¬ (top = false ∧ env.state f = .dead ∧ env.shown f = true) → ¬ Lenient env tt f →
      Fails env tt (n + 1) f t top
  | unknownTarget (n : Nat) (f : α) (t : β) (top : Bool) : Enters env f t → env.view f = .pointer →
      env.state f = .unknown → Fails env tt (n + 1) f t top
  | target (n : Nat) (f : α) (t : β) (top : Bool) : Follows env f t →
      Fails env tt n (env.deref f) (env.tderef t) false → Fails env tt (n + 1) f t top
  | field (n : Nat) (f : α) (t : β) (top : Bool) (name : Nat) (f' : α) (t' : β) : Struct env f t →
      Field env f t name f' t' → Hollow env tt n f' t' false → Fails env tt (n + 1) f t top
  | union (n : Nat) (f : α) (t : β) (top : Bool) : Union env f t → ¬ Partly (env.state f) →
      Fails env tt (n + 1) f t top

end CompleteDef
end Splint
