import Verif.Model.Redeclared
/-!
# What should be said of repeated declarations

A program is the list of its declarators, each with whether it is a definition.
-/
namespace Splint
namespace Redeclared

def flatItem : Item → List (D × Bool)
  | .decls ds => ds.map fun d => (d, false)
  | .defn d => [(d, true)]
  | .other => []
  | .newFile => []

/-- The declarators of a program, in order. -/
def flat (is : List Item) : List (D × Bool) := is.flatMap flatItem

/-- `d` is the first declarator of the name in the list. -/
def First (h : List (D × Bool)) (x : Nat) (d : D) : Prop :=
  ∃ pre b post, h = pre ++ (d, b) :: post ∧ d.name = x ∧ ∀ p ∈ pre, p.1.name ≠ x

/-- The function is defined in the list. -/
def Defined (h : List (D × Bool)) (x : Nat) : Prop := ∃ p ∈ h, p.1.name = x ∧ p.2 = true

/-- The declarator repeats a declaration at another place. -/
def Repeats (h : List (D × Bool)) (d : D) : Prop := ∃ d0, First h d.name d0 ∧ d0.loc ≠ d.loc

/-- The last declarator that repeats a declaration. -/
def LastRepeat (h : List (D × Bool)) (ds : List D) (d : D) : Prop :=
  ∃ u v, ds = u ++ d :: v ∧ Repeats (h ++ u.map fun e => (e, false)) d ∧
    ∀ v1 e v2, v = v1 ++ e :: v2 → ¬ Repeats (h ++ (u ++ d :: v1).map fun e => (e, false)) e

def NoStatic (is : List Item) : Prop := ∀ p ∈ flat is, p.1.sc ≠ .static_

def AllStatic (is : List Item) (x : Nat) : Prop := ∀ p ∈ flat is, p.1.name = x → p.1.sc = .static_

/-! ### With static functions -/

/-- What happens, in order: a declarator of a declaration, a definition, another file. -/
inductive Ev where
  | proto (d : D)
  | def_ (d : D)
  | file
deriving DecidableEq, Repr

def evs : Item → List Ev
  | .decls ds => ds.map .proto
  | .defn d => [.def_ d]
  | .other => []
  | .newFile => [.file]

def events (is : List Item) : List Ev := is.flatMap evs

/-- The event declares or defines the function as static. -/
def MakesStatic (e : Ev) (x : Nat) : Prop := ∃ d, (e = .proto d ∨ e = .def_ d) ∧ d.name = x ∧ d.sc = .static_

/-- The event ends the static declaration: another file, or a declaration without static. -/
def Ends (e : Ev) (x : Nat) : Prop := e = .file ∨ ∃ d, e = .proto d ∧ d.name = x ∧ d.sc ≠ .static_

/-- There is a static declaration of the function. -/
def Live (h : List Ev) (x : Nat) : Prop := ∃ a e b, h = a ++ e :: b ∧ MakesStatic e x ∧ ∀ f ∈ b, ¬ Ends f x

/-- After `h`, the event with the declarator `d` is about a function `x` that other files see. -/
def Global (h : List Ev) (e : Ev) (x : Nat) (d : D) : Prop :=
  d.name = x ∧ d.sc ≠ .static_ ∧ (e = .proto d ∨ e = .def_ d ∧ (d.sc = .extern_ ∨ ¬ Live h x))

def NoGlobal (h : List Ev) (x : Nat) : Prop := ∀ a e b d, h = a ++ e :: b → ¬ Global a e x d

/-- The first of those. -/
def GFirst (h : List Ev) (x : Nat) (d : D) : Prop := ∃ a e b, h = a ++ e :: b ∧ Global a e x d ∧ NoGlobal a x

/-- The function that other files see is defined. -/
def GDefined (h : List Ev) (x : Nat) : Prop :=
  ∃ a e b d, h = a ++ e :: b ∧ e = .def_ d ∧ d.name = x ∧ d.sc ≠ .static_ ∧ ((∃ d0, GFirst a x d0) ∨ Global a e x d)

end Redeclared
end Splint
