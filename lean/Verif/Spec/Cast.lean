import Verif.Model.Cast
/-!
# What a cast should be reported for

What types are made of, and which messages speak of the representation of an abstract type.
-/
namespace Splint.CastSpec
open Splint.Cast

/-- The abstract type that a type is made of, if what it stands for may not be known here: pointers, arrays and names
are taken off, and abstract types that may be looked into are their representation. -/
inductive MadeOf (access : Nat → Bool) : Ty → Nat → Prop
  | abst {n i r} : access i = false → MadeOf access (.abst n i r) i
  | rep {n i r j} : access i = true → MadeOf access r j → MadeOf access (.abst n i r) j
  | user {i r j} : MadeOf access r j → MadeOf access (.user i r) j
  | ptr {b j} : MadeOf access b j → MadeOf access (.ptr b) j
  | arr {b j} : MadeOf access b j → MadeOf access (.arr b) j

/-- Messages on the use of an abstract type as something else. -/
def Crossing : Rep → Prop
  | .toAbstVoidP _ | .toUnder _ | .fromAbstVoidP _ | .fromUnder _ | .fromAbst _ | .litToNum _ | .toNum _
  | .toAbst _ => True
  | _ => False

/-- A name, or a name of a name ..., for an abstract type. -/
inductive Names : Ty → Nat → Prop
  | abst {n i r} : Names (.abst n i r) i
  | user {i r j} : Names r j → Names (.user i r) j

/-- Below its pointers and arrays, the type is made of no abstract type, is an abstract type itself, or is a name for
one; the name is none that the context has access to. So no name stands for a pointer to an abstract type. -/
inductive Bare (access : Nat → Bool) : Ty → Prop
  | ptr {b} : Bare access b → Bare access (.ptr b)
  | arr {b} : Bare access b → Bare access (.arr b)
  | free {c} : (∀ j, ¬MadeOf access c j) → Bare access c
  | abst {n i r} : access i = false → Bare access (.abst n i r)
  | name {i r j} : access i = false → Names r j → access j = false → Bare access (.user i r)

/-- A function: names are looked through. Pointers to functions are taken for functions, as in all of the program. -/
inductive Fcn (access : Nat → Bool) : Ty → Prop
  | fcn {r} : Fcn access (.fcn r)
  | ptr {r} : Fcn access (.ptr (.fcn r))
  | user {i r} : Fcn access r → Fcn access (.user i r)
  | rep {n i r} : access i = true → Fcn access r → Fcn access (.abst n i r)

/-- A pointer or an array, and what it is of: names are looked through. -/
inductive Points (access : Nat → Bool) : Ty → Ty → Prop
  | ptr {b} : Points access (.ptr b) b
  | arr {b} : Points access (.arr b) b
  | user {i r b} : Points access r b → Points access (.user i r) b
  | rep {n i r b} : access i = true → Points access r b → Points access (.abst n i r) b

end Splint.CastSpec
