import Verif.Model.TypeMatch
/-!
# What types match

A type is a tree (`Shape`) once its names are replaced by what they stand for, except abstract types whose
representation may not be used. Without flags, types match if they are the same tree, but that an array may
stand for a pointer (except in definitions), and a function for a pointer to it.
-/
namespace Splint.TypeMatch.Spec
open Prim (P)

inductive Shape where
  | prim (p : P)
  | bool
  /-- an abstract type, by its number in the symbol table -/
  | abs (t : Nat)
  | enum (tag : Tag)
  | ptr (s : Shape)
  | arr (s : Shape)
  /-- what is returned, and a list of parameters -/
  | fcn (r ps : Shape)
  | su (union : Bool) (tag : Tag)
  | elips
  | nil
  | cons (s ps : Shape)
deriving DecidableEq, Repr

/-- a type, or the types of parameters -/
inductive Obj where
  | ty (c : Ct)
  | ps (l : List Ct)

/-- May a named type be replaced by what it stands for? `t` is its number, `e` its entry. -/
def transparent (E : Env) (t : Nat) (e : Entry) : Prop :=
  e.isBool = false ∧
    if e.tag = true then ∃ c b, e.utype = .ix c ∧ E.node c = some b ∧ b.tid = none ∧ b ≠ .undefined
    else e.abst = true → (∃ c k, e.self = .ix c ∧ E.node c = some (.ua k t)) ∧ E.access t = true

/-- Is a named type abstract, and its representation out of bounds? -/
def hidden (E : Env) (t : Nat) (e : Entry) : Prop :=
  e.isBool = false ∧ e.tag = false ∧ e.abst = true ∧ (∃ c k, e.self = .ix c ∧ E.node c = some (.ua k t))
    ∧ E.access t = false

/-- Is a named type the booleans of the program? They are numbers or an enumeration. -/
def boolean (E : Env) (t : Nat) (e : Entry) : Prop :=
  e.isBool = true ∧ e.tag = false ∧ (e.abst = true → ∃ c k, e.self = .ix c ∧ E.node c = some (.ua k t))
    ∧ ∃ c b, e.utype = .ix c ∧ E.node c = some b ∧ (b = .bool ∨ (∃ p, b = .prim p) ∨ ∃ g, b = .enum g)

/-- The tree of a type. -/
inductive Has (E : Env) : Obj → Shape → Prop where
  | prim {n p} (h : E.node n = some (.prim p)) : Has E (.ty (.ix n)) (.prim p)
  | bool {n} (h : E.node n = some .bool) : Has E (.ty (.ix n)) .bool
  | named {n k t e} (h : E.node n = some (.ua k t)) (he : E.entry t = some e) (hb : boolean E t e) :
      Has E (.ty (.ix n)) .bool
  | hidden {n k t e} (h : E.node n = some (.ua k t)) (he : E.entry t = some e) (hh : hidden E t e) :
      Has E (.ty (.ix n)) (.abs t)
  | known {n k t e s} (h : E.node n = some (.ua k t)) (he : E.entry t = some e) (ht : transparent E t e)
      (hu : Has E (.ty e.utype) s) (hne : e.utype ≠ .elips) : Has E (.ty (.ix n)) s
  | enum {n g} (h : E.node n = some (.enum g)) : Has E (.ty (.ix n)) (.enum g)
  | ptr {n x s} (h : E.node n = some (.ptr x)) (hx : Has E (.ty x) s) : Has E (.ty (.ix n)) (.ptr s)
  | arr {n x s} (h : E.node n = some (.arr x)) (hx : Has E (.ty x) s) : Has E (.ty (.ix n)) (.arr s)
  | farr {n x s} (h : E.node n = some (.farr x)) (hx : Has E (.ty x) s) : Has E (.ty (.ix n)) (.arr s)
  | fcn {n r l s p} (h : E.node n = some (.fcn r l)) (hr : Has E (.ty r) s) (hp : Has E (.ps l) p) :
      Has E (.ty (.ix n)) (.fcn s p)
  | su {n u g f} (h : E.node n = some (.su u g f)) : Has E (.ty (.ix n)) (.su u g)
  | elips : Has E (.ty .elips) .elips
  | nil : Has E (.ps []) .nil
  | cons {c l s p} (hc : Has E (.ty c) s) (hl : Has E (.ps l) p) : Has E (.ps (c :: l)) (.cons s p)

/-- An array stands for a pointer, except in definitions; a function for a pointer to it. -/
def norm (dfn : Bool) : Shape → Shape
  | .ptr (.fcn r ps) => .fcn (norm dfn r) (norm false ps)
  | .ptr s => .ptr (norm dfn s)
  | .arr s => if dfn then .arr (norm dfn s) else .ptr (norm dfn s)
  | .fcn r ps => .fcn (norm dfn r) (norm false ps)
  | .cons s ps => .cons (norm dfn s) (norm dfn ps)
  | s => s

/-- Is it a function, or a pointer to one? -/
def callable : Shape → Prop
  | .fcn _ _ => True
  | .ptr (.fcn _ _) => True
  | _ => False

/-- Proper trees: nothing unknown (functions have parameters, structures names), no pointers to `void`, and no
arrays of (pointers to) functions. -/
def proper : Shape → Prop
  | .ptr s => s ≠ .prim .void ∧ proper s
  | .arr s => s ≠ .prim .void ∧ ¬ callable s ∧ proper s
  | .fcn r ps => proper r ∧ properList ps
  | .su _ g => ∃ n, g = .named n
  | .elips => False
  | .nil => False
  | .cons _ _ => False
  | _ => True
where
  /-- one or more parameters -/
  properList : Shape → Prop
  | .cons s ps => (s = .elips ∨ proper s) ∧ (ps = .nil ∨ properList ps)
  | _ => False

/-- The types that are always there. -/
structure Standard (E : Env) : Prop where
  unknown : E.node 0 = some .unknown
  void : E.node 1 = some (.prim .void)
  bool : E.node 2 = some .bool
  int : E.node 5 = some (.prim .int)

/-- Flags that make no different types equal. -/
def strict (f : Flags) : Prop :=
  f.prim = {} ∧ f.boolInt = false ∧ f.enumInt = false ∧ f.forwardDecl = false

/-- The type that happens to have the number of an abstract type is not a boolean. -/
def unmixed (E : Env) : Prop :=
  ∀ t e, E.entry t = some e → hidden E t e →
    t ≠ 2 ∧ ∃ b, E.node t = some b ∧ ∀ u eu, b.tid = some u → E.entry u = some eu → eu.isBool = false

/-- Environments that differ only in the representations of hidden types. -/
structure SameOutside (E E' : Env) : Prop where
  node : E'.node = E.node
  access : E'.access = E.access
  accessBool : E'.accessBool = E.accessBool
  fields : E'.fields = E.fields
  fl : E'.fl = E.fl
  entry : ∀ t, E'.entry t = E.entry t ∨
    ∃ e u, E.entry t = some e ∧ E'.entry t = some { e with utype := u } ∧ hidden E t e

end Splint.TypeMatch.Spec
