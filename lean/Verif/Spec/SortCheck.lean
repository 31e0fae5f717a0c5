import Verif.Model.SortCheck
import Mathlib.Data.List.Forall2
/-!
# Sorts of terms: specification

The ways to read a term: a choice of an operator for each application and a sort for each leaf, such that the sorts
fit.
-/
namespace Splint
namespace SortCheck

mutual
/-- A reading of a term. -/
inductive E where
  | leaf (s : Nat)
  | op (sig : Sig) (es : Es)
  | std (s : Nat) (es : Es)
inductive Es where
  | nil
  | cons (e : E) (es : Es)
end

/-- The same sort, by any name. -/
def Same (env : Env) (a b : Nat) : Prop := env.under a = env.under b

/-- A sort after a colon is the sort of the term. -/
def Fits (env : Env) (given s : Nat) : Prop := given = 0 ∨ Same env s given

/-- The rules for the operators that all sorts have. -/
inductive StdRule (env : Env) : Std → List Nat → Nat → Prop where
  | ite {c a b} : Same env env.bool c → Same env a b → StdRule env .ite [c, a, b] a
  | compare {a b} : Same env a b → StdRule env .compare [a, b] env.bool
  | state {a s} : env.stateVal a = some s → StdRule env .state [a] s
  | deref {a s} : env.derefVal a = some s → StdRule env .deref [a] s
  | object {a} : env.isObj a = true → StdRule env .object [a] env.bool
  | size {a} : env.isSized a = true → StdRule env .size [a] env.int
  | index {a} : env.isIndexed a = true → StdRule env .index [a] env.int

mutual
/-- `e` is a reading of the term with this sort. -/
inductive Elab (env : Env) : T → E → Nat → Prop where
  | leaf {l g ss s} : s ∈ ss → Fits env g s → Elab env (.leaf l g ss) (.leaf s) s
  | op {f g args es sorts sig} : sig ∈ env.ops f → Fits env g sig.range → Elabs env args es sorts →
      List.Forall₂ (Same env) sig.dom sorts → Elab env (.app f g args) (.op sig es) sig.range
  | std {f g args es sorts s} : Elabs env args es sorts → StdRule env (env.std f) sorts s → Fits env g s →
      Elab env (.app f g args) (.std s es) s
inductive Elabs (env : Env) : Ts → Es → List Nat → Prop where
  | nil : Elabs env .nil .nil []
  | cons {t ts e es s ss} : Elab env t e s → Elabs env ts es ss → Elabs env (.cons t ts) (.cons e es) (s :: ss)
end

/-- The term can be read with this sort. -/
def HasSort (env : Env) (t : T) (s : Nat) : Prop := ∃ e s', Elab env t e s' ∧ Same env s' s

/-- All readings have the same sort. -/
def OneSort (env : Env) (t : T) : Prop := ∀ s s', HasSort env t s → HasSort env t s' → Same env s s'

/-- What is known of a sort does not depend on the name that is used. -/
structure Lawful (env : Env) : Prop where
  state : ∀ a b, Same env a b → env.stateVal a = env.stateVal b
  deref : ∀ a b, Same env a b → env.derefVal a = env.derefVal b
  obj : ∀ a b, Same env a b → env.isObj a = env.isObj b
  sized : ∀ a b, Same env a b → env.isSized a = env.isSized b
  indexed : ∀ a b, Same env a b → env.isIndexed a = env.isIndexed b

mutual
/-- The sorts of each leaf are a set, and not empty. -/
def WF (env : Env) : T → Prop
  | .leaf _ _ ss => ss ≠ [] ∧ ss.Pairwise fun a b => ¬ Same env a b
  | .app _ _ args => WFs env args
def WFs (env : Env) : Ts → Prop
  | .nil => True
  | .cons t ts => WF env t ∧ WFs env ts
end

mutual
/-- No sort is given after a colon, other than for operators that are declared. -/
def Clean (env : Env) : T → Prop
  | .leaf _ g _ => g = 0
  | .app f g args => (env.std f = .no ∨ g = 0) ∧ Cleans env args
def Cleans (env : Env) : Ts → Prop
  | .nil => True
  | .cons t ts => Clean env t ∧ Cleans env ts
end

/-- What the operators that all sorts have ask of their arguments: both branches of an `if`, and the left side of a
comparison, have one sort. -/
def Narrow (env : Env) : Std → Ts → Prop
  | .ite, .cons _ (.cons a (.cons b .nil)) => OneSort env a ∧ OneSort env b
  | .compare, .cons a (.cons _ .nil) => OneSort env a
  | _, _ => True

mutual
/-- Everywhere in the term. -/
def Fine (env : Env) : T → Prop
  | .leaf _ _ _ => True
  | .app f _ args => Narrow env (env.std f) args ∧ Fines env args
def Fines (env : Env) : Ts → Prop
  | .nil => True
  | .cons t ts => Fine env t ∧ Fines env ts
end

end SortCheck
end Splint
