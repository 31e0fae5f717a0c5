import Verif.Model.EvalOrder
/-!
# What the language says about the order of evaluation

A run of an expression is a choice of the operands that are evaluated, with the accesses to
variables that happen.  An access is settled when it is certain to be over once the value of the
expression is used, otherwise it is pending.  (ISO C99 5.1.2.3, 6.5 p2, annex C: there are sequence points
after the arguments of a call, after the first operand of `&&`, `||`, `?:` and `,`; the value of an
operand is known before the operator is applied, but the side effect of `=` and `++` may come
later.)  Two accesses to one variable interfere when at least one is a write, and neither is certain to come
first.  What the called function does comes after its arguments, and before the value of the call is
used.
-/
namespace Splint
namespace EvalOrder
namespace Spec

/-- An access to a variable. -/
structure Acc where
  x : Nat
  write : Bool
deriving DecidableEq, Repr

/-- A run: the accesses, and the variables of the accesses that interfere. -/
structure Run where
  settled : List Acc
  pending : List Acc
  races : List Nat
deriving DecidableEq, Repr

/-- All accesses of a run. -/
def Run.all (r : Run) : List Acc := r.settled ++ r.pending

/-- The variables on which accesses of `as` and of `bs` interfere if nothing orders them. -/
def clashes (as bs : List Acc) : List Nat :=
  as.flatMap fun a => bs.flatMap fun b => if a.x = b.x ∧ (a.write ∨ b.write) then [a.x] else []

/-- Both in any order. -/
def Run.unordered (r s : Run) : Run :=
  ⟨r.settled ++ s.settled, r.pending ++ s.pending, r.races ++ s.races ++ clashes r.all s.all⟩

/-- Then a sequence point. -/
def Run.complete (r : Run) : Run := ⟨r.all, [], r.races⟩

/-- The first, a sequence point, the second. -/
def Run.andThen (r s : Run) : Run := ⟨r.all ++ s.settled, s.pending, r.races ++ s.races⟩

/-- A write to `x` after the value of the run is known. -/
def Run.store (r : Run) (x : Nat) : Run :=
  ⟨r.settled, r.pending ++ [⟨x, true⟩], r.races ++ clashes r.pending [⟨x, true⟩]⟩

/-- Every run of the one with every run of the other. -/
def both (f : Run → Run → Run) (as bs : List Run) : List Run := as.flatMap fun a => bs.map (f a)

mutual
/-- The runs of an expression. -/
def runs : Exp → List Run
  | .const => [⟨[], [], []⟩]
  | .var x => [⟨[⟨x, false⟩], [], []⟩]
  | .paren e => runs e
  | .unary e => runs e
  | .incr x => [(⟨[⟨x, false⟩], [], []⟩ : Run).store x]
  | .bin a b => both Run.unordered (runs a) (runs b)
  | .logic a b => (runs a).map Run.complete ++ both Run.andThen (runs a) (runs b)
  | .comma a b => both Run.andThen (runs a) (runs b)
  | .cond p a b => both Run.andThen (runs p) (runs a) ++ both Run.andThen (runs p) (runs b)
  | .assign x e => (runs e).map (·.store x)
  | .opAssign x e => (both Run.unordered [⟨[⟨x, false⟩], [], []⟩] (runs e)).map (·.store x)
  | .call mods as =>
    (argRuns as).map fun r => r.complete.andThen ⟨mods.map (⟨·, true⟩), [], []⟩
def argRuns : Args → List Run
  | .nil => [⟨[], [], []⟩]
  | .cons e as => both Run.unordered (runs e) (argRuns as)
end

/-- Some run of `e` has accesses to `x` that interfere. -/
def Interferes (e : Exp) (x : Nat) : Prop := ∃ r ∈ runs e, x ∈ r.races

/-- Some run of `e` writes `x`. -/
def Writes (e : Exp) (x : Nat) : Prop := ∃ r ∈ runs e, (⟨x, true⟩ : Acc) ∈ r.all

/-- Some run of `e` reads or writes `x`. -/
def Touches (e : Exp) (x : Nat) : Prop := ∃ r ∈ runs e, ∃ a ∈ r.all, a.x = x

/-- Some run of `e` leaves a write of `x` pending. -/
def Leaves (e : Exp) (x : Nat) : Prop := ∃ r ∈ runs e, (⟨x, true⟩ : Acc) ∈ r.pending

mutual
/-- The expression `s` is a part of the expression, or it itself. -/
inductive Part (s : Exp) : Exp → Prop
  | self : Part s s
  | paren {e} : Part s e → Part s (.paren e)
  | unary {e} : Part s e → Part s (.unary e)
  | binL {a b} : Part s a → Part s (.bin a b)
  | binR {a b} : Part s b → Part s (.bin a b)
  | logicL {a b} : Part s a → Part s (.logic a b)
  | logicR {a b} : Part s b → Part s (.logic a b)
  | commaL {a b} : Part s a → Part s (.comma a b)
  | commaR {a b} : Part s b → Part s (.comma a b)
  | condP {p a b} : Part s p → Part s (.cond p a b)
  | condL {p a b} : Part s a → Part s (.cond p a b)
  | condR {p a b} : Part s b → Part s (.cond p a b)
  | assign {x e} : Part s e → Part s (.assign x e)
  | opAssign {x e} : Part s e → Part s (.opAssign x e)
  | call {mods as} : PartArgs s as → Part s (.call mods as)
inductive PartArgs (s : Exp) : Args → Prop
  | head {e as} : Part s e → PartArgs s (.cons e as)
  | tail {e as} : PartArgs s as → PartArgs s (.cons e as)
end

/-- The variable alone, or in parentheses. -/
def IsVar (x : Nat) : Exp → Prop
  | .var y => y = x
  | .paren e => IsVar x e
  | _ => False

/-- A call that is not in parentheses. -/
def IsCall : Exp → Prop
  | .call _ _ => True
  | _ => False

/-- Some run of `a` and some run of `b` have accesses to `x`, and one of the accesses is a write. -/
def Conflict (a b : Exp) (x : Nat) : Prop := Touches a x ∧ Writes b x ∨ Writes a x ∧ Touches b x

/-- `e` is an argument. -/
def Args.Has (e : Exp) : Args → Prop
  | .nil => False
  | .cons f as => f = e ∨ Args.Has e as

/-- Two of the arguments conflict on `x`. -/
def ArgsConflict (x : Nat) : Args → Prop
  | .nil => False
  | .cons e as => (∃ f, Args.Has f as ∧ Conflict e f x) ∨ ArgsConflict x as

/-- The expressions that are reported, apart from their parts. -/
def Wrong : Exp → Prop
  | .bin a b => ∃ x, Conflict a b x ∧ ¬ (IsVar x a ∧ IsCall b)
  | .assign x e => Writes e x ∧ ¬ IsCall e
  | .opAssign x e => Writes e x ∧ ¬ IsCall e
  | .call _ as => ∃ x, ArgsConflict x as
  | _ => False

/-- The operands of the expression interfere on `x`. -/
def Interfering (x : Nat) : Exp → Prop
  | .bin a b => Conflict a b x
  | .assign y e => y = x ∧ Leaves e x
  | .opAssign y e => y = x ∧ Writes e x
  | .call _ as => ArgsConflict x as
  | _ => False

end Spec
end EvalOrder
end Splint
