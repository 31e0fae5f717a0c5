import Verif.Model.LoopEffect
import Verif.Spec.EvalOrder
/-!
# What loops and statements do

Expressions with values and operators, without calls, and what they and the statements made of them
do to a store.  The operands are evaluated from left to right; that is one of the orders the
language allows.
-/
namespace Splint
namespace LoopEffect
namespace Spec
open EvalOrder EvalOrder.Spec

abbrev Store := Nat → Int

/-- Expressions without calls. -/
inductive VExp
  | const (c : Int)
  | var (x : Nat)
  | paren (e : VExp)
  | unary (f : Int → Int) (e : VExp)
  /-- `x++` and so on: `f` is the new value, `post` tells that the value is the old one -/
  | incr (f : Int → Int) (post : Bool) (x : Nat)
  | bin (f : Int → Int → Int) (a b : VExp)
  | and (a b : VExp)
  | or (a b : VExp)
  | comma (a b : VExp)
  | cond (p a b : VExp)
  | assign (x : Nat) (e : VExp)
  | opAssign (f : Int → Int → Int) (x : Nat) (e : VExp)

/-- The expression without the values. -/
def VExp.shape : VExp → Exp
  | .const _ => .const
  | .var x => .var x
  | .paren e => .paren e.shape
  | .unary _ e => .unary e.shape
  | .incr _ _ x => .incr x
  | .bin _ a b => .bin a.shape b.shape
  | .and a b => .logic a.shape b.shape
  | .or a b => .logic a.shape b.shape
  | .comma a b => .comma a.shape b.shape
  | .cond p a b => .cond p.shape a.shape b.shape
  | .assign x e => .assign x e.shape
  | .opAssign _ x e => .opAssign x e.shape

def Store.put (σ : Store) (x : Nat) (v : Int) : Store := fun y => if y = x then v else σ y

/-- The value, and the store afterwards. -/
def eval : VExp → Store → Int × Store
  | .const c, σ => (c, σ)
  | .var x, σ => (σ x, σ)
  | .paren e, σ => eval e σ
  | .unary f e, σ => let (v, τ) := eval e σ; (f v, τ)
  | .incr f post x, σ => (if post then σ x else f (σ x), Store.put σ x (f (σ x)))
  | .bin f a b, σ =>
    let (v, τ) := eval a σ
    let (w, υ) := eval b τ
    (f v w, υ)
  | .and a b, σ =>
    let (v, τ) := eval a σ
    if v = 0 then (0, τ) else
    let (w, υ) := eval b τ
    (if w = 0 then 0 else 1, υ)
  | .or a b, σ =>
    let (v, τ) := eval a σ
    if v ≠ 0 then (1, τ) else
    let (w, υ) := eval b τ
    (if w = 0 then 0 else 1, υ)
  | .comma a b, σ => let (_, τ) := eval a σ; eval b τ
  | .cond p a b, σ => let (v, τ) := eval p σ; if v ≠ 0 then eval a τ else eval b τ
  | .assign x e, σ => let (v, τ) := eval e σ; (v, Store.put τ x v)
  | .opAssign f x e, σ => let (v, τ) := eval e σ; (f (τ x) v, Store.put τ x (f (τ x) v))

/-- How a statement ends. -/
inductive Exit
  | normal
  | brk
  | cont
  | ret
deriving DecidableEq, Repr

/-- An optional expression; without one, `d` is the value. -/
def evalOpt (d : Int) : Option VExp → Store → Int × Store
  | some e, σ => eval e σ
  | none, σ => (d, σ)

/-- What a statement does within `n` steps; `none` means that it does not end within them. -/
def run : Nat → Stmt VExp → Store → Option (Exit × Store)
  | 0, _, _ => none
  | _ + 1, .skip, σ => some (.normal, σ)
  | _ + 1, .brk, σ => some (.brk, σ)
  | _ + 1, .cont, σ => some (.cont, σ)
  | _ + 1, .ret, σ => some (.ret, σ)
  | _ + 1, .expr e, σ => some (.normal, (eval e σ).2)
  | n + 1, .seq s t, σ =>
    match run n s σ with
    | some (.normal, τ) => run n t τ
    | r => r
  | n + 1, .ifThen p s, σ =>
    let (v, τ) := eval p σ
    if v ≠ 0 then run n s τ else some (.normal, τ)
  | n + 1, .ifElse p s t, σ =>
    let (v, τ) := eval p σ
    if v ≠ 0 then run n s τ else run n t τ
  | n + 1, .while t b, σ =>
    let (v, τ) := eval t σ
    if v = 0 then some (.normal, τ) else
    match run n b τ with
    | some (.brk, υ) => some (.normal, υ)
    | some (.ret, υ) => some (.ret, υ)
    | some (_, υ) => run n (.while t b) υ
    | none => none
  | n + 1, .doWhile b t, σ =>
    match run n b σ with
    | some (.brk, υ) => some (.normal, υ)
    | some (.ret, υ) => some (.ret, υ)
    | some (_, υ) =>
      let (v, τ) := eval t υ
      if v = 0 then some (.normal, τ) else run n (.doWhile b t) τ
    | none => none
  | n + 1, .for i t c b, σ =>
    let (v, τ) := evalOpt 1 t (evalOpt 0 i σ).2
    if v = 0 then some (.normal, τ) else
    match run n b τ with
    | some (.brk, υ) => some (.normal, υ)
    | some (.ret, υ) => some (.ret, υ)
    | some (_, υ) => run n (.for none t c b) (evalOpt 0 c υ).2
    | none => none
  | n + 1, .switch e k s, σ =>
    let (v, τ) := eval e σ
    if v = k then
      match run n s τ with
      | some (.brk, υ) => some (.normal, υ)
      | r => r
    else some (.normal, τ)

/-- The statement without the values. -/
def shape : Stmt VExp → Stmt Exp
  | .skip => .skip
  | .expr e => .expr e.shape
  | .seq s t => .seq (shape s) (shape t)
  | .ifThen p s => .ifThen p.shape (shape s)
  | .ifElse p s t => .ifElse p.shape (shape s) (shape t)
  | .while t b => .while t.shape (shape b)
  | .doWhile b t => .doWhile (shape b) t.shape
  | .for i t c b => .for (i.map VExp.shape) (t.map VExp.shape) (c.map VExp.shape) (shape b)
  | .switch e k s => .switch e.shape k (shape s)
  | .brk => .brk
  | .cont => .cont
  | .ret => .ret

/-- Some expression of the statement writes `x`.  Without `deep`, the bodies of `switch` statements
are left out. -/
def Modifies (deep : Bool) (x : Nat) : Stmt Exp → Prop
  | .expr e => Writes e x
  | .seq s t => Modifies deep x s ∨ Modifies deep x t
  | .ifThen p s => Writes p x ∨ Modifies deep x s
  | .ifElse p s t => Writes p x ∨ Modifies deep x s ∨ Modifies deep x t
  | .while t b => Writes t x ∨ Modifies deep x b
  | .doWhile b t => Modifies deep x b ∨ Writes t x
  | .for i t c b => (∃ e, (i = some e ∨ t = some e ∨ c = some e) ∧ Writes e x) ∨ Modifies deep x b
  | .switch e _ s => Writes e x ∨ (deep = true ∧ Modifies deep x s)
  | _ => False

/-- The loop is part of the statement. -/
def Loop (t : Exp) (b : Stmt Exp) : Stmt Exp → Prop
  | .seq s u => Loop t b s ∨ Loop t b u
  | .ifThen _ s => Loop t b s
  | .ifElse _ s u => Loop t b s ∨ Loop t b u
  | .while u s => (u = t ∧ s = b) ∨ Loop t b s
  | .doWhile s _ => Loop t b s
  | .for _ _ _ s => Loop t b s
  | .switch _ _ s => Loop t b s
  | _ => False

mutual
/-- The functions that are called modify nothing. -/
def NoMods : Exp → Prop
  | .const | .var _ | .incr _ => True
  | .paren e | .unary e | .assign _ e | .opAssign _ e => NoMods e
  | .bin a b | .logic a b | .comma a b => NoMods a ∧ NoMods b
  | .cond p a b => NoMods p ∧ NoMods a ∧ NoMods b
  | .call mods as => mods = [] ∧ NoModsArgs as
def NoModsArgs : Args → Prop
  | .nil => True
  | .cons e as => NoMods e ∧ NoModsArgs as
end

/-- The statement may end with a `break` or `return` of its own; `inner` tells that a `break` stays
inside. -/
def Escapes (inner : Bool) : Stmt VExp → Prop
  | .brk => inner = false
  | .ret => True
  | .seq s t => Escapes inner s ∨ Escapes inner t
  | .ifThen _ s => Escapes inner s
  | .ifElse _ s t => Escapes inner s ∨ Escapes inner t
  | .while _ b => Escapes true b
  | .doWhile b _ => Escapes true b
  | .for _ _ _ b => Escapes true b
  | .switch _ _ s => Escapes true s
  | _ => False

/-- There is no `switch`. -/
def NoSwitch {E : Type} : Stmt E → Prop
  | .seq s t => NoSwitch s ∧ NoSwitch t
  | .ifThen _ s => NoSwitch s
  | .ifElse _ s t => NoSwitch s ∧ NoSwitch t
  | .while _ b => NoSwitch b
  | .doWhile b _ => NoSwitch b
  | .for _ _ _ b => NoSwitch b
  | .switch _ _ _ => False
  | _ => True

end Spec
end LoopEffect
end Splint
