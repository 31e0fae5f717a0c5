import Verif.Model.Constraint
/-!
What bounds expressions and constraints mean (C25-C29).

A value is an integer or a place in a buffer.  `maxSet(p)` is the highest index, relative to `p`, at
which storage can be set, and so on; each is a property of the buffer, less the place in it.
-/
namespace Splint.Bounds.Spec

structure Val where
  /-- the buffer it points into; `none` for an integer -/
  base : Option Nat
  off : Int
  deriving DecidableEq, Repr

abbrev Val.int (n : Int) : Val := ⟨none, n⟩
abbrev Val.ptr (b : Nat) (n : Int) : Val := ⟨some b, n⟩

/-- C's addition; `none` for two pointers -/
def Val.add : Val → Val → Option Val
  | ⟨none, x⟩, ⟨none, y⟩ => some (.int (x + y))
  | ⟨some b, x⟩, ⟨none, y⟩ => some (.ptr b (x + y))
  | ⟨none, x⟩, ⟨some b, y⟩ => some (.ptr b (x + y))
  | ⟨some _, _⟩, ⟨some _, _⟩ => none

/-- C's subtraction; `none` for pointers into different buffers and integer minus pointer -/
def Val.sub : Val → Val → Option Val
  | ⟨b, x⟩, ⟨none, y⟩ => some ⟨b, x - y⟩
  | ⟨none, _⟩, ⟨some _, _⟩ => none
  | ⟨some b, x⟩, ⟨some c, y⟩ => if b = c then some (.int (x - y)) else none

def Val.apply : BinOp → Val → Val → Option Val
  | .plus => Val.add
  | .minus => Val.sub

/-- a program state -/
structure State where
  ref : Nat → Val
  node : Nat → Val
  /-- the bound of a buffer, counted from its start -/
  size : UnOp → Nat → Int

def evalTerm (ρ : State) : Term → Val
  | .lit n => .int n
  | .ref r _ => ρ.ref r
  | .node n => ρ.node n.id

/-- the value of an expression; `none` if it has none -/
def eval (ρ : State) : Expr → Option Val
  | .term t => some (evalTerm ρ t)
  | .un op e =>
    match eval ρ e with
    | some ⟨some b, o⟩ => some (.int (ρ.size op b - o))
    | _ => none
  | .bin op a b =>
    match eval ρ a, eval ρ b with
    | some x, some y => Val.apply op x y
    | _, _ => none

/-- What is recorded about a term is true in the state. -/
def TermFits (ρ : State) : Term → Prop
  | .lit _ => True
  | .ref r v => ∀ x, v = some x → ρ.ref r = .int x
  | .node n =>
    (∀ r, n.ref = some r → ρ.node n.id = ρ.ref r)
    ∧ (∀ x, n.known = some x → ρ.node n.id = .int x)
    ∧ (∀ k, n.str = some k → ∃ b o, ρ.node n.id = .ptr b o
        ∧ ρ.size .maxSet b - o = k ∧ ρ.size .maxRead b - o = k)
    ∧ (∀ k, n.str = none → n.init = some k → ∃ b o, ρ.node n.id = .ptr b o
        ∧ ρ.size .maxSet b - o = k - 1 ∧ ρ.size .maxRead b - o = k - 1)

def Fits (ρ : State) : Expr → Prop
  | .term t => TermFits ρ t
  | .un _ e => Fits ρ e
  | .bin _ a b => Fits ρ a ∧ Fits ρ b

/-- References taken to be the same have the same value. -/
def Same (sim : Nat → Nat → Bool) (ρ : State) : Prop :=
  ∀ r s, sim r s = true → ρ.ref r = ρ.ref s

def termMag : Term → Nat
  | .lit n => n.natAbs
  | .ref _ v => (v.getD 0).natAbs
  | .node n => (n.known.getD 0).natAbs + n.str.getD 0 + n.init.getD 0 + 1

/-- a bound on the integers that can come up -/
def mag : Expr → Nat
  | .term t => termMag t
  | .un _ e => mag e
  | .bin _ a b => mag a + mag b

/-- a constant that simplification turns into a literal -/
inductive Const : Expr → Prop
  | lit (n : Int) : Const (.lit n)
  | known {n : Node} (h : n.known.isSome) : Const (.term (.node n))
  | block {op : UnOp} {n : Node} (ho : op = .maxSet ∨ op = .maxRead) (hk : n.known = none)
      (h : n.str.isSome ∨ n.init.isSome) : Const (.un op (.term (.node n)))
  | bin {op : BinOp} {a b : Expr} (ha : Const a) (hb : Const b) : Const (.bin op a b)

/-- a literal -/
inductive IsLit : Expr → Prop
  | lit (n : Int) : IsLit (.lit n)

/-- a term with nothing known about its value -/
def plainTerm : Term → Prop
  | .lit _ => False
  | .ref _ v => v = none
  | .node n => n.known = none ∧ n.str = none ∧ n.init = none

/-- The expressions that are simplified as they should be.  The last index is the first term that is
not a constant (`some`), or `none` for `c - e` and what is added to it or subtracted from it.  `c - e`
does not occur as a right operand or under `maxSet` and the like, and the first term of a right
operand of `-` is not taken to be the same as that of the left operand; nor is that of a right operand
of `+` in the argument of `maxSet` and the like (`u`).  References with a recorded value occur only as
right operands, if at all (`K`), and `S` holds for all first terms of right operands. -/
inductive Regular (sim : Nat → Nat → Bool) (C : Expr → Prop) (S : Term → Prop) (K : Prop) :
    Bool → Option Term → Expr → Prop
  | term {u : Bool} {t : Term} (h : plainTerm t) : Regular sim C S K u (some t) (.term t)
  | un {u : Bool} {op : UnOp} {t : Term} {e : Expr} (h : Regular sim C S K true (some t) e) :
      Regular sim C S K u (some t) (.un op e)
  | cplus {u : Bool} {c b : Expr} {t : Term} (hc : C c) (hb : Regular sim C S K u (some t) b) :
      Regular sim C S K u (some t) (.bin .plus c b)
  | cminus {u : Bool} {c b : Expr} {t : Term} (hc : C c) (hb : Regular sim C S K false (some t) b)
      (hs : S t) : Regular sim C S K u none (.bin .minus c b)
  | binC {u : Bool} {k : Option Term} {op : BinOp} {a b : Expr} (ha : Regular sim C S K u k a)
      (hb : C b) : Regular sim C S K u k (.bin op a b)
  | binK {u : Bool} {k : Option Term} {op : BinOp} {a : Expr} {r : Nat} {x : Int}
      (ha : Regular sim C S K u k a) (hk : K) :
      Regular sim C S K u k (.bin op a (.term (.ref r (some x))))
  | binG {u : Bool} {k : Option Term} {op : BinOp} {a b : Expr} {s : Term}
      (ha : Regular sim C S K u k a) (hb : Regular sim C S K false (some s) b) (hs : S s)
      (hd : op = .minus ∨ u = true → ∀ t, k = some t → t.similar sim s = false) :
      Regular sim C S K u k (.bin op a b)

/-- Every part has a value; in the argument of `maxSet` and the like (`u`), a pointer is the left
operand of `+`, unless that is a constant. -/
def Typed (ρ : State) : Bool → Expr → Prop
  | _, .term _ => True
  | _, .un _ e => Typed ρ true e ∧ ∃ b o, eval ρ e = some (.ptr b o)
  | u, .bin op a b =>
    Typed ρ u a ∧ Typed ρ u b ∧ (eval ρ (.bin op a b)).isSome
    ∧ (u = true → op = .plus → Const a ∨ ∀ v, eval ρ b = some v → v.base = none)

/-- the relation between two values: they are comparable, and compare as said -/
def Rel : Ar → Val → Val → Prop
  | .lt, x, y => x.base = y.base ∧ x.off < y.off
  | .lte, x, y => x.base = y.base ∧ x.off ≤ y.off
  | .gt, x, y => x.base = y.base ∧ x.off > y.off
  | .gte, x, y => x.base = y.base ∧ x.off ≥ y.off
  | .eq, x, y => x = y

/-- The constraint holds in the state: both sides have values, which are related as said. -/
def Holds (ρ : State) (c : Constraint) : Prop :=
  ∃ x y, eval ρ c.l = some x ∧ eval ρ c.r = some y ∧ Rel c.ar x y

/-- `s` is a part of the expression -/
inductive Part : Expr → Expr → Prop
  | refl (e : Expr) : Part e e
  | un {s e : Expr} {op : UnOp} (h : Part s e) : Part s (.un op e)
  | left {s a b : Expr} {op : BinOp} (h : Part s a) : Part s (.bin op a b)
  | right {s a b : Expr} {op : BinOp} (h : Part s b) : Part s (.bin op a b)

/-- the number of operators and operands -/
def nodes : Expr → Nat
  | .term _ => 1
  | .un _ e => nodes e + 1
  | .bin _ a b => nodes a + nodes b + 1

end Splint.Bounds.Spec
