import Verif.Model.TestFacts
/-! What tests and facts mean (C100). -/
namespace Splint.Facts.Spec
open Facts

/-- a state in which a test is made: the value of each expression, and the last index that may be read
of each buffer -/
structure State where
  val : Tst → Int
  maxRead : Tst → Int

def Rel.Holds : Rel → Int → Int → Prop
  | .eq, x, y => x = y
  | .lt, x, y => x < y
  | .le, x, y => x ≤ y
  | .gt, x, y => x > y
  | .ge, x, y => x ≥ y

/-- the values of the operators are those of C: a test is true if its value is not 0 -/
structure Meaning (σ : State) : Prop where
  parens : ∀ e, σ.val (.parens e) = σ.val e
  cmp : ∀ r a b, σ.val (.cmp r a b) ≠ 0 ↔ Rel.Holds r (σ.val a) (σ.val b)
  and : ∀ a b, σ.val (.and a b) ≠ 0 ↔ σ.val a ≠ 0 ∧ σ.val b ≠ 0
  or : ∀ a b, σ.val (.or a b) ≠ 0 ↔ σ.val a ≠ 0 ∨ σ.val b ≠ 0
  not : ∀ e, σ.val (.not e) ≠ 0 ↔ σ.val e = 0

/-- The test is made without an access out of bounds.  The second operand of `&&` and `||` may not be
evaluated. -/
def Safe (σ : State) : Tst → Prop
  | .leaf _ => True
  | .fetch a i => σ.val i ≤ σ.maxRead a ∧ Safe σ a ∧ Safe σ i
  | .parens e => Safe σ e
  | .cmp _ a b => Safe σ a ∧ Safe σ b
  | .and a b => Safe σ a ∧ (σ.val a ≠ 0 → Safe σ b)
  | .or a b => Safe σ a ∧ (σ.val a = 0 → Safe σ b)
  | .not e => Safe σ e
  | .unary _ e => Safe σ e
  | .binary _ a b => Safe σ a ∧ Safe σ b

def Fact.Holds (σ : State) : Fact → Prop
  | .rel r a b => Rel.Holds r (σ.val a) (σ.val b)
  | .within i a => σ.val i ≤ σ.maxRead a

/-- what is concluded from a list holds if the list holds -/
structure Sound (L : Logic Fact) : Prop where
  resolve : ∀ σ f l, Meaning σ → L.resolve f l = true → (∀ g ∈ l, Fact.Holds σ g) → Fact.Holds σ f
  subst : ∀ σ f l, Meaning σ → (∀ g ∈ l, Fact.Holds σ g) → Fact.Holds σ (L.subst f l) → Fact.Holds σ f

/-- a test without comparisons and logical operators -/
def Quiet : Tst → Bool
  | .leaf _ => true
  | .fetch a i => Quiet a && Quiet i
  | .parens e => Quiet e
  | .cmp _ _ _ => false
  | .and _ _ => false
  | .or _ _ => false
  | .not _ => false
  | .unary _ e => Quiet e
  | .binary _ a b => Quiet a && Quiet b

/-- and without accesses -/
def Bare : Tst → Bool
  | .leaf _ => true
  | .fetch _ _ => false
  | .parens e => Bare e
  | .cmp _ _ _ => false
  | .and _ _ => false
  | .or _ _ => false
  | .not _ => false
  | .unary _ e => Bare e
  | .binary _ a b => Bare a && Bare b

/-- a test joined by `&&` from comparisons, and from other tests as long as `!` and `||` have no
comparisons below them -/
def Conjunctive : Tst → Bool
  | .leaf _ => true
  | .fetch a i => Quiet a && Quiet i
  | .parens e => Conjunctive e
  | .cmp _ a b => Quiet a && Quiet b
  | .and a b => Conjunctive a && Conjunctive b
  | .or a b => Quiet a && Bare b
  | .not e => Quiet e
  | .unary _ e => Quiet e
  | .binary _ a b => Quiet a && Quiet b

/-- the same with `||` for `&&`; accesses do not matter -/
def Disjunctive : Tst → Bool
  | .leaf _ => true
  | .fetch a i => Quiet a && Quiet i
  | .parens e => Disjunctive e
  | .cmp _ a b => Quiet a && Quiet b
  | .and a b => Quiet a && Quiet b
  | .or a b => Disjunctive a && Disjunctive b
  | .not e => Quiet e
  | .unary _ e => Quiet e
  | .binary _ a b => Quiet a && Quiet b

end Splint.Facts.Spec
