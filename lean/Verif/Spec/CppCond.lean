import Verif.Model.CppCond
import Verif.Spec.CppSkip
/-!
# Conditional compilation

What a file with conditionals means (C11 6.10.1): a group is processed or it is not.
-/
namespace Splint.CppCond
open CppSkip (Kind)

variable {α σ : Type}

mutual
/-- A file: lines, and conditionals with #if, #elif, #else and #endif. -/
inductive Block (α : Type) where
  | nil
  | line (l : α) (rest : Block α)
  | cond (l : α) (group : Block α) (tail : Tail α) (rest : Block α)
/-- What follows the group of an #if or #elif. -/
inductive Tail (α : Type) where
  | endif (l : α)
  | els (l : α) (group : Block α) (last : α)
  | elif (l : α) (group : Block α) (tail : Tail α)
end

mutual
/-- The lines of the file. -/
def Block.lines : Block α → List α
  | .nil => []
  | .line l r => l :: r.lines
  | .cond l b t r => l :: (b.lines ++ (t.lines ++ r.lines))
def Tail.lines : Tail α → List α
  | .endif l => [l]
  | .els l b e => l :: (b.lines ++ [e])
  | .elif l b t => l :: (b.lines ++ t.lines)
end

mutual
/-- Every line is the directive that its place in the file requires. -/
def Block.Ok (kind : α → Kind) : Block α → Prop
  | .nil => True
  | .line l r => kind l = .other ∧ r.Ok kind
  | .cond l b t r => kind l = .opens ∧ b.Ok kind ∧ t.Ok kind ∧ r.Ok kind
def Tail.Ok (kind : α → Kind) : Tail α → Prop
  | .endif l => kind l = .endif
  | .els l b e => kind l = .els ∧ b.Ok kind ∧ kind e = .endif
  | .elif l b t => kind l = .elif ∧ b.Ok kind ∧ t.Ok kind
end

mutual
/-- What the file does: of a conditional, the first group whose condition holds, or else that after
#else; the conditions before it are evaluated in order, and nothing else of it is looked at. -/
def Block.sem (E : Env α σ) : Block α → σ → σ
  | .nil, s => s
  | .line l r, s => r.sem E (E.exec s l)
  | .cond l b t r, s =>
    r.sem E (if (E.cond s l).1 then b.sem E (E.cond s l).2 else t.sem E (E.cond s l).2)
def Tail.sem (E : Env α σ) : Tail α → σ → σ
  | .endif _, s => s
  | .els _ b _, s => b.sem E s
  | .elif l b t, s => if (E.cond s l).1 then b.sem E (E.cond s l).2 else t.sem E (E.cond s l).2
end

/-- The lines are those of a file whose conditionals are complete. -/
def Nested (kind : α → Kind) (ls : List α) : Prop := ∃ b : Block α, b.Ok kind ∧ b.lines = ls

end Splint.CppCond
