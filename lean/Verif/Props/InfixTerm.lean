import Verif.Spec.InfixTerm
/-!
# Infix operators in terms of specifications (C168)
-/
namespace Splint.InfixTermProps
open Splint.InfixTerm Splint.InfixTermSpec

theorem part_all (x ps : List Part) : (infixOpPart x ps).1 = x ++ ps := by
  induction ps generalizing x with
  | nil => simp [infixOpPart]
  | cons p ps ih => simp [infixOpPart, push, ih]

theorem collapse_written (t : Term) (ps : List Part) :
    written (collapse t ps) = written t ++ ps.flatMap fun p => [.inl p.op, .inr p.right] := by
  induction ps generalizing t with
  | nil => simp [collapse]
  | cons p ps ih => simp [collapse, ih, written]

theorem collapse_left (t : Term) (ps : List Part) (h : FromLeft t) : FromLeft (collapse t ps) := by
  induction ps generalizing t with
  | nil => exact h
  | cons p ps ih => exact ih _ ⟨h, p.right, rfl⟩

/-- **C168** The term is what was read, with operators applied from the left. -/
theorem C168_term (first : Nat) (ps : List Part) :
    written (simpleOpTerm first ps).1 = source first ps ∧ FromLeft (simpleOpTerm first ps).1 := by
  simp only [simpleOpTerm, part_all, List.nil_append]
  exact ⟨by rw [collapse_written]; rfl, collapse_left _ _ trivial⟩

def plus : Tok := ⟨.simpleOp, 1⟩
def times : Tok := ⟨.mulOp, 2⟩
def minus : Tok := ⟨.simpleOp, 3⟩

example : simpleOpTerm 0 [⟨plus, 1⟩, ⟨times, 2⟩] =
    (.app times (.app plus (.operand 0) (.operand 1)) (.operand 2), [(1, 2)]) := by decide

theorem reports_from (f : Part) (x ps : List Part) (hf : f.op.code = .simpleOp ∨ f.op.code = .mulOp) (hs : Simple ps) :
    (infixOpPart (f :: x) ps).2 =
      (ps.filter fun p => f.op.text ≠ p.op.text).map fun p => (f.op.text, p.op.text) := by
  induction ps generalizing x with
  | nil => rfl
  | cons p ps ih =>
    have hp := hs p (by simp)
    have hs' : Simple ps := fun q hq => hs q (by simp [hq])
    have h1 : checkAssociativity f.op p.op = if f.op.text ≠ p.op.text then [(f.op.text, p.op.text)] else [] := by
      rcases hf with hf | hf <;> rcases hp with hp | hp <;> simp [checkAssociativity, hf, hp]
    simp only [infixOpPart, push, List.head?_cons, List.cons_append, ih _ hs', h1]
    by_cases h : f.op.text = p.op.text <;> simp [h]

/-- **C168** What is reported, exactly: each operator that is not the first one of the term, together with the first
one. -/
theorem C168_exactly (first : Nat) (f : Part) (ps : List Part) (hs : Simple (f :: ps)) :
    (simpleOpTerm first (f :: ps)).2 =
      (ps.filter fun p => f.op.text ≠ p.op.text).map fun p => (f.op.text, p.op.text) := by
  have hf := hs f (by simp)
  have hs' : Simple ps := fun q hq => hs q (by simp [hq])
  simp only [simpleOpTerm, infixOpPart, push, List.head?_nil, List.nil_append]
  exact reports_from f [] ps hf hs'

theorem differ_iff (f : Part) (ps : List Part) :
    (∃ p ∈ ps, f.op.text ≠ p.op.text) ↔ ∃ a b, Neighbours (f :: ps) a b ∧ a.text ≠ b.text := by
  induction ps generalizing f with
  | nil =>
    simp only [List.not_mem_nil, false_and, exists_false, false_iff, not_exists, not_and]
    rintro a b ⟨pre, p, q, post, h, _⟩
    have := congrArg List.length h
    simp at this
    omega
  | cons g ps ih =>
    constructor
    · rintro ⟨p, hp, hne⟩
      by_cases hg : f.op.text = g.op.text
      · have : ∃ p ∈ ps, g.op.text ≠ p.op.text := by
          rcases List.mem_cons.1 hp with rfl | hp
          · exact absurd hg hne
          · exact ⟨p, hp, hg ▸ hne⟩
        obtain ⟨a, b, ⟨pre, p, q, post, h, h1, h2⟩, hab⟩ := (ih g).1 this
        exact ⟨a, b, ⟨f :: pre, p, q, post, by rw [h]; rfl, h1, h2⟩, hab⟩
      · exact ⟨f.op, g.op, ⟨[], f, g, ps, rfl, rfl, rfl⟩, hg⟩
    · rintro ⟨a, b, ⟨pre, p, q, post, h, rfl, rfl⟩, hab⟩
      by_cases hg : f.op.text = g.op.text
      · cases pre with
        | nil =>
          simp only [List.nil_append, List.cons.injEq] at h
          obtain ⟨rfl, rfl, _⟩ := h
          exact absurd hg hab
        | cons c pre =>
          simp only [List.cons_append, List.cons.injEq] at h
          obtain ⟨r, hr, hne⟩ := (ih g).2 ⟨p.op, q.op, ⟨pre, p, q, post, h.2, rfl, rfl⟩, hab⟩
          exact ⟨r, by simp [hr], hg ▸ hne⟩
      · exact ⟨g, by simp, hg⟩

/-- **C168** Something is reported for a term just if two operators that follow each other are different. -/
theorem C168_reported_partial (first : Nat) (ps : List Part) (hs : Simple ps) :
    (simpleOpTerm first ps).2 ≠ [] ↔ ∃ a b, Neighbours ps a b ∧ a.text ≠ b.text := by
  cases ps with
  | nil =>
    constructor
    · intro h; exact absurd rfl h
    · rintro ⟨a, b, ⟨pre, p, q, post, h, _⟩, _⟩; simp at h
  | cons f ps =>
    rw [C168_exactly first f ps hs, ← differ_iff]
    simp [List.filter_eq_nil_iff]

/-- The full statement: the pairs that are reported are those of different operators that follow each other. -/
def C168_full : Prop :=
  ∀ (first : Nat) (ps : List Part), Simple ps → ∀ s t,
    (s, t) ∈ (simpleOpTerm first ps).2 ↔ ∃ a b, Neighbours ps a b ∧ a.text = s ∧ b.text = t ∧ s ≠ t

/-- **C168** It is the first operator of the term that is named in all reports: two others are never reported, even if
they follow each other. -/
theorem C168_first (first : Nat) (f : Part) (ps : List Part) (hs : Simple (f :: ps)) (s t : Nat)
    (h : (s, t) ∈ (simpleOpTerm first (f :: ps)).2) : s = f.op.text := by
  rw [C168_exactly first f ps hs] at h
  simp only [List.mem_map, Prod.mk.injEq] at h
  obtain ⟨_, _, h, _⟩ := h
  exact h.symm

example : (simpleOpTerm 0 [⟨plus, 1⟩, ⟨times, 2⟩, ⟨minus, 3⟩]).2 = [(1, 2), (1, 3)] := by decide

theorem C168_full_is_false : ¬C168_full := by
  intro h
  have hs : Simple [⟨plus, 1⟩, ⟨times, 2⟩, ⟨minus, 3⟩] := by intro p hp; simp at hp; rcases hp with rfl | rfl | rfl <;> decide
  have := (h 0 [⟨plus, 1⟩, ⟨times, 2⟩, ⟨minus, 3⟩] hs 2 3).2
    ⟨times, minus, ⟨[⟨plus, 1⟩], ⟨times, 2⟩, ⟨minus, 3⟩, [], rfl, rfl, rfl⟩, rfl, rfl, by decide⟩
  exact absurd this (by decide)

/-- **C168** A term with the same operator everywhere is accepted. -/
theorem C168_same (first : Nat) (f : Part) (ps : List Part) (hs : Simple (f :: ps))
    (h : ∀ p ∈ ps, p.op.text = f.op.text) : (simpleOpTerm first (f :: ps)).2 = [] := by
  rw [C168_exactly first f ps hs]
  simp only [List.map_eq_nil_iff, List.filter_eq_nil_iff]
  intro p hp
  simp [h p hp]

end Splint.InfixTermProps
