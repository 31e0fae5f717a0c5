import Verif.Spec.SameAlt
/-!
# Proofs about the comparison of alternate types (C150)
-/
namespace Splint
namespace SameAlt

variable {α : Type} [DecidableEq α]

/-- **C150 (defined).**  Comparing two alternate types never fails an assertion. -/
theorem C150_defined : ∀ (t1 t2 : Ty α), t1.isConj = true → t2.isConj = true → ∃ b, same t1 t2 = some b := by
  intro t1
  induction t1 with
  | leaf a => intro t2 h; cases h
  | alt a1 b1 x _ ih =>
    intro t2 _ h2
    cases t2 with
    | leaf a => cases h2
    | alt a2 b2 y =>
      rw [same]
      split_ifs with g1 g2 g3 g4 g5 g6
      · exact ⟨_, rfl⟩
      · simp only [Bool.and_eq_true] at g3; exact ih b2 g3.1 g3.2
      · exact ⟨_, rfl⟩
      · exact ⟨_, rfl⟩
      · simp only [Bool.and_eq_true] at g6; exact ih a2 g6.1 g6.2
      · exact ⟨_, rfl⟩
      · exact ⟨_, rfl⟩

/-- **C150 (sound).**  Types that are taken for the same have the same alternatives, each as often. -/
theorem C150_sound_partial : ∀ (t1 t2 : Ty α), same t1 t2 = some true → t1.alts.Perm t2.alts := by
  intro t1
  induction t1 with
  | leaf a => intro t2 h; cases t2 <;> cases h
  | alt a1 b1 x _ ih =>
    intro t2 h
    cases t2 with
    | leaf a => cases h
    | alt a2 b2 y =>
      rw [same] at h
      simp only [Ty.alts]
      split_ifs at h with g1 g2 g3 g4 g5 g6
      · rw [g1, g2]
      · rw [g1]; exact (ih b2 h).append_left _
      · cases h
      · rw [g4, g5]; exact List.perm_append_comm
      · rw [g4]; exact ((ih a2 h).append_left _).trans List.perm_append_comm
      · cases h
      · cases h

theorem same_refl : ∀ (t : Ty α), t.isConj = true → same t t = some true := by
  intro t h
  cases t with
  | leaf a => cases h
  | alt a b x => rw [same, if_pos rfl, if_pos rfl]

/-- **C150 (reflexive, two alternatives).**  Every alternate type is the same as itself, and with its two sides exchanged. -/
theorem C150_two_partial (a b : Ty α) (x y : Bool) :
    same (.alt a b x) (.alt a b y) = some true ∧ same (.alt a b x) (.alt b a y) = some true := by
  constructor
  · rw [same, if_pos rfl, if_pos rfl]
  · rw [same]
    by_cases h : a = b
    · rw [if_pos h, if_pos h.symm]
    · rw [if_neg h, if_pos rfl, if_pos rfl]

theorem declared_conj (t : α) (ts : List α) : (declared t ts).isConj = true ↔ ts ≠ [] := by
  cases ts <;> simp [declared, Ty.isConj]

theorem declared_inj : ∀ (ts us : List α) (t u : α), declared t ts = declared u us → t = u ∧ ts = us := by
  intro ts
  induction ts with
  | nil =>
    intro us t u h
    cases us with
    | nil => simp only [declared, Ty.leaf.injEq] at h; exact ⟨h, rfl⟩
    | cons _ _ => cases h
  | cons t1 ts ih =>
    intro us t u h
    cases us with
    | nil => cases h
    | cons u1 us =>
      simp only [declared, Ty.alt.injEq, Ty.leaf.injEq] at h
      obtain ⟨h1, h2⟩ := ih us t1 u1 h.2.1
      exact ⟨h.1, by rw [h1, h2]⟩

theorem declared_alts : ∀ (ts : List α) (t : α), (declared t ts).alts = t :: ts := by
  intro ts
  induction ts with
  | nil => intro t; rfl
  | cons t1 ts ih => intro t; simp [declared, Ty.alts, ih]

/-- **C150 (declared types, exactly).**  Two declarations with alternate types are taken for the same exactly if the alternatives are given in
the same order, or in the same order but for the last two. -/
theorem C150_declared_exactly : ∀ (ts us : List α) (t u : α), ts ≠ [] → us ≠ [] →
    (same (declared t ts) (declared u us) = some true ↔ t :: ts = u :: us ∨ SwapLast (t :: ts) (u :: us)) := by
  intro ts
  induction ts with
  | nil => intro us t u h; exact absurd rfl h
  | cons t1 ts ih =>
    intro us t u _ hu
    cases us with
    | nil => exact absurd rfl hu
    | cons u1 us =>
      rw [declared, declared, same]
      by_cases h1 : t = u
      · subst h1
        rw [if_pos rfl]
        by_cases h2 : declared t1 ts = declared u1 us
        · rw [if_pos h2]
          obtain ⟨h3, h4⟩ := declared_inj _ _ _ _ h2
          subst h3; subst h4
          simp
        · rw [if_neg h2]
          have hne : ¬ (t1 :: ts = u1 :: us) := by
            intro h
            apply h2
            rw [(List.cons.inj h).1, (List.cons.inj h).2]
          have hswap : SwapLast (t :: t1 :: ts) (t :: u1 :: us) ↔ SwapLast (t1 :: ts) (u1 :: us) := by
            constructor
            · rintro ⟨p, a, b, h3, h4⟩
              cases p with
              | nil =>
                have h5 := List.cons.inj h3
                have h6 := List.cons.inj h4
                have h7 := List.cons.inj h5.2
                have h8 := List.cons.inj h6.2
                exfalso
                apply hne
                rw [h7.1, h7.2, h8.1, h8.2, ← h5.1, ← h6.1]
              | cons c p => exact ⟨p, a, b, (List.cons.inj h3).2, (List.cons.inj h4).2⟩
            · rintro ⟨p, a, b, h3, h4⟩
              exact ⟨t :: p, a, b, by rw [h3]; rfl, by rw [h4]; rfl⟩
          by_cases h3 : ts ≠ [] ∧ us ≠ []
          · rw [if_pos (by rw [(declared_conj _ _).2 h3.1, (declared_conj _ _).2 h3.2]; rfl), ih us t1 u1 h3.1 h3.2, hswap]
            simp [hne]
          · rw [if_neg, hswap]
            · constructor
              · intro h; cases h
              · rintro (h | ⟨p, a, b, h4, h5⟩)
                · exact absurd (List.cons.inj h).2 hne
                · exfalso
                  apply h3
                  cases p with
                  | nil => exact ⟨by rw [(List.cons.inj h4).2]; simp, by rw [(List.cons.inj h5).2]; simp⟩
                  | cons c p => exact ⟨by rw [(List.cons.inj h4).2]; simp, by rw [(List.cons.inj h5).2]; simp⟩
            · rw [Bool.and_eq_true, declared_conj, declared_conj]; exact h3
      · rw [if_neg (by simpa using h1)]
        have hleft : ∀ (P : Prop), (P ↔ SwapLast (t :: t1 :: ts) (u :: u1 :: us)) → (P ↔ t :: t1 :: ts = u :: u1 :: us ∨
            SwapLast (t :: t1 :: ts) (u :: u1 :: us)) := by
          intro P h
          rw [h]
          constructor
          · exact Or.inr
          · rintro (h | h)
            · exact absurd (List.cons.inj h).1 h1
            · exact h
        apply hleft
        have hsw : SwapLast (t :: t1 :: ts) (u :: u1 :: us) ↔ ts = [] ∧ us = [] ∧ t = u1 ∧ t1 = u := by
          constructor
          · rintro ⟨p, a, b, h3, h4⟩
            cases p with
            | nil =>
              obtain ⟨e1, e2⟩ := List.cons.inj h3
              obtain ⟨e3, e4⟩ := List.cons.inj h4
              obtain ⟨e5, e6⟩ := List.cons.inj e2
              obtain ⟨e7, e8⟩ := List.cons.inj e4
              exact ⟨e6, e8, by rw [e1, e7], by rw [e5, e3]⟩
            | cons c p =>
              exact absurd ((List.cons.inj h3).1.trans (List.cons.inj h4).1.symm) h1
          · rintro ⟨rfl, rfl, rfl, rfl⟩
            exact ⟨[], t, t1, rfl, rfl⟩
        rw [hsw]
        cases us with
        | nil =>
          simp only [declared, Ty.leaf.injEq]
          by_cases h2 : t = u1
          · rw [if_pos h2]
            cases ts with
            | nil => by_cases h3 : t1 = u <;> simp [declared, Ty.isConj, h2, h3]
            | cons t2 ts => simp [declared, Ty.isConj]
          · rw [if_neg h2]; simp [h2]
        | cons u2 us =>
          rw [if_neg (by simp [declared])]
          simp

/-- **C150 (declared types).**  On declarations, being the same is symmetric. -/
theorem C150_symmetric_partial (ts us : List α) (t u : α) (ht : ts ≠ []) (hu : us ≠ []) :
    same (declared t ts) (declared u us) = some true ↔ same (declared u us) (declared t ts) = some true := by
  rw [C150_declared_exactly ts us t u ht hu, C150_declared_exactly us ts u t hu ht]
  constructor
  · rintro (h | ⟨p, a, b, h1, h2⟩)
    · exact Or.inl h.symm
    · exact Or.inr ⟨p, b, a, h2, h1⟩
  · rintro (h | ⟨p, a, b, h1, h2⟩)
    · exact Or.inl h.symm
    · exact Or.inr ⟨p, b, a, h2, h1⟩

/-- **C150 (not symmetric).**  On other types it is not: `a | (b | c)` is the same as `(c | b) | a`, but not the other way round. -/
theorem C150_not_symmetric : ∃ t1 t2 : Ty Nat, same t1 t2 = some true ∧ same t2 t1 = some false :=
  ⟨.alt (.leaf 0) (.alt (.leaf 1) (.leaf 2) true) true, .alt (.alt (.leaf 2) (.leaf 1) true) (.leaf 0) true, by decide, by decide⟩

/-- `int /*@alt char, float@*/` and `char /*@alt int, float@*/`. -/
theorem C150_full_is_false : ¬ C150_full := by
  intro h
  have h1 := (h (declared 0 [1, 2]) (declared 1 [0, 2]) rfl rfl).2 (by
    intro a
    simp only [declared_alts, List.mem_cons, List.not_mem_nil, or_false]
    tauto)
  revert h1
  decide

/-! ### Examples -/

example : same (declared 0 [1, 2]) (declared 0 [2, 1]) = some true ∧ same (declared 0 [1, 2]) (declared 2 [1, 0]) = some false := by decide

example : SwapLast [0, 1, 2] [0, 2, 1] := ⟨[0], 1, 2, rfl, rfl⟩

end SameAlt
end Splint
