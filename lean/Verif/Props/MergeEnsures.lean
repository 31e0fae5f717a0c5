import Verif.Spec.MergeEnsures
import Verif.Props.Constraint
/-!
# What is known after two statements (C155)
-/
namespace Splint
open Bounds Bounds.Spec Bounds.Constraint
namespace MergeEnsures

theorem addFact_mem {sim : Nat → Nat → Bool} {s r : List Constraint} {c : Constraint} (h : addFact sim s c = some r) : ∀ d ∈ r, d ∈ s ∨ d = c := by
  intro d hd
  simp only [addFact, Option.map_eq_some_iff] at h
  obtain ⟨b, _, rfl⟩ := h
  cases b with
  | true => exact Or.inl hd
  | false => simpa using hd

theorem addFacts_mem {sim : Nat → Nat → Bool} (cs : List Constraint) : ∀ {s r : List Constraint}, addFacts sim s cs = some r → ∀ d ∈ r, d ∈ s ∨ d ∈ cs := by
  induction cs with
  | nil => intro s r h d hd; cases h; exact Or.inl hd
  | cons c cs ih =>
    intro s r h d hd
    simp only [addFacts, Option.bind_eq_some_iff] at h
    obtain ⟨s', h1, h2⟩ := h
    rcases ih h2 d hd with h | h
    · rcases addFact_mem h1 d h with h | h
      · exact Or.inl h
      · exact Or.inr (by simp [h])
    · exact Or.inr (by simp [h])

theorem subsumeInto_mem {sim : Nat → Nat → Bool} {facts : List Constraint} (cs : List Constraint) : ∀ {s r : List Constraint},
    subsumeInto sim facts cs s = some r → ∀ d ∈ r, d ∈ s ∨ (d ∈ cs ∧ resolve sim d facts = some false) := by
  induction cs with
  | nil => intro s r h d hd; cases h; exact Or.inl hd
  | cons c cs ih =>
    intro s r h d hd
    simp only [subsumeInto, Option.bind_eq_some_iff] at h
    obtain ⟨b, hb, h⟩ := h
    cases b with
    | true =>
      rw [if_pos rfl] at h
      rcases ih h d hd with h | h
      · exact Or.inl h
      · exact Or.inr ⟨by simp [h.1], h.2⟩
    | false =>
      rw [if_neg (by simp)] at h
      simp only [Option.bind_eq_some_iff] at h
      obtain ⟨s', h1, h2⟩ := h
      rcases ih h2 d hd with h | h
      · rcases addFact_mem h1 d h with h | h
        · exact Or.inl h
        · subst h; exact Or.inr ⟨by simp, hb⟩
      · exact Or.inr ⟨by simp [h.1], h.2⟩

theorem reflectEnsures_mem {sim : Nat → Nat → Bool} {closer : Constraint → Constraint → Bool} {post : List Constraint} (cs : List Constraint) :
    ∀ {s r : List Constraint}, reflectEnsures sim closer post cs s = some r → ∀ d ∈ r, d ∈ s ∨ ∃ c ∈ cs, resolve sim c post = some false ∧
      d = substitute sim closer c post := by
  induction cs with
  | nil => intro s r h d hd; cases h; exact Or.inl hd
  | cons c cs ih =>
    intro s r h d hd
    simp only [reflectEnsures, Option.bind_eq_some_iff] at h
    obtain ⟨b, hb, h⟩ := h
    have fin : ∀ {s' : List Constraint}, (∀ d ∈ s', d ∈ s ∨ d = substitute sim closer c post) → resolve sim c post = some false →
        reflectEnsures sim closer post cs s' = some r →
        d ∈ s ∨ ∃ c' ∈ c :: cs, resolve sim c' post = some false ∧ d = substitute sim closer c' post := by
      intro s' hs hc h
      rcases ih h d hd with h | ⟨c', h1, h2⟩
      · rcases hs d h with h | h
        · exact Or.inl h
        · exact Or.inr ⟨c, by simp, hc, h⟩
      · exact Or.inr ⟨c', by simp [h1], h2⟩
    cases b with
    | true =>
      rw [if_pos rfl] at h
      rcases ih h d hd with h | ⟨c', h1, h2⟩
      · exact Or.inl h
      · exact Or.inr ⟨c', by simp [h1], h2⟩
    | false =>
      rw [if_neg (by simp)] at h
      simp only [Option.bind_eq_some_iff] at h
      obtain ⟨b2, hb2, h⟩ := h
      cases b2 with
      | true =>
        rw [if_pos rfl] at h
        exact fin (fun d hd => Or.inl hd) hb h
      | false =>
        rw [if_neg (by simp)] at h
        simp only [Option.bind_eq_some_iff] at h
        obtain ⟨s', h1, h2⟩ := h
        exact fin (addFact_mem h1) hb h2

theorem fixFirst_none {sim : Nat → Nat → Bool} {c : Constraint} (l : List Constraint) : fixFirst sim c l = none ↔ ∀ el ∈ l, conflict sim el c = false := by
  induction l with
  | nil => simp [fixFirst]
  | cons a l ih =>
    rw [fixFirst]
    by_cases h : conflict sim a c = true
    · simp [h]
    · rw [if_neg h, Option.map_eq_none_iff, ih]
      simp [h]

theorem fixConflicts_mem {sim : Nat → Nat → Bool} (cs : List Constraint) : ∀ {ret l2 r l2' : List Constraint},
    fixConflicts sim cs ret l2 = some (r, l2') → ∀ d ∈ r, d ∈ ret ∨ d ∈ cs := by
  induction cs with
  | nil => intro ret l2 r l2' h d hd; cases h; exact Or.inl hd
  | cons c cs ih =>
    intro ret l2 r l2' h d hd
    rw [fixConflicts] at h
    cases hf : fixFirst sim c l2 with
    | some m =>
      rw [hf] at h
      rcases ih h d hd with h | h
      · exact Or.inl h
      · exact Or.inr (by simp [h])
    | none =>
      rw [hf] at h
      simp only [Option.bind_eq_some_iff] at h
      obtain ⟨s', h1, h2⟩ := h
      rcases ih h2 d hd with h | h
      · rcases addFact_mem h1 d h with h | h
        · exact Or.inl h
        · exact Or.inr (by simp [h])
      · exact Or.inr (by simp [h])

theorem fixConflicts_free {sim : Nat → Nat → Bool} (cs : List Constraint) : ∀ {ret l2 r l2' : List Constraint},
    (∀ c ∈ cs, ∀ el ∈ l2, conflict sim el c = false) → fixConflicts sim cs ret l2 = some (r, l2') → l2' = l2 := by
  induction cs with
  | nil => intro ret l2 r l2' _ h; cases h; rfl
  | cons c cs ih =>
    intro ret l2 r l2' hc h
    rw [fixConflicts, (fixFirst_none l2).2 (hc c (by simp))] at h
    simp only [Option.bind_eq_some_iff] at h
    obtain ⟨s', h1, h2⟩ := h
    exact ih (fun c hm => hc c (by simp [hm])) h2

theorem origin_kept {sim : Nat → Nat → Bool} {closer : Constraint → Constraint → Bool} {l1 l2 l l2' : List Constraint}
    (h : mergeEnsures sim closer l1 l2 = some (l, l2')) : ∃ k, fixConflicts sim l1 [] l2 = some (k, l2') ∧
      ∀ d ∈ l, d ∈ l2' ∨ ∃ c ∈ k, d = substitute sim closer c l2' := by
  simp only [mergeEnsures, Option.bind_eq_some_iff, Option.map_eq_some_iff, Prod.mk.injEq] at h
  obtain ⟨⟨k, m⟩, h1, r1, h2, r2, h3, t, h4, l', h5, h6, h7⟩ := h
  subst h6; subst h7
  refine ⟨k, h1, ?_⟩
  intro d hd
  have hr2 : ∀ d ∈ r2, ∃ c ∈ k, d = substitute sim closer c m := by
    intro d hd
    rcases subsumeInto_mem _ h3 d hd with h | ⟨h, _⟩
    · cases h
    · rcases reflectEnsures_mem _ h2 d h with h | ⟨c, hc, _, he⟩
      · cases h
      · exact ⟨c, hc, he⟩
  rcases addFacts_mem _ h5 d hd with h | h
  · rcases subsumeInto_mem _ h4 d h with h | h
    · cases h
    · exact Or.inl h.1
  · exact Or.inr (hr2 d h)

/-- **C155 (origin).**  Every fact that is known after both statements is one of the second (as changed because of conflicts), or one of the first with
the equalities of the second put in. -/
theorem C155_origin {sim : Nat → Nat → Bool} {closer : Constraint → Constraint → Bool} {l1 l2 l l2' : List Constraint}
    (h : mergeEnsures sim closer l1 l2 = some (l, l2')) : ∀ d ∈ l, d ∈ l2' ∨ ∃ c ∈ l1, d = substitute sim closer c l2' := by
  intro d hd
  obtain ⟨k, h1, h2⟩ := origin_kept h
  rcases h2 d hd with h | ⟨c, hc, he⟩
  · exact Or.inl h
  · rcases fixConflicts_mem _ h1 c hc with h | h
    · cases h
    · exact Or.inr ⟨c, h, he⟩

/-- **C155 (no conflict).**  Without conflicts the facts of the second statement are not changed. -/
theorem C155_unchanged {sim : Nat → Nat → Bool} {closer : Constraint → Constraint → Bool} {l1 l2 l l2' : List Constraint}
    (hc : ∀ c ∈ l1, ∀ el ∈ l2, conflict sim el c = false) (h : mergeEnsures sim closer l1 l2 = some (l, l2')) : l2' = l2 := by
  simp only [mergeEnsures, Option.bind_eq_some_iff, Option.map_eq_some_iff, Prod.mk.injEq] at h
  obtain ⟨⟨k, m⟩, h1, r1, h2, r2, h3, t, h4, l', h5, h6, h7⟩ := h
  subst h7
  exact fixConflicts_free l1 hc h1

/-- **C155 (logic).**  If the facts of both hold at the same time, do not conflict, and what comes out can be rearranged, all that is known then holds. -/
theorem C155_same_time_partial {sim : Nat → Nat → Bool} {closer : Constraint → Constraint → Bool} {ρ : State} {l1 l2 l l2' : List Constraint}
    (hs : Same sim ρ) (hc : ∀ c ∈ l1, ∀ el ∈ l2, conflict sim el c = false)
    (h1 : ∀ c ∈ l1, Holds ρ c ∧ Fits ρ c.l ∧ Fits ρ c.r ∧ Linear sim ρ (substituteIn sim closer c l2))
    (h2 : ∀ p ∈ l2, Holds ρ p ∧ (p.ar = .eq → Fits ρ p.l ∧ Fits ρ p.r ∧ Expr.search sim p.l p.r = false))
    (h : mergeEnsures sim closer l1 l2 = some (l, l2')) : ∀ d ∈ l, Holds ρ d := by
  intro d hd
  have he := C155_unchanged hc h
  subst he
  rcases C155_origin h d hd with h | ⟨c, hcm, rfl⟩
  · exact (h2 d h).1
  · obtain ⟨g1, g2, g3, g4⟩ := h1 c hcm
    exact (C28_substitute_partial hs g2 g3 (fun p hp ha => ⟨((h2 p hp).2 ha).1, ((h2 p hp).2 ha).2.1, (h2 p hp).1, ((h2 p hp).2 ha).2.2⟩) g4).2 g1

/-! ### Assignments -/

theorem free_eval {sim : Nat → Nat → Bool} {x : Nat} {v : Val} {ρ : State} : ∀ {e : Expr}, Free sim x e → eval (assign sim x v ρ) e = eval ρ e := by
  intro e
  induction e with
  | term t =>
    intro h
    cases t with
    | lit n => rfl
    | ref r w =>
      have : ¬ (r = x ∨ sim x r = true) := by
        rintro (h' | h')
        · exact h.1 h'
        · rw [h.2.1] at h'; cases h'
      simp [eval, evalTerm, assign, this]
    | node n => rfl
  | un op e ih =>
    intro h
    simp only [eval, ih h]
    rfl
  | bin op a b iha ihb =>
    intro h
    simp only [eval, iha h.1, ihb h.2]

theorem free_search {sim : Nat → Nat → Bool} {x : Nat} : ∀ {e : Expr}, Free sim x e → Expr.search sim (.term (.ref x none)) e = false := by
  intro e
  induction e with
  | term t =>
    intro h
    cases t with
    | lit n => simp [Expr.search, Expr.similar, Term.similar, Term.value]
    | ref r w => cases w <;> simp [Expr.search, Expr.similar, Term.similar, Term.value, Term.getRef, h.2.2]
    | node n =>
      simp only [Expr.search, Expr.similar, Term.similar, Term.value, Term.getRef]
      cases hn : n.ref with
      | none => rfl
      | some r => exact (h r hn).2.2
  | un op e ih => intro h; simp [Expr.search, Expr.similar, ih h]
  | bin op a b iha ihb => intro h; simp [Expr.search, Expr.similar, iha h.1, ihb h.2]

theorem search_replace {sim : Nat → Nat → Bool} {old new : Expr} : ∀ {e : Expr}, Expr.search sim old e = false → Expr.replace sim old new e = e := by
  intro e
  induction e with
  | term t => intro h; simp only [Expr.search] at h; simp [Expr.replace, h]
  | un op e ih =>
    intro h
    simp only [Expr.search, Bool.or_eq_false_iff] at h
    simp [Expr.replace, h.1, ih h.2]
  | bin op a b iha ihb =>
    intro h
    simp only [Expr.search, Bool.or_eq_false_iff] at h
    simp [Expr.replace, h.1, iha h.2.1, ihb h.2.2]

theorem free_similar {sim : Nat → Nat → Bool} {x : Nat} {e : Expr} (h : Free sim x e) : Expr.similar sim (.term (.ref x none)) e = false := by
  cases e with
  | term t =>
    cases t with
    | lit n => simp [Expr.similar, Term.similar, Term.value]
    | ref r w => cases w <;> simp [Expr.similar, Term.similar, Term.value, Term.getRef, h.2.1]
    | node n =>
      simp only [Expr.similar, Term.similar, Term.value, Term.getRef]
      cases hn : n.ref with
      | none => rfl
      | some r => exact (h r hn).2.1
  | un op e => rfl
  | bin op a b => rfl

theorem free_fits {sim : Nat → Nat → Bool} {x : Nat} {v : Val} {ρ : State} : ∀ {e : Expr}, Free sim x e → Fits ρ e → Fits (assign sim x v ρ) e := by
  have key : ∀ r, r ≠ x → sim x r = false → (assign sim x v ρ).ref r = ρ.ref r := by
    intro r h1 h2
    simp [assign, h1, h2]
  intro e
  induction e with
  | term t =>
    intro h hf
    cases t with
    | lit n => trivial
    | ref r w =>
      intro y hy
      rw [key r h.1 h.2.1]
      exact hf y hy
    | node n =>
      obtain ⟨f1, f2, f3, f4⟩ := hf
      refine ⟨?_, f2, f3, f4⟩
      intro r hr
      rw [key r (h r hr).1 (h r hr).2.1]
      exact f1 r hr
  | un op e ih => intro h hf; exact ih h hf
  | bin op a b iha ihb => intro h hf; exact ⟨iha h.1 hf.1, ihb h.2 hf.2⟩

theorem free_typed {sim : Nat → Nat → Bool} {x : Nat} {v : Val} {ρ : State} : ∀ {e : Expr} {u : Bool}, Free sim x e → Typed ρ u e →
    Typed (assign sim x v ρ) u e := by
  intro e
  induction e with
  | term t => intro u _ _; simp [Typed]
  | un op e ih =>
    intro u h ht
    simp only [Typed] at ht ⊢
    exact ⟨ih h ht.1, by rw [free_eval (show Free sim x e from h)]; exact ht.2⟩
  | bin op a b iha ihb =>
    intro u h ht
    simp only [Typed] at ht ⊢
    refine ⟨iha h.1 ht.1, ihb h.2 ht.2.1, ?_, ?_⟩
    · rw [free_eval (show Free sim x (.bin op a b) from h)]; exact ht.2.2.1
    · rw [free_eval h.2]; exact ht.2.2.2

theorem free_linear {sim : Nat → Nat → Bool} {x : Nat} {v : Val} {ρ : State} {c : Constraint} (h : Linear sim ρ c) (hl : Free sim x c.l)
    (hr : Free sim x c.r) : Linear sim (assign sim x v ρ) c := by
  obtain ⟨f1, f2, ⟨a, b, e1, e2, e3⟩, f4, f5⟩ := h
  refine ⟨free_fits hl f1, free_fits hr f2, ⟨a, b, by rw [free_eval hl, e1], by rw [free_eval hr, e2], e3⟩, f4, ?_⟩
  rcases f5 with ⟨g1, g2⟩ | ⟨S, k, g1, g2⟩
  · refine Or.inl ⟨g1, ?_⟩
    rcases g2 with g2 | ⟨S, k, g2, g3⟩
    · exact Or.inl g2
    · exact Or.inr ⟨S, k, g2, free_typed hr g3⟩
  · refine Or.inr ⟨S, k, ⟨g1.1, free_typed hl g1.2⟩, ?_⟩
    rcases g2 with g2 | ⟨S', k', g2, g3⟩
    · exact Or.inl g2
    · exact Or.inr ⟨S', k', ⟨g2.1, free_typed hr g2.2⟩, g3⟩

theorem free_holds {sim : Nat → Nat → Bool} {x : Nat} {v : Val} {ρ : State} {c : Constraint} (hl : Free sim x c.l) (hr : Free sim x c.r) :
    Holds (assign sim x v ρ) c ↔ Holds ρ c := by
  simp only [Holds, free_eval hl, free_eval hr]

/-- **C155 (assignment).**  After an assignment of an expression without the variable, all that is known holds, if no earlier fact contains the variable, and the
constraints are small and can be rearranged. -/
theorem C155_assign_partial {sim : Nat → Nat → Bool} {closer : Constraint → Constraint → Bool} {ρ : State} {l1 l l2 : List Constraint} {x : Nat}
    {e : Expr} {v : Val} (hv : eval ρ e = some v) (he : Free sim x e)
    (hd : tooDeep ⟨.term (.ref x none), .eq, e⟩ = false)
    (h1 : ∀ c ∈ l1, Holds ρ c ∧ Linear sim ρ c ∧ Free sim x c.l ∧ Free sim x c.r ∧ tooDeep c = false)
    (h : mergeEnsures sim closer l1 [⟨.term (.ref x none), .eq, e⟩] = some (l, l2)) : ∀ d ∈ l, Holds (assign sim x v ρ) d := by
  intro d hdm
  have hc : ∀ c ∈ l1, ∀ el ∈ [(⟨.term (.ref x none), .eq, e⟩ : Constraint)], conflict sim el c = false := by
    intro c hc el hel
    simp only [List.mem_singleton] at hel
    subst hel
    obtain ⟨_, _, g3, g4, g5⟩ := h1 c hc
    simp [conflict, free_similar g3, isNodeTerm, hd, g5]
  have hu := C155_unchanged hc h
  subst hu
  rcases C155_origin h d hdm with h | ⟨c, hcm, rfl⟩
  · simp only [List.mem_singleton] at h
    subst h
    exact ⟨v, v, by simp [eval, evalTerm, assign], by rw [free_eval he, hv], rfl⟩
  · obtain ⟨g1, g2, g3, g4, g5⟩ := h1 c hcm
    have hin : substituteIn sim closer c [⟨.term (.ref x none), .eq, e⟩] = c := by
      rw [substituteIn]
      split
      · rw [substituteIn]
        simp only [adjust, free_search he, Bool.false_and, Bool.false_eq_true, if_false, Constraint.replace]
        rw [search_replace (free_search g3), search_replace (free_search g4)]
      · rfl
    rw [substitute, hin]
    exact ((simplify_holds (free_linear (v := v) g2 g3 g4)).2).2 ((free_holds g3 g4).2 g1)

/-- `y >= 2`, then `x = y + 1` -/
example : (∀ c ∈ [(⟨BoundsEx.y, .gte, .lit 2⟩ : Constraint)], Holds BoundsEx.ρ c ∧ Free BoundsEx.sim 0 c.l ∧ Free BoundsEx.sim 0 c.r ∧ tooDeep c = false)
    ∧ Free BoundsEx.sim 0 (.bin .plus BoundsEx.y (.lit 1))
    ∧ mergeEnsures BoundsEx.sim (fun _ _ => false) [⟨BoundsEx.y, .gte, .lit 2⟩] [⟨BoundsEx.x, .eq, .bin .plus BoundsEx.y (.lit 1)⟩]
      = some ([⟨BoundsEx.x, .eq, .bin .plus BoundsEx.y (.lit 1)⟩, ⟨BoundsEx.y, .gte, .lit 2⟩],
        [⟨BoundsEx.x, .eq, .bin .plus BoundsEx.y (.lit 1)⟩]) := by
  refine ⟨?_, ?_, by decide +kernel⟩
  · intro c hc
    simp only [List.mem_singleton] at hc
    subst hc
    exact ⟨⟨.int 7, .int 2, rfl, rfl, rfl, by decide⟩, by simp [Free], by simp [Free], by decide⟩
  · simp [Free]

theorem fixConflicts_split {sim : Nat → Nat → Bool} {c el el' : Constraint} {post : List Constraint} (hf : fixFirst sim c [el] = some [el'])
    (hpost : ∀ d ∈ post, conflict sim el' d = false) : ∀ (pre : List Constraint) {ret k m : List Constraint},
    (∀ d ∈ pre, conflict sim el d = false) → fixConflicts sim (pre ++ c :: post) ret [el] = some (k, m) →
    m = [el'] ∧ ∀ d ∈ k, d ∈ ret ∨ d ∈ pre ∨ d ∈ post := by
  intro pre
  induction pre with
  | nil =>
    intro ret k m _ h
    rw [List.nil_append, fixConflicts, hf] at h
    refine ⟨fixConflicts_free post (by simpa using hpost) h, ?_⟩
    intro d hd
    rcases fixConflicts_mem _ h d hd with h | h
    · exact Or.inl h
    · exact Or.inr (Or.inr h)
  | cons a pre ih =>
    intro ret k m hp h
    rw [List.cons_append, fixConflicts, (fixFirst_none [el]).2 (by simpa using hp a (by simp))] at h
    simp only [Option.bind_eq_some_iff] at h
    obtain ⟨s', h1, h2⟩ := h
    obtain ⟨g1, g2⟩ := ih (fun d hd => hp d (by simp [hd])) h2
    refine ⟨g1, ?_⟩
    intro d hd
    rcases g2 d hd with h | h | h
    · rcases addFact_mem h1 d h with h | h
      · exact Or.inl h
      · exact Or.inr (Or.inl (by simp [h]))
    · exact Or.inr (Or.inl (by simp [h]))
    · exact Or.inr (Or.inr h)

theorem free_substituteIn {sim : Nat → Nat → Bool} {closer : Constraint → Constraint → Bool} {x : Nat} {e : Expr} {c : Constraint} (he : Free sim x e)
    (hl : Free sim x c.l) (hr : Free sim x c.r) : substituteIn sim closer c [⟨.term (.ref x none), .eq, e⟩] = c := by
  rw [substituteIn]
  split
  · rw [substituteIn]
    simp only [adjust, free_search he, Bool.false_and, Bool.false_eq_true, if_false, Constraint.replace]
    rw [search_replace (free_search hl), search_replace (free_search hr)]
  · rfl

theorem simplify_var {sim : Nat → Nat → Bool} {x : Nat} {r : Expr} (hd : tooDeep ⟨.term (.ref x none), .eq, r⟩ = false) :
    simplify sim ⟨.term (.ref x none), .eq, r⟩ = ⟨.term (.ref x none), .eq, Expr.simplify sim r⟩ := by
  have hl : Expr.simplify sim (.term (.ref x none)) = .term (.ref x none) := by
    simp [Expr.simplify, Expr.bound, Expr.size, Expr.simplifyN, Expr.children, Expr.combine, Expr.propagate, Expr.simplifyTop, Term.simplify]
  obtain ⟨m, hm⟩ : ∃ m, bound ⟨.term (.ref x none), .eq, r⟩ = m + 1 := ⟨16 * (Expr.size r) + 15, by simp [bound, Expr.size]; omega⟩
  rw [simplify, hm, simplifyN, if_neg (by simp [hd])]
  simp [step, both, hl, Expr.isLit]

/-- the value of an expression with `a` put in for `x`, where `a` is the value of `x` before, and does not contain it -/
theorem eval_replace {sim : Nat → Nat → Bool} {ρ : State} {x : Nat} {a : Expr} {v : Val} (hs : Same sim ρ) (hx : eval ρ a = some (ρ.ref x))
    (ha : Free sim x a) : ∀ {e : Expr}, Fits ρ e →
    (∀ t, Part (.term t) e → Expr.similar sim (.term t) (.term (.ref x none)) = false → Free sim x (.term t)) →
    eval (assign sim x v ρ) (Expr.replace sim (.term (.ref x none)) a e) = eval ρ e := by
  intro e
  induction e with
  | term t =>
    intro hf hp
    rw [Expr.replace]
    by_cases h : Expr.similar sim (.term t) (.term (.ref x none)) = true
    · rw [if_pos h, free_eval ha, hx]
      cases t with
      | lit n => simp [Expr.similar, Term.similar, Term.value] at h
      | ref r w =>
        cases w with
        | some y => simp [Expr.similar, Term.similar, Term.value] at h
        | none =>
          simp only [Expr.similar, Term.similar, Term.value, Term.getRef] at h
          simp [eval, evalTerm, hs r x h]
      | node n =>
        simp only [Expr.similar, Term.similar, Term.value, Term.getRef] at h
        cases hn : n.ref with
        | none => rw [hn] at h; cases h
        | some r =>
          rw [hn] at h
          simp only [eval, evalTerm, Option.some.injEq]
          rw [hf.1 r hn, hs r x h]
    · rw [if_neg h]
      exact free_eval (hp t (.refl _) (by simpa using h))
  | un op e ih =>
    intro hf hp
    have := ih hf (fun t ht => hp t (.un ht))
    rw [Expr.replace, if_neg (by simp [Expr.similar])]
    simp only [eval, this]
    rfl
  | bin op b c ihb ihc =>
    intro hf hp
    have h1 := ihb hf.1 (fun t ht => hp t (.left ht))
    have h2 := ihc hf.2 (fun t ht => hp t (.right ht))
    rw [Expr.replace, if_neg (by simp [Expr.similar])]
    simp only [eval, h1, h2]

/-- **C155 (update).**  If `x == a` was known and `x` is assigned any expression (such as `x + 1`), the new fact about `x` and all other facts hold
afterwards: `a` and the other facts do not contain `x`, the constraints are small, and those that come out can be rearranged. -/
theorem C155_update_partial {sim : Nat → Nat → Bool} {closer : Constraint → Constraint → Bool} {ρ : State} {pre post l l2 : List Constraint} {x : Nat}
    {a e : Expr} {v : Val} (hs : Same sim ρ) (hxx : sim x x = true) (hv : eval ρ e = some v) (hfe : Fits ρ e)
    (hpe : ∀ t, Part (.term t) e → Expr.similar sim (.term t) (.term (.ref x none)) = false → Free sim x (.term t))
    (ha : Free sim x a) (hax : Holds ρ ⟨.term (.ref x none), .eq, a⟩)
    (hlin : Linear sim (assign sim x v ρ) ⟨.term (.ref x none), .eq, Expr.replace sim (.term (.ref x none)) a e⟩)
    (hfree : Free sim x (Expr.simplify sim (Expr.replace sim (.term (.ref x none)) a e)))
    (hd1 : tooDeep ⟨.term (.ref x none), .eq, e⟩ = false)
    (hd2 : tooDeep ⟨.term (.ref x none), .eq, Expr.replace sim (.term (.ref x none)) a e⟩ = false)
    (hd3 : tooDeep ⟨.term (.ref x none), .eq, Expr.simplify sim (Expr.replace sim (.term (.ref x none)) a e)⟩ = false)
    (h1 : ∀ c ∈ pre ++ post, Holds ρ c ∧ Linear sim ρ c ∧ Free sim x c.l ∧ Free sim x c.r ∧ tooDeep c = false)
    (h : mergeEnsures sim closer (pre ++ ⟨.term (.ref x none), .eq, a⟩ :: post) [⟨.term (.ref x none), .eq, e⟩] = some (l, l2)) :
    ∀ d ∈ l, Holds (assign sim x v ρ) d := by
  intro d hd
  obtain ⟨k, hk, ho⟩ := origin_kept h
  have hfix : fixFirst sim ⟨.term (.ref x none), .eq, a⟩ [⟨.term (.ref x none), .eq, e⟩] =
      some [⟨.term (.ref x none), .eq, Expr.simplify sim (Expr.replace sim (.term (.ref x none)) a e)⟩] := by
    rw [fixFirst, if_pos (by simp [conflict, Expr.similar, Term.similar, Term.value, Term.getRef, hxx]), fixConflict, if_pos (by simp), simplify_var hd2]
  have hno : ∀ e', tooDeep ⟨.term (.ref x none), .eq, e'⟩ = false → ∀ c ∈ pre ++ post, conflict sim ⟨.term (.ref x none), .eq, e'⟩ c = false := by
    intro e' he' c hc
    obtain ⟨_, _, g3, g4, g5⟩ := h1 c hc
    simp [conflict, free_similar g3, isNodeTerm, he', g5]
  obtain ⟨hm, hkeep⟩ := fixConflicts_split hfix (fun d hd => hno _ hd3 d (by simp [hd])) pre (fun d hd => hno _ hd1 d (by simp [hd])) hk
  subst hm
  rcases ho d hd with h | ⟨c, hc, rfl⟩
  · simp only [List.mem_singleton] at h
    subst h
    have hx : eval ρ a = some (ρ.ref x) := by
      obtain ⟨y, z, e1, e2, e3⟩ := hax
      simp only [eval, evalTerm, Option.some.injEq, Rel] at e1 e3
      rw [e2, ← e3, e1]
    have := (simplify_holds hlin).2
    rw [simplify_var hd2] at this
    rw [this]
    exact ⟨v, v, by simp [eval, evalTerm, assign], by rw [eval_replace hs hx ha hfe hpe, hv], rfl⟩
  · have hcm : c ∈ pre ++ post := by
      rcases hkeep c hc with h | h | h
      · cases h
      · simp [h]
      · simp [h]
    obtain ⟨g1, g2, g3, g4, g5⟩ := h1 c hcm
    rw [substitute, free_substituteIn hfree g3 g4]
    exact ((simplify_holds (free_linear (v := v) g2 g3 g4)).2).2 ((free_holds g3 g4).2 g1)

/-- `x == 3`, then `x = x + 1`: the second list is changed -/
example : mergeEnsures BoundsEx.sim (fun _ _ => false) [⟨BoundsEx.x, .eq, .lit 3⟩] [⟨BoundsEx.x, .eq, .bin .plus BoundsEx.x (.lit 1)⟩]
    = some ([⟨BoundsEx.x, .eq, .lit 4⟩], [⟨BoundsEx.x, .eq, .lit 4⟩]) := by decide +kernel

example : Linear BoundsEx.sim (assign BoundsEx.sim 0 (.int 4) BoundsEx.ρ)
      ⟨BoundsEx.x, .eq, Expr.replace BoundsEx.sim BoundsEx.x (.lit 3) (.bin .plus BoundsEx.x (.lit 1))⟩
    ∧ (∀ t, Part (.term t) (.bin .plus BoundsEx.x (.lit 1)) → Expr.similar BoundsEx.sim (.term t) BoundsEx.x = false → Free BoundsEx.sim 0 (.term t))
    ∧ Expr.simplify BoundsEx.sim (Expr.replace BoundsEx.sim BoundsEx.x (.lit 3) (.bin .plus BoundsEx.x (.lit 1))) = .lit 4
    ∧ Holds BoundsEx.ρ ⟨BoundsEx.x, .eq, .lit 3⟩ := by
  have e : Expr.replace BoundsEx.sim BoundsEx.x (.lit 3) (.bin .plus BoundsEx.x (.lit 1)) = .bin .plus (.lit 3) (.lit 1) := by decide +kernel
  refine ⟨?_, ?_, by decide +kernel, ⟨.int 3, .int 3, rfl, rfl, rfl⟩⟩
  · rw [e]
    refine ⟨by simp [Fits, TermFits], by simp [Fits, TermFits], ⟨.int 4, .int 4, rfl, rfl, rfl⟩, by decide,
      .inr ⟨fun _ => False, some (.ref 0 none), ⟨.term rfl, trivial⟩, .inl (.bin (.lit 3) (.lit 1))⟩⟩
  · intro t ht hn
    cases ht with
    | left h => cases h; simp [Expr.similar, Term.similar, Term.value, Term.getRef] at hn
    | right h => cases h; trivial

/-- **C155 (stale).**  After `y = x; x = n;` it is taken as known that `y == n`, for all variables and numbers. -/
theorem C155_stale (sim : Nat → Nat → Bool) (closer : Constraint → Constraint → Bool) (x y : Nat) (n : Int) (hx : sim x x = true)
    (hxy : sim x y = false) (hyx : sim y x = false) :
    mergeEnsures sim closer [⟨.term (.ref y none), .eq, .term (.ref x none)⟩] [⟨.term (.ref x none), .eq, .lit n⟩]
      = some ([⟨.term (.ref x none), .eq, .lit n⟩, ⟨.term (.ref y none), .eq, .lit n⟩], [⟨.term (.ref x none), .eq, .lit n⟩]) := by
  have e1 : substituteIn sim closer ⟨.term (.ref y none), .eq, .term (.ref x none)⟩ [⟨.term (.ref x none), .eq, .lit n⟩]
      = ⟨.term (.ref y none), .eq, .lit n⟩ := by
    simp [substituteIn, conflict, hyx, hxy, hx, Expr.similar, Term.similar, Term.value, Term.getRef, isNodeTerm, tooDeep, Expr.depth, adjust,
      Expr.search, Constraint.replace, Expr.replace]
  have e2 : simplify sim ⟨.term (.ref y none), .eq, .lit n⟩ = ⟨.term (.ref y none), .eq, .lit n⟩ := by
    simp [simplify, bound, Expr.size, simplifyN, tooDeep, Expr.depth, step, both, Expr.simplify, Expr.bound, Expr.simplifyN, Expr.children, Expr.combine,
      Expr.propagate, Expr.simplifyTop, Term.simplify, Expr.isLit]
  simp [mergeEnsures, fixConflicts, fixFirst, conflict, hyx, hxy, hx, Expr.similar, Term.similar, Term.value, Term.getRef, isNodeTerm, tooDeep, Expr.depth,
    addFact, resolve, reflectEnsures, subsumeInto, addFacts, satisfies, isAlwaysTrue, sizeOfMaxSet, Expr.value, Expr.propagate, substitute, e1, e2]

/-- and that is wrong unless `x` was `n` before -/
theorem C155_stale_wrong (sim : Nat → Nat → Bool) (ρ : State) (x y : Nat) (n : Int) (hxy : sim x y = false) (hne : y ≠ x)
    (h : Holds ρ ⟨.term (.ref y none), .eq, .term (.ref x none)⟩) (hn : ρ.ref x ≠ .int n) :
    ¬ Holds (assign sim x (.int n) ρ) ⟨.term (.ref y none), .eq, .lit n⟩ := by
  obtain ⟨a, b, h1, h2, h3⟩ := h
  simp only [eval, evalTerm, Option.some.injEq, Rel] at h1 h2 h3
  rintro ⟨a', b', g1, g2, g3⟩
  simp only [eval, evalTerm, Option.some.injEq, Rel, assign, hxy, hne] at g1 g2 g3
  subst g1; subst g2; subst h1; subst h2
  simp at g3
  rw [h3] at g3
  exact hn g3

/-- `y = x; x = 5;` with `x` 3 before -/
theorem C155_full_is_false : ¬ C155_full := by
  intro h
  have h1 := h BoundsEx.sim (fun _ _ => false) ⟨fun _ => .int 3, fun _ => .int 0, fun _ _ => 0⟩ [⟨BoundsEx.y, .eq, BoundsEx.x⟩] 0 (.lit 5) (.int 5) _ _
    (fun _ _ _ => rfl) (by intro c hc; simp only [List.mem_singleton] at hc; subst hc; exact ⟨.int 3, .int 3, rfl, rfl, rfl⟩) rfl
    (C155_stale BoundsEx.sim (fun _ _ => false) 0 1 5 rfl rfl rfl) ⟨BoundsEx.y, .eq, .lit 5⟩ (by simp)
  exact C155_stale_wrong BoundsEx.sim ⟨fun _ => .int 3, fun _ => .int 0, fun _ _ => 0⟩ 0 1 5 rfl (by decide) ⟨.int 3, .int 3, rfl, rfl, rfl⟩ (by decide) h1

end MergeEnsures
end Splint
