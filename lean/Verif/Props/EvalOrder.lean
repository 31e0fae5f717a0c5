import Verif.Proofs.EvalReports
/-!
# C84–C85: messages about the order of evaluation
-/
namespace Splint
open EvalOrder EvalOrder.Spec

/-- `f(x++)`, for a function that modifies nothing. -/
private def callIncr (x : Nat) : Exp := .call [] (.cons (.incr x) .nil)

/-! ## C84: an expression whose value depends on the order of evaluation is reported -/

/-- The language's rule for an expression comes down to its operators: accesses to `x` interfere
exactly when some part of the expression has operands that interfere. -/
theorem C84_interference_exactly (e : Exp) (x : Nat) :
    Interferes e x ↔ ∃ s, Part s e ∧ Interfering x s := interferes_iff x e

example : Interferes (.unary (.bin (.var 0) (.incr 0))) 0 := by
  refine (C84_interference_exactly _ _).2 ⟨.bin (.var 0) (.incr 0), .unary .self, ?_⟩
  exact Or.inl ⟨⟨_, List.mem_singleton.2 rfl, ⟨0, false⟩, by decide, rfl⟩,
    ⟨_, List.mem_singleton.2 rfl, by decide⟩⟩

/-- Exactly when there is a message. -/
theorem C84_reports_exactly (e : Exp) : reports e ≠ [] ↔ ∃ s, Part s e ∧ Wrong s := reports_iff e

example : reports (.bin (.var 0) (.paren (callIncr 0))) ≠ [] := by decide

/-- Every expression with interfering accesses is reported. -/
def C84_full : Prop := ∀ (e : Exp) (x : Nat), Interferes e x → reports e ≠ []

/-- `i + f(i++)` is not. -/
theorem C84_full_is_false : ¬ C84_full := by
  intro h
  have h1 : Interferes (.bin (.var 0) (callIncr 0)) 0 :=
    ⟨_, List.mem_singleton.2 rfl, by decide⟩
  exact h _ _ h1 (by decide)

/-- Neither is `i += f(i++)`. -/
theorem C84_opAssign_missed :
    Interferes (.opAssign 0 (callIncr 0)) 0 ∧ reports (.opAssign 0 (callIncr 0)) = [] :=
  ⟨⟨_, List.mem_singleton.2 rfl, by decide⟩, by decide⟩

/-- Every expression with interfering accesses is reported, unless some part of it is `x op f(…)` or
`x op= f(…)` where the arguments or the function write `x`. -/
theorem C84_complete_partial (e : Exp) (x : Nat) (h : Interferes e x)
    (hb : ∀ a b y, Part (.bin a b) e → IsVar y a → IsCall b → ¬ Writes b y)
    (ho : ∀ b y, Part (.opAssign y b) e → IsCall b → ¬ Writes b y) : reports e ≠ [] := by
  rw [reports_iff]
  obtain ⟨s, hs, hi⟩ := (interferes_iff x e).1 h
  refine ⟨s, hs, ?_⟩
  cases s with
  | bin a b =>
    refine ⟨x, hi, ?_⟩
    rintro ⟨hv, hc⟩
    have hw : ¬ Writes a x := by
      have := (nodeSays a).var x hv
      rw [writes_iff, ← (nodeSays a).sets, this.2.2]
      simp
    rcases hi with hi | hi
    · exact hb a b x hs hv hc hi.2
    · exact hw hi.1
  | assign y b =>
    obtain ⟨rfl, hl⟩ := hi
    exact ⟨leaves_writes hl, fun hc => call_leaves hc _ hl⟩
  | opAssign y b =>
    obtain ⟨rfl, hw⟩ := hi
    exact ⟨hw, fun hc => ho b y hs hc hw⟩
  | call m as => exact ⟨x, hi⟩
  | _ => exact hi.elim

example : Interferes (.call [] (.cons (.var 0) (.cons (.incr 0) .nil))) 0 :=
  ⟨_, List.mem_singleton.2 rfl, by decide⟩

/-! ## C85: an expression with a message depends on the order of evaluation -/

/-- Only such expressions are reported. -/
def C85_full : Prop := ∀ (e : Exp) (x : Nat), x ∈ reports e → Interferes e x

/-- `i = (i++, 3)` is reported; so is `i = (f(i++))`, while `i = f(i++)` is not. -/
theorem C85_full_is_false : ¬ C85_full := by
  intro h
  obtain ⟨r, hr, hx⟩ := h (.assign 0 (.paren (.comma (.incr 0) .const))) 0 (by decide)
  revert hx
  obtain rfl := List.mem_singleton.1 hr
  decide

/-- Parentheses around a call change the answer. -/
theorem C85_parentheses (x : Nat) :
    reports (.assign x (callIncr x)) = [] ∧ reports (.assign x (.paren (callIncr x))) = [x] ∧
      ¬ Interferes (.assign x (.paren (callIncr x))) x := by
  refine ⟨?_, ?_, ?_⟩
  · simp [reports, check, checkArgs, callIncr, ident, Node.copy, Node.use, Node.set, ins, callNode,
      sequencing, defined, definedAux, union, Node.merge]
  · simp [reports, check, checkArgs, callIncr, ident, Node.copy, Node.use, Node.set, ins, callNode,
      sequencing, defined, union, Node.merge]
  · simp [Interferes, callIncr, runs, argRuns, both, Run.store, Run.andThen, Run.complete, Run.unordered,
      Run.all, clashes]

/-- The variable of a message is one on which accesses interfere, unless some part of the expression is
`x = e` where `e` writes `x` and is certain to be done with it before the assignment. -/
theorem C85_sound_partial (e : Exp) (x : Nat) (h : x ∈ reports e)
    (ha : ∀ f, Part (.assign x f) e → Writes f x → Leaves f x) : Interferes e x := by
  obtain ⟨s, hs, hx⟩ := (mem_reports x e).1 h
  refine (interferes_iff x e).2 ⟨s, hs, ?_⟩
  cases s with
  | bin a b => exact defined_conflict (nodeSays a) (nodeSays b) hx
  | assign y f =>
    obtain ⟨rfl, hw, -⟩ := (defined_assign (nodeSays f) y x).1 hx
    exact ⟨rfl, ha f hs hw⟩
  | opAssign y f =>
    obtain ⟨rfl, hw, -⟩ := (defined_assign (nodeSays f) y x).1 hx
    exact ⟨rfl, hw⟩
  | call m as => exact (pairs_iff as x).1 ((mem_sequencing _ x).1 hx)
  | _ => cases hx

example : 0 ∈ reports (.assign 0 (.incr 0)) ∧
    ∀ f, Part (.assign 0 f) (.assign 0 (.incr 0)) → Writes f 0 → Leaves f 0 := by
  refine ⟨by decide, ?_⟩
  intro f hf _
  cases hf with
  | self => exact ⟨_, List.mem_singleton.2 rfl, by decide⟩
  | assign h => cases h

/-- Expressions without calls, `,`, `&&`, `||` and `?:`. -/
def Simple : Exp → Prop
  | .const | .var _ | .incr _ => True
  | .paren e | .unary e | .assign _ e | .opAssign _ e => Simple e
  | .bin a b => Simple a ∧ Simple b
  | _ => False

/-- In such expressions the writes are pending. -/
private theorem simple_leaves : ∀ e, Simple e → ∀ x, Writes e x → Leaves e x
  | .const, _, x, h => by
    obtain ⟨r, hr, ha⟩ := h
    obtain rfl := List.mem_singleton.1 hr
    simp [Run.all] at ha
  | .var y, _, x, h => by
    obtain ⟨r, hr, ha⟩ := h
    obtain rfl := List.mem_singleton.1 hr
    simp [Run.all] at ha
  | .incr y, _, x, h => by
    obtain ⟨r, hr, ha⟩ := h
    refine ⟨r, hr, ?_⟩
    obtain rfl := List.mem_singleton.1 hr
    simpa [Run.all, Run.store] using ha
  | .paren e, hs, x, h => by
    have := simple_leaves e hs x (by rwa [Writes, runs] at h)
    rwa [Leaves, runs]
  | .unary e, hs, x, h => by
    have := simple_leaves e hs x (by rwa [Writes, runs] at h)
    rwa [Leaves, runs]
  | .bin a b, hs, x, h => by
    obtain ⟨s0, hs0⟩ := runs_ne b
    obtain ⟨r0, hr0⟩ := runs_ne a
    rw [Leaves, runs]
    rcases does_bin.1 h with h | h
    · obtain ⟨r, hr, hx⟩ := simple_leaves a hs.1 x h
      exact ⟨_, mem_both.2 ⟨r, hr, s0, hs0, rfl⟩, List.mem_append_left _ hx⟩
    · obtain ⟨r, hr, hx⟩ := simple_leaves b hs.2 x h
      exact ⟨_, mem_both.2 ⟨r0, hr0, r, hr, rfl⟩, List.mem_append_right _ hx⟩
  | .assign y e, hs, x, h => by
    rw [Leaves, runs]
    rcases does_assign.1 h with h | h
    · obtain ⟨r, hr, hx⟩ := simple_leaves e hs x h
      exact ⟨_, List.mem_map_of_mem hr, List.mem_append_left _ hx⟩
    · obtain ⟨r, hr⟩ := runs_ne e
      exact ⟨_, List.mem_map_of_mem hr, List.mem_append_right _ (List.mem_singleton.2 h)⟩
  | .opAssign y e, hs, x, h => by
    rw [Leaves, runs]
    rcases does_opAssign.1 h with h | h | h
    · obtain ⟨r, hr, hx⟩ := simple_leaves e hs x h
      exact ⟨_, List.mem_map_of_mem (mem_both.2 ⟨_, List.mem_singleton.2 rfl, r, hr, rfl⟩),
        List.mem_append_left _ (List.mem_append_right _ hx)⟩
    · simp at h
    · obtain ⟨r, hr⟩ := runs_ne e
      exact ⟨_, List.mem_map_of_mem (mem_both.2 ⟨_, List.mem_singleton.2 rfl, r, hr, rfl⟩),
        List.mem_append_right _ (List.mem_singleton.2 h)⟩

private theorem simple_part {s e : Exp} (h : Part s e) : Simple e → Simple s := by
  induction h using Part.rec (motive_2 := fun _ _ => True) with
  | self => exact id
  | paren _ ih => exact ih
  | unary _ ih => exact ih
  | binL _ ih => exact fun h => ih h.1
  | binR _ ih => exact fun h => ih h.2
  | assign _ ih => exact ih
  | opAssign _ ih => exact ih
  | head => trivial
  | tail => trivial
  | _ => exact False.elim

/-- For expressions without calls, `,`, `&&`, `||` and `?:` there is a message exactly when accesses
interfere. -/
theorem C85_simple_exactly (e : Exp) (hs : Simple e) : reports e ≠ [] ↔ ∃ x, Interferes e x := by
  constructor
  · intro h
    obtain ⟨x, hx⟩ := List.exists_mem_of_ne_nil _ h
    exact ⟨x, C85_sound_partial e x hx fun f hp hw => simple_leaves f (simple_part hp hs : Simple (.assign x f)) x hw⟩
  · rintro ⟨x, hx⟩
    refine C84_complete_partial e x hx ?_ ?_
    · intro a b y hp _ hc
      have := simple_part hp hs
      cases b with
      | call m as => exact this.2.elim
      | _ => cases hc
    · intro b y hp hc
      have := simple_part hp hs
      cases b with
      | call m as => exact this.elim
      | _ => cases hc

example : Simple (.bin (.assign 0 (.incr 1)) (.var 1)) := ⟨trivial, trivial⟩

end Splint
