import Verif.Proofs.LoopEffect
/-!
# C86–C87: loops that do not modify their test, and statements without effect
-/
namespace Splint
open EvalOrder EvalOrder.Spec LoopEffect LoopEffect.Spec

/-! ## C86: the message about an infinite loop -/

/-- A `while` loop has the message exactly when its test uses some variable, and neither the test nor
any statement of the body modifies a variable the test uses. -/
def C86_full : Prop := ∀ (s b : Stmt Exp) (t : Exp), NoMods t →
  ((t, b) ∈ infinite s ↔
    Loop t b s ∧ (∃ x, Touches t x) ∧ ∀ x, Touches t x → ¬ Writes t x ∧ ¬ Modifies true x b)

/-- `while (x) { switch (y) { case 1: x--; } }` has the message. -/
theorem C86_full_is_false : ¬ C86_full := by
  intro h
  have h1 := (h (.while (.var 0) (.switch (.var 1) 1 (.expr (.incr 0)))) _ (.var 0) trivial).1
    (List.mem_singleton.2 rfl)
  refine (h1.2.2 0 ⟨_, List.mem_singleton.2 rfl, ⟨0, false⟩, by decide, rfl⟩).2 ?_
  exact Or.inr ⟨rfl, ⟨_, List.mem_singleton.2 rfl, by decide⟩⟩

/-- The rule holds when what is done in the bodies of `switch` statements is left out. -/
theorem C86_reported_exactly_partial (s b : Stmt Exp) (t : Exp) (hn : NoMods t) :
    (t, b) ∈ infinite s ↔
      Loop t b s ∧ (∃ x, Touches t x) ∧ ∀ x, Touches t x → ¬ Writes t x ∧ ¬ Modifies false x b := by
  rw [mem_infinite, reported_iff hn]

example : NoMods (.bin (.var 0) (.call [] (.cons (.var 1) .nil))) ∧
    infinite (.while (.bin (.var 0) (.call [] (.cons (.var 1) .nil))) (.expr (.incr 2))) ≠ [] ∧
    infinite (.while (.bin (.var 0) (.call [] (.cons (.var 1) .nil))) (.expr (.incr 1))) = [] :=
  ⟨⟨trivial, rfl, trivial, trivial⟩, by decide, by decide⟩

/-- Whatever the functions called by the test modify: if there is the message, the test reads some
variable, and no variable it reads is modified, bodies of `switch` statements left out. -/
theorem C86_reported_sound_partial (s b : Stmt Exp) (t : Exp) (h : (t, b) ∈ infinite s) :
    Loop t b s ∧ (∃ x, ∃ r ∈ runs t, (⟨x, false⟩ : Acc) ∈ r.all) ∧
      ∀ x, (∃ r ∈ runs t, (⟨x, false⟩ : Acc) ∈ r.all) → ¬ Writes t x ∧ ¬ Modifies false x b := by
  rw [mem_infinite] at h
  exact ⟨h.1, reported_reads h.2⟩

example : (Exp.call [1] (.cons (.var 0) .nil), Stmt.expr (.incr 1)) ∈
    infinite (.ifThen .const (.while (.call [1] (.cons (.var 0) .nil)) (.expr (.incr 1)))) :=
  List.mem_singleton.2 rfl

/-- A loop with the message whose test holds at the start does not end. -/
def C86_endless_full : Prop := ∀ (t : VExp) (b : Stmt VExp) (σ : Store),
  (t.shape, shape b) ∈ infinite (shape (.while t b)) → (eval t σ).1 ≠ 0 →
  ∀ n, run n (.while t b) σ = none

/-- `while (x) { break; }` has the message. -/
theorem C86_endless_full_is_false : ¬ C86_endless_full := by
  intro h
  have := h (.var 0) .brk (fun _ => 1) (List.mem_singleton.2 rfl) (by decide) 2
  simp [run, eval] at this

/-- A loop with the message whose test holds at the start does not end, if there is no `switch` in its
body, and no `return` or `break` that leaves it. -/
theorem C86_endless_partial (t : VExp) (b : Stmt VExp) (s : Stmt Exp) (σ : Store)
    (h : (t.shape, shape b) ∈ infinite s) (hs : NoSwitch b) (he : ¬ Escapes false b)
    (hv : (eval t σ).1 ≠ 0) (n : Nat) : run n (.while t b) σ = none := by
  obtain ⟨-, -, h⟩ := (C86_reported_exactly_partial _ _ _ (shape_noMods t)).1 h
  exact endless t b (fun x hx => (h x hx).1)
    (fun x hx hm => (h x hx).2 (noSwitch_deep x b hs hm)) he n σ hv

example : (VExp.shape (.bin (fun v w => if v < w then 1 else 0) (.var 0) (.var 1)),
      shape (.while (.var 2) (.ifThen (.incr (· - 1) true 2) .brk))) ∈
    infinite (.while (.bin (.var 0) (.var 1)) (.while (.var 2) (.ifThen (.incr 2) .brk))) ∧
    NoSwitch (.while (VExp.var 2) (.ifThen (.incr (· - 1) true 2) .brk)) ∧
    ¬ Escapes false (.while (VExp.var 2) (.ifThen (.incr (· - 1) true 2) .brk)) :=
  ⟨List.mem_singleton.2 rfl, trivial, by simp [Escapes]⟩

/-- The `switch` matters: this loop has the message, the test holds, nothing leaves the loop, and it
ends. -/
theorem C86_switch_ends :
    let t : VExp := .var 0
    let b : Stmt VExp := .switch (.var 1) 1 (.expr (.incr (· - 1) true 0))
    (t.shape, shape b) ∈ infinite (shape (.while t b)) ∧ ¬ Escapes false b ∧
      (eval t fun _ => 1).1 ≠ 0 ∧ ∃ n τ, run n (.while t b) (fun _ => 1) = some (.normal, τ) := by
  refine ⟨List.mem_singleton.2 rfl, by simp [Escapes], by decide, 3, ?_⟩
  simp [run, eval, Store.put]

/-- A loop made with `for` or `do` never has the message: `for (; x;) ;` and `do ; while (x)` have
none although they do not end when `x` is not zero. -/
theorem C86_only_while (x : Nat) (σ : Store) (h : σ x ≠ 0) (n : Nat) :
    infinite (shape (.for none (some (.var x)) none .skip)) = [] ∧
    infinite (shape (.doWhile .skip (.var x))) = [] ∧
    run n (.for none (some (.var x)) none .skip) σ = none ∧
    run n (.doWhile .skip (.var x)) σ = none := by
  have hk : ∀ k τ e, run k .skip σ = some (e, τ) → e = .normal ∧ τ = σ := by
    intro k τ e hr
    cases k with
    | zero => cases hr
    | succ k =>
      simp only [run, Option.some.injEq, Prod.mk.injEq] at hr
      exact ⟨hr.1.symm, hr.2.symm⟩
  refine ⟨rfl, rfl, ?_, ?_⟩
  · induction n with
    | zero => rfl
    | succ n ih =>
      rw [run]
      show (if σ x = 0 then _ else _) = _
      rw [if_neg h]
      split
      · rename_i hr; cases (hk _ _ _ hr).1
      · rename_i hr; cases (hk _ _ _ hr).1
      · rename_i hr
        rw [(hk _ _ _ hr).2]
        exact ih
      · rfl
  · induction n with
    | zero => rfl
    | succ n ih =>
      rw [run]
      split
      · rename_i hr; cases (hk _ _ _ hr).1
      · rename_i hr; cases (hk _ _ _ hr).1
      · rename_i hr
        rw [(hk _ _ _ hr).2]
        show (if σ x = 0 then _ else _) = _
        rw [if_neg h]
        exact ih
      · rfl

example : (fun _ : Nat => (1 : Int)) 0 ≠ 0 := by decide

/-! ## C87: the message about a statement without effect -/

/-- The value of the call has a type, and there is a message about values of that type that are
ignored. -/
def ValueReported (f : Flags) (typ : RetType) : Prop :=
  (typ = .bool ∧ f.retValBool = true) ∨ (typ = .int ∧ f.retValInt = true) ∨
    (typ = .other ∧ f.retValOther = true)

/-- Exactly when there is the message: the statement is not part of a statement expression, it is not a call
whose ignored value is reported, it does not leave, and no run of the expression writes a
variable. -/
theorem C87_noEffect_exactly (f : Flags) (inner : Nat) (typ : RetType) (escape : Bool) (e : Exp) :
    Msg.noEffect ∈ checkStatementEffect f inner typ escape (check e).1 ↔
      inner = 0 ∧ ¬ (IsCall e ∧ ValueReported f typ) ∧ escape = false ∧ ∀ x, ¬ Writes e x := by
  have hc := (nodeSays e).call
  have hs : (check e).1.sets.isEmpty = true ↔ ∀ x, ¬ Writes e x := by
    simp only [← mem_sets_exp, List.isEmpty_iff, List.eq_nil_iff_forall_not_mem]
  rw [← hc, ← hs]
  rcases f with ⟨a, b, c⟩
  unfold checkStatementEffect ValueReported
  rcases Nat.eq_zero_or_pos inner with rfl | hi
  · rw [if_neg (by decide)]
    cases (check e).1.call <;> cases (check e).1.sets.isEmpty <;> cases typ <;> cases escape <;>
      cases a <;> cases b <;> cases c <;> simp
  · rw [if_pos hi]
    simp only [List.not_mem_nil, false_iff]
    rintro ⟨h, -⟩
    omega

example : Msg.noEffect ∈ checkStatementEffect ⟨true, true, true⟩ 0 .void false
      (check (.call [] (.cons (.var 0) .nil))).1 ∧
    Msg.noEffect ∉ checkStatementEffect ⟨true, true, true⟩ 0 .void false
      (check (.call [1] (.cons (.var 0) .nil))).1 := by decide

/-- The messages about ignored values: exactly when the statement is a call outside statement expressions
whose value is of such a type. -/
theorem C87_value_exactly (f : Flags) (inner : Nat) (typ : RetType) (escape : Bool) (e : Exp) (m : Msg)
    (hm : m ≠ .noEffect) :
    m ∈ checkStatementEffect f inner typ escape (check e).1 ↔ inner = 0 ∧ IsCall e ∧
      ((m = .retValBool ∧ typ = .bool ∧ f.retValBool = true) ∨
        (m = .retValInt ∧ typ = .int ∧ f.retValInt = true) ∨
        (m = .retValOther ∧ typ = .other ∧ f.retValOther = true)) := by
  rw [← (nodeSays e).call]
  rcases f with ⟨a, b, c⟩
  unfold checkStatementEffect
  rcases Nat.eq_zero_or_pos inner with rfl | hi
  · rw [if_neg (by decide)]
    cases (check e).1.call <;> cases (check e).1.sets.isEmpty <;> cases typ <;> cases escape <;>
      cases a <;> cases b <;> cases c <;> cases m <;> simp_all
  · rw [if_pos hi]
    simp only [List.not_mem_nil, false_iff]
    rintro ⟨h, -⟩
    omega

example : Msg.retValInt ∈ checkStatementEffect ⟨true, true, true⟩ 0 .int false
    (check (.call [1] .nil)).1 := by decide

/-- A statement has at most one message. -/
theorem C87_one_message (f : Flags) (inner : Nat) (typ : RetType) (escape : Bool) (e : Node) :
    (checkStatementEffect f inner typ escape e).length ≤ 1 := by
  rcases f with ⟨a, b, c⟩
  unfold checkStatementEffect
  split
  · simp
  · cases e.call <;> cases e.sets.isEmpty <;> cases typ <;> cases escape <;>
      cases a <;> cases b <;> cases c <;> simp

/-- A statement with the message changes nothing, whatever the values. -/
theorem C87_no_change (f : Flags) (inner : Nat) (typ : RetType) (escape : Bool) (e : VExp)
    (h : Msg.noEffect ∈ checkStatementEffect f inner typ escape (check e.shape).1) (σ : Store) :
    (eval e σ).2 = σ := by
  have hw := ((C87_noEffect_exactly _ _ _ _ _).1 h).2.2.2
  funext x
  exact eval_frame x e σ (hw x)

example : Msg.noEffect ∈ checkStatementEffect ⟨true, true, true⟩ 0 .int false
    (check (VExp.shape (.bin (· == · |>.toNat) (.var 0) (.const 3)))).1 := by decide

/-- A statement without calls that stays in the function, and has no message, writes a variable. -/
theorem C87_otherwise_writes (f : Flags) (typ : RetType) (e : VExp)
    (h : checkStatementEffect f 0 typ false (check e.shape).1 = []) : ∃ x, Writes e.shape x := by
  by_contra hc
  push Not at hc
  have : Msg.noEffect ∈ checkStatementEffect f 0 typ false (check e.shape).1 := by
    refine (C87_noEffect_exactly _ _ _ _ _).2 ⟨rfl, ?_, rfl, hc⟩
    rintro ⟨hcall, -⟩
    cases e <;> exact hcall
  rw [h] at this
  cases this

example : checkStatementEffect ⟨true, true, true⟩ 0 .int false
    (check (VExp.shape (.assign 0 (.const 3)))).1 = [] := by decide

end Splint
