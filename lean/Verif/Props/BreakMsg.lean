import Verif.Spec.BreakMsg
import Verif.Props.Clauses
/-!
# C111: messages about break and continue in nested loops and switches
-/
namespace Splint
open Clauses Clauses.Spec

/-- The answers C44 speaks of, for each place. -/
theorem answers_around (s : Clauses.Stmt) : ∀ env, allAnswers env s = (places env s).map answers := by
  induction s with
  | seq s1 s2 ih1 ih2 => intro env; simp [allAnswers, places, ih1, ih2]
  | ifElse e s1 s2 ih1 ih2 => intro env; simp [allAnswers, places, ih1, ih2]
  | block s ih => intro env; exact ih env
  | if_ e s ih => intro env; exact ih env
  | while_ e s ih => intro env; exact ih _
  | doWhile s e ih => intro env; exact ih _
  | for_ e s ih => intro env; exact ih _
  | switch_ e s ih => intro env; exact ih _
  | iter s ih => intro env; exact ih _
  | _ => intro env; rfl

/-- Only loops and switches are around. -/
def Around (env : List Clause) : Prop := ∀ c ∈ env, c.isBreakable = true

theorem around_ok (s : Clauses.Stmt) : ∀ env, Around env → ∀ e ∈ places env s, Around e := by
  induction s with
  | seq s1 s2 ih1 ih2 =>
    intro env h e he
    rcases List.mem_append.1 he with he | he
    · exact ih1 env h e he
    · exact ih2 env h e he
  | ifElse x s1 s2 ih1 ih2 =>
    intro env h e he
    rcases List.mem_append.1 he with he | he
    · exact ih1 env h e he
    · exact ih2 env h e he
  | block s ih => intro env h; exact ih env h
  | if_ e s ih => intro env h; exact ih env h
  | while_ e s ih => intro env h; exact ih _ (by intro c hc; rcases List.mem_cons.1 hc with rfl | hc; exacts [rfl, h c hc])
  | doWhile s e ih => intro env h; exact ih _ (by intro c hc; rcases List.mem_cons.1 hc with rfl | hc; exacts [rfl, h c hc])
  | for_ e s ih => intro env h; exact ih _ (by intro c hc; rcases List.mem_cons.1 hc with rfl | hc; exacts [rfl, h c hc])
  | switch_ e s ih => intro env h; exact ih _ (by intro c hc; rcases List.mem_cons.1 hc with rfl | hc; exacts [rfl, h c hc])
  | iter s ih => intro env h; exact ih _ (by intro c hc; rcases List.mem_cons.1 hc with rfl | hc; exacts [rfl, h c hc])
  | brk => intro env h e he; simp only [places, List.mem_cons, List.not_mem_nil, or_false] at he; subst he; exact h
  | expr => intro env h e he; simp [places] at he
  | case_ => intro env h e he; simp [places] at he

/-- The rule that is followed, in terms of what is around. -/
def rule (env : List Clause) : Jump → Option JMsg
  | .cont .safe => none
  | .cont .inner => if 2 ≤ loops env then none else some .notInnerContinue
  | .cont .none_ => if 2 ≤ loops env then some .loopLoopContinue else none
  | .brk q =>
    match env with
    | [] => some .notInside
    | a :: env' =>
      match q with
      | .safe => none
      | .inner =>
        if a = .switch_ then (if 2 ≤ switches env then none else some .notDeepSwitch)
        else (if 2 ≤ loops env then none else some .notDeepLoop)
      | .loop => if a = .switch_ then some .breaksSwitch else none
      | .switch_ => if a = .switch_ then none else some .breaksLoop
      | .none_ =>
        if a = .switch_ then documented env
        else if 1 ≤ loops env' then some .loopLoopBreak
        else if env' = [] then none else some .switchLoopBreak

theorem message_rule (env : List Clause) (h : Around env) (j : Jump) :
    jumpMessage j (answers env) = some (rule env j) := by
  cases j with
  | cont q => cases q <;> simp [jumpMessage, answers, rule, two, loops]
  | brk q =>
    cases env with
    | nil => simp [jumpMessage, answers, rule]
    | cons a env =>
      have ha := h a (by simp)
      have hn : a ≠ .none_ := by rintro rfl; simp [Clause.isBreakable] at ha
      cases q with
      | safe => simp [jumpMessage, answers, rule, hn]
      | inner =>
        by_cases hs : a = .switch_ <;> simp [jumpMessage, answers, rule, hn, two, loops, switches, hs]
      | loop => by_cases hs : a = .switch_ <;> simp [jumpMessage, answers, rule, hn, hs]
      | switch_ => by_cases hs : a = .switch_ <;> simp [jumpMessage, answers, rule, hn, hs]
      | none_ =>
        by_cases hs : a = .switch_
        · subst hs
          cases env with
          | nil => simp [jumpMessage, answers, rule, documented]
          | cons b env =>
            have hb := h b (by simp)
            cases b <;> simp [Clause.isBreakable] at hb <;> simp [jumpMessage, answers, rule, documented]
        · have h1 : two (· ≠ .switch_) (a :: env) = decide (1 ≤ loops env) := by
            simp [two, loops, hs]
          have h2 : two (fun _ => true) (a :: env) = decide (env ≠ []) := by
            cases env <;> simp [two]
          simp only [jumpMessage, answers, rule, hn, hs, List.head?_cons, Option.getD_some, if_false, h1, h2,
            decide_eq_true_eq]
          split_ifs <;> first | rfl | simp_all

/-- What one would expect: a `break` is reported as the flags say, by what it leaves and what that stands
in. -/
def C111_full : Prop :=
  ∀ (s : Clauses.Stmt), nested s = true → opened s = 0 → ∃ x', s.walk none Ctx.fresh = some x' ∧
    x'.queries.map (jumpMessage (.brk .none_)) = (places [] s).map fun env => some (documented env)

/-- What holds: in every function body, at each `break` and `continue`, the message depends on the loops and
switches around it in this way. Missing: a loop in a switch in a loop, see below. -/
theorem C111_rule_partial (md : Option Nat) (s : Clauses.Stmt) (hs : nested s = true) (ho : opened s = 0) :
    ∃ x', s.walk md Ctx.fresh = some x' ∧
      ∀ js : List Jump, List.zipWith jumpMessage js x'.queries =
        List.zipWith (fun j env => some (rule env j)) js (places [] s) := by
  obtain ⟨x', h1, -, -, h2, -⟩ := C44_function_partial md s hs ho
  refine ⟨x', h1, fun js => ?_⟩
  rw [h2, answers_around]
  have hr : ∀ l : List (List Clause), (∀ e ∈ l, Around e) → ∀ js : List Jump,
      List.zipWith jumpMessage js (l.map answers) = List.zipWith (fun j env => some (rule env j)) js l := by
    intro l
    induction l with
    | nil => intro _ js; simp
    | cons e l ih =>
      intro h js
      cases js with
      | nil => rfl
      | cons j js =>
        simp only [List.map_cons, List.zipWith_cons_cons, message_rule e (h e (by simp)) j,
          ih (fun e he => h e (by simp [he])) js]
  exact hr _ (around_ok s [] (by intro c hc; cases hc)) js

/-- `while (a) { switch (b) { case 1: while (c) { break; } break; } continue; }` -/
def exBreaks : Clauses.Stmt := .while_ .leaf (.block (.seq (.switch_ .leaf (.block (.seq (.case_ true)
  (.seq (.while_ .leaf (.block .brk)) .brk)))) .brk))

example : nested exBreaks = true ∧ opened exBreaks = 0 ∧
    places [] exBreaks = [[.while_, .switch_, .while_], [.switch_, .while_], [.while_]] ∧
    (places [] exBreaks).map (fun env => rule env (.brk .none_)) =
      [some .loopLoopBreak, some .loopSwitchBreak, none] := by decide

/-- A plain `break` is reported exactly if what it leaves stands in another loop or switch (and if there is
nothing to leave); the flag is the documented one exactly if it is not a loop in a switch in a loop. -/
theorem C111_break_exactly (env : List Clause) :
    ((rule env (.brk .none_)).isSome = true ↔ env.length ≠ 1) ∧
    (rule env (.brk .none_) = documented env ↔
      ¬ ∃ a rest, env = a :: .switch_ :: rest ∧ a ≠ .switch_ ∧ 1 ≤ loops rest) := by
  cases env with
  | nil => exact ⟨by simp [rule], by simp [rule, documented]⟩
  | cons a env =>
    by_cases hs : a = .switch_
    · subst hs
      cases env with
      | nil => exact ⟨by simp [rule, documented], by simp [rule]⟩
      | cons b env => exact ⟨by simp [rule, documented], by simp [rule]⟩
    · cases env with
      | nil => exact ⟨by simp [rule, hs, loops], by simp [rule, hs, documented, loops]⟩
      | cons b env =>
        refine ⟨?_, ?_⟩
        · simp only [rule, if_neg hs]
          split_ifs <;> simp_all
        · by_cases hb : b = .switch_
          · subst hb
            have h0 : loops (Clause.switch_ :: env) = loops env := by simp [loops]
            simp only [rule, if_neg hs, h0, documented]
            by_cases hl : 1 ≤ loops env
            · simp only [if_pos hl, if_true]
              constructor
              · intro h; simp at h
              · intro h; exact absurd ⟨a, env, rfl, hs, hl⟩ h
            · simp only [if_neg hl, if_true]
              constructor
              · rintro - ⟨a', r, e, -, h⟩
                simp only [List.cons.injEq, true_and] at e
                rw [e.2] at hl
                exact hl h
              · intro _; simp
          · have h0 : 1 ≤ loops (b :: env) := by simp [loops, hb]
            simp only [rule, if_neg hs, if_pos h0, documented, if_neg hb]
            constructor
            · rintro - ⟨a', r, e, -, h⟩
              simp only [List.cons.injEq, true_and] at e
              exact hb e.2.1
            · intro _; trivial

/-- A `continue` is reported exactly if two loops are around it; switches do not matter. -/
theorem C111_continue (env : List Clause) :
    rule env (.cont .none_) = some .loopLoopContinue ↔ 2 ≤ loops env := by
  by_cases h : 2 ≤ loops env <;> simp [rule, h]

/-- An annotation that is right silences the message, and one that is wrong is reported: `switchbreak` and
`loopbreak` say what is left, `innerbreak` that it stands in another one of its kind. -/
theorem C111_annotations (a : Clause) (env : List Clause) :
    (rule (a :: env) (.brk .switch_) = none ↔ a = .switch_) ∧
    (rule (a :: env) (.brk .loop) = none ↔ a ≠ .switch_) ∧
    (rule (a :: env) (.brk .inner) = none ↔
      if a = .switch_ then 1 ≤ switches env else 1 ≤ loops env) := by
  by_cases hs : a = .switch_
  · subst hs
    refine ⟨by simp [rule], by simp [rule], ?_⟩
    have : 2 ≤ switches (Clause.switch_ :: env) ↔ 1 ≤ switches env := by simp [switches]
    simp only [rule, if_true, this]
    split_ifs <;> simp_all
  · refine ⟨by simp [rule, hs], by simp [rule, hs], ?_⟩
    have : 2 ≤ loops (a :: env) ↔ 1 ≤ loops env := by simp [loops, hs]
    simp only [rule, if_neg hs, this]
    split_ifs <;> simp_all

/-- `while (a) switch (b) { case 1: while (c) break; }`: reported as a loop in a loop, so not at all with
`-looploopbreak +switchloopbreak`. -/
theorem C111_full_is_false : ¬ C111_full := by
  intro h
  obtain ⟨x', h1, h2⟩ := h exBreaks (by decide) (by decide)
  obtain ⟨y, e1, e2⟩ := C111_rule_partial none exBreaks (by decide) (by decide)
  rw [h1] at e1
  cases e1
  have e3 := e2 [.brk .none_, .brk .none_, .brk .none_]
  have hq : (exBreaks.walk none Ctx.fresh).map (fun x => x.queries.map (jumpMessage (.brk .none_))) =
      some [some (some .loopLoopBreak), some (some .loopSwitchBreak), some none] := by decide +kernel
  rw [h1] at hq
  simp only [Option.map_some, Option.some.injEq] at hq
  rw [hq] at h2
  revert h2
  decide

end Splint
