import Verif.Proofs.Control
/-!
# C24: escape information of statements
-/
namespace Splint
open Control

/-- C24, proved part 1.  A statement whose node must escape never completes, from whatever place
it is entered, and one that leaves by `break` is known to be able to.  Missing: statements hidden
behind a silenced unreachable-code warning that contain labels, and `goto` into a switch
(`tame`); see the refutations below. -/
theorem C24_must_escape_partial (s : Stmt) (ht : tame s = true) (en : Entry) :
    (s.info.mustEscape = true → ¬ Exec s en .normal) ∧ (Exec s en .brk → s.info.canBreak = true) :=
  ⟨fun h hx => by have := (exec_sound hx ht).must rfl; rw [this] at h; simp at h,
   fun hx => (exec_sound hx ht).canBreak rfl⟩

/-- `switch (x) { case 1: return; default: exit (); }` -/
def exSwitch : Stmt := .switch_ false .plain (.block (.seq true true
  (.seq true true (.seq true true (.case_ 1) .ret) .dflt) (.expr (.call .mustExit))))

example : tame exSwitch = true ∧ exSwitch.info.mustEscape = true ∧ Exec exSwitch .start .ret := by
  refine ⟨by decide, by decide, ?_⟩
  exact .switchGo (o := .ret) (m := .case_ 1) .plain rfl
    (.block (.seqStop (.seqStop (.seqGo .caseAt .ret) (by simp)) (by simp)))

/-- Entries that execution of a function body can come to by jumps. -/
inductive Jumps (body : Stmt) : Entry → Prop
  | start : Jumps body .start
  | jump {en l} : Jumps body en → Exec body en (.goto_ l) → Jumps body (.at (.label l))

/-- Execution of the function reaches the statement at a path. -/
def Reached (body : Stmt) (p : List Nat) : Prop := ∃ en, Jumps body en ∧ Reaches body en p

/-- C24, proved part 2.  A statement reported as unreachable is reached by no execution of the
function, nor is any statement inside it.  Missing: statements with labels or cases inside. -/
theorem C24_unreachable_partial (body : Stmt) (ht : tame body = true) (q : List Nat)
    (f r : Bool) (s1 s2 : Stmt) (hq : sub body q = some (.seq f r s1 s2))
    (hf : flagged f r s1 s2 = true) (hs : sealed_ s2 = true) (p : List Nat) :
    ¬ Reached body (q ++ 1 :: p) := by
  rintro ⟨en, -, h⟩
  obtain ⟨en', h'⟩ := reaches_split h q (1 :: p) _ rfl hq
  have ht' := tame_sub body q _ hq ht
  simp only [tame, Bool.and_eq_true] at ht'
  have key : ∀ en1 p1, Reaches (.seq f r s1 s2) en1 p1 → p1 = 1 :: p → False := by
    intro en1 p1 hr hp
    cases hr with
    | here => simp at hp
    | hereAt => simp at hp
    | seq1 => simp at hp
    | seq2 h1 _ =>
      have h2 := (C24_must_escape_partial s1 ht'.1.1 en1).1
      simp only [flagged, Bool.and_eq_true, Bool.or_eq_true] at hf
      refine h2 ?_ h1
      rcases hf.1.1.1.1 with h | h
      · exact h
      · simp [Info.mustEscape, h]
    | seqAt h1 => exact not_reaches_sealed hs h1
  exact key _ _ h' rfl

/-- `while (1) { x; }  y;` -/
def exForever : Stmt := .seq true true (.while_ (some true) .plain (.block (.expr .plain))) (.expr .plain)

example : tame exForever = true ∧ sub exForever [] = some exForever ∧
    flagged true true (.while_ (some true) .plain (.block (.expr .plain))) (.expr .plain) = true ∧
    sealed_ (.expr .plain) = true := by decide

/-- C24, proved part 3.  If execution can fall off the end of a function, a missing return is
reported, or an unreachable statement in it has been. -/
theorem C24_function_partial (body : Stmt) (ht : tame body = true) (en : Entry)
    (h : Run body en .normal) :
    noReturnWarning body = true ∨
      ∃ q f r s1 s2, sub body q = some (.seq f r s1 s2) ∧ flagged f r s1 s2 = true := by
  have hm : body.info.mustEscape = false := by
    generalize ho : Out.normal = o at h
    induction h with
    | done hx _ =>
      subst ho
      by_contra hc
      exact (C24_must_escape_partial body ht _).1 (by simpa using hc) hx
    | jump _ _ ih => exact ih ho
  by_cases he : body.info.exit = .error
  · right; exact error_flagged body he
  · left; simp [noReturnWarning, hm, he]

/-- `if (x) return;` -/
example : tame (.if_ .plain .ret) = true ∧ Run (.if_ .plain .ret) .start .normal :=
  ⟨by decide, .done (.ifFalse .plain) (by simp)⟩

/-- Code in which everything can be executed and the tests of conditionals and loops can go
either way: calls, returns, conditionals, blocks, lists, `while` and `for` loops with tests. -/
inductive Plain : Stmt → Prop
  | semi : Plain .semi
  | expr : Plain (.expr .plain)
  | call {k} : Plain (.expr (.call k))
  | ret : Plain .ret
  | block {s} : Plain s → Plain (.block s)
  | seq {f r s1 s2} : Plain s1 → Plain s2 → Exec s1 .start .normal → Plain (.seq f r s1 s2)
  | if_ {s} : Plain s → Plain (.if_ .plain s)
  | ifElse {s1 s2} : Plain s1 → Plain s2 → Plain (.ifElse .plain s1 s2)
  | while_ {s} : Plain s → Plain (.while_ none .plain s)
  | for_ {s} : Plain s → Plain (.for_ true s)

theorem plain_tame {s : Stmt} (h : Plain s) :
    tame s = true ∧ sealed_ s = true ∧ s.info.isJump = false := by
  induction h with
  | @seq f r s1 s2 h1 h2 hx ih1 ih2 =>
    obtain ⟨a1, b1, c1⟩ := ih1
    obtain ⟨a2, b2, c2⟩ := ih2
    refine ⟨by simp [tame, a1, a2, b2], by simp_all [sealed_, labels, ownsCase], ?_⟩
    have hne : s1.info.mustEscape = false := by
      by_contra hc; exact (C24_must_escape_partial _ a1 .start).1 (by simpa using hc) hx
    exact (seq_base f r s1 s2 hne).2.trans c1
  | ifElse _ _ ih1 ih2 =>
    exact ⟨by simp [tame, ih1.1, ih2.1], by simp_all [sealed_, labels, ownsCase], rfl⟩
  | block _ ih => exact ⟨ih.1, ih.2.1, rfl⟩
  | if_ _ ih => exact ⟨ih.1, ih.2.1, rfl⟩
  | while_ _ ih => exact ⟨ih.1, ih.2.1, by simp [Stmt.info, Stmt.analyse]⟩
  | for_ _ ih => exact ⟨ih.1, ih.2.1, by simp [Stmt.info, Stmt.analyse]⟩
  | _ => exact ⟨rfl, rfl, rfl⟩

/-- The kinds are not only safe: in such code a statement must escape exactly if no execution
completes it, so no missing return is reported in vain. -/
theorem C24_no_false_alarm (s : Stmt) (h : Plain s) :
    s.info.mustEscape = true ↔ ¬ Exec s .start .normal := by
  refine ⟨(C24_must_escape_partial s (plain_tame h).1 .start).1, fun hn => ?_⟩
  have key : s.info.mustEscape = true ∨ Exec s .start .normal := by
    clear hn
    induction h with
    | semi => exact Or.inr .semi
    | expr => exact Or.inr (.expr .plain)
    | @call k =>
      by_cases hk : k = .mustExit
      · left; subst hk; decide
      · right; exact .expr (.callRet hk)
    | ret => left; decide
    | block h ih => exact ih.imp id .block
    | @seq f r s1 s2 h1 h2 hx ih1 ih2 =>
      have hne : s1.info.mustEscape = false := by
        by_contra hc
        exact (C24_must_escape_partial _ (plain_tame h1).1 .start).1 (by simpa using hc) hx
      rcases ih2 with h | h
      · left; rw [(seq_base f r s1 s2 hne).1]; exact h
      · right; exact .seqGo hx h
    | if_ => right; exact .ifFalse .plain
    | @ifElse s1 s2 h1 h2 ih1 ih2 =>
      rcases ih1 with i1 | i1
      · rcases ih2 with i2 | i2
        · left
          simp only [Stmt.info] at i1 i2
          simp [Stmt.info, Stmt.analyse, combineControl, Info.mustEscape] at i1 i2 ⊢
          tauto
        · right; exact .elseFalse .plain i2
      · right; exact .elseTrue .plain i1
    | while_ => right; exact .whileEnd .plain (by simp)
    | for_ => right; exact .forEnd
  tauto

example : Plain (.seq true true (.if_ .plain .ret) (.ifElse .plain .ret (.expr (.call .mustExit)))) :=
  .seq (.if_ .ret) (.ifElse .ret .call) (.ifFalse .plain)

/-- The ways a statement can end according to its kind. -/
def allows (i : Info) : Out → Prop
  | .normal => i.mustEscape = false
  | .brk | .cont => i.canBreak = true
  | .ret => i.exit.couldEscape = true
  | .exit => i.exit.couldEscape = true
  | .goto_ _ => i.exit.couldEscape = true ∨ i.canBreak = true

/-- C24 as wished: the kind of a statement allows each outcome. -/
def C24_full : Prop := ∀ s en o, Exec s en o → allows s.info o

/-- The body of a loop is forgotten: `while (x) return;` is computed never to escape. -/
theorem C24_loop_return_lost :
    Exec (.while_ none .plain .ret) .start .ret ∧
    (Stmt.while_ none .plain .ret).info = {} :=
  ⟨.whileLeave (o := .ret) .plain (by simp) .ret (by simp) (by simp), by decide⟩

/-- So is all but the last statement of a list: `if (x) return; y;`. -/
theorem C24_list_return_lost :
    Exec (.seq true true (.if_ .plain .ret) (.expr .plain)) .start .ret ∧
    (Stmt.seq true true (.if_ .plain .ret) (.expr .plain)).info = {} :=
  ⟨.seqStop (.ifTrue .plain .ret) (by simp), by decide⟩

theorem C24_full_is_false : ¬ C24_full := by
  intro h
  have := h _ _ _ C24_loop_return_lost.1
  rw [C24_loop_return_lost.2] at this
  revert this
  simp only [allows]
  decide

/-- C24 for unreachable code as wished. -/
def C24_unreachable_full : Prop := ∀ body q f r s1 s2,
  sub body q = some (.seq f r s1 s2) → flagged f r s1 s2 = true → ¬ Reached body (q ++ [1])

/-- `if (a) goto L; else return; { L: x; }`: the block is called unreachable. -/
theorem C24_unreachable_full_is_false : ¬ C24_unreachable_full := by
  intro h
  refine h (.seq true true (.ifElse .plain (.goto_ 0) .ret) (.block (.seq true true (.label 0) (.expr .plain))))
    [] _ _ _ _ rfl (by decide) ⟨.at (.label 0), ?_, ?_⟩
  · exact .jump .start (.seqStop (.elseTrue .plain .goto_) (by simp))
  · exact .seqAt (.hereAt ⟨_, .block (.seqGo .labelAt (.expr .plain))⟩)

/-- With the message silenced the list is taken to leave the program although it completes. -/
theorem C24_silenced_unreachable :
    (Stmt.seq true false (.ifElse .plain (.goto_ 0) .ret)
      (.block (.seq true true (.label 0) (.expr .plain)))).info.exit = .mustExit ∧
    Run (Stmt.seq true false (.ifElse .plain (.goto_ 0) .ret)
      (.block (.seq true true (.label 0) (.expr .plain)))) .start .normal := by
  refine ⟨by decide, .jump (.seqStop (.elseTrue .plain .goto_) (by simp)) (.done ?_ (by simp))⟩
  exact .seqAt (.block (.seqGo .labelAt (.expr .plain)))

/-- `if (a) goto L; switch (x) { default: return; L: y; }` is computed to return always, so the
missing return is not reported; it completes through the label. -/
theorem C24_goto_into_switch :
    let s : Stmt := .seq true true (.if_ .plain (.goto_ 0)) (.switch_ false .plain (.block
      (.seq true true (.seq true true (.seq true true .dflt .ret) (.label 0)) (.expr .plain))))
    noReturnWarning s = false ∧ Run s .start .normal := by
  refine ⟨by decide, .jump (.seqStop (.ifTrue .plain .goto_) (by simp)) (.done ?_ (by simp))⟩
  exact .seqAt (.switchAt (o := .normal) (.block (.seqGo (.seqAt .labelAt) (.expr .plain))))

/-- How a condition is turned into the kind of a conditional: nothing allowed is lost. -/
theorem C24_conditional_kinds (a b : ExitKind) :
    (a.couldEscape = true → a.makeConditional.couldEscape = true) ∧
    (a.couldEscape = true ∨ b.couldEscape = true → a ≠ .error → b ≠ .error →
      (a.combine b).couldEscape = true) ∧
    ((a.combine b).mustEscape = true → a.mustEscape = true ∧ b.mustEscape = true) ∧
    a.makeConditional.mustEscape = false := by
  revert a b; decide +kernel

end Splint
