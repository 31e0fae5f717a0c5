import Verif.Model.FallThrough
import Verif.Props.Control
/-!
# C110: a case that is fallen into is reported
-/
namespace Splint
open Control

namespace Control

theorem tame_last {s : Stmt} (h : tame s = true) : tame s.last = true := by
  induction s with
  | block s ih => exact ih h
  | seq f r s1 s2 _ ih =>
    simp only [tame, Bool.and_eq_true] at h
    exact ih h.1.2
  | _ => exact h

/-- What completes a list completes its last statement. -/
theorem last_completes {s : Stmt} : ∀ {en : Entry}, Exec s en .normal → ∃ en', Exec s.last en' .normal := by
  induction s with
  | block s ih => intro en h; cases h with | block h => exact ih h
  | seq f r s1 s2 _ ih =>
    intro en h
    cases h with
    | seqStop _ h => exact absurd rfl h
    | seqGo _ h => exact ih h
    | seqAt h => exact ih h
  | _ => intro en h; exact ⟨en, h⟩

theorem case_jump {s : Stmt} (h : s.isCase = true) : s.info.isJump = true := by
  cases s <;> first | rfl | (simp [Stmt.isCase] at h)

/-- a `case` or `default`: what may be fallen into -/
def CaseLabel (s : Stmt) : Prop := (∃ n, s = .case_ n) ∨ s = .dflt

/-- any label -/
def AnyLabel (s : Stmt) : Prop := (∃ n, s = .case_ n) ∨ s = .dflt ∨ ∃ n, s = .label n

theorem isCase_iff (s : Stmt) : s.isCase = true ↔ CaseLabel s := by
  cases s <;> simp [Stmt.isCase, CaseLabel]

theorem isMarker_iff (s : Stmt) : s.isMarker = true ↔ AnyLabel s := by
  cases s <;> simp [Stmt.isMarker, AnyLabel]

theorem isMarker_false (s : Stmt) : s.isMarker = false ↔ ¬ AnyLabel s := by
  rw [← isMarker_iff]; simp

theorem isCase_false (s : Stmt) : s.isCase = false ↔ ¬ CaseLabel s := by
  rw [← isCase_iff]; simp

end Control

/-- What one would expect: a case (without the annotation) is reported exactly if some statement in front
of it completes, so that execution goes on with the case. `q` is a place in the body of a function. -/
def C110_full : Prop :=
  ∀ (body : Stmt) (q : List Nat) (f r : Bool) (s1 s2 : Stmt), sub body q = some (.seq f r s1 s2) →
    tame body = true → CaseLabel s2 → ¬ AnyLabel s1.last →
    (fallMessage false s1 s2 = true ↔ ∃ en, Exec s1 en .normal)

/-- What holds: no such case is missed. Missing: see `C110_empty_statement`, messages about cases that
nothing falls into. -/
theorem C110_partial (body : Stmt) (q : List Nat) (f r : Bool) (s1 s2 : Stmt)
    (hq : sub body q = some (.seq f r s1 s2)) (ht : tame body = true) (hc : CaseLabel s2)
    (hm : ¬ AnyLabel s1.last) (en : Entry) (hx : Exec s1 en .normal) : fallMessage false s1 s2 = true := by
  rw [← isMarker_false] at hm
  rw [← isCase_iff] at hc
  have ht' := tame_sub body q _ hq ht
  simp only [tame, Bool.and_eq_true] at ht'
  obtain ⟨en', h⟩ := last_completes hx
  have h1 : s1.last.info.mustEscape = false := by
    by_contra hn
    exact (C24_must_escape_partial s1.last (tame_last ht'.1.1) en').1 (by simpa using hn) h
  simp [fallMessage, case_jump hc, hc, h1, hm]

/-- `case 1: x; case 2:` -/
example : sub (.seq true true (.seq true true (.case_ 1) (.expr .plain)) (.case_ 2)) [] =
      some (.seq true true (.seq true true (.case_ 1) (.expr .plain)) (.case_ 2)) ∧
    tame (.seq true true (.seq true true (.case_ 1) (.expr .plain)) (.case_ 2)) = true ∧
    Exec (.seq true true (.case_ 1) (.expr .plain)) .start .normal :=
  ⟨rfl, by decide, .seqGo .case_ (.expr .plain)⟩

/-- Nothing is reported about annotated cases, about labels, or behind markers. -/
theorem C110_not_reported (s1 s2 : Stmt) :
    fallMessage true s1 s2 = false ∧ (¬ CaseLabel s2 → fallMessage false s1 s2 = false) ∧
      (AnyLabel s1.last → fallMessage false s1 s2 = false) := by
  rw [← isMarker_iff, ← isCase_false]
  refine ⟨?_, ?_, ?_⟩
  · simp [fallMessage]
  · intro h; simp [fallMessage, h]
  · intro h; simp [fallMessage, h]

/-- A list in which every statement is reached by completing the ones before it. -/
inductive Flows : Stmt → Prop
  | block {s} : Flows s → Flows (.block s)
  | seq {f r s1 s2 en} : Exec s1 en .normal → Flows s2 → Flows (.seq f r s1 s2)
  | one {s} : s.last = s → Flows s

theorem flows_completes {s : Stmt} (h : Flows s) (hx : Exec s.last .start .normal) :
    ∃ en, Exec s en .normal := by
  induction h with
  | block _ ih =>
    obtain ⟨en, h⟩ := ih hx
    exact ⟨en, .block h⟩
  | @seq f r s1 s2 en h1 h2 ih =>
    have key : ∀ {s : Stmt}, Flows s → Exec s.last .start .normal → Exec s .start .normal ∨ ∃ m, Exec s (.at m) .normal := by
      intro s hs
      induction hs with
      | block _ ih => intro h; exact (ih h).imp .block (fun ⟨m, h⟩ => ⟨m, .block h⟩)
      | @seq f r s1 s2 en h1 _ ih =>
        intro h
        rcases ih h with h | ⟨m, h⟩
        · cases en with
          | start => exact .inl (.seqGo h1 h)
          | «at» m => exact .inr ⟨m, .seqGo h1 h⟩
        · exact .inr ⟨m, .seqAt h⟩
      | one h => intro h'; rw [h] at h'; exact .inl h'
    rcases key h2 hx with h | ⟨m, h⟩
    · exact ⟨en, .seqGo h1 h⟩
    · exact ⟨.at m, .seqAt h⟩
  | one h => rw [h] at hx; exact ⟨_, hx⟩

/-- In ordinary code, where statements are reached and the last one before the case is one of those for
which C24 is exact, the message is given exactly if execution falls into the case. -/
theorem C110_exact_partial (body : Stmt) (q : List Nat) (f r : Bool) (s1 s2 : Stmt)
    (hq : sub body q = some (.seq f r s1 s2)) (ht : tame body = true) (hc : CaseLabel s2)
    (hm : ¬ AnyLabel s1.last) (hf : Flows s1) (hp : Plain s1.last) :
    fallMessage false s1 s2 = true ↔ ∃ en, Exec s1 en .normal := by
  constructor
  · intro h
    have hc := (isCase_iff _).2 hc
    have hm := (isMarker_false _).2 hm
    simp only [fallMessage, case_jump hc, Bool.not_true, Bool.and_false, Bool.false_eq_true, if_false, hc, hm,
      Bool.true_and, Bool.not_false, Bool.and_true, Bool.not_eq_true'] at h
    refine flows_completes hf ?_
    by_contra hn
    have := (C24_no_false_alarm _ hp).2 hn
    rw [h] at this
    cases this
  · rintro ⟨en, h⟩
    exact C110_partial body q f r s1 s2 hq ht hc hm en h

example : Flows (.seq true true (.case_ 1) (.if_ .plain .ret)) ∧
    Plain (Stmt.seq true true (.case_ 1) (.if_ .plain .ret)).last :=
  ⟨.seq (en := .start) .case_ (.one rfl), .if_ .ret⟩

/-- A false alarm: an empty statement behind one that leaves, as in `case 1: return; ; case 2:`. The last
statement is looked at, not what is known of the list. -/
theorem C110_empty_statement (f r : Bool) (s s2 : Stmt) (ht : tame s = true) (he : s.info.mustEscape = true)
    (hc : CaseLabel s2) :
    fallMessage false (.seq f r s .semi) s2 = true ∧ ∀ en, ¬ Exec (.seq f r s .semi) en .normal := by
  rw [← isCase_iff] at hc
  refine ⟨?_, ?_⟩
  · have h1 : (Stmt.seq f r s .semi).last.info.mustEscape = false := rfl
    have h2 : (Stmt.seq f r s .semi).last.isMarker = false := rfl
    simp [fallMessage, case_jump hc, hc, h1, h2]
  · intro en h
    cases h with
    | seqStop _ h => exact h rfl
    | seqGo h _ => exact (C24_must_escape_partial s ht en).1 he h
    | seqAt h => cases h

theorem C110_full_is_false : ¬ C110_full := by
  intro h
  have h1 := C110_empty_statement true true .ret (.case_ 2) (by decide) (by decide) (Or.inl ⟨_, rfl⟩)
  obtain ⟨en, h2⟩ := (h (.seq true true (.seq true true .ret .semi) (.case_ 2)) [] _ _ _ _ rfl (by decide) (Or.inl ⟨_, rfl⟩)
    ((isMarker_false _).1 rfl)).1 h1.1
  exact h1.2 en h2

/-- In a list of statements every case but the first statement of the list is put behind all that stands
before it, so it is looked at. -/
theorem C110_lists (f r : Bool) (s : Stmt) (l : List Stmt) (c : Stmt) (l' : List Stmt) :
    sub (stmtList f r s (l ++ c :: l')) (List.replicate l'.length 0) = some (.seq f r (stmtList f r s l) c) := by
  have key : ∀ (l' : List Stmt) (y : Stmt) (p : List Nat),
      sub (l'.foldl (.seq f r) y) (List.replicate l'.length 0 ++ p) = sub y p := by
    intro l'
    induction l' with
    | nil => intro y p; rfl
    | cons x l' ih =>
      intro y p
      have := ih (.seq f r y x) (0 :: p)
      rw [List.length_cons, List.replicate_succ', List.append_assoc]
      simpa [sub] using this
  have := key l' (.seq f r (stmtList f r s l) c) []
  rw [List.append_nil] at this
  simpa [stmtList, List.foldl_append, sub] using this

/-- So in a list of statements no case that is fallen into is missed. -/
theorem C110_lists_partial (f r : Bool) (s : Stmt) (l : List Stmt) (c : Stmt) (l' : List Stmt)
    (ht : tame (stmtList f r s (l ++ c :: l')) = true) (hc : CaseLabel c)
    (hm : ¬ AnyLabel (stmtList f r s l).last) (en : Entry) (hx : Exec (stmtList f r s l) en .normal) :
    fallMessage false (stmtList f r s l) c = true :=
  C110_partial _ _ _ _ _ _ (C110_lists f r s l c l') ht hc hm en hx

/-- But a case that stands behind a declaration is part of a new list, and only the list is looked at:
nothing is reported, whatever comes before (if anything comes behind the case). -/
theorem C110_behind_declaration (f r : Bool) (s1 c x : Stmt) (l : List Stmt) :
    fallMessage false s1 (stmtList f r c (x :: l)) = false := by
  have : (stmtList f r c (x :: l)).isCase = false := by
    unfold stmtList
    rw [List.foldl_cons]
    generalize hy : Stmt.seq f r c x = y
    have hy' : y.isCase = false := by subst hy; rfl
    clear hy
    induction l generalizing y with
    | nil => exact hy'
    | cons z l ih => exact ih _ rfl
  exact (C110_not_reported s1 _).2.1 ((isCase_false _).1 this)

/-- `switch (x) { case 1: f (); int y; case 2: g (); break; }`: nothing is reported, and execution falls from
the declaration into the second case. -/
def exDeclared : Stmt := .switch_ false .plain (.block (runs true true
  (stmtList true true (.case_ 1) [.expr .plain]) [.expr .plain, stmtList true true (.case_ 2) [.expr .plain, .brk]]))

theorem C110_declared_case_missed :
    fallMessages exDeclared = 0 ∧ Reached exDeclared [0, 0, 1, 1] ∧
      Exec (runs true true (stmtList true true (.case_ 1) [.expr .plain]) [.expr .plain]) (.at (.case_ 1)) .normal := by
  refine ⟨by decide, ⟨.start, .start, ?_⟩, ?_⟩
  · exact .switch_ (m := .case_ 1) (.block (.seq2 (.seqGo .caseAt (.expr .plain)) (.seq2 (.expr .plain) .here)))
  · exact .seqGo (.seqGo .caseAt (.expr .plain)) (.expr .plain)

/-- Without the declaration there is a message. -/
example : fallMessages (.switch_ false .plain (.block (stmtList true true (.case_ 1)
    [.expr .plain, .case_ 2, .expr .plain, .brk]))) = 1 := by decide

end Splint
