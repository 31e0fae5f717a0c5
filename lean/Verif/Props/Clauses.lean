import Verif.Proofs.Clauses
/-!
# C44 (the clause context) and C46 (growable arrays)
-/
namespace Splint
open Clauses

/-- C46.  The array under the clause stack is never written outside its allocation and behaves as
a list: one theorem for each operation, `ok` being the invariant that free space and elements
fill the allocation.  (All list templates of the program grow in this way.) -/
theorem C46_growable_array (s : Stack) (h : s.ok) :
    (∀ c, ∃ s', s.push c = some s' ∧ s'.ok ∧ s'.elems = s.elems ++ [c]) ∧
    (∀ l c, s.elems = l ++ [c] → s.top = some c ∧ ∃ s', s.pop = some s' ∧ s'.ok ∧ s'.elems = l) ∧
    (∀ l c d, s.elems = l ++ [c] →
      ∃ s', s.switchTop d = some s' ∧ s'.ok ∧ s'.elems = l ++ [d]) ∧
    (∀ l key r, key ∉ r → s.elems = l ++ key :: r →
      ∃ s', s.removeFirst key = some s' ∧ s'.ok ∧ s'.elems = l ++ r) ∧
    (s.clear.ok ∧ s.clear.elems = []) :=
  ⟨fun c => push_ok s c h,
   fun l c he => ⟨by simp [Stack.top, he], pop_ok s l c h he⟩,
   fun l c d he => switchTop_ok s l c d h he,
   fun l key r hr he => removeFirst_ok s key l r (fun _ hc e => hr (e ▸ hc)) h he,
   clear_ok s h⟩

theorem C46_new : Stack.new.ok ∧ Stack.new.elems = [] := ⟨⟨by decide, by decide⟩, rfl⟩

/-- Any history of pushes and pops that never pops an empty stack stays inside the allocation and
leaves the list these operations describe. -/
inductive Op
  | push (c : Clause)
  | pop

def runOps : List Op → Stack → Option Stack
  | [], s => some s
  | .push c :: os, s => (s.push c).bind (runOps os)
  | .pop :: os, s => s.pop.bind (runOps os)

/-- The list after the operations, `none` if an empty list is popped. -/
def listOps : List Op → List Clause → Option (List Clause)
  | [], l => some l
  | .push c :: os, l => listOps os (l ++ [c])
  | .pop :: os, l => if l = [] then none else listOps os l.dropLast

theorem C46_history (os : List Op) (s : Stack) (h : s.ok) :
    (runOps os s).map Stack.elems = listOps os s.elems ∧
    ∀ s', runOps os s = some s' → s'.ok := by
  induction os generalizing s with
  | nil => exact ⟨rfl, fun s' e => by cases e; exact h⟩
  | cons o os ih =>
    cases o with
    | push c =>
      obtain ⟨s1, e1, h1, l1⟩ := push_ok s c h
      simpa [runOps, e1, listOps, l1] using ih s1 h1
    | pop =>
      rcases List.eq_nil_or_concat s.elems with he | ⟨l, c, he⟩
      · simp [runOps, Stack.pop, listOps, he]
      · rw [List.concat_eq_append] at he
        obtain ⟨s1, e1, h1, l1⟩ := pop_ok s l c h he
        simpa [runOps, e1, listOps, l1, he] using ih s1 h1

example : Stack.new.ok ∧ listOps [.push .while_, .push .true_, .pop] [] = some [.while_] := by
  exact ⟨C46_new.1, by decide⟩

/-- C44, proved part.  Parsing a statement with well-placed cases meets no inconsistency and
restores the clauses in force before it, except for the branches its own cases opened, which the
surrounding switch closes.  Along the way the innermost and next breakable clause, the
nested-loop and nested-switch tests and the nesting depth are right at every place.
Missing: cases inside `if` and `for` statements, and several in one `while` or `do` body. -/
theorem C44_clauses_restored_partial (md : Option Nat) (s : Stmt) (hs : nested s = true)
    (x : Ctx) (hx : x.clauses.ok) (ht : x.inclause = x.clauses.elems.getLast?.getD .none_) :
    ∃ x', s.walk md x = some x' ∧ x'.clauses.ok ∧
      x'.clauses.elems = x.clauses.elems ++ List.replicate (opened s) .case_ ∧
      x'.inclause = x'.clauses.elems.getLast?.getD .none_ ∧
      x'.queries = x.queries ++
        allAnswers (x.clauses.elems.reverse.filter Clause.isBreakable) s ∧
      x'.depthWarnings = x.depthWarnings +
        tooDeep md (x.clauses.elems.filter Clause.isConditional).length s := by
  obtain ⟨x', e, h⟩ := stmt_walk (md := md) s hs (x := x) ⟨hx, rfl, ht, rfl, rfl⟩
  exact ⟨x', e, h.ok, h.elems, by rw [h.elems]; exact h.top, h.queries, h.warnings⟩

/-- The context when a function begins. -/
def Clauses.Ctx.fresh : Ctx := { clauses := Stack.new }

/-- C44 for whole function bodies: the stack is empty again. -/
theorem C44_function_partial (md : Option Nat) (s : Stmt) (hs : nested s = true)
    (ho : opened s = 0) :
    ∃ x', s.walk md Ctx.fresh = some x' ∧ x'.clauses.elems = [] ∧ x'.inclause = .none_ ∧
      x'.queries = allAnswers [] s ∧ x'.depthWarnings = tooDeep md 0 s := by
  obtain ⟨x', e, -, h2, h3, h4, h5⟩ := C44_clauses_restored_partial md s hs Ctx.fresh C46_new.1 rfl
  rw [ho] at h2
  have h2' : x'.clauses.elems = [] := h2
  refine ⟨x', e, h2', by rw [h3, h2']; rfl, by simpa [Ctx.fresh, Stack.new] using h4,
    by simpa [Ctx.fresh, Stack.new] using h5⟩

/-- `switch (e) { case 1: while (a && b) { break; } case 2: do { case 3: break; } while (c); }` -/
def exClauses : Stmt := .switch_ .leaf (.block (.seq (.case_ true) (.seq
  (.while_ (.and_ .leaf .leaf) (.block .brk)) (.seq (.case_ true)
  (.doWhile (.block (.seq (.case_ true) .brk)) .leaf)))))

example : nested exClauses = true ∧ opened exClauses = 0 ∧
    (allAnswers [] exClauses).map (fun a => (a.1, a.2.1)) =
      [(.while_, .switch_), (.doWhile, .switch_)] := by decide

/-- No case stands outside a switch. -/
def Clauses.closed : Stmt → Bool
  | .case_ _ => false
  | .block s => closed s
  | .seq s1 s2 => closed s1 && closed s2
  | .if_ _ s => closed s
  | .ifElse _ s1 s2 => closed s1 && closed s2
  | .while_ _ s => closed s
  | .doWhile s _ => closed s
  | .for_ _ s => closed s
  | .iter s => closed s
  | _ => true

/-- C44 as wished. -/
def C44_full : Prop := ∀ s, closed s = true →
  ∃ x', s.walk none Ctx.fresh = some x' ∧ x'.clauses.elems = []

/-- `switch (e) { case 1: if (a) case 2: break; }` leaves clauses behind: a `break` after it would
be taken to belong to the switch. -/
theorem C44_case_in_if :
    let s : Stmt := .seq (.switch_ .leaf (.block (.seq (.case_ true) (.if_ .leaf
      (.seq (.case_ true) .brk))))) .brk
    closed s = true ∧
    (s.walk none Ctx.fresh).map (fun x => (x.clauses.elems, x.queries.map (·.1))) =
      some ([.switch_, .case_], [.switch_, .switch_]) := by
  decide +kernel

/-- A case inside a `for` loop fails an assertion. -/
theorem C44_case_in_for :
    (Stmt.switch_ .leaf (.for_ .leaf (.block (.case_ true)))).walk none Ctx.fresh |>.isNone := by
  decide +kernel

/-- So do two cases inside a `while` loop. -/
theorem C44_two_cases_in_while :
    (Stmt.switch_ .leaf (.while_ .leaf (.block (.seq (.case_ true) (.case_ true))))).walk none
      Ctx.fresh |>.isNone := by
  decide +kernel

theorem C44_full_is_false : ¬ C44_full := by
  intro h
  obtain ⟨x', e, -⟩ := h (.switch_ .leaf (.for_ .leaf (.block (.case_ true)))) (by decide)
  have := C44_case_in_for
  rw [e] at this
  simp at this

end Splint
