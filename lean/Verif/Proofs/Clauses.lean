import Verif.Spec.Clauses
/-! Lemmas about the clause stack. -/
namespace Splint.Clauses

theorem push_ok (s : Stack) (c : Clause) (h : s.ok) :
    ∃ s', s.push c = some s' ∧ s'.ok ∧ s'.elems = s.elems ++ [c] := by
  obtain ⟨h1, h2⟩ := h
  unfold Stack.push
  by_cases hn : s.nspace ≤ 0
  · have : s.nspace = 0 := by omega
    have hb : baseSize = 8 := rfl
    rw [if_pos hn, Stack.grow, this]
    rw [if_pos (by simp only [hb]; omega)]
    refine ⟨_, rfl, ⟨?_, ?_⟩, rfl⟩ <;> simp [hb] <;> omega
  · simp only [hn, if_false]
    rw [if_pos (by omega)]
    refine ⟨_, rfl, ⟨?_, ?_⟩, rfl⟩ <;> simp <;> omega

theorem pop_ok (s : Stack) (l : List Clause) (c : Clause) (h : s.ok) (he : s.elems = l ++ [c]) :
    ∃ s', s.pop = some s' ∧ s'.ok ∧ s'.elems = l := by
  obtain ⟨h1, h2⟩ := h
  unfold Stack.pop
  rw [if_neg (by simp [he])]
  refine ⟨_, rfl, ⟨?_, ?_⟩, by simp [he]⟩
  · simp; omega
  · simp [he] at h2 ⊢; omega

theorem switchTop_ok (s : Stack) (l : List Clause) (c d : Clause) (h : s.ok) (he : s.elems = l ++ [c]) :
    ∃ s', s.switchTop d = some s' ∧ s'.ok ∧ s'.elems = l ++ [d] := by
  obtain ⟨h1, h2⟩ := h
  unfold Stack.switchTop
  rw [if_neg (by simp [he])]
  refine ⟨_, rfl, ⟨h1, ?_⟩, by simp [he]⟩
  simp [he] at h2 ⊢; omega

theorem shiftOut_eq (key : Clause) (l r : List Clause) (hr : ∀ c ∈ r, c ≠ key) (n : Nat)
    (hn : l.length < n) (hn' : n ≤ l.length + 1 + r.length) :
    shiftOut key (l ++ key :: r) n = some (l ++ r) := by
  induction n with
  | zero => omega
  | succ i ih =>
    unfold shiftOut
    by_cases hi : i = l.length
    · subst hi; simp
    · have : ¬ (l ++ key :: r)[i]? = some key := by
        rw [List.getElem?_append_right (by omega)]
        obtain ⟨j, hj⟩ : ∃ j, i - l.length = j + 1 := ⟨i - l.length - 1, by omega⟩
        rw [hj, List.getElem?_cons_succ]
        intro he
        exact hr _ (List.mem_of_getElem? he) rfl
      rw [if_neg this]
      exact ih (by omega) (by omega)

theorem removeFirst_ok (s : Stack) (key : Clause) (l r : List Clause) (hr : ∀ c ∈ r, c ≠ key)
    (h : s.ok) (he : s.elems = l ++ key :: r) :
    ∃ s', s.removeFirst key = some s' ∧ s'.ok ∧ s'.elems = l ++ r := by
  rcases List.eq_nil_or_concat r with rfl | ⟨r', t, rfl⟩
  · obtain ⟨s', h1, h2, h3⟩ := pop_ok s l key h (by simpa using he)
    refine ⟨s', ?_, h2, by simp [h3]⟩
    simp [Stack.removeFirst, Stack.top, he, h1]
  · have ht : t ≠ key := hr t (by simp)
    have htop : s.top = some t := by
      rw [Stack.top, he]; simp [List.getLast?_append, List.getLast?_cons]
    simp only [Stack.removeFirst, htop, if_neg ht]
    simp only [List.concat_eq_append] at he hr
    have := shiftOut_eq key l (r' ++ [t]) hr (s.elems.length - 1) (by simp [he]) (by simp [he])
    rw [he] at this ⊢
    rw [this]
    refine ⟨_, rfl, ⟨?_, ?_⟩, by simp⟩
    · have := h.1; simp; omega
    · have := h.2; simp [he] at this ⊢; omega

theorem clear_ok (s : Stack) (h : s.ok) : s.clear.ok ∧ s.clear.elems = [] := by
  refine ⟨⟨?_, ?_⟩, rfl⟩
  · have := h.1; simp only [Stack.clear]; omega
  · have := h.2; simp only [Stack.clear]; simp; omega

/-! ## Contexts -/

/-- The context holds this stack, these answers and this number of warnings. -/
structure Rep (x : Ctx) (l : List Clause) (q : List (Clause × Clause × Bool × Bool × Bool × Bool))
    (w : Nat) : Prop where
  ok : x.clauses.ok
  elems : x.clauses.elems = l
  top : x.inclause = l.getLast?.getD .none_
  queries : x.queries = q
  warnings : x.depthWarnings = w

def depth (l : List Clause) : Nat := (l.filter Clause.isConditional).length

variable {md : Option Nat} {x : Ctx} {l : List Clause} {w : Nat}
  {q : List (Clause × Clause × Bool × Bool × Bool × Bool)}

theorem Rep.push (h : Rep x l q w) (c : Clause) :
    ∃ x', x.push md c = some x' ∧
      Rep x' (l ++ [c]) q (w + if c.isConditional then over md (depth l) else 0) := by
  obtain ⟨s, h1, h2, h3⟩ := push_ok x.clauses c h.ok
  rw [h.elems] at h3
  refine ⟨Ctx.mk s c (x.depthWarnings + if (match md with
        | some m => c.isConditional && s.controlDepth == m + 1
        | none => false) then 1 else 0) x.queries, by simp only [Ctx.push, h1]; rfl,
    ⟨h2, h3, by simp, h.queries, ?_⟩⟩
  simp only [h.warnings, Stack.controlDepth, h3, List.filter_append, List.length_append, depth]
  congr 1
  cases md with
  | none => simp [over]
  | some m =>
    by_cases hc : c.isConditional = true
    · simp [hc, over]
    · simp [hc]

theorem Rep.popTop {c : Clause} (h : Rep x (l ++ [c]) q w) :
    ∃ x', x.popTop = some x' ∧ Rep x' l q w := by
  obtain ⟨s, h1, h2, h3⟩ := pop_ok x.clauses l c h.ok h.elems
  refine ⟨{ x with clauses := s, inclause := topClause s }, by simp [Ctx.popTop, h1], ⟨h2, h3, ?_, h.queries, h.warnings⟩⟩
  simp [topClause, Stack.top, h3]

theorem Rep.inclause {c : Clause} (h : Rep x (l ++ [c]) q w) : x.inclause = c := by
  rw [h.top]; simp

theorem Rep.exitLogical {c : Clause} (h : Rep x (l ++ [c]) q w) :
    ∃ x', x.exitLogical c = some x' ∧ Rep x' l q w := by
  obtain ⟨x', h1, h2⟩ := h.popTop
  exact ⟨x', by simp [Ctx.exitLogical, assert, h.inclause, h1], h2⟩

theorem Rep.enterFalse {c : Clause} (h : Rep x (l ++ [c]) q w) :
    ∃ x', x.enterFalse = some x' ∧ Rep x' (l ++ [.false_]) q w := by
  obtain ⟨s, h1, h2, h3⟩ := switchTop_ok x.clauses l c .false_ h.ok h.elems
  exact ⟨{ x with inclause := .false_, clauses := s }, by simp [Ctx.enterFalse, h1], ⟨h2, h3, by simp, h.queries, h.warnings⟩⟩

theorem Rep.exitTrue (h : Rep x (l ++ [.true_]) q w) :
    ∃ x', x.exitTrue = some x' ∧ Rep x' l q w := by
  obtain ⟨x', h1, h2⟩ := h.popTop
  exact ⟨x', by simp [Ctx.exitTrue, h.inclause, h1], h2⟩

theorem Rep.exitClause (h : Rep x (l ++ [.false_]) q w) :
    ∃ x', x.exitClause = some x' ∧ Rep x' l q w := by
  obtain ⟨x', h1, h2⟩ := h.popTop
  refine ⟨x', ?_, h2⟩
  simp [Ctx.exitClause, h.inclause, assert, Stack.top, h.elems, h1]

theorem Rep.exitWhile {k : Nat} (hk : k ≤ 1)
    (h : Rep x (l ++ [.while_] ++ List.replicate k .case_) q w) :
    ∃ x', x.exitWhile = some x' ∧ Rep x' l q w := by
  rcases (by omega : k = 0 ∨ k = 1) with rfl | rfl
  · simp only [List.replicate_zero, List.append_nil] at h
    obtain ⟨x', h1, h2⟩ := h.popTop
    exact ⟨x', by simp [Ctx.exitWhile, h.inclause, assert, h1], h2⟩
  · simp only [List.replicate_one] at h
    obtain ⟨x1, h1, h2⟩ := h.popTop
    obtain ⟨x', h3, h4⟩ := h2.popTop
    exact ⟨x', by simp [Ctx.exitWhile, h.inclause, h1, h2.inclause, assert, h3], h4⟩

theorem Rep.exitDoWhile {k : Nat} (hk : k ≤ 1)
    (h : Rep x (l ++ [.doWhile] ++ List.replicate k .case_) q w) :
    ∃ x', x.exitDoWhile = some x' ∧ Rep x' l q w := by
  rcases (by omega : k = 0 ∨ k = 1) with rfl | rfl
  · simp only [List.replicate_zero, List.append_nil] at h
    obtain ⟨x', h1, h2⟩ := h.popTop
    exact ⟨x', by simp [Ctx.exitDoWhile, h.inclause, assert, h1], h2⟩
  · simp only [List.replicate_one] at h
    obtain ⟨x1, h1, h2⟩ := h.popTop
    obtain ⟨x', h3, h4⟩ := h2.popTop
    exact ⟨x', by simp [Ctx.exitDoWhile, h.inclause, h1, h2.inclause, assert, h3], h4⟩

theorem Rep.exitFor (h : Rep x (l ++ [.for_]) q w) :
    ∃ x', x.exitFor = some x' ∧ Rep x' l q w := by
  obtain ⟨x', h1, h2⟩ := h.popTop
  exact ⟨x', by simp [Ctx.exitFor, h.inclause, assert, h1], h2⟩

theorem Rep.exitIter (h : Rep x (l ++ [.iter]) q w) :
    ∃ x', x.exitIter = some x' ∧ Rep x' l q w := by
  obtain ⟨x', h1, h2⟩ := h.popTop
  exact ⟨x', by simp [Ctx.exitIter, h.inclause, assert, h1], h2⟩

theorem Rep.exitInner {k : Nat} (h : Rep x (l ++ [.none_] ++ List.replicate k .case_) q w) :
    ∃ x', x.exitInner = some x' ∧ Rep x' (l ++ List.replicate k .case_) q w := by
  obtain ⟨s, h1, h2, h3⟩ := removeFirst_ok x.clauses .none_ l (List.replicate k .case_)
    (by intro c hc; rw [List.eq_of_mem_replicate hc]; simp) h.ok (by rw [h.elems]; simp)
  have hi : x.inclause = .none_ ∨ x.inclause = .case_ := by
    rw [h.top]
    cases k with
    | zero => simp
    | succ n => right; rw [List.replicate_succ', ← List.append_assoc, List.getLast?_concat]; rfl
  refine ⟨{ x with clauses := s, inclause := topClause s }, ?_, ⟨h2, h3, ?_, h.queries, h.warnings⟩⟩
  · have ha : assert (x.inclause = .none_ || x.inclause = .case_) = some () := by
      rcases hi with hi | hi <;> simp [assert, hi]
    simp only [Ctx.exitInner, ha, h1]
    rfl
  · simp [topClause, Stack.top, h3]

theorem Rep.exitInner0 (h : Rep x (l ++ [.none_]) q w) :
    ∃ x', x.exitInner = some x' ∧ Rep x' l q w := by
  have := Rep.exitInner (k := 0) (l := l) (x := x) (q := q) (w := w) (by simpa using h)
  simpa using this

theorem popCases_ok (s : Stack) (l : List Clause) (c : Clause) (hc : c ≠ .case_) (k n : Nat)
    (hn : k < n) (h : s.ok) (he : s.elems = l ++ [c] ++ List.replicate k .case_) :
    ∃ s', popCases n s = some s' ∧ s'.ok ∧ s'.elems = l ++ [c] := by
  induction k generalizing n s with
  | zero =>
    obtain ⟨m, rfl⟩ : ∃ m, n = m + 1 := ⟨n - 1, by omega⟩
    refine ⟨s, ?_, h, by simpa using he⟩
    simp at he
    simp [popCases, Stack.top, he, hc]
  | succ k ih =>
    obtain ⟨m, rfl⟩ : ∃ m, n = m + 1 := ⟨n - 1, by omega⟩
    rw [List.replicate_succ', ← List.append_assoc] at he
    obtain ⟨s1, h1, h2, h3⟩ := pop_ok s _ .case_ h he
    obtain ⟨s', h4, h5, h6⟩ := ih s1 m (by omega) h2 h3
    refine ⟨s', ?_, h5, h6⟩
    have ht : s.top = some .case_ := by rw [Stack.top, he, List.getLast?_concat]
    simp [popCases, ht, h1, h4]

theorem Rep.exitSwitch {k : Nat} (h : Rep x (l ++ [.switch_] ++ List.replicate k .case_) q w) :
    ∃ x', x.exitSwitch = some x' ∧ Rep x' l q w := by
  obtain ⟨s, h1, h2, h3⟩ := popCases_ok x.clauses l .switch_ (by simp) k (x.clauses.elems.length + 1)
    (by rw [h.elems]; simp; omega) h.ok h.elems
  obtain ⟨s', h4, h5, h6⟩ := pop_ok s l .switch_ h2 h3
  refine ⟨{ x with clauses := s', inclause := topClause s' },
    by simp [Ctx.exitSwitch, h1, Ctx.popTop, h4], ⟨h5, h6, ?_, h.queries, h.warnings⟩⟩
  simp [topClause, Stack.top, h6]

/-! ## Queries -/

/-- Loops and switches around a place with this stack, innermost first. -/
def around (l : List Clause) : List Clause := l.reverse.filter Clause.isBreakable

theorem deep_eq (p : Clause → Bool) (l : List Clause) (b : Bool) :
    deep p l b = decide (2 ≤ (l.filter p).length + if b then 1 else 0) := by
  induction l generalizing b with
  | nil => cases b <;> simp [deep]
  | cons c l ih =>
    unfold deep
    by_cases hp : p c = true
    · cases b
      · simp [hp, ih]
      · simp [hp]
    · simp [hp, ih]

theorem filter_around (p : Clause → Bool) (hp : ∀ c, p c = true → c.isBreakable = true)
    (l : List Clause) : (around l).filter p = l.reverse.filter p := by
  rw [around, List.filter_filter]
  apply List.filter_congr
  intro c _
  by_cases h : p c = true
  · simp [h, hp c h]
  · simp [h]

theorem Rep.query (h : Rep x l q w) : Rep x.query l (q ++ [answers (around l)]) w := by
  refine ⟨h.ok, h.elems, h.top, ?_, h.warnings⟩
  simp only [Ctx.query, h.queries, answers, two, h.elems]
  congr 3
  · simp only [breakClause, h.elems, around]
    rw [← List.head?_filter]
  congr 1
  · simp only [nextBreakClause, h.elems, around]
    cases l.reverse.filter Clause.isBreakable with
    | nil => rfl
    | cons a t => cases t <;> rfl
  congr 1
  · rw [deep_eq, around, List.filter_filter]
    simp only [Bool.false_eq_true, if_false, Nat.add_zero]
    congr 4
    funext c; cases c <;> simp [Clause.isLoop, Clause.isBreakable]
  congr 1
  · rw [deep_eq, filter_around (fun c => decide (c = .switch_)) (by intro c; cases c <;> simp [Clause.isBreakable])]
    simp
  congr 1
  · rw [deep_eq]; simp [around]
  · rw [inConditional, h.elems, around, List.any_filter]
    congr 1; funext c; cases c <;> simp [Clause.isBreakable]

/-! ## Walks -/

theorem depth_append (l : List Clause) (c : Clause) :
    depth (l ++ [c]) = depth l + if c.isConditional then 1 else 0 := by
  simp only [depth, List.filter_append, List.length_append]
  by_cases h : c.isConditional = true <;> simp [h]

theorem around_append (l : List Clause) (c : Clause) :
    around (l ++ [c]) = if c.isBreakable then c :: around l else around l := by
  simp only [around, List.reverse_append, List.reverse_singleton, List.singleton_append, List.filter_cons]

theorem depth_cases (l : List Clause) (k : Nat) : depth (l ++ List.replicate k .case_) = depth l := by
  simp [depth, List.filter_append, List.filter_replicate, Clause.isConditional]

theorem around_cases (l : List Clause) (k : Nat) : around (l ++ List.replicate k .case_) = around l := by
  simp [around, List.reverse_append, List.filter_append, List.filter_replicate, Clause.isBreakable]

theorem expr_walk (e : Expr) : ∀ {x : Ctx} {l : List Clause} {w : Nat}
    {q : List (Clause × Clause × Bool × Bool × Bool × Bool)}, Rep x l q w →
    ∃ x', e.walk md x = some x' ∧ Rep x' l q (w + exprTooDeep md (depth l) e) := by
  induction e with
  | leaf => intro x l w q h; exact ⟨x, rfl, h⟩
  | and_ a b iha ihb =>
    intro x l w q h
    obtain ⟨x1, e1, h1⟩ := iha h
    obtain ⟨x2, e2, h2⟩ := h1.push (md := md) .and_
    obtain ⟨x3, e3, h3⟩ := ihb h2
    obtain ⟨x4, e4, h4⟩ := h3.exitLogical
    refine ⟨x4, by simp [Expr.walk, e1, e2, e3, e4], ?_⟩
    simpa [exprTooDeep, depth_append, Clause.isConditional, Nat.add_assoc] using h4
  | or_ a b iha ihb =>
    intro x l w q h
    obtain ⟨x1, e1, h1⟩ := iha h
    obtain ⟨x2, e2, h2⟩ := h1.push (md := md) .or_
    obtain ⟨x3, e3, h3⟩ := ihb h2
    obtain ⟨x4, e4, h4⟩ := h3.exitLogical
    refine ⟨x4, by simp [Expr.walk, e1, e2, e3, e4], ?_⟩
    simpa [exprTooDeep, depth_append, Clause.isConditional, Nat.add_assoc] using h4
  | cond p a b ihp iha ihb =>
    intro x l w q h
    obtain ⟨x1, e1, h1⟩ := ihp h
    obtain ⟨x2, e2, h2⟩ := h1.push (md := md) .true_
    obtain ⟨x3, e3, h3⟩ := iha h2
    obtain ⟨x4, e4, h4⟩ := h3.enterFalse
    obtain ⟨x5, e5, h5⟩ := ihb h4
    obtain ⟨x6, e6, h6⟩ := h5.exitClause
    refine ⟨x6, by simp [Expr.walk, e1, e2, e3, e4, e5, e6], ?_⟩
    simpa [exprTooDeep, depth_append, Clause.isConditional, Nat.add_assoc] using h6

theorem stmt_walk (s : Stmt) : nested s = true → ∀ {x : Ctx} {l : List Clause} {w : Nat}
    {q : List (Clause × Clause × Bool × Bool × Bool × Bool)}, Rep x l q w →
    ∃ x', s.walk md x = some x' ∧ Rep x' (l ++ List.replicate (opened s) .case_)
      (q ++ allAnswers (around l) s) (w + tooDeep md (depth l) s) := by
  induction s with
  | expr e =>
    intro _ x l w q h
    obtain ⟨x1, e1, h1⟩ := expr_walk (md := md) e h
    exact ⟨x1, e1, by simpa [opened, allAnswers, tooDeep] using h1⟩
  | brk => intro _ x l w q h; exact ⟨_, rfl, by simpa [opened, allAnswers, tooDeep] using h.query⟩
  | case_ b =>
    intro _ x l w q h
    cases b with
    | false => exact ⟨x, rfl, by simpa [opened, allAnswers, tooDeep] using h⟩
    | true =>
      obtain ⟨x1, e1, h1⟩ := h.push (md := md) .case_
      exact ⟨x1, e1, by simpa [opened, allAnswers, tooDeep, Clause.isConditional] using h1⟩
  | block s ih =>
    intro hn x l w q h
    obtain ⟨x1, e1, h1⟩ := h.push (md := md) .none_
    obtain ⟨x2, e2, h2⟩ := ih hn h1
    obtain ⟨x3, e3, h3⟩ := h2.exitInner
    refine ⟨x3, by simp [Stmt.walk, e1, e2, e3], ?_⟩
    simpa [opened, allAnswers, tooDeep, depth_append, around_append, Clause.isConditional,
      Clause.isBreakable] using h3
  | seq s1 s2 ih1 ih2 =>
    intro hn x l w q h
    simp only [nested, Bool.and_eq_true] at hn
    obtain ⟨x1, e1, h1⟩ := ih1 hn.1 h
    obtain ⟨x2, e2, h2⟩ := ih2 hn.2 h1
    refine ⟨x2, by simp [Stmt.walk, e1, e2], ?_⟩
    rw [around_cases, depth_cases] at h2
    simpa [opened, allAnswers, tooDeep, ← List.replicate_append_replicate, Nat.add_assoc] using h2
  | if_ e s ih =>
    intro hn x l w q h
    simp only [nested, Bool.and_eq_true, beq_iff_eq] at hn
    obtain ⟨x1, e1, h1⟩ := expr_walk (md := md) e h
    obtain ⟨x2, e2, h2⟩ := h1.push (md := md) .true_
    obtain ⟨x3, e3, h3⟩ := ih hn.1 h2
    rw [hn.2] at h3
    simp only [List.replicate_zero, List.append_nil] at h3
    obtain ⟨x4, e4, h4⟩ := h3.exitTrue
    refine ⟨x4, by simp [Stmt.walk, e1, e2, e3, e4], ?_⟩
    simpa [opened, allAnswers, tooDeep, depth_append, around_append, Clause.isConditional,
      Clause.isBreakable, Nat.add_assoc] using h4
  | ifElse e s1 s2 ih1 ih2 =>
    intro hn x l w q h
    simp only [nested, Bool.and_eq_true, beq_iff_eq] at hn
    obtain ⟨x1, e1, h1⟩ := expr_walk (md := md) e h
    obtain ⟨x2, e2, h2⟩ := h1.push (md := md) .true_
    obtain ⟨x3, e3, h3⟩ := ih1 hn.1.1.1 h2
    rw [hn.1.1.2] at h3
    simp only [List.replicate_zero, List.append_nil] at h3
    obtain ⟨x4, e4, h4⟩ := h3.enterFalse
    obtain ⟨x5, e5, h5⟩ := ih2 hn.1.2 h4
    rw [hn.2] at h5
    simp only [List.replicate_zero, List.append_nil] at h5
    obtain ⟨x6, e6, h6⟩ := h5.exitClause
    refine ⟨x6, by simp [Stmt.walk, e1, e2, e3, e4, e5, e6], ?_⟩
    simpa [opened, allAnswers, tooDeep, depth_append, around_append, Clause.isConditional,
      Clause.isBreakable, Nat.add_assoc] using h6
  | while_ e s ih =>
    intro hn x l w q h
    simp only [nested, Bool.and_eq_true, decide_eq_true_eq] at hn
    obtain ⟨x1, e1, h1⟩ := expr_walk (md := md) e h
    obtain ⟨x2, e2, h2⟩ := h1.push (md := md) .while_
    obtain ⟨x3, e3, h3⟩ := ih hn.1 h2
    obtain ⟨x4, e4, h4⟩ := h3.exitWhile hn.2
    refine ⟨x4, by simp [Stmt.walk, e1, e2, e3, e4], ?_⟩
    simpa [opened, allAnswers, tooDeep, depth_append, around_append, Clause.isConditional,
      Clause.isBreakable, Nat.add_assoc] using h4
  | doWhile s e ih =>
    intro hn x l w q h
    simp only [nested, Bool.and_eq_true, decide_eq_true_eq] at hn
    obtain ⟨x2, e2, h2⟩ := h.push (md := md) .doWhile
    obtain ⟨x3, e3, h3⟩ := ih hn.1 h2
    obtain ⟨x1, e1, h1⟩ := expr_walk (md := md) e h3
    obtain ⟨x4, e4, h4⟩ := h1.exitDoWhile hn.2
    refine ⟨x4, by simp [Stmt.walk, e1, e2, e3, e4], ?_⟩
    rw [depth_cases] at h4
    simpa [opened, allAnswers, tooDeep, depth_append, around_append, Clause.isConditional,
      Clause.isBreakable, Nat.add_assoc] using h4
  | for_ e s ih =>
    intro hn x l w q h
    simp only [nested, Bool.and_eq_true, beq_iff_eq] at hn
    obtain ⟨x1, e1, h1⟩ := expr_walk (md := md) e h
    obtain ⟨x2, e2, h2⟩ := h1.push (md := md) .none_
    obtain ⟨x3, e3, h3⟩ := h2.push (md := md) .for_
    obtain ⟨x4, e4, h4⟩ := ih hn.1 h3
    rw [hn.2] at h4
    simp only [List.replicate_zero, List.append_nil] at h4
    obtain ⟨x5, e5, h5⟩ := h4.exitFor
    obtain ⟨x6, e6, h6⟩ := h5.exitInner0
    refine ⟨x6, by simp [Stmt.walk, e1, e2, e3, e4, e5, e6], ?_⟩
    simp only [depth_append, around_append] at h6
    simpa [opened, allAnswers, tooDeep, depth_append, around_append, Clause.isConditional,
      Clause.isBreakable, Nat.add_assoc] using h6
  | switch_ e s ih =>
    intro hn x l w q h
    obtain ⟨x1, e1, h1⟩ := expr_walk (md := md) e h
    obtain ⟨x2, e2, h2⟩ := h1.push (md := md) .switch_
    obtain ⟨x3, e3, h3⟩ := ih hn h2
    obtain ⟨x4, e4, h4⟩ := h3.exitSwitch
    refine ⟨x4, by simp [Stmt.walk, e1, e2, e3, e4], ?_⟩
    simpa [opened, allAnswers, tooDeep, depth_append, around_append, Clause.isConditional,
      Clause.isBreakable, Nat.add_assoc] using h4
  | iter s ih =>
    intro hn x l w q h
    simp only [nested, Bool.and_eq_true, beq_iff_eq] at hn
    obtain ⟨x1, e1, h1⟩ := h.push (md := md) .iter
    obtain ⟨x2, e2, h2⟩ := h1.push (md := md) .none_
    obtain ⟨x3, e3, h3⟩ := h2.push (md := md) .none_
    obtain ⟨x4, e4, h4⟩ := ih hn.1 h3
    rw [hn.2] at h4
    simp only [List.replicate_zero, List.append_nil] at h4
    obtain ⟨x5, e5, h5⟩ := h4.exitInner0
    obtain ⟨x6, e6, h6⟩ := h5.exitInner0
    obtain ⟨x7, e7, h7⟩ := h6.exitIter
    refine ⟨x7, by simp [Stmt.walk, e1, e2, e3, e4, e5, e6, e7], ?_⟩
    simp only [depth_append, around_append] at h7
    simpa [opened, allAnswers, tooDeep, depth_append, around_append, Clause.isConditional,
      Clause.isBreakable, Nat.add_assoc] using h7

end Splint.Clauses
