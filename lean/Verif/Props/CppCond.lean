import Verif.Proofs.CppCond
/-!
# C10: conditional compilation keeps exactly the selected groups; C53: bad nesting is reported

The full statement of C10 is false: in a group that is skipped, a line with one apostrophe hides the line
after it (cpplib.c:5830-5836 with 6218-6221), so that the #endif is not seen. It is true of the lines, for
any nesting, and it is true of the characters where each quote in a line has its partner.

The full statement of C53 is false: a conditional that is open at the end of the file is not reported, and
stays open in the file that includes it.
-/
namespace Splint.CppCond
open CppSkip

/-- What C10 asks of the characters: whatever a line contains, skipping a complete group ends at the line
after it. -/
def Plain : SLine → Prop
  | .text w t => White w ∧ '\n' ∉ t ∧ NotWhite t ∧ t.head? ≠ some '#'
  | .directive w w2 n r => White w ∧ White w2 ∧ (∀ c ∈ n, idchar c = true) ∧ '\n' ∉ r ∧
      (∀ c, r.head? = some c → idchar c = false) ∧ (n = [] → r = [])

def C10_full : Prop := ∀ (b : Block SLine) (l : SLine) (ls : List SLine), b.Ok SLine.kind →
  (∀ x ∈ b.lines ++ l :: ls, Plain x) → (l.kind = .elif ∨ l.kind = .els ∨ l.kind = .endif) →
  skipGroup (b.lines.length + 1) 0 ([], render (b.lines ++ l :: ls)) = some ((render b.lines).reverse, render (l :: ls))

/-- **C10, the lines.** Any file, whatever the other lines and the conditions do: what is done is what the
groups selected do, one after the other; no condition is evaluated in a group that is not selected, or after
the group that is; nothing is reported, and the stack is as it was. -/
theorem C10_partial {α σ : Type} (E : Env α σ) (b : Block α) (hb : b.Ok E.kind) (s : σ) :
    run E [] s b.lines = (0, [], b.sem E s) := by
  have := run_block b hb [] s []
  rw [List.append_nil] at this
  rw [this, run.eq_def]

/-- The same inside a conditional, and before any other lines. -/
theorem C10_partial_within {α σ : Type} (E : Env α σ) (b : Block α) (hb : b.Ok E.kind) (st : List Frame) (s : σ) (r : List α) :
    run E st s (b.lines ++ r) = run E st (b.sem E s) r := run_block b hb st s r

/-- **C10, the characters.** Skipping a group, from the end of the line with #if, #ifdef, #ifndef or #else,
ends at the beginning of the line after the group. Missing: lines in which a quote has no partner, and what
`SLine.Valid` leaves out (a continued line in the middle of a comment's first two characters or of the
directive's name). -/
theorem C10_partial_chars (b : Block SLine) (hb : b.Ok SLine.kind) (l : SLine) (ls : List SLine)
    (hv : ∀ x ∈ b.lines ++ l :: ls, x.Valid) (hl : l.kind = .elif ∨ l.kind = .els ∨ l.kind = .endif) (past : List Char)
    (fuel : Nat) (hf : (b.lines ++ l :: ls).length + 1 < fuel) :
    skipGroup fuel 0 (past, '\n' :: render (b.lines ++ l :: ls)) =
      some ((render b.lines).reverse ++ '\n' :: past, render (l :: ls)) := by
  have hnil : (SLine.text [] []).Valid := ⟨.nil, .nil, ⟨by simp, by simp, by simp⟩, by simp⟩
  have hv' : ∀ x ∈ SLine.text [] [] :: (b.lines ++ l :: ls), x.Valid := by
    intro x hx
    rcases List.mem_cons.1 hx with rfl | hx
    · exact hnil
    · exact hv x hx
  obtain ⟨pre, h1, h2⟩ := skip_refines (SLine.text [] [] :: (b.lines ++ l :: ls)) [] fuel past hv' (by simpa using hf)
  have hs : skipLines SLine.kind [] (SLine.text [] [] :: (b.lines ++ l :: ls)) = (0, [], l :: ls) := by
    rw [skipLines_cons]
    simp only [SLine.kind]
    exact skip_group SLine.kind b hb hl ls
  rw [hs] at h1 h2
  simp only at h1 h2
  have hp : pre = SLine.text [] [] :: b.lines := by
    have : pre ++ l :: ls = (SLine.text [] [] :: b.lines) ++ l :: ls := by rw [← h1]; rfl
    exact List.append_cancel_right this
  rw [hp] at h2
  simpa [render, SLine.chars] using h2

/-- Skipping from after the word of an #elif, when a group was already processed: the rest of the line must
not look like a directive. -/
theorem C10_partial_elif (b : Block SLine) (hb : b.Ok SLine.kind) (w t : List Char) (l : SLine) (ls : List SLine)
    (ht : (SLine.text w t).Valid)
    (hv : ∀ x ∈ b.lines ++ l :: ls, x.Valid) (hl : l.kind = .elif ∨ l.kind = .els ∨ l.kind = .endif) (past : List Char)
    (fuel : Nat) (hf : (b.lines ++ l :: ls).length + 1 < fuel) :
    ∃ p, skipGroup fuel 0 (past, w ++ t ++ '\n' :: render (b.lines ++ l :: ls)) = some (p, render (l :: ls)) := by
  have hv' : ∀ x ∈ SLine.text w t :: (b.lines ++ l :: ls), x.Valid := by
    intro x hx
    rcases List.mem_cons.1 hx with rfl | hx
    · exact ht
    · exact hv x hx
  obtain ⟨pre, h1, h2⟩ := skip_refines (SLine.text w t :: (b.lines ++ l :: ls)) [] fuel past hv' (by simpa using hf)
  have hs : skipLines SLine.kind [] (SLine.text w t :: (b.lines ++ l :: ls)) = (0, [], l :: ls) := by
    rw [skipLines_cons]
    simp only [SLine.kind]
    exact skip_group SLine.kind b hb hl ls
  rw [hs] at h2
  exact ⟨_, by simpa [render, SLine.chars] using h2⟩

/-- For any lines, in order or not: skipping by characters ends where skipping by lines does. -/
theorem C10_skip_exactly (ls : List SLine) (hv : ∀ l ∈ ls, l.Valid) (past : List Char) :
    ∃ pre, ls = pre ++ (skipLines SLine.kind [] ls).2.2 ∧
      skipGroup (ls.length + 1) 0 (past, render ls) =
        some ((render pre).reverse ++ past, render (skipLines SLine.kind [] ls).2.2) :=
  skip_refines ls [] _ past hv (by omega)

/-- A line `don't` and the #endif after it. -/
def dont : List SLine := [.text [] "don't".toList]
def endifLine : SLine := .directive [] [] "endif".toList []

/-- With one apostrophe in the group, the #endif is passed over and the end of the file is reached. -/
theorem C10_apostrophe : skipGroup 2 0 ([], render (dont ++ [endifLine])) = some ((render (dont ++ [endifLine])).reverse, []) := by
  decide +kernel

theorem C10_full_is_false : ¬ C10_full := by
  intro h
  have := h (.line (.text [] "don't".toList) .nil) endifLine [] ⟨rfl, trivial⟩ (by
    intro x hx
    simp only [Block.lines, List.cons_append, List.nil_append, List.mem_cons, List.not_mem_nil, or_false] at hx
    rcases hx with rfl | rfl
    · refine ⟨.nil, by decide, ⟨?_, ?_, ?_⟩, by decide⟩
      · intro c hc
        have : c = 'd' := by simpa using hc.symm
        subst this; decide
      · decide
      · decide
    · exact ⟨.nil, .nil, by decide, by decide, by simp, by simp⟩) (.inr (.inr (by decide)))
  have h2 : skipGroup 2 0 ([], render (dont ++ [endifLine])) = some ((render (dont ++ [endifLine])).reverse, []) := C10_apostrophe
  have h3 : (some ((render dont).reverse, render [endifLine]) : Option Pos) = some ((render (dont ++ [endifLine])).reverse, []) := by
    rw [← h2]; exact this.symm
  revert h3
  decide +kernel

/-! ### Examples -/

/-- Lines named by their directive; a condition is whether a macro is among those defined. -/
inductive L where
  | text (s : String)
  | define (s : String)
  | ifdef (s : String)
  | elif (s : String)
  | els
  | endif
deriving DecidableEq, Repr

def L.kind : L → Kind
  | .text _ => .other
  | .define _ => .other
  | .ifdef _ => .opens
  | .elif _ => .elif
  | .els => .els
  | .endif => .endif

/-- The state: macros defined, lines passed on, conditions evaluated. -/
abbrev S := List String × List String × List String

def env : Env L S where
  kind := L.kind
  cond s l := match l with
    | .ifdef m => (s.1.contains m, (s.1, s.2.1, s.2.2 ++ [m]))
    | .elif m => (s.1.contains m, (s.1, s.2.1, s.2.2 ++ [m]))
    | _ => (false, s)
  exec s l := match l with
    | .text t => (s.1, s.2.1 ++ [t], s.2.2)
    | .define m => (m :: s.1, s.2.1, s.2.2)
    | _ => s
  stray s _ := s

def sample : Block L :=
  .cond (.ifdef "A") (.line (.define "C") (.cond (.ifdef "X") (.line (.text "ax") .nil) (.endif .endif) .nil))
    (.elif (.elif "B") (.cond (.ifdef "B") (.line (.text "b") .nil) (.els .els (.line (.text "not b") .nil) .endif) (.line (.define "D") .nil))
      (.elif (.elif "C") (.line (.text "c") .nil) (.els .els (.line (.text "e") .nil) .endif)))
    (.cond (.ifdef "D") (.line (.text "d") .nil) (.endif .endif) .nil)

example : sample.Ok env.kind := by simp [sample, Block.Ok, Tail.Ok, env, L.kind]
example : run env [] (["B"], [], []) sample.lines = (0, [], (["D", "B"], ["b", "d"], ["A", "B", "B", "D"])) := by decide +kernel
example : run env [] ([], [], []) sample.lines = (0, [], ([], ["e"], ["A", "B", "C", "D"])) := by decide +kernel

/-- A group with a nested conditional, comments, strings and continued lines. -/
def skipped : Block SLine :=
  .line (.text "  ".toList "x = \"#endif \\\" /*\"; /* ' \n#endif\n */ '\\'' \\\n#endif // don't".toList)
    (.cond (.directive " /* a */ ".toList " \t".toList "ifdef".toList " A".toList)
      (.line (.text [] "y".toList) .nil)
      (.els (.directive [] "/**/".toList "else".toList " // \"".toList) .nil (.directive [] [] "endif".toList [])) .nil)

example : skipGroup 9 0 ([], render (skipped.lines ++ [endifLine])) =
    some ((render skipped.lines).reverse, render [endifLine]) := by decide +kernel

/-- The hypotheses hold of a group with a string, a comment and a nested conditional. -/
def small : Block SLine :=
  .line (.text " ".toList ("'".toList ++ ("\"".toList ++ "' //'".toList)))
    (.cond (.directive "/*#*/".toList " ".toList "if".toList " 1".toList) .nil (.endif endifLine) .nil)

theorem small_valid : ∀ x ∈ small.lines ++ [endifLine], x.Valid := by
  have he : endifLine.Valid := ⟨.nil, .nil, by decide, .nil, by simp, by simp, by simp⟩
  intro x hx
  simp only [small, Block.lines, Tail.lines, List.cons_append, List.nil_append, List.mem_cons, List.not_mem_nil,
    or_false] at hx
  rcases hx with rfl | rfl | rfl | rfl
  · refine ⟨.space (by decide) .nil, ?_, ⟨?_, by decide, by decide⟩, by decide⟩
    · exact .quoted (t := ['"']) (.inr rfl) (.char (by decide) (by decide) (by decide) .nil)
        (.char (by decide) (.line (.char (by decide) (by decide) .nil)))
    · intro c hc
      have : c = '\'' := by simpa using hc.symm
      subst this; decide
  · refine ⟨.comment (t := "#*/".toList) ⟨⟨['#'], by decide, by decide⟩, by decide⟩ .nil, .space (by decide) .nil, by decide,
      .char (by decide) (.char (by decide) .nil), ?_, by decide, by simp⟩
    intro c hc
    have : c = ' ' := by simpa using hc.symm
    subst this; decide
  · exact he
  · exact he

example : skipGroup 9 0 ([], '\n' :: render (small.lines ++ [endifLine])) =
    some ((render small.lines).reverse ++ ['\n'], render [endifLine]) :=
  C10_partial_chars small (by simp [small, Block.Ok, Tail.Ok, SLine.kind]; decide) endifLine [] small_valid
    (.inr (.inr (by decide))) [] 9 (by decide)

/-! ### C53 -/

/-- **C53.** A file is reported exactly when its conditionals are not properly nested. -/
def C53_full : Prop := ∀ (α σ : Type) (E : Env α σ) (s : σ) (ls : List α),
  (run E [] s ls).1 = 0 ↔ Nested E.kind ls

/-- A conditional that is not closed is not reported. -/
theorem C53_full_is_false : ¬ C53_full := by
  intro h
  obtain ⟨b, h1, h2⟩ := (h L S env ([], [], []) [.ifdef "A"]).1 (by decide +kernel)
  match b, h1, h2 with
  | .nil, _, h2 => simp [Block.lines] at h2
  | .line l r, h1, h2 =>
    simp only [Block.lines, List.cons.injEq] at h2
    rw [h2.1] at h1
    exact absurd h1.1 (by decide)
  | .cond l b t r, h1, h2 =>
    simp only [Block.lines, List.cons.injEq, List.append_eq_nil_iff] at h2
    obtain ⟨k, ks, hk, _⟩ := tail_head env.kind t h1.2.2.1
    rw [h2.2.2.1] at hk
    simp at hk

/-- A file is not reported exactly when more lines could make it properly nested: no #else, #elif or #endif
is out of place. Missing: a conditional that is not closed. -/
theorem C53_partial {α σ : Type} (E : Env α σ) (hE : ∃ e, E.kind e = .endif) (s : σ) (ls : List α) :
    (run E [] s ls).1 = 0 ↔ ∃ more, Nested E.kind (ls ++ more) := by
  obtain ⟨e, he⟩ := hE
  rw [← check_some E.kind he]
  have := run_check E ls.length [] s ls le_rfl
  constructor
  · intro h; exact ⟨_, this.1 h⟩
  · rintro ⟨st, h⟩
    by_contra h0
    have h1 : check E.kind [] ls = none := this.2 h0
    rw [h1] at h
    simp at h

/-- The file is properly nested exactly when it is not reported and leaves no conditional open. -/
theorem C53_exactly {α σ : Type} (E : Env α σ) (s : σ) (ls : List α) :
    (run E [] s ls).1 = 0 ∧ (run E [] s ls).2.1 = [] ↔ Nested E.kind ls := by
  rw [← check_nested E.kind]
  have := run_check E ls.length [] s ls le_rfl
  constructor
  · rintro ⟨h1, h2⟩
    have h3 : check E.kind [] ls = _ := this.1 h1
    rw [h3, h2]; rfl
  · intro h
    by_cases h0 : (run E [] s ls).1 = 0
    · refine ⟨h0, ?_⟩
      have h3 : check E.kind [] ls = _ := this.1 h0
      rw [h3] at h
      simpa [seen] using h
    · have h1 : check E.kind [] ls = none := this.2 h0
      rw [h1] at h
      simp at h

/-- Whether a file is reported does not depend on what is defined. -/
theorem C53_states {α σ τ : Type} (E : Env α σ) (F : Env α τ) (hk : E.kind = F.kind) (s : σ) (t : τ) (ls : List α) :
    (run E [] s ls).1 = 0 ↔ (run F [] t ls).1 = 0 := by
  have h1 := run_check E ls.length [] s ls le_rfl
  have h2 := run_check F ls.length [] t ls le_rfl
  rw [← hk] at h2
  constructor
  · intro h
    by_contra h0
    have e1 : check E.kind [] ls = _ := h1.1 h
    have e2 : check E.kind [] ls = _ := h2.2 h0
    rw [e1] at e2; simp at e2
  · intro h
    by_contra h0
    have e1 : check E.kind [] ls = _ := h1.2 h0
    have e2 : check E.kind [] ls = _ := h2.1 h
    rw [e1] at e2; simp at e2

/-- A file that ends within a conditional, included in a file that is properly nested: the #else of the
file that includes it is taken for the open one, and of its conditional both groups are passed on. -/
theorem C53_open_in_include :
    let inner := run env [] (["A"], [], []) [.ifdef "Z"]
    let outer1 := run env [] (["A"], [], []) [.ifdef "A", .text "one"]
    inner.1 = 0 ∧
    run env (inner.2.1 ++ outer1.2.1) outer1.2.2 [.els, .text "two", .endif] =
      (0, [{ succeeded := true, type := .tIf }], (["A"], ["one", "two"], ["A"])) ∧
    run env outer1.2.1 outer1.2.2 [.els, .text "two", .endif] = (0, [], (["A"], ["one"], ["A"])) := by
  decide +kernel

example : (run env [] ([], [], []) [.ifdef "A", .els, .els, .endif]).1 = 1 := by decide +kernel
example : (run env [] ([], [], []) [.ifdef "A", .ifdef "B", .els, .elif "C", .endif, .endif]).1 = 1 := by decide +kernel

end Splint.CppCond
