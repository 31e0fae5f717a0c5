import Verif.Proofs.IncludeNest
/-!
# C38: include nesting is tracked exactly
-/
namespace Splint.IncludeNest

/-- The program before the first file. -/
def start (loc : Fl) : St := { cur := loc, stack := .new, out := [] }

/-- **C38.** For all files in which no file is open twice at a time: the warnings about nesting are those of
the inclusions that are too deep, each once, in the order of the text, with the depth, the place of the
#include and the include sites that lead there; nothing is left for the next file. -/
theorem C38 (special : Nat → Bool) (max : Nat) (loc : Fl) (files : List Tree) (h : ∀ t ∈ files, t.Once []) :
    ∃ s, runAll special max (start loc) (files.map fun t => (t.root, t.events)) = some s ∧
      s.out = files.flatMap (Tree.tooDeep special max []) ∧ s.stack.elems = [] := by
  have key : ∀ (files : List Tree) (s : St), (∀ t ∈ files, t.Once []) → s.stack.Fits → s.stack.elems = [] →
      ∃ s', runAll special max s (files.map fun t => (t.root, t.events)) = some s' ∧
        s'.out = s.out ++ files.flatMap (Tree.tooDeep special max []) ∧ s'.stack.elems = [] := by
    intro files
    induction files with
    | nil => intro s _ _ he; exact ⟨s, rfl, by simp, he⟩
    | cons t files ih =>
      intro s ho hf he
      obtain ⟨s1, todo, h1, h2, h3⟩ := run_tree special max t [] { s with cur := { s.cur with file := t.root } } (ho t (by simp))
        ⟨rfl, hf, .inl ⟨he, rfl⟩⟩
      have ht : todo = [] := by
        rcases h2.here with ⟨_, h⟩ | ⟨h, _⟩
        · exact h
        · exact h
      rw [ht, List.append_nil] at h3
      obtain ⟨s2, j1, j2, j3⟩ := ih { s1 with stack := s1.stack.clear } (fun t ht => ho t (by simp [ht]))
        (by have := h2.fits; simp only [Stack.Fits, Stack.clear, List.length_nil] at this ⊢; omega) rfl
      refine ⟨s2, ?_, ?_, j3⟩
      · rw [List.map_cons, runAll, h1]
        exact j1
      · rw [j2, h3]
        simp only [List.flatMap_cons, List.append_assoc]
  obtain ⟨s, h1, h2, h3⟩ := key files (start loc) h (by simp [Stack.Fits, start, Stack.new]) rfl
  exact ⟨s, h1, by simpa [start] using h2, h3⟩

/-- For any sequence of lines and markers at all: no write is outside the stack, and no file is on it twice. -/
theorem C38_any (special : Nat → Bool) (max : Nat) (loc : Fl) (files : List (Nat × List Ev)) :
    ∃ s, runAll special max (start loc) files = some s ∧ (s.stack.elems.map (·.file)).Nodup := by
  have key : ∀ (files : List (Nat × List Ev)) (s : St), s.stack.Fits → (s.stack.elems.map (·.file)).Nodup →
      ∃ s', runAll special max s files = some s' ∧ (s'.stack.elems.map (·.file)).Nodup := by
    intro files
    induction files with
    | nil => intro s _ h; exact ⟨s, rfl, h⟩
    | cons e files ih =>
      intro s hf hd
      obtain ⟨s1, h1, h2, h3⟩ := run_any special max e.2 { s with cur := { s.cur with file := e.1 } } hf hd
      obtain ⟨s2, j⟩ := ih { s1 with stack := s1.stack.clear }
        (by simp only [Stack.Fits, Stack.clear, List.length_nil] at h2 ⊢; omega) (by simp [Stack.clear])
      exact ⟨s2, by rw [runAll, h1]; exact j.1, j.2⟩
  exact key files (start loc) (by simp [Stack.Fits, start, Stack.new]) (by simp [start, Stack.new])

/-- A marker for a file that is open, anywhere in the stack, drops what is above it: the file that was left
last is on top, and below it what was below it when it was entered. -/
theorem C38_return (special : Nat → Bool) (max : Nat) (s : St) (hf : s.stack.Fits) (a b : List Fl) (e : Fl) (g n : Nat)
    (hs : s.stack.elems = a ++ e :: b) (he : e.file = s.cur.file) (ha : ∀ x ∈ a, x.file ≠ s.cur.file) (hg : g ≠ s.cur.file) :
    ∃ k, setFilename special max s g n = some ⟨⟨g, n⟩, k, s.out⟩ ∧ k.elems = s.cur :: b ∧ k.Fits :=
  setFilename_old special max hf hs he ha (Ne.symm hg)

/-! ### Examples -/

/-- 0 includes 1 at line 3, which includes 2 (special) at 4, which includes 3 at 5; 0 includes 3 at 7. -/
def t0 : Tree := .file 0 (.incl 3 (.file 1 (.incl 4 (.file 2 (.incl 5 (.file 3 .nil 10) .nil) 11) .nil) 12)
  (.incl 7 (.file 3 .nil 10) .nil)) 20

example : t0.Once [] := by simp [t0, Tree.Once, Body.Once]
example : t0.tooDeep (fun f => f == 2) 1 [] = [⟨2, ⟨2, 5⟩, [⟨1, 4⟩, ⟨0, 3⟩]⟩] := by decide +kernel
example : (runAll (fun f => f == 2) 1 (start ⟨9, 1⟩) [(0, t0.events)]).map (·.out) = some [⟨2, ⟨2, 5⟩, [⟨1, 4⟩, ⟨0, 3⟩]⟩] := by
  decide +kernel
example : (runAll (fun f => f == 2) 0 (start ⟨9, 1⟩) [(0, t0.events), (0, t0.events)]).map (fun s => s.out.map (·.depth)) =
    some [1, 1, 2, 1, 1, 1, 2, 1] := by decide +kernel

/-- A state where the hypotheses of `C38_return` hold: back in 1 after 2. -/
example : ∃ s, run (fun _ => false) 5 (start ⟨0, 1⟩) [.line 3, .marker 1 1, .line 4, .marker 2 1, .line 9, .marker 1 5] = some s ∧
    s.stack.elems = [⟨2, 9⟩, ⟨1, 4⟩, ⟨0, 3⟩] ∧ s.cur = ⟨1, 5⟩ := ⟨_, rfl, rfl, rfl⟩

end Splint.IncludeNest
