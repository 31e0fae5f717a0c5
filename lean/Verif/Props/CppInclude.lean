import Verif.Proofs.CppInclude
/-!
# C54: passing over a repeated #include changes nothing

False, for three reasons: #elif does not count as #else does (cpplib.c:5495, 5890); directives before the
#ifndef are not counted (5571 with 6137-6145); after an included file without text, the file that includes
it seems to begin anew (5007).
-/
namespace Splint.CppInclude
open CppCond (Block Tail Nested)

variable {κ : Type}

/-- **C54.** For all files that are properly nested: if no error occurs without it, passing over repeated
includes gives the same text and the same macros. -/
def C54_full : Prop := ∀ (κ : Type) (S : Sys κ) (depth : Nat) (main : String) (ls : List (Ln κ)) (macros : String → Bool) (st : List Frame) (s : St),
  (∀ f l, S.file f = some l → Nested Ln.kind l) → S.file main = some ls →
  run S false depth main [] (start macros) ls = some (st, s) →
  ∃ st' s', run S true depth main [] (start macros) ls = some (st', s') ∧ s'.out = s.out ∧ s'.macros = s.macros

/-- True when each file that ends with `#ifndef` ... `#endif`, without #else, is all within it, but for blank
lines, and has no #elif there, or has text before it, with no #include in between. Missing: other files. -/
theorem C54_partial (S : Sys κ) (depth : Nat) (main : String) (ls : List (Ln κ)) (macros : String → Bool) (st : List Frame) (s : St)
    (hS : ∀ f l, S.file f = some l → Good l) (hm : S.file main = some ls)
    (h : run S false depth main [] (start macros) ls = some (st, s)) :
    st = [] ∧ ∃ s', run S true depth main [] (start macros) ls = some ([], s') ∧ s'.out = s.out ∧ s'.macros = s.macros := by
  rcases inner_all hS depth main ls (start macros) (start macros) hm ⟨rfl, rfl, by intro f g hf; simp [start] at hf⟩
    with k | ⟨s1, s1', k1, k2, k3⟩
  · rw [h] at k; simp at k
  · rw [h, Option.some.injEq, Prod.mk.injEq] at k2
    exact ⟨k2.1, s1, k3, by rw [k1.out, k2.2], by rw [k1.macros, k2.2]⟩

/-- A guarded file, included again with its macro defined, does nothing. -/
theorem C54_guarded (S : Sys κ) (opt : Bool) (depth : Nat) (f g : String) (s : St) (hg : s.macros g = true) (b : Block (Ln κ))
    (hb : b.Ok Ln.kind) (h : Guarded g b) : run S opt depth f [] s b.lines = some ([], skipped s) :=
  run_guarded S opt depth f [] s hg b hb h

/-! ### Witnesses: a condition is whether a macro is defined -/

def sys (files : List (String × List (Ln String))) : Sys String where
  file f := (files.find? fun e => e.1 == f).map (·.2)
  eval m d := d m

/-- The text passed on, and whether `A` is defined at the end. -/
def outcome (files : List (String × List (Ln String))) (opt : Bool) : Option (List String × Bool) :=
  (run (sys files) opt 5 "main" [] (start fun x => x == "X") (((sys files).file "main").getD [])).map fun r => (r.2.out, r.2.macros "A")

def withElif : List (String × List (Ln String)) :=
  [("h", [.ifndef "G", .define "G", .elif "X", .text "x", .endif]), ("main", [.incl "h", .incl "h"])]

def withUndef : List (String × List (Ln String)) :=
  [("h", [.undef "A", .ifndef "G", .define "G", .endif]), ("main", [.incl "h", .define "A", .incl "h"])]

def withBlank : List (String × List (Ln String)) :=
  [("e", [.blank]), ("h", [.text "t", .incl "e", .ifndef "G", .define "G", .endif]), ("main", [.incl "h", .incl "h"])]

theorem C54_elif : outcome withElif false = some (["x"], false) ∧ outcome withElif true = some ([], false) := by decide +kernel

theorem C54_directive : outcome withUndef false = some ([], false) ∧ outcome withUndef true = some ([], true) := by decide +kernel

theorem C54_blank_include : outcome withBlank false = some (["t", "t"], false) ∧ outcome withBlank true = some (["t"], false) := by
  decide +kernel

theorem C54_full_is_false : ¬ C54_full := by
  intro h
  have hn : ∀ f l, (sys withElif).file f = some l → Nested Ln.kind l := by
    intro f l hl
    simp only [sys, withElif, List.find?_cons, List.find?_nil] at hl
    split at hl
    · simp only [Option.map_some, Option.some.injEq] at hl
      subst hl
      exact ⟨.cond (.ifndef "G") (.line (.define "G") .nil) (.elif (.elif "X") (.line (.text "x") .nil) (.endif .endif)) .nil,
        ⟨rfl, ⟨rfl, trivial⟩, ⟨rfl, ⟨rfl, trivial⟩, rfl⟩, trivial⟩, rfl⟩
    · split at hl
      · simp only [Option.map_some, Option.some.injEq] at hl
        subst hl
        exact ⟨.line (.incl "h") (.line (.incl "h") .nil), ⟨rfl, rfl, trivial⟩, rfl⟩
      · simp at hl
  have h1 := C54_elif.1
  have h2 := C54_elif.2
  have hm : (sys withElif).file "main" = some [.incl "h", .incl "h"] := by decide +kernel
  simp only [outcome, hm, Option.getD_some] at h1 h2
  cases hr : run (sys withElif) false 5 "main" [] (start fun x => x == "X") [.incl "h", .incl "h"] with
  | none => rw [hr] at h1; simp at h1
  | some r =>
    obtain ⟨st', s', k1, k2, _⟩ := h String (sys withElif) 5 "main" _ (fun x => x == "X") r.1 r.2 hn hm hr
    rw [hr] at h1
    rw [k1] at h2
    simp only [Option.map_some, Option.some.injEq, Prod.mk.injEq] at h1 h2
    rw [h1.1, h2.1] at k2
    simp at k2

/-! ### Examples -/

def guarded : List (String × List (Ln String)) :=
  [("h", [.blank, .ifndef "G", .define "G", .ifc "X", .incl "k", .els, .text "no", .endif, .text "h", .endif, .blank]),
   ("k", [.incl "h", .text "k", .undef "B", .ifndef "B", .endif]),
   ("main", [.incl "h", .text "m", .incl "h", .undef "G", .incl "h"])]

example : outcome guarded true = some (["k", "h", "m", "k", "h"], false) := by decide +kernel
example : outcome guarded false = some (["k", "h", "m", "k", "h"], false) := by decide +kernel

/-- The hypothesis of `C54_partial` holds of these files. -/
example : ∀ f l, (sys guarded).file f = some l → Good l := by
  intro f l hl
  simp only [sys, guarded, List.find?_cons, List.find?_nil] at hl
  split at hl
  · simp only [Option.map_some, Option.some.injEq] at hl
    subst hl
    refine ⟨.line .blank (.cond (.ifndef "G") (.line (.define "G") (.cond (.ifc "X") (.line (.incl "k") .nil)
      (.els .els (.line (.text "no") .nil) .endif) (.line (.text "h") .nil))) (.endif .endif) (.line .blank .nil)), ?_, rfl, ?_⟩
    · simp [Block.Ok, Tail.Ok, Ln.kind]
    · intro g hg
      simp only [Ends, or_false] at hg
      exact ⟨rfl, hg.2.1, ⟨_, rfl⟩, rfl, trivial⟩
  · split at hl
    · simp only [Option.map_some, Option.some.injEq] at hl
      subst hl
      exact ⟨.line (.incl "h") (.line (.text "k") (.line (.undef "B") (.cond (.ifndef "B") .nil (.endif .endif) .nil))),
        ⟨rfl, rfl, rfl, rfl, trivial, rfl, trivial⟩, rfl, by intro g hg; simp [Ends, seenAfter] at hg⟩
    · split at hl
      · simp only [Option.map_some, Option.some.injEq] at hl
        subst hl
        exact ⟨.line (.incl "h") (.line (.text "m") (.line (.incl "h") (.line (.undef "G") (.line (.incl "h") .nil)))),
          ⟨rfl, rfl, rfl, rfl, rfl, trivial⟩, rfl, by intro g hg; simp [Ends] at hg⟩
      · simp at hl

end Splint.CppInclude
