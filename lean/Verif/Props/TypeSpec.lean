import Mathlib.Data.List.Permutation
import Verif.Proofs.TypeSpec
/-!
# C62: type specifiers

The words of a type (`unsigned long int` and so on), in any order, give the type that C gives them
without a message, and words that do not belong together are reported.
-/
namespace Splint.TypeSpec
open Spec

/-- The full property: C's types without messages, and messages for everything else. -/
def C62_full : Prop :=
  (∀ ignore ws t, Means ws t → completeType ignore ws = (t, []))
  ∧ ∀ ws, (¬ ∃ t, Means ws t) → (completeType false ws).2 ≠ []

/-- Words of C give the type of C, but for `char` and `double` if they are not last, and if there is no
word at all. -/
theorem C62_exactly {ws : List Word} {t : Ty} (ignore : Bool) (h : Means ws t) :
    (completeType ignore ws).2 = []
    ∧ ((completeType ignore ws).1 = t ↔ ws ≠ [] ∧
        (.char ∈ ws ∨ .double ∈ ws → ∃ w, ws.getLast? = some w ∧ Word.isBase w = true)) := by
  obtain ⟨r, hr, hp⟩ := h
  have key : ∀ p ∈ table, ∀ ws ∈ p.1.permutations', ∀ ignore : Bool,
      (completeType ignore ws).2 = []
      ∧ ((completeType ignore ws).1 = p.2 ↔ ws ≠ [] ∧
        (.char ∈ ws ∨ .double ∈ ws → ws.getLast?.any Word.isBase = true)) := by
    decide +kernel
  obtain ⟨h1, h2⟩ := key _ hr ws (List.mem_permutations'.2 hp) ignore
  refine ⟨h1, h2.trans ?_⟩
  cases ws.getLast? <;> simp

example : Means [.long, .unsigned, .int, .long] .ullint :=
  ⟨[.unsigned, .long, .long, .int], by decide, by decide⟩

/-- The types are right if there is a word, and `char` and `double` come last. -/
theorem C62_types_partial {ws : List Word} {t : Ty} (ignore : Bool) (h : Means ws t) (hne : ws ≠ [])
    (hl : .char ∈ ws ∨ .double ∈ ws → ∃ w, ws.getLast? = some w ∧ Word.isBase w = true) :
    completeType ignore ws = (t, []) := by
  obtain ⟨h1, h2⟩ := C62_exactly ignore h
  exact Prod.ext (h2.2 ⟨hne, hl⟩) h1

/-- It does not hold in full: `char unsigned` is taken for `unsigned int`. -/
theorem C62_full_is_false : ¬ C62_full := by
  intro h
  have := h.1 false [.char, .unsigned] .uchar ⟨[.unsigned, .char], by decide, by decide⟩
  revert this
  decide

/-- A declaration without any word (`const x;`, `static f (void)`) does not stand for `int`, in spite of
`ctype_resolve`: the type remains unknown. -/
theorem C62_implicit_int (ignore : Bool) :
    Means [] .int ∧ completeType ignore [] = (.unknown, []) ∧ ∀ t, resolve t = t := by
  refine ⟨⟨[], by decide, by decide⟩, by cases ignore <;> decide, ?_⟩
  intro t
  cases t <;> rfl

/-- And `double long` for `long int`. -/
theorem C62_double_long : Means [.double, .long] .ldouble
    ∧ completeType false [.double, .long] = (.lint, []) :=
  ⟨⟨[.long, .double], by decide, by decide⟩, by decide⟩

/-- Exactly which lists of words, of any length, are not reported, and the type they have. -/
theorem C62_silent_exactly (ws : List Word) :
    ((completeType false ws).2 = [] ↔ silent ws)
    ∧ (silent ws → (completeType false ws).1 = if ws = [] then .unknown else typeOf ws) := by
  by_cases hne : ws = []
  · subst hne
    simp [completeType, spec, resolve, isAnytype, silent, Silent, base]
  · obtain ⟨h1, h2⟩ := spec_eq hne
    refine ⟨⟨fun h => ?_, fun h => ?_⟩, fun h => ?_⟩
    · by_contra hs
      exact h2 hs h
    · simp only [completeType, h1 h]
    · rw [if_neg hne]
      simp only [completeType, h1 h]
      cases typeOf ws <;> rfl

example : silent [.unsigned, .long, .int] ∧ ¬ silent [.short, .long] ∧ ¬ silent [.unsigned, .double]
    ∧ ¬ silent [.unsigned, .int, .unsigned] := by
  simp [silent, Silent, base, Word.isBase]

/-- Among those are words that do not belong together: `signed unsigned`, `long long long`, `long float`,
`char int` and `double unsigned`. -/
theorem C62_not_reported :
    ∀ ws ∈ [[Word.signed, .unsigned], [.long, .long, .long], [.long, .float], [.char, .int],
        [.double, .unsigned]],
      (¬ ∃ t, Means ws t) ∧ (completeType false ws).2 = [] := by
  intro ws hws
  have key : ∀ ws ∈ [[Word.signed, .unsigned], [.long, .long, .long], [.long, .float], [.char, .int],
        [.double, .unsigned]], (∀ p ∈ table, ¬ ws.Perm p.1) ∧ (completeType false ws).2 = [] := by
    decide +kernel
  obtain ⟨h1, h2⟩ := key ws hws
  refine ⟨?_, h2⟩
  rintro ⟨t, r, hr, hp⟩
  exact h1 _ hr hp

/-- Words that do not belong together because of unsigned twice, short twice, or short and long, are
always reported. -/
theorem C62_reported_partial {ws : List Word}
    (h : 2 ≤ ws.count .unsigned ∨ 2 ≤ ws.count .short ∨ (.short ∈ ws ∧ .long ∈ ws)) :
    (completeType false ws).2 ≠ [] := by
  intro hs
  have hs := (C62_silent_exactly ws).1.1 hs
  have h' : 2 ≤ ws.count .unsigned ∨ 2 ≤ ws.count .short ∨ (0 < ws.count .short ∧ 0 < ws.count .long) := by
    simpa [List.count_pos_iff] using h
  unfold silent at hs
  generalize base ws = b at hs
  cases b <;> simp only [Silent] at hs <;> omega

example : Word.short ∈ [Word.long, .int, .short] ∧ Word.long ∈ [Word.long, .int, .short] := by decide

/-- With the flag `ignorequals` the types are the same, and only messages on syntax are left out. -/
theorem C62_ignore (ws : List Word) :
    (completeType true ws).1 = (completeType false ws).1
    ∧ (completeType true ws).2 = (completeType false ws).2.filter (· = .dup) := by
  simp only [completeType, spec_ignore]
  exact ⟨trivial, trivial⟩

example : completeType true [.short, .long] = (.lint, [])
    ∧ completeType false [.short, .long] = (.lint, [.syntax]) := by decide

/-- Words with `short` twice are taken for an unsigned type. -/
theorem C62_short_twice (ignore : Bool) :
    ∀ ws ∈ [[Word.short, .short], [.short, .short, .int], [.short, .unsigned, .short],
        [.short, .unsigned, .short, .int], [.short, .short, .unsigned]],
      completeType ignore ws = (.uint, [.dup]) := by
  revert ignore
  decide

end Splint.TypeSpec
