import Verif.Spec.FileLoc
/-!
# C01: source positions are ordered by file, line and column
-/
namespace Splint
open Spec

private def at_ (k : FlKind) (a l c : Int) : FileLoc := some ⟨k, a, l, c, some a⟩

/-- **C01.** The comparison orders positions by file, line and column. -/
def C01_full : Prop := ∀ f g : FileLoc, (f.compare g < 0 ↔ Before (place f) (place g)) ∧ (f.compare g = 0 ↔ place f = place g)

/-- A file and its preprocessed text have different numbers. Positions before the first #include have the
number of the text (`context_setFilename` sees the same file and changes the line only, context.c:4294), those
after it that of the file (4330): line 2 of the file is after line 50. -/
theorem C01_full_is_false : ¬ C01_full := by
  intro h
  have := (h (some ⟨.normal, 7, 2, 1, some 1⟩) (some ⟨.normal, 1, 50, 1, some 1⟩)).1.2 (by simp [place, Before])
  exact absurd this (by decide)

/-- The three-way comparison is negative exactly when the first position is numbered before the second. -/
theorem C01_compare_number_neg_iff (f g : FileLoc) : f.compare g < 0 ↔ Before (number f) (number g) := by
  rcases f with _ | ⟨k, a, l, c, x⟩ <;> rcases g with _ | ⟨k', a', l', c', x'⟩ <;>
    simp [FileLoc.compare, number, Before, FileLoc.intCompare]
  repeat' split
  all_goals (simp <;> omega)

theorem C01_compare_number_zero_iff (f g : FileLoc) : f.compare g = 0 ↔ number f = number g := by
  rcases f with _ | ⟨k, a, l, c, x⟩ <;> rcases g with _ | ⟨k', a', l', c', x'⟩ <;>
    simp [FileLoc.compare, number, FileLoc.intCompare]
  repeat' split
  all_goals (simp <;> omega)

theorem number_plain {f : FileLoc} (h : Plain f) : number f = place f := by
  rcases f with _ | r
  · rfl
  · simp only [number, place, Option.map_some, h r rfl, Option.getD_some]

/-- For files that are not derived: the comparison is negative exactly when the first place is before the
second. Missing: files derived from others. -/
theorem C01_compare_neg_partial (f g : FileLoc) (hf : Plain f) (hg : Plain g) : f.compare g < 0 ↔ Before (place f) (place g) := by
  rw [C01_compare_number_neg_iff, number_plain hf, number_plain hg]

/-- It is zero exactly for equal places, whatever the kinds of the positions. -/
theorem C01_compare_zero_partial (f g : FileLoc) (hf : Plain f) (hg : Plain g) : f.compare g = 0 ↔ place f = place g := by
  rw [C01_compare_number_zero_iff, number_plain hf, number_plain hg]

/-- Exchanging the arguments exactly negates the answer; the answers are -1, 0 and 1. -/
theorem C01_compare_antisymm (f g : FileLoc) :
    g.compare f = - f.compare g ∧ (f.compare g = -1 ∨ f.compare g = 0 ∨ f.compare g = 1) := by
  rcases f with _ | ⟨k, a, l, c, x⟩ <;> rcases g with _ | ⟨k', a', l', c', x'⟩ <;>
    simp [FileLoc.compare, FileLoc.intCompare]
  repeat' split
  all_goals first | omega | simp

/-- The comparison is transitive. -/
theorem C01_compare_trans (f g h : FileLoc)
    (h1 : f.compare g ≤ 0) (h2 : g.compare h ≤ 0) : f.compare h ≤ 0 := by
  have key : ∀ f g : FileLoc, f.compare g ≤ 0 ↔ (Before (number f) (number g) ∨ number f = number g) := by
    intro f g
    rw [← C01_compare_number_neg_iff, ← C01_compare_number_zero_iff]; omega
  rw [key] at *
  rcases f with _ | ⟨k, a, l, c, x⟩ <;> rcases g with _ | ⟨k', a', l', c', x'⟩ <;>
    rcases h with _ | ⟨k'', a'', l'', c'', x''⟩ <;> simp_all [number, Before]
  omega

/-- The strict test is the strict order restricted to defined positions. -/
theorem C01_lessthan_partial (f g : FileLoc) (hf : Plain f) (hg : Plain g) :
    f.lessthan g = true ↔ f ≠ none ∧ g ≠ none ∧ Before (place f) (place g) := by
  rw [← number_plain hf, ← number_plain hg]
  rcases f with _ | ⟨k, a, l, c, x⟩ <;> rcases g with _ | ⟨k', a', l', c', x'⟩ <;>
    simp [FileLoc.lessthan, number, Before]

/-- `notAfter`, used to decide whether a control comment precedes a warning: among positions with one
number it is "before or at"; otherwise it always answers true, for a file and its preprocessed text too; it is
false as soon as a position is unknown. -/
theorem C01_notAfter_iff (f g : FileLoc) :
    f.notAfter g = true ↔
      ∃ r s, f = some r ∧ g = some s ∧ (r.fid ≠ s.fid ∨ ¬ Before (number g) (number f)) := by
  rcases f with _ | ⟨k, a, l, c, x⟩ <;> rcases g with _ | ⟨k', a', l', c', x'⟩ <;>
    simp [FileLoc.notAfter, number, Before]
  by_cases hk : a = a'
  · subst hk; simp; omega
  · simp [hk]

/-- For files that are not derived, within one file it is "before or at". -/
theorem C01_notAfter_partial (f g : FileLoc) (hf : Plain f) (hg : Plain g) :
    f.notAfter g = true ↔
      ∃ r s, f = some r ∧ g = some s ∧ (r.root ≠ s.root ∨ ¬ Before (place g) (place f)) := by
  rw [C01_notAfter_iff]
  constructor
  · rintro ⟨r, s, rfl, rfl, h⟩
    refine ⟨r, s, rfl, rfl, ?_⟩
    rw [← number_plain hf, ← number_plain hg, hf r rfl, hg s rfl]
    simpa using h
  · rintro ⟨r, s, rfl, rfl, h⟩
    refine ⟨r, s, rfl, rfl, ?_⟩
    rw [← number_plain hf, ← number_plain hg, hf r rfl, hg s rfl] at h
    simpa using h

/-- A line after the first #include is "not after" a line before it. -/
theorem C01_notAfter_wrong : ∃ r s : FlRec, r.root = s.root ∧ s.lineno < r.lineno ∧ FileLoc.notAfter (some r) (some s) = true :=
  ⟨⟨.normal, 1, 50, 1, some 1⟩, ⟨.normal, 7, 2, 1, some 1⟩, rfl, by decide, by decide⟩

/-- Two positions are "equal" exactly when they denote the same place in a file and neither is in a
library (both unknown also counts). -/
theorem C01_equal_iff (f g : FileLoc) :
    f.equal g = true ↔ (f = none ∧ g = none) ∨
      ∃ r s a, f = some r ∧ g = some s ∧ r.root = some a ∧ s.root = some a ∧ place f = place g ∧ ¬ InLibrary f ∧ ¬ InLibrary g := by
  rcases f with _ | ⟨k, a, l, c, x⟩ <;> rcases g with _ | ⟨k', a', l', c', x'⟩ <;>
    simp [FileLoc.equal]
  rcases x with _ | x <;> rcases x' with _ | x' <;> simp [place, InLibrary, FileLoc.sameFile, FileLoc.isLib, FileLoc.sameBase]
  constructor
  · rintro ⟨h1, h2, ⟨⟨h3, h4⟩, h5⟩, h6⟩; simp_all
  · rintro ⟨h0, ⟨h1, h2⟩, h4, h5⟩; simp_all

/-- The equality test is therefore not reflexive: a position in a system header differs
from its own copy. -/
theorem C01_equal_not_refl : ∃ f : FileLoc, f ≠ none ∧ f.equal f.copy = false :=
  ⟨at_ .stdhdr 3 10 2, by decide, by decide⟩

/-- `withinLines f g n`: same non-library file and `g` on one of the lines `l..l+n`. -/
theorem C01_withinLines_iff (f g : FileLoc) (n : Int) :
    f.withinLines g n = true ↔
      ∃ r s a, f = some r ∧ g = some s ∧ r.root = some a ∧ s.root = some a ∧ ¬ InLibrary f ∧ ¬ InLibrary g ∧
        r.lineno ≤ s.lineno ∧ s.lineno ≤ r.lineno + n := by
  rcases f with _ | ⟨k, a, l, c, x⟩ <;> rcases g with _ | ⟨k', a', l', c', x'⟩ <;>
    simp [FileLoc.withinLines]
  rcases x with _ | x <;> rcases x' with _ | x' <;> simp [InLibrary, FileLoc.sameFile, FileLoc.isLib, FileLoc.sameBase]
  constructor
  · rintro ⟨⟨h1, h2⟩, ⟨⟨h3, h4⟩, h5⟩, h6⟩; simp_all
  · rintro ⟨h1, h2, h3, h4, h5⟩; simp_all

/-- `sameFileAndLine`: same non-library file and same line. -/
theorem C01_sameFileAndLine_iff (f g : FileLoc) :
    f.sameFileAndLine g = true ↔
      ∃ r s a, f = some r ∧ g = some s ∧ r.root = some a ∧ s.root = some a ∧ r.lineno = s.lineno ∧
        ¬ InLibrary f ∧ ¬ InLibrary g := by
  rcases f with _ | ⟨k, a, l, c, x⟩ <;> rcases g with _ | ⟨k', a', l', c', x'⟩ <;>
    simp [FileLoc.sameFileAndLine, FileLoc.sameFile]
  rcases x with _ | x <;> rcases x' with _ | x' <;> simp [InLibrary, FileLoc.isLib, FileLoc.sameBase]
  constructor
  · rintro ⟨⟨⟨⟨h3, h4⟩, h5⟩, h6⟩, h7⟩; simp_all
  · rintro ⟨h1, h2, h3, h4, h5⟩; simp_all

/-- Moving to the next line, or right on a line, moves strictly forward in the order. -/
theorem C01_advance (f : FileLoc) (h : f ≠ none) (n : Int) (hn : 0 < n) :
    Before (place f) (place f.nextLine) ∧ Before (place f) (place (f.addColumn n)) ∧
      Before (place f) (place (f.addLine n)) := by
  rcases f with _ | ⟨k, a, l, c, x⟩ <;> simp [FileLoc.nextLine, FileLoc.addColumn, FileLoc.addLine,
    place, Before] at *
  omega

/-- Moving left by `x` columns either fails its assertion or moves back exactly `x` columns
and stays on a positive column. -/
theorem C01_decColumn (f : FileLoc) (x : Int) (hx : 0 < x) (g : FileLoc) :
    f.decColumn x = some g ↔
      (f = none ∧ g = none) ∨ ∃ r, f = some r ∧ 0 < r.column - x ∧
        g = some { r with column := r.column - x } := by
  have h0 : ¬ x < 0 := by omega
  rcases f with _ | ⟨k, a, l, c, x⟩
  · simp [FileLoc.decColumn, h0, eq_comm]
  · simp only [FileLoc.decColumn, h0, if_false]
    simp only [gt_iff_lt, hx, if_true]
    split
    · simp [eq_comm]; omega
    · simp; intro h; omega

example : (at_ .normal 1 2 3).compare (at_ .normal 1 2 4) = -1 := by decide
example : ∃ f g h : FileLoc, f.compare g ≤ 0 ∧ g.compare h ≤ 0 ∧ f ≠ g ∧ g ≠ h :=
  ⟨none, at_ .normal 1 9 1, at_ .normal 2 1 1, by decide⟩
example : (at_ .normal 1 2 3).notAfter (at_ .normal 1 2 3) = true ∧
    (at_ .normal 1 2 4).notAfter (at_ .normal 1 2 3) = false ∧
    (at_ .normal 1 2 4).notAfter (at_ .normal 2 1 1) = true := by decide
example : (at_ .normal 1 2 5).decColumn 3 = some (at_ .normal 1 2 2) ∧
    (at_ .normal 1 2 3).decColumn 3 = none := by decide

end Splint
