import Verif.Proofs.Split
/-!
# C07: breaking messages into lines
-/
namespace Splint
open Spec Split

/-- Full statement (kept in view): wrapping ends for every text, line length and indentation.
It is false, see `C07_wrap_can_hang`. -/
def C07_terminates_full : Prop :=
  ∀ (s : Bytes) (maxlen : Int) (indent : Nat), ∃ fuel lines,
    printIndentMessage fuel s maxlen indent = some lines

/-- Whatever is printed is a correct layout of the text: each line is the indented next part of
the text, only a single blank, a newline or a newline with an indentation mark is dropped
between lines, and no line is longer than the line length (which is at least 20). -/
theorem C07_layout (fuel : Nat) (s : Bytes) (maxlen : Int) (indent : Nat) (lines : List Bytes)
    (h : printIndentMessage fuel s maxlen indent = some lines) :
    Layout indent s lines ∧ ∀ l ∈ lines, (l.length : Int) ≤ max maxlen 20 := by
  obtain ⟨ps, rfl, hl, hw⟩ := loop_layout 0 maxlen fuel s indent lines h
  simp only [List.replicate_zero, List.nil_append, List.map_id']
  refine ⟨hl, fun l hm => ?_⟩
  have := hw l hm
  simp only [effLen, minLineLen] at this
  omega

/-- No visible character is lost, added or moved. -/
theorem C07_text_preserved (fuel : Nat) (s : Bytes) (maxlen : Int) (indent : Nat)
    (lines : List Bytes) (h : printIndentMessage fuel s maxlen indent = some lines) :
    ink lines.flatten = ink s :=
  layout_ink (C07_layout fuel s maxlen indent lines h).1

/-- Wrapping ends after at most one line more than the text has characters, provided the
indentation (with all indentation marks) is at most 4 or leaves 21 columns of the line.
Missing: larger indentations, where it can hang. -/
theorem C07_terminates_partial (s : Bytes) (maxlen : Int) (indent : Nat)
    (hi : ((indent + marks s : Nat) : Int) ≤ max 4 (maxlen - 21)) :
    ∃ lines, printIndentMessage (s.length + 1) s maxlen indent = some lines ∧
      lines.length ≤ s.length + 1 := by
  obtain ⟨lines, hl⟩ := loop_terminates 0 maxlen (s.length + 1) s indent
    (by simp only [effLen, minLineLen]; omega) (by omega)
  refine ⟨lines, hl, ?_⟩
  have : ∀ (fuel : Nat) (s : Bytes) (indent : Nat) (lines : List Bytes),
      loop 0 maxlen fuel s indent = some lines → lines.length ≤ fuel := by
    intro fuel
    induction fuel with
    | zero => intro s i l h; simp [loop] at h
    | succ n ih =>
      intro s i l h
      simp only [loop] at h
      split at h
      · cases h; simp
      · rw [Option.map_eq_some_iff] at h
        obtain ⟨ls, hls, rfl⟩ := h
        have := ih _ _ _ hls
        simp; omega
  exact this _ _ _ _ hl

/-- With a line length of 20 and an indentation of 5 (`-linelen 20 -indentspaces 6`), a word of
16 letters makes the wrapping loop run forever: each round prints four blanks and is left with
the same text. -/
theorem C07_wrap_can_hang :
    ∀ fuel, printIndentMessage fuel (List.replicate 16 97) 20 5 = none := by
  intro fuel
  induction fuel with
  | zero => rfl
  | succ n ih =>
    have h : split (List.replicate 16 97) 20 5 =
        (List.replicate 4 32, some (List.replicate 16 97), 5) := by decide
    simp only [printIndentMessage, loop, h] at ih ⊢
    rw [ih]; rfl

theorem C07_terminates_full_is_false : ¬ C07_terminates_full := by
  intro h
  obtain ⟨fuel, lines, hl⟩ := h (List.replicate 16 97) 20 5
  rw [C07_wrap_can_hang] at hl
  cases hl

/-- Warnings (`printError`): the lines are a correct layout of the text, where all lines but the
first are moved right by a common number of columns. -/
theorem C07_printError_layout (fuel : Nat) (sc : Bytes) (maxlen : Int) (fll : Nat)
    (lines : List Bytes) (h : printError fuel sc maxlen fll = some lines) :
    ∃ pre p ps, lines = p :: ps.map (List.replicate pre 32 ++ ·) ∧ Layout 0 sc (p :: ps) := by
  have main : ∀ (pre : Nat) (nextlen : Int),
      (match split sc maxlen 0 with
        | (p, none, _) => some [p]
        | (p, some t, i) => (loop pre nextlen fuel t i).map (p :: ·)) = some lines →
      ∃ pre p ps, lines = p :: ps.map (List.replicate pre 32 ++ ·) ∧ Layout 0 sc (p :: ps) := by
    intro pre nextlen h
    have hg := split_good sc maxlen 0
    split at h
    · rename_i p i heq
      rw [heq] at hg
      obtain ⟨_, sep, h2, h3, _⟩ := hg
      cases h
      exact ⟨pre, p, [], by simp, Layout.last _ _ _ sep h2 (by simpa using h3)⟩
    · rename_i p t i heq
      rw [heq] at hg
      obtain ⟨_, sep, h2, h3, h4, _⟩ := hg
      rw [Option.map_eq_some_iff] at h
      obtain ⟨ls, hls, rfl⟩ := h
      obtain ⟨ps, rfl, hl, _⟩ := loop_layout _ _ _ _ _ _ hls
      simp only [Option.isSome_some, if_true] at h4
      subst h4
      exact ⟨pre, p, ps, rfl, Layout.more _ _ _ sep t _ h2 (by simpa using h3) hl⟩
  unfold printError at h
  dsimp only at h
  split at h
  · rename_i houter
    have hg := split_good sc maxlen 0
    split at h
    · rename_i p i heq
      rw [heq] at hg
      obtain ⟨_, sep, h2, h3, _⟩ := hg
      cases h
      exact ⟨0, p, [], by simp, Layout.last _ _ _ sep h2 (by simpa using h3)⟩
    · rename_i p t i heq
      split at h
      · rename_i hcond
        rw [heq] at hg
        obtain ⟨_, sep, h2, h3, h4, _⟩ := hg
        cases h
        simp only [Option.isSome_some, if_true] at h4
        refine ⟨4, p, [t], by simp, Layout.more _ _ _ sep t _ h2 (by simpa using h3) ?_⟩
        have hz : indentAfter 0 sep = 0 := by
          rcases h2 with rfl | rfl | rfl | rfl | ⟨k, _, _, rfl⟩ <;> try rfl
          simp at houter h3
          exact absurd (by rw [h3]; simp) houter.2
        rw [hz]
        exact Layout.last _ _ _ [] (by simp [Separator]) (by simp)
      · apply main (fll + 5) (maxlen - (fll + 5 : Nat))
        rw [heq]; exact h
  · split at h
    · exact main _ _ h
    · exact main 4 _ h

/-- Warnings lose no visible character. -/
theorem C07_printError_text_preserved (fuel : Nat) (sc : Bytes) (maxlen : Int) (fll : Nat)
    (lines : List Bytes) (h : printError fuel sc maxlen fll = some lines) :
    ink lines.flatten = ink sc := by
  obtain ⟨pre, p, ps, rfl, hl⟩ := C07_printError_layout fuel sc maxlen fll lines h
  have := layout_ink hl
  rw [← this]
  simp only [List.flatten_cons, ink_append]
  congr 1
  clear this hl h
  induction ps with
  | nil => rfl
  | cons q qs ih => simp [ink_append, ink_spaces, ih]

/-- Printing a warning whose text has indentation marks of at most 4 in total (in particular
every text without marks) terminates, for every line length and position width. -/
theorem C07_printError_terminates (sc : Bytes) (maxlen : Int) (fll : Nat) (hm : marks sc ≤ 4) :
    ∃ lines, printError (sc.length + 1) sc maxlen fll = some lines := by
  have main : ∀ (pre : Nat) (nextlen : Int), ∃ lines,
      (match split sc maxlen 0 with
        | (p, none, _) => some [p]
        | (p, some t, i) => (loop pre nextlen (sc.length + 1) t i).map (p :: ·)) = some lines := by
    intro pre nextlen
    have hg := split_good sc maxlen 0
    split
    · exact ⟨_, rfl⟩
    · rename_i p t i heq
      rw [heq] at hg
      obtain ⟨_, sep, h2, h3, h4, h5⟩ := hg
      have hlt := h5 (by omega) t rfl
      have hm' := congrArg marks h3
      simp only [Option.getD_some, marks_append, marks_spaces] at hm'
      simp only [Option.isSome_some, if_true] at h4
      have := indentAfter_le 0 sep h2
      obtain ⟨ls, hls⟩ := loop_terminates pre nextlen (sc.length + 1) t i (by omega) (by omega)
      exact ⟨_, by rw [hls]; rfl⟩
  unfold printError
  dsimp only
  split
  · have := main (fll + 5) (maxlen - (fll + 5 : Nat))
    split
    · exact ⟨_, rfl⟩
    · rename_i p t i heq
      split
      · exact ⟨_, rfl⟩
      · rw [heq] at this; exact this
  · split
    · exact main _ _
    · exact main 4 _

/-- A warning without newline keeps within the line length when the line has room for the
position, five blanks and 20 characters.  Missing: texts with newlines, where it fails. -/
theorem C07_printError_width_partial (fuel : Nat) (sc : Bytes) (maxlen : Int) (fll : Nat)
    (lines : List Bytes) (h : printError fuel sc maxlen fll = some lines)
    (hnl : 10 ∉ sc) (hroom : (fll : Int) + 25 ≤ maxlen) :
    ∀ l ∈ lines, (l.length : Int) ≤ maxlen := by
  have main : ∀ (pre : Nat) (nextlen : Int), nextlen = maxlen - pre → 20 ≤ nextlen →
      (match split sc maxlen 0 with
        | (p, none, _) => some [p]
        | (p, some t, i) => (loop pre nextlen fuel t i).map (p :: ·)) = some lines →
      ∀ l ∈ lines, (l.length : Int) ≤ maxlen := by
    intro pre nextlen hn hn' h
    have hg := split_good sc maxlen 0
    split at h
    · rename_i p i heq
      rw [heq] at hg
      cases h
      have := hg.1
      simp only [effLen, minLineLen] at this
      simp; omega
    · rename_i p t i heq
      rw [heq] at hg
      have h1 := hg.1
      simp only [effLen, minLineLen] at h1
      rw [Option.map_eq_some_iff] at h
      obtain ⟨ls, hls, rfl⟩ := h
      obtain ⟨ps, rfl, _, hw⟩ := loop_layout _ _ _ _ _ _ hls
      intro l hl
      rcases List.mem_cons.1 hl with rfl | hl
      · omega
      · obtain ⟨q, hq, rfl⟩ := List.mem_map.1 hl
        have := hw q hq
        simp only [effLen, minLineLen] at this
        simp; omega
  unfold printError at h
  dsimp only at h
  split at h
  · have hg := split_good sc maxlen 0
    split at h
    · rename_i p i heq
      rw [heq] at hg
      cases h
      have := hg.1
      simp only [effLen, minLineLen] at this
      simp; omega
    · rename_i p t i heq
      split at h
      · rename_i hcond
        rw [heq] at hg
        have h1 := hg.1
        simp only [effLen, minLineLen] at h1
        cases h
        simp at hcond
        simp; omega
      · refine main (fll + 5) (maxlen - (fll + 5 : Nat)) rfl (by omega) ?_
        rw [heq]; exact h
  · split at h
    · rename_i hc
      simp [hnl] at hc
    · exact main 4 _ rfl (by omega) h

/-- A short warning with a newline is moved so far right that it exceeds the line length. -/
theorem C07_printError_too_wide :
    ∃ (sc : Bytes) (lines : List Bytes), printError 10 sc 80 10 = some lines ∧
      ∃ l ∈ lines, 80 < l.length :=
  ⟨[120, 10] ++ List.replicate 20 97, [[120], List.replicate 68 32 ++ List.replicate 20 97],
    by decide +kernel, by decide +kernel⟩

-- non-vacuity
example : printIndentMessage 100 ((List.replicate 18 97) ++ [32] ++ List.replicate 30 98) 20 3 =
    some [List.replicate 3 32 ++ List.replicate 17 97, List.replicate 3 32 ++ [97],
          List.replicate 3 32 ++ List.replicate 17 98, List.replicate 3 32 ++ List.replicate 13 98] := by
  decide
example : (((3 + marks (List.replicate 100 97) : Nat)) : Int) ≤ max 4 (80 - 21) := by decide
example : Layout 2 [97, 10, 3, 98] [[32, 32, 97], [32, 32, 32, 32, 32, 98]] :=
  Layout.more 2 _ _ [10, 3] [98] _ (by simp [Separator]) (by decide)
    (Layout.last _ _ _ [] (by simp [Separator]) (by decide))

#print axioms C07_layout
#print axioms C07_text_preserved
#print axioms C07_terminates_partial
#print axioms C07_wrap_can_hang
#print axioms C07_terminates_full_is_false
#print axioms C07_printError_layout
#print axioms C07_printError_text_preserved
#print axioms C07_printError_terminates
#print axioms C07_printError_width_partial
#print axioms C07_printError_too_wide
end Splint
