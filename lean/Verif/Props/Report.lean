import Verif.Proofs.Report
/-!
# C06: the message limit loses no warning; C34: the exit status
-/
namespace Splint
open Spec Reporter

/-- Full statement of the accounting at the end of a run (kept in view): everything generated is
shown or announced.  The tool does not call `cleanupMessages` after the final global checks
(llmain.c:905-1187), so it is false, see `C06_full_is_false`. -/
def C06_full : Prop :=
  ∀ (limit : Int) (es : List Event),
    ((shownOf (run limit {} es).out).length : Int) + announced (run limit {} es).out =
      (freshMessages es).length

/-- For every limit and every history ending with a clean-up, the messages shown plus the
numbers announced as unprinted equal the number of distinct messages generated.  Missing: the
final phase of a run, which is not followed by a clean-up. -/
theorem C06_conservation_partial (limit : Int) (es : List Event) :
    ((shownOf (run limit {} (es ++ [.cleanup])).out).length : Int) +
      announced (run limit {} (es ++ [.cleanup])).out = (freshMessages es).length := by
  have h0 : Inv limit ({} : Reporter) := by simp [Reporter.Inv]
  obtain ⟨h1, h2, _⟩ := run_spec es _ h0
  have hc := (cleanup_spec h1).2.2.2.2.1
  have : run limit {} (es ++ [.cleanup]) = cleanup limit (run limit {} es) := by
    simp [run, List.foldl_append, step]
  rw [this, freshMessages_eq]
  simp only [total] at hc h2
  simp [shownOf, announced, pending] at h2
  simp [pending] at hc
  have : max 0 (-limit) = if limit < 0 then -limit else 0 := by split <;> omega
  split at h2 <;> split at hc <;> omega

/-- The only messages ever missing are those of the last group beyond the limit: at any moment
the difference is the number of messages pending for the next clean-up. -/
theorem C06_conservation_any_moment (limit : Int) (es : List Event) :
    ((shownOf (run limit {} es).out).length : Int) + announced (run limit {} es).out ≤
      (freshMessages es).length ∧
    (limit < 0 → ((shownOf (run limit {} es).out).length : Int) = (freshMessages es).length ∧
      announced (run limit {} es).out = 0) := by
  have h0 : Inv limit ({} : Reporter) := by simp [Reporter.Inv]
  obtain ⟨h1, h2, _⟩ := run_spec es _ h0
  rw [freshMessages_eq]
  have hp : 0 ≤ pending limit (run limit {} es) := by unfold pending; split <;> omega
  have hp0 : pending limit ({} : Reporter) = 0 := by simp only [pending]; split <;> simp; omega
  simp only [total] at h2
  simp only [shownOf, announced, List.length_nil, hp0] at h2
  refine ⟨by push_cast at h2 ⊢; omega, fun hl => ?_⟩
  have hann : ∀ (es : List Event) (s : Reporter), announced (run limit s es).out = announced s.out := by
    intro es
    induction es with
    | nil => intro s; rfl
    | cons e es ih =>
      intro s
      show announced (run limit (step limit s e) es).out = _
      rw [ih]
      cases e with
      | cleanup => simp [step, cleanup, hl]
      | msg l t b =>
        simp only [step]
        split
        · rfl
        · cases b <;> simp [emit, hl, print, announced_append, announced]
  have := hann es {}
  simp only [announced] at this
  refine ⟨?_, this⟩
  rw [this] at h2
  simp only [pending, hl, if_true] at h2
  push_cast at h2 ⊢
  omega

/-- What is shown are generated messages, each at most as often as generated, in order of
generation. -/
theorem C06_shown_in_order (limit : Int) (es : List Event) :
    (shownOf (run limit {} es).out).Sublist ((freshMessages es).map fun m => (m.1, m.2.1)) := by
  have h0 : Inv limit ({} : Reporter) := by simp [Reporter.Inv]
  obtain ⟨_, _, _, h⟩ := run_spec es _ h0
  rw [freshMessages_eq]
  simp only [shownOf] at h
  exact (List.sublist_append_left _ _).trans (by simpa using h)

/-- For every non-negative limit and every history of messages that fall into maximal groups
`gs` with the same text, the next clean-up has completed exactly the prescribed output: the
first `limit + 1` messages of each group, and then the only remaining one or the number of the
remaining ones. -/
theorem C06_groups (limit : Nat) (es : List Event) (hes : Event.cleanup ∉ es)
    (gs : List (List (FileLoc × Bytes × Bool))) (hgs : Groups none gs)
    (hfresh : freshMessages es = gs.flatten) :
    (run limit {} (es ++ [.cleanup])).out = gs.flatMap (groupOutput limit) := by
  have h0 : Inv limit ({} : Reporter) := by simp [Reporter.Inv]
  obtain ⟨log, hlog⟩ := run_no_cleanup (limit : Int) es hes {}
  have : run (limit : Int) {} (es ++ [.cleanup]) = cleanup limit (run limit {} es) := by
    simp [run, List.foldl_append, step]
  rw [this, hlog]
  have e : (freshFrom ([] : List MsgEntry) es) = gs.flatten := by rw [← freshMessages_eq, hfresh]
  rw [show (({} : Reporter).log) = [] from rfl, e]
  have hg := groups_cleanup (limit := limit) gs h0 hgs
  have hcl : ∀ (s : Reporter), (cleanup limit { s with log := log }).out = (cleanup limit s).out := by
    intro s; unfold cleanup; dsimp only; repeat' split
    all_goals simp_all
  rw [hcl, hg]
  have : (cleanup (limit : Int) {}).out = [] := by
    have : ¬ ((limit : Int) < 0) := by omega
    unfold cleanup; simp [this]
  rw [this, List.nil_append]

/-- The count used for the exit status is the number of distinct warnings generated, whatever
the limit. -/
theorem C06_total_counts_all (limit : Int) (es : List Event) :
    (run limit {} es).numerrors = warnings (freshMessages es) := by
  have h0 : Inv limit ({} : Reporter) := by simp [Reporter.Inv]
  obtain ⟨_, _, h, _⟩ := run_spec es _ h0
  rw [freshMessages_eq]
  simpa using h

private def at6 (l : Int) : FileLoc := some ⟨.normal, 1, l, 1, some 1⟩
private def w (l : Int) : Event := .msg (at6 l) [65] true

/-- The final checks of a run are not followed by a clean-up: with limit 1, four equal
warnings of the last phase show two and announce none of the other two. -/
theorem C06_full_is_false : ¬ C06_full := by
  intro h
  exact absurd (h 1 [w 1, w 2, w 3, w 4]) (by decide)

example : (run 1 {} ([w 1, w 2, w 3, w 4] ++ [.cleanup])).out =
    [.shown (at6 1) [65], .shown (at6 2) [65], .unprinted 2] := by decide
example : Groups none [[(at6 1, [65], true), (at6 2, [65], true)], [(at6 2, [66], true)]] := by
  simp [Groups]
example : freshMessages [w 1, w 2, w 1, .msg (at6 2) [66] true] =
    [[(at6 1, [65], true), (at6 2, [65], true)], [(at6 2, [66], true)]].flatten := by decide

/-! ## Exit status -/

/-- Full statement (kept in view); it is false, see `C34_spec_mismatch_succeeds`. -/
def C34_full : Prop := ∀ nspec lclexpect ncode expect nbugs : Int,
  0 ≤ nspec → 0 ≤ ncode → 0 ≤ nbugs →
  (expsuccess nspec lclexpect ncode expect nbugs = true ↔
    Meets nspec lclexpect ∧ Meets ncode expect ∧ nbugs = 0)

/-- The exact condition of success: code warnings as expected, no internal bugs, and
specification warnings as expected *or* a positive expected number with any positive number
of specification warnings. -/
theorem C34_exit_status_exact (nspec lclexpect ncode expect nbugs : Int)
    (h1 : 0 ≤ nspec) (h2 : 0 ≤ ncode) (h3 : 0 ≤ nbugs) :
    expsuccess nspec lclexpect ncode expect nbugs = true ↔
      (Meets nspec lclexpect ∨ (0 < nspec ∧ 0 < lclexpect)) ∧ Meets ncode expect ∧ nbugs = 0 := by
  unfold expsuccess Meets
  dsimp only
  repeat' split
  all_goals simp <;> omega

/-- Without specification files (no specification warnings are possible and none expected) the
exit status is success exactly when the code warnings are as expected and no bug was reported.
Missing: specification warnings, where the full statement fails. -/
theorem C34_exit_status_partial (ncode expect nbugs : Int) (h2 : 0 ≤ ncode) (h3 : 0 ≤ nbugs) :
    expsuccess 0 0 ncode expect nbugs = true ↔ Meets ncode expect ∧ nbugs = 0 := by
  rw [C34_exit_status_exact 0 0 ncode expect nbugs (by omega) h2 h3]
  simp [Meets]

/-- A run with a wrong number of specification warnings can exit successfully. -/
theorem C34_spec_mismatch_succeeds : expsuccess 7 3 0 0 0 = true ∧ ¬ Meets 7 3 := by
  constructor
  · decide
  · simp [Meets]

theorem C34_full_is_false : ¬ C34_full := by
  intro h
  exact C34_spec_mismatch_succeeds.2
    ((h 7 3 0 0 0 (by omega) (by omega) (by omega)).1 C34_spec_mismatch_succeeds.1).1

/-- End to end: for every history of messages and every message limit, a run without
specification files succeeds exactly when the number of distinct warnings generated (printed or
not) is the expected number and no internal bug was reported. -/
theorem C34_run_succeeds_iff (limit : Int) (es : List Event) (expect nbugs : Int)
    (h3 : 0 ≤ nbugs) :
    expsuccess 0 0 (run limit {} es).numerrors expect nbugs = true ↔
      Meets (warnings (freshMessages es)) expect ∧ nbugs = 0 := by
  rw [C06_total_counts_all, C34_exit_status_partial _ _ _ (by simp [warnings]) h3]

example : expsuccess 0 0 (run 0 {} [w 1, w 2, w 3]).numerrors 3 0 = true := by decide
example : expsuccess 2 2 5 5 0 = true ∧ expsuccess 0 2 5 5 0 = false ∧
    expsuccess 2 2 5 4 0 = false ∧ expsuccess 2 2 5 5 1 = false ∧ expsuccess 2 0 5 5 0 = false := by
  decide

#print axioms C06_conservation_partial
#print axioms C06_conservation_any_moment
#print axioms C06_shown_in_order
#print axioms C06_groups
#print axioms C06_total_counts_all
#print axioms C06_full_is_false
#print axioms C34_exit_status_exact
#print axioms C34_exit_status_partial
#print axioms C34_spec_mismatch_succeeds
#print axioms C34_full_is_false
#print axioms C34_run_succeeds_iff
end Splint
