import Mathlib.Data.List.Induction
import Verif.Proofs.FlagMarkersQuery
/-!
# C03, C04, C05: control comments

The specification is Spec/FlagMarkers.lean.
-/
namespace Splint.FlagMarkers

/-- File numbers tell files apart. -/
def plainEnv : FileEnv := ⟨fun _ => false, fun _ => false, fun _ => []⟩

theorem plainEnv_plain : Plain plainEnv := ⟨fun _ => rfl, fun _ => rfl⟩

/-! ## All histories -/

/-- C03, C04: in every history of well placed comments no assertion fails and every question is
answered as the specification says. Missing for the full claims: histories that are not well placed
(see the witnesses below). -/
theorem C03_C04_answers_partial (env : FileEnv) (he : Plain env) (nc : Int) (isName : Int → Bool)
    (es : List PEvent) (hok : HistoryOk nc isName [] es) :
    ∃ s, run env nc isName [] (es.map PEvent.event) = some (s, (specRun nc isName [] es).2) := by
  obtain ⟨s, bs, h, -⟩ := run_rep he nc isName es rep_nil hok
  exact ⟨s, h⟩

/-- C05: after every history of well placed comments and questions, the check of the counts passes
its assertions, and complains about exactly the counted comments with a positive count that differs
from the number of questions they answered with "suppressed". -/
theorem C05_counts_partial (env : FileEnv) (he : Plain env) (nc : Int) (isName : Int → Bool)
    (es : List PEvent) (hok : HistoryOk nc isName [] es) :
    ∃ s a l, run env nc isName [] (es.map PEvent.event) = some (s, a) ∧
      checkCounts s none = some l ∧ l.Perm (wrongCounts (specRun nc isName [] es).1) := by
  obtain ⟨s, bs, h, hr⟩ := run_rep he nc isName es rep_nil hok
  obtain ⟨l, h1, h2⟩ := checkCounts_rep hr
  exact ⟨s, _, l, h, h1, h2⟩

/-- Is the event a question about the rest of the line `line` of `file` from `col` on? -/
def PEvent.asksAbout (p : Pos) : PEvent → Bool
  | .comment _ _ => false
  | .zone q => decide (p.file = q.file ∧ p.line = q.line ∧ p.col ≤ q.col)
  | .warn _ q => decide (p.file = q.file ∧ p.line = q.line ∧ p.col ≤ q.col)

theorem specRun_append (nc : Int) (isName : Int → Bool) (es es' : List PEvent) (S : List Rec) :
    (specRun nc isName S (es ++ es')).1 = (specRun nc isName (specRun nc isName S es).1 es').1 := by
  induction es generalizing S with
  | nil => rfl
  | cons e es ih => simp only [List.cons_append, specRun, ih]

/-- The events after a comment is read add up its count. -/
theorem hits_after (nc : Int) (isName : Int → Bool) (es : List PEvent) (S : List Rec) (r : Rec)
    (hr : r ∈ S) (hc : r.c.isCount = true) :
    { r with hits := r.hits + (es.filter (PEvent.asksAbout r.p)).length } ∈
      (specRun nc isName S es).1 := by
  induction es generalizing S r with
  | nil => simpa [specRun] using hr
  | cons e es ih =>
    simp only [specRun]
    cases e with
    | comment c p =>
      have : r ∈ record S c p := by
        unfold record; split
        · exact hr
        · simp [hr]
      simpa [specStep, PEvent.asksAbout, List.filter_cons] using ih _ r this hc
    | zone q =>
      have h1 : hitRec q r ∈ hit S q := by rw [hit_eq]; exact List.mem_map.2 ⟨r, hr, rfl⟩
      by_cases hcov : r.covers q = true
      · have hq := (covers_iff _ _).1 hcov
        have := ih _ (hitRec q r) h1 (by simp [hitRec, hcov, hc])
        simp only [hitRec, hcov, if_true] at this
        simp only [specStep, List.filter_cons, PEvent.asksAbout, hq.2, and_self, decide_true,
          if_true, List.length_cons]
        convert this using 2
        omega
      · rw [hitRec_not hcov] at h1
        have := ih _ r h1 hc
        have hn : ¬ (r.p.file = q.file ∧ r.p.line = q.line ∧ r.p.col ≤ q.col) := by
          rw [covers_iff] at hcov; tauto
        simpa only [specStep, List.filter_cons, PEvent.asksAbout, hn, decide_false,
          Bool.false_eq_true, if_false] using this
    | warn code q =>
      have h1 : hitRec q r ∈ hit S q := by rw [hit_eq]; exact List.mem_map.2 ⟨r, hr, rfl⟩
      by_cases hcov : r.covers q = true
      · have hq := (covers_iff _ _).1 hcov
        have := ih _ (hitRec q r) h1 (by simp [hitRec, hcov, hc])
        simp only [hitRec, hcov, if_true] at this
        simp only [specStep, List.filter_cons, PEvent.asksAbout, hq.2, and_self, decide_true,
          if_true, List.length_cons]
        convert this using 2
        omega
      · rw [hitRec_not hcov] at h1
        have := ih _ r h1 hc
        have hn : ¬ (r.p.file = q.file ∧ r.p.line = q.line ∧ r.p.col ≤ q.col) := by
          rw [covers_iff] at hcov; tauto
        simpa only [specStep, List.filter_cons, PEvent.asksAbout, hn, decide_false,
          Bool.false_eq_true, if_false] using this

/-- C05, in terms of the history: if a positive count is read for the first time between `es1` and
`es2`, and the number of later questions about the rest of its line differs from it, there is a
complaint that names the comment, the count and the number. -/
theorem C05_complaint_partial (env : FileEnv) (he : Plain env) (nc : Int) (isName : Int → Bool)
    (es1 es2 : List PEvent) (n : Int) (p : Pos)
    (hok : HistoryOk nc isName [] (es1 ++ .comment (.count n) p :: es2)) (hn : n > 0)
    (hnew : ∀ r ∈ (specRun nc isName [] es1).1, ¬ (r.c = .count n ∧ r.p = p))
    (hdiff : n ≠ ((es2.filter (PEvent.asksAbout p)).length : Int)) :
    ∃ s a l, run env nc isName [] ((es1 ++ .comment (.count n) p :: es2).map PEvent.event) =
        some (s, a) ∧ checkCounts s none = some l ∧
      ⟨p.loc, n, (es2.filter (PEvent.asksAbout p)).length⟩ ∈ l := by
  obtain ⟨s, a, l, h1, h2, h3⟩ := C05_counts_partial env he nc isName _ hok
  refine ⟨s, a, l, h1, h2, h3.mem_iff.2 ?_⟩
  rw [specRun_append]
  simp only [specRun, specStep]
  have hin : (⟨.count n, p, 0⟩ : Rec) ∈ record (specRun nc isName [] es1).1 (.count n) p := by
    unfold record
    rw [if_neg (by rintro ⟨r, hr, h⟩; exact hnew r hr h)]
    simp
  have := hits_after nc isName es2 _ _ hin rfl
  simp only [Nat.zero_add] at this
  rw [wrongCounts_eq]
  refine List.mem_filterMap.2 ⟨_, this, ?_⟩
  simp [complaint, hn, hdiff]

/-- The number of answers recorded for a comment is never more than asked: all complaints are about
comments that were read. -/
theorem C05_only_read (env : FileEnv) (he : Plain env) (nc : Int) (isName : Int → Bool)
    (es : List PEvent) (hok : HistoryOk nc isName [] es) (s : List Marker) (a : List Answer)
    (h : run env nc isName [] (es.map PEvent.event) = some (s, a)) (l : List Complaint)
    (hl : checkCounts s none = some l) (c : Complaint) (hc : c ∈ l) :
    ∃ r ∈ (specRun nc isName [] es).1, r.c = .count c.expected ∧ r.p.loc = c.loc ∧
      r.hits = c.found ∧ c.expected > 0 ∧ c.expected ≠ (c.found : Int) := by
  obtain ⟨s', a', l', h1, h2, h3⟩ := C05_counts_partial env he nc isName es hok
  rw [h1] at h; cases h
  rw [h2] at hl; cases hl
  have := h3.mem_iff.1 hc
  rw [wrongCounts_eq] at this
  obtain ⟨r, hr, hrc⟩ := List.mem_filterMap.1 this
  refine ⟨r, hr, ?_⟩
  unfold complaint at hrc
  cases hcc : r.c with
  | count n =>
    rw [hcc] at hrc
    simp only at hrc
    split at hrc
    · rename_i hn
      cases hrc
      exact ⟨rfl, rfl, rfl, hn.1, hn.2⟩
    · cases hrc
  | _ => rw [hcc] at hrc; cases hrc

/-! ## What the specification says -/

/-- C03: outside the lines of counted comments, and when no counted comment is placed inside a
region, a place is in a suppressed region exactly when a region was begun before it and not ended
by an `end` comment in between. -/
theorem C03_region_partial (S : List Rec) (q : Pos) (hc : ∀ r ∈ S, r.covers q = false)
    (hin : ∀ l1 r l2, upTo S q = l1 ++ r :: l2 → r.c.isCount = true → regionBegun l1 = false) :
    inRegion S q = regionBegun (upTo S q) := by
  have hany : S.any (fun r => r.covers q) = false := by
    rw [List.any_eq_false]; intro r hr; simp [hc r hr]
  unfold inRegion
  rw [hany, Bool.false_or]
  generalize upTo S q = l at hin
  have key : ∀ l1 l2 : List Rec, l = l1 ++ l2 → regionOpen l1 = regionBegun l1 := by
    intro l1
    induction l1 using List.reverseRecOn with
    | nil => intro _ _; rfl
    | append_singleton l1 r ih =>
      intro l2 hl
      have ih := ih (r :: l2) (by simp [hl])
      have hr := hin l1 r l2 (by simp [hl])
      unfold regionOpen regionBegun at *
      rw [List.foldl_append, List.foldl_append, ih]
      simp only [List.foldl_cons, List.foldl_nil]
      cases hcc : r.c with
      | count n => rw [hcc] at hr; simp only; exact (hr rfl).symm
      | _ => rfl
  exact key l [] (by simp)

/-- C04: a message for a flag that is not about names, outside every region, is governed by the last
local setting of the flag at or before it; without one, by the command line. -/
theorem C04_last_setting (nc : Int) (S : List Rec) (code : Int) (q : Pos)
    (h : inRegion S q = false) :
    suppressed nc false S code q = verdict (lastSetting code (upTo S q)) := by
  simp [suppressed, h]

/-- C04: a message for a flag about names is suppressed if the last setting of the flag, or of the
flag for all names, is off; otherwise the older of the two last settings governs. -/
theorem C04_names (nc : Int) (S : List Rec) (code : Int) (q : Pos) (h : inRegion S q = false) :
    suppressed nc true S code q =
      if lastSetting code (upTo S q) = some .no ∨ lastSetting nc (upTo S q) = some .no then .yes
      else verdict (olderSetting nc code (upTo S q)) := by
  simp [suppressed, h]

/-- C04: with a representation of the comments read, the final decision about a message uses the
command line exactly when the comments leave it open. -/
theorem C04_command_line {s : List Marker} {S : List Rec} {bs : List (Int × List Item)}
    (env : FileEnv) (he : Plain env) (h : Rep s S bs) (nc code : Int) (isName base : Bool) (q : Pos)
    (hq : 0 ≤ q.col) :
    ∃ s' bs', inSuppressFlagZone env nc s code isName base q.loc =
        some (match suppressed nc isName S code q with
          | .yes => true
          | .no => false
          | .maybe => !base, s') ∧ Rep s' (hit S q) bs' := by
  obtain ⟨s', bs', h1, h2⟩ := warn_rep he h nc code isName q hq
  refine ⟨s', bs', ?_, h2⟩
  simp only [inSuppressFlagZone, h1, Option.map_some]
  cases suppressed nc isName S code q <;> rfl

/-- C05: one message counts once, although the decision about a message at the current place asks
twice. -/
theorem C05_message_counts_once {s : List Marker} {S : List Rec} {bs : List (Int × List Item)}
    (env : FileEnv) (he : Plain env) (h : Rep s S bs) (nc code : Int)
    (isName base : Bool) (q : Pos) (hq : 0 ≤ q.col) :
    ∃ s' bs', suppressFlagMsg env nc s code isName base false true true false q.loc =
        some (match suppressed nc isName S code q with
          | .yes => true
          | .no => false
          | .maybe => !base, s') ∧ Rep s' (hit S q) bs' := by
  obtain ⟨s1, bs1, h1, h2⟩ := zone_rep he h q hq
  simp only [suppressFlagMsg, Bool.false_eq_true, if_false, if_true, Bool.not_true, h1]
  cases hin : inRegion S q with
  | true =>
    refine ⟨s1, bs1, ?_, h2⟩
    simp [suppressed, hin]
  | false =>
    have hcov : S.any (fun r => r.covers q) = false := by
      unfold inRegion at hin
      rw [Bool.or_eq_false_iff] at hin
      exact hin.1
    have he2 : hit S q = S := hit_none hcov
    rw [he2] at h2
    exact C04_command_line env he h2 nc code isName base q hq

/-! ## Non-vacuity and witnesses -/

/-- A history in two files with a region, a counted line and local settings. -/
def sampleHistory : List PEvent :=
  [.comment .ignore ⟨1, 3, 5⟩, .comment .end_ ⟨1, 6, 2⟩, .comment (.count 2) ⟨1, 8, 20⟩,
   .comment (.set 40 .no) ⟨2, 1, 1⟩, .comment (.set 40 .yes) ⟨2, 9, 1⟩,
   .warn 40 ⟨1, 8, 25⟩, .warn 40 ⟨2, 4, 4⟩, .warn 40 ⟨2, 10, 4⟩, .zone ⟨1, 4, 1⟩, .zone ⟨1, 7, 1⟩,
   .comment .ignore ⟨1, 3, 5⟩]

instance (S : List Rec) (c : Comment) (p : Pos) : Decidable (WellPlaced S c p) := by
  unfold WellPlaced; infer_instance
instance (S : List Rec) (e : PEvent) : Decidable (e.ok S) := by
  cases e <;> (unfold PEvent.ok; infer_instance)
instance decHistoryOk (nc : Int) (isName : Int → Bool) (S : List Rec) (es : List PEvent) :
    Decidable (HistoryOk nc isName S es) := by
  induction es generalizing S with
  | nil => exact isTrue trivial
  | cons e es ih =>
    have := ih (specStep nc isName S e).1
    unfold HistoryOk; infer_instance

example : HistoryOk 99 (fun _ => false) [] sampleHistory := by decide +kernel

example : (specRun 99 (fun _ => false) [] sampleHistory).2 =
    [.warn .yes, .warn .yes, .warn .no, .zone true, .zone false] := by decide +kernel

/-- The sample history complains that 2 were expected and 1 was found. -/
example : (run plainEnv 99 (fun _ => false) [] (sampleHistory.map PEvent.event)).bind
    (fun r => checkCounts r.1 none) = some [⟨Pos.loc ⟨1, 8, 20⟩, 2, 1⟩] := by decide +kernel

example : ∀ r ∈ (specRun 99 (fun _ => false) [] (sampleHistory.take 2)).1,
    ¬ (r.c = .count 2 ∧ r.p = ⟨1, 8, 20⟩) := by decide +kernel

/-- C03, in full: whatever the history, a place off the counted lines is in a suppressed region
exactly when a region was begun before it and not ended by an `end` comment. -/
def C03_full : Prop :=
  ∀ (env : FileEnv), Plain env → ∀ (nc : Int) (isName : Int → Bool) (es : List PEvent) (q : Pos),
    (∀ e ∈ es, ∃ c p, e = .comment c p ∧ 1 ≤ p.col) → 1 ≤ q.col →
    (∀ r ∈ (specRun nc isName [] es).1, r.covers q = false) →
    ∃ s s', run env nc isName [] (es.map PEvent.event) = some (s, []) ∧
      inIgnore env s q.loc = some (regionBegun (upTo (specRun nc isName [] es).1 q), s')

/-- A counted line inside a region ends the region: line 5 is not suppressed. -/
theorem C03_count_ends_region :
    (run plainEnv 99 (fun _ => false) []
      ([.comment .ignore ⟨1, 1, 1⟩, .comment (.count 1) ⟨1, 3, 1⟩, .zone ⟨1, 5, 1⟩].map
        PEvent.event)).map (·.2) = some [.zone false] := by decide +kernel

theorem C03_full_is_false : ¬ C03_full := by
  intro h
  obtain ⟨s, s', h1, h2⟩ := h plainEnv plainEnv_plain 99 (fun _ => false)
    [.comment .ignore ⟨1, 1, 1⟩, .comment (.count 1) ⟨1, 3, 1⟩] ⟨1, 5, 1⟩
    (by intro e he; simp only [List.mem_cons, List.not_mem_nil, or_false] at he
        rcases he with rfl | rfl
        · exact ⟨_, _, rfl, by decide⟩
        · exact ⟨_, _, rfl, by decide⟩)
    (by decide) (by decide +kernel)
  have hr : run plainEnv 99 (fun _ => false) [] ([PEvent.comment .ignore ⟨1, 1, 1⟩,
      .comment (.count 1) ⟨1, 3, 1⟩].map PEvent.event) =
      some ([⟨.ignoreOn, Pos.loc ⟨1, 1, 1⟩⟩, ⟨.ignoreCount 1, Pos.loc ⟨1, 3, 1⟩⟩,
        ⟨.ignoreOff, Pos.loc ⟨1, 4, 0⟩⟩], []) := by decide +kernel
  rw [hr] at h1
  cases h1
  have hg : inIgnore plainEnv [⟨.ignoreOn, Pos.loc ⟨1, 1, 1⟩⟩, ⟨.ignoreCount 1, Pos.loc ⟨1, 3, 1⟩⟩,
        ⟨.ignoreOff, Pos.loc ⟨1, 4, 0⟩⟩] (Pos.loc ⟨1, 5, 1⟩) =
      some (false, [⟨.ignoreOn, Pos.loc ⟨1, 1, 1⟩⟩, ⟨.ignoreCount 1, Pos.loc ⟨1, 3, 1⟩⟩,
        ⟨.ignoreOff, Pos.loc ⟨1, 4, 0⟩⟩]) := by decide +kernel
  rw [hg] at h2
  have hb : regionBegun (upTo (specRun 99 (fun _ => false) [] [.comment .ignore ⟨1, 1, 1⟩,
      .comment (.count 1) ⟨1, 3, 1⟩]).1 ⟨1, 5, 1⟩) = true := by decide +kernel
  rw [hb] at h2
  cases h2

/-- Outside the well placed histories: a comment read later although it is earlier in the text, with
none before it, is taken for the last one. The message at line 12 follows `+flag` at line 10, and is
suppressed by `-flag` at line 5. -/
theorem C04_out_of_order :
    (run plainEnv 99 (fun _ => false) []
      ([.comment (.set 40 .yes) ⟨1, 10, 1⟩, .comment (.set 40 .no) ⟨1, 5, 1⟩,
        .warn 40 ⟨1, 12, 1⟩].map PEvent.event)).map (·.2) = some [.warn .yes] := by decide +kernel

/-- C04, in full: outside every region and off the counted lines, the last setting of the flag
governs. -/
def C04_full : Prop :=
  ∀ (env : FileEnv), Plain env → ∀ (nc : Int) (isName : Int → Bool) (es : List PEvent) (code : Int)
    (q : Pos), (∀ e ∈ es, ∃ c v p, e = .comment (.set c v) p ∧ 1 ≤ p.col) → 1 ≤ q.col →
    ∃ s, run env nc isName [] ((es ++ [PEvent.warn code q]).map PEvent.event) =
      some (s, [.warn (verdict (lastSetting code (upTo (specRun nc isName [] es).1 q)))])

theorem C04_full_is_false : ¬ C04_full := by
  intro h
  obtain ⟨s, h1⟩ := h plainEnv plainEnv_plain 99 (fun _ => false)
    [.comment (.set 40 .yes) ⟨1, 10, 1⟩, .comment (.set 40 .no) ⟨1, 5, 1⟩] 40 ⟨1, 12, 1⟩
    (by intro e he; simp only [List.mem_cons, List.not_mem_nil, or_false] at he
        rcases he with rfl | rfl
        · exact ⟨_, _, _, rfl, by decide⟩
        · exact ⟨_, _, _, rfl, by decide⟩) (by decide)
  have h2 := congrArg (Option.map (·.2)) h1
  have hb : verdict (lastSetting 40 (upTo (specRun 99 (fun _ => false) []
      [.comment (.set 40 .yes) ⟨1, 10, 1⟩, .comment (.set 40 .no) ⟨1, 5, 1⟩]).1 ⟨1, 12, 1⟩)) = .no := by
    decide +kernel
  rw [hb] at h2
  have := C04_out_of_order
  simp only [List.cons_append, List.nil_append] at h2
  rw [this] at h2
  cases h2

/-- A region in any file suppresses messages at library positions. -/
theorem C03_library_position :
    suppressError plainEnv 99 [⟨.ignoreOn, Pos.loc ⟨1, 1, 1⟩⟩] 40 false (some ⟨.stdlib, 7, 1, 1, some 7⟩) =
      some (.yes, [⟨.ignoreOn, Pos.loc ⟨1, 1, 1⟩⟩]) := by decide +kernel

/-- Before the first #include, positions have the number of the preprocessed text, 7 here, and after it that
of the file, 1 (see `C01_full_is_false`). A region that begins at line 50 suppresses a message at line 2 that is
given later. -/
theorem C03_before_first_include :
    suppressError plainEnv 99 [⟨.ignoreOn, Pos.loc ⟨1, 50, 1⟩⟩] 40 false (some ⟨.normal, 7, 2, 1, some 1⟩) =
      some (.yes, [⟨.ignoreOn, Pos.loc ⟨1, 50, 1⟩⟩]) := by decide +kernel

/-- And a setting of the flag at line 50 governs line 2, against the setting at line 1. -/
theorem C04_before_first_include :
    (suppressError plainEnv 99 [⟨.localSet 40 .yes, some ⟨.normal, 7, 1, 1, some 1⟩⟩, ⟨.localSet 40 .no, Pos.loc ⟨1, 50, 1⟩⟩] 40 false
      (some ⟨.normal, 7, 2, 1, some 1⟩)).map (·.1) = some .yes := by decide +kernel

end Splint.FlagMarkers
