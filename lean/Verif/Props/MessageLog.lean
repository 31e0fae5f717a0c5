import Verif.Proofs.MessageLog
/-!
# C02: no warning twice, no warning lost
-/
namespace Splint
open Spec MessageLog

/-- Full statement (kept in view): for every history the answers are those of the ideal log.
It is false, see `C02_dedup_fails_in_system_header` and `C02_dedup_fails_unknown_position`. -/
def C02_full : Prop := ∀ h : List (FileLoc × Bytes), (run [] h).2 = fresh [] h

/-- For every history of messages at ordinary positions (known, not in a library or system
header), a message is reported as new exactly when the same text was not logged before at the
same place.  Missing: library and unknown positions, where it fails. -/
theorem C02_dedup_partial (h : List (FileLoc × Bytes)) (ho : ∀ x ∈ h, Ordinary x.1) :
    (run [] h).2 = fresh [] h := by
  suffices H : ∀ (h : List (FileLoc × Bytes)) (s : List MsgEntry) (seen : Seen),
      (∀ x ∈ h, Ordinary x.1) → Inv s →
      (∀ p t, (p, t) ∈ seen ↔ ∃ e ∈ s, place e.loc = p ∧ e.msg = t) →
      (run s h).2 = fresh seen h from
    H h [] [] ho ⟨List.Pairwise.nil, by simp⟩ (by simp)
  intro h
  induction h with
  | nil => intros; rfl
  | cons x rest ih =>
    obtain ⟨fl, mess⟩ := x
    intro s seen ho hs hseen
    have hfl : Ordinary fl := ho (fl, mess) (by simp)
    obtain ⟨hinv, hans, hmem⟩ := add_inv hs (mess := mess) hfl
    simp only [run, fresh]
    congr 1
    · cases hb : (add s fl mess).2 with
      | false =>
        have := hans.1 hb
        symm; simp only [decide_eq_false_iff_not, not_not]; exact (hseen _ _).2 this
      | true =>
        symm; simp only [decide_eq_true_eq]
        intro hc
        rw [hans.2 ((hseen _ _).1 hc)] at hb; cases hb
    · apply ih _ _ (fun y hy => ho y (by simp [hy])) hinv
      intro p t
      simp only [List.mem_cons, Prod.mk.injEq, hseen, hmem]
      constructor
      · rintro (⟨rfl, rfl⟩ | ⟨e, he, h1, h2⟩)
        · cases hb : (add s fl t).2 with
          | false => obtain ⟨e, he, h⟩ := hans.1 hb; exact ⟨e, Or.inl he, h⟩
          | true => exact ⟨⟨fl, t⟩, Or.inr ⟨rfl, rfl⟩, rfl, rfl⟩
        · exact ⟨e, Or.inl he, h1, h2⟩
      · rintro ⟨e, he | ⟨_, rfl⟩, h1, h2⟩
        · exact Or.inr ⟨e, he, h1, h2⟩
        · exact Or.inl ⟨h1.symm, h2.symm⟩

/-- At ordinary positions the log is always sorted by place and text, without repetition. -/
theorem C02_sorted_partial (h : List (FileLoc × Bytes)) (ho : ∀ x ∈ h, Ordinary x.1) :
    (run [] h).1.Pairwise (fun a b => Before (place a.loc) (place b.loc) ∨
      (place a.loc = place b.loc ∧ a.msg ≠ b.msg ∧ strcmp a.msg b.msg < 0)) := by
  suffices H : ∀ (h : List (FileLoc × Bytes)) (s : List MsgEntry),
      (∀ x ∈ h, Ordinary x.1) → Inv s → Inv (run s h).1 by
    refine (H h [] ho ⟨List.Pairwise.nil, by simp⟩).1.imp ?_
    rintro a b (h | ⟨h, h'⟩)
    · exact Or.inl h
    · refine Or.inr ⟨h, ?_, h'⟩
      intro hc; rw [hc, strcmp_self] at h'; omega
  intro h
  induction h with
  | nil => intro s _ hs; exact hs
  | cons x rest ih =>
    intro s ho hs
    exact ih _ (fun y hy => ho y (by simp [hy])) (add_inv hs (ho x (by simp))).1

/-- For every history whatsoever (library and unknown positions included) no message is
swallowed by mistake: an answer "not new" implies that the same text was logged before at the
same place. -/
theorem C02_no_false_duplicate (h : List (FileLoc × Bytes)) (i : Nat)
    (hi : (run [] h).2[i]? = some false) :
    ∃ j x y, j < i ∧ h[j]? = some x ∧ h[i]? = some y ∧ place x.1 = place y.1 ∧ x.2 = y.2 := by
  suffices H : ∀ (h pre : List (FileLoc × Bytes)) (s : List MsgEntry) (i : Nat),
      (∀ e ∈ s, (e.loc, e.msg) ∈ pre) → (run s h).2[i]? = some false →
      ∃ j x y, j < pre.length + i ∧ (pre ++ h)[j]? = some x ∧ h[i]? = some y ∧
        place x.1 = place y.1 ∧ x.2 = y.2 by
    simpa using H h [] [] i (by simp) hi
  intro h
  induction h with
  | nil => intro pre s i _ hi; simp [run] at hi
  | cons x rest ih =>
    obtain ⟨fl, mess⟩ := x
    intro pre s i hs hi
    simp only [run] at hi
    cases i with
    | zero =>
      simp only [List.getElem?_cons_zero, Option.some.injEq] at hi
      have : ∃ e ∈ s, place e.loc = place fl ∧ e.msg = mess := by
        rw [add_eq] at hi
        split at hi
        · rename_i e he
          split at hi
          · rename_i heq
            have heq := equal_place heq
            exact ⟨e, List.mem_of_getElem? he, heq.1.symm, heq.2.symm⟩
          · cases hi
        · cases hi
      obtain ⟨e, he, h1, h2⟩ := this
      obtain ⟨j, hj, hje⟩ := List.mem_iff_getElem.1 (hs e he)
      refine ⟨j, (e.loc, e.msg), (fl, mess), by simpa using hj, ?_, rfl, h1, h2⟩
      rw [List.getElem?_append_left hj]; simp [hj, hje]
    | succ i =>
      simp only [List.getElem?_cons_succ] at hi
      have := ih (pre ++ [(fl, mess)]) (add s fl mess).1 i ?_ hi
      · obtain ⟨j, x, y, h1, h2, h3, h4⟩ := this
        refine ⟨j, x, y, ?_, ?_, ?_, h4⟩
        · simp at h1; omega
        · simpa using h2
        · simpa using h3
      · intro e he
        have : e ∈ s ∨ e = ⟨fl, mess⟩ := by
          rw [add_eq] at he
          have key : ∀ k, e ∈ s.take k ++ (⟨fl, mess⟩ : MsgEntry) :: s.drop k →
              e ∈ s ∨ e = ⟨fl, mess⟩ := by
            intro k hk
            rcases List.mem_append.1 hk with hk | hk
            · exact Or.inl (List.mem_of_mem_take hk)
            · rcases List.mem_cons.1 hk with hk | hk
              · exact Or.inr hk
              · exact Or.inl (List.mem_of_mem_drop hk)
          split at he
          · split at he
            · exact Or.inl he
            · exact key _ he
          · exact key _ he
        rcases this with h | rfl
        · exact List.mem_append_left _ (hs e h)
        · simp

/-- Every message answered "new" is in the log, and the log holds nothing else
(any positions): the log is a permutation of the messages reported as new. -/
theorem C02_log_holds_reported (h : List (FileLoc × Bytes)) :
    (run [] h).1.Perm (((h.zip (run [] h).2).filter (·.2)).map fun x => ⟨x.1.1, x.1.2⟩) := by
  suffices H : ∀ (h : List (FileLoc × Bytes)) (s : List MsgEntry),
      (run s h).1.Perm (s ++ ((h.zip (run s h).2).filter (·.2)).map fun x => ⟨x.1.1, x.1.2⟩) by
    simpa using H h []
  intro h
  induction h with
  | nil => intro s; simp [run]
  | cons x rest ih =>
    obtain ⟨fl, mess⟩ := x
    intro s
    simp only [run, List.zip_cons_cons]
    refine (ih _).trans ?_
    have key : (add s fl mess).2 = true →
        (add s fl mess).1.Perm (⟨fl, mess⟩ :: s) := by
      rw [add_eq]
      have p : ∀ k, (s.take k ++ (⟨fl, mess⟩ : MsgEntry) :: s.drop k).Perm (⟨fl, mess⟩ :: s) := by
        intro k
        refine List.perm_middle.trans ?_
        rw [List.take_append_drop]
      split
      · split
        · simp
        · intro _; exact p _
      · intro _; exact p _
    have key' : (add s fl mess).2 = false → (add s fl mess).1 = s := by
      rw [add_eq]
      split
      · split <;> simp
      · simp
    cases hb : (add s fl mess).2 with
    | true =>
      simp only [List.filter_cons, if_true, List.map_cons]
      refine ((key hb).append_right _).trans ?_
      rw [List.cons_append]
      exact List.perm_middle.symm
    | false => rw [key' hb]; simp [List.filter_cons]

/-- The full statement fails in system headers: the same message at the same place there is
reported twice. -/
theorem C02_dedup_fails_in_system_header :
    ∃ f : FileLoc, f ≠ none ∧ ∃ m, (run [] [(f, m), (f, m)]).2 = [true, true] :=
  ⟨some ⟨.stdhdr, 1, 5, 2, some 1⟩, by decide, [65], by decide⟩

/-- It also fails for messages without a position once another message has been logged. -/
theorem C02_dedup_fails_unknown_position :
    ∃ (f : FileLoc) (m n : Bytes), Ordinary f ∧
      (run [] [(none, m), (f, n), (none, m)]).2 = [true, true, true] :=
  ⟨some ⟨.normal, 1, 5, 2, some 1⟩, [65], [66], by
    refine ⟨by decide, ?_, by intro r h; cases h; rfl⟩
    rintro ⟨r, h, h'⟩
    cases h; simp at h', by decide⟩

/-- It fails for a place that is known under two numbers, that of the file and that of its preprocessed text. -/
theorem C02_dedup_fails_derived :
    ∃ (f g h : FileLoc) (m n : Bytes), place f = place g ∧ ¬ InLibrary f ∧ ¬ InLibrary g ∧
      (run [] [(f, m), (h, n), (g, m)]).2 = [true, true, true] := by
  refine ⟨some ⟨.normal, 7, 5, 2, some 1⟩, some ⟨.normal, 1, 5, 2, some 1⟩, some ⟨.normal, 1, 6, 2, some 1⟩, [65], [66], rfl, ?_, ?_, by decide⟩ <;>
  · rintro ⟨r, h, h'⟩
    cases h; simp at h'

theorem C02_full_is_false : ¬ C02_full := by
  intro h
  have := h [(some ⟨.stdhdr, 1, 5, 2, some 1⟩, [65]), (some ⟨.stdhdr, 1, 5, 2, some 1⟩, [65])]
  exact absurd this (by decide)

private def pos (l c : Int) : FileLoc := some ⟨.normal, 1, l, c, some 1⟩
-- non-vacuity: an interleaved history with real duplicates
example : (run [] [(pos 5 1, [66]), (pos 2 1, [65]), (pos 5 1, [65]), (pos 2 1, [65]),
    (pos 5 1, [66])]).2 = [true, true, true, false, false] := by decide
example : ∀ x ∈ [(pos 5 1, [(66 : UInt8)]), (pos 2 1, [65])], Ordinary x.1 := by
  intro x hx
  simp at hx
  rcases hx with rfl | rfl <;> refine ⟨by decide, ?_, by intro r h; cases h; rfl⟩ <;> rintro ⟨r, h, h'⟩ <;> cases h <;> simp at h'

end Splint
