import Verif.Proofs.Comment
/-!
# C118: comments keep their place, and do what they say
-/
namespace Splint.Comment
open Spec

theorem skip_text {r : Text} {s : Skip} (h : skip r = .comment s) :
    s.text ++ s.rest = r ∧ s.lines = s.text.count '\n' := by
  induction r using skip.induct generalizing s with
  | case1 r ih =>
    rw [skip] at h
    cases hr : skip r with
    | no => rw [hr] at h; simp [Skipped.cons] at h
    | unterminated => rw [hr] at h; simp [Skipped.cons] at h
    | comment u =>
      rw [hr] at h
      simp only [Skipped.cons, Skipped.comment.injEq] at h
      subst h
      obtain ⟨h1, h2⟩ := ih hr
      exact ⟨by simp [Skip.cons, h1], by simp [Skip.cons, h2]; omega⟩
  | case2 r hne =>
    rw [skip] at h
    · unfold skipHere at h
      split at h
      · split at h
        · cases h
        · cases h
          rename_i u hu
          obtain ⟨h1, h2⟩ := skipBlock_text hu
          exact ⟨by simp [Skip.cons, h1], by simp [Skip.cons, h2]⟩
      · cases h
        rename_i u
        obtain ⟨h1, h2⟩ := skipLine_text u
        exact ⟨by simp [Skip.cons, h1], by simp [Skip.cons, h2]⟩
      · cases h
    · exact hne

/-- what the text of a comment is -/
theorem skip_join {r : Text} {s : Skip} (h : skip r = .comment s) :
    (∃ b, join s.text = '*' :: b ++ ['*', '/'] ∧ NoEnd (b ++ ['*']))
      ∨ (∃ b, join s.text = '/' :: b ∧ '\n' ∉ b) := by
  induction r using skip.induct generalizing s with
  | case1 r ih =>
    rw [skip] at h
    cases hr : skip r with
    | no => rw [hr] at h; simp [Skipped.cons] at h
    | unterminated => rw [hr] at h; simp [Skipped.cons] at h
    | comment u =>
      rw [hr] at h
      simp only [Skipped.cons, Skipped.comment.injEq] at h
      subst h
      simpa [Skip.cons, join] using ih hr
  | case2 r hne =>
    rw [skip] at h
    · unfold skipHere at h
      split at h
      · split at h
        · cases h
        · cases h
          rename_i u hu
          obtain ⟨b, h1, h2, h3, -⟩ := skipBlock_join.1 _ hu
          refine Or.inl ?_
          rcases List.eq_nil_or_concat b with rfl | ⟨b', c, rfl⟩
          · simp at h2
          · simp only [List.concat_eq_append] at h1 h2 h3
            rw [← List.cons_append, List.getLast?_append] at h2
            simp at h2
            subst h2
            refine ⟨b', ?_, fun h => h3 ?_⟩
            · simp only [Skip.cons]
              rw [join_cons (by simp), h1]
              simp
            · exact h.trans (List.infix_cons (List.infix_refl _))
      · cases h
        rename_i u
        obtain ⟨-, h2, -⟩ := skipLine_join u
        refine Or.inr ⟨_, ?_, h2⟩
        simp only [Skip.cons]
        rw [join_cons (by simp)]
      · cases h
    · exact hne

theorem end_iff (s : Text) :
    ¬ (('%' :: '{' :: s)[('%' :: '{' :: s).length - 2]? ≠ some '*' ∨ ('%' :: '{' :: s)[('%' :: '{' :: s).length - 1]? ≠ some '/')
      ↔ ∃ inner, s = inner ++ ['*', '/'] := by
  constructor
  · intro h
    push Not at h
    rcases List.eq_nil_or_concat s with rfl | ⟨s, d, rfl⟩
    · simp at h
    · rcases List.eq_nil_or_concat s with rfl | ⟨s, c, rfl⟩
      · simp at h
      · simp only [List.concat_eq_append] at h ⊢
        have h1 : ('%' :: '{' :: (s ++ [c] ++ [d])) = ('%' :: '{' :: s) ++ [c, d] := by simp
        rw [h1] at h
        rw [List.getElem?_append_right (by simp), List.getElem?_append_right (by simp)] at h
        simp at h
        exact ⟨s, by simp [h.1, h.2]⟩
  · rintro ⟨inner, rfl⟩
    have h1 : ('%' :: '{' :: (inner ++ ['*', '/'])) = ('%' :: '{' :: inner) ++ ['*', '/'] := by simp
    rw [h1]
    rw [List.getElem?_append_right (by simp), List.getElem?_append_right (by simp)]
    simp

theorem remove_marked (cfg : Cfg) (s : Text) :
    remove cfg ('%' :: '{' :: s) = some (' ' :: blanks ('%' :: '{' :: s), nests ('%' :: '{' :: s)) := by
  have : (if cfg.lintcomments then lintName ('%' :: '{' :: s) else none) = none := by
    split_ifs
    · simp [lintName, prefixed, List.isPrefixOf]
    · rfl
  unfold remove
  rw [this]

theorem starts_append_marker (t : Text) : starts (t ++ ['%', '}']) = starts t := by
  induction t with
  | nil => decide
  | cons c t ih =>
    rw [List.cons_append, starts_cons, starts_cons, ih]
    cases t <;> simp

theorem handle_marked (cfg : Cfg) (inner : Text) :
    handle cfg ('*' :: cfg.marker :: (inner ++ ['*', '/']))
      = some (if Eliminated inner then
          (' ' :: ' ' :: blanks ('%' :: '{' :: (inner ++ ['%', '}'])),
            (if opens (inner ++ ['%', '}']) then [Act.nestSyntactic] else []) ++ (directive cfg (inner ++ ['%', '}'])).1
              ++ List.replicate (starts inner) .nest)
        else (' ' :: '%' :: '{' :: (inner.map (hide cfg.marker) ++ ['%', '}']),
            (if opens (inner ++ ['%', '}']) then [Act.nestSyntactic] else [])
              ++ (directive cfg (inner ++ ['%', '}'])).1)) := by
  have hn : ¬ (('%' :: '{' :: (inner ++ ['*', '/']))[('%' :: '{' :: (inner ++ ['*', '/'])).length - 2]? ≠ some '*'
      ∨ ('%' :: '{' :: (inner ++ ['*', '/']))[('%' :: '{' :: (inner ++ ['*', '/'])).length - 1]? ≠ some '/') :=
    (end_iff _).2 ⟨inner, rfl⟩
  have ht : (inner ++ ['*', '/']).take ((inner ++ ['*', '/']).length - 2) = inner := by simp
  unfold handle
  simp only [true_and, if_true]
  rw [if_neg hn, ht]
  by_cases he : Eliminated inner
  · rw [if_pos ((directive_elim cfg inner).2 he), if_pos he, remove_marked]
    rw [nests_eq, starts_cons, starts_cons, starts_append_marker]
    simp
  · rw [if_neg (fun h => he ((directive_elim cfg inner).1 h)), if_neg he]

theorem opens_iff {t : Text} (h : Char.ofNat 0 ∉ t) : opens t = true ↔ ['/', '*'] <:+: t := by
  induction t using opens.induct with
  | case1 t => simp [opens]; exact ⟨[], t, rfl⟩
  | case2 r => exact absurd (by simp) h
  | case3 c r hne h0 ih =>
    rw [opens, if_neg h0, ih (fun h' => h (by simp [h']))]
    · rw [List.infix_cons_iff]
      refine ⟨Or.inr, ?_⟩
      rintro (⟨t, ht⟩ | h)
      · simp at ht
        exact (hne t ht.1.symm (by simp [← ht.2])).elim
      · exact h
    · exact hne
  | case4 => simp [opens]

theorem infix_marker {t : Text} : ['/', '*'] <:+: t ++ ['%', '}'] ↔ ['/', '*'] <:+: t := by
  induction t with
  | nil => decide
  | cons c t ih =>
    rw [List.cons_append, List.infix_cons_iff, List.infix_cons_iff, ih]
    refine or_congr_left ?_
    cases t <;> simp [List.cons_prefix_cons]

theorem lint_exact {name : Text} {r : Text} {s : Skip} (h : skip r = .comment s) (hn : lintName s.text = some name) :
    (s.text, name) ∈ [(c!"*NOTREACHED*/", c!"l_notreach"), (c!"*PRINTFLIKE*/", c!"l_printfli"),
      (c!"*FALLTHROUGH*/", c!"l_fallthrou"), (c!"*ARGSUSED*/", c!"l_argsus"), (c!"*FALLTHRU*/", c!"l_fallth")] := by
  have hr := (skip_text h).1
  have key : ∀ w : Text, (∀ t, skip (w ++ t) = .comment ⟨w, 0, t⟩) → w <+: s.text → s.text = w := by
    rintro w hw ⟨t, ht⟩
    rw [← ht, List.append_assoc] at hr
    rw [← hr, hw] at h
    exact (congrArg Skip.text (Skipped.comment.inj h)).symm
  unfold lintName at hn
  simp only [prefixed_iff] at hn
  by_cases h1 : c!"*NOTREACHED*/" <+: s.text
  · rw [if_pos h1] at hn; cases hn; rw [key _ (fun t => rfl) h1]; decide
  rw [if_neg h1] at hn
  by_cases h2 : c!"*PRINTFLIKE*/" <+: s.text
  · rw [if_pos h2] at hn; cases hn; rw [key _ (fun t => rfl) h2]; decide
  rw [if_neg h2] at hn
  by_cases h3 : c!"*FALLTHROUGH*/" <+: s.text
  · rw [if_pos h3] at hn; cases hn; rw [key _ (fun t => rfl) h3]; decide
  rw [if_neg h3] at hn
  by_cases h4 : c!"*ARGSUSED*/" <+: s.text
  · rw [if_pos h4] at hn; cases hn; rw [key _ (fun t => rfl) h4]; decide
  rw [if_neg h4] at hn
  by_cases h5 : c!"*FALLTHRU*/" <+: s.text
  · rw [if_pos h5] at hn; cases hn; rw [key _ (fun t => rfl) h5]; decide
  rw [if_neg h5] at hn
  cases hn

/-- comments that are not for the checker -/
theorem handle_plain {cfg : Cfg} {text : Text} (h : ∀ t, ¬ Syntactic cfg.marker text t) :
    handle cfg text = remove cfg text := by
  unfold handle
  split
  · rename_i c0 c1 t
    rw [if_neg]
    rintro ⟨rfl, rfl⟩
    exact h t rfl
  · rfl

theorem remove_shape {cfg : Cfg} {r : Text} {s : Skip} (h : skip r = .comment s) :
    ∃ o acts, remove cfg s.text = some (o, acts) ∧ shape o = shape ('/' :: s.text) := by
  unfold remove
  cases hl : (if cfg.lintcomments then lintName s.text else none) with
  | none => exact ⟨_, _, rfl, by simpa [shape] using blanks_shape s.text⟩
  | some name =>
    have hn : lintName s.text = some name := by
      split_ifs at hl
      exact hl
    have hm := lint_exact h hn
    simp only [List.mem_cons, Prod.mk.injEq, List.not_mem_nil, or_false] at hm
    rcases hm with ⟨h1, rfl⟩ | ⟨h1, rfl⟩ | ⟨h1, rfl⟩ | ⟨h1, rfl⟩ | ⟨h1, rfl⟩ <;> rw [h1] <;> exact ⟨_, _, rfl, by decide⟩

end Splint.Comment

namespace Splint
open Comment Comment.Spec

/-- A comment is from the `/` to the first `*/`, or to the end of the line, where a backslash joins lines: nothing of
it is lost, and its lines are counted. -/
theorem C118_extent (r : Text) :
    (∀ s, skip r = .comment s → s.text ++ s.rest = r ∧ s.lines = s.text.count '\n'
      ∧ ((∃ b, join s.text = '*' :: b ++ ['*', '/'] ∧ NoEnd (b ++ ['*'])) ∨ (∃ b, join s.text = '/' :: b ∧ '\n' ∉ b)))
    ∧ (skip r = .unterminated ↔ ∃ t, join r = '*' :: t ∧ NoEnd t)
    ∧ (skip r = .no ↔ ∀ t, join r ≠ '*' :: t ∧ join r ≠ '/' :: t) := by
  refine ⟨fun s h => ⟨(skip_text h).1, (skip_text h).2, skip_join h⟩, ?_⟩
  induction r using skip.induct with
  | case1 r ih =>
    have hc : ∀ (x : Skipped) c n, (x.cons c n = .unterminated ↔ x = .unterminated) ∧ (x.cons c n = .no ↔ x = .no) := by
      intro x c n; cases x <;> simp [Skipped.cons]
    rw [skip, (hc _ _ _).1, (hc _ _ _).1, (hc _ _ _).2, (hc _ _ _).2, join]
    exact ih
  | case2 r hne =>
    rw [skip]
    · unfold skipHere
      split
      · rename_i r
        rw [join_cons (by simp)]
        have hz : ∀ t, NoEnd (Char.ofNat 0 :: t) ↔ NoEnd t := by
          intro t
          unfold NoEnd
          rw [List.infix_cons_iff]
          refine not_congr ⟨?_, Or.inr⟩
          rintro (⟨x, hx⟩ | h)
          · simp at hx
          · exact h
        cases hb : skipBlock (Char.ofNat 0) r with
        | none =>
          refine ⟨⟨fun _ => ⟨_, rfl, (hz _).1 (skipBlock_join.2 hb)⟩, fun _ => rfl⟩, ⟨fun h => (by cases h), fun h => ?_⟩⟩
          exact absurd rfl (h _).1
        | some s =>
          obtain ⟨b, h1, h2, h3, h4⟩ := skipBlock_join.1 s hb
          refine ⟨⟨fun h => (by cases h), ?_⟩, ⟨fun h => (by cases h), fun h => ?_⟩⟩
          · rintro ⟨t, ht, hno⟩
            simp only [List.cons.injEq, true_and] at ht
            subst ht
            refine absurd ?_ hno
            rw [h4, h1]
            rcases List.eq_nil_or_concat b with rfl | ⟨b', c, rfl⟩
            · simp at h2
            · simp only [List.concat_eq_append] at h2 ⊢
              rw [← List.cons_append, List.getLast?_append] at h2
              simp at h2
              subst h2
              exact ⟨b', join s.rest, by simp⟩
          · exact absurd rfl (h _).1
      · rw [join_cons (by simp)]
        refine ⟨⟨fun h => (by cases h), ?_⟩, ⟨fun h => (by cases h), fun h => ?_⟩⟩
        · rintro ⟨t, ht, -⟩
          simp at ht
        · exact absurd rfl (h _).2
      · rename_i h1 h2
        have hj : ∀ c t, c ≠ '\\' → join r = c :: t → ∃ t', r = c :: t' := by
          intro c t hc h
          cases r with
          | nil => simp [join] at h
          | cons d r =>
            rw [join_cons (fun r' hd hr => hne r' (by rw [hd, hr]))] at h
            simp at h
            exact ⟨r, by rw [h.1]⟩
        refine ⟨⟨fun h => (by cases h), ?_⟩, ⟨fun _ t => ⟨fun h => ?_, fun h => ?_⟩, fun _ => rfl⟩⟩
        · rintro ⟨t, ht, -⟩
          obtain ⟨t', ht'⟩ := hj _ _ (by decide) ht
          exact absurd ht' (h1 t')
        · obtain ⟨t', ht'⟩ := hj _ _ (by decide) h
          exact absurd ht' (h1 t')
        · obtain ⟨t', ht'⟩ := hj _ _ (by decide) h
          exact absurd ht' (h2 t')
    · exact hne

example : skip c!"*/ a\\\n *\\\n/ b" = .comment ⟨c!"*/ a\\\n *\\\n/", 2, c!" b"⟩ ∧ skip c!"/ a\\\nb\nc" = .comment ⟨c!"/ a\\\nb", 1, c!"\nc"⟩
    ∧ skip c!"*/" = .unterminated ∧ skip c!" 2" = .no := by decide

/-- What is written for a comment is as long as it is, and ends lines where the comment does. -/
def C118_full : Prop :=
  ∀ (cfg : Cfg) (r : Text) (s : Skip), skip r = .comment s →
    ∃ o acts, handle cfg s.text = some (o, acts) ∧ shape o = shape ('/' :: s.text)

def exAt : Cfg := ⟨'@', false, true⟩

/-- So it is, if no assertion fails, the comment is not one of those that are left out, and the marker is not the end
of a line. -/
theorem C118_shape_partial (cfg : Cfg) (r : Text) (s : Skip) (h : skip r = .comment s) (hm : cfg.marker ≠ '\n')
    (hne : ∀ inner, Syntactic cfg.marker s.text (inner ++ ['*', '/']) → ¬ Eliminated inner) (o : Text) (acts : List Act)
    (ho : handle cfg s.text = some (o, acts)) : shape o = shape ('/' :: s.text) := by
  by_cases hs : ∃ t, Syntactic cfg.marker s.text t
  · obtain ⟨t, ht⟩ := hs
    unfold Syntactic at ht hne
    by_cases he : ∃ inner, t = inner ++ ['*', '/']
    · obtain ⟨inner, rfl⟩ := he
      rw [ht, handle_marked, if_neg (hne inner ht)] at ho
      cases ho
      rw [ht]
      have := hide_shape hm inner
      unfold shape at this ⊢
      simp only [List.map_cons, List.map_append, this]
      simp [hm]
    · rw [ht] at ho
      unfold handle at ho
      simp only [true_and, if_true] at ho
      rw [if_pos] at ho
      · cases ho
      · by_contra hcon
        exact he ((end_iff t).1 hcon)
  · rw [handle_plain (fun t ht => hs ⟨t, ht⟩)] at ho
    obtain ⟨o', acts', h1, h2⟩ := remove_shape (cfg := cfg) h
    rw [h1] at ho
    cases ho
    exact h2

example : skip c!"*@-x {\n 5%@*/ y" = .comment ⟨c!"*@-x {\n 5%@*/", 1, c!" y"⟩
    ∧ handle exAt c!"*@-x {\n 5%@*/" = some (c!" %{-x  \n 5  %}", []) := by decide

/-- One blank too many is written for each comment that is left out, whatever the marker. -/
theorem C118_left_out_is_longer (cfg : Cfg) (inner o : Text) (acts : List Act) (he : Eliminated inner)
    (hm : cfg.marker ≠ '\n')
    (ho : handle cfg ('*' :: cfg.marker :: (inner ++ ['*', '/'])) = some (o, acts)) :
    shape o = false :: shape ('/' :: '*' :: cfg.marker :: (inner ++ ['*', '/'])) ∧ ∀ c ∈ o, c = ' ' ∨ c = '\n' := by
  rw [handle_marked, if_pos he] at ho
  cases ho
  refine ⟨?_, fun c hc => ?_⟩
  · have := blanks_shape ('%' :: '{' :: (inner ++ ['%', '}']))
    unfold shape at this ⊢
    rw [List.map_cons, List.map_cons, this]
    simp [hm]
  · simp only [List.mem_cons] at hc
    rcases hc with h | h | h
    · exact Or.inl h
    · exact Or.inl h
    · exact blanks_mem (by simpa using h)

example : Eliminated c!"notfunction@" ∧ handle exAt c!"*@notfunction@*/"
    = some (c!"                  ", [.notfunction]) ∧ c!"/*@notfunction@*/".length + 1 = c!"                  ".length := by decide

theorem C118_full_is_false : ¬ C118_full := by
  intro h
  obtain ⟨o, acts, h1, h2⟩ := h exAt c!"*@notfunction@*/" ⟨c!"*@notfunction@*/", 0, []⟩ (by decide)
  have h3 := (C118_left_out_is_longer exAt c!"notfunction@" o acts (by decide) (by decide) h1).1
  rw [h2] at h3
  have := congrArg List.length h3
  simp [shape] at this

/-- An assertion fails exactly for the comments with the marker whose `*/` is broken by a backslash, and, if the marker
is `*`, for the comment without text. -/
theorem C118_fails_exactly (cfg : Cfg) (r : Text) (s : Skip) (h : skip r = .comment s) :
    handle cfg s.text = none ↔ ∃ t, Syntactic cfg.marker s.text t ∧ ¬ ∃ inner, t = inner ++ ['*', '/'] := by
  by_cases hs : ∃ t, Syntactic cfg.marker s.text t
  · obtain ⟨t, ht⟩ := hs
    unfold Syntactic at ht ⊢
    have hiff : (∃ t', s.text = '*' :: cfg.marker :: t' ∧ ¬ ∃ inner, t' = inner ++ ['*', '/'])
        ↔ ¬ ∃ inner, t = inner ++ ['*', '/'] := by
      rw [ht]
      constructor
      · rintro ⟨t', h1, h2⟩
        simp only [List.cons.injEq, true_and] at h1
        rwa [h1]
      · exact fun h => ⟨t, rfl, h⟩
    rw [hiff]
    by_cases he : ∃ inner, t = inner ++ ['*', '/']
    · simp only [he, not_true_eq_false, iff_false]
      obtain ⟨inner, rfl⟩ := he
      rw [ht, handle_marked]
      simp
    · simp only [he, not_false_eq_true, iff_true]
      rw [ht]
      unfold handle
      simp only [true_and, if_true]
      rw [if_pos]
      by_contra hcon
      exact he ((end_iff t).1 hcon)
  · rw [handle_plain (fun t ht => hs ⟨t, ht⟩)]
    obtain ⟨o, acts, h1, -⟩ := remove_shape (cfg := cfg) h
    rw [h1]
    simp only [reduceCtorEq, false_iff]
    rintro ⟨t, ht, -⟩
    exact hs ⟨t, ht⟩

example : handle ⟨'*', false, false⟩ c!"**/" = none ∧ skip c!"**/" = .comment ⟨c!"**/", 0, []⟩
    ∧ handle exAt c!"*@null@*\\\n/" = none ∧ skip c!"*@null@*\\\n/" = .comment ⟨c!"*@null@*\\\n/", 1, []⟩ := by decide

/-- A comment for the checker is written between the markers; nothing in it is the end marker, and all but the markers'
characters and the comment character is kept. -/
theorem C118_marked (cfg : Cfg) (inner o : Text) (acts : List Act) (he : ¬ Eliminated inner)
    (ho : handle cfg ('*' :: cfg.marker :: (inner ++ ['*', '/'])) = some (o, acts)) :
    ∃ i, o = c!" %{" ++ i ++ c!"%}" ∧ '%' ∉ i ∧ i.length = inner.length
      ∧ ∀ (j : Nat) (c : Char), inner[j]? = some c → i[j]? = some (if c = '%' ∨ c = '{' ∨ c = cfg.marker then ' ' else c) := by
  rw [handle_marked, if_neg he] at ho
  cases ho
  refine ⟨inner.map (hide cfg.marker), by simp, ?_, by simp, ?_⟩
  · intro h
    obtain ⟨c, -, hc⟩ := List.mem_map.1 h
    unfold hide at hc
    split_ifs at hc with h1
    · exact absurd hc (by decide)
    · exact h1 (Or.inl hc)
  · intro j c hj
    rw [List.getElem?_map, hj]
    rfl

example : handle exAt c!"*@modifies *x, {y}@*/" = some (c!" %{modifies *x,  y} %}", []) := by decide

/-- With the end of a line as the marker no line of a comment for the checker is kept. -/
theorem C118_newline_marker (cfg : Cfg) (inner o : Text) (acts : List Act) (he : ¬ Eliminated inner)
    (hm : cfg.marker = '\n')
    (ho : handle cfg ('*' :: cfg.marker :: (inner ++ ['*', '/'])) = some (o, acts)) : '\n' ∉ o := by
  rw [handle_marked, if_neg he] at ho
  cases ho
  intro h
  simp only [List.mem_cons, List.mem_append, List.mem_map, List.not_mem_nil, or_false] at h
  rcases h with h | h | h | ⟨c, -, h⟩ | h | h
  · exact absurd h (by decide)
  · exact absurd h (by decide)
  · exact absurd h (by decide)
  · unfold hide at h
    split_ifs at h with h1
    · exact absurd h (by decide)
    · exact h1 (Or.inr (Or.inr (h.trans hm.symm)))
  · exact absurd h (by decide)
  · exact absurd h (by decide)

/-- and the marker is set so by a comment -/
example : handle exAt c!"*@+commentchar \n@*/" = some (blanks c!" /*@+commentchar \n@*/", [.setChar '\n'])
    ∧ handle ⟨'\n', false, false⟩ c!"*\na\nb\n*/" = some (c!" %{a b %}", []) := by decide

/-- What is done because of a comment for the checker is what its first word says, and no more. -/
theorem C118_does (cfg : Cfg) (inner o : Text) (acts : List Act)
    (ho : handle cfg ('*' :: cfg.marker :: (inner ++ ['*', '/'])) = some (o, acts)) (a : Act) (h1 : a ≠ .nest)
    (h2 : a ≠ .nestSyntactic) : a ∈ acts ↔ Does cfg.nocomments inner a := by
  rw [← directive_does, handle_marked] at *
  by_cases he : Eliminated inner
  · rw [if_pos he] at ho
    cases ho
    simp only [List.mem_append, List.mem_replicate, h1, and_false, or_false]
    refine ⟨fun h => h.elim (fun h => ?_) id, Or.inr⟩
    split_ifs at h
    · simp [h2] at h
    · cases h
  · rw [if_neg he] at ho
    cases ho
    simp only [List.mem_append]
    refine ⟨fun h => h.elim (fun h => ?_) id, Or.inr⟩
    split_ifs at h
    · simp [h2] at h
    · cases h

/-- A comment that starts in a comment for the checker is reported once, and once more for each if the comment is left
out. -/
theorem C118_nested_marked (cfg : Cfg) (inner o : Text) (acts : List Act) (h0 : Char.ofNat 0 ∉ inner)
    (ho : handle cfg ('*' :: cfg.marker :: (inner ++ ['*', '/'])) = some (o, acts)) :
    acts.count .nestSyntactic = (if ['/', '*'] <:+: inner then 1 else 0)
      ∧ acts.count .nest = (if Eliminated inner then starts inner else 0) := by
  have hd : ∀ a, a = Act.nest ∨ a = Act.nestSyntactic → (directive cfg (inner ++ ['%', '}'])).1.count a = 0 := by
    intro a ha
    rw [List.count_eq_zero, directive_does]
    rintro h
    cases h <;> simp at ha
  have hop : opens (inner ++ ['%', '}']) = true ↔ ['/', '*'] <:+: inner := by
    rw [opens_iff (by simp [h0]), infix_marker]
  rw [handle_marked] at ho
  by_cases he : Eliminated inner
  · rw [if_pos he] at ho
    cases ho
    simp only [List.count_append, hd _ (Or.inl rfl), hd _ (Or.inr rfl), hop, if_pos he]
    constructor
    · split_ifs <;> simp [List.count_replicate]
    · split_ifs <;> simp
  · rw [if_neg he] at ho
    cases ho
    simp only [List.count_append, hd _ (Or.inl rfl), hd _ (Or.inr rfl), hop, if_neg he]
    constructor
    · split_ifs <;> simp
    · split_ifs <;> simp

example : handle exAt c!"*@null /* x @*/" = some (c!" %{null /* x  %}", [.nestSyntactic])
    ∧ (handle exAt c!"*@notfunction /* x @*/").map (·.2) = some [.nestSyntactic, .notfunction, .nest] := by decide

/-- No comment sets the flag `nestcomment` in the preprocessor, which is the only one to look at it. -/
theorem C118_nestcomment_never (cfg : Cfg) (r : Text) (s : Skip) (h : skip r = .comment s) (o : Text) (acts : List Act)
    (ho : handle cfg s.text = some (o, acts)) (x : Char) : .setFlag c!"nestcomment" x ∉ acts := by
  by_cases hs : ∃ t, Syntactic cfg.marker s.text t
  · obtain ⟨t, ht⟩ := hs
    by_cases he : ∃ inner, t = inner ++ ['*', '/']
    · obtain ⟨inner, rfl⟩ := he
      unfold Syntactic at ht
      rw [ht] at ho
      rw [C118_does cfg inner o acts ho _ (by simp) (by simp)]
      intro h
      cases h with
      | setFlag _ hf _ => revert hf; decide
    · have := (C118_fails_exactly cfg r s h).2 ⟨t, ht, he⟩
      rw [this] at ho
      cases ho
  · rw [handle_plain (fun t ht => hs ⟨t, ht⟩)] at ho
    unfold remove at ho
    split at ho
    · split_ifs at ho
      cases ho
      simp
    · cases ho
      rw [nests_eq]
      simp [List.mem_replicate]

example : handle exAt c!"*@-nestcomment@*/" = some (c!" %{-nestcomment %}", [])
    ∧ handle exAt c!"*@-namechecks@*/" = some (c!" %{-namechecks %}", [.setFlag c!"namechecks" '-']) := by decide

/-- Other comments become blanks, and every `/*` in them is reported. -/
theorem C118_plain (cfg : Cfg) (text : Text) (hs : ∀ t, ¬ Syntactic cfg.marker text t)
    (hl : cfg.lintcomments = true → lintName text = none) :
    ∃ o, handle cfg text = some (o, List.replicate (starts text) .nest) ∧ ∀ c ∈ o, c = ' ' ∨ c = '\n' := by
  rw [handle_plain hs]
  unfold remove
  have : (if cfg.lintcomments then lintName text else none) = none := by
    split_ifs with h
    · exact hl h
    · rfl
  rw [this, nests_eq]
  refine ⟨_, rfl, fun c hc => ?_⟩
  rcases List.mem_cons.1 hc with h | h
  · exact Or.inl h
  · exact blanks_mem h

/-- also in comments to the end of the line, where it means nothing -/
example : skip c!"/ a /* b\n" = .comment ⟨c!"/ a /* b", 0, c!"\n"⟩
    ∧ handle exAt c!"/ a /* b" = some (c!"         ", [.nest]) ∧ handle exAt c!"* a /* b */" = some (blanks c!"/* a /* b */", [.nest]) := by decide

/-- The comments of lint are written as the words that the scanner knows. -/
theorem C118_lint (cfg : Cfg) (hl : cfg.lintcomments = true)
    (hm : cfg.marker ∉ [ 'N', 'P', 'F', 'A']) :
    handle cfg c!"*NOTREACHED*/" = some (c!"%{l_notreach%}", []) ∧ handle cfg c!"*PRINTFLIKE*/" = some (c!"%{l_printfli%}", [])
      ∧ handle cfg c!"*FALLTHROUGH*/" = some (c!"%{l_fallthrou%}", []) ∧ handle cfg c!"*ARGSUSED*/" = some (c!"%{l_argsus%}", [])
      ∧ handle cfg c!"*FALLTHRU*/" = some (c!"%{l_fallth%}", []) := by
  obtain ⟨m, n, l⟩ := cfg
  simp only [List.mem_cons, List.not_mem_nil, or_false, not_or] at hm
  subst hl
  refine ⟨?_, ?_, ?_, ?_, ?_⟩
  · rw [handle_plain]
    · rfl
    · intro t h; simp only [Syntactic, List.cons.injEq] at h; exact hm.1 h.2.1.symm
  · rw [handle_plain]
    · rfl
    · intro t h; simp only [Syntactic, List.cons.injEq] at h; exact hm.2.1 h.2.1.symm
  · rw [handle_plain]
    · rfl
    · intro t h; simp only [Syntactic, List.cons.injEq] at h; exact hm.2.2.1 h.2.1.symm
  · rw [handle_plain]
    · rfl
    · intro t h; simp only [Syntactic, List.cons.injEq] at h; exact hm.2.2.2 h.2.1.symm
  · rw [handle_plain]
    · rfl
    · intro t h; simp only [Syntactic, List.cons.injEq] at h; exact hm.2.2.1 h.2.1.symm

/-- Only a comment whose first word is `end` ends a region where nothing is reported. -/
def C118_end_full : Prop :=
  ∀ (cfg : Cfg) (inner o : Text) (acts : List Act),
    handle cfg ('*' :: cfg.marker :: (inner ++ ['*', '/'])) = some (o, acts) → .suppressOff ∈ acts →
      (inner.takeWhile Char.isAlpha) = c!"end"

theorem C118_end_full_is_false : ¬ C118_end_full := by
  intro h
  exact absurd (h exAt c!"endpoint@" c!" %{endpoint %}" [.suppressOff] (by decide) (by decide)) (by decide)

end Splint
