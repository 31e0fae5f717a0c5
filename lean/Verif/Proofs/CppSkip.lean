import Verif.Spec.CppSkip
namespace Splint.CppSkip

theorem hspace_eq (c : Char) : hspace c = isHSpace c := by
  rw [Bool.eq_iff_iff]
  simp [hspace, isHSpace, or_assoc]

theorem idchar_eq (c : Char) : idchar c = isIdChar c := by
  simp only [idchar, isIdChar, Char.isAlphanum, Char.isAlpha, Char.isUpper, Char.isLower, Char.isDigit]
  simp only [Char.le_def]
  generalize (c == '_') = x
  generalize (c == '$') = y
  rw [Bool.eq_iff_iff]
  simp only [Bool.or_eq_true, Bool.and_eq_true, decide_eq_true_eq]
  tauto

/-! ### Comments -/

theorem splice_nil_last : ∀ t : List Char, splice t = [] → t.getLast? ≠ some '/' := by
  intro t
  fun_induction splice t with
  | case1 t ih =>
    intro h
    have := ih h
    cases t with
    | nil => simp
    | cons c t => simpa [List.getLast?_cons_cons] using this
  | case2 c t _ _ => simp
  | case3 => simp

theorem block_step {p c : Char} {b a : List Char} (h : ¬ (c = '\\' ∧ a.head? = some '\n')) :
    block p b (c :: a) = if p = '*' ∧ c = '/' then (.space, (c :: b, a)) else block c (c :: b) a := by
  rw [block.eq_def]
  split
  · rename_i heq; simp at heq
  · rename_i heq
    simp only [List.cons.injEq] at heq
    obtain ⟨rfl, rfl⟩ := heq
    exact absurd ⟨rfl, rfl⟩ h
  · rename_i heq
    simp only [List.cons.injEq] at heq
    obtain ⟨rfl, rfl⟩ := heq
    rfl

theorem block_comment : ∀ (t : List Char) (p : Char) (b a : List Char),
    (∃ v, p :: splice t = v ++ ['*', '/']) → ¬ ['*', '/'] <:+: (p :: splice t).dropLast → t.getLast? = some '/' →
    block p b (t ++ a) = (.space, (t.reverse ++ b, a)) := by
  intro t
  fun_induction splice t with
  | case1 t ih =>
    intro p b a h1 h2 h3
    rw [List.cons_append, List.cons_append, block]
    rw [ih p _ a h1 h2 ?_]
    · simp
    · cases t with
      | nil =>
        obtain ⟨v, hv⟩ := h1
        have := congrArg List.length hv
        simp [splice] at this
      | cons c t => simpa [List.getLast?_cons_cons] using h3
  | case2 c t hn ih =>
    intro p b a h1 h2 h3
    have hc : ¬ (c = '\\' ∧ (t ++ a).head? = some '\n') := by
      rintro ⟨rfl, hh⟩
      cases t with
      | nil => simp at h3
      | cons d t =>
        simp only [List.cons_append, List.head?_cons, Option.some.injEq] at hh
        subst hh
        exact hn t rfl rfl
    rw [List.cons_append, block_step hc]
    by_cases hpc : p = '*' ∧ c = '/'
    · rw [if_pos hpc]
      obtain ⟨rfl, rfl⟩ := hpc
      have : splice t = [] := by
        by_contra hne
        apply h2
        obtain ⟨d, r, hd⟩ := List.exists_cons_of_ne_nil hne
        rw [hd]
        simp only [List.dropLast_cons_cons]
        exact ⟨[], (d :: r).dropLast, by simp⟩
      have htn : t = [] := by
        by_contra hne
        have := splice_nil_last t this
        apply this
        obtain ⟨d, r, rfl⟩ := List.exists_cons_of_ne_nil hne
        simpa [List.getLast?_cons_cons] using h3
      subst htn
      simp
    · rw [if_neg hpc]
      have hst : splice t ≠ [] ∨ t = [] := by
        by_cases ht : t = []
        · right; exact ht
        · left
          intro hs
          have := splice_nil_last t hs
          apply this
          obtain ⟨d, r, rfl⟩ := List.exists_cons_of_ne_nil ht
          simpa [List.getLast?_cons_cons] using h3
      obtain ⟨v, hv⟩ := h1
      cases v with
      | nil =>
        simp only [List.nil_append, List.cons.injEq] at hv
        exact absurd ⟨hv.1, hv.2.1⟩ hpc
      | cons w v =>
        simp only [List.cons_append, List.cons.injEq] at hv
        have hne : t ≠ [] := by
          rintro rfl
          simp only [splice] at hv
          have := congrArg List.length hv.2
          simp at this
        rw [ih c (c :: b) a ⟨v, hv.2⟩ ?_ ?_]
        · simp
        · intro hin
          apply h2
          rw [List.dropLast_cons_cons]
          obtain ⟨x, y, hxy⟩ := hin
          exact ⟨p :: x, y, by rw [← hxy]; simp⟩
        · obtain ⟨d, r, rfl⟩ := List.exists_cons_of_ne_nil hne
          simpa [List.getLast?_cons_cons] using h3
  | case3 =>
    intro p b a h1 h2 h3
    simp at h3

theorem skipCont_no {b a : List Char} (h : ¬ ['\\', '\n'] <+: a) : skipCont b a = (b, a) := by
  unfold skipCont
  split
  · rename_i a'; exact absurd ⟨a', rfl⟩ h
  · rfl

theorem skipComment_block {t : List Char} (h : Comment t) (b a : List Char) :
    skipComment b ('*' :: (t ++ a)) = (.space, (t.reverse ++ '*' :: b, a)) := by
  unfold skipComment
  rw [skipCont_no (by rintro ⟨x, hx⟩; simp at hx)]
  simp only
  obtain ⟨⟨u, h1, h2⟩, h3⟩ := h
  refine block_comment t _ _ a ⟨'\x00' :: u, by rw [h1]; rfl⟩ ?_ h3
  rw [h1]
  have : ('\x00' :: (u ++ ['*', '/'])).dropLast = '\x00' :: (u ++ ['*']) := by
    rw [show '\x00' :: (u ++ ['*', '/']) = ('\x00' :: (u ++ ['*'])) ++ ['/'] by simp, List.dropLast_concat]
  rw [this]
  rintro ⟨x, y, hxy⟩
  cases x with
  | nil => simp at hxy
  | cons c x =>
    simp only [List.cons_append, List.cons.injEq] at hxy
    exact h2 ⟨x, y, hxy.2⟩

theorem skipComment_slash {l : List Char} (h : ∀ c, l.head? = some c → c ∉ ['*', '/', '\\']) (b a : List Char)
    (ha : l = [] → ∃ a', a = '\n' :: a') : skipComment b (l ++ a) = (.slash, (b, l ++ a)) := by
  unfold skipComment
  cases l with
  | nil =>
    obtain ⟨a', rfl⟩ := ha rfl
    rw [List.nil_append, skipCont_no (by rintro ⟨x, hx⟩; simp at hx)]
    rfl
  | cons c l =>
    have := h c rfl
    simp only [List.mem_cons, List.not_mem_nil, or_false, not_or] at this
    rw [skipCont_no (by rintro ⟨x, hx⟩; simp at hx; exact this.2.2 hx.1.symm)]
    split
    · rename_i heq; simp only [Prod.mk.injEq, List.cons_append, List.cons.injEq] at heq; exact absurd heq.2.1 this.1
    · rename_i heq; simp only [Prod.mk.injEq, List.cons_append, List.cons.injEq] at heq; exact absurd heq.2.1 this.2.1
    · rfl

theorem lineCom_step {c : Char} {b a : List Char} (h1 : c ≠ '\n') (h : ¬ (c = '\\' ∧ a.head? = some '\n')) :
    lineCom b (c :: a) = lineCom (c :: b) a := by
  rw [lineCom.eq_def]
  split
  · rename_i heq; simp at heq
  · rename_i heq
    simp only [List.cons.injEq] at heq
    obtain ⟨rfl, rfl⟩ := heq
    exact absurd ⟨rfl, rfl⟩ h
  · rename_i heq
    simp only [List.cons.injEq] at heq
    exact absurd heq.1 h1
  · rename_i heq
    simp only [List.cons.injEq] at heq
    obtain ⟨rfl, rfl⟩ := heq
    rfl

theorem lineCom_comment {t : List Char} (h : LineComment t) : ∀ (b a : List Char),
    lineCom b (t ++ '\n' :: a) = (.space, (t.reverse ++ b, '\n' :: a)) := by
  induction h with
  | nil => intro b a; rfl
  | char h1 h2 _ ih =>
    intro b a
    rw [List.cons_append, lineCom_step h1 (fun h => h2 h.1), ih]
    simp
  | cont _ ih =>
    intro b a
    rw [List.cons_append, List.cons_append, lineCom, ih]
    simp
  | backslash h1 _ ih =>
    intro b a
    rw [List.cons_append, lineCom_step (by decide) (fun h => h1 (by simpa using h.2)), ih]
    simp

theorem skipComment_line {t : List Char} (h : LineComment t) (b a : List Char) :
    skipComment b ('/' :: (t ++ '\n' :: a)) = (.space, (t.reverse ++ '/' :: b, '\n' :: a)) := by
  unfold skipComment
  rw [skipCont_no (by rintro ⟨x, hx⟩; simp at hx)]
  simp only
  exact lineCom_comment h _ _

/-! ### White space -/

theorem skipHspace_white {w : List Char} (h : White w) : ∀ (b a : List Char),
    skipHspace b (w ++ a) = skipHspace (w.reverse ++ b) a := by
  induction h with
  | nil => intro b a; rfl
  | space hc _ ih =>
    intro b a
    rw [List.cons_append, skipHspace, if_pos (by rw [← hspace_eq]; exact hc), ih]
    simp
  | cont _ ih =>
    intro b a
    rw [List.cons_append, List.cons_append, skipHspace, if_neg (by decide), if_neg (by decide), if_pos (by simp)]
    simp only [List.tail_cons]
    rw [ih]
    simp
  | @comment t w ht _ ih =>
    intro b a
    have hc := skipComment_block ht ('/' :: b) (w ++ a)
    have : '/' :: '*' :: (t ++ w) ++ a = '/' :: ('*' :: (t ++ (w ++ a))) := by simp
    rw [this, skipHspace, if_neg (by decide), if_pos rfl]
    split
    · rename_i z heq
      rw [hc, Prod.mk.injEq] at heq
      rw [← heq.2]
      simp only
      rw [ih]
      simp
    · rename_i z heq; rw [hc] at heq; simp at heq
    · rename_i z heq; rw [hc] at heq; simp at heq

/-- White space ends at a character that is not white. -/
theorem skipHspace_stop {b : List Char} {c : Char} {a : List Char} (h1 : isHSpace c = false) (h2 : c ≠ '/')
    (h3 : ¬ (c = '\\' ∧ a.head? = some '\n')) : skipHspace b (c :: a) = (b, c :: a) := by
  rw [skipHspace, if_neg (by simp [h1]), if_neg h2, if_neg h3]

theorem skipHspace_slash {b a : List Char} (h : skipComment ('/' :: b) a = (.slash, ('/' :: b, a))) :
    skipHspace b ('/' :: a) = (b, '/' :: a) := by
  rw [skipHspace, if_neg (by decide), if_pos rfl]
  split
  · rename_i z heq; rw [h] at heq; simp at heq
  · rename_i z heq; rw [h, Prod.mk.injEq] at heq; rw [← heq.2]; rfl
  · rename_i z heq; rw [h] at heq; simp at heq

theorem skipHspace_line {t : List Char} (h : LineComment t) (b a : List Char) :
    skipHspace b ('/' :: '/' :: (t ++ '\n' :: a)) = (t.reverse ++ '/' :: '/' :: b, '\n' :: a) := by
  have hc := skipComment_line h ('/' :: b) a
  rw [skipHspace, if_neg (by decide), if_pos rfl]
  split
  · rename_i z heq
    rw [hc, Prod.mk.injEq] at heq
    rw [← heq.2]
    simp only
    rw [skipHspace_stop (by decide) (by decide) (by simp)]
  · rename_i z heq; rw [hc] at heq; simp at heq
  · rename_i z heq; rw [hc] at heq; simp at heq

/-! ### Strings -/

theorem fixChar_step {b : List Char} {c : Char} {a : List Char} (h : ¬ (c = '\\' ∧ a.head? = some '\n')) :
    fixChar b (c :: a) = (c :: b, a) := by
  rw [fixChar.eq_def]
  split
  · rename_i heq; simp at heq
  · rename_i heq
    simp only [List.cons.injEq] at heq
    obtain ⟨rfl, rfl⟩ := heq
    exact absurd ⟨rfl, rfl⟩ h
  · rename_i heq
    simp only [List.cons.injEq] at heq
    obtain ⟨rfl, rfl⟩ := heq
    rfl

theorem fixChar_conts {c : Char} {a : List Char} (h : ¬ (c = '\\' ∧ a.head? = some '\n')) : ∀ (n : Nat) (b : List Char),
    fixChar b (conts n ++ c :: a) = (c :: ((conts n).reverse ++ b), a) := by
  intro n
  induction n with
  | zero => intro b; simp only [conts, List.nil_append, List.reverse_nil]; exact fixChar_step h
  | succ n ih =>
    intro b
    simp only [conts, List.cons_append, fixChar]
    rw [ih]
    simp

theorem quoted_body {q : Char} (hq : q = '"' ∨ q = '\'') {t : List Char} (h : Quoted q t) : ∀ (b a : List Char),
    quoted q b (t ++ q :: a) = (q :: (t.reverse ++ b), a) := by
  have hq1 : q ≠ '\n' := by rcases hq with rfl | rfl <;> decide
  have hq2 : q ≠ '\\' := by rcases hq with rfl | rfl <;> decide
  induction h with
  | nil => intro b a; rw [List.nil_append, quoted, if_neg hq1, if_neg hq2, if_pos rfl]; rfl
  | char h1 h2 h3 _ ih =>
    intro b a
    rw [List.cons_append, quoted, if_neg h2, if_neg h3, if_neg h1, ih]
    simp
  | cont _ ih =>
    intro b a
    rw [List.cons_append, List.cons_append, quoted, if_neg (by decide), if_pos rfl, if_pos (by simp)]
    simp only [List.tail_cons]
    rw [ih]
    simp
  | @esc c l n h1 h2 _ ih =>
    intro b a
    have hc : ¬ (c = '\\' ∧ (l ++ q :: a).head? = some '\n') := by
      rintro ⟨rfl, hh⟩
      cases l with
      | nil => simp at hh; exact hq1 hh
      | cons d l => exact h2 ⟨rfl, by simpa using hh⟩
    have e : '\\' :: (conts n ++ c :: l) ++ q :: a = '\\' :: (conts n ++ c :: (l ++ q :: a)) := by simp
    have hhd : (conts n ++ c :: (l ++ q :: a)).head? ≠ some '\n' := by
      cases n with
      | zero => simpa [conts] using h1
      | succ n => simp [conts]
    rw [e, quoted, if_neg (by decide), if_pos rfl, if_neg hhd, fixChar_conts hc]
    simp only
    rw [ih]
    simp

/-! ### The rest of a line -/

theorem skipLine_lexed {t : List Char} (h : Lexed t) : ∀ (b a : List Char),
    skipLine b (t ++ '\n' :: a) = some ('\n' :: (t.reverse ++ b), a) := by
  induction h with
  | nil =>
    intro b a
    rw [List.nil_append, skipLine, if_neg (by decide), if_neg (by decide), if_neg (by simp), if_pos rfl]
    rfl
  | char h1 _ ih =>
    intro b a
    simp only [List.mem_cons, List.not_mem_nil, or_false, not_or] at h1
    rw [List.cons_append, skipLine, if_neg h1.2.2.2.2, if_neg (by simp [h1]), if_neg (fun h => h1.2.1 h.1), if_neg h1.1, ih]
    simp
  | @slash l h1 _ ih =>
    intro b a
    have hc := skipComment_slash h1 ('/' :: b) ('\n' :: a) (fun _ => ⟨a, rfl⟩)
    rw [List.cons_append, skipLine, if_pos rfl]
    split
    · rename_i heq; rw [hc] at heq; simp at heq
    · rename_i heq
      rw [hc, Prod.mk.injEq] at heq
      rw [← heq.2]
      simp only
      rw [ih]
      simp
  | cont _ ih =>
    intro b a
    rw [List.cons_append, List.cons_append, skipLine, if_neg (by decide), if_neg (by decide), if_pos (by simp)]
    simp only [List.tail_cons]
    rw [ih]
    simp
  | backslash h1 _ ih =>
    intro b a
    rw [List.cons_append, skipLine, if_neg (by decide), if_neg (by decide), if_neg (fun h => h1 (by simpa using h.2)),
      if_neg (by decide), ih]
    simp
  | @quoted q t l hq ht _ ih =>
    intro b a
    have e : q :: (t ++ q :: l) ++ '\n' :: a = q :: (t ++ q :: (l ++ '\n' :: a)) := by simp
    have h1 : q ≠ '/' := by rcases hq with rfl | rfl <;> decide
    rw [e, skipLine, if_neg h1, if_pos hq, quoted_body hq ht]
    simp only
    rw [ih]
    simp
  | @comment t l ht _ ih =>
    intro b a
    have e : '/' :: '*' :: (t ++ l) ++ '\n' :: a = '/' :: ('*' :: (t ++ (l ++ '\n' :: a))) := by simp
    have hc := skipComment_block ht ('/' :: b) (l ++ '\n' :: a)
    rw [e, skipLine, if_pos rfl]
    split
    · rename_i heq; rw [hc] at heq; simp at heq
    · rename_i heq
      rw [hc, Prod.mk.injEq] at heq
      rw [← heq.2]
      simp only
      rw [ih]
      simp
  | @line t ht =>
    intro b a
    have e : '/' :: '/' :: t ++ '\n' :: a = '/' :: ('/' :: (t ++ '\n' :: a)) := by simp
    have hc := skipComment_line ht ('/' :: b) a
    rw [e, skipLine, if_pos rfl]
    split
    · rename_i heq; rw [hc] at heq; simp at heq
    · rename_i heq
      rw [hc, Prod.mk.injEq] at heq
      rw [← heq.2]
      simp only
      rw [skipLine, if_neg (by decide), if_neg (by decide), if_neg (by simp), if_pos rfl]
      simp

/-! ### Names -/

theorem parseName_name : ∀ (n r b : List Char), (∀ c ∈ n, isIdChar c = true) → (∀ c, r.head? = some c → isIdChar c = false) →
    ¬ ['\\', '\n'] <+: r → parseName b (n ++ r) = (n, (n.reverse ++ b, r)) := by
  intro n
  induction n with
  | nil =>
    intro r b _ h1 h2
    cases r with
    | nil => rfl
    | cons c r =>
      rw [List.nil_append, parseName, if_neg (by simp [h1 c rfl]), if_neg]
      · rfl
      · rintro ⟨rfl, hh⟩
        cases r with
        | nil => simp at hh
        | cons d r => simp at hh; subst hh; exact h2 ⟨r, rfl⟩
  | cons c n ih =>
    intro r b h h1 h2
    rw [List.cons_append, parseName, if_pos (h c (by simp))]
    simp only [ih r (c :: b) (fun c hc => h c (by simp [hc])) h1 h2]
    simp

theorem isIdChar_not_white {c : Char} (h : isIdChar c = true) : isHSpace c = false ∧ c ≠ '/' ∧ c ≠ '\\' ∧ c ≠ '\n' := by
  refine ⟨?_, ?_, ?_, ?_⟩
  · by_contra hc
    simp only [isHSpace, Bool.not_eq_false, Bool.or_eq_true, beq_iff_eq] at hc
    rcases hc with (((rfl | rfl) | rfl) | rfl) | rfl <;> exact absurd h (by decide)
  · rintro rfl; exact absurd h (by decide)
  · rintro rfl; exact absurd h (by decide)
  · rintro rfl; exact absurd h (by decide)

/-! ### Lines -/

/-- White space ends where it should, or a comment to the end of the line does. -/
theorem skipHspace_text {t : List Char} (ht : Lexed t) (hn : NotWhite t) (b a : List Char) :
    (∃ t1, skipHspace b (t ++ '\n' :: a) = (b, t ++ '\n' :: a) ∧ t1 = t) ∨
    skipHspace b (t ++ '\n' :: a) = (t.reverse ++ b, '\n' :: a) := by
  obtain ⟨h1, h2, h3⟩ := hn
  cases ht with
  | nil => left; exact ⟨_, skipHspace_stop (by decide) (by decide) (by simp), rfl⟩
  | char hc _ =>
    simp only [List.mem_cons, List.not_mem_nil, or_false, not_or] at hc
    left; exact ⟨_, skipHspace_stop (by rw [← hspace_eq]; exact h1 _ rfl) hc.2.2.2.2 (fun h => hc.2.1 h.1), rfl⟩
  | @slash l hc _ =>
    left
    exact ⟨_, skipHspace_slash (skipComment_slash hc ('/' :: b) ('\n' :: a) (fun _ => ⟨a, rfl⟩)), rfl⟩
  | @cont l _ => exact absurd ⟨l, rfl⟩ h3
  | backslash hc _ =>
    left; exact ⟨_, skipHspace_stop (by decide) (by decide) (fun h => hc (by simpa using h.2)), rfl⟩
  | quoted hq _ _ =>
    left
    refine ⟨_, skipHspace_stop (by rw [← hspace_eq]; exact h1 _ rfl) ?_ ?_, rfl⟩
    · rcases hq with rfl | rfl <;> decide
    · rintro ⟨h, _⟩; rcases hq with rfl | rfl <;> exact absurd h (by decide)
  | @comment t l _ _ => exact absurd ⟨t ++ l, rfl⟩ h2
  | @line t ht =>
    right
    have := skipHspace_line ht b a
    have e : '/' :: '/' :: t ++ '\n' :: a = '/' :: '/' :: (t ++ '\n' :: a) := by simp
    rw [e, this]
    simp

theorem kindOf_eq (n : List Char) : kindOf n = dirKind n := by
  unfold kindOf dirKind conditionals
  by_cases h1 : n = "if".toList
  · subst h1; decide
  by_cases h2 : n = "ifdef".toList
  · subst h2; decide
  by_cases h3 : n = "ifndef".toList
  · subst h3; decide
  by_cases h4 : n = "elif".toList
  · subst h4; decide
  by_cases h5 : n = "else".toList
  · subst h5; decide
  by_cases h6 : n = "endif".toList
  · subst h6; decide
  have e : ∀ s : String, n ≠ s.toList → (s.toList == n) = false := fun s h => by
    simpa using fun h' => h h'.symm
  simp only [h1, h2, h3, h4, h5, h6, or_self, if_false, List.find?_cons, List.find?_nil, e _ h1, e _ h2, e _ h3, e _ h4, e _ h5, e _ h6,
    Option.map_none, Option.getD_none]

/-- What a line does to the depth. -/
def after (d : Nat) (l : SLine) : Nat :=
  match l.kind, d with
  | .opens, d => d + 1
  | .endif, d + 1 => d
  | _, d => d

theorem oneLine_text {w t : List Char} (h : (SLine.text w t).Valid) (d : Nat) (b a : List Char) :
    oneLine d (b, (SLine.text w t).chars ++ '\n' :: a) =
      .next d ('\n' :: ((SLine.text w t).chars.reverse ++ b), a) := by
  obtain ⟨h1, h2, h3, h4⟩ := h
  unfold oneLine
  simp only [SLine.chars]
  rw [List.append_assoc, skipHspace_white h1]
  have hsl := skipLine_lexed h2 (w.reverse ++ b) a
  have e : (w ++ t).reverse ++ b = t.reverse ++ (w.reverse ++ b) := by simp
  rw [e]
  rcases skipHspace_text h2 h3 (w.reverse ++ b) a with ⟨_, h, _⟩ | h
  · rw [h]
    split
    · rename_i heq; simp at heq
    · rename_i heq
      simp only [Prod.mk.injEq] at heq
      exfalso
      cases t with
      | nil => simp at heq
      | cons c t =>
        simp only [List.cons_append, List.cons.injEq] at heq
        exact h4 (by simp [heq.2.1])
    · rename_i heq
      simp only [Prod.mk.injEq] at heq
      obtain ⟨rfl, rfl⟩ := heq
      rw [hsl]; rfl
  · rw [h]
    show Line.rest d (skipLine (t.reverse ++ (w.reverse ++ b)) ('\n' :: a)) = _
    rw [skipLine, if_neg (by decide), if_neg (by decide), if_neg (by simp), if_pos rfl]
    rfl

theorem oneLine_directive {w w2 n r : List Char} (h : (SLine.directive w w2 n r).Valid) (d : Nat) (b a : List Char) :
    oneLine d (b, (SLine.directive w w2 n r).chars ++ '\n' :: a) =
      match dirKind n, d with
      | .elif, 0 | .els, 0 | .endif, 0 => .found
      | _, _ => .next (after d (.directive w w2 n r)) ('\n' :: ((SLine.directive w w2 n r).chars.reverse ++ b), a) := by
  obtain ⟨h1, h2, h3, h4, h5, h6, h7⟩ := h
  simp only [idchar_eq] at h3 h5
  unfold oneLine
  simp only [SLine.chars]
  have e1 : w ++ '#' :: (w2 ++ (n ++ r)) ++ '\n' :: a = w ++ ('#' :: (w2 ++ (n ++ (r ++ '\n' :: a)))) := by simp
  rw [e1, skipHspace_white h1, skipHspace_stop (by decide) (by decide) (by simp)]
  simp only
  rw [skipHspace_white h2]
  generalize hb' : w2.reverse ++ '#' :: (w.reverse ++ b) = b'
  have hstop : skipHspace b' (n ++ (r ++ '\n' :: a)) = (b', n ++ (r ++ '\n' :: a)) := by
    cases n with
    | nil =>
      obtain ⟨k1, k2⟩ := h7 rfl
      rw [List.nil_append]
      rcases skipHspace_text h4 k1 b' a with ⟨_, h, _⟩ | h
      · exact h
      · cases h4 with
        | line ht => exact absurd ⟨_, rfl⟩ k2
        | nil => simpa using h
        | char hc _ =>
          simp only [List.mem_cons, List.not_mem_nil, or_false, not_or] at hc
          exact skipHspace_stop (by rw [← hspace_eq]; exact k1.1 _ rfl) hc.2.2.2.2 (fun h => hc.2.1 h.1)
        | @slash l hc _ =>
          exact skipHspace_slash (skipComment_slash hc ('/' :: b') ('\n' :: a) (fun _ => ⟨a, rfl⟩))
        | @cont l _ => exact absurd ⟨l, rfl⟩ k1.2.2
        | backslash hc _ =>
          exact skipHspace_stop (by decide) (by decide) (fun h => hc (by simpa using h.2))
        | quoted hq _ _ =>
          refine skipHspace_stop (by rw [← hspace_eq]; exact k1.1 _ rfl) ?_ ?_
          · rcases hq with rfl | rfl <;> decide
          · rintro ⟨h, _⟩; rcases hq with rfl | rfl <;> exact absurd h (by decide)
        | @comment t l _ _ => exact absurd ⟨t ++ l, rfl⟩ k1.2.1
    | cons c n =>
      have hc := isIdChar_not_white (h3 c (by simp))
      exact skipHspace_stop hc.1 hc.2.1 (fun h => hc.2.2.1 h.1)
  rw [hstop]
  have hr1 : ∀ c, (r ++ '\n' :: a).head? = some c → isIdChar c = false := by
    intro c hc
    cases r with
    | nil => simp at hc; subst hc; decide
    | cons d r => exact h5 c (by simpa using hc)
  have hr2 : ¬ ['\\', '\n'] <+: r ++ '\n' :: a := by
    rintro ⟨x, hx⟩
    match r, h4, h6 with
    | [], _, _ => simp at hx
    | [c], h4, _ =>
      simp only [List.cons_append, List.nil_append, List.cons.injEq] at hx
      obtain ⟨rfl, _⟩ := hx
      generalize hl : ['\\'] = l at h4
      cases h4 with
      | nil => simp at hl
      | char hc _ => simp only [List.cons.injEq] at hl; rw [← hl.1] at hc; simp at hc
      | slash => simp at hl
      | cont => simp at hl
      | backslash => simp at hl
      | quoted hq _ _ => simp at hl
      | comment => simp at hl
      | line => simp at hl
    | c :: d :: r, _, h6 =>
      simp only [List.cons_append, List.nil_append, List.cons.injEq] at hx
      obtain ⟨rfl, rfl, _⟩ := hx
      exact h6 ⟨r, rfl⟩
  have hpn := parseName_name n (r ++ '\n' :: a) b' h3 hr1 hr2
  have hsl := skipLine_lexed h4 (n.reverse ++ b') a
  have hpos : '\n' :: (r.reverse ++ (n.reverse ++ b')) = '\n' :: ((w ++ '#' :: (w2 ++ (n ++ r))).reverse ++ b) := by
    rw [← hb']; simp
  rw [hpos] at hsl
  split
  · rename_i heq; simp at heq
  · rename_i heq
    simp only [Prod.mk.injEq] at heq
    obtain ⟨rfl, rfl⟩ := heq
    rw [hpn]
    simp only [hsl, kindOf_eq]
    cases hk : dirKind n <;> cases d <;> simp only [after, SLine.kind, hk, Line.rest]

/-- A line that does not end the group. -/
theorem oneLine_pass {l : SLine} (h : l.Valid) {d : Nat} (hd : d ≠ 0 ∨ l.kind = .opens ∨ l.kind = .other) (b a : List Char) :
    oneLine d (b, l.chars ++ '\n' :: a) = .next (after d l) ('\n' :: (l.chars.reverse ++ b), a) := by
  cases l with
  | text w t => rw [oneLine_text h]; rfl
  | directive w w2 n r =>
    rw [oneLine_directive h]
    have hd' : d ≠ 0 ∨ dirKind n = .opens ∨ dirKind n = .other := hd
    cases hk : dirKind n <;> cases d <;> simp_all

/-- A line that ends the group. -/
theorem oneLine_found {l : SLine} (h : l.Valid) (hk : l.kind = .elif ∨ l.kind = .els ∨ l.kind = .endif) (b a : List Char) :
    oneLine 0 (b, l.chars ++ '\n' :: a) = .found := by
  cases l with
  | text w t => simp [SLine.kind] at hk
  | directive w w2 n r =>
    rw [oneLine_directive h]
    have hk' : dirKind n = .elif ∨ dirKind n = .els ∨ dirKind n = .endif := hk
    rcases hk' with h | h | h <;> rw [h] <;> rfl

theorem render_append : ∀ a b : List SLine, render (a ++ b) = render a ++ render b := by
  intro a b
  induction a with
  | nil => rfl
  | cons l a ih => simp [render, ih]

/-- Passing lines. -/
def Passes (ls : List SLine) (d d' : Nat) : Prop := ∀ fuel b a,
  skipGroup (fuel + ls.length) d (b, render ls ++ a) = skipGroup fuel d' ((render ls).reverse ++ b, a)

theorem passes_nil (d : Nat) : Passes [] d d := fun _ _ _ => rfl

theorem passes_append {x y : List SLine} {d e f : Nat} (h1 : Passes x d e) (h2 : Passes y e f) : Passes (x ++ y) d f := by
  intro fuel b a
  rw [List.length_append, render_append, List.append_assoc]
  have := h1 (fuel + y.length) b (render y ++ a)
  rw [show fuel + (x.length + y.length) = fuel + y.length + x.length by omega, this, h2]
  simp

theorem passes_line {l : SLine} (h : l.Valid) {d : Nat} (hd : d ≠ 0 ∨ l.kind = .opens ∨ l.kind = .other) :
    Passes [l] d (after d l) := by
  intro fuel b a
  have e : render [l] ++ a = l.chars ++ '\n' :: a := by simp [render]
  have e2 : (render [l]).reverse ++ b = '\n' :: (l.chars.reverse ++ b) := by simp [render]
  rw [e, e2, List.length_singleton, skipGroup, oneLine_pass h hd]

theorem passes_cons {l : SLine} {ls : List SLine} (h : l.Valid) {d e : Nat} (hd : d ≠ 0 ∨ l.kind = .opens ∨ l.kind = .other)
    (h2 : Passes ls (after d l) e) : Passes (l :: ls) d e := passes_append (passes_line h hd) h2

mutual
theorem balanced_passes {ls : List SLine} (h : Balanced ls) (hv : ∀ l ∈ ls, l.Valid) (d : Nat) : Passes ls d d := by
  match h with
  | .nil => exact passes_nil d
  | @Balanced.line l ls hk hb =>
    refine passes_cons (hv l (by simp)) (.inr (.inr hk)) ?_
    have : after d l = d := by unfold after; rw [hk]
    rw [this]
    exact balanced_passes hb (fun l hl => hv l (by simp [hl])) d
  | @Balanced.group o m ls hk hm hb =>
    refine passes_cons (hv o (by simp)) (.inr (.inl hk)) ?_
    have : after d o = d + 1 := by unfold after; rw [hk]
    rw [this]
    exact passes_append (middle_passes hm (fun l hl => hv l (by simp [hl])) d)
      (balanced_passes hb (fun l hl => hv l (by simp [hl])) d)
theorem middle_passes {m : List SLine} (h : Middle m) (hv : ∀ l ∈ m, l.Valid) (d : Nat) : Passes m (d + 1) d := by
  match h with
  | @Middle.endif b e hb hk =>
    refine passes_append (balanced_passes hb (fun l hl => hv l (by simp [hl])) (d + 1)) ?_
    have := passes_line (d := d + 1) (hv e (by simp)) (.inl (by simp))
    have ha : after (d + 1) e = d := by unfold after; rw [hk]
    rw [ha] at this
    exact this
  | @Middle.next b e m hb hk hm =>
    refine passes_append (balanced_passes hb (fun l hl => hv l (by simp [hl])) (d + 1)) ?_
    refine passes_cons (hv e (by simp)) (.inl (by simp)) ?_
    have ha : after (d + 1) e = d + 1 := by unfold after; rcases hk with hk | hk <;> rw [hk]
    rw [ha]
    exact middle_passes hm (fun l hl => hv l (by simp [hl])) d
end

end Splint.CppSkip
