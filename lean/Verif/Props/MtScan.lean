import Verif.Spec.MtScan
/-!
# Proofs about the tokens of state definitions (C149)
-/
namespace Splint
namespace MtScan

theorem alpha_space {c : Char} (h : isAlpha c = true) : isSpace c = false := by
  simp only [isAlpha, isSpace, Bool.or_eq_true, Bool.and_eq_true, decide_eq_true_eq, Bool.or_eq_false_iff, beq_eq_false_iff_ne,
    Bool.and_eq_false_iff, decide_eq_false_iff_not] at *
  omega

theorem space_word {c : Char} (h : isSpace c = true) : wordChar c = false := by
  simp only [isAlpha, isDigit, isAlnum, wordChar, isSpace, Bool.or_eq_true, Bool.and_eq_true, decide_eq_true_eq, Bool.or_eq_false_iff,
    beq_eq_false_iff_ne, beq_iff_eq, Bool.and_eq_false_iff, decide_eq_false_iff_not] at *
  omega

theorem space_mark {c : Char} (h : isSpace c = true) : markChar c = false := by simp [markChar, h]

theorem alpha_mark {c : Char} (h : isAlpha c = true) : markChar c = false := by simp [markChar, isAlnum, h]

theorem alpha_slash {c : Char} (h : isAlpha c = true) : c ≠ '/' ∧ c ≠ '"' := by
  constructor <;> (rintro rfl; revert h; decide)

theorem space_slash {c : Char} (h : isSpace c = true) : c ≠ '/' := by rintro rfl; revert h; decide

theorem words_shape : ∀ s ∈ words, (match s with | [] => false | c :: l => isAlpha c && l.all wordChar) = true := by decide

theorem marks_shape : ∀ s ∈ marks, (match s with
    | [] => false
    | c :: l => !isAlpha c && !isSpace c && c != '"' && c != '/' && markChar c && !wordChar c && l.all markChar) = true := by decide

theorem marks_prefix : ∀ s ∈ marks, ∀ u ∈ marks, s.isPrefixOf u = true → s = u := by decide

/-! ### Blanks and comments -/

theorem skipComment_spec {l : List Char} : ∀ (t : List Char), CommentText t → skipComment (t ++ '*' :: '/' :: l) = some l := by
  intro t
  induction t with
  | nil => intro _; rw [List.nil_append, skipComment, if_pos ⟨rfl, rfl⟩]
  | cons x t ih =>
    intro h
    have ht : CommentText t := fun a b hab => h (x :: a) b (by rw [hab]; rfl)
    cases t with
    | nil =>
      rw [List.cons_append, List.nil_append, skipComment, if_neg (by rintro ⟨_, h⟩; revert h; decide)]
      exact ih ht
    | cons y t =>
      rw [List.cons_append, List.cons_append, skipComment, if_neg]
      · exact ih ht
      · rintro ⟨rfl, rfl⟩
        exact h [] t rfl

/-- the input does not go on with a blank or a comment -/
def Starts (l : List Char) : Prop := ∀ c r, l = c :: r → isSpace c = false ∧ c ≠ '/'

def isBlank : Gap → Bool
  | .blank _ => true
  | .comment _ => false

theorem dropWhile_gaps {l : List Char} (hl : Starts l) : ∀ (g : List Gap), (∀ x ∈ g, x.ok) →
    (gapText g ++ l).dropWhile isSpace = gapText (g.dropWhile isBlank) ++ l := by
  intro g
  induction g with
  | nil =>
    intro _
    cases l with
    | nil => rfl
    | cons c r =>
      show (c :: r).dropWhile isSpace = c :: r
      rw [List.dropWhile_cons, (hl c r rfl).1]; rfl
  | cons x g ih =>
    intro h
    cases x with
    | blank c =>
      have hc : isSpace c = true := h _ (List.mem_cons_self ..)
      rw [List.dropWhile_cons]
      simp only [isBlank, if_true]
      rw [← ih fun y hy => h y (List.mem_cons_of_mem _ hy)]
      show (c :: (gapText g ++ l)).dropWhile isSpace = _
      rw [List.dropWhile_cons, hc]; rfl
    | comment t =>
      rw [List.dropWhile_cons]
      simp only [isBlank, Bool.false_eq_true, if_false]
      show ('/' :: _ : List Char).dropWhile isSpace = _
      rw [List.dropWhile_cons]; rfl

theorem skip_other {fuel : Nat} {c : Char} {r : List Char} (h : c ≠ '/') :
    skip (fuel + 1) (c :: r) = if isSpace c then skip fuel ((c :: r).dropWhile isSpace) else some (.ok (c :: r)) := by
  rw [skip.eq_def]
  dsimp only
  rw [if_neg h]

theorem skip_spec {l : List Char} (hl : Starts l) : ∀ (fuel : Nat) (g : List Gap), (∀ x ∈ g, x.ok) → g.length < fuel →
    skip fuel (gapText g ++ l) = some (.ok l) := by
  intro fuel
  induction fuel with
  | zero => intro g _ h; omega
  | succ fuel ih =>
    intro g hg hf
    cases g with
    | nil =>
      show skip (fuel + 1) l = _
      cases l with
      | nil => rfl
      | cons c r =>
        obtain ⟨h1, h2⟩ := hl c r rfl
        rw [skip_other h2, h1]; rfl
    | cons x g =>
      have hg' : ∀ y ∈ g, y.ok := fun y hy => hg y (List.mem_cons_of_mem _ hy)
      cases x with
      | blank c =>
        have hc : isSpace c = true := hg _ (List.mem_cons_self ..)
        have hd := dropWhile_gaps hl (.blank c :: g) hg
        rw [List.dropWhile_cons] at hd
        simp only [isBlank, if_true] at hd
        have hcons : gapText (Gap.blank c :: g) ++ l = c :: (gapText g ++ l) := rfl
        rw [hcons] at hd ⊢
        rw [skip_other (space_slash hc), if_pos hc, hd]
        refine ih _ (fun y hy => hg' y ((List.dropWhile_sublist _).subset hy)) ?_
        have := (List.dropWhile_sublist (p := isBlank) (l := g)).length_le
        simp at hf; omega
      | comment t =>
        have ht : CommentText t := hg (.comment t) (List.mem_cons_self ..)
        have hcons : gapText (Gap.comment t :: g) ++ l = '/' :: '*' :: (t ++ '*' :: '/' :: (gapText g ++ l)) := by
          simp [gapText, Gap.text]
        rw [hcons, skip]
        rw [if_pos rfl, if_neg (by decide), if_pos rfl, skipComment_spec t ht]
        exact ih g hg' (by simp at hf; omega)

theorem gapText_length (g : List Gap) : g.length ≤ (gapText g).length := by
  induction g with
  | nil => simp [gapText]
  | cons x g ih =>
    have : 1 ≤ x.text.length := by cases x <;> simp [Gap.text]
    simp only [gapText, List.flatMap_cons, List.length_append, List.length_cons] at *
    omega

/-! ### Single tokens -/

theorem strLoop_spec {f : List Char} {s : List Char} (h : StrText s) : strLoop false (s ++ '"' :: f) = some (s, f) := by
  induction h with
  | nil => rw [List.nil_append, strLoop, if_neg (by decide), if_neg (by decide), if_pos rfl]
  | @esc c t _ ih =>
    rw [List.cons_append, List.cons_append, strLoop, if_neg (by decide), if_pos rfl, strLoop, if_pos rfl, ih]
    rfl
  | @plain c t h1 h2 _ ih =>
    rw [List.cons_append, strLoop, if_neg (by decide), if_neg h1, if_neg h2, ih]
    rfl

theorem takeWhile_stop {p : Char → Bool} : ∀ (l : List Char) {f : List Char}, l.all p = true → (∀ c r, f = c :: r → p c = false) →
    (l ++ f).takeWhile p = l ∧ (l ++ f).dropWhile p = f := by
  intro l
  induction l with
  | nil =>
    intro f _ hf
    cases f with
    | nil => exact ⟨rfl, rfl⟩
    | cons c r => simp [hf c r rfl]
  | cons a l ih =>
    intro f hl hf
    simp only [List.all_cons, Bool.and_eq_true] at hl
    obtain ⟨h1, h2⟩ := ih hl.2 hf
    simp [List.cons_append, List.takeWhile_cons, List.dropWhile_cons, hl.1, h1, h2]

theorem takeWhile_more {p : Char → Bool} : ∀ (l : List Char) {f : List Char}, l.all p = true →
    (l ++ f).takeWhile p = l ++ f.takeWhile p := by
  intro l
  induction l with
  | nil => intro f _; rfl
  | cons a l ih =>
    intro f hl
    simp only [List.all_cons, Bool.and_eq_true] at hl
    simp [List.cons_append, List.takeWhile_cons, hl.1, ih hl.2]

theorem word_tok {t : Tok} (ht : t.ok) (hw : t.isWord = true) : ∃ c l, t.text = c :: l ∧ isAlpha c = true ∧ l.all wordChar = true ∧
    t = (if lookup (c :: l) then .known (c :: l) else .ident (c :: l)) := by
  cases t with
  | known s =>
    have hs : s ∈ words := by simpa [Tok.isWord] using hw
    have := words_shape s hs
    cases s with
    | nil => cases this
    | cons c l =>
      simp only [Bool.and_eq_true] at this
      refine ⟨c, l, rfl, this.1, this.2, ?_⟩
      have hl : lookup (c :: l) = true := by simp [lookup, List.contains_iff_mem, hs]
      rw [if_pos hl]
  | ident s =>
    obtain ⟨⟨c, l, rfl, h1, h2⟩, h3⟩ := ht
    refine ⟨c, l, rfl, h1, List.all_eq_true.2 h2, ?_⟩
    have hm : c :: l ∉ marks := by
      intro hm
      have := marks_shape _ hm
      simp [h1] at this
    rw [if_neg]
    simp [lookup, h3, hm]
  | strLit s => cases hw
  | bad => cases hw
  | eof => cases hw

theorem mark_tok {t : Tok} (ht : t.isMark = true) : ∃ c l, t = .known (c :: l) ∧ c :: l ∈ marks ∧ isAlpha c = false ∧ isSpace c = false ∧
    c ≠ '"' ∧ c ≠ '/' ∧ markChar c = true ∧ wordChar c = false ∧ l.all markChar = true := by
  cases t with
  | known s =>
    have hs : s ∈ marks := by simpa [Tok.isMark] using ht
    have := marks_shape s hs
    cases s with
    | nil => cases this
    | cons c l =>
      simp only [Bool.and_eq_true, Bool.not_eq_true', bne_iff_ne, ne_eq] at this
      obtain ⟨⟨⟨⟨⟨⟨h1, h2⟩, h3⟩, h4⟩, h5⟩, h6⟩, h7⟩ := this
      exact ⟨c, l, rfl, hs, h1, h2, h3, h4, h5, h6, h7⟩
  | ident s => cases ht
  | strLit s => cases ht
  | bad => cases ht
  | eof => cases ht

theorem tok_kinds {t : Tok} (ht : t.ok) : t.isWord = true ∨ t.isMark = true ∨ ∃ s, t = .strLit s ∧ StrText s := by
  cases t with
  | known s => rcases ht with h | h <;> simp [Tok.isWord, Tok.isMark, h]
  | ident s => exact Or.inl rfl
  | strLit s => exact Or.inr (Or.inr ⟨s, rfl, ht⟩)
  | bad => cases ht
  | eof => cases ht

/-- How the text of a token begins. -/
theorem tok_start {t : Tok} (ht : t.ok) : ∃ c l, t.text = c :: l ∧ isSpace c = false ∧ c ≠ '/' ∧
    (t.isWord = false → wordChar c = false ∧ markChar c = true) ∧ (t.isWord = true → markChar c = false) := by
  rcases tok_kinds ht with hw | hm | ⟨s, rfl, _⟩
  · obtain ⟨c, l, h1, h2, _⟩ := word_tok ht hw
    exact ⟨c, l, h1, alpha_space h2, (alpha_slash h2).1, (fun h => by rw [hw] at h; cases h), fun _ => alpha_mark h2⟩
  · obtain ⟨c, l, rfl, hc, h1, h2, h3, h4, h5, h6, _⟩ := mark_tok hm
    refine ⟨c, l, rfl, h2, h4, fun _ => ⟨h6, h5⟩, fun hw => ?_⟩
    obtain ⟨c', l', h7, h8, _⟩ := word_tok ht hw
    rw [← (List.cons.inj h7).1] at h8
    rw [h8] at h1; cases h1
  · refine ⟨'"', s ++ ['"'], rfl, by decide, by decide, fun _ => by decide, fun h => by cases h⟩

/-- what comes behind a token -/
def After (t : Tok) (f : List Char) : Prop :=
  (t.isWord = true → ∀ c r, f = c :: r → wordChar c = false) ∧ (t.isMark = true → ∀ c r, f = c :: r → markChar c = false)

theorem token_spec {t : Tok} (ht : t.ok) {f : List Char} (hf : After t f) : token (t.text ++ f) = .ok (t, f) := by
  rcases tok_kinds ht with hw | hm | ⟨s, rfl, hs⟩
  · obtain ⟨c, l, h1, h2, h3, h4⟩ := word_tok ht hw
    rw [h1, List.cons_append, token, if_neg (alpha_slash h2).2, if_pos h2]
    obtain ⟨g1, g2⟩ := takeWhile_stop l h3 (hf.1 hw)
    rw [g1, g2]
    dsimp only
    rw [← h4]
  · obtain ⟨c, l, rfl, hc, h1, h2, h3, h4, h5, h6, h7⟩ := mark_tok hm
    obtain ⟨g1, g2⟩ := takeWhile_stop l h7 (hf.2 hm)
    show token (c :: (l ++ f)) = _
    rw [token, if_neg h3, h1]
    simp only [Bool.false_eq_true, if_false]
    rw [g1, g2, if_pos (by simp [lookup, hc])]
  · show token ('"' :: (s ++ ['"'] ++ f)) = _
    rw [token, if_pos rfl, List.append_assoc, List.singleton_append, strLoop_spec hs]

/-- A mark with more characters of its kind behind it is not recognised. -/
theorem token_joined {t : Tok} (ht : t.isMark = true) {x : Char} {f : List Char} (hx : markChar x = true) :
    ∃ f', token (t.text ++ x :: f) = .ok (.bad, f') := by
  obtain ⟨c, l, rfl, hc, h1, h2, h3, h4, h5, h6, h7⟩ := mark_tok ht
  refine ⟨(l ++ x :: f).dropWhile markChar, ?_⟩
  show token (c :: (l ++ x :: f)) = _
  rw [token, if_neg h3, h1]
  simp only [Bool.false_eq_true, if_false]
  rw [takeWhile_more l h7, if_neg]
  intro hl
  simp only [lookup, Bool.or_eq_true, List.contains_iff_mem] at hl
  rcases hl with hl | hl
  · have := words_shape _ hl
    simp [h1] at this
  · have hp := marks_prefix (c :: l) hc _ hl (by simp [List.isPrefixOf_iff_prefix])
    have := congrArg List.length hp
    rw [List.takeWhile_cons, hx] at this
    simp at this

/-! ### C149 -/

theorem render_start {ts : List (Tok × List Gap)} (h : ∀ p ∈ ts, p.1.ok) : Starts (render ts) := by
  cases ts with
  | nil => intro c r hc; cases hc
  | cons p ts =>
    obtain ⟨t, g⟩ := p
    obtain ⟨c, l, h1, h2, h3, _⟩ := tok_start (h (t, g) (List.mem_cons_self ..))
    intro c' r' hc
    simp only [render] at hc
    rw [h1, List.cons_append, List.cons_append] at hc
    rw [← (List.cons.inj hc).1]
    exact ⟨h2, h3⟩

theorem gap_start {g : List Gap} (hg : ∀ x ∈ g, x.ok) (hne : g ≠ []) : ∃ c r, gapText g = c :: r ∧
    ((∃ g', g = .blank c :: g' ∧ isSpace c = true) ∨ c = '/') := by
  cases g with
  | nil => exact absurd rfl hne
  | cons x g =>
    cases x with
    | blank c => exact ⟨c, gapText g, rfl, Or.inl ⟨g, rfl, hg _ (List.mem_cons_self ..)⟩⟩
    | comment t => exact ⟨'/', _, rfl, Or.inr rfl⟩

/-- what `Spaced` says of the first token -/
def SpacedAt (t : Tok) (g : List Gap) (r : List (Tok × List Gap)) : Prop :=
  t.isMark = true → (∃ c g', g = .blank c :: g') ∨ (g = [] ∧ ∀ t' g' r', r = (t', g') :: r' → t'.isWord = true)

theorem after_spec {t : Tok} {g : List Gap} {r : List (Tok × List Gap)} (hg : ∀ x ∈ g, x.ok) (hr : ∀ p ∈ r, p.1.ok)
    (hc : Clear ((t, g) :: r)) (hs : SpacedAt t g r) : After t (gapText g ++ render r) := by
  constructor
  · intro hw c f hf
    by_cases hne : g = []
    · subst hne
      cases r with
      | nil => cases hf
      | cons p r =>
        obtain ⟨t', g'⟩ := p
        obtain ⟨c', l, h1, _, _, h4, _⟩ := tok_start (hr (t', g') (List.mem_cons_self ..))
        have hf' : t'.text ++ gapText g' ++ render r = c :: f := hf
        rw [h1, List.cons_append, List.cons_append] at hf'
        rw [← (List.cons.inj hf').1]
        refine (h4 ?_).1
        by_contra hq
        have hq : t'.isWord = true := by simpa using hq
        exact hc.1 hw hq rfl
    · obtain ⟨c', r', h1, h2⟩ := gap_start hg hne
      rw [h1, List.cons_append] at hf
      rw [← (List.cons.inj hf).1]
      rcases h2 with ⟨_, _, h2⟩ | rfl
      · exact space_word h2
      · decide
  · intro hm c f hf
    rcases hs hm with ⟨c', g', rfl⟩ | ⟨rfl, hn⟩
    · have hc' : isSpace c' = true := hg _ (List.mem_cons_self ..)
      have hf' : c' :: (gapText g' ++ render r) = c :: f := hf
      rw [← (List.cons.inj hf').1]
      exact space_mark hc'
    · cases r with
      | nil => cases hf
      | cons p r =>
        obtain ⟨t', g'⟩ := p
        obtain ⟨c', l, h1, _, _, _, h5⟩ := tok_start (hr (t', g') (List.mem_cons_self ..))
        have hf' : t'.text ++ gapText g' ++ render r = c :: f := hf
        rw [h1, List.cons_append, List.cons_append] at hf'
        rw [← (List.cons.inj hf').1]
        exact h5 (hn t' g' r rfl)

theorem not_spaced {t : Tok} {g : List Gap} {r : List (Tok × List Gap)} (hr : ∀ p ∈ r, p.1.ok)
    (hs : ¬ SpacedAt t g r) : t.isMark = true ∧ ∃ x f, gapText g ++ render r = x :: f ∧ markChar x = true := by
  unfold SpacedAt at hs
  push Not at hs
  obtain ⟨hm, h1, h2⟩ := hs
  refine ⟨hm, ?_⟩
  cases g with
  | cons x g =>
    cases x with
    | blank c => exact absurd rfl (h1 c g)
    | comment t => exact ⟨'/', _, rfl, by decide⟩
  | nil =>
    obtain ⟨t', g', r', rfl, hw⟩ := h2 rfl
    obtain ⟨c, l, h3, _, _, h6, _⟩ := tok_start (hr (t', g') (List.mem_cons_self ..))
    refine ⟨c, l ++ gapText g' ++ render r', ?_, (h6 (by simpa using hw)).2⟩
    show t'.text ++ gapText g' ++ render r' = _
    rw [h3]; rfl

theorem next_gaps {g : List Gap} (hg : ∀ x ∈ g, x.ok) {l : List Char} (hl : Starts l) : next (gapText g ++ l) = some (token l) := by
  unfold next
  rw [skip_spec hl _ g hg]
  have := gapText_length g
  simp; omega

theorem clear_tail {p : Tok × List Gap} {ts : List (Tok × List Gap)} (h : Clear (p :: ts)) : Clear ts := by
  cases ts with
  | nil => trivial
  | cons q ts => obtain ⟨t, g⟩ := p; obtain ⟨t', g'⟩ := q; exact h.2

theorem tokens_iff : ∀ (ts : List (Tok × List Gap)) (lead : List Gap) (fuel : Nat), (∀ g ∈ lead, g.ok) →
    (∀ p ∈ ts, p.1.ok ∧ ∀ g ∈ p.2, g.ok) → Clear ts → ts.length < fuel →
    (tokens fuel (gapText lead ++ render ts) = some (.ok (ts.map Prod.fst)) ↔ Spaced ts) := by
  intro ts
  induction ts with
  | nil =>
    intro lead fuel hl _ _ hf
    cases fuel with
    | zero => simp at hf
    | succ fuel =>
      rw [tokens, next_gaps hl (render_start (by simp))]
      simp [render, token, Spaced]
  | cons p ts ih =>
    intro lead fuel hl ht hc hf
    obtain ⟨t, g⟩ := p
    cases fuel with
    | zero => simp at hf
    | succ fuel =>
      have ht0 := ht (t, g) (List.mem_cons_self ..)
      have htr : ∀ p ∈ ts, p.1.ok ∧ ∀ g ∈ p.2, g.ok := fun p hp => ht p (List.mem_cons_of_mem _ hp)
      have hnx := next_gaps hl (render_start (ts := (t, g) :: ts) fun p hp => (ht p hp).1)
      have hren : render ((t, g) :: ts) = t.text ++ (gapText g ++ render ts) := by rw [render, List.append_assoc]
      have hsp : Spaced ((t, g) :: ts) ↔ SpacedAt t g ts ∧ Spaced ts := Iff.rfl
      rw [hsp]
      rw [tokens, hnx, hren]
      by_cases hs : SpacedAt t g ts
      · rw [token_spec ht0.1 (after_spec ht0.2 (fun p hp => (htr p hp).1) hc hs)]
        have hih := ih g fuel ht0.2 htr (clear_tail hc) (by simpa using hf)
        have hne : t ≠ .eof := by rintro rfl; exact ht0.1
        rw [and_iff_right hs, ← hih]
        cases t with
        | eof => exact absurd rfl hne
        | bad => exact ht0.1.elim
        | known s =>
          dsimp only
          cases htk : tokens fuel (gapText g ++ render ts) with
          | none => simp
          | some x => cases x <;> simp
        | ident s =>
          dsimp only
          cases htk : tokens fuel (gapText g ++ render ts) with
          | none => simp
          | some x => cases x <;> simp
        | strLit s =>
          dsimp only
          cases htk : tokens fuel (gapText g ++ render ts) with
          | none => simp
          | some x => cases x <;> simp
      · obtain ⟨hm, x, f, h1, h2⟩ := not_spaced (fun p hp => (htr p hp).1) hs
        obtain ⟨f', h3⟩ := token_joined hm (f := f) h2
        rw [h1, h3]
        dsimp only
        have hbad : t ≠ .bad := by rintro rfl; exact ht0.1
        simp only [hs, false_and, iff_false, List.map_cons]
        cases tokens fuel f' with
        | none => simp
        | some y => cases y <;> simp [Ne.symm hbad]

theorem render_length : ∀ (ts : List (Tok × List Gap)), (∀ p ∈ ts, p.1.ok) → ts.length ≤ (render ts).length := by
  intro ts
  induction ts with
  | nil => intro _; simp
  | cons p ts ih =>
    intro h
    obtain ⟨t, g⟩ := p
    obtain ⟨c, l, h1, _⟩ := tok_start (h (t, g) (List.mem_cons_self ..))
    have := ih fun p hp => h p (List.mem_cons_of_mem _ hp)
    rw [render, h1]
    simp; omega

/-- **C149 (exactly).**  Tokens with blanks and comments in between are found exactly if every mark is followed by
a blank, a word, or the end. -/
theorem C149_exactly {lead : List Gap} {ts : List (Tok × List Gap)} (hl : ∀ g ∈ lead, g.ok)
    (ht : ∀ p ∈ ts, p.1.ok ∧ ∀ g ∈ p.2, g.ok) (hc : Clear ts) :
    scan (gapText lead ++ render ts) = some (.ok (ts.map Prod.fst)) ↔ Spaced ts := by
  refine tokens_iff ts lead _ hl ht hc ?_
  have := render_length ts fun p hp => (ht p hp).1
  simp; omega

/-- **C149 (bad marks).**  A mark followed by another one, a comment or a string is not recognised: there is one bad token. -/
theorem C149_joined {lead g : List Gap} {t : Tok} {ts : List (Tok × List Gap)} (hl : ∀ g ∈ lead, g.ok) (ht : t.isMark = true)
    (hts : ∀ p ∈ ts, p.1.ok) (hs : (∃ c g', g = .comment c :: g') ∨ (g = [] ∧ ∃ t' g' r, ts = (t', g') :: r ∧ t'.isWord = false)) :
    ∃ f, next (gapText lead ++ render ((t, g) :: ts)) = some (.ok (.bad, f)) := by
  have hok : t.ok := by
    obtain ⟨c, l, rfl, h, _⟩ := mark_tok ht
    exact Or.inr h
  rw [next_gaps hl (render_start fun p hp => by
    rcases List.mem_cons.1 hp with rfl | hp
    · exact hok
    · exact hts p hp)]
  have hns : ¬ SpacedAt t g ts := by
    intro h
    rcases h ht with ⟨c, g', rfl⟩ | ⟨rfl, h2⟩
    · rcases hs with ⟨c, g', h⟩ | ⟨h, _⟩ <;> cases h
    · rcases hs with ⟨c, g', h⟩ | ⟨_, t', g', r, rfl, hw⟩
      · cases h
      · rw [h2 t' g' r rfl] at hw; cases hw
  obtain ⟨_, x, f, h1, h2⟩ := not_spaced hts hns
  obtain ⟨f', h3⟩ := token_joined ht (f := f) h2
  exact ⟨f', by rw [render, List.append_assoc, h1, h3]⟩

/-- **C149 (slash).**  A slash at the end of a line is an internal bug. -/
theorem C149_slash {lead : List Gap} (hl : ∀ g ∈ lead, g.ok) (f : List Char) :
    next (gapText lead ++ '/' :: '\n' :: f) = some (.error .bug) := by
  have key : ∀ (fuel : Nat) (g : List Gap), (∀ x ∈ g, x.ok) → g.length < fuel →
      skip fuel (gapText g ++ '/' :: '\n' :: f) = some (.error .bug) := by
    intro fuel
    induction fuel with
    | zero => intro g _ h; omega
    | succ fuel ih =>
      intro g hg hf
      cases g with
      | nil =>
        show skip (fuel + 1) ('/' :: '\n' :: f) = _
        rw [skip]
        rw [if_pos rfl, if_pos rfl]
      | cons x g =>
        have hg' : ∀ y ∈ g, y.ok := fun y hy => hg y (List.mem_cons_of_mem _ hy)
        cases x with
        | blank c =>
          have hc : isSpace c = true := hg _ (List.mem_cons_self ..)
          -- only the blanks are dropped
          have hd : ∀ (g : List Gap), (∀ x ∈ g, x.ok) → (gapText g ++ '/' :: '\n' :: f).dropWhile isSpace =
              gapText (g.dropWhile isBlank) ++ '/' :: '\n' :: f := by
            intro g
            induction g with
            | nil => intro _; rfl
            | cons x g ih =>
              intro h
              cases x with
              | blank c =>
                have hc : isSpace c = true := h _ (List.mem_cons_self ..)
                rw [List.dropWhile_cons]
                simp only [isBlank, if_true]
                rw [← ih fun y hy => h y (List.mem_cons_of_mem _ hy)]
                show (c :: (gapText g ++ '/' :: '\n' :: f)).dropWhile isSpace = _
                rw [List.dropWhile_cons, hc]; rfl
              | comment t =>
                rw [List.dropWhile_cons]
                simp only [isBlank, Bool.false_eq_true, if_false]
                show ('/' :: _ : List Char).dropWhile isSpace = _
                rw [List.dropWhile_cons]; rfl
          have hd := hd (.blank c :: g) hg
          rw [List.dropWhile_cons] at hd
          simp only [isBlank, if_true] at hd
          have hcons : gapText (Gap.blank c :: g) ++ '/' :: '\n' :: f = c :: (gapText g ++ '/' :: '\n' :: f) := rfl
          rw [hcons] at hd ⊢
          rw [skip_other (space_slash hc), if_pos hc, hd]
          refine ih _ (fun y hy => hg' y ((List.dropWhile_sublist _).subset hy)) ?_
          have := (List.dropWhile_sublist (p := isBlank) (l := g)).length_le
          simp at hf; omega
        | comment t =>
          have ht : CommentText t := hg (.comment t) (List.mem_cons_self ..)
          have hcons : gapText (Gap.comment t :: g) ++ '/' :: '\n' :: f = '/' :: '*' :: (t ++ '*' :: '/' :: (gapText g ++ '/' :: '\n' :: f)) := by
            simp [gapText, Gap.text]
          rw [hcons, skip]
          rw [if_pos rfl, if_neg (by decide), if_pos rfl, skipComment_spec t ht]
          exact ih g hg' (by simp at hf; omega)
  unfold next
  rw [key _ lead hl (by have := gapText_length lead; simp; omega)]

/-- `()` is a bad token. -/
theorem C149_full_is_false : ¬ C149_full := by
  intro h
  have h1 := h [] [(.known ['('], []), (.known [')'], [])] (by simp)
    (by
      intro p hp
      simp only [List.mem_cons, List.not_mem_nil, or_false] at hp
      rcases hp with rfl | rfl <;> exact ⟨Or.inr (by decide), by simp⟩)
    ⟨fun hw => absurd hw (by decide), trivial⟩
  revert h1
  decide

/-! ### Examples -/

/-- `attribute x /* one */ oneof "a\"b"` -/
example : Spaced [(.known c!"attribute", [.blank ' ']), (.ident c!"x", [.blank ' ', .comment c!" one ", .blank '\n']),
      (.known c!"oneof", []), (.strLit c!"a\\\"b", [])] ∧
    Clear [(.known c!"attribute", [.blank ' ']), (.ident c!"x", [.blank ' ', .comment c!" one ", .blank '\n']),
      (.known c!"oneof", []), (.strLit c!"a\\\"b", [])] := by
  refine ⟨⟨fun h => absurd h (by decide), fun h => absurd h (by decide), fun h => absurd h (by decide),
    fun h => absurd h (by decide), trivial⟩, ⟨by decide, by decide, by decide, trivial⟩⟩

example : scan c!"attribute x /* one */\noneof\"a\\\"b\"" =
    some (.ok [.known c!"attribute", .ident c!"x", .known c!"oneof", .strLit c!"a\\\"b"]) := by decide +kernel

/-- `merge a + b ==> c` and `merge a+b==>c` are the same; `+*` is not recognised -/
example : scan c!"merge a+b==>c" = some (.ok [.known c!"merge", .ident c!"a", .known c!"+", .ident c!"b", .known c!"==>", .ident c!"c"]) ∧
    scan c!"merge a +* b" = some (.ok [.known c!"merge", .ident c!"a", .bad, .ident c!"b"]) := by decide +kernel

/-- a number is one bad token for each digit -/
example : scan c!"12" = some (.ok [.bad, .bad]) := by decide +kernel

/-- a slash at the end of a line -/
example : scan c!"a /\n" = some (.error .bug) := by decide +kernel

end MtScan
end Splint
