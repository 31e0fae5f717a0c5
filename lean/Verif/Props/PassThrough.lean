import Verif.Spec.PassThrough
/-!
# Definitions of macros on the command line (C170)
-/
namespace Splint.PassThroughProps
open Splint.PassThrough Splint.PassThroughSpec

/-- The full statement: a macro is defined as it is written, if the quotes are closed. -/
def C170_full : Prop := ∀ x : Str, quotes false x % 2 = 0 → handle ('D' :: x) = some (.define x)

theorem back_cons (b : Str) : backslashes ('\\' :: b) = backslashes b + 1 := by simp [backslashes]

theorem back_other {c : Char} (h : c ≠ '\\') (b : Str) : backslashes (c :: b) = 0 := by simp [backslashes, h]

theorem back_le (b : Str) : backslashes b ≤ b.length := by
  unfold backslashes
  exact List.Sublist.length_le (List.takeWhile_sublist _)

/-- something that is not a backslash is before the place -/
def Safe (b : Str) : Prop := backslashes b < b.length

theorem safe_cons {b : Str} (h : Safe b) (c : Char) : Safe (c :: b) := by
  unfold Safe at *
  by_cases hc : c = '\\'
  · subst hc; rw [back_cons, List.length_cons]; omega
  · rw [back_other hc, List.length_cons]; omega

theorem quotes_back (e : Bool) (cs : Str) : quotes e ('\\' :: cs) = quotes (!e) cs := by cases e <;> rfl

theorem quotes_other {c : Char} (e : Bool) (cs : Str) (h1 : c ≠ '\\') (h2 : c ≠ '"') :
    quotes e (c :: cs) = quotes false cs := by
  cases e <;> simp [quotes, h1, h2]

/-- the loop ends, without an access outside, with a quote open just if the number of quotes is odd; nothing is lost -/
theorem loop_ends (rest : Str) : ∀ (b : Str) (o : Bool), Safe b →
    ∃ r, loop b o rest = some (r, o ^^ decide (quotes (decide (backslashes b % 2 = 1)) rest % 2 = 1)) ∧
      r.length = b.length + rest.length + quotes (decide (backslashes b % 2 = 1)) rest ∧
      (b.reverse ++ rest).Sublist r ∧ b.reverse <+: r := by
  induction rest with
  | nil =>
    intro b o _
    exact ⟨b.reverse, by simp [loop, quotes], by simp [quotes], by simp, List.prefix_refl _⟩
  | cons c rest ih =>
    intro b o hs
    have pre : ∀ {c : Char} {r : Str}, (c :: b).reverse <+: r → b.reverse <+: r := fun h =>
      List.IsPrefix.trans (by simp) h
    by_cases hc : c = '"'
    · subst hc
      have hlt : backslashes b ≠ b.length := Nat.ne_of_lt hs
      by_cases he : backslashes b % 2 = 1
      · obtain ⟨r, h1, h2, h3, h4⟩ := ih ('"' :: b) o (safe_cons hs _)
        rw [back_other (by decide)] at h1 h2
        refine ⟨r, ?_, ?_, ?_, pre h4⟩
        · simp only [loop, ne_eq, not_true, if_false, if_neg hlt, if_pos he, h1]
          simp [he, quotes]
        · simp [he, quotes] at h2 ⊢; omega
        · simpa using h3
      · have hq : quotes (decide (backslashes b % 2 = 1)) ('"' :: rest) = quotes false rest + 1 := by simp [he, quotes]
        rw [hq]
        cases o with
        | true =>
          obtain ⟨r, h1, h2, h3, h4⟩ := ih ('\'' :: '"' :: b) false (safe_cons (safe_cons hs _) _)
          rw [back_other (by decide)] at h1 h2
          refine ⟨r, ?_, ?_, ?_, pre (pre' h4)⟩
          · simp only [loop, ne_eq, not_true, if_false, if_neg hlt, if_neg he, if_true, h1]
            rcases Nat.mod_two_eq_zero_or_one (quotes false rest) with h | h <;> simp [h, Nat.add_mod]
          · simp at h2 ⊢; omega
          · refine List.Sublist.trans ?_ h3
            simp
        | false =>
          obtain ⟨r, h1, h2, h3, h4⟩ := ih ('"' :: '\'' :: b) true (safe_cons (safe_cons hs _) _)
          rw [back_other (by decide)] at h1 h2
          refine ⟨r, ?_, ?_, ?_, pre (pre' h4)⟩
          · simp only [loop, ne_eq, not_true, if_false, if_neg hlt, if_neg he, Bool.false_eq_true, h1]
            rcases Nat.mod_two_eq_zero_or_one (quotes false rest) with h | h <;> simp [h, Nat.add_mod]
          · simp at h2 ⊢; omega
          · refine List.Sublist.trans ?_ h3
            simp
    · obtain ⟨r, h1, h2, h3, h4⟩ := ih (c :: b) o (safe_cons hs _)
      have hq : quotes (decide (backslashes b % 2 = 1)) (c :: rest)
          = quotes (decide (backslashes (c :: b) % 2 = 1)) rest := by
        by_cases hb : c = '\\'
        · subst hb
          rw [quotes_back, back_cons]
          rcases Nat.mod_two_eq_zero_or_one (backslashes b) with h | h <;> simp [h, Nat.add_mod]
        · rw [quotes_other _ _ hb hc, back_other hb]; rfl
      refine ⟨r, by simp only [loop, ne_eq, hc, not_false_eq_true, if_true, h1, hq], ?_, by simpa using h3, pre h4⟩
      rw [hq, h2]; simp; omega
where
  pre' {c d : Char} {b r : Str} (h : (c :: d :: b).reverse <+: r) : (d :: b).reverse <+: r :=
    List.IsPrefix.trans (by simp) h


/-- text without a quote that counts is left as it is -/
theorem loop_plain (b rest : Str) : ∀ (s : Str) (o : Bool), Safe s →
    quotes (decide (backslashes s % 2 = 1)) b = 0 →
    loop s o (b ++ rest) = loop (b.reverse ++ s) o rest ∧ Safe (b.reverse ++ s) ∧
      quotes (decide (backslashes s % 2 = 1)) (b ++ rest)
        = quotes (decide (backslashes (b.reverse ++ s) % 2 = 1)) rest := by
  induction b with
  | nil => intro s o hs _; exact ⟨rfl, hs, rfl⟩
  | cons c b ih =>
    intro s o hs hq
    by_cases hc : c = '"'
    · subst hc
      by_cases he : backslashes s % 2 = 1
      · have hlt : backslashes s ≠ s.length := Nat.ne_of_lt hs
        obtain ⟨h1, h2, h3⟩ := ih ('"' :: s) o (safe_cons hs _) (by
          rw [back_other (by decide)]; simpa [he, quotes] using hq)
        refine ⟨?_, by simpa using h2, ?_⟩
        · simp only [List.cons_append, loop, ne_eq, not_true, if_false, if_neg hlt, if_pos he, h1]
          simp
        · rw [back_other (by decide)] at h3
          simpa [he, quotes] using h3
      · simp [he, quotes] at hq
    · have hq' : ∀ t, quotes (decide (backslashes s % 2 = 1)) (c :: t)
          = quotes (decide (backslashes (c :: s) % 2 = 1)) t := by
        intro t
        by_cases hb : c = '\\'
        · subst hb
          rw [quotes_back, back_cons]
          rcases Nat.mod_two_eq_zero_or_one (backslashes s) with h | h <;> simp [h, Nat.add_mod]
        · rw [quotes_other _ _ hb hc, back_other hb]; rfl
      obtain ⟨h1, h2, h3⟩ := ih (c :: s) o (safe_cons hs _) (by rw [← hq']; exact hq)
      refine ⟨?_, by simpa using h2, ?_⟩
      · simp only [List.cons_append, loop, ne_eq, hc, not_false_eq_true, if_true, h1]
        simp
      · rw [List.cons_append, hq', h3]; simp

theorem safe_D : Safe ['D'] := by unfold Safe; decide
theorem safe_U : Safe ['U'] := by unfold Safe; decide

theorem loop_D (x : Str) : loop [] false ('D' :: x) = loop ['D'] false x := by simp [loop]
theorem loop_U (x : Str) : loop [] false ('U' :: x) = loop ['U'] false x := by simp [loop]

theorem quotes_plain {p : Str} (h : Plain p) : ∀ e, quotes e p = 0 := by
  induction p with
  | nil => intro e; cases e <;> rfl
  | cons c p ih =>
    intro e
    obtain ⟨h1, _, h3, _⟩ := h c (by simp)
    rw [quotes_other _ _ h3 h1]
    exact ih (fun d hd => h d (by simp [hd])) false

theorem drop_plain {n : Str} (h : Plain n) (t : Str) :
    (n ++ '=' :: t).dropWhile (· != '=') = '=' :: t ∧ (n ++ '=' :: t).takeWhile (· != '=') = n := by
  induction n with
  | nil => simp
  | cons c n ih =>
    obtain ⟨_, _, _, h4⟩ := h c (by simp)
    have := ih (fun d hd => h d (by simp [hd]))
    simp [h4, this]

/-- **C170**: an unclosed quote is reported just if the number of quotes is odd. -/
theorem C170_unclosed (x : Str) : handle ('D' :: x) = some .unclosed ↔ quotes false x % 2 = 1 := by
  obtain ⟨r, h1, _, _, h4⟩ := loop_ends x ['D'] false safe_D
  obtain ⟨y, rfl⟩ := h4
  have hb : backslashes ['D'] = 0 := by decide
  rw [hb] at h1
  simp only [Nat.zero_mod, Nat.zero_ne_one, decide_false, Bool.false_xor] at h1
  unfold handle
  rw [loop_D, h1]
  by_cases hq : quotes false x % 2 = 1
  · simp [hq]
  · simp [hq]

example : handle "DX=\"a".toList = some .unclosed ∧ handle "DX=\\\"a".toList = some (.define "X=\\\"a".toList) := by
  decide

/-- **C170**: the name of a macro that is undefined is as it is written just if it has no quotes. -/
theorem C170_undefine (x : Str) : handle ('U' :: x) = some (.undefine x) ↔ quotes false x = 0 := by
  obtain ⟨r, h1, h2, h3, h4⟩ := loop_ends x ['U'] false safe_U
  obtain ⟨y, rfl⟩ := h4
  have hb : backslashes ['U'] = 0 := by decide
  rw [hb] at h1 h2
  simp only [Nat.zero_mod, Nat.zero_ne_one, decide_false, Bool.false_xor] at h1 h2
  simp at h2 h3
  unfold handle
  rw [loop_U, h1]
  constructor
  · intro h
    by_cases hq : quotes false x % 2 = 1
    · simp [hq] at h
    · simp [hq] at h
      subst h
      omega
  · intro h
    have : x = y := h3.eq_of_length (by omega)
    subst this
    simp [h]

example : handle "UX".toList = some (.undefine "X".toList) := by decide

theorem fix_none {x : Str} (h : '\'' ∉ x) : fixDefine x = some x := by
  unfold fixDefine
  split
  · rename_i body hb
    exfalso
    have : '\'' ∈ x.dropWhile (· != '=') := by rw [hb]; simp
    exact h ((List.dropWhile_sublist _).subset this)
  · rfl

/-- **C170** (partial): a definition is as it is written, if no double quote counts and there is no single quote.
Missing: other quotes, see below. -/
theorem C170_no_quotes_partial (x : Str) (hq : quotes false x = 0) (hs : '\'' ∉ x) :
    handle ('D' :: x) = some (.define x) := by
  have hb : backslashes ['D'] = 0 := by decide
  obtain ⟨h1, _, _⟩ := loop_plain x [] ['D'] false safe_D (by rw [hb]; simpa using hq)
  unfold handle
  rw [loop_D]
  simp only [List.append_nil] at h1
  rw [h1]
  simp [loop, fix_none hs]

example : quotes false "X=\\\"a\\\\b".toList = 0 ∧ '\'' ∉ "X=\\\"a\\\\b".toList := by decide

/-- what the loop makes of a definition with one string at its end -/
theorem loop_string (p b : Str) (hp : quotes false p = 0) (hp' : quotes false (p ++ ['"']) = 1)
    (hb : quotes false b = 0) (hb' : quotes false (b ++ ['"']) = 1) :
    loop ['D'] false (p ++ '"' :: (b ++ ['"'])) = some ('D' :: p ++ '\'' :: '"' :: (b ++ ['"', '\'']), false) := by
  have h0 : backslashes ['D'] = 0 := by decide
  obtain ⟨h1, h2, _⟩ := loop_plain p ('"' :: (b ++ ['"'])) ['D'] false safe_D (by rw [h0]; simpa using hp)
  obtain ⟨_, _, h3⟩ := loop_plain p ['"'] ['D'] false safe_D (by rw [h0]; simpa using hp)
  have e1 : ¬ backslashes (p.reverse ++ ['D']) % 2 = 1 := by
    intro h
    rw [h0] at h3
    simp only [Nat.zero_mod, Nat.zero_ne_one, decide_false, hp', h] at h3
    simp [quotes] at h3
  rw [h1]
  have s1 : Safe ('"' :: '\'' :: (p.reverse ++ ['D'])) := safe_cons (safe_cons h2 _) _
  have z1 : backslashes ('"' :: '\'' :: (p.reverse ++ ['D'])) = 0 := back_other (by decide) _
  simp only [loop, ne_eq, not_true, if_false, if_neg (Nat.ne_of_lt h2), if_neg e1, Bool.false_eq_true]
  obtain ⟨k1, k2, k3⟩ := loop_plain b ['"'] _ true s1 (by rw [z1]; simpa using hb)
  rw [k1]
  have e2 : ¬ backslashes (b.reverse ++ '"' :: '\'' :: (p.reverse ++ ['D'])) % 2 = 1 := by
    intro h
    rw [z1] at k3
    simp only [Nat.zero_mod, Nat.zero_ne_one, decide_false, hb', h] at k3
    simp [quotes] at k3
  simp only [loop, ne_eq, not_true, if_false, if_neg (Nat.ne_of_lt k2), if_neg e2, if_true]
  simp

theorem quotes_plain_end {p : Str} (h : Plain p) (t : Str) : quotes false (p ++ t) = quotes false t := by
  induction p with
  | nil => rfl
  | cons c p ih =>
    obtain ⟨h1, _, h3, _⟩ := h c (by simp)
    rw [List.cons_append, quotes_other _ _ h3 h1]
    exact ih (fun d hd => h d (by simp [hd]))

theorem quotes_eq {n p : Str} (hn : Plain n) (hp : Plain p) (t : Str) :
    quotes false (n ++ '=' :: (p ++ t)) = quotes false t := by
  rw [quotes_plain_end hn, quotes_other _ _ (by decide) (by decide), quotes_plain_end hp]

/-- **C170** (partial): a definition is as it is written, if the value is one string.
Missing: other quotes, see below. -/
theorem C170_string_partial (n b : Str) (hn : Plain n) (hb : quotes false b = 0)
    (hb' : quotes false (b ++ ['"']) = 1) :
    handle ('D' :: (n ++ '=' :: '"' :: (b ++ ['"']))) = some (.define (n ++ '=' :: '"' :: (b ++ ['"']))) := by
  have hp : Plain [] := by intro c hc; cases hc
  have := loop_string (n ++ ['=']) b (by simpa [quotes] using quotes_eq hn hp []) (by simpa [quotes] using quotes_eq hn hp ['"']) hb hb'
  simp only [List.append_assoc, List.cons_append, List.nil_append] at this
  unfold handle
  rw [loop_D, this]
  obtain ⟨d1, d2⟩ := drop_plain hn ('\'' :: '"' :: (b ++ ['"', '\'']))
  have l : n ++ '=' :: '\'' :: '"' :: (b ++ ['"', '\'']) = (n ++ '=' :: '\'' :: '"' :: b ++ ['"']) ++ ['\''] := by simp
  have l2 : '"' :: (b ++ ['"', '\'']) = ('"' :: b ++ ['"']) ++ ['\''] := by simp
  have f : fixDefine (n ++ '=' :: '\'' :: '"' :: (b ++ ['"', '\''])) = some (n ++ '=' :: '"' :: (b ++ ['"'])) := by
    unfold fixDefine
    rw [d1, d2]
    simp only
    rw [l2, List.dropLast_concat, ← l2, l, List.dropLast_concat, List.getLast?_concat, List.getLast?_concat]
    simp
  simp [f]

example : Plain "X".toList ∧ quotes false "a\\\"b".toList = 0 ∧ quotes false ("a\\\"b".toList ++ ['"']) = 1 := by
  refine ⟨?_, by decide, by decide⟩
  intro c hc
  simp at hc
  subst hc
  decide

/-- **C170**: if something is before the string in the value, then the quotes that were added are left in the
definition. -/
theorem C170_prefix (n p b : Str) (hn : Plain n) (hp : Plain p) (hne : p ≠ []) (hb : quotes false b = 0)
    (hb' : quotes false (b ++ ['"']) = 1) :
    handle ('D' :: (n ++ '=' :: (p ++ '"' :: (b ++ ['"']))))
      = some (.define (n ++ '=' :: (p ++ '\'' :: '"' :: (b ++ ['"', '\''])))) := by
  have := loop_string (n ++ '=' :: p) b (by simpa [quotes] using quotes_eq hn hp []) (by simpa [quotes] using quotes_eq hn hp ['"'])
    hb hb'
  simp only [List.append_assoc, List.cons_append] at this
  unfold handle
  rw [loop_D, this]
  obtain ⟨d1, d2⟩ := drop_plain hn (p ++ '\'' :: '"' :: (b ++ ['"', '\'']))
  have f : fixDefine (n ++ '=' :: (p ++ '\'' :: '"' :: (b ++ ['"', '\''])))
      = some (n ++ '=' :: (p ++ '\'' :: '"' :: (b ++ ['"', '\'']))) := by
    unfold fixDefine
    rw [d1]
    cases p with
    | nil => exact absurd rfl hne
    | cons c p =>
      obtain ⟨_, h2, _, _⟩ := hp c (by simp)
      split
      · rename_i body hbody
        simp at hbody
        exact absurd hbody.1 h2
      · rfl
  simp [f]

example : handle "DX=L\"a\"".toList = some (.define "X=L'\"a\"'".toList) := by decide

/-- **C170**: single quotes around a value are lost; if there is only one, then what is behind the end of the text is
read. -/
theorem C170_single (n b : Str) (hn : Plain n) (hb : Plain b) :
    handle ('D' :: (n ++ '=' :: '\'' :: (b ++ ['\'']))) = some (.define (n ++ '=' :: b)) ∧
    handle ('D' :: (n ++ ['=', '\''])) = none := by
  have hp : Plain [] := by intro c hc; cases hc
  have h0 : backslashes ['D'] = 0 := by decide
  constructor
  · have hq : quotes false (n ++ '=' :: '\'' :: (b ++ ['\''])) = 0 := by
      have := quotes_eq hn hp ('\'' :: (b ++ ['\'']))
      rw [List.nil_append] at this
      rw [this, quotes_other _ _ (by decide) (by decide), quotes_plain_end hb]
      decide
    obtain ⟨h1, _, _⟩ := loop_plain _ [] ['D'] false safe_D (by rw [h0]; simpa using hq)
    rw [List.append_nil] at h1
    obtain ⟨d1, d2⟩ := drop_plain hn ('\'' :: (b ++ ['\'']))
    have l : n ++ '=' :: '\'' :: (b ++ ['\'']) = (n ++ '=' :: '\'' :: b) ++ ['\''] := by simp
    have g : (n ++ '=' :: '\'' :: b).getLast? ≠ some '\\' := by
      rcases List.eq_nil_or_concat b with rfl | ⟨b', c, rfl⟩
      · rw [show n ++ ['=', '\''] = (n ++ ['=']) ++ ['\''] by simp, List.getLast?_concat]; decide
      · obtain ⟨_, _, h3, _⟩ := hb c (by simp)
        rw [show n ++ '=' :: '\'' :: (b'.concat c) = (n ++ '=' :: '\'' :: b') ++ [c] by simp, List.getLast?_concat]
        simpa using h3
    have f : fixDefine (n ++ '=' :: '\'' :: (b ++ ['\''])) = some (n ++ '=' :: b) := by
      unfold fixDefine
      rw [d1, d2]
      simp only
      rw [l, List.dropLast_concat, List.getLast?_concat, List.dropLast_concat, if_pos ⟨rfl, g⟩]
      simp
    unfold handle
    rw [loop_D, h1]
    simp [loop, f]
  · have hq : quotes false (n ++ ['=', '\'']) = 0 := by
      have := quotes_eq hn hp ['\'']
      rw [List.nil_append] at this
      rw [this]; decide
    obtain ⟨h1, _, _⟩ := loop_plain _ [] ['D'] false safe_D (by rw [h0]; simpa using hq)
    rw [List.append_nil] at h1
    obtain ⟨d1, d2⟩ := drop_plain hn ['\'']
    have l : n ++ ['=', '\''] = (n ++ ['=']) ++ ['\''] := by simp
    have f : fixDefine (n ++ ['=', '\'']) = none := by
      unfold fixDefine
      rw [d1]
      simp only
      rw [l, List.dropLast_concat, List.getLast?_concat, List.getLast?_concat]
      simp
    unfold handle
    rw [loop_D, h1]
    simp [loop, f]

example : handle "DX='a'".toList = some (.define "X=a".toList) ∧ handle "DX='".toList = none := by decide

/-- The full statement does not hold: `-DX=L"a"`. -/
theorem C170_full_is_false : ¬ C170_full := by
  intro h
  exact absurd (h "X=L\"a\"".toList (by decide)) (by decide)

end Splint.PassThroughProps
