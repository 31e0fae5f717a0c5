import Verif.Spec.Comment
/-!
# Lemmas about comments
-/
namespace Splint.Comment
open Spec

theorem skipBlock_text {prev : Char} {r : Text} {s : Skip} (h : skipBlock prev r = some s) :
    s.text ++ s.rest = r ∧ s.lines = s.text.count '\n' := by
  induction prev, r using skipBlock.induct generalizing s with
  | case1 => simp [skipBlock] at h
  | case2 prev r ih =>
    rw [skipBlock] at h
    obtain ⟨u, hu, rfl⟩ := Option.map_eq_some_iff.1 h
    obtain ⟨h1, h2⟩ := ih hu
    exact ⟨by simp [Skip.cons, h1], by simp [Skip.cons, h2]; omega⟩
  | case3 prev c r hne hc =>
    rw [skipBlock, if_pos hc] at h
    · cases h
      simp [hc.2]
    · exact hne
  | case4 prev c r hne hc ih =>
    rw [skipBlock, if_neg hc] at h
    · obtain ⟨u, hu, rfl⟩ := Option.map_eq_some_iff.1 h
      obtain ⟨h1, h2⟩ := ih hu
      refine ⟨by simp [Skip.cons, h1], ?_⟩
      by_cases hn : c = '\n' <;> simp [Skip.cons, h2, hn]
      omega
    · exact hne

theorem skipLine_text (r : Text) :
    (skipLine r).text ++ (skipLine r).rest = r ∧ (skipLine r).lines = (skipLine r).text.count '\n' := by
  induction r using skipLine.induct with
  | case1 => simp [skipLine]
  | case2 r ih =>
    obtain ⟨h1, h2⟩ := ih
    rw [skipLine]
    exact ⟨by simp [Skip.cons, h1], by simp [Skip.cons, h2]; omega⟩
  | case3 r hne => rw [skipLine.eq_def]; simp
  | case4 c r hne hc ih =>
    obtain ⟨h1, h2⟩ := ih
    rw [skipLine, if_neg hc]
    · refine ⟨by simp [Skip.cons, h1], ?_⟩
      simp [Skip.cons, h2, hc]
    · exact hne

theorem join_cons {c : Char} {r : Text} (h : ∀ r', c = '\\' → r = '\n' :: r' → False) :
    join (c :: r) = c :: join r := by
  rw [join]
  exact h

/-- The comment ends at the first `*/` of the joined lines. -/
theorem skipBlock_join {prev : Char} {r : Text} :
    (∀ s, skipBlock prev r = some s → ∃ b, join s.text = b ++ ['/'] ∧ (prev :: b).getLast? = some '*'
      ∧ NoEnd (prev :: b) ∧ join r = join s.text ++ join s.rest)
    ∧ (skipBlock prev r = none → NoEnd (prev :: join r)) := by
  induction prev, r using skipBlock.induct with
  | case1 prev =>
    refine ⟨by simp [skipBlock], fun _ h => ?_⟩
    have := h.length_le
    simp [join] at this
  | case2 prev r ih =>
    rw [skipBlock]
    refine ⟨fun s hs => ?_, fun hs => ?_⟩
    · obtain ⟨u, hu, rfl⟩ := Option.map_eq_some_iff.1 hs
      obtain ⟨b, h1, h2, h3, h4⟩ := ih.1 u hu
      exact ⟨b, by simpa [Skip.cons, join] using h1, h2, h3, by simpa [Skip.cons, join] using h4⟩
    · rw [join]
      exact ih.2 (by simpa using hs)
  | case3 prev c r hne hc =>
    rw [skipBlock, if_pos hc]
    · refine ⟨?_, by simp⟩
      rintro s ⟨⟩
      obtain ⟨rfl, rfl⟩ := hc
      refine ⟨[], by simp [join], by simp, fun h => ?_, ?_⟩
      · have := h.length_le
        simp at this
      · rw [join_cons (by simp)]
        simp [join]
    · exact hne
  | case4 prev c r hne hc ih =>
    rw [skipBlock, if_neg hc]
    · have hno : ∀ {t : Text}, NoEnd (c :: t) → NoEnd (prev :: c :: t) := by
        intro t ht h
        rcases List.infix_cons_iff.1 h with h | h
        · obtain ⟨x, hx⟩ := h
          simp only [List.cons_append, List.cons.injEq] at hx
          exact hc ⟨hx.1.symm, hx.2.1.symm⟩
        · exact ht h
      refine ⟨fun s hs => ?_, fun hs => ?_⟩
      · obtain ⟨u, hu, rfl⟩ := Option.map_eq_some_iff.1 hs
        obtain ⟨b, h1, h2, h3, h4⟩ := ih.1 u hu
        have hr := (skipBlock_text hu).1
        have hj : join (c :: u.text) = c :: join u.text := by
          refine join_cons fun r' hc' hr' => ?_
          rw [hr'] at hr
          exact hne _ hc' hr.symm
        refine ⟨c :: b, by simp [Skip.cons, hj, h1], by simpa using h2, hno h3, ?_⟩
        rw [join_cons (fun r' => hne r')]
        simp [Skip.cons, hj, h4]
      · rw [join_cons (fun r' => hne r')]
        exact hno (ih.2 (by simpa using hs))
    · exact hne

theorem skipLine_join (r : Text) :
    join r = join (skipLine r).text ++ join (skipLine r).rest ∧ '\n' ∉ join (skipLine r).text
      ∧ ((skipLine r).rest = [] ∨ ∃ x, (skipLine r).rest = '\n' :: x) := by
  induction r using skipLine.induct with
  | case1 => simp [skipLine, join]
  | case2 r ih =>
    rw [skipLine]
    simpa [Skip.cons, join] using ih
  | case3 r hne => rw [skipLine.eq_def]; simp [join]
  | case4 c r hne hc ih =>
    rw [skipLine, if_neg hc]
    · obtain ⟨h1, h2, h3⟩ := ih
      have hr := (skipLine_text r).1
      have hj : join (c :: (skipLine r).text) = c :: join (skipLine r).text := by
        refine join_cons fun r' hc' hr' => ?_
        rw [hr'] at hr
        exact hne _ hc' hr.symm
      rw [join_cons (fun r' => hne r')]
      simp only [Skip.cons, hj, h1, List.cons_append, List.mem_cons, not_or, true_and]
      exact ⟨⟨fun h => hc h.symm, h2⟩, h3⟩
    · exact hne

/-! ## `cpp_handleComment` -/

theorem prefixed_iff {s p : Text} : prefixed s p = true ↔ p <+: s := List.isPrefixOf_iff_prefix

/-- words in front of the end marker -/
theorem prefix_marker {p inner x : Text} (h : '%' ∉ p) : p <+: inner ++ '%' :: x ↔ p <+: inner := by
  induction inner generalizing p with
  | nil =>
    cases p with
    | nil => simp
    | cons c p =>
      simp only [List.nil_append, List.cons_prefix_cons]
      simp only [List.mem_cons, not_or] at h
      simp [Ne.symm h.1]
  | cons c inner ih =>
    cases p with
    | nil => simp
    | cons d p =>
      simp only [List.mem_cons, not_or] at h
      simp [List.cons_prefix_cons, ih h.2]

theorem blanks_shape (t : Text) : shape (blanks t) = shape t := by
  induction t with
  | nil => rfl
  | cons c t ih =>
    simp only [shape] at ih
    by_cases h : c = '\n' <;> simp [blanks, shape, h, ih]

theorem blanks_mem {t : Text} {c : Char} (h : c ∈ blanks t) : c = ' ' ∨ c = '\n' := by
  induction t with
  | nil => cases h
  | cons d t ih =>
    simp only [blanks, List.mem_cons] at h
    rcases h with h | h
    · by_cases hd : d = '\n' <;> simp [hd] at h <;> simp [h]
    · exact ih h

theorem hide_shape {m : Char} (hm : m ≠ '\n') (t : Text) : shape (t.map (hide m)) = shape t := by
  induction t with
  | nil => rfl
  | cons c t ih =>
    simp only [shape] at ih
    simp only [shape, List.map_cons, ih]
    unfold hide
    split_ifs with h
    · rcases h with rfl | rfl | rfl
      · rfl
      · rfl
      · simp [hm]
    · rfl

theorem starts_cons (c : Char) (t : Text) :
    starts (c :: t) = (if c = '/' ∧ t[0]? = some '*' then 1 else 0) + starts t := by
  unfold starts
  rw [List.length_cons, List.range_succ_eq_map, List.filter_cons, List.filter_map, apply_ite List.length]
  simp only [List.getElem?_cons_zero, List.getElem?_cons_succ, List.length_cons, List.length_map, Option.some.injEq,
    Function.comp_def, Nat.succ_eq_add_one, zero_add, decide_eq_true_eq]
  split_ifs <;> omega

theorem nests_eq (t : Text) : nests t = List.replicate (starts t) .nest := by
  induction t with
  | nil => rfl
  | cons c t ih =>
    rw [starts_cons]
    cases t with
    | nil => simp [nests, starts]
    | cons d t =>
      rw [nests, ih]
      by_cases h : c = '/' ∧ d = '*'
      · rw [if_pos h, if_pos (by simpa using h), Nat.add_comm, List.replicate_succ]
      · rw [if_neg h, if_neg (by simpa using h), Nat.zero_add]

theorem clash {p q s : Text} (hp : p <+: s) (hq : q <+: s) (h : ¬ p <+: q ∧ ¬ q <+: p) : False := by
  rcases List.prefix_or_prefix_of_prefix hp hq with h1 | h1
  · exact h.1 h1
  · exact h.2 h1

theorem prefixed_marker {p inner x : Text} (h : '%' ∉ p) : prefixed (inner ++ '%' :: x) p = prefixed inner p := by
  rw [Bool.eq_iff_iff, prefixed_iff, prefixed_iff, prefix_marker h]

theorem word_marker (cfg : Cfg) (inner : Text) : word cfg (inner ++ ['%', '}']) = word cfg inner := by
  unfold word
  rw [prefixed_marker (by decide), prefixed_marker (by decide), prefixed_marker (by decide), prefixed_marker (by decide),
    prefixed_marker (by decide), prefixed_marker (by decide), prefixed_marker (by decide)]

/-- the words, and what they do -/
theorem word_cases {cfg : Cfg} {inner : Text} {r} (h : word cfg inner = some r) :
    (c!"ignore" <+: inner ∧ r = (if cfg.nocomments then [] else [.suppressOn], false))
    ∨ (c!"end" <+: inner ∧ r = (if cfg.nocomments then [] else [.suppressOff], false))
    ∨ (c!"notparseable" <+: inner ∧ r = ([.notparseable], true))
    ∨ (c!"notfunction" <+: inner ∧ r = ([.notfunction], true))
    ∨ (c!"iter" <+: inner ∧ r = ([.iter], false))
    ∨ (c!"function" <+: inner ∧ r = ([.function], false))
    ∨ (c!"constant" <+: inner ∧ r = ([.constant], false)) := by
  unfold word at h
  by_cases h0 : prefixed inner c!"ignore" = true
  · rw [if_pos h0] at h; cases h; exact Or.inl ⟨prefixed_iff.1 h0, rfl⟩
  rw [if_neg h0] at h
  refine Or.inr ?_
  by_cases h1 : prefixed inner c!"end" = true
  · rw [if_pos h1] at h; cases h; exact Or.inl ⟨prefixed_iff.1 h1, rfl⟩
  rw [if_neg h1] at h
  refine Or.inr ?_
  by_cases h2 : prefixed inner c!"notparseable" = true
  · rw [if_pos h2] at h; cases h; exact Or.inl ⟨prefixed_iff.1 h2, rfl⟩
  rw [if_neg h2] at h
  refine Or.inr ?_
  by_cases h3 : prefixed inner c!"notfunction" = true
  · rw [if_pos h3] at h; cases h; exact Or.inl ⟨prefixed_iff.1 h3, rfl⟩
  rw [if_neg h3] at h
  refine Or.inr ?_
  by_cases h4 : prefixed inner c!"iter" = true
  · rw [if_pos h4] at h; cases h; exact Or.inl ⟨prefixed_iff.1 h4, rfl⟩
  rw [if_neg h4] at h
  refine Or.inr ?_
  by_cases h5 : prefixed inner c!"function" = true
  · rw [if_pos h5] at h; cases h; exact Or.inl ⟨prefixed_iff.1 h5, rfl⟩
  rw [if_neg h5] at h
  refine Or.inr ?_
  by_cases h6 : prefixed inner c!"constant" = true
  · rw [if_pos h6] at h; cases h; exact ⟨prefixed_iff.1 h6, rfl⟩
  rw [if_neg h6] at h
  cases h

theorem word_none {cfg : Cfg} {inner : Text} (h : word cfg inner = none) :
    ¬ c!"ignore" <+: inner ∧ ¬ c!"end" <+: inner ∧ ¬ c!"notparseable" <+: inner ∧ ¬ c!"notfunction" <+: inner
      ∧ ¬ c!"iter" <+: inner ∧ ¬ c!"function" <+: inner ∧ ¬ c!"constant" <+: inner := by
  unfold word at h
  simp only [prefixed_iff] at h
  split_ifs at h
  tauto

/-- the flags, and what they do -/
theorem flag_cases {x : Char} (hx : x = '=' ∨ x = '-' ∨ x = '+') (rest : Text) :
    (c!"commentchar" <+: rest
      ∧ flag x (rest ++ ['%', '}'])
        = (if x = '=' then [.noRestore] else [commentChar (rest.drop 11 ++ ['%', '}'])], true))
    ∨ (∃ f ∈ cppFlags, f <+: rest
      ∧ flag x (rest ++ ['%', '}'])
        = (.setFlag f x :: if f = c!"allmacros" ∨ f = c!"fcnmacros" ∨ f = c!"constmacros" then
        [.isfunction] else [], false))
    ∨ (¬ c!"commentchar" <+: rest ∧ (∀ f ∈ cppFlags, ¬ f <+: rest) ∧ flag x (rest ++ ['%', '}']) = ([], false)) := by
  unfold flag
  rw [prefixed_marker (by decide), prefixed_marker (by decide), prefixed_marker (by decide), prefixed_marker (by decide),
    prefixed_marker (by decide), prefixed_marker (by decide), prefixed_marker (by decide), prefixed_marker (by decide)]
  have hn : prefixed (x :: (rest ++ ['%', '}'])) c!"nestcomment" = false := by
    rw [Bool.eq_false_iff]
    intro h1
    have := (List.cons_prefix_cons.1 (prefixed_iff.1 h1)).1
    subst this
    simp at hx
  rw [hn, if_neg (c := false = true) (by decide)]
  by_cases h1 : prefixed rest c!"commentchar" = true
  · rw [if_pos h1]
    rw [prefixed_iff] at h1
    have := h1.length_le
    simp at this
    rw [List.drop_append_of_le_length (by omega)]
    exact Or.inl ⟨h1, rfl⟩
  rw [if_neg h1]
  refine Or.inr ?_
  by_cases h2 : prefixed rest c!"namechecks" = true
  · rw [if_pos h2]; exact Or.inl ⟨_, by simp [cppFlags], prefixed_iff.1 h2, rfl⟩
  rw [if_neg h2]
  by_cases h3 : prefixed rest c!"macroredef" = true
  · rw [if_pos h3]; exact Or.inl ⟨_, by simp [cppFlags], prefixed_iff.1 h3, rfl⟩
  rw [if_neg h3]
  by_cases h4 : prefixed rest c!"usevarargs" = true
  · rw [if_pos h4]; exact Or.inl ⟨_, by simp [cppFlags], prefixed_iff.1 h4, rfl⟩
  rw [if_neg h4]
  by_cases h5 : prefixed rest c!"nextlinemacros" = true
  · rw [if_pos h5]; exact Or.inl ⟨_, by simp [cppFlags], prefixed_iff.1 h5, rfl⟩
  rw [if_neg h5]
  by_cases h6 : prefixed rest c!"allmacros" = true
  · rw [if_pos h6]; exact Or.inl ⟨_, by simp [cppFlags], prefixed_iff.1 h6, rfl⟩
  rw [if_neg h6]
  by_cases h7 : prefixed rest c!"fcnmacros" = true
  · rw [if_pos h7]; exact Or.inl ⟨_, by simp [cppFlags], prefixed_iff.1 h7, rfl⟩
  rw [if_neg h7]
  by_cases h8 : prefixed rest c!"constmacros" = true
  · rw [if_pos h8]; exact Or.inl ⟨_, by simp [cppFlags], prefixed_iff.1 h8, rfl⟩
  rw [if_neg h8]
  simp only [prefixed_iff] at h1 h2 h3 h4 h5 h6 h7 h8
  refine Or.inr ⟨h1, ?_, rfl⟩
  simp only [cppFlags, List.mem_cons, List.not_mem_nil, or_false, forall_eq_or_imp, forall_eq]
  exact ⟨h2, h3, h4, h5, h6, h7, h8⟩

theorem flag_unique {f g rest : Text} (hf : f ∈ c!"commentchar" :: cppFlags) (hg : g ∈ c!"commentchar" :: cppFlags)
    (h1 : f <+: rest) (h2 : g <+: rest) : f = g := by
  by_contra hne
  refine clash h1 h2 ?_
  have : ∀ f ∈ c!"commentchar" :: cppFlags, ∀ g ∈ c!"commentchar" :: cppFlags, f ≠ g → ¬ f <+: g ∧ ¬ g <+: f := by
    decide
  exact this f hf g hg hne

/-- words do not begin with a sign -/
theorem word_sign {cfg : Cfg} {inner p : Text} {r} (h : word cfg inner = some r) {x : Char}
    (hx : x = '=' ∨ x = '-' ∨ x = '+') (hp : x :: p <+: inner) : False := by
  cases inner with
  | nil => simp at hp
  | cons y inner =>
    have hy := (List.cons_prefix_cons.1 hp).1
    subst hy
    rcases word_cases h with h | h | h | h | h | h | h <;>
      (have := (List.cons_prefix_cons.1 h.1).1; subst this; revert hx; decide)

/-- which comments are left out -/
theorem directive_elim (cfg : Cfg) (inner : Text) :
    (directive cfg (inner ++ ['%', '}'])).2 = true ↔ Eliminated inner := by
  unfold directive Eliminated
  rw [word_marker]
  cases hw : word cfg inner with
  | some r =>
    have hs : ∀ p, (∃ q, ∃ x, (x = '=' ∨ x = '-' ∨ x = '+') ∧ p = x :: q) → ¬ p <+: inner := by
      rintro p ⟨q, x, hx, rfl⟩ h
      exact word_sign hw hx h
    have h5 := hs c!"=commentchar" ⟨_, _, Or.inl rfl, rfl⟩
    have h6 := hs c!"-commentchar" ⟨_, _, Or.inr (Or.inl rfl), rfl⟩
    have h7 := hs c!"+commentchar" ⟨_, _, Or.inr (Or.inr rfl), rfl⟩
    simp only [h5, h6, h7, or_false]
    rcases word_cases hw with ⟨h, rfl⟩ | ⟨h, rfl⟩ | ⟨h, rfl⟩ | ⟨h, rfl⟩ | ⟨h, rfl⟩ | ⟨h, rfl⟩ | ⟨h, rfl⟩
    · exact ⟨fun h => (by cases h), fun h' => (h'.elim (fun h' => clash h h' (by decide)) fun h' => clash h h' (by decide)).elim⟩
    · exact ⟨fun h => (by cases h), fun h' => (h'.elim (fun h' => clash h h' (by decide)) fun h' => clash h h' (by decide)).elim⟩
    · exact ⟨fun _ => Or.inl h, fun _ => rfl⟩
    · exact ⟨fun _ => Or.inr h, fun _ => rfl⟩
    · exact ⟨fun h => (by cases h), fun h' => (h'.elim (fun h' => clash h h' (by decide)) fun h' => clash h h' (by decide)).elim⟩
    · exact ⟨fun h => (by cases h), fun h' => (h'.elim (fun h' => clash h h' (by decide)) fun h' => clash h h' (by decide)).elim⟩
    · exact ⟨fun h => (by cases h), fun h' => (h'.elim (fun h' => clash h h' (by decide)) fun h' => clash h h' (by decide)).elim⟩
  | none =>
    obtain ⟨-, -, h3, h4, -⟩ := word_none hw
    cases inner with
    | nil => simp
    | cons x rest =>
      simp only [h3, h4, false_or, List.cons_append]
      by_cases hx : x = '=' ∨ x = '-' ∨ x = '+'
      · rw [if_pos hx]
        have hr : (c!"=commentchar" <+: x :: rest ∨ c!"-commentchar" <+: x :: rest ∨ c!"+commentchar" <+: x :: rest)
            ↔ c!"commentchar" <+: rest := by
          rcases hx with rfl | rfl | rfl <;> simp [List.cons_prefix_cons]
        rw [hr]
        rcases flag_cases hx rest with ⟨h, h'⟩ | ⟨f, hf, h, h'⟩ | ⟨h, -, h'⟩
        · simp [h, h']
        · rw [h']
          simp only [Bool.false_eq_true, false_iff]
          intro hc
          have := flag_unique (f := f) (g := c!"commentchar") (by simp [hf]) (by simp) h hc
          subst this
          revert hf
          decide
        · simp [h, h']
      · rw [if_neg hx]
        simp only [Bool.false_eq_true, false_iff]
        rintro (h | h | h) <;> (have := (List.cons_prefix_cons.1 h).1; subst this; revert hx; decide)

/-- after `commentchar` -/
theorem commentChar_eq (n : Text) :
    ∃ c : Char, [c] <+: n ++ ['%'] ∧
      ((¬ Blank c ∧ commentChar (n ++ ['%', '}']) = .noBlank)
      ∨ (Blank c ∧ ∃ d, [c, d] <+: n ++ ['%'] ∧ commentChar (n ++ ['%', '}'])
          = if d = Char.ofNat 0 then .nul else .setChar d)) := by
  unfold Blank
  rcases n with _ | ⟨c, _ | ⟨d, n⟩⟩
  · exact ⟨'%', by simp, Or.inl ⟨by decide, by decide⟩⟩
  · refine ⟨c, by simp, ?_⟩
    by_cases hc : c = ' ' ∨ c = '\t' ∨ c = '\n'
    · refine Or.inr ⟨hc, '%', by simp, ?_⟩
      simp only [commentChar, List.cons_append, List.nil_append]
      rw [if_neg (by tauto)]
    · refine Or.inl ⟨hc, ?_⟩
      simp only [commentChar, List.cons_append, List.nil_append]
      rw [if_pos (by tauto)]
  · refine ⟨c, by simp, ?_⟩
    by_cases hc : c = ' ' ∨ c = '\t' ∨ c = '\n'
    · refine Or.inr ⟨hc, d, by simp, ?_⟩
      simp only [commentChar, List.cons_append]
      rw [if_neg (by tauto)]
    · refine Or.inl ⟨hc, ?_⟩
      simp only [commentChar, List.cons_append]
      rw [if_pos (by tauto)]

theorem prefix_pair {p : Text} {a b : Char} {l : Text} (h1 : p ++ [a] <+: l) (h2 : p ++ [b] <+: l) : a = b := by
  have h := List.prefix_of_prefix_length_le h1 h2 (by simp)
  obtain ⟨t, ht⟩ := h
  simp at ht
  exact ht.1

theorem prefix_two {p : Text} {a b c d : Char} {l : Text} (h1 : p ++ [a, b] <+: l) (h2 : p ++ [c, d] <+: l) :
    a = c ∧ b = d := by
  have h := List.prefix_of_prefix_length_le h1 h2 (by simp)
  obtain ⟨t, ht⟩ := h
  simp at ht
  exact ⟨ht.1, ht.2.1⟩

/-- What is done is what should be done. -/
theorem directive_does (cfg : Cfg) (inner : Text) (a : Act) :
    a ∈ (directive cfg (inner ++ ['%', '}'])).1 ↔ Does cfg.nocomments inner a := by
  unfold directive
  rw [word_marker]
  cases hw : word cfg inner with
  | some r =>
    have hs : ∀ (q : Text) (x : Char), (x = '=' ∨ x = '-' ∨ x = '+') → ¬ x :: q <+: inner := by
      intro q x hx h
      exact word_sign hw hx h
    have hs' : ∀ (q : Text) (x : Char), (x = '-' ∨ x = '+') → ¬ x :: q <+: inner ++ ['%'] := by
      intro q x hx h
      cases inner with
      | nil => have := (List.cons_prefix_cons.1 h).1; subst this; revert hx; decide
      | cons y inner =>
        have hy := (List.cons_prefix_cons.1 h).1
        subst hy
        exact hs [] x (Or.inr hx) (by simp)
    refine ⟨fun h => ?_, fun h => ?_⟩
    · rcases word_cases hw with ⟨hp, rfl⟩ | ⟨hp, rfl⟩ | ⟨hp, rfl⟩ | ⟨hp, rfl⟩ | ⟨hp, rfl⟩ | ⟨hp, rfl⟩ | ⟨hp, rfl⟩
      · cases hc : cfg.nocomments <;> simp [hc] at h
        subst h; exact .suppressOn rfl hp
      · cases hc : cfg.nocomments <;> simp [hc] at h
        subst h; exact .suppressOff rfl hp
      all_goals (simp only [List.mem_singleton] at h; subst h)
      · exact .notparseable hp
      · exact .notfunction hp
      · exact .iter hp
      · exact .function hp
      · exact .constant hp
    · cases h with
      | noRestore h => exact absurd h (hs _ '=' (by decide))
      | noBlank hx _ h => exact absurd h (hs' _ _ hx)
      | nul hx _ h => exact absurd h (hs _ _ (Or.inr hx))
      | setChar hx _ _ h => exact absurd h (hs' _ _ hx)
      | setFlag hx _ h => exact absurd h (hs _ _ hx)
      | isfunction hx _ h => exact absurd h (hs _ _ hx)
      | suppressOn hn h =>
        rcases word_cases hw with ⟨hp, rfl⟩ | ⟨hp, rfl⟩ | ⟨hp, rfl⟩ | ⟨hp, rfl⟩ | ⟨hp, rfl⟩ | ⟨hp, rfl⟩ | ⟨hp, rfl⟩
        · simp [hn]
        all_goals exact (clash hp h (by decide)).elim
      | suppressOff hn h =>
        rcases word_cases hw with ⟨hp, rfl⟩ | ⟨hp, rfl⟩ | ⟨hp, rfl⟩ | ⟨hp, rfl⟩ | ⟨hp, rfl⟩ | ⟨hp, rfl⟩ | ⟨hp, rfl⟩
        on_goal 2 => simp [hn]
        all_goals exact (clash hp h (by decide)).elim
      | notparseable h =>
        rcases word_cases hw with ⟨hp, rfl⟩ | ⟨hp, rfl⟩ | ⟨hp, rfl⟩ | ⟨hp, rfl⟩ | ⟨hp, rfl⟩ | ⟨hp, rfl⟩ | ⟨hp, rfl⟩
        on_goal 3 => simp
        all_goals exact (clash hp h (by decide)).elim
      | notfunction h =>
        rcases word_cases hw with ⟨hp, rfl⟩ | ⟨hp, rfl⟩ | ⟨hp, rfl⟩ | ⟨hp, rfl⟩ | ⟨hp, rfl⟩ | ⟨hp, rfl⟩ | ⟨hp, rfl⟩
        on_goal 4 => simp
        all_goals exact (clash hp h (by decide)).elim
      | iter h =>
        rcases word_cases hw with ⟨hp, rfl⟩ | ⟨hp, rfl⟩ | ⟨hp, rfl⟩ | ⟨hp, rfl⟩ | ⟨hp, rfl⟩ | ⟨hp, rfl⟩ | ⟨hp, rfl⟩
        on_goal 5 => simp
        all_goals exact (clash hp h (by decide)).elim
      | function h =>
        rcases word_cases hw with ⟨hp, rfl⟩ | ⟨hp, rfl⟩ | ⟨hp, rfl⟩ | ⟨hp, rfl⟩ | ⟨hp, rfl⟩ | ⟨hp, rfl⟩ | ⟨hp, rfl⟩
        on_goal 6 => simp
        all_goals exact (clash hp h (by decide)).elim
      | constant h =>
        rcases word_cases hw with ⟨hp, rfl⟩ | ⟨hp, rfl⟩ | ⟨hp, rfl⟩ | ⟨hp, rfl⟩ | ⟨hp, rfl⟩ | ⟨hp, rfl⟩ | ⟨hp, rfl⟩
        on_goal 7 => simp
        all_goals exact (clash hp h (by decide)).elim
  | none =>
    obtain ⟨h1, h2, h3, h4, h5, h6, h7⟩ := word_none hw
    cases inner with
    | nil =>
      simp only [List.nil_append]
      refine ⟨fun h => (by revert h; simp), fun h => ?_⟩
      cases h with
      | noBlank hx _ h => rcases hx with rfl | rfl <;> (revert h; simp [List.cons_prefix_cons])
      | setChar hx _ _ h => rcases hx with rfl | rfl <;> (revert h; simp [List.cons_prefix_cons])
      | nul hx _ h => simp at h
      | setFlag hx _ h => simp at h
      | isfunction hx _ h => simp at h
      | noRestore h => simp at h
      | suppressOn _ h => simp at h
      | suppressOff _ h => simp at h
      | notparseable h => simp at h
      | notfunction h => simp at h
      | iter h => simp at h
      | function h => simp at h
      | constant h => simp at h
    | cons x rest =>
      simp only [List.cons_append]
      -- what is done needs a sign, and a flag
      have hneed : Does cfg.nocomments (x :: rest) a → (x = '=' ∨ x = '-' ∨ x = '+') ∧
          ((c!"commentchar" <+: rest ∧ ((x = '=' ∧ a = .noRestore) ∨ ((x = '-' ∨ x = '+') ∧
            ((∃ c, ¬ Blank c ∧ c!"commentchar" ++ [c] <+: rest ++ ['%'] ∧ a = .noBlank)
            ∨ (∃ b d, Blank b ∧ c!"commentchar" ++ [b, d] <+: rest ++ ['%'] ∧ d = Char.ofNat 0 ∧ a = .nul)
            ∨ ∃ b d, Blank b ∧ c!"commentchar" ++ [b, d] <+: rest ++ ['%'] ∧ d ≠ Char.ofNat 0 ∧ a = .setChar d))))
          ∨ ∃ f ∈ cppFlags, f <+: rest ∧ (a = .setFlag f x
            ∨ (a = .isfunction ∧ (f = c!"allmacros" ∨ f = c!"fcnmacros" ∨ f = c!"constmacros")))) := by
        have hcut : ∀ (t : Text), c!"commentchar" ++ t <+: rest ++ ['%'] → c!"commentchar" <+: rest := by
          intro t h
          exact (prefix_marker (x := []) (by decide)).1 ((List.prefix_append _ _).trans h)
        intro h
        cases h with
        | suppressOn _ h => exact absurd h h1
        | suppressOff _ h => exact absurd h h2
        | notparseable h => exact absurd h h3
        | notfunction h => exact absurd h h4
        | iter h => exact absurd h h5
        | function h => exact absurd h h6
        | constant h => exact absurd h h7
        | noRestore h =>
          obtain ⟨h, h'⟩ := List.cons_prefix_cons.1 h
          exact ⟨Or.inl h.symm, Or.inl ⟨h', Or.inl ⟨h.symm, rfl⟩⟩⟩
        | noBlank hx hb h =>
          obtain ⟨rfl, h'⟩ := List.cons_prefix_cons.1 h
          exact ⟨Or.inr hx, Or.inl ⟨hcut _ h', Or.inr ⟨hx, Or.inl ⟨_, hb, h', rfl⟩⟩⟩⟩
        | nul hx hb h =>
          obtain ⟨rfl, h'⟩ := List.cons_prefix_cons.1 h
          have h'' := h'.trans (List.prefix_append rest ['%'])
          exact ⟨Or.inr hx, Or.inl ⟨hcut _ h'', Or.inr ⟨hx, Or.inr (Or.inl ⟨_, _, hb, h'', rfl, rfl⟩)⟩⟩⟩
        | setChar hx hb hc h =>
          obtain ⟨rfl, h'⟩ := List.cons_prefix_cons.1 h
          exact ⟨Or.inr hx, Or.inl ⟨hcut _ h', Or.inr ⟨hx, Or.inr (Or.inr ⟨_, _, hb, h', hc, rfl⟩)⟩⟩⟩
        | setFlag hx hf h =>
          obtain ⟨rfl, h'⟩ := List.cons_prefix_cons.1 h
          exact ⟨hx, Or.inr ⟨_, hf, h', Or.inl rfl⟩⟩
        | isfunction hx hf h =>
          obtain ⟨rfl, h'⟩ := List.cons_prefix_cons.1 h
          exact ⟨hx, Or.inr ⟨_, (by rcases hf with rfl | rfl | rfl <;> simp [cppFlags]), h', Or.inr ⟨rfl, hf⟩⟩⟩
      by_cases hx : x = '=' ∨ x = '-' ∨ x = '+'
      · rw [if_pos hx]
        rcases flag_cases hx rest with ⟨h, h'⟩ | ⟨f, hf, h, h'⟩ | ⟨h, hno, h'⟩
        · rw [h']
          obtain ⟨n, rfl⟩ := h
          have hd : (c!"commentchar" ++ n).drop 11 = n := by simp
          rw [hd]
          have hnf : ∀ f ∈ cppFlags, ¬ f <+: c!"commentchar" ++ n := by
            intro f hf hp
            have := flag_unique (f := f) (g := c!"commentchar") (by simp [hf]) (by simp) hp (List.prefix_append _ _)
            subst this
            revert hf
            decide
          by_cases he : x = '='
          · subst he
            simp only [if_true, List.mem_singleton]
            refine ⟨fun h => h ▸ .noRestore (by simp), fun h => ?_⟩
            rcases (hneed h).2 with ⟨-, ⟨-, h⟩ | ⟨h, -⟩⟩ | ⟨f, hf, hp, -⟩
            · exact h
            · exact absurd h (by decide)
            · exact absurd hp (hnf f hf)
          · rw [if_neg he]
            have hx' : x = '-' ∨ x = '+' := by tauto
            simp only [List.mem_singleton]
            obtain ⟨c, hc, hcase⟩ := commentChar_eq n
            have hpre : ∀ t, t <+: n ++ ['%'] → c!"commentchar" ++ t <+: c!"commentchar" ++ n ++ ['%'] := by
              intro t ht
              rw [List.append_assoc]
              exact (List.prefix_append_right_inj _).2 ht
            refine ⟨fun h => ?_, fun h => ?_⟩
            · rcases hcase with ⟨hb, hq⟩ | ⟨hb, d, hd, hq⟩
              · rw [hq] at h
                subst h
                exact .noBlank hx' hb (List.cons_prefix_cons.2 ⟨rfl, hpre _ hc⟩)
              · rw [hq] at h
                split_ifs at h with h0
                · subst h h0
                  refine .nul hx' hb (List.cons_prefix_cons.2 ⟨rfl, ?_⟩)
                  have := hpre _ hd
                  rcases List.prefix_concat_iff.1 this with h | h
                  · have hl := congrArg List.getLast? h
                    rw [List.getLast?_append, List.getLast?_append] at hl
                    exact absurd hl (by simp)
                  · exact h
                · subst h
                  exact .setChar hx' hb h0 (List.cons_prefix_cons.2 ⟨rfl, hpre _ hd⟩)
            · have huniq : ∀ c', c!"commentchar" ++ [c'] <+: c!"commentchar" ++ n ++ ['%'] → c' = c :=
                fun c' h => prefix_pair h (hpre _ hc)
              have huniq2 : ∀ b' d', c!"commentchar" ++ [b', d'] <+: c!"commentchar" ++ n ++ ['%'] → b' = c := by
                intro b' d' h
                refine huniq b' (List.IsPrefix.trans ?_ h)
                exact (List.prefix_append_right_inj _).2 (by simp)
              rcases (hneed h).2 with ⟨-, ⟨h, -⟩ | ⟨-, ⟨c', hb', hp, rfl⟩ | ⟨b', d', hb', hp, hd', rfl⟩ | ⟨b', d', hb', hp, hd', rfl⟩⟩⟩
                | ⟨f, hf, hp, -⟩
              · exact absurd h he
              · obtain rfl := huniq c' hp
                rcases hcase with ⟨hb, hq⟩ | ⟨hb, _⟩
                · exact hq.symm
                · exact absurd hb hb'
              · obtain rfl := huniq2 b' d' hp
                rcases hcase with ⟨hb, hq⟩ | ⟨hb, d, hd, hq⟩
                · exact absurd hb' hb
                · obtain ⟨-, rfl⟩ := prefix_two hp (hpre _ hd)
                  rw [hq, if_pos hd']
              · obtain rfl := huniq2 b' d' hp
                rcases hcase with ⟨hb, hq⟩ | ⟨hb, d, hd, hq⟩
                · exact absurd hb' hb
                · obtain ⟨-, rfl⟩ := prefix_two hp (hpre _ hd)
                  rw [hq, if_neg hd']
              · exact absurd hp (hnf f hf)
        · rw [h']
          refine ⟨fun h'' => ?_, fun h'' => ?_⟩
          · rcases List.mem_cons.1 h'' with rfl | h''
            · exact .setFlag hx hf (List.cons_prefix_cons.2 ⟨rfl, h⟩)
            · split_ifs at h'' with hm
              · rw [List.mem_singleton] at h''
                subst h''
                exact .isfunction hx hm (List.cons_prefix_cons.2 ⟨rfl, h⟩)
              · cases h''
          · rcases (hneed h'').2 with ⟨hc, -⟩ | ⟨g, hg, hp, ha⟩
            · have := flag_unique (f := f) (g := c!"commentchar") (by simp [hf]) (by simp) h hc
              subst this
              exact absurd hf (by decide)
            · have := flag_unique (f := f) (g := g) (by simp [hf]) (by simp [hg]) h hp
              subst this
              rcases ha with rfl | ⟨rfl, ha⟩
              · simp
              · simp only [List.mem_cons]
                rw [if_pos ha]
                simp
        · rw [h']
          refine ⟨fun h => (by cases h), fun h'' => ?_⟩
          rcases (hneed h'').2 with ⟨hc, -⟩ | ⟨g, hg, hp, -⟩
          · exact absurd hc h
          · exact absurd hp (hno g hg)
      · rw [if_neg hx]
        exact ⟨fun h => (by cases h), fun h => absurd (hneed h).1 hx⟩

end Splint.Comment
