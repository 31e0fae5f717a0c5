import Verif.Proofs.CppMacro
namespace Splint.CppMacro
open Spec

theorem punct_ext : ∀ p ∈ puncts, ∀ k < p.length, 0 < k → unsafeChars (p.getD (k - 1) ' ') (p.getD k ' ') = true ∨ missed (p.getD (k - 1) ' ') (p.getD k ' ') = true := by
  decide +kernel

theorem punct_blank : ∀ p ∈ puncts, ' ' ∉ p := by decide +kernel

theorem isPrefixOf_iff (p l : List Char) : p.isPrefixOf l = true ↔ p <+: l := List.isPrefixOf_iff_prefix

/-- A punctuator is a prefix of `a` and what follows only if it is one of `a`. -/
theorem punct_prefix {p a b : List Char} {c : Char} (hp : p ∈ puncts) (ha : a ≠ [])
    (hu : ∀ x, a.getLast? = some x → unsafeChars x c = false ∧ missed x c = false) (h : p <+: a ++ c :: b) : p <+: a := by
  by_cases hl : p.length ≤ a.length
  · exact List.prefix_of_prefix_length_le h (List.prefix_append _ _) hl
  · exfalso
    have hl : a.length < p.length := by omega
    have hpos : 0 < a.length := List.length_pos_iff.2 ha
    have key := punct_ext p hp a.length hl hpos
    obtain ⟨t, ht⟩ := h
    have e1 : p.getD a.length ' ' = c := by
      have : (p ++ t)[a.length]? = some c := by rw [ht]; simp
      rw [List.getElem?_append_left hl] at this
      rw [List.getD_eq_getElem?_getD, this]; rfl
    have e2 : a.getLast? = some (p.getD (a.length - 1) ' ') := by
      have : (p ++ t)[a.length - 1]? = a[a.length - 1]? := by
        rw [ht, List.getElem?_append_left (by omega)]
      rw [List.getElem?_append_left (by omega)] at this
      rw [List.getLast?_eq_getElem?, List.getD_eq_getElem?_getD, this]
      have : a[a.length - 1]? = some (a[a.length - 1]'(by omega)) := List.getElem?_eq_getElem (by omega)
      rw [this]; rfl
    have := hu _ e2
    rw [e1] at key
    rcases key with k | k
    · rw [this.1] at k; cases k
    · rw [this.2] at k; cases k

theorem punct_prefix_blank {p a : List Char} (hp : p ∈ puncts) (h : p <+: a ++ [' ']) : p <+: a := by
  by_cases hl : p.length ≤ a.length
  · exact List.prefix_of_prefix_length_le h (List.prefix_append _ _) hl
  · exfalso
    have : p = a ++ [' '] := List.IsPrefix.eq_of_length_le h (by simp; omega)
    exact punct_blank p hp (by rw [this]; simp)

theorem litBody_ext (q : Char) (l b : List Char) (c : Char) (h : litBody q (l ++ [' ']) = (l, [' '])) : litBody q (l ++ c :: b) = (l, c :: b) := by
  match l with
  | [] =>
    simp [litBody] at h
  | [x] =>
    simp only [List.cons_append, List.nil_append, litBody] at h ⊢
    split at h
    · next hx => rw [if_pos hx]
    · next hx =>
      split at h
      · simp at h
      · simp at h
  | x :: y :: l =>
    simp only [List.cons_append, litBody] at h ⊢
    split at h
    · simp at h
    · next hx =>
      rw [if_neg hx]
      split at h
      · next hb =>
        rw [if_pos hb]
        have : litBody q (l ++ [' ']) = (l, [' ']) := by
          simp only [Prod.mk.injEq, List.cons.injEq, true_and] at h
          exact Prod.ext h.1 h.2
        rw [litBody_ext q l b c this]
      · next hb =>
        rw [if_neg hb]
        have : litBody q (y :: l ++ [' ']) = (y :: l, [' ']) := by
          simp only [Prod.mk.injEq, List.cons.injEq, true_and] at h
          exact Prod.ext h.1 h.2
        have := litBody_ext q (y :: l) b c this
        simp only [List.cons_append] at this
        rw [this]
termination_by l.length

/-- a number goes on -/
def goesOn (z c : Char) : Bool := isId c || c = '.' || ((c = '+' || c = '-') && (z = 'e' || z = 'E' || z = 'p' || z = 'P'))

theorem numBody_ext (l b : List Char) (c : Char) : ∀ p : Char, numBody p (l ++ [' ']) = (l, [' ']) → goesOn ((p :: l).getLast (by simp)) c = false →
    numBody p (l ++ c :: b) = (l, c :: b) := by
  induction l with
  | nil =>
    intro p _ hg
    simp only [List.getLast_singleton] at hg
    rw [List.nil_append, numBody]
    unfold goesOn at hg
    rw [if_neg (by simp [hg])]
  | cons x l ih =>
    intro p h hg
    simp only [List.cons_append, numBody] at h ⊢
    split at h
    · next hx =>
      rw [if_pos hx]
      have h2 : numBody x (l ++ [' ']) = (l, [' ']) := by
        simp only [Prod.mk.injEq, List.cons.injEq, true_and] at h
        exact Prod.ext h.1 h.2
      rw [ih x h2 (by simpa using hg)]
    · simp at h

/-- `unsafe_chars` knows where names and numbers go on. -/
theorem goesOn_unsafe {z c : Char} (hz : numChar z = true) (h : goesOn z c = true) : unsafeChars z c = true ∨ missed z c = true := by
  by_cases h1 : z = '+' ∨ z = '-'
  · left
    have : ¬ (z = 'e' ∨ z = 'E' ∨ z = 'p' ∨ z = 'P') := by
      rcases h1 with rfl | rfl <;> decide
    unfold goesOn at h
    have h : isId c = true ∨ c = '.' := by
      simp only [Bool.or_eq_true, Bool.and_eq_true, decide_eq_true_iff] at h; tauto
    unfold unsafeChars
    simp only
    rw [if_pos (by simpa using h1)]
    rcases h with h | h <;> simp [h]
  · by_cases h2 : (decide (z = '.') || isDig z || decide (z = 'e') || decide (z = 'E') || decide (z = 'p') || decide (z = 'P')) = true
    · left
      unfold unsafeChars
      simp only
      rw [if_neg (by simpa using h1), if_pos h2]
      unfold goesOn at h
      simp only [Bool.or_eq_true, Bool.and_eq_true, decide_eq_true_iff] at h ⊢
      tauto
    · have hw : isId c = true ∨ c = '.' := by
        unfold goesOn at h
        simp only [Bool.or_eq_true, Bool.and_eq_true, decide_eq_true_iff] at h h2
        tauto
      by_cases h3 : z = '$'
      · right
        subst h3
        unfold missed
        rcases hw with h | h <;> simp [h]
      · left
        have h4 : z = '_' ∨ isLetter z = true := by
          simp only [numChar, isId, isStart, Bool.or_eq_true, decide_eq_true_iff] at hz
          simp only [Bool.or_eq_true, decide_eq_true_iff] at h2
          tauto
        unfold unsafeChars
        simp only
        rw [if_neg (by simpa using h1), if_neg h2]
        split
        · rcases hw with h | h <;> simp [h]
        · rw [if_pos (by simpa using h4)]
          rcases hw with h | h <;> simp [h]

theorem all_takeWhile_blank {l : List Char} (h : (l ++ [' ']).takeWhile isId = l) : ∀ d ∈ l, isId d = true := by
  intro d hd
  rw [← h] at hd
  exact mem_takeWhile_imp hd

/-- Tokens are kept apart. -/
theorem first_append {a b : List Char} {c : Char} (ht : isToken a) (hu : ∀ x, a.getLast? = some x → unsafeChars x c = false ∧ missed x c = false) :
    first (a ++ c :: b) = a := by
  obtain ⟨hne, hf⟩ := ht
  match a, hne with
  | x :: l, _ =>
  have hu' : ∀ z, (x :: l).getLast (by simp) = z → unsafeChars z c = false ∧ missed z c = false := by
    intro z hz
    refine hu z ?_
    rw [List.getLast?_eq_some_getLast (by simp), hz]
  have notOn : ∀ z, (x :: l).getLast (by simp) = z → numChar z = true → goesOn z c = false := by
    intro z hz hn
    cases hg : goesOn z c
    · rfl
    · have := hu' z hz
      rcases goesOn_unsafe hn hg with k | k
      · rw [this.1] at k; cases k
      · rw [this.2] at k; cases k
  simp only [List.cons_append, first] at hf ⊢
  cases hsp : isSp x
  swap
  · exfalso
    have : (lex1 isSp x (l ++ [' '])).1 = .ws (x :: (l ++ [' ']).takeWhile isSp) := by simp [lex1, hsp]
    rw [this] at hf
    simp only [firstOf, List.cons.injEq, true_and] at hf
    have hall : ∀ d ∈ l ++ [' '], isSp d = true := by
      intro d hd
      rcases List.mem_append.1 hd with hd | hd
      · rw [← hf] at hd; exact mem_takeWhile_imp hd
      · simp at hd; subst hd; decide
    have : (l ++ [' ']).takeWhile isSp = l ++ [' '] := by
      have := List.takeWhile_append_of_pos (l₂ := []) hall
      simpa using this
    rw [this] at hf
    simp at hf
  cases hq : isQuote x
  swap
  · have e : ∀ r, (lex1 isSp x r).1 = .lit (x :: (litBody x r).1) := by intro r; simp [lex1, hsp, hq]
    rw [e] at hf ⊢
    simp only [firstOf, List.cons.injEq, true_and] at hf ⊢
    have h2 : litBody x (l ++ [' ']) = (l, [' ']) := by
      have := (litBody_spec x (l ++ [' '])).1
      rw [hf] at this
      exact Prod.ext hf (List.append_cancel_left this).symm
    rw [litBody_ext x l b c h2]
  have headq : ∀ (f : Char → Bool) r, l ≠ [] → ((l ++ r).head?.map f).getD false = (l.head?.map f).getD false := by
    intro f r h
    cases l with
    | nil => exact absurd rfl h
    | cons y l => rfl
  cases hL : (decide (x = 'L') && ((l ++ [' ']).head?.map isQuote).getD false)
  swap
  · have hL' := hL
    simp only [Bool.and_eq_true, decide_eq_true_iff] at hL'
    obtain ⟨rfl, hl⟩ := hL'
    cases l with
    | nil => simp [isQuote] at hl
    | cons q l =>
      simp only [List.cons_append, List.head?_cons, Option.map_some, Option.getD_some] at hl
      have e : ∀ r, (lex1 isSp 'L' (q :: r)).1 = .lit ('L' :: q :: (litBody q r).1) := by
        intro r
        unfold lex1
        rw [if_neg (by decide), if_neg (by decide), if_pos (by simp [hl])]
      simp only [List.cons_append] at hf ⊢
      rw [e] at hf ⊢
      simp only [firstOf, List.cons.injEq, true_and] at hf ⊢
      have h2 : litBody q (l ++ [' ']) = (l, [' ']) := by
        have := (litBody_spec q (l ++ [' '])).1
        rw [hf] at this
        exact Prod.ext hf (List.append_cancel_left this).symm
      rw [litBody_ext q l b c h2]
  have hLb : (decide (x = 'L') && ((l ++ c :: b).head?.map isQuote).getD false) = false := by
    cases l with
    | nil =>
      by_contra h
      simp only [List.nil_append, List.head?_cons, Option.map_some, Option.getD_some, Bool.not_eq_false, Bool.and_eq_true, decide_eq_true_iff] at h
      have := (hu' 'L' (by simp [h.1])).1
      rcases isQuote_cases h.2 with rfl | rfl <;> revert this <;> decide
    | cons y l => exact hL
  have base : ∀ r, (decide (x = 'L') && (r.head?.map isQuote).getD false) = false → lex1 isSp x r = if isStart x then (.word (x :: r.takeWhile isId), r.dropWhile isId)
      else if isDig x || (x = '.' && (r.head?.map isDig).getD false) then (.num (x :: (numBody x r).1), (numBody x r).2)
      else if x = '#' then
        match r with
        | '#' :: r' => (.paste, r')
        | _ => (.hash, r)
      else (.oth x, r) := by
    intro r hr
    unfold lex1
    rw [if_neg (by simp [hsp]), if_neg (by simp [hq]), if_neg (by simp [hr])]
    rfl
  rw [base _ hL] at hf
  rw [base _ hLb]
  by_cases hs : isStart x = true
  · rw [if_pos hs] at hf ⊢
    simp only [firstOf, List.cons.injEq, true_and] at hf ⊢
    have hall := all_takeWhile_blank hf
    refine (takeWhile_append_of hall ?_).1
    simp only [List.head?_cons, Option.map_some, Option.getD_some]
    have hlast : isId ((x :: l).getLast (by simp)) = true := by
      have := List.getLast_mem (l := x :: l) (by simp)
      rcases List.mem_cons.1 this with h | h
      · rw [h]; exact start_id hs
      · exact hall _ h
    have := notOn _ rfl (by simp [numChar, hlast])
    unfold goesOn at this
    simp only [Bool.or_eq_false_iff] at this
    exact this.1.1
  rw [if_neg hs] at hf ⊢
  by_cases hn : (isDig x || (decide (x = '.') && ((l ++ [' ']).head?.map isDig).getD false)) = true
  · have hn' : (isDig x || (decide (x = '.') && ((l ++ c :: b).head?.map isDig).getD false)) = true := by
      cases l with
      | nil =>
        simp only [List.nil_append, List.head?_cons, Option.map_some, Option.getD_some] at hn
        have : isDig ' ' = false := by decide
        rw [this, Bool.and_false, Bool.or_false] at hn
        simp [hn]
      | cons y l => exact hn
    rw [if_pos hn] at hf
    rw [if_pos hn']
    simp only [firstOf, List.cons.injEq, true_and] at hf ⊢
    obtain ⟨n1, n2, _⟩ := numBody_spec x (l ++ [' '])
    have h2 : numBody x (l ++ [' ']) = (l, [' ']) := by
      rw [hf] at n1
      exact Prod.ext hf (List.append_cancel_left n1).symm
    rw [hf] at n2
    have hlast : numChar ((x :: l).getLast (by simp)) = true := by
      have := List.getLast_mem (l := x :: l) (by simp)
      rcases List.mem_cons.1 this with h | h
      · rw [h]
        simp only [Bool.or_eq_true, Bool.and_eq_true, decide_eq_true_iff] at hn
        rcases hn with h | h
        · simp [numChar, isId, h]
        · simp [numChar, h.1]
      · exact n2 _ h
    rw [numBody_ext l b c x h2 (notOn _ rfl hlast)]
  have hn' : ¬ (isDig x || (decide (x = '.') && ((l ++ c :: b).head?.map isDig).getD false)) = true := by
    cases l with
    | nil =>
      intro h
      simp only [Bool.or_eq_true, not_or, Bool.and_eq_true, decide_eq_true_iff] at h hn
      rcases h with h | h
      · exact hn.1 h
      · simp only [List.nil_append, List.head?_cons, Option.map_some, Option.getD_some] at h
        have := notOn '.' (by simp [h.1]) (by decide)
        simp [goesOn, isId, h.2] at this
    | cons y l => exact hn
  rw [if_neg hn] at hf
  rw [if_neg hn']
  have hfind : (puncts.find? fun p => p.isPrefixOf (x :: (l ++ [' ']))) = puncts.find? fun p => p.isPrefixOf (x :: (l ++ c :: b)) := by
    have : ∀ p ∈ puncts, p.isPrefixOf (x :: (l ++ [' '])) = p.isPrefixOf (x :: (l ++ c :: b)) := by
      intro p hp
      rw [Bool.eq_iff_iff, isPrefixOf_iff, isPrefixOf_iff]
      constructor
      · intro h
        exact (punct_prefix_blank (a := x :: l) hp h).trans (List.prefix_append (x :: l) _)
      · intro h
        exact (punct_prefix (a := x :: l) hp (by simp) hu h).trans (List.prefix_append (x :: l) _)
    generalize puncts = ps at this
    induction ps with
    | nil => rfl
    | cons p ps ih =>
      rw [List.find?_cons, List.find?_cons, this p (by simp), ih fun q hq => this q (by simp [hq])]
  have red : ∀ r alt, firstOf (if x = '#' then
        match r with
        | '#' :: r' => (Tok.paste, r')
        | _ => (.hash, r)
      else (.oth x, r) : Tok × List Char).1 alt = alt := by
    intro r alt
    by_cases h : x = '#'
    · rw [if_pos h]
      split <;> rfl
    · rw [if_neg h]; rfl
  rw [red] at hf ⊢
  rw [← hfind]
  exact hf

end Splint.CppMacro
