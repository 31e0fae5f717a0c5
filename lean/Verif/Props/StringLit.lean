import Verif.Proofs.StringLit
/-!
# C61: string literals and the arrays they are put in

When a string literal is assigned to an array of known size, splint reports exactly if the literal with
its final null does not fit, or fits with room to spare.
-/
namespace Splint.StrLit
open Spec Scan.Spec

/-- The full property: for a literal or several literals one after the other, whatever is in the memory
that is allocated, and for every array that is not empty. -/
def C61_full : Prop :=
  ∀ mem k iss t, Joined iss t → k ≠ 0 → check mem k t = some (expected k (values iss.flatten))

theorem item_abc : Literal [(['a'], 97), (['b'], 98), (['c'], 99)] :=
  .cons (.plain (c := 'a') (by decide) (by decide) (by decide) (by decide) (by decide))
    (.cons (.plain (c := 'b') (by decide) (by decide) (by decide) (by decide) (by decide))
      (.cons (.plain (c := 'c') (by decide) (by decide) (by decide) (by decide) (by decide)) .nil
        (by rintro ⟨_, h, -⟩; simp at h) (by rintro ⟨_, h⟩; simp at h))
      (by rintro ⟨_, h, -⟩; simp at h) (by rintro ⟨_, h⟩; simp at h))
    (by rintro ⟨_, h, -⟩; simp at h) (by rintro ⟨_, h⟩; simp at h)

/-- It does not hold: `char a[4] = "" "abc";` is right, and is reported as a waste of storage, whatever
is in memory. -/
theorem C61_full_is_false : ¬ C61_full := by
  intro h
  have := h (fun _ => 'A') 4 _ _ (.more (w := [' ']) .nil (by decide) (.one item_abc)) (by decide)
  revert this
  decide +kernel

/-- The length of one literal is right, if no short octal escape is followed by 8 or 9. -/
theorem C61_length_partial {is : List (List Char × Nat)} (mem : Nat → Char) (h : Literal is)
    (h89 : No89 is) : lengthExpand mem (text is) = some (values is).length := by
  obtain ⟨vs, h1, h2⟩ := expand_some h h89
  rw [lengthExpand, merge_one h]
  simp [h1, values, length_of_forall h2]

/-- `"a\n\x41"` -/
example : Literal [(['a'], 97), (['\\', 'n'], 10), (['\\', 'x', '4', '1'], 65)] ∧
    No89 [(['a'], 97), (['\\', 'n'], 10), (['\\', 'x', '4', '1'], 65)] := by
  constructor
  · refine .cons (.plain (c := 'a') (by decide) (by decide) (by decide) (by decide) (by decide))
      (.cons (.escape (.simple (by decide)) (by decide))
        (.cons (.escape (.hex (ds := ['4', '1']) (by decide) (by decide)) (by decide)) .nil ?_ ?_) ?_ ?_) ?_ ?_
    · intro _ c hc; cases hc
    · intro _ c hc; cases hc
    · rintro ⟨_, h, _, _, h2⟩; simp at h; subst h; have := h2 'n' (by simp); revert this; decide
    · rintro ⟨_, h⟩; simp at h
    · rintro ⟨_, h, -⟩; simp at h
    · rintro ⟨_, h⟩; simp at h
  · refine ⟨?_, ?_, ?_, trivial⟩
    · rintro ⟨_, h, -⟩; simp at h
    · rintro ⟨_, h, _, _, h2⟩; simp at h; subst h; have := h2 'n' (by simp); revert this; decide
    · intro _ c hc; cases hc

/-- Otherwise it is not: `"\18"` has two characters, and is counted as one. -/
theorem C61_eight_nine (mem : Nat → Char) :
    Literal [(['\\', '1'], 1), (['8'], 56)]
    ∧ lengthExpand mem (text [(['\\', '1'], 1), (['8'], 56)]) = some 1 := by
  refine ⟨.cons (.escape (.oct (ds := ['1']) (by decide) (by decide) (by decide)) (by decide))
    (.cons (.plain (c := '8') (by decide) (by decide) (by decide) (by decide) (by decide)) .nil ?_ ?_)
    ?_ ?_, ?_⟩
  · rintro ⟨_, h, -⟩; simp at h
  · rintro ⟨_, h⟩; simp at h
  · intro _ c hc
    have : c = '8' := by simpa [text] using hc.symm
    subst this
    decide
  · rintro ⟨_, h⟩; simp at h
  · have : mergeString mem (text [(['\\', '1'], 1), (['8'], 56)]) = some ['\\', '1', '8'] := by
      simp [mergeString, mergeGo, text, cut]
    rw [lengthExpand, this]
    decide +kernel

/-- The characters are right as well, if moreover the second digit of octal escapes is 0 and there is no
`\v`. -/
theorem C61_values_partial {is : List (List Char × Nat)} (h : Literal is) (h89 : No89 is)
    (hz : ∀ i ∈ is, secondZero i.1 ∧ i.1 ≠ ['\\', 'v']) : expand (text is) = some (values is) := by
  obtain ⟨vs, h1, h2⟩ := expand_some h h89
  rw [h1]
  congr 1
  clear h1 h h89
  induction h2 with
  | nil => rfl
  | cons h3 _ ih =>
    have := hz _ (List.mem_cons_self ..)
    rw [h3.1 this.1 this.2, ih fun i h => hz i (by simp [h])]
    rfl

/-- Otherwise not: `\12` is taken for 8, and `\v` for the letter. -/
theorem C61_wrong_values : Escape ['1', '2'] 10 ∧ expand ['\\', '1', '2'] = some [8]
    ∧ Escape ['v'] 11 ∧ expand ['\\', 'v'] = some [118] :=
  ⟨.oct (ds := ['1', '2']) (by decide) (by decide) (by decide), by decide +kernel, .simple (by decide),
    by decide +kernel⟩

theorem last_zero {is : List (List Char × Nat)} {vs : List Nat}
    (h : List.Forall₂ (fun i v => (secondZero i.1 → i.1 ≠ ['\\', 'v'] → v = i.2)
        ∧ (secondZero i.1 → (v = 0 ↔ i.2 = 0))) is vs)
    (hz : ∀ i ∈ is, secondZero i.1) : vs.getLast? = some 0 ↔ (values is).getLast? = some 0 := by
  induction h with
  | nil => simp [values]
  | @cons i v is vs h1 h2 ih =>
    cases h2 with
    | nil => simp [values, h1.2 (hz i (by simp))]
    | cons h3 h4 =>
      have := ih fun i h => hz i (by simp [h])
      simpa [values, List.getLast?_cons_cons] using this

/-- The messages are right for one literal, if no short octal escape is followed by 8 or 9 and the
second digit of octal escapes is 0. -/
theorem C61_check_partial {is : List (List Char × Nat)} (mem : Nat → Char) {k : Nat} (h : Literal is)
    (h89 : No89 is) (hz : ∀ i ∈ is, secondZero i.1) (hk : k ≠ 0) :
    check mem k (text is) = some (expected k (values is)) := by
  obtain ⟨vs, h1, h2⟩ := expand_some h h89
  have hlen : vs.length = (values is).length := by simp [values, length_of_forall h2]
  rw [check, C61_length_partial mem h h89, expected]
  simp only
  split
  · next he =>
    rw [h1]
    simp only
    rw [if_neg (by omega)]
    have hlast := last_zero h2 hz
    rw [List.getLast?_eq_getElem?, hlen] at hlast
    have : (vs ++ [0])[(values is).length - 1]? = vs[(values is).length - 1]? :=
      List.getElem?_append_left (by omega)
    rw [this]
    by_cases hc : (values is).getLast? = some 0
    · rw [if_pos (hlast.2 hc), if_pos hc]
    · rw [if_neg (fun h => hc (hlast.1 h)), if_neg hc]
  · split
    · rfl
    · by_cases hs : (values is).length < k - 1
      · rw [if_pos hs, if_pos (by omega)]
      · rw [if_neg hs, if_neg (by omega)]

example : ∀ i ∈ [(['a'], 97), (['\\', 'n'], 10), (['\\', 'x', '4', '1'], 65)], secondZero i.1 := by
  intro i hi a b r h ha
  simp only [List.mem_cons, List.not_mem_nil, or_false] at hi
  rcases hi with rfl | rfl | rfl
  · simp at h
  · simp at h
  · simp only [List.cons.injEq] at h
    obtain ⟨-, rfl, -⟩ := h
    exact absurd ha (by decide)

/-- With one of another kind the kind of message can be wrong: for `char a[1] = "\010";` splint says that
the last character is a null. -/
theorem C61_octal (mem : Nat → Char) :
    Literal [(['\\', '0', '1', '0'], 8)]
    ∧ expected 1 [8] = some .noRoom
    ∧ check mem 1 (text [(['\\', '0', '1', '0'], 8)]) = some (some .noRoomFinalNull) := by
  refine ⟨.cons (.escape (.oct (ds := ['0', '1', '0']) (by decide) (by decide) (by decide)) (by decide)) .nil
    (fun _ c hc => (by cases hc)) (fun _ c hc => (by cases hc)), by decide, ?_⟩
  have : mergeString mem (text [(['\\', '0', '1', '0'], 8)]) = some ['\\', '0', '1', '0'] := by
    simp [mergeString, mergeGo, text, cut]
  rw [check, lengthExpand, this]
  decide +kernel

/-- Several literals: if what happens to be in memory is ordinary (no digit, backslash, null or quotation
mark), every junction counts as one character. -/
theorem C61_joined {mem : Nat → Char} {iss : List (List (List Char × Nat))} {t : List Char}
    (h : Joined iss t) (h89 : ∀ is ∈ iss, No89 is) (hne : iss.head? ≠ some [])
    (hm : ∀ i, Item [mem i] (mem i).toNat ∧ mem i ∉ allowed .hex) :
    lengthExpand mem t = some ((values iss.flatten).length + (iss.length - 1)) := by
  obtain ⟨m, h1, h2, h3, h4⟩ := merge_joined h h89 hm 0 (.inr hne)
  have : mergeString mem t = some (text m) := by
    rw [mergeString, h1, Option.map_some]
    have := cut_append (r := []) (literal_no_zero h2)
    rw [List.append_nil] at this
    rw [this]
    simp [cut]
  obtain ⟨vs, h5, h6⟩ := expand_some h2 h3
  rw [lengthExpand, this]
  have hl := length_of_forall h6
  have : iss.length ≠ 0 := by cases h <;> simp
  have hf : (values iss.flatten).length = (iss.map List.length).sum := by
    rw [values, List.length_map, List.length_flatten]
  rw [hf]
  simp only [h5, Option.map_some, Option.some.injEq]
  omega

/-- `"abc" "abc"` with the letter `Z` in memory -/
example : Joined [[(['a'], 97), (['b'], 98), (['c'], 99)], [(['a'], 97), (['b'], 98), (['c'], 99)]]
      ['a', 'b', 'c', '"', ' ', '"', 'a', 'b', 'c']
    ∧ Item ['Z'] 'Z'.toNat ∧ 'Z' ∉ allowed .hex
    ∧ lengthExpand (fun _ => 'Z') ['a', 'b', 'c', '"', ' ', '"', 'a', 'b', 'c'] = some 7 :=
  ⟨.more (w := [' ']) item_abc (by decide) (.one item_abc),
    .plain (by decide) (by decide) (by decide) (by decide) (by decide), by decide, by decide +kernel⟩

/-- If the byte at the first junction is 0, only the first literal counts. That is so whenever the first
literal is empty. -/
theorem C61_cut {mem : Nat → Char} {is : List (List Char × Nat)} {w t : List Char}
    {iss : List (List (List Char × Nat))} (h : Literal is) (h89 : No89 is)
    (hw : ∀ c ∈ w, c ∈ [' ', '\t', '\n']) (hj : Joined iss t)
    (h0 : mem (text is).length = '\x00' ∨ is = []) :
    lengthExpand mem (text is ++ '"' :: (w ++ '"' :: t)) = some (values is).length := by
  have : fresh mem (text is).length = '\x00' := by
    rcases h0 with h0 | rfl
    · simp only [fresh, h0]; split <;> rfl
    · rfl
  rw [lengthExpand, merge_cut h hw hj this, ← C61_length_partial mem h h89, lengthExpand, merge_one h]

example : lengthExpand (fun _ => 'Z') ['"', ' ', '"', 'a', 'b', 'c'] = some 0 := by decide +kernel

/-- An empty literal for an array with no elements: the code reads before the start of an array. -/
theorem C61_empty (mem : Nat → Char) : check mem 0 [] = none := by
  simp [check, lengthExpand, mergeString, mergeGo, cut, expand, expandGo]

/-- The limit on the length of literals is never overlooked (the length of the text is compared, which
is at least that of the string). -/
theorem C61_limit {max : Nat} {iss : List (List (List Char × Nat))} {t : List Char}
    (h : Joined iss t) (hm : max < (values iss.flatten).length) : limitExceeded max t = true := by
  have one : ∀ is, Literal is → is.length ≤ (text is).length := by
    intro is h
    induction h with
    | nil => simp
    | cons h1 _ _ _ ih =>
      have := List.length_pos_iff.2 (item_ne h1)
      rw [text_cons]
      simp
      omega
  have : (values iss.flatten).length ≤ t.length := by
    clear hm
    induction h with
    | one h => simpa [values] using one _ h
    | more h _ _ ih =>
      have := one _ h
      simp [values] at ih ⊢
      omega
  simp [limitExceeded]
  omega

example : limitExceeded 2 ['a', 'b', 'c'] = true ∧ limitExceeded 2 ['\\', 't', '\\', 't'] = true := by decide

/-- The text of a literal is what is between the quotation marks, with those of the text. -/
theorem C61_inner (t : List Char) : inner ('"' :: t ++ ['"']) = some t := by
  have : ('"' :: (t ++ ['"'])).getLast? = some '"' := by
    rw [← List.cons_append, List.getLast?_append]; rfl
  simp [inner, this]

example : inner ['"', 'a', '"', '"'] = some ['a', '"'] := by decide

/-- Without escapes, no other literal is. -/
theorem C61_limit_partial {is : List (List Char × Nat)} {max : Nat} (h : ∀ i ∈ is, i.1.length = 1) :
    limitExceeded max (text is) = true ↔ max < (values is).length := by
  have : (text is).length = is.length := by
    induction is with
    | nil => rfl
    | cons i is ih =>
      have h1 := h i (by simp)
      have := ih fun i hi => h i (by simp [hi])
      simp only [text, List.flatMap_cons, List.length_append, List.length_cons] at this ⊢
      omega
  simp [limitExceeded, this, values]

example : Literal [(['a'], 97), (['b'], 98), (['c'], 99)]
    ∧ limitExceeded 2 (text [(['a'], 97), (['b'], 98), (['c'], 99)]) = true
    ∧ limitExceeded 3 (text [(['a'], 97), (['b'], 98), (['c'], 99)]) = false :=
  ⟨item_abc, by decide, by decide⟩

/-- With escapes others are: `"\n"` has one character, and is counted as two. -/
theorem C61_limit_escape : Literal [(['\\', 'n'], 10)]
    ∧ limitExceeded 1 (text [(['\\', 'n'], 10)]) = true := by
  refine ⟨.cons (.escape (.simple (by decide)) (by decide)) .nil ?_ ?_, by decide⟩
  · rintro ⟨_, h, _, _, h2⟩; simp at h; subst h; have := h2 'n' (by simp); revert this; decide
  · rintro ⟨_, h⟩; simp at h

end Splint.StrLit
