import Verif.Props.MultiVal
/-!
# C15: numbers and constants read back from a library
-/
namespace Splint
open Reader

/-- The text of a number is its ordinary decimal notation. -/
theorem C15_text (n : Nat) : decimal n = Nat.toDigits 10 n := by
  induction n using Nat.strong_induction_on with
  | _ n ih =>
    by_cases h : n < 10
    · rw [decimal_lt h]
      interval_cases n <;> rfl
    · rw [decimal_ge (by omega), ih _ (by omega),
        Nat.toDigits_of_base_le (b := 10) (n := n) (by decide) (by omega)]
      congr 2
      have : n % 10 < 10 := by omega
      generalize n % 10 = k at this
      interval_cases k <;> rfl

/-- The numbers the reader gets right: those that are not negative, and those whose only digit
other than a zero is the first. -/
def ReadableInt (n : Int) : Prop := 0 ≤ n ∨ ∃ d k : Nat, d < 10 ∧ n = -(d * 10 ^ k : Nat)

/-- C15 for numbers, in full: every `int` reads back, whatever follows it. -/
def C15_int_full : Prop :=
  ∀ n : Int, -2 ^ 31 ≤ n → n < 2 ^ 31 → ∀ r : List Char, Stops r →
    ∃ r', getInt (intText n ++ r) = some (n, r')

theorem getInt_intText (n : Int) (h1 : -2 ^ 31 ≤ n) (h2 : n < 2 ^ 31) (r : List Char)
    (hr : Stops r) :
    getInt (intText n ++ r) = some
      (if 0 ≤ n then n else -(((lead n.natAbs).1 * 10 ^ (lead n.natAbs).2.1 : Nat) : Int)
        + ((lead n.natAbs).2.2 : Nat), r.dropWhile isBlank) := by
  unfold intText
  split_ifs with h
  · rw [getInt_nonneg _ (by omega) r hr]
    simp; omega
  · rw [show (-n).toNat = n.natAbs by omega, List.cons_append,
      getInt_negative _ (by omega) r hr]

/-- C15 for numbers: a number reads back, with nothing else consumed than its text and the white
space behind it, exactly when it is readable. Missing for the full claim: negative numbers such as
-12, which read back as -8. -/
theorem C15_int_partial (n : Int) (h1 : -2 ^ 31 ≤ n) (h2 : n < 2 ^ 31) (r : List Char)
    (hr : Stops r) :
    (getInt (intText n ++ r) = some (n, r.dropWhile isBlank) ↔ ReadableInt n) ∧
    ((∃ r', getInt (intText n ++ r) = some (n, r')) ↔ ReadableInt n) := by
  rw [getInt_intText n h1 h2 r hr]
  have key : (if 0 ≤ n then n else -(((lead n.natAbs).1 * 10 ^ (lead n.natAbs).2.1 : Nat) : Int)
        + ((lead n.natAbs).2.2 : Nat)) = n ↔ ReadableInt n := by
    unfold ReadableInt
    split_ifs with h
    · simp [h]
    · obtain ⟨i1, i2, i3, i4⟩ := lead_spec n.natAbs
      constructor
      · intro e
        refine .inr ⟨(lead n.natAbs).1, (lead n.natAbs).2.1, i1, ?_⟩
        generalize (lead n.natAbs).1 * 10 ^ (lead n.natAbs).2.1 = A at *
        omega
      · rintro (h' | ⟨d, k, hd, e⟩)
        · omega
        · have hz : (lead n.natAbs).2.2 = 0 := by
            have hn : n.natAbs = d * 10 ^ k := by
              generalize d * 10 ^ k = A at e; omega
            have hd0 : 0 < d := by
              rcases Nat.eq_zero_or_pos d with rfl | hd0
              · simp at e; omega
              · exact hd0
            have : ∀ k, (lead (d * 10 ^ k)).2.2 = 0 := by
              intro k
              induction k with
              | zero => rw [pow_zero, Nat.mul_one, lead, dif_pos hd]
              | succ k ih =>
                have hk : 0 < 10 ^ k := Nat.pow_pos (by decide)
                have hm : d * 10 ^ (k + 1) = d * 10 ^ k * 10 := by rw [pow_succ]; ring
                have hp : 0 < d * 10 ^ k := Nat.mul_pos hd0 hk
                rw [hm]
                generalize d * 10 ^ k = A at ih hp
                rw [lead, dif_neg (by omega), show A * 10 / 10 = A by omega]
                simp only [ih]
                omega
            rw [hn]; exact this k
          generalize (lead n.natAbs).1 * 10 ^ (lead n.natAbs).2.1 = A at *
          omega
  simp only [Option.some.injEq, Prod.mk.injEq, key, and_true, exists_and_left, exists_eq', and_self]

/-- -12 reads back as -8. -/
theorem C15_int_full_is_false : ¬ C15_int_full := by
  intro h
  obtain ⟨r', h⟩ := h (-12) (by decide) (by decide) [] (by intro c cs h; cases h)
  rw [getInt_intText _ (by decide) (by decide) _ (by intro c cs h; cases h)] at h
  have : (12 : Nat) / 10 = 1 := rfl
  simp [lead] at h

example : ReadableInt 2147483647 := .inl (by decide)
example : ReadableInt (-300) := .inr ⟨3, 2, by decide, rfl⟩
example : getInt ("42@7".toList) = some (42, ['@', '7']) := by decide +kernel
example : getInt ("-12@7".toList) = some (-8, ['@', '7']) := by decide +kernel

/-- C15 for three-valued answers: every code reads back, whatever follows. -/
theorem C15_ynm (b : Ynm) (r : List Char) :
    (loadChar (b.code :: r)).bind (fun p => (Ynm.ofCode p.1).map (·, p.2)) = some (b, r) := by
  cases b <;> simp [loadChar, Ynm.code, Ynm.ofCode]

example : Ynm.ofCode (Ynm.code .maybe) = some .maybe := rfl

/-! ## Constants -/

/-- A name a library can hold: not empty, and without the characters that end a word. -/
def GoodName (w : List Char) : Prop :=
  w ≠ [] ∧ ∀ c ∈ w, c ≠ ' ' ∧ c ≠ ',' ∧ c ≠ '\n' ∧ c ≠ '\t' ∧ c ≠ '#'

/-- A text that ends a word: empty, or starting with such a character. -/
def EndsWord (r : List Char) : Prop :=
  ∀ c cs, r = c :: cs → c = ' ' ∨ c = ',' ∨ c = '\n' ∨ c = '\t' ∨ c = '#'

/-- A constant's record that can arise when `entries` access sets exist. -/
def ConstRec.wf {F : Floats} (entries : Nat) (k : ConstRec F) : Prop :=
  k.val.wf ∧ k.access < entries ∧ -1 ≤ k.nullst ∧ k.nullst ≤ 7 ∧ GoodName k.name

/-- C15 for constants, in full (given that the machine's doubles read back). -/
def C15_const_full : Prop :=
  ∀ (F : Floats), (∀ x r, F.read (F.text x ++ '@' :: r) = (x, '@' :: r)) →
  ∀ (entries : Nat), entries ≤ 2 ^ 31 → ∀ k : ConstRec F, k.wf entries → ∀ r, EndsWord r →
    ConstRec.undump entries (k.dump ++ r) = some (k, r)

theorem getWord_good (w r : List Char) (h : GoodName w) (hr : EndsWord r) :
    getWord (w ++ r) = (some w, r) := by
  have hw : ∀ c ∈ w, isWordChar c = true := by
    intro c hc
    have := h.2 c hc
    simp [isWordChar, this]
  have hr' : r.takeWhile isWordChar = [] ∧ r.dropWhile isWordChar = r := by
    cases r with
    | nil => simp
    | cons c cs =>
      have : isWordChar c = false := by
        have := hr c cs rfl
        simp only [isWordChar]
        rcases this with h | h | h | h | h <;> simp [h]
      simp [this]
  unfold getWord
  rw [List.takeWhile_append_of_pos hw, List.dropWhile_append_of_pos hw, hr'.1, hr'.2]
  simp [h.1]

/-- What the record reads back as once the value has been read. -/
theorem undump_fields {F : Floats} (entries : Nat) (he : entries ≤ 2 ^ 31) (k : ConstRec F)
    (ha : k.access < entries) (h1 : -1 ≤ k.nullst) (h2 : k.nullst ≤ 7) (hn : GoodName k.name)
    (r : List Char) (hr : EndsWord r) (w : MultiVal F) (vs : List Char)
    (hv : MultiVal.undump (vs ++ '@' :: (decimal k.access ++ '@' :: (intText k.nullst ++
      '#' :: (k.name ++ r)))) = some (w, '@' :: (decimal k.access ++ '@' :: (intText k.nullst ++
      '#' :: (k.name ++ r))))) :
    ConstRec.undump entries ('@' :: (vs ++ '@' :: (decimal k.access ++ '@' :: (intText k.nullst ++
      '#' :: (k.name ++ r))))) = some (⟨w, k.access, k.nullst, k.name⟩, r) := by
  have g1 : getInt (decimal k.access ++ '@' :: (intText k.nullst ++ '#' :: (k.name ++ r))) =
      some ((k.access : Int), '@' :: (intText k.nullst ++ '#' :: (k.name ++ r))) := by
    rw [getInt_nonneg _ (by omega) _ (by intro c cs h; cases h; decide)]
    rw [List.dropWhile_cons_of_neg (by decide)]
  have g2 : getInt (intText k.nullst ++ '#' :: (k.name ++ r)) =
      some (k.nullst, '#' :: (k.name ++ r)) := by
    have := ((C15_int_partial k.nullst (by omega) (by omega) ('#' :: (k.name ++ r))
      (by intro c cs h; cases h; decide)).1).2 (by
        by_cases h0 : 0 ≤ k.nullst
        · exact .inl h0
        · exact .inr ⟨1, 0, by decide, by simp; omega⟩)
    rw [this, List.dropWhile_cons_of_neg (by decide)]
  unfold ConstRec.undump
  simp only [optCheckChar, checkChar, show ('@' = '$') = False by decide, if_false, if_true,
    Option.bind_eq_bind, Option.bind_some, hv, g1, g2]
  rw [if_neg (by simp; omega), if_neg (by simp; omega)]
  simp [getWord_good _ _ hn hr]

theorem dropWhile_hash (u : List Char) (h : '#' ∈ u) :
    ∃ q, u.dropWhile (fun c => c ≠ '#') = '#' :: q := by
  induction u with
  | nil => simp at h
  | cons c u ih =>
    by_cases hc : c = '#'
    · subst hc; exact ⟨u, by simp⟩
    · rw [List.dropWhile_cons_of_pos (by simpa using hc)]
      exact ih ((List.mem_cons.1 h).resolve_left (fun e => hc e.symm))

/-- Machine numbers with only one value, for the witness. -/
def toyNat : Floats where
  D := Unit
  add _ _ := ()
  sub _ _ := ()
  mul _ _ := ()
  neg _ := ()
  lt _ _ := false
  text _ := ['0']
  read s := ((), s.drop 1)

/-- The constants that read back. -/
def Readable {F : Floats} : MultiVal F → Prop
  | .unknown => True
  | .long x => -2 ^ 31 ≤ x ∧ x < 2 ^ 31 ∧ ReadableInt x
  | .char x => ReadableInt x
  | .double _ => True
  | .str _ => False

theorem toChar_self (x : Int) (h : -128 ≤ x ∧ x < 128) : toChar x = x := by
  unfold toChar; omega

/-- C15 for constants: a constant reads back exactly when it is readable. Missing for the full
claim: strings (the value swallows the rest of the record), negative numbers with more than one
significant digit, and numbers that an `int` cannot hold. -/
theorem C15_const_partial {F : Floats} (hF : ∀ x r, F.read (F.text x ++ '@' :: r) = (x, '@' :: r))
    (entries : Nat) (he : entries ≤ 2 ^ 31) (k : ConstRec F) (hk : k.wf entries)
    (r : List Char) (hr : EndsWord r) :
    ConstRec.undump entries (k.dump ++ r) = some (k, r) ↔ Readable k.val := by
  obtain ⟨v, a, n, w⟩ := k
  obtain ⟨hv, ha, h1, h2, hw⟩ := hk
  simp only at hv ha h1 h2 hw ⊢
  have fields := fun v' vs => undump_fields entries he ⟨v, a, n, w⟩ ha h1 h2 hw r hr v' vs
  simp only at fields
  have st : Stops ('@' :: (decimal a ++ '@' :: (intText n ++ '#' :: (w ++ r)))) := by
    intro c cs h; cases h; decide
  have db : ('@' :: (decimal a ++ '@' :: (intText n ++ '#' :: (w ++ r)))).dropWhile isBlank =
      '@' :: (decimal a ++ '@' :: (intText n ++ '#' :: (w ++ r))) :=
    List.dropWhile_cons_of_neg (by decide)
  rcases v with _ | x | x | x | s
  · simp only [Readable, iff_true, ConstRec.dump]
    split_ifs with h
    · obtain ⟨rfl, rfl⟩ := h
      simp [ConstRec.undump, optCheckChar, checkChar, getWord_good _ _ hw hr]
    · have := fields .unknown [] (by simp [MultiVal.undump])
      simpa [MultiVal.dump] using this
  · simp only [ConstRec.dump, MultiVal.dump, List.append_assoc, List.cons_append]
    have hx := hv
    simp only [MultiVal.wf] at hx
    have hti : -2 ^ 31 ≤ toInt x ∧ toInt x < 2 ^ 31 ∧
        ((-2 ^ 31 ≤ x ∧ x < 2 ^ 31) ↔ toInt x = x) := by unfold toInt; omega
    obtain ⟨t1, t2, t3⟩ := hti
    have gi := getInt_intText (toInt x) t1 t2 _ st
    rw [db] at gi
    have := fields _ ('i' :: intText (toInt x)) (by
      simp only [List.cons_append, MultiVal.undump, gi, Option.bind_eq_bind, Option.bind_some]
      rfl)
    simp only [List.cons_append] at this
    rw [this]
    have key := (C15_int_partial (toInt x) t1 t2 _ st).1
    rw [getInt_intText (toInt x) t1 t2 _ st] at key
    simp only [Option.some.injEq, Prod.mk.injEq, and_true] at key
    simp only [Option.some.injEq, Prod.mk.injEq, ConstRec.mk.injEq, MultiVal.long.injEq, and_true,
      Readable]
    constructor
    · intro e
      have hb : -2 ^ 31 ≤ x ∧ x < 2 ^ 31 := by
        rw [← e]
        split_ifs with h0
        · exact ⟨t1, t2⟩
        · obtain ⟨i1, i2, i3, i4⟩ := lead_spec (toInt x).natAbs
          have hA : 0 < (lead (toInt x).natAbs).1 * 10 ^ (lead (toInt x).natAbs).2.1 :=
            Nat.mul_pos (i4 (by omega)) (Nat.pow_pos (by decide))
          generalize (lead (toInt x).natAbs).1 * 10 ^ (lead (toInt x).natAbs).2.1 = A at *
          omega
      have e' := t3.1 hb
      rw [e'] at key e
      exact ⟨hb.1, hb.2, key.1 e⟩
    · rintro ⟨r1, r2, r3⟩
      have e := t3.1 ⟨r1, r2⟩
      rw [e] at key ⊢
      exact key.2 r3
  · simp only [ConstRec.dump, MultiVal.dump, List.append_assoc, List.cons_append]
    have hx := hv
    simp only [MultiVal.wf] at hx
    have gi := getInt_intText x (by omega) (by omega) _ st
    rw [db] at gi
    have := fields _ ('c' :: intText x) (by
      simp only [List.cons_append, MultiVal.undump, gi, Option.bind_eq_bind, Option.bind_some]
      rfl)
    simp only [List.cons_append] at this
    rw [this]
    have key := (C15_int_partial x (by omega) (by omega) _ st).1
    rw [getInt_intText x (by omega) (by omega) _ st] at key
    simp only [Option.some.injEq, Prod.mk.injEq, and_true] at key
    simp only [Option.some.injEq, Prod.mk.injEq, ConstRec.mk.injEq, MultiVal.char.injEq, and_true,
      Readable]
    rw [← key]
    have hb : -128 ≤ (if 0 ≤ x then x else -(((lead x.natAbs).1 * 10 ^ (lead x.natAbs).2.1 : Nat) :
        Int) + ((lead x.natAbs).2.2 : Nat)) ∧ (if 0 ≤ x then x else
        -(((lead x.natAbs).1 * 10 ^ (lead x.natAbs).2.1 : Nat) : Int) +
        ((lead x.natAbs).2.2 : Nat)) < 128 := by
      split_ifs with h0
      · exact hx
      · obtain ⟨i1, i2, i3, i4⟩ := lead_spec x.natAbs
        have hA : 0 < (lead x.natAbs).1 * 10 ^ (lead x.natAbs).2.1 :=
          Nat.mul_pos (i4 (by omega)) (Nat.pow_pos (by decide))
        generalize (lead x.natAbs).1 * 10 ^ (lead x.natAbs).2.1 = A at *
        omega
    rw [toChar_self _ hb]
  · simp only [Readable, iff_true, ConstRec.dump, MultiVal.dump, List.append_assoc,
      List.cons_append]
    exact fields (.double x) ('d' :: F.text x) (by simp [MultiVal.undump, hF])
  · simp only [Readable, iff_false, ConstRec.dump, MultiVal.dump, List.append_assoc,
      List.cons_append]
    obtain ⟨u, hu⟩ : ∃ u, u = s.getD [] ++ '@' :: (decimal a ++ '@' :: (intText n ++
        '#' :: (w ++ r))) := ⟨_, rfl⟩
    have hm : '#' ∈ u := by rw [hu]; simp
    rw [← hu]
    obtain ⟨q, hq⟩ := dropWhile_hash u hm
    simp only [ne_eq, decide_not] at hq
    simp [ConstRec.undump, optCheckChar, checkChar, MultiVal.undump, hm, hq]

/-- Strings do not read back. -/
theorem C15_const_full_is_false : ¬ C15_const_full := by
  intro h
  have hF : ∀ (x : toyNat.D) r, toyNat.read (toyNat.text x ++ '@' :: r) = (x, '@' :: r) :=
    fun x r => rfl
  exact (C15_const_partial hF 1 (by decide) ⟨.str (some ['a']), 0, 0, ['x']⟩
    ⟨trivial, by decide, by decide, by decide, by decide, by simp⟩ []
    (by intro c cs h; cases h)).1
    (h toyNat hF 1 (by decide) ⟨.str (some ['a']), 0, 0, ['x']⟩ ⟨trivial, by decide, by decide, by decide, by decide, by simp⟩ []
      (by intro c cs h; cases h))

example : (ConstRec.dump (F := toyNat) ⟨.long 42, 3, 7, ['x']⟩) = "@i42@3@7#x".toList := by
  decide +kernel
/-- 2^32 + 5 is written as 5. -/
example : (ConstRec.dump (F := toyNat) ⟨.long 4294967301, 3, 7, ['x']⟩) = "@i5@3@7#x".toList := by
  decide +kernel

end Splint
