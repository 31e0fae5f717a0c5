import Verif.Model.Reader
/-! Reading back numbers. -/
namespace Splint.Reader

theorem digit_spec (d : Nat) (h : d < 10) : isDig (digit d) = true ∧ digVal (digit d) = d ∧
    digit d ≠ ' ' ∧ digit d ≠ '-' := by
  have : d = 0 ∨ d = 1 ∨ d = 2 ∨ d = 3 ∨ d = 4 ∨ d = 5 ∨ d = 6 ∨ d = 7 ∨ d = 8 ∨ d = 9 := by omega
  rcases this with rfl | rfl | rfl | rfl | rfl | rfl | rfl | rfl | rfl | rfl <;> decide

theorem decimal_lt {n : Nat} (h : n < 10) : decimal n = [digit n] := by
  rw [decimal, dif_pos h]

theorem decimal_ge {n : Nat} (h : 10 ≤ n) : decimal n = decimal (n / 10) ++ [digit (n % 10)] := by
  rw [decimal, dif_neg (by omega)]

/-- The value of a list of digits read after `i`. -/
theorem digits_append (i : Int) (g : Bool) (l r : List Char) (hl : ∀ c ∈ l, isDig c = true) :
    digits i g (l ++ r) = (digits i g l).bind fun x => digits x.1 x.2.1 (x.2.2 ++ r) := by
  induction l generalizing i g with
  | nil => simp [digits]
  | cons c l ih =>
    have hc := hl c (by simp)
    simp only [List.cons_append, digits, hc, if_true]
    split_ifs
    · exact ih _ _ fun c hc => hl c (by simp [hc])
    · rfl

theorem decimal_digits (n : Nat) : ∀ c ∈ decimal n, isDig c = true := by
  induction n using Nat.strong_induction_on with
  | _ n ih =>
    by_cases h : n < 10
    · rw [decimal_lt h]
      intro c hc
      rw [List.mem_singleton] at hc
      rw [hc]
      exact (digit_spec n h).1
    · rw [decimal_ge (by omega)]
      intro c hc
      rcases List.mem_append.1 hc with hc | hc
      · exact ih (n / 10) (by omega) c hc
      · rw [List.mem_singleton] at hc
        rw [hc]
        exact (digit_spec (n % 10) (by omega)).1

theorem decimal_ne_nil (n : Nat) : decimal n ≠ [] := by
  by_cases h : n < 10
  · rw [decimal_lt h]; simp
  · rw [decimal_ge (by omega)]; simp

/-- First digit and the rest. -/
theorem decimal_cons (n : Nat) : ∃ d t, decimal n = digit d :: t ∧ d < 10 ∧
    (∀ c ∈ t, isDig c = true) := by
  induction n using Nat.strong_induction_on with
  | _ n ih =>
    by_cases h : n < 10
    · exact ⟨n, [], decimal_lt h, h, by simp⟩
    · obtain ⟨d, t, e, hd, ht⟩ := ih (n / 10) (by omega)
      refine ⟨d, t ++ [digit (n % 10)], by rw [decimal_ge (by omega), e]; rfl, hd, ?_⟩
      intro c hc
      rcases List.mem_append.1 hc with hc | hc
      · exact ht c hc
      · rw [List.mem_singleton] at hc
        rw [hc]
        exact (digit_spec (n % 10) (by omega)).1

/-- Reading the digits of `n`. -/
theorem digits_decimal (n : Nat) (hn : n ≤ 2147483647) (g : Bool) :
    digits 0 g (decimal n) = some ((n : Int), true, []) := by
  induction n using Nat.strong_induction_on with
  | _ n ih =>
    by_cases h : n < 10
    · obtain ⟨h1, h2, -, -⟩ := digit_spec n h
      rw [decimal_lt h]
      simp only [digits, h1, h2, if_true]
      rw [if_pos (by simp [inInt]; omega)]
      simp
    · obtain ⟨h1, h2, -, -⟩ := digit_spec (n % 10) (by omega)
      rw [decimal_ge (by omega), digits_append _ _ _ _ (decimal_digits _),
        ih (n / 10) (by omega) (by omega)]
      simp only [Option.bind_some, List.nil_append, digits, h1, h2, if_true]
      rw [if_pos (by simp [inInt]; omega)]
      simp only [Option.some.injEq, Prod.mk.injEq, and_true]
      omega

/-- The leading digit and the remainder of a number. -/
def lead (n : Nat) : Nat × Nat × Nat :=
  if h : n < 10 then (n, 0, 0) else
    let (d, k, r) := lead (n / 10)
    (d, k + 1, r * 10 + n % 10)
termination_by n
decreasing_by omega

theorem lead_spec (n : Nat) : (lead n).1 < 10 ∧ n = (lead n).1 * 10 ^ (lead n).2.1 + (lead n).2.2 ∧
    (lead n).2.2 < 10 ^ (lead n).2.1 ∧ (0 < n → 0 < (lead n).1) := by
  induction n using Nat.strong_induction_on with
  | _ n ih =>
    by_cases h : n < 10
    · rw [lead, dif_pos h]
      simp only [pow_zero]
      omega
    · obtain ⟨i1, i2, i3, i4⟩ := ih (n / 10) (by omega)
      rw [lead, dif_neg h]
      obtain ⟨⟨d, k, r⟩, hl⟩ : ∃ x, x = lead (n / 10) := ⟨_, rfl⟩
      rw [← hl] at i1 i2 i3 i4 ⊢
      simp only at i1 i2 i3 i4 ⊢
      have hp : d * 10 ^ (k + 1) = d * 10 ^ k * 10 := by rw [pow_succ]; ring
      rw [hp, pow_succ]
      generalize d * 10 ^ k = A at i2 ⊢
      generalize 10 ^ k = B at i3 ⊢
      refine ⟨i1, by omega, by omega, fun _ => i4 (by omega)⟩

/-- Reading the digits of `n` when the first one counts negatively. -/
theorem digits_negative (n : Nat) (hn : n ≤ 2147483648) :
    ∃ t, decimal n = digit (lead n).1 :: t ∧
      digits (-1 * digVal (digit (lead n).1)) true t =
        some (-(((lead n).1 * 10 ^ (lead n).2.1 : Nat) : Int) + ((lead n).2.2 : Nat), true, []) ∧
      ∀ c ∈ t, isDig c = true := by
  induction n using Nat.strong_induction_on with
  | _ n ih =>
    by_cases h : n < 10
    · refine ⟨[], ?_, ?_, by simp⟩
      · rw [decimal_lt h, lead, dif_pos h]
      · rw [lead, dif_pos h]
        simp [digits, (digit_spec n h).2.1]
    · obtain ⟨t, e1, e2, e3⟩ := ih (n / 10) (by omega) (by omega)
      obtain ⟨h1, h2, -, -⟩ := digit_spec (n % 10) (by omega)
      have hl : lead n = ((lead (n / 10)).1, (lead (n / 10)).2.1 + 1,
          (lead (n / 10)).2.2 * 10 + n % 10) := by
        rw [lead, dif_neg h]
      obtain ⟨i1, i2, i3, i4⟩ := lead_spec (n / 10)
      refine ⟨t ++ [digit (n % 10)], ?_, ?_, ?_⟩
      · rw [decimal_ge (by omega), e1, hl]; rfl
      · rw [hl]
        simp only
        rw [digits_append _ _ _ _ e3, e2]
        simp only [Option.bind_some, List.nil_append, digits, h1, h2, if_true]
        have hp : (lead (n / 10)).1 * 10 ^ ((lead (n / 10)).2.1 + 1) =
            (lead (n / 10)).1 * 10 ^ (lead (n / 10)).2.1 * 10 := by rw [pow_succ]; ring
        rw [hp]
        have hA : 0 < (lead (n / 10)).1 * 10 ^ (lead (n / 10)).2.1 :=
          Nat.mul_pos (i4 (by omega)) (Nat.pow_pos (by decide))
        generalize (lead (n / 10)).1 * 10 ^ (lead (n / 10)).2.1 = A at i2 hA ⊢
        rw [if_pos (by simp [inInt]; omega)]
        simp only [Option.some.injEq, Prod.mk.injEq, and_true]
        push_cast
        omega
      · intro c hc
        rcases List.mem_append.1 hc with hc | hc
        · exact e3 c hc
        · rw [List.mem_singleton] at hc
          rw [hc]; exact h1

/-- A text that does not continue a number. -/
def Stops (r : List Char) : Prop := ∀ c cs, r = c :: cs → isDig c = false

theorem digits_stops (i : Int) (r : List Char) (h : Stops r) :
    digits i true r = some (i, true, r) := by
  cases r with
  | nil => rfl
  | cons c cs => simp [digits, h c cs rfl]

theorem getInt_nonneg (n : Nat) (hn : n ≤ 2147483647) (r : List Char) (hr : Stops r) :
    getInt (decimal n ++ r) = some ((n : Int), r.dropWhile isBlank) := by
  obtain ⟨d, t, e, hd, ht⟩ := decimal_cons n
  obtain ⟨-, -, hsp, hmi⟩ := digit_spec d hd
  have hd' := digits_decimal n hn false
  have key : digits 0 false (decimal n ++ r) = some ((n : Int), true, r) := by
    rw [digits_append _ _ _ _ (decimal_digits n), hd']
    simpa using digits_stops _ r hr
  unfold getInt
  rw [e] at key ⊢
  simp only [List.cons_append] at key ⊢
  rw [List.dropWhile_cons_of_neg (by simpa using hsp)]
  simp [key, hmi]

theorem getInt_negative (n : Nat) (hn : n ≤ 2147483648) (r : List Char) (hr : Stops r) :
    getInt ('-' :: (decimal n ++ r)) =
      some (-(((lead n).1 * 10 ^ (lead n).2.1 : Nat) : Int) + ((lead n).2.2 : Nat), r.dropWhile isBlank) := by
  obtain ⟨t, e1, e2, e3⟩ := digits_negative n hn
  obtain ⟨h1, -, -, -⟩ := digit_spec (lead n).1 (lead_spec n).1
  unfold getInt
  rw [e1]
  simp only [List.cons_append]
  rw [List.dropWhile_cons_of_neg (by decide)]
  simp only [h1, if_true, Option.bind_eq_bind, Option.bind_some]
  rw [digits_append _ _ _ _ e3, e2]
  simp [digits_stops _ r hr]

end Splint.Reader
