import Verif.Proofs.Format
/-!
# C63, C64: format strings

Every argument of `printf` and `scanf` is compared with the type that C gives for its conversion, and too
few or too many arguments are reported.
-/
namespace Splint.Format
open Spec TypeSpec

/-! ## C63: printf -/

/-- The full property: all formats that C allows. -/
def C63_full : Prop :=
  ∀ (n : Nat) (ps : List Part), (∀ p ∈ ps, p.ok) → printf (good n) (text ps) = some (expected n (wants ps))

/-- Formats with known conversions and the flag 0 after the others: every argument is compared with the
type of its conversion, and the difference in number is reported. If arguments are missing, for formats
without asterisks (see `C63_too_few_partial`). Missing: unknown conversions, see `C63_types_exactly`. -/
theorem C63_printf_partial {n : Nat} (ps : List Part) (hok : ∀ p ∈ ps, p.ok) (hk : ∀ p ∈ ps, p.known)
    (hn : (wants ps).length ≤ n ∨ ∀ p ∈ ps, p.starless) :
    printf (good n) (text ps) = some (expected n (wants ps)) :=
  printf_eq ps (fun p hp => ⟨hok p hp, hk p hp⟩) hn

/-- the format `a%-05.*ld%%%s`, with three arguments -/
def sample : List Part :=
  [.char 'a', .conv ['-', '0'] (.digits ['5']) (some .star) .l 'd', .percent,
    .conv [] (.digits []) none .no 's']

theorem sample_ok : (∀ p ∈ sample, p.ok) ∧ ∀ p ∈ sample, p.known := by
  constructor
  · intro p hp
    simp only [sample, List.mem_cons, List.not_mem_nil, or_false] at hp
    rcases hp with rfl | rfl | rfl | rfl
    · simp [Part.ok]
    · refine ⟨by decide, by simp [Num.ok, digits], ?_, ?_, by decide⟩
      · intro ds h; cases h; decide
      · intro p h; cases h; trivial
    · trivial
    · refine ⟨by simp, by simp [Num.ok], ?_, by simp, by decide⟩
      intro ds h; cases h; simp
  · intro p hp
    simp only [sample, List.mem_cons, List.not_mem_nil, or_false] at hp
    rcases hp with rfl | rfl | rfl | rfl
    · trivial
    · exact ⟨⟨['-'], ['0'], rfl, by decide, by decide⟩, by decide⟩
    · trivial
    · exact ⟨⟨[], [], rfl, by simp, by simp⟩, by decide⟩

example : (∀ p ∈ sample, p.ok) ∧ (∀ p ∈ sample, p.known) ∧ (wants sample).length ≤ 4
    ∧ expected 4 (wants sample) = [.arg 0 (.val .int), .arg 1 (.val .lint), .arg 2 .string, .extra 3 4] :=
  ⟨sample_ok.1, sample_ok.2, by decide, by decide⟩

/-- With too few arguments those that there are are compared, and the first that is missing is reported. -/
theorem C63_too_few_partial {n : Nat} (ps : List Part) (hok : ∀ p ∈ ps, p.ok) (hk : ∀ p ∈ ps, p.known)
    (hn : n < (wants ps).length) :
    ∃ r, printf (good n) (text ps) = some (checks 0 ((wants ps).take n) ++ .missing n :: r) :=
  printf_too_few ps (fun p hp => ⟨hok p hp, hk p hp⟩) hn

example : (∀ p ∈ sample, p.ok) ∧ (∀ p ∈ sample, p.known) ∧ 0 < (wants sample).length :=
  ⟨sample_ok.1, sample_ok.2, by decide⟩

/-- Arguments that are missing after an asterisk are not all reported: `%*d%s` without arguments. -/
theorem C63_star_missing :
    printf (good 0) (text [.conv [] .star none .no 'd', .conv [] (.digits []) none .no 's'])
      = some [.missing 0, .missing 1]
    ∧ expected 0 (wants [.conv [] .star none .no 'd', .conv [] (.digits []) none .no 's'])
      = [.missing 0, .missing 1, .missing 2] := by
  decide +kernel

/-- The conversions of C that are treated as C says are exactly the known ones. -/
theorem C63_types_exactly {len : Len} {c : Char} {w : Exp} (h : printfWants len c = some w) :
    printf (good 1) ('%' :: (len.text ++ [c])) = some [.arg 0 w] ↔ printfKnown len c := by
  have key : ∀ c ∈ letters, ∀ n ∈ lens, ∀ w ∈ printfWants n c,
      (printf (good 1) ('%' :: (n.text ++ [c])) = some [.arg 0 w] ↔ printfKnown n c) := by
    decide +kernel
  exact key c (mem_letters (.inl (by rw [h]; rfl))) len (mem_lens len) w h

example : printfWants .ll 'x' = some (.val .ullint) ∧ printfKnown .ll 'x' ∧ printfWants .l 'f' = some (.val .double)
    ∧ ¬ printfKnown .l 'f' := by decide

/-- It does not hold in full: the argument of `%lf` is compared with `long int`'s combination with
`double`, which is `long double`. -/
theorem C63_full_is_false : ¬ C63_full := by
  intro h
  have := h 1 [.conv [] (.digits []) none .l 'f'] (by
    intro p hp
    simp only [List.mem_cons, List.not_mem_nil, or_false] at hp
    subst hp
    refine ⟨by simp, by simp [Num.ok], ?_, by simp, by decide⟩
    intro ds h; cases h; simp)
  revert this
  decide +kernel

/-- `%lf`, `%hhd`, `%ln`, `%a`, `%hn` and `%0-5d`. -/
theorem C63_wrong :
    printf (good 1) ['%', 'l', 'f'] = some [.arg 0 (.val .ldouble)]
    ∧ printf (good 1) ['%', 'h', 'h', 'd'] ≠ some [.arg 0 (.val .char)]
    ∧ printf (good 1) ['%', 'l', 'n'] ≠ some [.arg 0 (.ptr .lint)]
    ∧ printf (good 1) ['%', 'a'] = some [.unrecognised, .arg 0 .unknown]
    ∧ printf (good 1) ['%', 'h', 'n'] = some [.qual, .arg 0 (.ptr .int)]
    ∧ printf (good 1) ['%', '0', '-', '5', 'd'] = some [.unrecognised, .arg 0 .unknown] := by
  decide +kernel

/-- A percent sign at the end of the format: the code reads past the end of the string, whatever comes
before. -/
theorem C63_percent_at_end (args : List Bool) (cs : List Char) (h : '%' ∉ cs) :
    printf args (cs ++ ['%']) = none := by
  have e : (cs ++ ['%']).dropWhile (· ≠ '%') = ['%'] := by
    apply dropWhile_all
    · intro c hc
      simp only [ne_eq, decide_eq_true_eq, decide_not, Bool.not_eq_true', decide_eq_false_iff_not]
      rintro rfl
      exact h hc
    · intro c hc; cases hc; decide
  rw [printf, printfGo, e]
  rfl

example : '%' ∉ ['5', '0'] := by decide

/-- An erroneous expression for an asterisk: the asterisk is skipped, but the conversion after it is not
seen, and its argument is reported as one too many. -/
theorem C63_star_error :
    printf [true, false] ['%', '*', 'd'] = some [.extra 1 2]
    ∧ printf [false, false] ['%', '*', 'd'] = some [.arg 0 (.val .int), .arg 1 (.val .int)] := by
  decide +kernel

/-- The loop of the code ends for every format: more fuel gives the same. -/
theorem C63_ends (args : List Bool) (s : List Char) (f : Nat) (h : s.length < f) :
    printfGo args f 0 s = printf args s :=
  printfGo_fuel args f _ 0 s h (by omega)

example : ['%', 'd'].length < 7 := by decide

/-! ## C64: scanf -/

def C64_full : Prop :=
  ∀ (n : Nat) (ps : List SPart), (∀ p ∈ ps, p.ok) → scanf (good n) (stext ps) = some (expected n (swants ps))

/-- Formats with known conversions and sets without percent sign: every argument is compared with the type
of its conversion, and a difference in number is reported. Missing: unknown conversions, see
`C64_types_exactly`, and sets that contain a percent sign. -/
theorem C64_scanf_partial (n : Nat) (ps : List SPart) (hok : ∀ p ∈ ps, p.ok) (hk : ∀ p ∈ ps, p.known) :
    scanf (good n) (stext ps) = some (expected n (swants ps)) :=
  scanf_eq ps fun p hp => ⟨hok p hp, hk p hp⟩

/-- the format `%*d %[^]ab]%lf` -/
def sampleScan : List SPart :=
  [.conv true [] .no 'd', .char ' ', .set false [] true true ['a', 'b'], .conv false ['5'] .l 'f']

example : (∀ p ∈ sampleScan, p.ok) ∧ (∀ p ∈ sampleScan, p.known)
    ∧ expected 1 (swants sampleScan) = [.arg 0 .string, .missing 1] := by
  refine ⟨?_, ?_, by decide⟩
  · intro p hp
    simp only [sampleScan, List.mem_cons, List.not_mem_nil, or_false] at hp
    rcases hp with rfl | rfl | rfl | rfl <;> simp [SPart.ok, digits, scanfWants, signedConv, unsignedConv, floatConv, signedTy]
  · intro p hp
    simp only [sampleScan, List.mem_cons, List.not_mem_nil, or_false] at hp
    rcases hp with rfl | rfl | rfl | rfl <;> simp [SPart.known, scanfKnown]

/-- The conversions of C that are treated as C says are exactly the known ones. -/
theorem C64_types_exactly {len : Len} {c : Char} {w : Exp} (h : scanfWants len c = some w) :
    scanf (good 1) ('%' :: (len.text ++ [c])) = some [.arg 0 w] ↔ scanfKnown len c := by
  have key : ∀ c ∈ letters, ∀ n ∈ lens, ∀ w ∈ scanfWants n c,
      (scanf (good 1) ('%' :: (n.text ++ [c])) = some [.arg 0 w] ↔ scanfKnown n c) := by
    decide +kernel
  exact key c (mem_letters (.inr (by rw [h]; rfl))) len (mem_lens len) w h

example : scanfWants .l 'f' = some (.ptr .double) ∧ scanfKnown .l 'f' ∧ scanfWants .l 'n' = some (.ptr .lint)
    ∧ ¬ scanfKnown .l 'n' := by decide

/-- It does not hold in full: `%ln` wants a pointer to `long int`. -/
theorem C64_full_is_false : ¬ C64_full := by
  intro h
  have := h 1 [.conv false [] .l 'n'] (by
    intro p hp
    simp only [List.mem_cons, List.not_mem_nil, or_false] at hp
    subst hp
    exact ⟨by simp, by decide⟩)
  revert this
  decide +kernel

/-- `%ln`, `%p`, `%a`, a set with `%` that is not assigned, and one with both `^]` and `%`. -/
theorem C64_wrong :
    scanf (good 1) ['%', 'l', 'n'] = some [.arg 0 (.ptr .int)]
    ∧ scanf (good 1) ['%', 'p'] = some [.notInScanf, .arg 0 .unknown]
    ∧ scanf (good 1) ['%', 'a'] = some [.unrecognised, .arg 0 .unknown]
    ∧ scanf (good 0) ['%', '*', '[', '%', 'd', ']'] = some [.missing 0]
    ∧ scanf (good 1) ['%', '[', '^', ']', '%', 'd', ']'] = some [.arg 0 .string, .missing 1] := by
  decide +kernel

/-- A percent sign at the end, or a set that is not there: the code reads past the end of the string. -/
theorem C64_at_end (args : List Bool) :
    scanf args ['%'] = none ∧ scanf (false :: args) ['%', '['] = none := by
  refine ⟨rfl, ?_⟩
  rw [scanf, scanfGo]
  simp [isDigit, modifier, skipSet]

theorem C64_ends (args : List Bool) (s : List Char) (f : Nat) (h : s.length < f) :
    scanfGo args f 0 s = scanf args s :=
  scanfGo_fuel args f _ 0 s h (by omega)

example : ['%', 'd'].length < 7 := by decide

end Splint.Format
