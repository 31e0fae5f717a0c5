import Verif.Model.MultiVal
import Verif.Proofs.Reader
/-!
# C15, C17, C18: constants
-/
namespace Splint
open Reader

/-! ## C17: folding -/

/-- The four operations. -/
inductive ArithOp where
  | add | sub | mul | div

namespace ArithOp

/-- What the operation means on whole numbers; C's division drops the fraction. -/
def exact : ArithOp → Int → Int → Option Int
  | add, x, y => some (x + y)
  | sub, x, y => some (x - y)
  | mul, x, y => some (x * y)
  | div, x, y => if y = 0 then none else some (Int.sign x * Int.sign y * (x.natAbs / y.natAbs : Nat))

/-- What it means on floating point numbers: the machine's operation. -/
def float (F : Floats) : ArithOp → F.D → F.D → Option F.D
  | add, x, y => some (F.add x y)
  | sub, x, y => some (F.sub x y)
  | mul, x, y => some (F.mul x y)
  | div, _, _ => none

/-- The program's function for it. -/
def run {F : Floats} : ArithOp → MultiVal F → MultiVal F → Option (MultiVal F)
  | add => MultiVal.add
  | sub => MultiVal.subtract
  | mul => MultiVal.multiply
  | div => MultiVal.divide

end ArithOp

/-- Values a constant can have. -/
def MultiVal.wf {F : Floats} : MultiVal F → Prop
  | .long x => -2 ^ 63 ≤ x ∧ x < 2 ^ 63
  | .char x => -128 ≤ x ∧ x < 128
  | _ => True

/-- A whole-number result is right: unknown, or the exact value. -/
def RightFold {F : Floats} (op : ArithOp) (a b r : MultiVal F) : Prop :=
  match a, b, r with
  | .long x, .long y, .long z => op.exact x y = some z
  | .char x, .char y, .char z => op.exact x y = some z
  | .double x, .double y, .double z => op.float F x y = some z
  | _, _, .unknown => True
  | _, _, _ => False

/-- C17, in full: every operation on two constants succeeds with a right result. -/
def C17_full : Prop :=
  ∀ (F : Floats) (op : ArithOp) (a b : MultiVal F), a.wf → b.wf →
    ∃ r, op.run a b = some r ∧ RightFold op a b r

theorem tdiv_exact (x y : Int) (h : y ≠ 0) :
    x.tdiv y = Int.sign x * Int.sign y * (x.natAbs / y.natAbs : Nat) := by
  rcases Int.natAbs_eq x with hx | hx <;> rcases Int.natAbs_eq y with hy | hy <;>
    (obtain ⟨m, hm⟩ : ∃ m, m = x.natAbs := ⟨_, rfl⟩
     obtain ⟨n, hn⟩ : ∃ n, n = y.natAbs := ⟨_, rfl⟩
     rw [← hm] at hx ⊢; rw [← hn] at hy ⊢
     subst hx hy
     have hn0 : n ≠ 0 := by rintro rfl; simp at h
     have h1 : Int.sign (n : Int) = 1 := Int.sign_eq_one_of_pos (by omega)
     rcases Nat.eq_zero_or_pos m with rfl | hm0
     · simp
     · have h2 : Int.sign (m : Int) = 1 := Int.sign_eq_one_of_pos (by omega)
       simp [Int.sign_neg, h1, h2, Int.neg_tdiv, Int.tdiv_neg, Int.ofNat_tdiv])

theorem toChar_id {x : Int} : toChar x = x ↔ -128 ≤ x ∧ x < 128 := by
  unfold toChar; omega

theorem mkLong_eq {F : Floats} (z : Int) : (MultiVal.mkLong z : Option (MultiVal F)) =
    if -2 ^ 63 ≤ z ∧ z < 2 ^ 63 then some (.long z) else none := by
  unfold MultiVal.mkLong inLong
  by_cases h : -2 ^ 63 ≤ z ∧ z < 2 ^ 63
  · rw [if_pos h, if_pos]; simp; omega
  · rw [if_neg h, if_neg]; simp; omega

/-- C17 for the whole numbers the checker computes with (`long`): the result is the exact value
when a `long` can hold it, unknown for a division by zero, and otherwise the addition overflows. -/
theorem C17_long_exactly {F : Floats} (op : ArithOp) (x y : Int) :
    op.run (.long x : MultiVal F) (.long y) =
      match op.exact x y with
      | none => some .unknown
      | some z => if -2 ^ 63 ≤ z ∧ z < 2 ^ 63 then some (.long z) else none := by
  have key := mkLong_eq (F := F)
  cases op
  · exact key _
  · exact key _
  · exact key _
  · by_cases h : y = 0
    · simp [ArithOp.run, MultiVal.divide, ArithOp.exact, h]
    · simp only [ArithOp.run, MultiVal.divide, ArithOp.exact, h, ne_eq, not_false_eq_true, if_true,
        if_false]
      rw [tdiv_exact x y h]
      exact key _

/-- C17 for characters: the result is the exact value reduced to a `char`. -/
theorem C17_char_exactly {F : Floats} (op : ArithOp) (x y : Int) :
    op.run (.char x : MultiVal F) (.char y) =
      match op.exact x y with
      | none => some .unknown
      | some z => some (.char ((z + 128) % 256 - 128)) := by
  cases op
  · rfl
  · rfl
  · rfl
  · by_cases h : y = 0
    · simp [ArithOp.run, MultiVal.divide, ArithOp.exact, h]
    · simp only [ArithOp.run, MultiVal.divide, ArithOp.exact, h, ne_eq, not_false_eq_true, if_true,
        if_false, MultiVal.mkChar, toChar, tdiv_exact x y h]

/-- C17 for unlike or unknown operands: the result is unknown. -/
theorem C17_unlike {F : Floats} (op : ArithOp) (a b : MultiVal F)
    (h : a.kind ≠ b.kind ∨ a = .unknown ∨ b = .unknown) : op.run a b = some .unknown := by
  cases op <;> cases a <;> cases b <;>
    simp_all [MultiVal.kind, ArithOp.run, MultiVal.add, MultiVal.subtract, MultiVal.multiply,
      MultiVal.divide]

/-- The operation's exact result can be held by the operands' kind. -/
def Fits {F : Floats} (op : ArithOp) (a b : MultiVal F) : Prop :=
  match a, b with
  | .long x, .long y => ∀ z, op.exact x y = some z → -2 ^ 63 ≤ z ∧ z < 2 ^ 63
  | .char x, .char y => ∀ z, op.exact x y = some z → -128 ≤ z ∧ z < 128
  | _, _ => True

/-- C17 holds for exactly the operands whose exact result the kind can hold. Missing for the full
claim: `long` overflow and the silent reduction of `char` results. -/
theorem C17_fold_partial {F : Floats} (op : ArithOp) (a b : MultiVal F) :
    (∃ r, op.run a b = some r ∧ RightFold op a b r) ↔ Fits op a b := by
  rcases a with _ | x | x | x | x <;> rcases b with _ | y | y | y | y
  case long.long =>
    rw [C17_long_exactly]
    cases h : op.exact x y with
    | none => simp [Fits, h, RightFold]
    | some z =>
      by_cases hz : -2 ^ 63 ≤ z ∧ z < 2 ^ 63
      · simp only [Fits, h, if_pos hz, Option.some.injEq, exists_eq_left', RightFold, true_iff]
        rintro _ rfl; exact hz
      · simp only [Fits, h, if_neg hz, reduceCtorEq, false_and, exists_false, false_iff]
        exact fun hc => hz (hc z rfl)
  case char.char =>
    rw [C17_char_exactly]
    cases h : op.exact x y with
    | none => simp [Fits, h, RightFold]
    | some z =>
      simp only [Fits, h, Option.some.injEq, exists_eq_left', RightFold]
      constructor
      · rintro e _ rfl; omega
      · intro hc; have := hc z rfl; omega
  all_goals cases op <;>
    simp [Fits, RightFold, ArithOp.run, ArithOp.float, MultiVal.add, MultiVal.subtract, MultiVal.multiply,
      MultiVal.divide]

/-- Some machine arithmetic, for the witnesses. -/
def toyFloats : Floats where
  D := Int
  add := (· + ·)
  sub := (· - ·)
  mul := (· * ·)
  neg := (- ·)
  lt a b := decide (a < b)
  text := intText
  read s := (getInt s).getD (0, s)

/-- `'a' + 'b'` folds to a negative character. -/
theorem C17_full_is_false : ¬ C17_full := by
  intro h
  have := (C17_fold_partial (F := toyFloats) .add (.char 97) (.char 98)).1
    (h _ _ _ _ (by simp [MultiVal.wf]) (by simp [MultiVal.wf])) 195 rfl
  omega

example : (MultiVal.add (.char 97) (.char 98) : Option (MultiVal toyFloats)) = some (.char (-61)) :=
  rfl
example : Fits (F := toyFloats) .mul (.long 1000000) (.long 1000000) := by
  simp [Fits, ArithOp.exact]
example : (MultiVal.divide (.long (-7)) (.long 2) : Option (MultiVal toyFloats)) =
    some (.long (-3)) := rfl
example : (MultiVal.divide (.long 7) (.long 0) : Option (MultiVal toyFloats)) = some .unknown := rfl
/-- Dividing the least number by -1 overflows. -/
example : (MultiVal.divide (.long (-2 ^ 63)) (.long (-1)) : Option (MultiVal toyFloats)) = none := by
  decide

/-- C17, negation of one constant: exact, unless it is the least number, a character or a string
(for which the program reports an internal error). -/
theorem C17_invert {F : Floats} (a r : MultiVal F) :
    a.invert = some r ↔ (a = .unknown ∧ r = .unknown) ∨
      (∃ x, a = .long x ∧ r = .long (-x) ∧ -2 ^ 63 ≤ -x ∧ -x < 2 ^ 63) ∨
      (∃ x, a = .double x ∧ r = .double (F.neg x)) := by
  rcases a with _ | x | x | x | x
  · simp [MultiVal.invert, eq_comm]
  · simp only [MultiVal.invert, mkLong_eq, show -1 * x = -x by omega]
    by_cases h : -2 ^ 63 ≤ -x ∧ -x < 2 ^ 63
    · rw [if_pos h]
      simp only [Option.some.injEq, reduceCtorEq, false_and, false_or,
        MultiVal.long.injEq, exists_eq_left', exists_false, or_false, h, and_true]
      exact eq_comm
    · rw [if_neg h]
      simp only [reduceCtorEq, false_and, false_or, MultiVal.long.injEq, exists_eq_left',
        exists_false, or_false, h, and_false]
  · simp [MultiVal.invert]
  · simp [MultiVal.invert, eq_comm]
  · simp [MultiVal.invert]

example : (MultiVal.invert (.long 5) : Option (MultiVal toyFloats)) = some (.long (-5)) := rfl

/-! ## C18: orderings -/

/-- A comparison is consistent on a pair: the opposite order gives the opposite sign. -/
def Opposite {α : Type} (cmp : α → α → Int) (x y : α) : Prop := cmp y x = -cmp x y

/-- C18, in full. -/
def C18_full : Prop :=
  (∀ x y, Opposite Ynm.compare x y) ∧
  ∀ (F : Floats), (∀ a b, ¬ (F.lt a b = true ∧ F.lt b a = true)) →
    ∀ x y : MultiVal F, Opposite MultiVal.compare x y

/-- C18 for three-valued answers: consistent except between YES and MAYBE. -/
theorem C18_ynm_partial (x y : Ynm) :
    Opposite Ynm.compare x y ↔ ¬ (x = .yes ∧ y = .maybe ∨ x = .maybe ∧ y = .yes) := by
  cases x <;> cases y <;> simp [Opposite, Ynm.compare]

/-- The answers, other than YES against MAYBE, order NO below MAYBE and YES. -/
theorem C18_ynm_zero (x y : Ynm) : Ynm.compare x y = 0 ↔ x = y := by
  cases x <;> cases y <;> simp [Ynm.compare]

theorem charCmp_opposite (s t : List Char) : charCmp t s = -charCmp s t := by
  induction s generalizing t with
  | nil => cases t <;> rfl
  | cons a s ih =>
    cases t with
    | nil => rfl
    | cons b t =>
      simp only [charCmp]
      rcases Nat.lt_trichotomy a.toNat b.toNat with h | h | h
      · rw [if_neg (by omega), if_pos h, if_pos h]; rfl
      · rw [if_neg (by omega), if_neg (by omega), if_neg (by omega), if_neg (by omega)]; exact ih t
      · rw [if_pos h, if_neg (by omega), if_pos h]

theorem charCmp_zero (s t : List Char) : charCmp s t = 0 ↔ s = t := by
  induction s generalizing t with
  | nil => cases t <;> simp [charCmp]
  | cons a s ih =>
    cases t with
    | nil => simp [charCmp]
    | cons b t =>
      simp only [charCmp]
      rcases Nat.lt_trichotomy a.toNat b.toNat with h | h | h
      · rw [if_pos h]
        simp only [List.cons.injEq, false_iff, not_and, Int.reduceNeg, Int.neg_eq_zero,
          one_ne_zero]
        rintro rfl; omega
      · rw [if_neg (by omega), if_neg (by omega), ih]
        have : a = b := Char.toNat_inj.1 h
        simp [this]
      · rw [if_neg (by omega), if_pos h]
        simp only [List.cons.injEq, false_iff, not_and, one_ne_zero]
        rintro rfl; omega

/-- C18 for strings: consistent. -/
theorem C18_cstring (s t : CStr) : Opposite cstrCompare s t := by
  cases s <;> cases t <;> simp only [Opposite, cstrCompare]
  · rfl
  · split_ifs <;> rfl
  · split_ifs <;> rfl
  · exact charCmp_opposite _ _

/-- Strings that compare equal are the same string, where NULL counts as the empty string. -/
theorem C18_cstring_zero (s t : CStr) : cstrCompare s t = 0 ↔ s.getD [] = t.getD [] := by
  cases s <;> cases t <;> simp only [cstrCompare, Option.getD_none, Option.getD_some]
  · split_ifs with h <;> simp [h, eq_comm]
  · split_ifs with h <;> simp [h]
  · exact charCmp_zero _ _

theorem genericCompare_opposite (g l : Bool) (h : ¬ (g = true ∧ l = true)) :
    genericCompare l g = -genericCompare g l := by
  cases g <;> cases l <;> simp_all [genericCompare]

/-- C18 for constants: consistent, except between an unknown and a known constant. -/
theorem C18_multiVal_partial (F : Floats) (hF : ∀ a b, ¬ (F.lt a b = true ∧ F.lt b a = true))
    (x y : MultiVal F) :
    Opposite MultiVal.compare x y ↔ (x = .unknown ↔ y = .unknown) := by
  rcases x with _ | x | x | x | x <;> rcases y with _ | y | y | y | y
  case long.long =>
    simpa [Opposite, MultiVal.compare, MultiVal.kind] using
      genericCompare_opposite (decide (x > y)) (decide (x < y)) (by simp; omega)
  case char.char =>
    simpa [Opposite, MultiVal.compare, MultiVal.kind] using
      genericCompare_opposite (decide (x > y)) (decide (x < y)) (by simp; omega)
  case double.double =>
    simpa [Opposite, MultiVal.compare, MultiVal.kind] using
      genericCompare_opposite (F.lt y x) (F.lt x y) (hF y x)
  case str.str =>
    simpa [Opposite, MultiVal.compare, MultiVal.kind] using C18_cstring x y
  all_goals simp [Opposite, MultiVal.compare, MultiVal.kind, genericCompare]

/-- YES compares greater than MAYBE and MAYBE greater than YES. -/
theorem C18_full_is_false : ¬ C18_full := by
  rintro ⟨h, -⟩
  have := h .yes .maybe
  simp [Opposite, Ynm.compare] at this

/-- An unknown constant compares less than a known one and greater. -/
theorem C18_multiVal_inconsistent (F : Floats) (x : Int) :
    MultiVal.compare (F := F) .unknown (.long x) = -1 ∧
    MultiVal.compare (F := F) (.long x) .unknown = -1 := ⟨rfl, rfl⟩

/-- The order of strings is not an order: NULL equals "" and "" is below "a", but NULL is above
"a". -/
theorem C18_cstring_not_transitive :
    ∃ s t u, cstrCompare s t = 0 ∧ cstrCompare t u = -1 ∧ cstrCompare s u = 1 :=
  ⟨none, some [], some ['a'], rfl, rfl, rfl⟩

example : Opposite Ynm.compare .yes .no := rfl
example : MultiVal.compare (F := toyFloats) (.long 3) (.char 2) = -1 := rfl
example : MultiVal.compare (F := toyFloats) (.str (some ['b'])) (.str (some ['a'])) = 1 := rfl
example : ∀ a b, ¬ (toyFloats.lt a b = true ∧ toyFloats.lt b a = true) := by
  intro a b; simp [toyFloats]; omega

end Splint
