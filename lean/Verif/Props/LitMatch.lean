import Verif.Spec.LitMatch
/-!
# Literals that are accepted for a type (C162, C163)
-/
namespace Splint.LitMatchProps
open Splint.LitMatch Splint.LitMatchSpec
open Prim (P)

variable {F : Flags}

theorem stands_real {c : Ty} {p : P} (h : Stands c p) : real c = .prim p := by
  induction h with
  | prim => rfl
  | user _ ih => exact ih
  | rep _ ih => simpa [real] using ih

/-- The full statement: an integer that is accepted for an integer type is one that the type has. -/
def C162_full : Prop :=
  ∀ (F : Flags) (bits : Bits) (c : Ty) (p : P) (e : Exp) (v : Int), Stands c p → (Unsigned p ∨ Signed p) →
    F.numAbstractLit = false → e.lit = .int v → matchLiteral F c e = true → Has bits p v

/-- **C162** A negative number, or a negative character, is not accepted for an unsigned type. Missing: names for
unsigned types, and the sizes of types. -/
theorem C162_unsigned_partial (p : P) (e : Exp) (v : Int) (hp : Unsigned p) (he : e.lit = .int v ∨ e.lit = .char v)
    (h : matchLiteral F (.prim p) e = true) : 0 ≤ v := by
  by_contra hv
  have hv' : v < 0 := by omega
  have hz : (v == 0) = false := by simp; omega
  simp only [Unsigned, List.mem_cons, List.not_mem_nil, or_false] at hp
  rcases he with he | he
  · simp only [matchLiteral, he, matchInt] at h
    rcases hp with rfl | rfl | rfl | rfl | rfl <;>
      simp [isNumAbstract, real, isRealInt, isInt, isUnsigned, hv', P.isAnyInt, P.isAnyChar, P.isAnyUnsignedInt, isChar,
        isAnyFloat] at h
  · simp only [matchLiteral, he] at h
    rcases hp with rfl | rfl | rfl | rfl | rfl <;>
      simp [isUnsigned, hv', P.isAnyUnsignedInt] at h

/-- an expression like `5` -/
def lit (v : Int) : Exp := { lit := .int v, ty := .prim .int }

example : matchLiteral { numLiteral := true } (.prim .uint) (lit 5) = true ∧
    matchLiteral { numLiteral := true } (.prim .uint) (lit (-5)) = false := by decide

/-- **C162** When an integer is accepted for an integer type, by whatever name: it is zero, or the flag is set and it is
written as an int; but not a negative one for an unsigned type that has no name. -/
theorem C162_exactly (c : Ty) (p : P) (e : Exp) (v : Int) (hs : Stands c p) (hp : p.isAnyInt = true)
    (hf : F.numAbstractLit = false) (he : e.lit = .int v) :
    matchLiteral F c e = true ↔
      (v = 0 ∨ (F.numLiteral = true ∧ isRegularInt F e.ty = true)) ∧
        (p.isAnyUnsignedInt = true → c = .prim p → 0 ≤ v) := by
  have hr := stands_real hs
  have hb : real c ≠ .prim .bool := by rw [hr]; rintro h; cases h; simp [P.isAnyInt] at hp
  have hi : isRealInt F c = true := by simp [isRealInt, hr, isInt, hp]
  have hu : isUnsigned c = true ↔ p.isAnyUnsignedInt = true ∧ c = .prim p := by
    cases hs with
    | prim =>
      have : p ≠ .uchar := by rintro rfl; simp [P.isAnyInt] at hp
      simp [isUnsigned, this]
    | user _ => simp [isUnsigned]
    | rep _ => simp [isUnsigned]
  simp only [matchLiteral, he, matchInt, hf, Bool.and_false, Bool.false_eq_true, if_false, hb, hi, if_true]
  by_cases hx : isUnsigned c = true
  · obtain ⟨h1, h2⟩ := hu.1 hx
    by_cases hv : v < 0
    · have : ¬(0 ≤ v) := by omega
      constructor
      · intro h
        rw [if_pos (by simp [hx, hv])] at h
        exact absurd h (by simp)
      · exact fun h => absurd (h.2 h1 h2) this
    · have : 0 ≤ v := by omega
      simp only [hx, hv, decide_false, Bool.and_false, Bool.false_eq_true, if_false, this, implies_true, and_true]
      cases F.numLiteral <;> cases isRegularInt F e.ty <;> simp
  · have : p.isAnyUnsignedInt = true → c = .prim p → 0 ≤ v := fun h1 h2 => absurd (hu.2 ⟨h1, h2⟩) hx
    rw [and_iff_left this]
    simp only [hx, Bool.false_and, Bool.false_eq_true, if_false]
    cases F.numLiteral <;> cases isRegularInt F e.ty <;> simp

example : Stands (.user (.prim .uint)) .uint ∧ P.uint.isAnyInt = true := ⟨.user .prim, rfl⟩

/-- **C162** For a name of an unsigned type all negative numbers are accepted. -/
theorem C162_named (r : Ty) (p : P) (v : Int) (hs : Stands r p) (hp : p.isAnyInt = true)
    (hn : F.numLiteral = true) (hf : F.numAbstractLit = false) : matchLiteral F (.user r) (lit v) = true := by
  refine (C162_exactly (.user r) p (lit v) v (.user hs) hp hf rfl).2 ⟨.inr ⟨hn, ?_⟩, by intro _ h; cases h⟩
  simp [lit, isRegularInt, Prim.closeEnough]

/-- **C162** For a signed type all numbers are accepted, whatever its size. -/
theorem C162_size (p : P) (v : Int) (hp : Signed p) (hn : F.numLiteral = true) (hf : F.numAbstractLit = false) :
    matchLiteral F (.prim p) (lit v) = true := by
  have hi : p.isAnyInt = true ∧ p.isAnyUnsignedInt = false := by
    simp only [Signed, List.mem_cons, List.not_mem_nil, or_false] at hp
    rcases hp with rfl | rfl | rfl | rfl <;> exact ⟨rfl, rfl⟩
  refine (C162_exactly (.prim p) p (lit v) v .prim hi.1 hf rfl).2 ⟨.inr ⟨hn, ?_⟩, by simp [hi.2]⟩
  simp [lit, isRegularInt, Prim.closeEnough]

theorem C162_full_is_false : ¬C162_full := by
  intro h
  have h1 := (h { numLiteral := true } (fun _ => 32) (.user (.prim .uint)) .uint (lit (-1)) (-1) (.user .prim)
    (.inl (by simp [Unsigned])) rfl rfl (by decide)).1 (by simp [Unsigned])
  exact absurd h1.1 (by decide)

/-- **C162** Zero is accepted for every integer type, whatever flags are set; nothing else is without `numliteral`. -/
theorem C162_zero (c : Ty) (p : P) (e : Exp) (v : Int) (hs : Stands c p) (hp : p.isAnyInt = true)
    (hf : F.numAbstractLit = false) (hn : F.numLiteral = false) (he : e.lit = .int v) :
    matchLiteral F c e = true ↔ v = 0 := by
  rw [C162_exactly c p e v hs hp hf he]
  simp only [hn, Bool.false_eq_true, false_and, or_false, and_iff_left_iff_imp]
  rintro rfl _ _
  exact Int.le_refl 0

example : matchLiteral {} (.user (.prim .lint)) (lit 0) = true ∧ matchLiteral {} (.prim .lint) (lit 1) = false := by
  decide

/-- **C162** No literal is accepted for a boolean type, unless it is a character and flags make one of it. -/
theorem C162_bool (c : Ty) (e : Exp) (hs : Stands c .bool) (hf : F.numAbstractLit = false)
    (hb : F.boolInt = false ∨ F.prim.charInt = false) : matchLiteral F c e = false := by
  have hr := stands_real hs
  simp only [matchLiteral]
  split
  · simp [matchInt, hf, hr]
  · cases hs <;> rfl
  · cases hs <;> rcases hb with hb | hb <;> simp [isChar, isInt, P.isAnyInt, P.isAnyChar, hb]
  · rfl

example : Stands (.user (.prim .bool)) .bool := .user .prim

/-- The full statement: a name for a type makes no difference. -/
def C163_full : Prop :=
  ∀ (F : Flags) (r : Ty) (e : Exp), matchLiteral F (.user r) e = matchLiteral F r e

/-- **C163** A name makes no difference for integers and signed integer or boolean types. Missing: the other types. -/
theorem C163_partial (r : Ty) (p : P) (e : Exp) (v : Int) (hs : Stands r p)
    (hp : p = .bool ∨ (p.isAnyInt = true ∧ p.isAnyUnsignedInt = false)) (hf : F.numAbstractLit = false)
    (he : e.lit = .int v) : matchLiteral F (.user r) e = matchLiteral F r e := by
  rcases hp with rfl | ⟨h1, h2⟩
  · have e1 : real r = .prim .bool := stands_real hs
    have e2 : real (.user r) = .prim .bool := e1
    simp [matchLiteral, he, matchInt, hf, e1, e2]
  · rw [Bool.eq_iff_iff, C162_exactly (.user r) p e v (.user hs) h1 hf he, C162_exactly r p e v hs h1 hf he]
    simp [h2]

example : Stands (.prim .sint) .sint ∧ P.sint.isAnyInt = true ∧ P.sint.isAnyUnsignedInt = false := ⟨.prim, rfl, rfl⟩

/-- **C163** No literal is ever accepted for a name of a floating type or a pointer, nor a character for any name. -/
theorem C163_names (r : Ty) (e : Exp) (hf : F.numAbstractLit = false) (h : matchLiteral F (.user r) e = true) :
    (∃ v, e.lit = .int v) ∧ isInt F (real r) = true := by
  simp only [matchLiteral] at h
  split at h
  · rename_i v hv
    refine ⟨⟨v, hv⟩, ?_⟩
    by_contra hn
    have hr : isRealInt F (.user r) = false := by
      have : isRealInt F (.user r) = isInt F (real r) := rfl
      rw [this]; simpa using hn
    simp [matchInt, hf, hr, isChar, isInt, isAnyFloat] at h
  · simp [isAnyFloat] at h
  · simp [isChar, isInt] at h
  · exact absurd h (by simp)

example : matchLiteral { numLiteral := true } (.prim .double) (lit 1) = true ∧
    matchLiteral { numLiteral := true } (.user (.prim .double)) (lit 1) = false ∧
    matchLiteral {} (.prim .char) { lit := .char 65, ty := .prim .char } = true ∧
    matchLiteral {} (.user (.prim .char)) { lit := .char 65, ty := .prim .char } = false := by decide

theorem C163_full_is_false : ¬C163_full := by
  intro h
  exact absurd (h { numLiteral := true } (.prim .double) (lit 1)) (by decide)

end Splint.LitMatchProps
