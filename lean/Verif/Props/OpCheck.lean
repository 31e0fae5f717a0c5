import Verif.Proofs.OpCheck
/-!
# C114: what is reported about the operands of an operator

The texts of the flags `shiftnegative`, `shiftimplementation`, `bitwisesigned`, `realcompare`, `realrelatecompare`,
`unsignedcompare`, `ptrarith`, `nullptrarith`, `boolcompare`, `boolops`, read as statements about the values the
operands may have, are compared with the messages of `exprNode_makeOp`.
-/
namespace Splint
open OpCheck OpCheck.Spec

/-- the declared types are known -/
def BothKnown (a b : Opnd) : Prop := a.known = true ∧ b.known = true

/-- all flags on -/
def allOn : OpCheck.Env := { on := fun _ => true }

/-! ### Shifts -/

/-- The right operand of a shift is reported exactly if it may be negative. -/
theorem C114_shift_right (E : OpCheck.Env) (op : Op) (a b : Opnd) (hk : BothKnown a b)
    (hf : E.on .shiftNegative = true) :
    Msg.shiftRight ∈ makeOp E op a b ↔ op ∈ shifts ∧ MayBeNegative b := by
  rw [mem_shift hk (Or.inl rfl), mayBeNegative_iff]
  unfold checkShift
  cases isUnsigned b.ty <;> cases isNonNegative b <;> cases isUnsigned a.ty <;> cases isNonNegative a <;>
    simp [mem_emit, hf]

/-- So is the left operand. -/
theorem C114_shift_left (E : OpCheck.Env) (op : Op) (a b : Opnd) (hk : BothKnown a b)
    (hf : E.on .shiftImpl = true) :
    Msg.shiftLeft ∈ makeOp E op a b ↔ op ∈ shifts ∧ MayBeNegative a := by
  rw [mem_shift hk (Or.inr rfl), mayBeNegative_iff]
  unfold checkShift
  cases isUnsigned b.ty <;> cases isNonNegative b <;> cases isUnsigned a.ty <;> cases isNonNegative a <;>
    simp [mem_emit, hf]

/-- `1u << i` -/
example : Msg.shiftRight ∈ makeOp allOn .shl { ty := .prim .uint, val := some 1 } { ty := .prim .int }
    ∧ Msg.shiftLeft ∉ makeOp allOn .shl { ty := .prim .uint, val := some 1 } { ty := .prim .int } := by decide

/-! ### Bitwise operators -/

/-- "An operand to a bitwise operator is not an unsigned value": it would be reported if one of the operands may
be negative, and only then. -/
def C114_bitwise_full : Prop :=
  ∀ (E : OpCheck.Env) (op : Op) (a b : Opnd), BothKnown a b → E.on .bitwiseOps = true →
    ((Msg.bitLeft ∈ makeOp E op a b ∨ Msg.bitRight ∈ makeOp E op a b)
      ↔ op ∈ bitwise ∧ (MayBeNegative a ∨ MayBeNegative b))

/-- The left operand is reported exactly if it may be negative; the right one only if, besides, the type of the
left one is unsigned. -/
theorem C114_bitwise_exactly (E : OpCheck.Env) (op : Op) (a b : Opnd) (hk : BothKnown a b)
    (hf : E.on .bitwiseOps = true) :
    (Msg.bitLeft ∈ makeOp E op a b ↔ op ∈ bitwise ∧ MayBeNegative a)
      ∧ (Msg.bitRight ∈ makeOp E op a b ↔ op ∈ bitwise ∧ a.ty ∈ unsignedTys ∧ MayBeNegative b) := by
  rw [mem_bits hk (Or.inl rfl), mem_bits hk (Or.inr rfl), mayBeNegative_iff, mayBeNegative_iff, ← isUnsigned_iff]
  unfold checkBits
  cases isUnsigned b.ty <;> cases isNonNegative b <;> cases isUnsigned a.ty <;> cases isNonNegative a <;>
    simp [mem_emit, hf]

/-- What is reported is one of the operands that may be negative, and nothing is missed if the left operand is
unsigned or may be negative itself. -/
theorem C114_bitwise_partial (E : OpCheck.Env) (op : Op) (a b : Opnd) (hk : BothKnown a b)
    (hf : E.on .bitwiseOps = true) :
    ((Msg.bitLeft ∈ makeOp E op a b ∨ Msg.bitRight ∈ makeOp E op a b)
        → op ∈ bitwise ∧ (MayBeNegative a ∨ MayBeNegative b))
      ∧ ((a.ty ∈ unsignedTys ∨ MayBeNegative a) → op ∈ bitwise → (MayBeNegative a ∨ MayBeNegative b)
        → (Msg.bitLeft ∈ makeOp E op a b ∨ Msg.bitRight ∈ makeOp E op a b)) := by
  obtain ⟨h1, h2⟩ := C114_bitwise_exactly E op a b hk hf
  rw [h1, h2]
  tauto

/-- `1 & i` with `int i`: the constant is signed but not negative, and `i` is not looked at. -/
theorem C114_bitwise_full_is_false : ¬ C114_bitwise_full := by
  intro h
  have h' := (h allOn .band { ty := .prim .int, val := some 1 } { ty := .prim .int } ⟨rfl, rfl⟩ rfl).2
    ⟨by decide, Or.inr ⟨-1, ⟨by simp, by simp [unsignedTys], by simp⟩, by decide⟩⟩
  revert h'
  decide

/-- Whatever the right operand is, nothing is said if the left one is a constant of a signed type that is not
negative. -/
theorem C114_bitwise_constant_on_the_left (E : OpCheck.Env) (op : Op) (a b : Opnd) (hk : BothKnown a b)
    (hf : E.on .bitwiseOps = true) (v : Int) (hv : a.val = some v) (h0 : 0 ≤ v) (hs : a.ty ∉ unsignedTys) :
    Msg.bitLeft ∉ makeOp E op a b ∧ Msg.bitRight ∉ makeOp E op a b := by
  obtain ⟨h1, h2⟩ := C114_bitwise_exactly E op a b hk hf
  rw [h1, h2]
  refine ⟨?_, by tauto⟩
  rintro ⟨-, z, ⟨hz, -⟩, hn⟩
  have := hz v hv
  omega

/-- `i & 1`, the other way round, is reported. -/
example : Msg.bitLeft ∈ makeOp allOn .band { ty := .prim .int } { ty := .prim .int, val := some 1 } := by decide

/-! ### Comparison of floating point numbers -/

/-- Equality is reported exactly if one of the operands is of a floating type. -/
theorem C114_real_equality (E : OpCheck.Env) (op : Op) (a b : Opnd) (hk : BothKnown a b)
    (hf : E.on .realCompare = true) :
    Msg.realEq ∈ makeOp E op a b ↔ (op = .eq ∨ op = .ne) ∧ (a.ty ∈ floatTys ∨ b.ty ∈ floatTys) := by
  rw [mem_real hk (Or.inl rfl), ← isReal_not_isInt E a.ty, ← isReal_not_isInt E b.ty]
  unfold checkReal
  cases isReal a.ty <;> cases isInt E a.ty <;> cases isReal b.ty <;> cases isInt E b.ty <;>
    cases epsilon a <;> cases epsilon b <;> cases op <;> simp [mem_emit, hf]

/-- Other comparisons would be reported whatever the operator, unless a least difference is meant. -/
def C114_real_relation_full : Prop :=
  ∀ (E : OpCheck.Env) (op : Op) (a b : Opnd), BothKnown a b → E.on .realRelate = true →
    a.var = none → b.var = none →
    (Msg.realRel ∈ makeOp E op a b ↔ op ∈ relations ∧ (a.ty ∈ floatTys ∨ b.ty ∈ floatTys))

/-- They are for `<` and `>` (which is what the text of the flag says), and for no other operator. -/
theorem C114_real_relation_exactly (E : OpCheck.Env) (op : Op) (a b : Opnd) (hk : BothKnown a b)
    (hf : E.on .realRelate = true) :
    Msg.realRel ∈ makeOp E op a b ↔ (op = .lt ∨ op = .gt) ∧ (a.ty ∈ floatTys ∨ b.ty ∈ floatTys)
      ∧ (∀ n, a.var = some n ∨ b.var = some n → n ∉ ["FLT_EPSILON", "DBL_EPSILON", "LDBL_EPSILON"]) := by
  have he : (∀ n, a.var = some n ∨ b.var = some n → n ∉ ["FLT_EPSILON", "DBL_EPSILON", "LDBL_EPSILON"])
      ↔ epsilon a = false ∧ epsilon b = false := by
    unfold epsilon
    cases a.var <;> cases b.var <;> simp [not_or]
    · tauto
    · tauto
    · constructor
      · intro h; have h1 := h _ (Or.inl rfl); have h2 := h _ (Or.inr rfl); tauto
      · rintro h n (rfl | rfl) <;> tauto
  rw [mem_real hk (Or.inr rfl), ← isReal_not_isInt E a.ty, ← isReal_not_isInt E b.ty, he]
  unfold checkReal
  cases isReal a.ty <;> cases isInt E a.ty <;> cases isReal b.ty <;> cases isInt E b.ty <;>
    cases epsilon a <;> cases epsilon b <;> cases op <;> simp [mem_emit, hf]

theorem C114_real_relation_full_is_false : ¬ C114_real_relation_full := by
  intro h
  have h' := (h allOn .le { ty := .prim .double } { ty := .prim .double } ⟨rfl, rfl⟩ rfl rfl rfl).2
    ⟨by decide, by decide⟩
  revert h'
  decide

/-- Nothing is said of `x <= y` or `x >= y`. -/
theorem C114_real_relation_partial (E : OpCheck.Env) (op : Op) (a b : Opnd) (hk : BothKnown a b) (hf : E.on .realRelate = true)
    (h1 : a.var = none) (h2 : b.var = none) (ho : op ≠ .le ∧ op ≠ .ge) :
    Msg.realRel ∈ makeOp E op a b ↔ op ∈ relations ∧ (a.ty ∈ floatTys ∨ b.ty ∈ floatTys) := by
  rw [C114_real_relation_exactly E op a b hk hf, h1, h2]
  cases op <;> simp [relations] at ho ⊢

example : Msg.realRel ∈ makeOp allOn .lt { ty := .prim .double } { ty := .prim .int }
    ∧ Msg.realRel ∉ makeOp allOn .le { ty := .prim .double } { ty := .prim .int } := by decide

/-! ### Comparison of unsigned values with zero -/

/-- The message is that of the text of the flag. -/
theorem C114_unsigned_letter (E : OpCheck.Env) (op : Op) (a b : Opnd) (hk : BothKnown a b)
    (hf : E.on .unsignedCompare = true) :
    Msg.unsignedZero ∈ makeOp E op a b ↔ (op = .lt ∨ op = .le ∨ op = .ge)
      ∧ ((a.ty ∈ unsignedTys ∧ IsZeroConst b) ∨ (b.ty ∈ unsignedTys ∧ IsZeroConst a)) := by
  rw [mem_relate hk (by simp), unsignedZero_iff]
  unfold IsZeroConst
  constructor
  · rintro ⟨-, -, h⟩; exact h
  · intro h
    refine ⟨?_, hf, h⟩
    rcases h.1 with rfl | rfl | rfl <;> simp

/-- A comparison of an unsigned value with zero whose result is always the same would be reported. -/
def C114_unsigned_full : Prop :=
  ∀ (E : OpCheck.Env) (op : Op) (a b : Opnd), BothKnown a b → E.on .unsignedCompare = true → op ∈ relations →
    ((UnsignedVar a ∧ IsZeroConst b) ∨ (IsZeroConst a ∧ UnsignedVar b)) → Constant op a b → Msg.unsignedZero ∈ makeOp E op a b

private theorem values_zero {e : Opnd} (h : IsZeroConst e) (z : Int) : Values e z ↔ z = 0 := by
  constructor
  · intro hz; exact hz.1 0 h
  · rintro rfl
    exact ⟨fun v hv => by rw [h] at hv; exact Option.some.inj hv, fun _ => le_refl _, fun _ _ => le_refl _⟩

private theorem values_unsigned {e : Opnd} (h : UnsignedVar e) (z : Int) : Values e z ↔ 0 ≤ z := by
  constructor
  · intro hz; exact hz.2.1 h.1
  · intro hz
    exact ⟨fun v hv => (by rw [h.2] at hv; cases hv), fun _ => hz, fun _ _ => hz⟩

/-- With the unsigned value on the left, what always has the same result is `u < 0` and `u >= 0`. -/
theorem C114_constant_left (op : Op) (a b : Opnd) (ha : UnsignedVar a) (hb : IsZeroConst b) (ho : op ∈ relations) :
    Constant op a b ↔ op = .lt ∨ op = .ge := by
  unfold Constant
  simp only [values_unsigned ha, values_zero hb]
  constructor
  · intro h
    cases op <;> simp [relations] at ho ⊢
    · rcases h with h | h
      · have := h 0 0 (by omega) rfl; simp [Holds] at this
      · have := h 1 0 (by omega) rfl; simp [Holds] at this
    · rcases h with h | h
      · have := h 1 0 (by omega) rfl; simp [Holds] at this
      · have := h 0 0 (by omega) rfl; simp [Holds] at this
  · rintro (rfl | rfl)
    · right; rintro x y hx rfl; simp only [Holds]; omega
    · left; rintro x y hx rfl; simpa [Holds] using hx

/-- With it on the right, `0 > u` and `0 <= u`. -/
theorem C114_constant_right (op : Op) (a b : Opnd) (ha : IsZeroConst a) (hb : UnsignedVar b) (ho : op ∈ relations) :
    Constant op a b ↔ op = .gt ∨ op = .le := by
  unfold Constant
  simp only [values_unsigned hb, values_zero ha]
  constructor
  · intro h
    cases op <;> simp [relations] at ho ⊢
    · rcases h with h | h
      · have := h 0 0 rfl (by omega); simp [Holds] at this
      · have := h 0 1 rfl (by omega); simp [Holds] at this
    · rcases h with h | h
      · have := h 0 1 rfl (by omega); simp [Holds] at this
      · have := h 0 0 rfl (by omega); simp [Holds] at this
  · rintro (rfl | rfl)
    · right; rintro x y rfl hy; simp only [Holds]; omega
    · left; rintro x y rfl hy; simpa [Holds] using hy

/-- `0 > u` is never true, and not reported. -/
theorem C114_unsigned_full_is_false : ¬ C114_unsigned_full := by
  intro h
  have ha : IsZeroConst { ty := .prim .int, val := some 0 } := rfl
  have hb : UnsignedVar { ty := .prim .uint } := ⟨by decide, rfl⟩
  have h' := h allOn .gt { ty := .prim .int, val := some 0 } { ty := .prim .uint } ⟨rfl, rfl⟩ rfl (by decide)
    (Or.inr ⟨ha, hb⟩) ((C114_constant_right _ _ _ ha hb (by decide)).2 (Or.inl rfl))
  revert h'
  decide

/-- With the unsigned value on the left all that always have the same result are reported. -/
theorem C114_unsigned_partial (E : OpCheck.Env) (op : Op) (a b : Opnd) (hk : BothKnown a b)
    (hf : E.on .unsignedCompare = true) (ho : op ∈ relations) (ha : UnsignedVar a) (hb : IsZeroConst b)
    (hc : Constant op a b) : Msg.unsignedZero ∈ makeOp E op a b := by
  rw [C114_unsigned_letter E op a b hk hf]
  rw [C114_constant_left op a b ha hb ho] at hc
  exact ⟨by tauto, Or.inl ⟨ha.1, hb⟩⟩

/-- With zero on the left only one of the two is; and `0 < u` and `0 >= u`, whose results differ, are as well. -/
theorem C114_unsigned_zero_left (E : OpCheck.Env) (op : Op) (a b : Opnd) (hk : BothKnown a b)
    (hf : E.on .unsignedCompare = true) (ho : op ∈ relations) (ha : IsZeroConst a) (hb : UnsignedVar b) :
    (Msg.unsignedZero ∈ makeOp E op a b ↔ op ≠ .gt)
      ∧ (Constant op a b ∧ Msg.unsignedZero ∉ makeOp E op a b ↔ op = .gt)
      ∧ (¬ Constant op a b ∧ Msg.unsignedZero ∈ makeOp E op a b ↔ op = .lt ∨ op = .ge) := by
  have hm : Msg.unsignedZero ∈ makeOp E op a b ↔ op ≠ .gt := by
    rw [C114_unsigned_letter E op a b hk hf]
    constructor
    · rintro ⟨h | h | h, -⟩ <;> simp [h]
    · intro h
      refine ⟨?_, Or.inr ⟨hb.1, ha⟩⟩
      cases op <;> simp [relations] at ho h ⊢
  refine ⟨hm, ?_, ?_⟩ <;> rw [hm, C114_constant_right op a b ha hb ho] <;>
    cases op <;> simp [relations] at ho ⊢

example : Msg.unsignedZero ∈ makeOp allOn .lt { ty := .prim .int, val := some 0 } { ty := .prim .uint } := by decide
example : UnsignedVar { ty := .prim .uint, var := some "u" } ∧ IsZeroConst { ty := .prim .int, val := some 0 } :=
  ⟨⟨by decide, rfl⟩, rfl⟩

/-! ### Arithmetic on pointers -/

/-- Adding an integer and a pointer, in either order, would be reported as arithmetic on pointers, and that the
pointer may be null exactly if it may. -/
def C114_pointer_full : Prop :=
  ∀ (E : OpCheck.Env) (op : Op) (a b p : Opnd), BothKnown a b → E.on .ptrArith = true → E.on .nullPtrArith = true →
    op ∈ adds → PointerAndInt a b p →
    Msg.ptrArith ∈ makeOp E op a b ∧ (Msg.nullPtr ∈ makeOp E op a b ↔ p.null = true)

/-- It is so with the pointer or array on the left. -/
theorem C114_pointer_partial (E : OpCheck.Env) (op : Op) (a b : Opnd) (hk : BothKnown a b)
    (h1 : E.on .ptrArith = true) (h2 : E.on .nullPtrArith = true) (ho : op ∈ adds) (ha : Pointer a) (hb : Integer b) :
    Msg.ptrArith ∈ makeOp E op a b ∧ (Msg.nullPtr ∈ makeOp E op a b ↔ a.null = true) := by
  rw [mem_add hk (Or.inl rfl), mem_add hk (Or.inr rfl)]
  have hc : ((isRealPointer (fixArrayPtr a.ty) && !isZero a) && (!isRealPointer b.ty && isRealInt E b.ty)) = true := by
    have hb1 := isRealInt_of_integer E hb
    have hb2 := (not_ptr_of_integer hb).1
    obtain ⟨ht, hv⟩ := ha
    rcases ht with ht | ht <;> simp [isRealPointer, fixArrayPtr, ht, isZero, hv, hb1, hb2]
  unfold checkAdd
  dsimp only
  rw [if_pos hc]
  cases hn : a.null <;> simp [mem_emit, ho, h1, h2]

/-- With the integer on the left, it is looked at whether the integer may be null, and not the pointer. -/
theorem C114_pointer_on_the_right (E : OpCheck.Env) (op : Op) (a b : Opnd) (hk : BothKnown a b)
    (h1 : E.on .ptrArith = true) (h2 : E.on .nullPtrArith = true) (ho : op ∈ adds) (ha : Integer a)
    (hb : b.ty = .ptr) (hz : b.val ≠ some 0) :
    Msg.ptrArith ∈ makeOp E op a b ∧ (Msg.nullPtr ∈ makeOp E op a b ↔ a.null = true) := by
  rw [mem_add hk (Or.inl rfl), mem_add hk (Or.inr rfl)]
  have ha1 := isRealInt_of_integer E ha
  have ha2 := not_ptr_of_integer ha
  have hfix : fixArrayPtr a.ty = a.ty := by simp [fixArrayPtr, ha2.2]
  have hc : ¬ (((isRealPointer (fixArrayPtr a.ty) && !isZero a) && (!isRealPointer b.ty && isRealInt E b.ty)) = true) := by
    simp [hfix, isRealPointer, ha2.1]
  have hd : ((!isRealPointer (fixArrayPtr a.ty) && isRealInt E (fixArrayPtr a.ty)) && (isRealPointer b.ty && !isZero b))
      = true := by
    simp [hfix, isRealPointer, ha2.1, ha1, hb, isZero, hz]
  unfold checkAdd
  dsimp only
  rw [if_neg hc, if_pos hd]
  cases hn : a.null <;> simp [mem_emit, ho, h1, h2]

/-- `1 + p` with a pointer that may be null -/
theorem C114_pointer_full_is_false : ¬ C114_pointer_full := by
  intro h
  have h' := (h allOn .add { ty := .prim .int, val := some 1 } { ty := .ptr, null := true } { ty := .ptr, null := true }
    ⟨rfl, rfl⟩ rfl rfl (by decide)
    (Or.inr ⟨⟨.int, rfl, rfl⟩, ⟨Or.inl rfl, by decide⟩, rfl⟩)).2.2 rfl
  revert h'
  decide

/-- `1 + arr`: an array on the right is not taken for a pointer. As its type does not match that of the integer, the
operands are reported as incompatible, and nothing else is. -/
theorem C114_array_on_the_right (E : OpCheck.Env) (op : Op) (a b : Opnd) (hk : BothKnown a b) (ho : op ∈ adds)
    (ha : Integer a) (hb : b.ty = .arr) (hm : E.tmatch = false) (hf : E.on .type = true) :
    makeOp E op a b = [Msg.incompatible] := by
  have ha2 := not_ptr_of_integer ha
  have hfix : fixArrayPtr a.ty = a.ty := by simp [fixArrayPtr, ha2.2]
  have hadd : checkAdd E op a b = [Msg.incompatible] := by
    unfold checkAdd
    dsimp only
    rw [if_neg (by simp [hfix, isRealPointer, ha2.1]), if_neg (by simp [isRealPointer, hb])]
    unfold checkNumerics
    rw [hm, hb]
    simp [isRealInt, isReal, emit, hf]
  rw [makeOp_known hk]
  cases op <;> simp [adds] at ho <;> simpa using hadd

/-- `arr + 1` is fine. -/
example : makeOp { allOn with tmatch := false } .add { ty := .arr } { ty := .prim .int, val := some 1 } = [.ptrArith]
    ∧ makeOp { allOn with tmatch := false } .add { ty := .prim .int, val := some 1 } { ty := .arr } = [.incompatible] := by
  decide

/-- `i - p` makes no sense in C; it is taken for arithmetic on pointers, and the types are not reported. -/
theorem C114_int_minus_pointer (E : OpCheck.Env) (a b : Opnd) (hk : BothKnown a b) (ha : Integer a)
    (hb : b.ty = .ptr) (hz : b.val ≠ some 0) (m : Msg) (h : m ∈ makeOp E .sub a b) : m = .ptrArith ∨ m = .nullPtr := by
  have ha1 := isRealInt_of_integer E ha
  have ha2 := not_ptr_of_integer ha
  have hfix : fixArrayPtr a.ty = a.ty := by simp [fixArrayPtr, ha2.2]
  rw [makeOp_known hk] at h
  dsimp only at h
  unfold checkAdd at h
  dsimp only at h
  rw [if_neg (by simp [hfix, isRealPointer, ha2.1]), if_pos (by simp [hfix, isRealPointer, ha2.1, ha1, hb, isZero, hz])]
    at h
  split_ifs at h <;> simp [mem_emit] at h <;> tauto

example : makeOp { on := fun f => f = .type, tmatch := false } .sub { ty := .prim .int } { ty := .ptr } = [] := by decide

/-! ### Booleans -/

/-- `==` and `!=` of booleans are reported exactly if one of them is a variable and none is `FALSE`. -/
theorem C114_bool_compare (E : OpCheck.Env) (op : Op) (a b : Opnd) (hk : BothKnown a b)
    (hf : E.on .boolCompare = true) :
    Msg.boolCompare ∈ makeOp E op a b ↔ (op = .eq ∨ op = .ne) ∧ (a.ty = .prim .bool ∧ b.ty = .prim .bool)
      ∧ (a.var ≠ none ∨ b.var ≠ none) ∧ a.isFalse = false ∧ b.isFalse = false := by
  rw [mem_relate hk (by simp), boolCompare_iff]
  constructor
  · rintro ⟨-, -, h⟩; exact h
  · intro h
    refine ⟨?_, hf, h⟩
    rcases h.1 with rfl | rfl <;> simp

example : Msg.boolCompare ∈ makeOp allOn .eq { ty := .prim .bool, var := some "a" } { ty := .prim .bool, var := some "b" }
    := by decide

/-- Without `+boolint`, the operands of `&&` and `||` that are not booleans are named. -/
theorem C114_bool_ops (E : OpCheck.Env) (op : Op) (a b : Opnd) (hk : BothKnown a b) (hf : E.on .boolOps = true)
    (hb : E.boolInt = false) :
    (Msg.boolBoth ∈ makeOp E op a b ↔ op ∈ [Op.land, .lor] ∧ a.ty ≠ .prim .bool ∧ b.ty ≠ .prim .bool)
      ∧ (Msg.boolLeft ∈ makeOp E op a b ↔ op ∈ [Op.land, .lor] ∧ a.ty ≠ .prim .bool ∧ b.ty = .prim .bool)
      ∧ (Msg.boolRight ∈ makeOp E op a b ↔ op ∈ [Op.land, .lor] ∧ a.ty = .prim .bool ∧ b.ty ≠ .prim .bool) := by
  have hr : ∀ t, isRealBool E t = true ↔ t = .prim .bool := by
    intro t; cases t <;> simp [isRealBool, hb]
  rw [mem_logic hk (by simp), mem_logic hk (by simp), mem_logic hk (by simp)]
  simp only [ne_eq, ← hr]
  unfold checkLogic
  cases isRealBool E a.ty <;> cases isRealBool E b.ty <;> simp [mem_emit, hf]

example : makeOp allOn .land { ty := .prim .int } { ty := .prim .bool } = [.boolLeft] := by decide

/-! ### Pointers compared with numbers -/

/-- A number compared with a pointer is reported as that exactly if the types were not already reported. -/
theorem C114_pointer_and_number (E : OpCheck.Env) (op : Op) (a b : Opnd) (hk : BothKnown a b)
    (hf : E.on .ptrNum = true)
    (hab : ((Integer a ∨ a.ty ∈ floatTys) ∧ b.ty = .ptr) ∨ (a.ty = .ptr ∧ (Integer b ∨ b.ty ∈ floatTys))) :
    Msg.ptrNum ∈ makeOp E op a b ↔ op ∈ [Op.eq, .ne, .lt, .gt, .le, .ge] ∧ (E.ematch = true ∨ E.on .type = false) := by
  have hnum : ∀ e : Opnd, (Integer e ∨ e.ty ∈ floatTys) → isRealNumeric E e.ty = true ∧ isRealPointer e.ty = false := by
    rintro e (⟨p, hp, hi⟩ | h)
    · rw [hp]; cases p <;> simp [isRealNumeric, realType, isNumeric, isInt, isRealPointer, Prim.P.isAnyInt] at hi ⊢
    · simp only [floatTys, List.mem_cons, List.not_mem_nil, or_false] at h
      rcases h with h | h | h <;> rw [h] <;>
        simp [isRealNumeric, realType, isNumeric, isReal, isRealPointer, Prim.P.isAnyReal]
  rw [mem_relate hk (by simp)]
  refine and_congr_right fun _ => ?_
  have hptr : isRealNumeric E .ptr = false := rfl
  have hpp : isRealPointer .ptr = true := rfl
  unfold checkRelate
  dsimp only
  simp only [List.mem_append]
  have h3 : ∀ c : Bool, Msg.ptrNum ∉ (if c = true then emit E .unsignedCompare .unsignedZero else []) := by
    intro c; split_ifs <;> simp [mem_emit]
  have h4 : ∀ c : Bool, Msg.ptrNum ∉ (if c = true then emit E .boolCompare .boolCompare else []) := by
    intro c; split_ifs <;> simp [mem_emit]
  have h1 : ∀ c : Bool, Msg.ptrNum ∉ (if c = true then emit E .type .opTypes else []) := by
    intro c; split_ifs <;> simp [mem_emit]
  simp only [h1, h3, h4, or_false, false_or]
  rcases hab with ⟨h, hb⟩ | ⟨ha, h⟩
  · obtain ⟨h5, h6⟩ := hnum _ h
    rw [hb, hptr, hpp, h5, h6]
    cases E.ematch <;> cases E.on .type <;> simp [mem_emit, hf]
  · obtain ⟨h5, h6⟩ := hnum _ h
    rw [ha, hptr, hpp, h5, h6]
    cases E.ematch <;> cases E.on .type <;> simp [mem_emit, hf]

example : makeOp allOn .eq { ty := .prim .int } { ty := .ptr } = [.ptrNum]
    ∧ makeOp { allOn with ematch := false } .eq { ty := .prim .int } { ty := .ptr } = [.opTypes] := by decide

/-! ### Operands that should be integers -/

/-- `%`: two integers are fine, and otherwise the operand that is none is named. -/
theorem C114_remainder (E : OpCheck.Env) (op : Op) (a b : Opnd) (hk : BothKnown a b) (hf : E.on .strictOps = true)
    (ho : op = .mod ∨ op = .modA) :
    (Integer a → Integer b → makeOp E op a b = [])
      ∧ (a.ty ∈ Ty.ptr :: .arr :: .other :: floatTys → Integer b → makeOp E op a b = [.intLeft])
      ∧ (Integer a → b.ty ∈ Ty.ptr :: .arr :: .other :: floatTys → makeOp E op a b = [.intRight])
      ∧ (a.ty ∈ Ty.ptr :: .arr :: .other :: floatTys → b.ty ∈ Ty.ptr :: .arr :: .other :: floatTys →
          makeOp E op a b = [.intBoth]) := by
  have he : makeOp E op a b = checkIntegral E a b := by
    rw [makeOp_known hk]; rcases ho with rfl | rfl <;> rfl
  have hn : ∀ e : Opnd, e.ty ∈ Ty.ptr :: .arr :: .other :: floatTys → isInt E e.ty = false ∧ isRealInt E e.ty = false := by
    intro e h
    simp only [floatTys, List.mem_cons, List.not_mem_nil, or_false] at h
    rcases h with h | h | h | h | h | h <;> rw [h] <;>
      simp [isInt, isRealInt, realType, Prim.P.isAnyInt, Prim.P.isAnyChar]
  rw [he]
  unfold checkIntegral
  refine ⟨fun h1 h2 => ?_, fun h1 h2 => ?_, fun h1 h2 => ?_, fun h1 h2 => ?_⟩
  · simp [isRealInt_of_integer E h1, isRealInt_of_integer E h2]
  · simp [isRealInt_of_integer E h2, isInt_of_integer E h2, hn a h1, hf, emit]
  · simp [isRealInt_of_integer E h1, isInt_of_integer E h1, hn b h2, hf, emit]
  · simp [hn a h1, hn b h2, hf, emit]

example : makeOp allOn .mod { ty := .prim .double } { ty := .prim .int } = [.intLeft] := by decide

/-! ### Which operand is not numeric -/

/-- The text names the wrong operand: the message about the left operand comes if it is the right one that is not
numeric, and the other way round. -/
theorem C114_wrong_operand (E : OpCheck.Env) (op : Op) (a b : Opnd) :
    (Msg.numLeft ∈ makeOp E op a b →
        b.ty ∈ [.ptr, .arr, .other, .prim .void, .prim .bool, .prim .char, .prim .uchar]
          ∧ a.ty ∉ [.ptr, .arr, .other, .prim .void])
      ∧ (Msg.numRight ∈ makeOp E op a b →
        a.ty ∈ [.ptr, .arr, .other, .prim .void, .prim .bool, .prim .char, .prim .uchar]
          ∧ b.ty ∉ [.ptr, .arr, .other, .prim .void]) := by
  have hnum' : ∀ t, isNumeric E t = true → t ∉ [.ptr, .arr, .other, .prim .void] := by
    intro t ht
    cases t with
    | prim p =>
      cases p <;> simp [isNumeric, isInt, Prim.P.isAnyInt, Prim.P.isAnyChar, isReal, Prim.P.isAnyReal] at ht ⊢
    | _ => simp [isNumeric, isInt, isReal] at ht ⊢
  have hnum : ∀ t, isNumeric E t = false →
      t ∈ [.ptr, .arr, .other, .prim .void, .prim .bool, .prim .char, .prim .uchar] := by
    intro t ht
    cases t with
    | prim p => cases p <;> simp [isNumeric, isInt, Prim.P.isAnyInt, isReal, Prim.P.isAnyReal] at ht ⊢
    | _ => simp [isNumeric] at ht ⊢
  have hn : ∀ s t, (Msg.numLeft ∈ checkNumerics E op s t → isNumeric E t = false ∧ isNumeric E s = true)
      ∧ (Msg.numRight ∈ checkNumerics E op s t → isNumeric E s = false ∧ isNumeric E t = true) := by
    intro s t
    unfold checkNumerics
    split_ifs <;> simp_all [mem_emit]
  have key : ∀ m, (m = Msg.numLeft ∨ m = .numRight) → m ∈ makeOp E op a b →
      ∃ s, m ∈ checkNumerics E op s b.ty ∧ (s = a.ty ∨ (s = .ptr ∧ a.ty = .arr)) := by
    intro m hm h
    have hnA : m ∈ checkAdd E op a b → ∃ s, m ∈ checkNumerics E op s b.ty ∧ (s = a.ty ∨ (s = .ptr ∧ a.ty = .arr)) := by
      intro h
      refine ⟨fixArrayPtr a.ty, ?_, ?_⟩
      · unfold checkAdd at h
        dsimp only at h
        split_ifs at h <;> first | exact h | (rcases hm with rfl | rfl <;> simp [mem_emit] at h)
      · unfold fixArrayPtr; split_ifs with h1 <;> simp [h1]
    have hnR : m ∈ checkRelate E op a b → ∃ s, m ∈ checkNumerics E op s b.ty ∧ (s = a.ty ∨ (s = .ptr ∧ a.ty = .arr)) := by
      intro h
      refine ⟨a.ty, ?_, Or.inl rfl⟩
      unfold checkRelate at h
      dsimp only at h
      simp only [List.mem_append] at h
      rcases h with ((h | h) | h) | h <;> split_ifs at h <;>
        first | exact h | (rcases hm with rfl | rfl <;> simp [mem_emit] at h)
    unfold makeOp at h
    split_ifs at h with hk
    · cases h
    · have hi : m ∉ checkIntegral E a b := fun h => by
        have := mem_checkIntegral h; rcases hm with rfl | rfl <;> simp at this
      have hb : m ∉ checkBitwise E op a b := fun h => by
        have := mem_checkBitwise h; rcases hm with rfl | rfl <;> simp at this
      have hr : m ∉ checkReal E op a b := fun h => by
        have := mem_checkReal h; rcases hm with rfl | rfl <;> simp at this
      have hg : m ∉ checkLogic E a b := fun h => by
        have := mem_checkLogic h; rcases hm with rfl | rfl <;> simp at this
      cases op <;> simp [hi, hb, hr, hg] at h <;>
        first | exact hnA h | exact hnR h | exact ⟨a.ty, h, Or.inl rfl⟩
  constructor
  · intro h
    obtain ⟨s, hs, hsa⟩ := key _ (Or.inl rfl) h
    obtain ⟨h1, h2⟩ := (hn s b.ty).1 hs
    refine ⟨hnum _ h1, ?_⟩
    rcases hsa with rfl | ⟨rfl, h⟩
    · exact hnum' _ h2
    · exact absurd (hnum' _ h2) (by simp)
  · intro h
    obtain ⟨s, hs, hsa⟩ := key _ (Or.inr rfl) h
    obtain ⟨h1, h2⟩ := (hn s b.ty).2 hs
    refine ⟨?_, hnum' _ h2⟩
    rcases hsa with rfl | ⟨rfl, h⟩
    · exact hnum _ h1
    · rw [h]; simp

/-- An operand whose named type stands for an unknown one, multiplied by a pointer: "Left operand of * is
non-numeric". -/
example : makeOp allOn .mul { ty := .prim .unknown } { ty := .ptr } = [.numLeft] := by decide

end Splint
