import Verif.Spec.OpCheck
/-!
# Lemmas on the checks of operators
-/
namespace Splint.OpCheck
open Spec

theorem mem_emit {E : Env} {f : Flg} {m k : Msg} : m ∈ emit E f k ↔ E.on f = true ∧ m = k := by
  unfold emit; split_ifs with h <;> simp [h]

theorem isUnsigned_iff (t : Ty) : isUnsigned t = true ↔ t ∈ unsignedTys := by
  cases t with
  | prim p => cases p <;> simp [isUnsigned, unsignedTys]
  | _ => simp [isUnsigned, unsignedTys]

theorem isReal_iff (t : Ty) : isReal t = true ↔ t ∈ floatTys := by
  cases t with
  | prim p => cases p <;> simp [isReal, floatTys, Prim.P.isAnyReal]
  | _ => simp [isReal, floatTys]

theorem isReal_not_isInt (E : Env) (t : Ty) : (isReal t = true ∧ isInt E t = false) ↔ t ∈ floatTys := by
  cases t with
  | prim p =>
    cases p <;> simp [isReal, isInt, floatTys, Prim.P.isAnyReal, Prim.P.isAnyInt, Prim.P.isAnyChar]
  | _ => simp [isReal, floatTys]

/-- The test in the code is exactly whether a value below zero is possible. -/
theorem mayBeNegative_iff (e : Opnd) :
    MayBeNegative e ↔ isUnsigned e.ty = false ∧ isNonNegative e = false := by
  have hu := isUnsigned_iff e.ty
  constructor
  · rintro ⟨z, ⟨hv, hun, hen⟩, hz⟩
    have h1 : isUnsigned e.ty = false := by
      by_contra h
      have := hun (hu.1 (by simpa using h))
      omega
    refine ⟨h1, ?_⟩
    unfold isNonNegative
    cases hval : e.val with
    | some v => have := hv v hval; simp; omega
    | none =>
      simp only [decide_eq_false_iff_not]
      intro he
      have := hen he hval
      omega
  · rintro ⟨h1, h2⟩
    have h1' : e.ty ∉ unsignedTys := fun h => by rw [hu.2 h] at h1; cases h1
    unfold isNonNegative at h2
    cases hval : e.val with
    | some v =>
      rw [hval] at h2
      simp only [decide_eq_false_iff_not] at h2
      exact ⟨v, ⟨fun w hw => by rw [hval] at hw; exact Option.some.inj hw, fun h => absurd h h1',
        fun _ h => by rw [hval] at h; cases h⟩, by omega⟩
    | none =>
      rw [hval] at h2
      simp only [decide_eq_false_iff_not] at h2
      exact ⟨-1, ⟨fun w hw => (by rw [hval] at hw; cases hw), fun h => absurd h h1', fun h => absurd h h2⟩, by omega⟩

/-! The messages of each function -/

theorem mem_checkIntegral {E : Env} {a b : Opnd} {m : Msg} (h : m ∈ checkIntegral E a b) :
    m = .intBoth ∨ m = .intLeft ∨ m = .intRight := by
  unfold checkIntegral at h
  split_ifs at h <;> simp_all [mem_emit]

theorem mem_checkNumerics {E : Env} {op : Op} {s t : Ty} {m : Msg} (h : m ∈ checkNumerics E op s t) :
    m = .incompatible ∨ m = .numBoth ∨ m = .numLeft ∨ m = .numRight := by
  unfold checkNumerics at h
  split_ifs at h <;> simp_all [mem_emit]

theorem mem_checkLogic {E : Env} {a b : Opnd} {m : Msg} (h : m ∈ checkLogic E a b) :
    m = .boolBoth ∨ m = .boolLeft ∨ m = .boolRight := by
  unfold checkLogic at h
  split_ifs at h <;> simp_all [mem_emit]

theorem mem_checkAdd {E : Env} {op : Op} {a b : Opnd} {m : Msg} (h : m ∈ checkAdd E op a b) :
    m = .ptrArith ∨ m = .nullPtr ∨ m = .incompatible ∨ m = .numBoth ∨ m = .numLeft ∨ m = .numRight := by
  unfold checkAdd at h
  dsimp only at h
  split_ifs at h <;> try simp only [List.mem_append, mem_emit, List.not_mem_nil, or_false] at h
  · tauto
  · tauto
  · tauto
  · tauto
  · have := mem_checkNumerics h; tauto

theorem mem_checkReal {E : Env} {op : Op} {a b : Opnd} {m : Msg} (h : m ∈ checkReal E op a b) :
    m = .realEq ∨ m = .realRel := by
  unfold checkReal at h
  split_ifs at h <;> simp_all [mem_emit]

theorem mem_checkBitwise {E : Env} {op : Op} {a b : Opnd} {m : Msg} (h : m ∈ checkBitwise E op a b) :
    m = .shiftRight ∨ m = .shiftLeft ∨ m = .bitLeft ∨ m = .bitRight ∨ m = .intBoth ∨ m = .intLeft ∨ m = .intRight := by
  unfold checkBitwise at h
  dsimp only at h
  rw [List.mem_append] at h
  rcases h with h | h
  · split_ifs at h
    · unfold checkShift at h
      dsimp only at h
      rw [List.mem_append] at h
      rcases h with h | h <;> split_ifs at h <;> simp_all [mem_emit]
    · unfold checkBits at h
      split_ifs at h <;> simp_all [mem_emit]
  · split_ifs at h <;> first | cases h; done | (have := mem_checkIntegral h; tauto)

theorem mem_checkRelate {E : Env} {op : Op} {a b : Opnd} {m : Msg} (h : m ∈ checkRelate E op a b) :
    m = .opTypes ∨ m = .ptrNum ∨ m = .unsignedZero ∨ m = .boolCompare
      ∨ m = .incompatible ∨ m = .numBoth ∨ m = .numLeft ∨ m = .numRight := by
  unfold checkRelate at h
  dsimp only at h
  simp only [List.mem_append] at h
  rcases h with ((h | h) | h) | h
  · split_ifs at h <;> simp_all [mem_emit]
  · split_ifs at h
    · cases h
    · simp_all [mem_emit]
    · have := mem_checkNumerics h; tauto
  · split_ifs at h <;> simp_all [mem_emit]
  · split_ifs at h <;> simp_all [mem_emit]

/-! Single messages -/

theorem unsignedZero_iff {E : Env} {op : Op} {a b : Opnd} :
    Msg.unsignedZero ∈ checkRelate E op a b ↔ E.on .unsignedCompare = true ∧ (op = .lt ∨ op = .le ∨ op = .ge)
      ∧ ((a.ty ∈ unsignedTys ∧ b.val = some 0) ∨ (b.ty ∈ unsignedTys ∧ a.val = some 0)) := by
  unfold checkRelate
  dsimp only
  simp only [List.mem_append, ← isUnsigned_iff]
  constructor
  · rintro (((h | h) | h) | h)
    · split_ifs at h <;> simp [mem_emit] at h
    · split_ifs at h
      · cases h
      · simp [mem_emit] at h
      · have := mem_checkNumerics h; simp at this
    · split_ifs at h with hc
      · simp only [mem_emit, and_true] at h
        simp only [isZero, Bool.and_eq_true, Bool.or_eq_true, decide_eq_true_eq] at hc
        exact ⟨h, by tauto, hc.2⟩
      · cases h
    · split_ifs at h <;> simp [mem_emit] at h
  · rintro ⟨h1, h2, h3⟩
    refine Or.inl (Or.inr ?_)
    rw [if_pos]
    · simp [mem_emit, h1]
    · simp only [isZero, Bool.and_eq_true, Bool.or_eq_true, decide_eq_true_eq]
      exact ⟨by tauto, h3⟩

theorem boolCompare_iff {E : Env} {op : Op} {a b : Opnd} :
    Msg.boolCompare ∈ checkRelate E op a b ↔ E.on .boolCompare = true ∧ (op = .eq ∨ op = .ne)
      ∧ (a.ty = .prim .bool ∧ b.ty = .prim .bool) ∧ (a.var ≠ none ∨ b.var ≠ none)
      ∧ a.isFalse = false ∧ b.isFalse = false := by
  unfold checkRelate
  dsimp only
  simp only [List.mem_append]
  constructor
  · rintro (((h | h) | h) | h)
    · split_ifs at h <;> simp [mem_emit] at h
    · split_ifs at h
      · cases h
      · simp [mem_emit] at h
      · have := mem_checkNumerics h; simp at this
    · split_ifs at h <;> simp [mem_emit] at h
    · split_ifs at h with hc
      · simp only [mem_emit, and_true] at h
        simp only [Bool.and_eq_true, Bool.or_eq_true, decide_eq_true_eq, Bool.not_eq_true', Bool.or_eq_false_iff,
          Option.isSome_iff_ne_none] at hc
        exact ⟨h, hc.1.1.1, hc.1.1.2, hc.1.2, hc.2⟩
      · cases h
  · rintro ⟨h1, h2, h3, h4, h5⟩
    refine Or.inr ?_
    rw [if_pos]
    · simp [mem_emit, h1]
    · simp only [Bool.and_eq_true, Bool.or_eq_true, decide_eq_true_eq, Bool.not_eq_true', Bool.or_eq_false_iff,
          Option.isSome_iff_ne_none]
      exact ⟨⟨⟨h2, h3⟩, h4⟩, h5⟩

theorem isInt_of_integer (E : Env) {e : Opnd} (h : Integer e) : isInt E e.ty = true := by
  obtain ⟨p, hp, hi⟩ := h
  rw [hp]; simp [isInt, hi]

theorem isRealInt_of_integer (E : Env) {e : Opnd} (h : Integer e) : isRealInt E e.ty = true := by
  obtain ⟨p, hp, hi⟩ := h
  have : ¬ (Ty.prim p = .prim .bool) := by rintro h; cases h; simp [Prim.P.isAnyInt] at hi
  rw [hp]; simp [isRealInt, realType, this, isInt, hi]

theorem not_ptr_of_integer {e : Opnd} (h : Integer e) : e.ty ≠ .ptr ∧ e.ty ≠ .arr := by
  obtain ⟨p, hp, -⟩ := h
  rw [hp]; simp

/-! Which part of the function a message comes from -/

theorem mem_checkShift {E : Env} {a b : Opnd} {m : Msg} (h : m ∈ (checkShift E a b).1) :
    m = .shiftRight ∨ m = .shiftLeft := by
  unfold checkShift at h
  dsimp only at h
  rw [List.mem_append] at h
  rcases h with h | h <;> split_ifs at h <;> simp_all [mem_emit]

theorem mem_checkBits {E : Env} {a b : Opnd} {m : Msg} (h : m ∈ (checkBits E a b).1) :
    m = .bitLeft ∨ m = .bitRight := by
  unfold checkBits at h
  split_ifs at h <;> simp_all [mem_emit]

/-- the message is none of `checkIntegral`, and comes from the first part of `checkBitwise` -/
theorem mem_checkBitwise_iff {E : Env} {op : Op} {a b : Opnd} {m : Msg}
    (hm : m ≠ .intBoth ∧ m ≠ .intLeft ∧ m ≠ .intRight) :
    m ∈ checkBitwise E op a b ↔ m ∈ (if isShift op then checkShift E a b else checkBits E a b).1 := by
  unfold checkBitwise
  dsimp only
  rw [List.mem_append]
  refine ⟨fun h => h.elim id fun h => ?_, Or.inl⟩
  split_ifs at h <;> first | (cases h; done) | (have := mem_checkIntegral h; tauto)

theorem makeOp_known {E : Env} {op : Op} {a b : Opnd} (hk : a.known = true ∧ b.known = true) :
    makeOp E op a b = match op with
    | .mul | .div | .mulA | .divA => checkNumerics E op a.ty b.ty
    | .add | .sub | .subA | .addA => checkAdd E op a b
    | .shl | .shr | .shlA | .shrA | .band | .bandA | .xor | .bor | .xorA | .borA => checkBitwise E op a b
    | .mod | .modA => checkIntegral E a b
    | .eq | .ne | .lt | .gt => checkReal E op a b ++ checkRelate E op a b
    | .le | .ge => checkRelate E op a b
    | .land | .lor => checkLogic E a b := by
  unfold makeOp
  rw [if_neg (by simp [hk.1, hk.2])]
  cases op <;> rfl

theorem mem_shift {E : Env} {op : Op} {a b : Opnd} {m : Msg} (hk : a.known = true ∧ b.known = true)
    (hm : m = .shiftRight ∨ m = .shiftLeft) :
    m ∈ makeOp E op a b ↔ op ∈ shifts ∧ m ∈ (checkShift E a b).1 := by
  have hi : m ≠ .intBoth ∧ m ≠ .intLeft ∧ m ≠ .intRight := by rcases hm with rfl | rfl <;> simp
  have hb : m ∉ (checkBits E a b).1 := fun h => by
    have := mem_checkBits h; rcases hm with rfl | rfl <;> simp at this
  have hmi : m ∉ checkIntegral E a b := fun h => by
    have := mem_checkIntegral h; rcases hm with rfl | rfl <;> simp at this
  have hn : ∀ s t, m ∉ checkNumerics E op s t := fun s t h => by
    have := mem_checkNumerics h; rcases hm with rfl | rfl <;> simp at this
  have ha : m ∉ checkAdd E op a b := fun h => by
    have := mem_checkAdd h; rcases hm with rfl | rfl <;> simp at this
  have hr : m ∉ checkReal E op a b := fun h => by
    have := mem_checkReal h; rcases hm with rfl | rfl <;> simp at this
  have hl : m ∉ checkRelate E op a b := fun h => by
    have := mem_checkRelate h; rcases hm with rfl | rfl <;> simp at this
  have hg : m ∉ checkLogic E a b := fun h => by
    have := mem_checkLogic h; rcases hm with rfl | rfl <;> simp at this
  rw [makeOp_known hk]
  cases op <;> simp [shifts, hmi, hn, ha, hr, hl, hg, mem_checkBitwise_iff hi, isShift, hb]

theorem mem_bits {E : Env} {op : Op} {a b : Opnd} {m : Msg} (hk : a.known = true ∧ b.known = true)
    (hm : m = .bitLeft ∨ m = .bitRight) :
    m ∈ makeOp E op a b ↔ op ∈ bitwise ∧ m ∈ (checkBits E a b).1 := by
  have hi : m ≠ .intBoth ∧ m ≠ .intLeft ∧ m ≠ .intRight := by rcases hm with rfl | rfl <;> simp
  have hb : m ∉ (checkShift E a b).1 := fun h => by
    have := mem_checkShift h; rcases hm with rfl | rfl <;> simp at this
  have hmi : m ∉ checkIntegral E a b := fun h => by
    have := mem_checkIntegral h; rcases hm with rfl | rfl <;> simp at this
  have hn : ∀ s t, m ∉ checkNumerics E op s t := fun s t h => by
    have := mem_checkNumerics h; rcases hm with rfl | rfl <;> simp at this
  have ha : m ∉ checkAdd E op a b := fun h => by
    have := mem_checkAdd h; rcases hm with rfl | rfl <;> simp at this
  have hr : m ∉ checkReal E op a b := fun h => by
    have := mem_checkReal h; rcases hm with rfl | rfl <;> simp at this
  have hl : m ∉ checkRelate E op a b := fun h => by
    have := mem_checkRelate h; rcases hm with rfl | rfl <;> simp at this
  have hg : m ∉ checkLogic E a b := fun h => by
    have := mem_checkLogic h; rcases hm with rfl | rfl <;> simp at this
  rw [makeOp_known hk]
  cases op <;> simp [bitwise, hmi, hn, ha, hr, hl, hg, mem_checkBitwise_iff hi, isShift, hb]

theorem mem_relate {E : Env} {op : Op} {a b : Opnd} {m : Msg} (hk : a.known = true ∧ b.known = true)
    (hm : m = .opTypes ∨ m = .ptrNum ∨ m = .unsignedZero ∨ m = .boolCompare) :
    m ∈ makeOp E op a b ↔ op ∈ [Op.eq, .ne, .lt, .gt, .le, .ge] ∧ m ∈ checkRelate E op a b := by
  have hb : m ∉ checkBitwise E op a b := fun h => by
    have := mem_checkBitwise h; rcases hm with rfl | rfl | rfl | rfl <;> simp at this
  have hmi : m ∉ checkIntegral E a b := fun h => by
    have := mem_checkIntegral h; rcases hm with rfl | rfl | rfl | rfl <;> simp at this
  have hn : ∀ s t, m ∉ checkNumerics E op s t := fun s t h => by
    have := mem_checkNumerics h; rcases hm with rfl | rfl | rfl | rfl <;> simp at this
  have ha : m ∉ checkAdd E op a b := fun h => by
    have := mem_checkAdd h; rcases hm with rfl | rfl | rfl | rfl <;> simp at this
  have hr : m ∉ checkReal E op a b := fun h => by
    have := mem_checkReal h; rcases hm with rfl | rfl | rfl | rfl <;> simp at this
  have hg : m ∉ checkLogic E a b := fun h => by
    have := mem_checkLogic h; rcases hm with rfl | rfl | rfl | rfl <;> simp at this
  rw [makeOp_known hk]
  cases op <;> simp [hmi, hn, ha, hr, hg, hb]

theorem mem_real {E : Env} {op : Op} {a b : Opnd} {m : Msg} (hk : a.known = true ∧ b.known = true)
    (hm : m = .realEq ∨ m = .realRel) :
    m ∈ makeOp E op a b ↔ op ∈ [Op.eq, .ne, .lt, .gt] ∧ m ∈ checkReal E op a b := by
  have hb : m ∉ checkBitwise E op a b := fun h => by
    have := mem_checkBitwise h; rcases hm with rfl | rfl <;> simp at this
  have hmi : m ∉ checkIntegral E a b := fun h => by
    have := mem_checkIntegral h; rcases hm with rfl | rfl <;> simp at this
  have hn : ∀ s t, m ∉ checkNumerics E op s t := fun s t h => by
    have := mem_checkNumerics h; rcases hm with rfl | rfl <;> simp at this
  have ha : m ∉ checkAdd E op a b := fun h => by
    have := mem_checkAdd h; rcases hm with rfl | rfl <;> simp at this
  have hl : m ∉ checkRelate E op a b := fun h => by
    have := mem_checkRelate h; rcases hm with rfl | rfl <;> simp at this
  have hg : m ∉ checkLogic E a b := fun h => by
    have := mem_checkLogic h; rcases hm with rfl | rfl <;> simp at this
  rw [makeOp_known hk]
  cases op <;> simp [hmi, hn, ha, hl, hg, hb]

theorem mem_add {E : Env} {op : Op} {a b : Opnd} {m : Msg} (hk : a.known = true ∧ b.known = true)
    (hm : m = .ptrArith ∨ m = .nullPtr) :
    m ∈ makeOp E op a b ↔ op ∈ adds ∧ m ∈ checkAdd E op a b := by
  have hb : m ∉ checkBitwise E op a b := fun h => by
    have := mem_checkBitwise h; rcases hm with rfl | rfl <;> simp at this
  have hmi : m ∉ checkIntegral E a b := fun h => by
    have := mem_checkIntegral h; rcases hm with rfl | rfl <;> simp at this
  have hn : ∀ s t, m ∉ checkNumerics E op s t := fun s t h => by
    have := mem_checkNumerics h; rcases hm with rfl | rfl <;> simp at this
  have hr : m ∉ checkReal E op a b := fun h => by
    have := mem_checkReal h; rcases hm with rfl | rfl <;> simp at this
  have hl : m ∉ checkRelate E op a b := fun h => by
    have := mem_checkRelate h; rcases hm with rfl | rfl <;> simp at this
  have hg : m ∉ checkLogic E a b := fun h => by
    have := mem_checkLogic h; rcases hm with rfl | rfl <;> simp at this
  rw [makeOp_known hk]
  cases op <;> simp [adds, hmi, hn, hr, hl, hg, hb]

theorem mem_logic {E : Env} {op : Op} {a b : Opnd} {m : Msg} (hk : a.known = true ∧ b.known = true)
    (hm : m = .boolBoth ∨ m = .boolLeft ∨ m = .boolRight) :
    m ∈ makeOp E op a b ↔ op ∈ [Op.land, .lor] ∧ m ∈ checkLogic E a b := by
  have hb : m ∉ checkBitwise E op a b := fun h => by
    have := mem_checkBitwise h; rcases hm with rfl | rfl | rfl <;> simp at this
  have hmi : m ∉ checkIntegral E a b := fun h => by
    have := mem_checkIntegral h; rcases hm with rfl | rfl | rfl <;> simp at this
  have hn : ∀ s t, m ∉ checkNumerics E op s t := fun s t h => by
    have := mem_checkNumerics h; rcases hm with rfl | rfl | rfl <;> simp at this
  have ha : m ∉ checkAdd E op a b := fun h => by
    have := mem_checkAdd h; rcases hm with rfl | rfl | rfl <;> simp at this
  have hr : m ∉ checkReal E op a b := fun h => by
    have := mem_checkReal h; rcases hm with rfl | rfl | rfl <;> simp at this
  have hl : m ∉ checkRelate E op a b := fun h => by
    have := mem_checkRelate h; rcases hm with rfl | rfl | rfl <;> simp at this
  rw [makeOp_known hk]
  cases op <;> simp [hmi, hn, hr, hl, ha, hb]

end Splint.OpCheck
