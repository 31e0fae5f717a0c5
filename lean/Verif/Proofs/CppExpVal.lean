import Verif.Proofs.CppExp
namespace Splint.CppExp
open CExp

/-- The values of a type. -/
def InRange : Bool → Int → Prop
  | true, v => 0 ≤ v ∧ v < 2 ^ 64
  | false, v => -2 ^ 63 ≤ v ∧ v < 2 ^ 63

theorem toLong_emod (x : Int) : toLong x % 2 ^ 64 = x % 2 ^ 64 := by
  simp only [toLong, Int.bmod]; norm_num; split <;> omega

theorem toLong_congr {x y : Int} (h : x % 2 ^ 64 = y % 2 ^ 64) : toLong x = toLong y := by
  simp only [toLong, Int.bmod]; norm_num at *; rw [h]

theorem toLong_inj {x y : Int} : toLong x = toLong y ↔ x % 2 ^ 64 = y % 2 ^ 64 :=
  ⟨fun h => by rw [← toLong_emod, h, toLong_emod], toLong_congr⟩

theorem toLong_self {x : Int} (h : InRange false x) : toLong x = x := by
  simp only [InRange] at h
  simp only [toLong, Int.bmod]; norm_num at *; split <;> omega

theorem toLong_range (x : Int) : InRange false (toLong x) := by
  simp only [InRange, toLong, Int.bmod]; norm_num; split <;> omega

theorem toULong_toLong (x : Int) : toULong (toLong x) = x % 2 ^ 64 := toLong_emod x

theorem toLong_zero {x : Int} : toLong x = 0 ↔ x % 2 ^ 64 = 0 := by
  have h0 : toLong 0 = 0 := rfl
  constructor
  · intro h; have := toLong_inj.1 (h.trans h0.symm); simpa using this
  · intro h; rw [← h0]; exact toLong_congr (by rw [h]; rfl)

theorem toLong_eq_zero {u : Bool} {x : Int} (h : InRange u x) : toLong x = 0 ↔ x = 0 := by
  rw [toLong_zero]
  cases u <;> simp only [InRange] at h <;> norm_num at h <;> omega

theorem emod_range (x : Int) : InRange true (x % 2 ^ 64) := by
  simp only [InRange]; norm_num; omega

theorem emod_self {x : Int} (h : InRange true x) : x % 2 ^ 64 = x := by
  simp only [InRange] at h; norm_num at h ⊢; omega

theorem fit_range {u : Bool} {x r : Int} (h : fit u x = some r) :
    InRange u r ∧ toLong r = toLong x ∧ (u = false → r = x) := by
  unfold fit at h
  cases u with
  | true =>
    simp only [if_true, Option.some.injEq] at h
    subst h
    exact ⟨emod_range x, toLong_congr (Int.emod_emod_of_dvd _ (dvd_refl _)), by simp⟩
  | false =>
    simp only [Bool.false_eq_true, if_false] at h
    split at h
    · rename_i hr
      simp only [Option.some.injEq] at h
      subst h
      exact ⟨hr, rfl, fun _ => rfl⟩
    · simp at h

theorem conv_false (v : Int) : conv false v = v := rfl
theorem conv_true (v : Int) : conv true v = v % 2 ^ 64 := rfl

theorem toLong_conv (u : Bool) (v : Int) : toLong (conv u v) = toLong v := by
  cases u
  · rfl
  · exact toLong_congr (Int.emod_emod_of_dvd _ (dvd_refl _))

theorem or_false_range {ua ub : Bool} (h : (ua || ub) = false) : ua = false ∧ ub = false := by
  cases ua <;> cases ub <;> simp_all

theorem conv_range {ua ub : Bool} {a : Int} (ha : InRange ua a) (hu : ub = false → ua = false) :
    InRange ub (conv ub a) := by
  cases ub with
  | true => exact emod_range a
  | false => rw [hu rfl] at ha; exact ha

theorem truth_range {b : Bool} {r : Int} (h : truth b = some r) :
    InRange false r ∧ toLong r = if b then 1 else 0 := by
  simp only [truth, Option.some.injEq] at h
  subst h
  cases b <;> exact ⟨by simp [InRange], rfl⟩

/-- The type of the result of an operator. -/
def resultType (o : Op) (u : Bool) : Bool :=
  match o with
  | .lt | .gt | .le | .ge | .eq | .ne => false
  | _ => u

theorem ofInt_toLong (a : Int) : BitVec.ofInt 64 (toLong a) = BitVec.ofInt 64 a := by
  apply BitVec.eq_of_toNat_eq
  rw [BitVec.toNat_ofInt, BitVec.toNat_ofInt]
  have := toLong_emod a
  norm_num at this ⊢
  rw [this]

theorem bits_toLong (f : BitVec 64 → BitVec 64 → BitVec 64) (a b : Int) :
    bits f (toLong a) (toLong b) = bits f a b := by
  simp only [bits, ofInt_toLong]

theorem bitwise_spec (f : BitVec 64 → BitVec 64 → BitVec 64) (u : Bool) (a b r : Int)
    (h : bitwise u f a b = some r) : InRange u r ∧ toLong r = bits f a b := by
  simp only [bitwise, Option.some.injEq] at h
  subst h
  cases u with
  | true =>
    simp only [if_true]
    refine ⟨⟨by omega, ?_⟩, ?_⟩
    · have := (f (BitVec.ofInt 64 a) (BitVec.ofInt 64 b)).isLt
      norm_num at this ⊢; omega
    · simp only [bits, BitVec.toInt_eq_toNat_bmod, toLong]
  | false =>
    simp only [Bool.false_eq_true, if_false]
    have hr : InRange false (f (BitVec.ofInt 64 a) (BitVec.ofInt 64 b)).toInt := by
      rw [BitVec.toInt_eq_toNat_bmod]; exact toLong_range _
    exact ⟨hr, toLong_self hr⟩

theorem bits_conv (f : BitVec 64 → BitVec 64 → BitVec 64) (u : Bool) (a b : Int) :
    bits f (conv u a) (conv u b) = bits f a b := by
  rw [← bits_toLong, toLong_conv, toLong_conv, bits_toLong]

theorem compare_spec (f : Int → Int → Bool) (ua ub : Bool) (a b r : Int) (ha : InRange ua a)
    (hb : InRange ub b) (h : truth (f (conv (ua || ub) a) (conv (ua || ub) b)) = some r) :
    compareVals f (toLong a, ua) (toLong b, ub) = (toLong r, false) ∧ InRange false r := by
  obtain ⟨h1, h2⟩ := truth_range h
  refine ⟨?_, h1⟩
  have hf : (if ua || ub then f (toULong (toLong a)) (toULong (toLong b)) else f (toLong a) (toLong b)) =
      f (conv (ua || ub) a) (conv (ua || ub) b) := by
    cases hu : ua || ub with
    | true => rw [toULong_toLong, toULong_toLong]; rfl
    | false =>
      obtain ⟨rfl, rfl⟩ := or_false_range hu
      rw [toLong_self ha, toLong_self hb]; rfl
  have hc : compareVals f (toLong a, ua) (toLong b, ub) =
    (if (if ua || ub then f (toULong (toLong a)) (toULong (toLong b)) else f (toLong a) (toLong b)) = true
      then 1 else 0, false) := by
    unfold compareVals
    cases ua || ub <;> simp
  rw [hc, hf, h2]

theorem binary_apply (o : Op) (ua ub : Bool) (a b r : Int) (ha : InRange ua a) (hb : InRange ub b)
    (h : apply o (ua || ub) (conv (ua || ub) a) (conv (ua || ub) b) = some r) :
    binary false o (toLong a, ua) (toLong b, ub) = some ((toLong r, resultType o (ua || ub)), 0) ∧
      InRange (resultType o (ua || ub)) r := by
  have hac := toLong_conv (ua || ub) a
  have hbc := toLong_conv (ua || ub) b
  cases o <;> simp only [apply] at h <;> try (simp at h; done)
  case plus =>
    obtain ⟨h1, h2, _⟩ := fit_range h
    refine ⟨?_, h1⟩
    simp only [binary, resultType, h2]
    congr 3
    rw [toLong_inj] at *
    rw [Int.add_emod, toLong_emod, toLong_emod, ← hac, ← hbc, ← Int.add_emod]
  case minus =>
    obtain ⟨h1, h2, _⟩ := fit_range h
    refine ⟨?_, h1⟩
    simp only [binary, resultType, h2]
    congr 3
    rw [toLong_inj] at *
    rw [Int.sub_emod, toLong_emod, toLong_emod, ← hac, ← hbc, ← Int.sub_emod]
  case mul =>
    obtain ⟨h1, h2, h3⟩ := fit_range h
    refine ⟨?_, h1⟩
    have hm : toLong (toLong a * toLong b) = toLong r := by
      rw [h2]
      rw [toLong_inj] at *
      rw [Int.mul_emod, toLong_emod, toLong_emod, ← hac, ← hbc, ← Int.mul_emod]
    simp only [binary, resultType]
    cases hu : ua || ub with
    | true => simp [hm]
    | false =>
      obtain ⟨rfl, rfl⟩ := or_false_range hu
      simp only [Bool.or_self, conv_false, resultType] at h1 h3
      have h3 := h3 trivial
      simp only [Bool.false_eq_true, if_false, hm]
      rw [if_neg]
      rw [toLong_self h1, toLong_self ha]
      rintro ⟨rfl, h4⟩
      simp only [InRange, minLong] at hb h4
      omega
  case div =>
    split at h
    · simp at h
    rename_i hb0
    obtain ⟨h1, h2, h3⟩ := fit_range h
    refine ⟨?_, h1⟩
    simp only [binary, resultType, Bool.false_eq_true, if_false]
    cases hu : ua || ub with
    | true =>
      simp only [hu, conv_true] at h2 hb0
      have hb1 : toLong b ≠ 0 := by rw [Ne, toLong_zero]; exact hb0
      simp only [hb1, if_false, if_true, toULong_toLong]
      rw [Int.tdiv_eq_ediv_of_nonneg (emod_range a).1] at h2
      rw [h2]
    | false =>
      obtain ⟨rfl, rfl⟩ := or_false_range hu
      simp only [Bool.or_self, conv_false] at *
      have h3 := h3 trivial
      rw [toLong_self ha, toLong_self hb, toLong_self h1]
      simp only [hb0, if_false, Bool.false_eq_true]
      rw [if_neg, h3]
      rintro ⟨rfl, rfl⟩
      simp [h3, InRange, minLong, resultType] at h1
  case mod =>
    split at h
    · simp at h
    rename_i hb0
    split at h
    swap
    · simp at h
    rename_i hq
    obtain ⟨h1, h2, h3⟩ := fit_range h
    refine ⟨?_, h1⟩
    simp only [binary, resultType, Bool.false_eq_true, if_false]
    cases hu : ua || ub with
    | true =>
      simp only [hu, conv_true] at h2 hb0
      have hb1 : toLong b ≠ 0 := by rw [Ne, toLong_zero]; exact hb0
      simp only [hb1, if_false, if_true, toULong_toLong]
      rw [Int.tmod_eq_emod_of_nonneg (emod_range a).1] at h2
      rw [h2]
    | false =>
      obtain ⟨rfl, rfl⟩ := or_false_range hu
      simp only [Bool.or_self, conv_false] at *
      have h3 := h3 trivial
      rw [toLong_self ha, toLong_self hb, toLong_self h1]
      simp only [hb0, if_false, Bool.false_eq_true]
      rw [if_neg, h3]
      rintro ⟨rfl, rfl⟩
      simp [fit, minLong] at hq
  case lt => simpa [binary, resultType] using compare_spec (fun a b => decide (a < b)) ua ub a b r ha hb h
  case gt => simpa [binary, resultType] using compare_spec (fun a b => decide (b < a)) ua ub a b r ha hb h
  case le => simpa [binary, resultType] using compare_spec (fun a b => decide (a ≤ b)) ua ub a b r ha hb h
  case ge => simpa [binary, resultType] using compare_spec (fun a b => decide (b ≤ a)) ua ub a b r ha hb h
  case eq =>
    obtain ⟨h1, h2⟩ := truth_range h
    refine ⟨?_, h1⟩
    simp only [binary, resultType, h2, decide_eq_true_eq]
    have : (toLong a = toLong b) ↔ conv (ua || ub) a = conv (ua || ub) b := by
      cases hu : ua || ub with
      | true => rw [toLong_inj, conv_true, conv_true]
      | false =>
        obtain ⟨rfl, rfl⟩ := or_false_range hu
        rw [toLong_self ha, toLong_self hb, conv_false, conv_false]
    simp only [this]
  case ne =>
    obtain ⟨h1, h2⟩ := truth_range h
    refine ⟨?_, h1⟩
    simp only [binary, resultType, h2, decide_eq_true_eq, ne_eq]
    have : (toLong a = toLong b) ↔ conv (ua || ub) a = conv (ua || ub) b := by
      cases hu : ua || ub with
      | true => rw [toLong_inj, conv_true, conv_true]
      | false =>
        obtain ⟨rfl, rfl⟩ := or_false_range hu
        rw [toLong_self ha, toLong_self hb, conv_false, conv_false]
    simp only [this]
  case and =>
    obtain ⟨h1, h2⟩ := bitwise_spec _ _ _ _ _ h
    exact ⟨by rw [h2, bits_conv]; simp [binary, resultType, bits_toLong], h1⟩
  case xor =>
    obtain ⟨h1, h2⟩ := bitwise_spec _ _ _ _ _ h
    exact ⟨by rw [h2, bits_conv]; simp [binary, resultType, bits_toLong], h1⟩
  case or =>
    obtain ⟨h1, h2⟩ := bitwise_spec _ _ _ _ _ h
    exact ⟨by rw [h2, bits_conv]; simp [binary, resultType, bits_toLong], h1⟩

theorem binary_shift (o : Op) (ho : o = .lsh ∨ o = .rsh) (ua ub : Bool) (a b r : Int) (ha : InRange ua a)
    (hb : InRange ub b) (h : shift 32 o ua a b = some r) :
    binary false o (toLong a, ua) (toLong b, ub) = some ((toLong r, ua), 0) ∧ InRange ua r := by
  unfold shift at h
  split at h
  · simp at h
  rename_i hb0
  have hb1 : toLong b = b := toLong_self (by simp only [InRange]; omega)
  have hb2 : toULong b = b := by simp only [toULong]; norm_num; omega
  have hc : ¬ (b < 0 ∧ ub = false) := by rintro ⟨h, _⟩; omega
  rcases ho with rfl | rfl
  · have h' : fit ua (a * 2 ^ b.toNat) = some r := by
      revert h
      cases ua <;> simp
    obtain ⟨h1, h2, _⟩ := fit_range h'
    refine ⟨?_, h1⟩
    simp only [binary, hb1, hb2, hc, Bool.false_eq_true, if_false, leftShift]
    rw [if_neg (by omega), h2]
    congr 3
    rw [toLong_inj, Int.mul_emod, toLong_emod, ← Int.mul_emod]
  · simp only [Option.some.injEq] at h
    subst h
    have hp : (0 : Int) < 2 ^ b.toNat := Int.pow_pos (by decide)
    have hq : ∀ x : Int, 0 ≤ x → 0 ≤ x / 2 ^ b.toNat ∧ x / 2 ^ b.toNat ≤ x := fun x hx =>
      ⟨Int.ediv_nonneg hx hp.le, Int.ediv_le_self _ hx⟩
    simp only [binary, hb1, hb2, hc, Bool.false_eq_true, if_false, rightShift]
    rw [if_neg (by omega)]
    cases ua with
    | true =>
      have ha' := ha
      simp only [InRange] at ha
      refine ⟨?_, ?_⟩
      · rw [toULong_toLong, emod_self ha']; rfl
      · have := hq a ha.1; exact ⟨this.1, by omega⟩
    | false =>
      have hr : InRange false (a / 2 ^ b.toNat) := by
        have ha' := ha
        simp only [InRange] at ha ⊢
        by_cases h0 : 0 ≤ a
        · have := hq a h0; omega
        · have h1 : a ≤ a / 2 ^ b.toNat := by
            rw [Int.le_ediv_iff_mul_le hp]; nlinarith
          have h2 : a / 2 ^ b.toNat < 0 := Int.ediv_neg_of_neg_of_pos (by omega) hp
          omega
      refine ⟨?_, hr⟩
      simp [toLong_self ha, toLong_self hr]

theorem unary_minus (u : Bool) (v r : Int) (h : fit u (-v) = some r) :
    unary .minus (toLong v, u) = (toLong r, u) ∧ InRange u r := by
  obtain ⟨h1, h2, _⟩ := fit_range h
  refine ⟨?_, h1⟩
  simp only [unary, h2]
  congr 1
  rw [toLong_inj, Int.neg_emod_eq_sub_emod, ]
  have := toLong_emod v
  norm_num at this ⊢; omega

theorem unary_compl (u : Bool) (v r : Int) (h : fit u (-v - 1) = some r) :
    unary .compl (toLong v, u) = (toLong r, u) ∧ InRange u r := by
  obtain ⟨h1, h2, _⟩ := fit_range h
  refine ⟨?_, h1⟩
  simp only [unary, h2]
  congr 1
  have h3 : InRange false (-toLong v - 1) := by
    have := toLong_range v
    simp only [InRange] at this ⊢
    omega
  rw [← toLong_self h3, toLong_inj]
  have := toLong_emod v
  norm_num at this ⊢; omega

end Splint.CppExp
