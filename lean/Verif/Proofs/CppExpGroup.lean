import Verif.Proofs.CppExpEval
namespace Splint.CppExp
open CExp

/-- The two forms of a product. -/
theorem product_cases (o : Op) (a b : CExp) :
    (∃ s x, a = un s x ∧ o.isProduct = true ∧ s.isSign = true ∧ product o a b = un s (bin o x b)) ∨
    product o a b = bin o a b := by
  cases a with
  | un s x =>
    simp only [product]
    split
    · rename_i h
      simp only [Bool.and_eq_true] at h
      exact Or.inl ⟨s, x, rfl, h.1, h.2, rfl⟩
    · exact Or.inr rfl
  | _ => exact Or.inr rfl

theorem product_tokens (o : Op) (a b : CExp) : (product o a b).tokens = (bin o a b).tokens := by
  rcases product_cases o a b with ⟨s, x, rfl, _, _, h⟩ | h <;> rw [h]
  simp [tokens]

theorem product_inType (o : Op) (a b : CExp) : (product o a b).inType = (bin o a b).inType := by
  rcases product_cases o a b with ⟨s, x, rfl, _, _, h⟩ | h <;> rw [h]
  simp only [inType]
  cases s.isUnary <;> cases o.isBinary <;> simp

theorem product_unsigned (o : Op) (a b : CExp) : (product o a b).isUnsigned = (bin o a b).isUnsigned := by
  rcases product_cases o a b with ⟨s, x, rfl, h1, h2, h⟩ | h <;> rw [h]
  cases o <;> simp [Op.isProduct] at h1 <;> cases s <;> simp [Op.isSign] at h2 <;> rfl

theorem product_plainTypes (q : Bool) (o : Op) (a b : CExp) :
    (product o a b).plainTypes q = (bin o a b).plainTypes q := by
  rcases product_cases o a b with ⟨s, x, rfl, h1, h2, h⟩ | h <;> rw [h]
  cases o <;> simp [Op.isProduct] at h1 <;> cases s <;> simp [Op.isSign] at h2 <;> rfl

theorem regroup_tokens (e : CExp) : e.regroup.tokens = e.tokens := by
  induction e with
  | lit => rfl
  | paren e ih => simp [regroup, tokens, ih]
  | un o e ih => simp [regroup, tokens, ih]
  | bin o a b iha ihb => rw [regroup, product_tokens]; simp [tokens, iha, ihb]
  | cond c a b ihc iha ihb => simp [regroup, tokens, ihc, iha, ihb]

theorem regroup_inType (e : CExp) : e.regroup.inType = e.inType := by
  induction e with
  | lit => rfl
  | paren e ih => simp [regroup, inType, ih]
  | un o e ih => simp [regroup, inType, ih]
  | bin o a b iha ihb => rw [regroup, product_inType]; simp [inType, iha, ihb]
  | cond c a b ihc iha ihb => simp [regroup, inType, ihc, iha, ihb]

theorem regroup_unsigned (e : CExp) : e.regroup.isUnsigned = e.isUnsigned := by
  induction e with
  | lit => rfl
  | paren e ih => simp [regroup, isUnsigned, ih]
  | un o e ih => cases o <;> simp [regroup, isUnsigned, ih]
  | bin o a b iha ihb => rw [regroup, product_unsigned]; cases o <;> simp [isUnsigned, iha, ihb]
  | cond c a b ihc iha ihb => simp [regroup, isUnsigned, iha, ihb]

theorem regroup_plainTypes (e : CExp) : ∀ q, e.regroup.plainTypes q = e.plainTypes q := by
  induction e with
  | lit => intro q; rfl
  | paren e ih => intro q; simp [regroup, plainTypes, ih]
  | un o e ih => intro q; cases o <;> simp [regroup, plainTypes, ih]
  | bin o a b iha ihb =>
    intro q
    rw [regroup, product_plainTypes]
    cases o <;> simp [plainTypes, iha, ihb, regroup_unsigned]
  | cond c a b ihc iha ihb => intro q; simp [regroup, plainTypes, ihc, iha, ihb]

theorem inGrammar_inType (e : CExp) (h : e.inGrammar = true) : e.inType = true := by
  induction e with
  | lit => exact h
  | paren e ih => exact ih h
  | un o e ih => simp only [inGrammar, Bool.and_eq_true] at h; simp [inType, h.1.1, ih h.1.2]
  | bin o a b iha ihb =>
    simp only [inGrammar, Bool.and_eq_true] at h; simp [inType, h.1.1.1.1, iha h.1.1.1.2, ihb h.1.1.2]
  | cond c a b ihc iha ihb =>
    simp only [inGrammar, Bool.and_eq_true] at h
    simp [inType, ihc h.1.1.1.1, iha h.1.1.1.2, ihb h.1.1.2]

/-- The value of an operator depends on the values of the operands. -/
theorem bin_agree (w : Int) (o : Op) (a b a' b' : CExp) (hua : a'.isUnsigned = a.isUnsigned)
    (hub : b'.isUnsigned = b.isUnsigned)
    (ha : ∀ v v', a.evalW w = some v → a'.evalW w = some v' → v' = v)
    (hb : ∀ v v', b.evalW w = some v → b'.evalW w = some v' → v' = v)
    (v v' : Int) (h : (bin o a b).evalW w = some v) (h' : (bin o a' b').evalW w = some v') : v' = v := by
  cases hx : a.evalW w with
  | none => simp only [evalW, hx] at h; cases o <;> simp at h
  | some x =>
    cases hx' : a'.evalW w with
    | none => simp only [evalW, hx'] at h'; cases o <;> simp at h'
    | some x' =>
      have hxx := ha x x' hx hx'
      subst hxx
      cases hy : b.evalW w with
      | none =>
        simp only [evalW, hx, hx', hy, Option.bind_some, Option.bind_none] at h h'
        cases o <;> simp at h
        · obtain ⟨h1, h2⟩ := h; simp [h1] at h'; omega
        · obtain ⟨h1, h2⟩ := h; simp [h1] at h'; omega
      | some y =>
        cases hy' : b'.evalW w with
        | none =>
          simp only [evalW, hx, hx', hy', Option.bind_some, Option.bind_none] at h h'
          cases o <;> simp at h'
          · obtain ⟨h1, h2⟩ := h'; simp [h1] at h; omega
          · obtain ⟨h1, h2⟩ := h'; simp [h1] at h; omega
        | some y' =>
          have hyy := hb y y' hy hy'
          subst hyy
          have : (bin o a' b').evalW w = (bin o a b).evalW w := by
            simp only [evalW, hx, hx', hy, hy', hua, hub]
          rw [this, h, Option.some.injEq] at h'
          exact h'.symm

/-- A sign in front of a product. -/
theorem sign_product (o : Op) (ho : o.isProduct = true) (ua ub : Bool) (va va' vb v vx : Int)
    (hs : o ≠ .mul → (ua || ub) = false)
    (ha : fit ua (-va') = some va)
    (h : apply o (ua || ub) (conv (ua || ub) va) (conv (ua || ub) vb) = some v)
    (h' : apply o (ua || ub) (conv (ua || ub) va') (conv (ua || ub) vb) = some vx) :
    fit (ua || ub) (-vx) = some v := by
  cases hu : ua || ub with
  | false =>
    obtain ⟨rfl, rfl⟩ := or_false_range hu
    simp only [Bool.or_self, conv_false] at h h'
    obtain ⟨_, _, h3⟩ := fit_range ha
    have h3 := h3 rfl
    subst h3
    cases o <;> simp only [Op.isProduct, Bool.false_eq_true] at ho
    case mul =>
      simp only [apply] at h h'
      obtain ⟨h4, _, h5⟩ := fit_range h
      obtain ⟨_, _, h6⟩ := fit_range h'
      rw [h6 rfl, ← Int.neg_mul]
      exact h
    case div =>
      simp only [apply] at h h'
      split at h
      · simp at h
      rename_i h0
      rw [if_neg h0] at h'
      obtain ⟨_, _, h6⟩ := fit_range h'
      rw [h6 rfl, ← Int.neg_tdiv]
      exact h
    case mod =>
      simp only [apply] at h h'
      split at h
      · simp at h
      rename_i h0
      rw [if_neg h0] at h'
      split at h
      swap
      · simp at h
      split at h'
      swap
      · simp at h'
      obtain ⟨_, _, h6⟩ := fit_range h'
      rw [h6 rfl, ← Int.neg_tmod]
      exact h
  | true =>
    have ho' : o = .mul := by
      by_contra hne
      rw [hs hne] at hu
      simp at hu
    subst ho'
    rw [hu] at h h'
    simp only [apply, fit, if_true, Option.some.injEq, conv_true] at h h' ⊢
    subst h h'
    have h1 : va % 2 ^ 64 = (-va') % 2 ^ 64 := by
      have := (fit_range ha).2.1
      exact toLong_inj.1 this
    have e1 : va % 2 ^ 64 * (vb % 2 ^ 64) % 2 ^ 64 = va * vb % 2 ^ 64 := (Int.mul_emod va vb _).symm
    have e2 : va' % 2 ^ 64 * (vb % 2 ^ 64) % 2 ^ 64 = va' * vb % 2 ^ 64 := (Int.mul_emod va' vb _).symm
    rw [e1, e2, Int.mul_emod va vb, h1, ← Int.mul_emod, Int.neg_mul]
    generalize va' * vb = z
    norm_num
    omega

theorem isProduct_cases {o : Op} (h : o.isProduct = true) (hne : o ≠ .mul) : o = .div ∨ o = .mod := by
  cases o <;> simp_all [Op.isProduct]

theorem evalW_product (w : Int) {o : Op} (h : o.isProduct = true) (c d : CExp) :
    (bin o c d).evalW w = (c.evalW w).bind fun x => (d.evalW w).bind fun y =>
      apply o (c.isUnsigned || d.isUnsigned) (conv (c.isUnsigned || d.isUnsigned) x)
        (conv (c.isUnsigned || d.isUnsigned) y) := by
  cases o <;> first | rfl | cases h

theorem unsigned_product {o : Op} (h : o.isProduct = true) (c d : CExp) :
    (bin o c d).isUnsigned = (c.isUnsigned || d.isUnsigned) := by
  cases o <;> first | rfl | cases h

/-- What regrouping keeps. -/
theorem regroup_agree (w : Int) : ∀ (e : CExp), e.inType = true → e.signedQuotients = true → ∀ v, e.evalW w = some v →
    (∀ v', e.regroup.evalW w = some v' → v' = v) ∧
    (∀ s x vx, e.regroup = un s x → x.evalW w = some vx →
      (s = .minus → fit e.isUnsigned (-vx) = some v) ∧ (s = .plus → vx = v)) := by
  intro e
  induction e with
  | lit n u =>
    intro _ _ v hv
    refine ⟨fun v' h => ?_, fun s x vx h => by simp [regroup] at h⟩
    have h : (lit n u).evalW w = some v' := h
    rw [hv, Option.some.injEq] at h; exact h.symm
  | paren e ih =>
    intro ht hs v hv
    exact ⟨fun v' h => (ih ht hs v hv).1 v' h, fun s x vx h => by simp [regroup] at h⟩
  | un o e ih =>
    intro ht hs v hv
    simp only [inType, Bool.and_eq_true] at ht
    simp only [evalW] at hv
    cases h0 : e.evalW w with
    | none => rw [h0] at hv; simp at hv
    | some v0 =>
      rw [h0] at hv
      have ih := (ih ht.2 hs v0 h0).1
      refine ⟨fun v' h => ?_, fun s x vx h hx => ?_⟩
      · simp only [regroup, evalW] at h
        cases h1 : e.regroup.evalW w with
        | none => rw [h1] at h; simp at h
        | some v1 =>
          have := ih v1 h1
          subst this
          rw [h1, regroup_unsigned] at h
          simp only [Option.bind_some] at h hv
          rw [hv, Option.some.injEq] at h; exact h.symm
      · simp only [regroup, un.injEq] at h
        obtain ⟨rfl, rfl⟩ := h
        have := ih vx hx
        subst this
        simp only [Option.bind_some] at hv
        constructor
        · rintro rfl; exact hv
        · rintro rfl; simpa using hv
  | bin o a b iha ihb =>
    intro ht hs v hv
    simp only [inType, Bool.and_eq_true] at ht
    simp only [signedQuotients, Bool.and_eq_true] at hs
    obtain ⟨⟨hsa, hsb⟩, hsq⟩ := hs
    have hB : ∀ y y', b.evalW w = some y → b.regroup.evalW w = some y' → y' = y :=
      fun y y' h h' => (ihb ht.2 hsb y h).1 y' h'
    have hA : ∀ y y', a.evalW w = some y → a.regroup.evalW w = some y' → y' = y :=
      fun y y' h h' => (iha ht.1.2 hsa y h).1 y' h'
    rcases product_cases o a.regroup b.regroup with ⟨s, x, hx, h1, h2, h⟩ | h
    · have hreg : (bin o a b).regroup = un s (bin o x b.regroup) := h
      have hux : x.isUnsigned = a.isUnsigned := by
        have := regroup_unsigned a
        rw [hx] at this
        rw [← this]
        cases s <;> simp [Op.isSign] at h2 <;> rfl
      have hub := regroup_unsigned b
      have hev : ∀ c d : CExp, (bin o c d).evalW w = (c.evalW w).bind fun x => (d.evalW w).bind fun y =>
          apply o (c.isUnsigned || d.isUnsigned) (conv (c.isUnsigned || d.isUnsigned) x)
            (conv (c.isUnsigned || d.isUnsigned) y) := by
        intro c d
        exact evalW_product w h1 c d
      have hty : (bin o a b).isUnsigned = (a.isUnsigned || b.isUnsigned) := unsigned_product h1 a b
      have hsq' : s.isSign = true → o ≠ .mul → (a.isUnsigned || b.isUnsigned) = false := by
        intro _ hne
        rw [hx] at hsq
        have := isProduct_cases h1 hne
        simpa [this, h2] using hsq
      have hBB : ∀ vx, (bin o x b.regroup).evalW w = some vx →
          (s = .minus → fit (bin o a b).isUnsigned (-vx) = some v) ∧ (s = .plus → vx = v) := by
        intro vx hvx
        rw [hev] at hv hvx
        cases hva : a.evalW w with
        | none => rw [hva] at hv; simp at hv
        | some va =>
        cases hvb : b.evalW w with
        | none => rw [hva, hvb] at hv; simp at hv
        | some vb =>
        cases hva' : x.evalW w with
        | none => rw [hva'] at hvx; simp at hvx
        | some va' =>
        cases hvb' : b.regroup.evalW w with
        | none => rw [hva', hvb'] at hvx; simp at hvx
        | some vb' =>
        have := hB vb vb' hvb hvb'
        subst this
        rw [hva, hvb] at hv
        rw [hva', hvb', hux, hub] at hvx
        simp only [Option.bind_some] at hv hvx
        obtain ⟨h3, h4⟩ := (iha ht.1.2 hsa va hva).2 s x va' hx hva'
        constructor
        · intro hm
          rw [hty]
          exact sign_product o h1 _ _ va va' vb' v vx (hsq' h2) (h3 hm) hv hvx
        · intro hp
          have := h4 hp
          subst this
          rw [hv, Option.some.injEq] at hvx; exact hvx.symm
      refine ⟨fun v' hv' => ?_, fun s' x' vx h' hvx => ?_⟩
      · rw [hreg] at hv'
        simp only [evalW] at hv'
        cases hvx : (bin o x b.regroup).evalW w with
        | none => simp only [evalW] at hvx; rw [hvx] at hv'; simp at hv'
        | some vx =>
          obtain ⟨h3, h4⟩ := hBB vx hvx
          have hv2 : (un s (bin o x b.regroup)).evalW w = some v' := hv'
          have hty' : (bin o x b.regroup).isUnsigned = (bin o a b).isUnsigned := by
            rw [unsigned_product h1, unsigned_product h1, hux, hub]
          cases s <;> simp [Op.isSign] at h2
          · simp only [evalW] at hv2 hvx
            rw [hvx] at hv2
            simp only [Option.bind_some, Option.some.injEq] at hv2
            rw [← hv2]; exact h4 rfl
          · have h3 := h3 rfl
            rw [← hty'] at h3
            simp only [evalW] at hv2 hvx
            rw [hvx] at hv2
            simp only [Option.bind_some] at hv2
            rw [h3, Option.some.injEq] at hv2
            exact hv2.symm
      · rw [hreg] at h'
        simp only [un.injEq] at h'
        obtain ⟨rfl, rfl⟩ := h'
        exact hBB vx hvx
    · have hreg : (bin o a b).regroup = bin o a.regroup b.regroup := h
      refine ⟨fun v' hv' => ?_, fun s x vx h' => by rw [hreg] at h'; simp at h'⟩
      rw [hreg] at hv'
      exact bin_agree w o a b _ _ (regroup_unsigned a) (regroup_unsigned b) hA hB v v' hv hv'
  | cond c a b ihc iha ihb =>
    intro ht hs v hv
    simp only [inType, Bool.and_eq_true] at ht
    simp only [signedQuotients, Bool.and_eq_true] at hs
    refine ⟨fun v' hv' => ?_, fun s x vx h' => by simp [regroup] at h'⟩
    simp only [regroup, evalW, regroup_unsigned] at hv hv'
    cases hx : c.evalW w with
    | none => rw [hx] at hv; simp at hv
    | some x =>
      cases hx' : c.regroup.evalW w with
      | none => rw [hx'] at hv'; simp at hv'
      | some x' =>
        have := (ihc ht.1.1 hs.1.1 x hx).1 x' hx'
        subst this
        rw [hx] at hv
        rw [hx'] at hv'
        simp only [Option.bind_some] at hv hv'
        by_cases h0 : x' = 0
        · rw [if_neg (by simpa using h0)] at hv hv'
          cases hy : b.evalW w with
          | none => rw [hy] at hv; simp at hv
          | some y =>
            cases hy' : b.regroup.evalW w with
            | none => rw [hy'] at hv'; simp at hv'
            | some y' =>
              have := (ihb ht.2 hs.2 y hy).1 y' hy'
              subst this
              rw [hy] at hv
              rw [hy', hv, Option.some.injEq] at hv'; exact hv'.symm
        · rw [if_pos h0] at hv hv'
          cases hy : a.evalW w with
          | none => rw [hy] at hv; simp at hv
          | some y =>
            cases hy' : a.regroup.evalW w with
            | none => rw [hy'] at hv'; simp at hv'
            | some y' =>
              have := (iha ht.1.2 hs.1.2 y hy).1 y' hy'
              subst this
              rw [hy] at hv
              rw [hy', hv, Option.some.injEq] at hv'; exact hv'.symm

/-- Larger shift counts only define more. -/
theorem evalW_mono : ∀ (e : CExp) (v : Int), e.evalW 32 = some v → e.evalW 64 = some v := by
  intro e
  induction e with
  | lit n u => intro v h; exact h
  | paren e ih => exact ih
  | un o e ih =>
    intro v h
    simp only [evalW] at h ⊢
    cases hx : e.evalW 32 with
    | none => rw [hx] at h; simp at h
    | some x => rw [hx] at h; rw [ih x hx]; exact h
  | bin o a b iha ihb =>
    intro v h
    cases hx : a.evalW 32 with
    | none => simp only [evalW, hx] at h; cases o <;> simp at h
    | some x =>
      cases hy : b.evalW 32 with
      | none =>
        simp only [evalW, hx, hy, iha x hx, Option.bind_some, Option.bind_none] at h ⊢
        cases o <;> simp at h
        · obtain ⟨h1, h2⟩ := h; simp [h1, h2]
        · obtain ⟨h1, h2⟩ := h; simp [h1, h2]
      | some y =>
        simp only [evalW, hx, hy, iha x hx, ihb y hy, Option.bind_some] at h ⊢
        have hs : ∀ o u, shift 32 o u x y = some v → shift 64 o u x y = some v := by
          intro o u h
          unfold shift at h ⊢
          split at h
          · simp at h
          · rw [if_neg (by omega)]; exact h
        cases o <;> first | exact h | exact hs _ _ h
  | cond c a b ihc iha ihb =>
    intro v h
    simp only [evalW] at h ⊢
    cases hx : c.evalW 32 with
    | none => rw [hx] at h; simp at h
    | some x =>
      rw [hx] at h
      rw [ihc x hx]
      simp only [Option.bind_some] at h ⊢
      by_cases h0 : x = 0
      · rw [if_neg (by simpa using h0)] at h ⊢
        cases hy : b.evalW 32 with
        | none => rw [hy] at h; simp at h
        | some y => rw [hy] at h; rw [ihb y hy]; exact h
      · rw [if_pos h0] at h ⊢
        cases hy : a.evalW 32 with
        | none => rw [hy] at h; simp at h
        | some y => rw [hy] at h; rw [iha y hy]; exact h

end Splint.CppExp
