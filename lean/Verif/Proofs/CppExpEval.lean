import Verif.Proofs.CppExpVal
namespace Splint.CppExp
open CExp

/-- Skipped operators do not fail. -/
theorem binary_skip (o : Op) (x y : Val) : ∃ r, binary true o x y = some (r, 0) := by
  cases o <;> simp only [binary, if_true] <;> try exact ⟨_, rfl⟩
  split <;> exact ⟨_, rfl⟩

theorem weval_skip : ∀ e : CExp, ∃ x, weval true e = some (x, 0) := by
  intro e
  induction e with
  | lit v u => exact ⟨_, rfl⟩
  | paren e ih => exact ih
  | un o e ih =>
    obtain ⟨x, h⟩ := ih
    exact ⟨unary o x, by simp only [weval, h, Option.map_some]⟩
  | bin o a b iha ihb =>
    obtain ⟨x, hx⟩ := iha
    obtain ⟨y, hy⟩ := ihb
    obtain ⟨r, hr⟩ := binary_skip o x y
    exact ⟨r, by simp [weval, hx, hy, hr]⟩
  | cond c a b ihc iha ihb =>
    obtain ⟨x, hx⟩ := ihc
    obtain ⟨y, hy⟩ := iha
    obtain ⟨z, hz⟩ := ihb
    exact ⟨_, by simp [weval, hx, hy, hz]; rfl⟩

theorem weval_skip_type : ∀ e : CExp, e.inType = true → e.plainTypes true = true →
    ∃ v, weval true e = some ((v, e.isUnsigned), 0) := by
  intro e
  induction e with
  | lit v u => intro _ _; exact ⟨_, rfl⟩
  | paren e ih => exact ih
  | un o e ih =>
    intro ht hp
    simp only [inType, Bool.and_eq_true] at ht
    by_cases ho : o = .not_
    · subst ho
      obtain ⟨x, h⟩ := weval_skip e
      exact ⟨_, by simp only [weval, h, Option.map_some]; rfl⟩
    · have hp' : e.plainTypes true = true := by cases o <;> simp_all [plainTypes]
      obtain ⟨x, h⟩ := ih ht.2 hp'
      cases o <;> simp_all [Op.isUnary, weval, unary, isUnsigned]
  | bin o a b iha ihb =>
    intro ht hp
    simp only [inType, Bool.and_eq_true] at ht
    obtain ⟨⟨ho, hta⟩, htb⟩ := ht
    obtain ⟨x, hx⟩ := weval_skip a
    obtain ⟨y, hy⟩ := weval_skip b
    have hxt : a.plainTypes true = true → x.2 = a.isUnsigned := by
      intro h; obtain ⟨v, hv⟩ := iha hta h
      rw [hx] at hv; simp only [Option.some.injEq, Prod.mk.injEq] at hv; rw [hv.1]
    have hyt : b.plainTypes true = true → y.2 = b.isUnsigned := by
      intro h; obtain ⟨v, hv⟩ := ihb htb h
      rw [hy] at hv; simp only [Option.some.injEq, Prod.mk.injEq] at hv; rw [hv.1]
    have hw : weval true (bin o a b) = (binary true o x y).map fun r => (r.1, r.2) := by
      simp [weval, hx, hy]
    rw [hw]
    cases o <;> simp only [plainTypes, Bool.and_eq_true] at hp <;> simp only [Op.isBinary, Bool.false_eq_true] at ho
    case div =>
      have h1 := hxt hp.1.1
      have h2 := hyt hp.1.2
      refine ⟨x.1, ?_⟩
      have h3 : a.isUnsigned = (a.isUnsigned || b.isUnsigned) := by
        have := hp.2
        cases h4 : a.isUnsigned <;> cases h5 : b.isUnsigned <;> simp_all
      simp only [binary, if_true, Option.map_some, isUnsigned]
      rw [← h3, ← h1]
    case mod =>
      have h1 := hxt hp.1.1
      have h2 := hyt hp.1.2
      refine ⟨x.1, ?_⟩
      have h3 : a.isUnsigned = (a.isUnsigned || b.isUnsigned) := by
        have := hp.2
        cases h4 : a.isUnsigned <;> cases h5 : b.isUnsigned <;> simp_all
      simp only [binary, if_true, Option.map_some, isUnsigned]
      rw [← h3, ← h1]
    case mul =>
      have h1 := hxt hp.1
      have h2 := hyt hp.2
      simp only [binary, if_true, isUnsigned, ← h1, ← h2]
      cases x.2 || y.2 <;> exact ⟨_, rfl⟩
    case lsh => exact ⟨x.1, by simp only [binary, if_true, Option.map_some, isUnsigned, ← hxt hp.1]⟩
    case rsh => exact ⟨x.1, by simp only [binary, if_true, Option.map_some, isUnsigned, ← hxt hp.1]⟩
    case comma => exact ⟨y.1, by simp only [binary, Option.map_some, isUnsigned, ← hyt hp.2]⟩
    all_goals first
      | exact ⟨_, by simp only [binary, compareVals, Option.map_some, isUnsigned]; rfl⟩
      | exact ⟨_, by simp only [binary, Option.map_some, isUnsigned, ← hxt hp.1, ← hyt hp.2]; rfl⟩
  | cond c a b ihc iha ihb =>
    intro ht hp
    simp only [inType, Bool.and_eq_true] at ht
    simp only [plainTypes, Bool.and_eq_true] at hp
    obtain ⟨x, hx⟩ := weval_skip c
    obtain ⟨y, hy⟩ := iha ht.1.2 hp.1.2
    obtain ⟨z, hz⟩ := ihb ht.2 hp.2
    exact ⟨_, by simp [weval, hx, hy, hz, isUnsigned]; rfl⟩

theorem plainTypes_mono : ∀ e : CExp, e.plainTypes true = true → e.plainTypes false = true := by
  intro e
  induction e with
  | lit v u => intro h; exact h
  | paren e ih => exact ih
  | un o e ih => intro h; cases o <;> simp_all [plainTypes]
  | bin o a b iha ihb => intro h; cases o <;> simp_all [plainTypes]
  | cond c a b ihc iha ihb => intro h; simp_all [plainTypes]

/-- Where the C value is defined (with small shift counts), the parser computes it. -/
theorem weval_eval : ∀ (e : CExp), e.inType = true → e.plainTypes false = true → ∀ v, e.evalW 32 = some v →
    weval false e = some ((toLong v, e.isUnsigned), 0) ∧ InRange e.isUnsigned v := by
  intro e
  induction e with
  | lit v u =>
    intro ht _ w hw
    simp only [evalW, Option.some.injEq] at hw
    subst hw
    refine ⟨rfl, ?_⟩
    cases u <;> simp only [inType, if_true, Bool.false_eq_true, if_false, decide_eq_true_eq] at ht <;>
      simp only [InRange, isUnsigned] <;> omega
  | paren e ih => exact ih
  | un o e ih =>
    intro ht hp v hv
    simp only [inType, Bool.and_eq_true] at ht
    simp only [evalW] at hv
    cases hx : e.evalW 32 with
    | none => rw [hx] at hv; simp at hv
    | some x =>
      rw [hx] at hv
      simp only [Option.bind_some] at hv
      have hp' : e.plainTypes false = true := by cases o <;> simp_all [plainTypes]
      obtain ⟨h1, h2⟩ := ih ht.2 hp' x hx
      have hw : weval false (un o e) = some (unary o (toLong x, e.isUnsigned), 0) := by
        simp [weval, h1]
      rw [hw]
      cases o <;> simp only at hv <;> try (simp at hv; done)
      case plus =>
        simp only [Option.some.injEq] at hv; subst hv
        exact ⟨rfl, h2⟩
      case minus =>
        obtain ⟨h3, h4⟩ := unary_minus _ _ _ hv
        exact ⟨by rw [h3]; rfl, h4⟩
      case compl =>
        obtain ⟨h3, h4⟩ := unary_compl _ _ _ hv
        exact ⟨by rw [h3]; rfl, h4⟩
      case not_ =>
        obtain ⟨h3, h4⟩ := truth_range hv
        refine ⟨?_, h3⟩
        rw [h4]
        have := toLong_eq_zero h2
        simp only [unary, isUnsigned, decide_eq_true_eq, this]
  | bin o a b iha ihb =>
    intro ht hp v hv
    simp only [inType, Bool.and_eq_true] at ht
    obtain ⟨⟨ho, hta⟩, htb⟩ := ht
    have hpa : a.plainTypes false = true := by cases o <;> simp_all [plainTypes]
    have hpb : b.plainTypes false = true := by cases o <;> simp_all [plainTypes]
    cases hx : a.evalW 32 with
    | none => simp only [evalW, hx, Option.bind_none] at hv; cases o <;> simp at hv
    | some x =>
      obtain ⟨h1, h2⟩ := iha hta hpa x hx
      have hz := toLong_eq_zero h2
      by_cases ha : o = .andand
      · subst ha
        simp only [evalW, hx, Option.bind_some] at hv
        by_cases h0 : x = 0
        · rw [if_pos h0, Option.some.injEq] at hv
          subst hv
          obtain ⟨y, hy⟩ := weval_skip b
          have h0' := hz.2 h0
          refine ⟨?_, by simp [InRange, isUnsigned]⟩
          simp [weval, h1, h0', hy, binary, isUnsigned]; rfl
        · rw [if_neg h0] at hv
          have h0' : toLong x ≠ 0 := fun h => h0 (hz.1 h)
          cases hy : b.evalW 32 with
          | none => rw [hy] at hv; simp at hv
          | some y =>
            rw [hy] at hv
            obtain ⟨h3, h4⟩ := ihb htb hpb y hy
            obtain ⟨h5, h6⟩ := truth_range hv
            have hyz := toLong_eq_zero h4
            refine ⟨?_, h5⟩
            rw [h6]
            simp [weval, h1, h0', h3, binary, isUnsigned, hyz]
      by_cases hor : o = .oror
      · subst hor
        simp only [evalW, hx, Option.bind_some] at hv
        by_cases h0 : x = 0
        · rw [if_neg (by simpa using h0)] at hv
          have h0' := hz.2 h0
          cases hy : b.evalW 32 with
          | none => rw [hy] at hv; simp at hv
          | some y =>
            rw [hy] at hv
            obtain ⟨h3, h4⟩ := ihb htb hpb y hy
            obtain ⟨h5, h6⟩ := truth_range hv
            have hyz := toLong_eq_zero h4
            refine ⟨?_, h5⟩
            rw [h6]
            simp [weval, h1, h0', h3, binary, isUnsigned, hyz]
        · rw [if_pos h0, Option.some.injEq] at hv
          subst hv
          obtain ⟨y, hy⟩ := weval_skip b
          have h0' : toLong x ≠ 0 := fun h => h0 (hz.1 h)
          refine ⟨?_, by simp [InRange, isUnsigned]⟩
          simp [weval, h1, h0', hy, binary, isUnsigned]; rfl
      cases hy : b.evalW 32 with
      | none => simp only [evalW, hx, hy, Option.bind_some, Option.bind_none] at hv; cases o <;> simp_all
      | some y =>
        obtain ⟨h3, h4⟩ := ihb htb hpb y hy
        have hw : weval false (bin o a b) =
            (binary false o (toLong x, a.isUnsigned) (toLong y, b.isUnsigned)).map fun r => (r.1, r.2) := by
          simp [weval, h1, ha, hor, h3]
        rw [hw]
        by_cases hc : o = .comma
        · subst hc
          simp only [evalW, hx, hy, Option.bind_some, Option.some.injEq] at hv
          subst hv
          exact ⟨rfl, h4⟩
        by_cases hs : o = .lsh ∨ o = .rsh
        · have hv' : shift 32 o a.isUnsigned x y = some v := by
            rcases hs with rfl | rfl <;> simpa [evalW, hx, hy] using hv
          obtain ⟨h5, h6⟩ := binary_shift o hs a.isUnsigned b.isUnsigned x y v h2 h4 hv'
          rw [h5]
          rcases hs with rfl | rfl <;> exact ⟨rfl, h6⟩
        · have hv' : apply o (a.isUnsigned || b.isUnsigned) (conv (a.isUnsigned || b.isUnsigned) x)
              (conv (a.isUnsigned || b.isUnsigned) y) = some v := by
            rw [not_or] at hs
            cases o <;> simp_all [evalW, Op.isBinary]
          obtain ⟨h5, h6⟩ := binary_apply o _ _ x y v h2 h4 hv'
          have ht : (bin o a b).isUnsigned = resultType o (a.isUnsigned || b.isUnsigned) := by
            rw [not_or] at hs
            cases o <;> simp_all [isUnsigned, resultType, Op.isBinary]
          rw [h5, ht]
          exact ⟨rfl, h6⟩
  | cond c a b ihc iha ihb =>
    intro ht hp v hv
    simp only [inType, Bool.and_eq_true] at ht
    simp only [plainTypes, Bool.and_eq_true] at hp
    obtain ⟨⟨htc, hta⟩, htb⟩ := ht
    obtain ⟨⟨hpc, hpa⟩, hpb⟩ := hp
    simp only [evalW] at hv
    cases hx : c.evalW 32 with
    | none => rw [hx] at hv; simp at hv
    | some x =>
      rw [hx] at hv
      simp only [Option.bind_some] at hv
      obtain ⟨h1, h2⟩ := ihc htc hpc x hx
      have hz := toLong_eq_zero h2
      by_cases h0 : x = 0
      · rw [if_neg (by simpa using h0)] at hv
        cases hy : b.evalW 32 with
        | none => rw [hy] at hv; simp at hv
        | some y =>
          rw [hy] at hv
          simp only [Option.map_some, Option.some.injEq] at hv
          subst hv
          obtain ⟨h3, h4⟩ := ihb htb (plainTypes_mono b hpb) y hy
          obtain ⟨z, hzs⟩ := weval_skip_type a hta hpa
          refine ⟨?_, ?_⟩
          · rw [toLong_conv]
            have h0' := hz.2 h0
            simp [weval, h1, h0', h3, hzs, isUnsigned]
          · exact conv_range h4 (fun h => (or_false_range h).2)
      · rw [if_pos h0] at hv
        cases hy : a.evalW 32 with
        | none => rw [hy] at hv; simp at hv
        | some y =>
          rw [hy] at hv
          simp only [Option.map_some, Option.some.injEq] at hv
          subst hv
          obtain ⟨h3, h4⟩ := iha hta (plainTypes_mono a hpa) y hy
          obtain ⟨z, hzs⟩ := weval_skip_type b htb hpb
          refine ⟨?_, ?_⟩
          · rw [toLong_conv]
            have h0' : toLong x ≠ 0 := fun h => h0 (hz.1 h)
            simp [weval, h1, h0', h3, hzs, isUnsigned]
          · exact conv_range h4 (fun h => (or_false_range h).1)

end Splint.CppExp
