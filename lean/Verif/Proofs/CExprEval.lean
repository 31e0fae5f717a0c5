import Verif.Proofs.CExpr
/-! Simplification preserves the value of regular expressions (C25). -/
namespace Splint.Bounds
open Expr Spec

/-- `v` moved by `n` -/
def Spec.Val.shift (v : Val) (n : Int) : Val := ⟨v.base, v.off + n⟩

theorem shift_zero (v : Val) : v.shift 0 = v := by simp [Val.shift]

theorem shift_shift (v : Val) (m n : Int) : (v.shift m).shift n = v.shift (m + n) := by
  simp [Val.shift, Int.add_assoc]

theorem apply_shift (op : BinOp) (x y : Val) (m n : Int) :
    Val.apply op (x.shift m) (y.shift n)
      = (Val.apply op x y).map (·.shift (BinOp.apply op m n)) := by
  obtain ⟨bx, ox⟩ := x
  obtain ⟨by', oy⟩ := y
  cases op <;> cases bx <;> cases by' <;>
    simp only [Val.apply, Val.shift, Val.add, Val.sub, BinOp.apply, Option.map_some, Option.map_none,
      Val.int, Val.ptr, Option.some.injEq, Val.mk.injEq, true_and] <;> try omega
  split <;> simp [Val.shift]
  omega

theorem apply_lit (op : BinOp) (x : Val) (n : Int) :
    Val.apply op x (.int n) = some (x.shift (BinOp.apply op 0 n)) := by
  obtain ⟨bx, ox⟩ := x
  cases op <;> cases bx <;> simp [Val.apply, Val.add, Val.sub, Val.shift, BinOp.apply] <;> omega

theorem lit_add (x : Val) (n : Int) : Val.add (.int n) x = some (x.shift n) := by
  obtain ⟨bx, ox⟩ := x
  cases bx <;> simp [Val.add, Val.shift] <;> omega

theorem toInt_small {n : Int} (h : n.natAbs < 2 ^ 31) : toInt n = n := by
  unfold toInt
  apply Int.bmod_eq_of_le <;> omega

/-- everything we keep about an expression: its class, its value, that it is typed and truthful, and
a bound on its integers -/
structure Inv (sim : Nat → Nat → Bool) (ρ : State) (S : Term → Prop) (K : Prop) (u w : Bool)
    (C : Expr → Prop) (k : Option Term) (e : Expr) (v : Val) (B : Nat) : Prop where
  reg : Regular sim C S K u k e
  val : eval ρ e = some v
  typed : Typed ρ w e
  fits : Fits ρ e
  small : mag e ≤ B

variable {sim : Nat → Nat → Bool} {ρ : State} {S : Term → Prop} {K : Prop} {u w : Bool}

theorem Spec.Regular.mono {C D : Expr → Prop} (h : ∀ e, C e → D e) {k : Option Term} {e : Expr}
    (hr : Regular sim C S K u k e) : Regular sim D S K u k e := by
  induction hr with
  | term h => exact .term h
  | un _ ih => exact .un ih
  | cplus hc _ ih => exact .cplus (h _ hc) ih
  | cminus hc _ hs ih => exact .cminus (h _ hc) ih hs
  | binC _ hb ih => exact .binC ih (h _ hb)
  | binK _ hk ih => exact .binK ih hk
  | binG _ _ hs hd iha ihb => exact .binG iha ihb hs hd

theorem lit_const {e : Expr} (h : IsLit e) : Const e := by cases h; exact .lit _

theorem Spec.Regular.notLit {k : Option Term} {e : Expr} (h : Regular sim IsLit S K u k e) : isLit e = none := by
  cases h with
  | term h => next t => cases t <;> first | rfl | exact absurd h (by simp [plainTerm])
  | _ => rfl

theorem Spec.Regular.noValue {C : Expr → Prop} {k : Option Term} {e : Expr} (h : Regular sim C S K u k e) :
    e.value = none := by
  cases h with
  | term h =>
    next t =>
    cases t with
    | lit n => exact absurd h (by simp [plainTerm])
    | ref r v => exact h
    | node n => rfl
  | _ => rfl

/-- a literal is not similar to a regular expression -/
theorem Spec.Regular.similar_lit {k : Option Term} {e : Expr} (h : Regular sim IsLit S K u k e) {c : Expr}
    (hc : c.value.isSome) : similar sim c e = false ∧ similar sim e c = false := by
  have hv := h.noValue
  cases c with
  | un o c => simp [value] at hc
  | bin o a b => simp [value] at hc
  | term t =>
    obtain ⟨x, hx⟩ := Option.isSome_iff_exists.1 hc
    cases e with
    | term u =>
      simp only [value] at hv hx
      simp [similar, Term.similar, hv, hx]
    | un o e => exact ⟨rfl, rfl⟩
    | bin o a b => exact ⟨rfl, rfl⟩

theorem lit_value {c : Expr} (h : IsLit c) : c.value.isSome := by cases h; rfl

/-- Similar expressions have similar first terms. -/
theorem Spec.Regular.similar_core {k : Option Term} {a b : Expr} {s : Term}
    (ha : Regular sim IsLit S K u k a) (hb : Regular sim IsLit S K w (some s) b)
    (h : similar sim a b = true) : ∃ t, k = some t ∧ t.similar sim s = true := by
  induction ha generalizing b s w with
  | term ht =>
    cases hb with
    | term hs => exact ⟨_, rfl, h⟩
    | _ => cases h
  | un _ ih =>
    cases hb with
    | un hb =>
      simp only [similar, Bool.and_eq_true] at h
      exact ih hb h.2
    | _ => cases h
  | cplus hc hb' ih =>
    cases hb with
    | cplus hc' hb =>
      simp only [similar, Bool.and_eq_true] at h
      exact ih hb h.2.2
    | binC ha hb | binK ha | binG ha hb =>
      simp only [similar, Bool.and_eq_true, (Regular.similar_lit ha (lit_value hc)).1] at h
      simp at h
    | _ => cases h
  | cminus hc hb' _ ih =>
    cases hb with
    | cplus hc' hb => simp [similar] at h
    | binC ha hb | binK ha | binG ha hb =>
      simp only [similar, Bool.and_eq_true, (Regular.similar_lit ha (lit_value hc)).1] at h
      simp at h
    | _ => cases h
  | binC ha hb' ih | binK ha _ ih | binG ha _ _ _ ih _ =>
    cases hb with
    | cplus hc' hb =>
      simp only [similar, Bool.and_eq_true, (Regular.similar_lit ha (lit_value hc')).2] at h
      simp at h
    | binC ha hb | binK ha | binG ha hb =>
      simp only [similar, Bool.and_eq_true] at h
      exact ih ha h.2.1
    | _ => cases h

/-- the root is not a constant plus something -/
def NoLead (e : Expr) : Prop := ∀ c b, e = .bin .plus c b → isLit c = none

theorem eval_bin {op : BinOp} {a b : Expr} {v : Val} (h : eval ρ (.bin op a b) = some v) :
    ∃ x y, eval ρ a = some x ∧ eval ρ b = some y ∧ Val.apply op x y = some v := by
  simp only [eval] at h
  split at h
  · next x y hx hy => exact ⟨x, y, hx, hy, h⟩
  · cases h

theorem eval_bin_intro {op : BinOp} {a b : Expr} {x y v : Val} (hx : eval ρ a = some x)
    (hy : eval ρ b = some y) (h : Val.apply op x y = some v) : eval ρ (.bin op a b) = some v := by
  simp only [eval, hx, hy, h]

/-- dropping a zero from a regular right operand -/
theorem dropZero_inv {op : BinOp} {k : Term} {e : Expr} {v : Val} {B : Nat}
    (h : Inv sim ρ S K u w IsLit (some k) e v B) :
    (dropZero op e).1 = op ∧ Inv sim ρ S K u w IsLit (some k) (dropZero op e).2 v B := by
  unfold dropZero
  split
  · next o t =>
    obtain ⟨hr, hv, ht, hf, hm⟩ := h
    obtain ⟨x, y, hx, hy, hxy⟩ := eval_bin hv
    simp only [eval, evalTerm, Option.some.injEq] at hx
    subst hx
    have hm' : mag t ≤ B := by simp only [mag, termMag] at hm; omega
    cases hr with
    | cplus hc hb =>
      refine ⟨by cases op <;> rfl, hb, ?_, ht.2.1, hf.2, hm'⟩
      rw [hy, ← hxy]
      simp only [Val.apply, lit_add, shift_zero]
    | binC ha _ | binK ha | binG ha _ _ => exact absurd ha.notLit (by simp [isLit])
  · exact ⟨rfl, h⟩

/-- a binary expression put together again from its parts, moved -/
theorem rebuild {op : BinOp} {a b a' b' : Expr} {v x' y' : Val} {m n : Int}
    (hv : eval ρ (.bin op a b) = some v) (ht : Typed ρ w (.bin op a b))
    (ha : eval ρ a = some (x'.shift m)) (hb : eval ρ b = some (y'.shift n))
    (ha' : eval ρ a' = some x') (hb' : eval ρ b' = some y') (ta : Typed ρ w a') (tb : Typed ρ w b')
    (hc : Const a → Const a') :
    ∃ v', eval ρ (.bin op a' b') = some v' ∧ v = v'.shift (BinOp.apply op m n)
      ∧ Typed ρ w (.bin op a' b') := by
  obtain ⟨x, y, hx, hy, hxy⟩ := eval_bin hv
  rw [ha] at hx
  rw [hb] at hy
  cases hx
  cases hy
  rw [apply_shift, Option.map_eq_some_iff] at hxy
  obtain ⟨v', h1, rfl⟩ := hxy
  have he := eval_bin_intro ha' hb' h1
  refine ⟨v', he, rfl, ta, tb, by rw [he]; rfl, fun hw ho => ?_⟩
  rcases ht.2.2.2 hw ho with h | h
  · exact .inl (hc h)
  · right
    intro w hw
    rw [hb'] at hw
    cases hw
    exact h (y'.shift n) hb

theorem Spec.Regular.notConst {k : Option Term} {e : Expr} (h : Regular sim IsLit S K u k e) :
    ¬ Const e := by
  intro hc
  induction hc generalizing k u with
  | lit n => exact absurd h.notLit (by simp [isLit])
  | known hk =>
    cases h with
    | term h =>
      rw [h.1] at hk; cases hk
  | block ho hk hs =>
    cases h with
    | un h =>
      cases h with
      | term h => rw [h.2.1, h.2.2] at hs; simp at hs
  | bin _ _ iha ihb =>
    cases h with
    | cplus _ hb | cminus _ hb => exact ihb hb
    | binC ha _ | binK ha | binG ha _ _ => exact iha ha

/-- `removeZero` on a regular expression -/
theorem removeZero_inv {k : Option Term} {e : Expr} {v : Val} {B : Nat}
    (h : Inv sim ρ S K u w IsLit k e v B) : Inv sim ρ S K u w IsLit k (removeZero e) v B
      ∧ mag (removeZero e) ≤ mag e ∧ (NoLead e → NoLead (removeZero e)) := by
  cases e with
  | term t => exact ⟨h, Nat.le_refl _, id⟩
  | un o e => exact ⟨h, Nat.le_refl _, id⟩
  | bin op a b =>
    simp only [removeZero]
    obtain ⟨hr, hv, ht, hf, hm⟩ := h
    obtain ⟨x, y, hx, hy, hxy⟩ := eval_bin hv
    have nl : ∀ b', NoLead (.bin op a b) → NoLead (.bin op a b') := by
      intro b' hn c d hcd
      cases hcd
      exact hn _ b rfl
    have key : ∀ {u : Bool} {s : Term}, Regular sim IsLit S K u (some s) b →
        (dropZero op b).1 = op ∧ Inv sim ρ S K u w IsLit (some s) (dropZero op b).2 y (mag b)
        ∧ eval ρ (.bin op a (dropZero op b).2) = some v ∧ Typed ρ w (.bin op a (dropZero op b).2) := by
      intro u s hs
      obtain ⟨h1, h2⟩ := dropZero_inv (op := op) (B := mag b) ⟨hs, hy, ht.2.1, hf.2, Nat.le_refl _⟩
      obtain ⟨v', hv', he, ht'⟩ := rebuild (m := 0) (n := 0) (x' := x) (y' := y) hv ht
        (by rw [shift_zero]; exact hx) (by rw [shift_zero]; exact hy) hx h2.val ht.1 h2.typed id
      rw [apply_zero, shift_zero] at he
      subst he
      exact ⟨h1, h2, hv', ht'⟩
    have lit : ∀ {b : Expr}, IsLit b → dropZero op b = (op, b) := by
      intro b hb; cases hb; rfl
    cases hr with
    | cplus hc hb =>
      obtain ⟨h1, h2, h3, h4⟩ := key hb
      have := h2.small
      rw [h1]
      exact ⟨⟨.cplus hc h2.reg, h3, h4, ⟨hf.1, h2.fits⟩, by simp only [mag] at *; omega⟩,
        by simp only [mag]; omega, nl _⟩
    | cminus hc hb hs =>
      obtain ⟨h1, h2, h3, h4⟩ := key hb
      have := h2.small
      rw [h1]
      exact ⟨⟨.cminus hc h2.reg hs, h3, h4, ⟨hf.1, h2.fits⟩, by simp only [mag] at *; omega⟩,
        by simp only [mag]; omega, nl _⟩
    | binC ha hb =>
      rw [lit hb]
      exact ⟨⟨.binC ha hb, hv, ht, hf, hm⟩, Nat.le_refl _, id⟩
    | binK ha hk => exact ⟨⟨.binK ha hk, hv, ht, hf, hm⟩, Nat.le_refl _, id⟩
    | binG ha hb hs hd =>
      obtain ⟨h1, h2, h3, h4⟩ := key hb
      have := h2.small
      rw [h1]
      exact ⟨⟨.binG ha h2.reg hs hd, h3, h4, ⟨hf.1, h2.fits⟩, by simp only [mag] at *; omega⟩,
        by simp only [mag]; omega, nl _⟩

/-- Propagating constants in a regular expression splits its value into the rest and the constant. -/
theorem propagate_inv {k : Option Term} {e : Expr} {v : Val} {B : Nat} (hB : B < 2 ^ 31)
    (h : Inv sim ρ S K u w IsLit k e v B) :
    ∃ v', Inv sim ρ S K u w IsLit k (propagate e).1 v' B ∧ v = v'.shift (propagate e).2.2
      ∧ mag (propagate e).1 + (propagate e).2.2.natAbs ≤ mag e ∧ NoLead (propagate e).1 := by
  induction e using propagate_induct generalizing k v B u with
  | term t =>
    rw [propagate_term]
    exact ⟨v, h, (shift_zero v).symm, by simp, by intro c b hcb; cases hcb⟩
  | un o e =>
    rw [propagate_un]
    exact ⟨v, h, (shift_zero v).symm, by simp, by intro c b hcb; cases hcb⟩
  | bin op a b iha ihb =>
    rw [propagate_bin]
    obtain ⟨hr, hv, ht, hf, hm⟩ := h
    obtain ⟨x, y, hx, hy, hxy⟩ := eval_bin hv
    have hmab : mag a + mag b ≤ B := hm
    -- the right operand, if it is regular
    have right : ∀ {u : Bool} {s : Term}, Regular sim IsLit S K u (some s) b →
        (dropZero op b).1 = op ∧ ∃ y', Inv sim ρ S K u w IsLit (some s) (removeZero (propagate (dropZero op b).2).1) y' B
          ∧ y = y'.shift (propagate (dropZero op b).2).2.2
          ∧ mag (removeZero (propagate (dropZero op b).2).1)
              + (propagate (dropZero op b).2).2.2.natAbs ≤ mag b
          ∧ NoLead (removeZero (propagate (dropZero op b).2).1) := by
      intro u s hs
      obtain ⟨h1, h2⟩ := dropZero_inv (op := op) (B := mag b) ⟨hs, hy, ht.2.1, hf.2, Nat.le_refl _⟩
      obtain ⟨y', i1, i2, i3, i4⟩ := ihb (by omega) h2
      obtain ⟨j1, j2, j3⟩ := removeZero_inv i1
      have hm3 := h2.small
      refine ⟨h1, y', ⟨j1.reg, j1.val, j1.typed, j1.fits, by omega⟩, i2, by omega, j3 i4⟩
    have left : ∀ {u : Bool} {k : Option Term}, Regular sim IsLit S K u k a →
        ∃ x', Inv sim ρ S K u w IsLit k (removeZero (propagate a).1) x' B
          ∧ x = x'.shift (propagate a).2.2
          ∧ mag (removeZero (propagate a).1) + (propagate a).2.2.natAbs ≤ mag a
          ∧ NoLead (removeZero (propagate a).1) := by
      intro u k hk
      obtain ⟨x', i1, i2, i3, i4⟩ := iha (B := mag a) (by omega) ⟨hk, hx, ht.1, hf.1, Nat.le_refl _⟩
      obtain ⟨j1, j2, j3⟩ := removeZero_inv i1
      exact ⟨x', ⟨j1.reg, j1.val, j1.typed, j1.fits, by omega⟩, i2, by omega, j3 i4⟩
    -- two parts that are not literals
    have two : ∀ {a' b' : Expr} {x' y' : Val} {m n : Int}, (Const a → Const a') →
        eval ρ a' = some x' → eval ρ b' = some y' → Typed ρ w a' → Typed ρ w b' →
        x = x'.shift m → y = y'.shift n →
        ∃ v', eval ρ (.bin op a' b') = some v' ∧ v = v'.shift (BinOp.apply op m n)
          ∧ Typed ρ w (.bin op a' b') := by
      intro a' b' x' y' m n hc ha' hb' ta tb h1 h2
      exact rebuild hv ht (by rw [hx, h1]) (by rw [hy, h2]) ha' hb' ta tb hc
    cases hr with
    | cplus hc hb =>
      cases hc with
      | lit c =>
        obtain ⟨h1, y', i1, i2, i3, i4⟩ := right hb
        rw [propagate_term]
        generalize propagate (dropZero .plus b).2 = rb at *
        have n2 := i1.reg.notLit
        have n1 : isLit (removeZero (Expr.lit c)) = some c := rfl
        simp only [assemble, n1, n2]
        simp only [eval, evalTerm, Option.some.injEq] at hx
        subst hx
        simp only [mag, termMag] at hmab
        have e1 : toInt (BinOp.apply .plus 0 rb.2.2) = rb.2.2 := by
          rw [toInt_small] <;> simp only [BinOp.apply] <;> omega
        have e2 : toInt (rb.2.2 + c) = rb.2.2 + c := toInt_small (by omega)
        rw [e1, e2]
        refine ⟨y', i1, ?_, ?_, i4⟩
        · simp only [Val.apply, lit_add, Option.some.injEq] at hxy
          rw [← hxy, i2, shift_shift]
        · simp only [mag, termMag]; omega
    | cminus hc hb hs =>
      cases hc with
      | lit c =>
        obtain ⟨h1, y', i1, i2, i3, i4⟩ := right hb
        rw [propagate_term]
        obtain ⟨v', w1, w2, w3⟩ := two (a' := .lit 0) (x' := .int 0) (m := c)
          (fun _ => .lit 0) rfl i1.val trivial i1.typed
          (by simp only [eval, evalTerm, Option.some.injEq] at hx; rw [← hx]; simp [Val.shift]) i2
        generalize propagate (dropZero .minus b).2 = rb at *
        have n2 := i1.reg.notLit
        have n1 : isLit (removeZero (Expr.lit c)) = some c := rfl
        simp only [assemble, n1, n2]
        simp only [mag, termMag] at hmab
        have e1 : toInt (BinOp.apply .minus 0 rb.2.2) = - rb.2.2 := by
          rw [toInt_small] <;> simp only [BinOp.apply] <;> omega
        have e2 : toInt (- rb.2.2 + c) = - rb.2.2 + c := toInt_small (by omega)
        rw [e1, e2]
        have i5 := i1.small
        refine ⟨v', ⟨.cminus (.lit 0) i1.reg hs, w1, w3, ⟨trivial, i1.fits⟩, ?_⟩, ?_, ?_, ?_⟩
        · simp only [mag, termMag]; omega
        · rw [w2]; simp only [BinOp.apply]; congr 1; omega
        · simp only [mag, termMag]; omega
        · intro c d hcd; cases hcd
    | binC ha hb =>
      cases hb with
      | lit c =>
        obtain ⟨x', i1, i2, i3, i4⟩ := left ha
        have hd : dropZero op (Expr.lit c) = (op, .lit c) := rfl
        rw [hd]
        simp only
        rw [propagate_term]
        generalize propagate a = ra at *
        have n1 := i1.reg.notLit
        have n2 : isLit (removeZero (Expr.lit c)) = some c := rfl
        simp only [assemble, n1, n2]
        simp only [eval, evalTerm, Option.some.injEq] at hy
        subst hy
        simp only [mag, termMag] at hmab
        have e1 : toInt (BinOp.apply op ra.2.2 0) = ra.2.2 := by
          rw [toInt_small] <;> cases op <;> simp only [BinOp.apply] <;> omega
        have e2 : toInt (BinOp.apply op ra.2.2 c) = BinOp.apply op ra.2.2 c := by
          apply toInt_small; cases op <;> simp only [BinOp.apply] <;> omega
        rw [e1, e2]
        refine ⟨x', i1, ?_, ?_, i4⟩
        · rw [apply_lit, Option.some.injEq] at hxy
          rw [← hxy, i2, shift_shift]
          congr 1
          cases op <;> simp only [BinOp.apply] <;> omega
        · simp only [mag, termMag]
          cases op <;> simp only [BinOp.apply] <;> omega
    | binK ha hk =>
      next r z =>
      obtain ⟨x', i1, i2, i3, i4⟩ := left ha
      obtain ⟨v', w1, w2, w3⟩ := two (b' := .term (.ref r (some z))) (y' := y) (n := 0)
          (fun h => absurd h ha.notConst) i1.val hy i1.typed trivial i2 (shift_zero y).symm
      have hd : dropZero op (Expr.term (.ref r (some z))) = (op, .term (.ref r (some z))) := rfl
      rw [hd]
      simp only
      rw [propagate_term]
      generalize propagate a = ra at *
      have n1 := i1.reg.notLit
      have n2 : isLit (removeZero (Expr.term (.ref r (some z)))) = none := rfl
      simp only [assemble, n1, n2]
      simp only [mag] at hmab
      have e1 : toInt (BinOp.apply op ra.2.2 0) = ra.2.2 := by
        rw [toInt_small] <;> cases op <;> simp only [BinOp.apply] <;> omega
      rw [e1]
      have i5 := i1.small
      have hz : ∀ x, removeZero (.bin op x (removeZero (.term (.ref r (some z)))))
          = .bin op x (.term (.ref r (some z))) := fun _ => rfl
      rw [hz]
      refine ⟨v', ⟨.binK i1.reg hk, w1, w3, ⟨i1.fits, hf.2⟩, ?_⟩, ?_, ?_, ?_⟩
      · simp only [mag]; omega
      · rw [w2]; congr 1; cases op <;> simp only [BinOp.apply] <;> omega
      · simp only [mag]; omega
      · intro c d hcd
        cases hcd
        exact n1
    | binG ha hb hs hd =>
      obtain ⟨x', i1, i2, i3, i4⟩ := left ha
      obtain ⟨h1, y', j1, j2, j3, j4⟩ := right hb
      obtain ⟨v', w1, w2, w3⟩ := two (fun h => absurd h ha.notConst) i1.val j1.val i1.typed j1.typed
        i2 j2
      rw [h1]
      generalize propagate a = ra at *
      generalize propagate (dropZero op b).2 = rb at *
      have n1 := i1.reg.notLit
      have n2 := j1.reg.notLit
      simp only [assemble, n1, n2]
      have e1 : toInt (BinOp.apply op ra.2.2 rb.2.2) = BinOp.apply op ra.2.2 rb.2.2 := by
        apply toInt_small; cases op <;> simp only [BinOp.apply] <;> omega
      rw [e1]
      have hin : Inv sim ρ S K u w IsLit _ (.bin op (removeZero ra.1) (removeZero rb.1)) v' B :=
        ⟨.binG i1.reg j1.reg hs hd, w1, w3, ⟨i1.fits, j1.fits⟩, by simp only [mag]; omega⟩
      obtain ⟨z1, z2, z3⟩ := removeZero_inv hin
      refine ⟨v', z1, w2, ?_, z3 ?_⟩
      · simp only [mag] at z2 ⊢
        cases op <;> simp only [BinOp.apply] <;> omega
      · intro c d hcd
        cases hcd
        exact n1

theorem combine_inv {k : Option Term} {e : Expr} {v : Val} {B : Nat} (hB : B < 2 ^ 31)
    (h : Inv sim ρ S K u w IsLit k e v B) : Inv sim ρ S K u w IsLit k (combine e) v B ∧ NoLead (combine e) := by
  obtain ⟨v', i1, i2, i3, i4⟩ := propagate_inv hB h
  have hf := (propagate_flag e).1
  have hs := h.small
  unfold combine
  generalize propagate e = r at *
  simp only
  split
  · refine ⟨⟨.binC i1.reg (.lit _), ?_, ⟨i1.typed, trivial, ?_, fun _ _ => .inr ?_⟩,
      ⟨i1.fits, trivial⟩, ?_⟩, ?_⟩
    · apply eval_bin_intro i1.val rfl
      simp only [evalTerm, apply_lit]
      rw [i2]
      simp [BinOp.apply]
    · rw [eval_bin_intro (op := .plus) i1.val rfl (apply_lit .plus v' r.2.2)]; rfl
    · intro w hw; cases hw; rfl
    · simp only [mag, termMag]; omega
    · intro c d hcd
      cases hcd
      exact i1.reg.notLit
  · next hc =>
    have : r.2.2 = 0 := by
      by_contra hne
      have : r.2.1 = true := by
        by_contra hp
        exact hne (hf (by simpa using hp))
      simp [this, hne] at hc
    rw [this, shift_zero] at i2
    subst i2
    exact ⟨i1, i4⟩

theorem simplify_kref (r : Nat) (v : Option Int) :
    Expr.simplify sim (.term (.ref r v)) = .term (.ref r v) := by
  rw [simplify_eq]
  have : combine (kids sim (.term (.ref r v))) = .term (.ref r v) := combine_nonbin (by simp [kids])
  rw [this]; rfl

theorem simplify_term (t : Term) : Expr.simplify sim (.term t) = .term t.simplify := by
  rw [simplify_eq]
  have : combine (kids sim (.term t)) = .term t := combine_nonbin (by simp [kids])
  rw [this]; rfl

theorem simplify_un (o : UnOp) (e : Expr) :
    Expr.simplify sim (.un o e) = simplifyUnary o (Expr.simplify sim (Expr.simplify sim e)) := by
  rw [simplify_eq]
  have : combine (kids sim (.un o e)) = .un o (Expr.simplify sim e) := combine_nonbin (by simp [kids])
  rw [this]; rfl

/-- constants become literals with the same value -/
theorem const_inv {c : Expr} {v : Val} {B : Nat} (hB : B < 2 ^ 31) (hc : Const c)
    (hv : eval ρ c = some v) (hf : Fits ρ c) (hm : mag c ≤ B) :
    ∃ n, Expr.simplify sim c = .lit n ∧ v = .int n ∧ n.natAbs ≤ mag c := by
  induction hc generalizing v B with
  | lit n =>
    rw [simplify_term]
    simp only [eval, evalTerm, Option.some.injEq] at hv
    exact ⟨n, rfl, hv.symm, Nat.le_refl _⟩
  | known h =>
    next n =>
    obtain ⟨x, hx⟩ := Option.isSome_iff_exists.1 h
    rw [simplify_term]
    simp only [eval, evalTerm, Option.some.injEq] at hv
    simp only [mag, termMag, hx, Option.getD_some] at hm
    refine ⟨x, ?_, ?_, ?_⟩
    · simp only [Term.simplify, hx]
      rw [toInt_small (by omega)]
    · rw [← hv, hf.2.1 x hx]
    · simp only [mag, termMag, hx, Option.getD_some]; omega
  | block ho hk h =>
    next op n =>
    have ht : Term.simplify (.node n) = .node n := by simp [Term.simplify, hk]
    rw [simplify_un, simplify_term, ht, simplify_term, ht]
    simp only [mag, termMag] at hm
    cases hs : n.str with
    | some k =>
      obtain ⟨b, o, h1, h2, h3⟩ := hf.2.2.1 k hs
      simp only [hs, Option.getD_some] at hm
      refine ⟨k, ?_, ?_, ?_⟩
      · rcases ho with rfl | rfl <;> simp only [simplifyUnary, hs] <;> rw [toInt_small (by omega)]
      · simp only [eval, evalTerm, h1, Option.some.injEq] at hv
        rcases ho with rfl | rfl <;> rw [← hv] <;> simp [Val.int, *]
      · simp only [mag, termMag, hs, Option.getD_some]; omega
    | none =>
      cases hi : n.init with
      | none => simp [hs, hi] at h
      | some k =>
        obtain ⟨b, o, h1, h2, h3⟩ := hf.2.2.2 k hs hi
        simp only [hi, Option.getD_some] at hm
        refine ⟨k - 1, ?_, ?_, ?_⟩
        · rcases ho with rfl | rfl <;> simp only [simplifyUnary, hs, hi]
        · simp only [eval, evalTerm, h1, Option.some.injEq] at hv
          rcases ho with rfl | rfl <;> rw [← hv] <;> simp [Val.int, *]
        · simp only [mag, termMag, hi, Option.getD_some]; omega
  | bin ha hb iha ihb =>
    next op a b =>
    obtain ⟨x, y, hx, hy, hxy⟩ := eval_bin hv
    have hmab : mag a + mag b ≤ B := hm
    obtain ⟨m, e1, rfl, e3⟩ := iha (B := mag a) (by omega) hx hf.1 (Nat.le_refl _)
    obtain ⟨n, f1, rfl, f3⟩ := ihb (B := mag b) (by omega) hy hf.2 (Nat.le_refl _)
    refine ⟨BinOp.apply op m n, ?_, ?_, ?_⟩
    · rw [simplify_eq]
      simp only [kids, e1, f1]
      have hd : dropZero op (Expr.lit n) = (op, .lit n) := rfl
      have : combine (.bin op (.lit m) (.lit n)) = .lit (BinOp.apply op m n) := by
        rw [combine, propagate_bin, hd, propagate_term, propagate_term]
        rfl
      rw [this]
      rfl
    · rw [apply_lit] at hxy
      cases hxy
      cases op <;> simp only [Val.shift, BinOp.apply, Val.mk.injEq, true_and] <;> omega
    · simp only [mag]
      cases op <;> simp only [BinOp.apply] <;> omega

/-- simplifying the children -/
theorem kids_inv {C : Expr → Prop} (hC : ∀ e, C e → Const e) {k : Option Term} {e : Expr} {v : Val}
    {B : Nat} (hB : B < 2 ^ 31)
    (ih : ∀ x, weight x < weight e → ∀ {u w k v B}, B < 2 ^ 31 → Inv sim ρ S K u w C k x v B →
      Inv sim ρ S K u w IsLit k (Expr.simplify sim x) v B ∧ NoLead (Expr.simplify sim x))
    (h : Inv sim ρ S K u w C k e v B) :
    Inv sim ρ S K u w IsLit k (kids sim e) v B ∧ (C = IsLit → NoLead e → NoLead (kids sim e))
      ∧ (∀ o x, kids sim e = .un o x → NoLead x) := by
  obtain ⟨hr, hv, ht, hf, hm⟩ := h
  cases e with
  | term t =>
    refine ⟨⟨?_, hv, ht, hf, hm⟩, fun _ h => h, by intro o x hx; cases hx⟩
    cases hr with
    | term h => exact .term h
  | un o e =>
    cases hr with
    | un hr =>
      obtain ⟨b, w, hw⟩ := ht.2
      obtain ⟨i1, i2⟩ := ih e (by simp [weight]) (B := B) hB ⟨hr, hw, ht.1, hf, hm⟩
      refine ⟨⟨.un i1.reg, ?_, ⟨i1.typed, b, w, i1.val⟩, i1.fits, i1.small⟩, ?_, ?_⟩
      · simp only [eval, hw] at hv
        simp only [kids, eval, i1.val]
        exact hv
      · intro _ _ c d hcd; cases hcd
      · intro o' x hx
        simp only [kids, Expr.un.injEq] at hx
        rw [← hx.2]
        exact i2
  | bin op a b =>
    obtain ⟨x, y, hx, hy, hxy⟩ := eval_bin hv
    have hwa : weight a < weight (.bin op a b) := by
      have := lweight_le a; have := weight_pos b; rw [weight_bin]; omega
    have hwb : weight b < weight (.bin op a b) := by
      rw [weight_bin]; omega
    have hmab : mag a + mag b ≤ B := hm
    have reg : ∀ {e : Expr}, weight e < weight (.bin op a b) → ∀ {u k v}, Regular sim C S K u k e →
        eval ρ e = some v → Typed ρ w e → Fits ρ e → mag e ≤ B →
        Inv sim ρ S K u w IsLit k (Expr.simplify sim e) v (mag e) := by
      intro e hw u k v h1 h2 h3 h4 h5
      exact (ih e hw (B := mag e) (by omega) ⟨h1, h2, h3, h4, Nat.le_refl _⟩).1
    have same : ∀ {a' b' : Expr}, (Const a → Const a') → eval ρ a' = some x → eval ρ b' = some y →
        Typed ρ w a' → Typed ρ w b' →
        eval ρ (.bin op a' b') = some v ∧ Typed ρ w (.bin op a' b') := by
      intro a' b' hc h1 h2 h3 h4
      obtain ⟨v', w1, w2, w3⟩ := rebuild (m := 0) (n := 0) (x' := x) (y' := y) hv ht
        (by rw [shift_zero]; exact hx) (by rw [shift_zero]; exact hy) h1 h2 h3 h4 hc
      rw [apply_zero, shift_zero] at w2
      subst w2
      exact ⟨w1, w3⟩
    have cst : ∀ {e : Expr} {v : Val}, C e → eval ρ e = some v → Fits ρ e → mag e ≤ B →
        ∃ n, Expr.simplify sim e = .lit n ∧ v = .int n ∧ n.natAbs ≤ mag e :=
      fun h1 h2 h3 h4 => const_inv hB (hC _ h1) h2 h3 h4
    have nou : ∀ (o : UnOp) (x : Expr), kids sim (.bin op a b) = .un o x → NoLead x := by
      intro o x hx; cases hx
    -- the left operand is regular
    have nlead : ∀ {k}, Inv sim ρ S K u w IsLit k (Expr.simplify sim a) x (mag a) →
        NoLead (kids sim (.bin op a b)) := by
      intro k hi c d hcd
      simp only [kids, Expr.bin.injEq] at hcd
      rw [← hcd.2.1]
      exact hi.reg.notLit
    cases hr with
    | cplus hc hb =>
      obtain ⟨n, e1, e2, e3⟩ := cst hc hx hf.1 (by omega)
      have j := reg hwb hb hy ht.2.1 hf.2 (by omega)
      obtain ⟨w1, w2⟩ := same (a' := .lit n) (fun _ => .lit n) (by rw [e2]; rfl) j.val trivial j.typed
      have j5 := j.small
      refine ⟨?_, ?_, nou⟩
      · simp only [kids, e1]
        exact ⟨.cplus (.lit n) j.reg, w1, w2, ⟨trivial, j.fits⟩, by simp only [mag, termMag]; omega⟩
      · rintro rfl hn
        cases hc with
        | lit c => exact absurd (hn _ _ rfl) (by simp [isLit])
    | cminus hc hb hs =>
      obtain ⟨n, e1, e2, e3⟩ := cst hc hx hf.1 (by omega)
      have j := reg hwb hb hy ht.2.1 hf.2 (by omega)
      obtain ⟨w1, w2⟩ := same (a' := .lit n) (fun _ => .lit n) (by rw [e2]; rfl) j.val trivial j.typed
      have j5 := j.small
      refine ⟨?_, ?_, nou⟩
      · simp only [kids, e1]
        exact ⟨.cminus (.lit n) j.reg hs, w1, w2, ⟨trivial, j.fits⟩, by simp only [mag, termMag]; omega⟩
      · intro _ _ c d hcd
        simp [kids] at hcd
    | binC ha hb =>
      have i := reg hwa ha hx ht.1 hf.1 (by omega)
      obtain ⟨n, e1, e2, e3⟩ := cst hb hy hf.2 (by omega)
      have hna : ¬ Const a := by
        intro hca
        obtain ⟨m, hm', _⟩ := const_inv (sim := sim) hB hca hx hf.1 (by omega)
        have := i.reg.notLit
        rw [hm'] at this
        simp [isLit] at this
      obtain ⟨w1, w2⟩ := same (b' := .lit n) (fun h => absurd h hna) i.val (by rw [e2]; rfl) i.typed
        trivial
      have i5 := i.small
      refine ⟨?_, fun _ _ => nlead i, nou⟩
      simp only [kids, e1]
      exact ⟨.binC i.reg (.lit n), w1, w2, ⟨i.fits, trivial⟩, by simp only [mag, termMag]; omega⟩
    | binK ha hk =>
      next r z =>
      have i := reg hwa ha hx ht.1 hf.1 (by omega)
      have hna : ¬ Const a := by
        intro hca
        obtain ⟨m, hm', _⟩ := const_inv (sim := sim) hB hca hx hf.1 (by omega)
        have := i.reg.notLit
        rw [hm'] at this
        simp [isLit] at this
      obtain ⟨w1, w2⟩ := same (fun h => absurd h hna) i.val hy i.typed ht.2.1
      have i5 := i.small
      refine ⟨?_, fun _ _ => nlead i, nou⟩
      simp only [kids, simplify_kref]
      exact ⟨.binK i.reg hk, w1, w2, ⟨i.fits, hf.2⟩, by simp only [mag] at *; omega⟩
    | binG ha hb hs hd =>
      have i := reg hwa ha hx ht.1 hf.1 (by omega)
      have j := reg hwb hb hy ht.2.1 hf.2 (by omega)
      have hna : ¬ Const a := by
        intro hca
        obtain ⟨m, hm', _⟩ := const_inv (sim := sim) hB hca hx hf.1 (by omega)
        have := i.reg.notLit
        rw [hm'] at this
        simp [isLit] at this
      obtain ⟨w1, w2⟩ := same (fun h => absurd h hna) i.val j.val i.typed j.typed
      have i5 := i.small
      have j5 := j.small
      refine ⟨?_, fun _ _ => nlead i, nou⟩
      simp only [kids]
      exact ⟨.binG i.reg j.reg hs hd, w1, w2, ⟨i.fits, j.fits⟩, by simp only [mag]; omega⟩

theorem typed_weaken {e : Expr} (h : Typed ρ true e) : Typed ρ w e := by
  cases w with
  | true => exact h
  | false =>
    induction e with
    | term t => trivial
    | un o e _ => exact h
    | bin o a b iha ihb => exact ⟨iha h.1, ihb h.2.1, h.2.2.1, by intro h; cases h⟩

/-- moving an offset out of `maxSet` and the like -/
theorem move_inv {op : UnOp} {k : Option Term} {a b : Expr} {v : Val} {B : Nat}
    (h : Inv sim ρ S K u w IsLit k (.un op (.bin .plus a b)) v B) (hne : NoLead (.bin .plus a b)) :
    Inv sim ρ S K u w IsLit k (.bin .minus (.un op a) b) v B := by
  obtain ⟨hreg, hv, ht, hf, hm⟩ := h
  obtain ⟨⟨ta, tb, t1, t2⟩, c, o, hco⟩ := ht
  obtain ⟨x, y, hx, hy, hxy⟩ := eval_bin hco
  cases hreg with
  | un hr =>
    have ra : ∃ k', Regular sim IsLit S K true k' a := by
      cases hr with
      | cplus hc hb => cases hc; exact absurd (hne _ _ rfl) (by simp [isLit])
      | binC ha _ | binK ha | binG ha _ _ => exact ⟨_, ha⟩
    obtain ⟨k', ra⟩ := ra
    have yb : y.base = none := (t2 rfl rfl).resolve_left ra.notConst y hy
    obtain ⟨yb', yo⟩ := y
    simp only at yb
    subst yb
    obtain ⟨xb, xo⟩ := x
    cases xb with
    | none => simp [Val.apply, Val.add, Val.int, Val.ptr] at hxy
    | some xb =>
      simp only [Val.apply, Val.add, Val.ptr, Option.some.injEq, Val.mk.injEq] at hxy
      obtain ⟨rfl, rfl⟩ := hxy
      have he : eval ρ (.bin .minus (.un op a) b) = some v := by
        apply eval_bin_intro (x := .int (ρ.size op xb - xo)) (by simp only [eval, hx]) hy
        rw [eval, hco] at hv
        simp only [Option.some.injEq] at hv
        rw [← hv]
        simp only [Val.apply, Val.sub, Val.int, Option.some.injEq, Val.mk.injEq, true_and]
        omega
      refine ⟨?_, he, ⟨⟨ta, xb, xo, hx⟩, typed_weaken tb, by rw [he]; rfl,
        by intro _ hh; cases hh⟩,
        ⟨hf.1, hf.2⟩, hm⟩
      cases hr with
      | cplus hc hb => cases hc; exact absurd (hne _ _ rfl) (by simp [isLit])
      | binC ha hb => exact .binC (.un ha) hb
      | binK ha hk => exact .binK (.un ha) hk
      | binG ha hb hs hd => exact .binG (.un ha) hb hs fun _ => hd (.inr rfl)

/-- the last step -/
theorem top_inv {k : Option Term} {e : Expr} {v : Val} {B : Nat}
    (h : Inv sim ρ S K u w IsLit k e v B) (hn : NoLead e) (hu : ∀ o x, e = .un o x → NoLead x) :
    Inv sim ρ S K u w IsLit k (simplifyTop sim e) v B ∧ NoLead (simplifyTop sim e) := by
  cases e with
  | term t =>
    have : simplifyTop sim (.term t) = .term t := by
      cases h.reg with
      | term hp =>
        cases t with
        | lit n => rfl
        | ref r v => rfl
        | node n => simp [simplifyTop, Term.simplify, hp.1]
    rw [this]
    exact ⟨h, hn⟩
  | un op e =>
    simp only [simplifyTop]
    have hne := hu op e rfl
    have hreg := h.reg
    cases hreg with
    | un hr =>
      unfold simplifyUnary
      split
      · exact ⟨h, hn⟩
      · exact ⟨h, hn⟩
      all_goals
        split
        · next n =>
          cases hr with
          | term hp => simp only [hp.2.1, hp.2.2]; exact ⟨h, hn⟩
        · next a b =>
          exact ⟨move_inv h hne, by intro c d hcd; cases hcd⟩
        · exact ⟨h, hn⟩
  | bin op a b =>
    have : simplifyTop sim (.bin op a b) = .bin op a b := by
      simp only [simplifyTop, simplifyBinary]
      cases h.reg with
      | cplus hc hb => simp [hb.noValue]
      | cminus hc hb hs => simp [hb.noValue, (hb.similar_lit (lit_value hc)).1]
      | binC ha hb => simp [ha.noValue, (ha.similar_lit (lit_value hb)).2]
      | binK ha hk =>
        next r z =>
        simp [ha.noValue, (ha.similar_lit (c := .term (.ref r (some z))) rfl).2]
      | binG ha hb _ hd =>
        cases op with
        | plus => simp [ha.noValue]
        | minus =>
          have : similar sim a b = false := by
            by_contra hs
            obtain ⟨t, ht, hts⟩ := ha.similar_core hb (by simpa using hs)
            rw [hd (.inl rfl) t ht] at hts
            cases hts
          simp [ha.noValue, this]
    rw [this]
    exact ⟨h, hn⟩

/-- Simplification keeps the class and the value of a regular expression. -/
theorem simplify_inv (e : Expr) : ∀ {C : Expr → Prop}, (∀ e, C e → Const e) → ∀ {u w k v B},
    B < 2 ^ 31 → Inv sim ρ S K u w C k e v B →
    Inv sim ρ S K u w IsLit k (Expr.simplify sim e) v B ∧ NoLead (Expr.simplify sim e) := by
  induction e using simplify_induct with
  | _ e ih =>
    intro C hC u w k v B hB h
    rw [simplify_eq]
    have h1 := (kids_inv hC hB (fun x hx _ _ _ _ _ hb hi => ih x hx hC hb hi) h).1
    obtain ⟨h2, h3⟩ := combine_inv hB h1
    have hw : weight (combine (kids sim e)) ≤ weight e :=
      Nat.le_trans (combine_weight _) (kids_weight sim e).2
    obtain ⟨h4, h5, h6⟩ := kids_inv (fun _ => lit_const) hB
      (fun x hx _ _ _ _ _ hb hi => ih x (by omega) (fun _ => lit_const) hb hi) h2
    exact top_inv h4 (h5 rfl h3) h6

end Splint.Bounds
