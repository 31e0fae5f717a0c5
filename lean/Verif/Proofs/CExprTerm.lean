import Verif.Model.CExpr
/-! Simplification of bounds expressions terminates: a weight that no step increases. -/
namespace Splint.Bounds.Expr

/-- extra weight of a literal as a left operand -/
def litExtra : Expr → Nat
  | .term (.lit n) => if n = 0 then 0 else 2
  | _ => 0

/-- the weight of an expression -/
def weight : Expr → Nat
  | .term (.lit n) => if n = 0 then 1 else 2
  | .term _ => 4
  | .un _ e => weight e + 1
  | .bin _ a b => weight a + litExtra a + weight b + 1

/-- the weight of an expression as a left operand -/
def lweight (e : Expr) : Nat := weight e + litExtra e

/-- the weight of an added constant -/
def litCost (n : Int) : Nat := if n = 0 then 0 else 3

theorem weight_pos (e : Expr) : 1 ≤ weight e := by
  cases e with
  | term t => cases t <;> simp only [weight] <;> (try split) <;> omega
  | un o e => simp [weight]
  | bin o a b => simp [weight]

theorem lweight_le (e : Expr) : weight e ≤ lweight e := by simp [lweight]

theorem weight_bin (o : BinOp) (a b : Expr) : weight (.bin o a b) = lweight a + weight b + 1 := rfl
theorem lweight_bin (o : BinOp) (a b : Expr) : lweight (.bin o a b) = lweight a + weight b + 1 := rfl
theorem weight_un (o : UnOp) (a : Expr) : weight (.un o a) = weight a + 1 := rfl
theorem lweight_un (o : UnOp) (a : Expr) : lweight (.un o a) = weight a + 1 := rfl

theorem isLit_some {e : Expr} {n : Int} : isLit e = some n ↔ e = .lit n := by
  constructor
  · intro h
    unfold isLit at h
    split at h <;> simp_all
  · rintro rfl; rfl

theorem litExtra_none {e : Expr} (h : isLit e = none) : litExtra e = 0 := by
  cases e with
  | term t => cases t <;> simp_all [isLit, litExtra]
  | un o e => rfl
  | bin o a b => rfl

theorem lweight_none {e : Expr} (h : isLit e = none) : lweight e = weight e := by
  simp [lweight, litExtra_none h]

theorem lweight_lit (n : Int) : lweight (.lit n) = if n = 0 then 1 else 4 := by
  simp only [lweight, weight, litExtra]; split <;> rfl

theorem weight_lit (n : Int) : weight (.lit n) = if n = 0 then 1 else 2 := rfl

theorem dropZero_le (op : BinOp) (b : Expr) : weight (dropZero op b).2 ≤ weight b := by
  unfold dropZero
  split
  · simp only [weight_bin, lweight_lit]; omega
  · exact Nat.le_refl _

theorem dropZero_lt {op : BinOp} {b : Expr} (h : dropZero op b ≠ (op, b)) :
    weight (dropZero op b).2 + 2 ≤ weight b := by
  unfold dropZero at h ⊢
  split
  · simp only [weight_bin, lweight_lit]; simp; omega
  · exfalso; simp_all

theorem removeZero_isLit (e : Expr) : isLit (removeZero e) = isLit e := by
  cases e <;> rfl

theorem lweight_removeZero (e : Expr) : lweight (removeZero e) ≤ lweight e := by
  cases e with
  | bin o a b =>
    simp only [removeZero, lweight_bin]
    have := dropZero_le o b
    omega
  | _ => exact Nat.le_refl _

theorem weight_removeZero (e : Expr) : weight (removeZero e) ≤ weight e := by
  cases e with
  | bin o a b =>
    simp only [removeZero, weight_bin]
    have := dropZero_le o b
    omega
  | _ => exact Nat.le_refl _

theorem toInt_zero : toInt 0 = 0 := by decide

theorem propagate_term (t : Term) : propagate (.term t) = (.term t, false, 0) := by rw [propagate]
theorem propagate_un (o : UnOp) (e : Expr) : propagate (.un o e) = (.un o e, false, 0) := by
  rw [propagate]

/-- the last part of `propagate`, after the operands -/
def assemble (op op' : BinOp) (ra rb : Expr × Bool × Int) : Expr × Bool × Int :=
    let e1 := removeZero ra.1
    let e2 := removeZero rb.1
    let l := toInt (BinOp.apply op ra.2.2 rb.2.2)
    match isLit e1, isLit e2 with
    | some x, some y => (.lit (BinOp.apply op x y), false, l)
    | some x, none =>
      (match op with
        | .plus => e2
        | .minus => .bin .minus (.lit 0) e2, true, toInt (l + x))
    | none, some y => (e1, true, toInt (BinOp.apply op l y))
    | none, none => (removeZero (.bin op' e1 e2), ra.2.1 || rb.2.1, l)

theorem propagate_bin (op : BinOp) (a b : Expr) :
    propagate (.bin op a b)
      = assemble op (dropZero op b).1 (propagate a) (propagate (dropZero op b).2) := by
  rw [propagate.eq_def]; rfl

/-- Induction along the recursion of `propagate`. -/
theorem propagate_induct {P : Expr → Prop} (term : ∀ t, P (.term t)) (un : ∀ o e, P (.un o e))
    (bin : ∀ o a b, P a → P (dropZero o b).2 → P (.bin o a b)) : ∀ e, P e := by
  intro e
  induction h : size e using Nat.strongRecOn generalizing e with
  | _ n ih =>
    cases e with
    | term t => exact term t
    | un o e => exact un o e
    | bin o a b =>
      simp only [size] at h
      exact bin o a b (ih _ (by omega) a rfl)
        (ih _ (Nat.lt_of_le_of_lt (size_dropZero o b) (by omega)) _ rfl)

theorem apply_zero (op : BinOp) : BinOp.apply op 0 0 = 0 := by cases op <;> rfl

/-- A constant that is left over is said to be left over; a literal has none left over. -/
theorem propagate_flag (e : Expr) :
    ((propagate e).2.1 = false → (propagate e).2.2 = 0)
    ∧ ((isLit (propagate e).1).isSome → (propagate e).2 = (false, 0)) := by
  induction e using propagate_induct with
  | term t => simp [propagate_term]
  | un o e => simp [propagate_un]
  | bin o a b ha hb =>
    rw [propagate_bin]
    obtain ⟨ha1, ha2⟩ := ha
    obtain ⟨hb1, hb2⟩ := hb
    generalize propagate a = ra at *
    generalize propagate (dropZero o b).2 = rb at *
    generalize (dropZero o b).1 = o' at *
    simp only [assemble, removeZero_isLit]
    cases h1 : isLit ra.1 with
    | some x =>
      cases h2 : isLit rb.1 with
      | some y =>
        have := ha2 (by simp [h1])
        have := hb2 (by simp [h2])
        simp_all [apply_zero, toInt_zero]
      | none =>
        refine ⟨by simp, fun h => ?_⟩
        cases o with
        | plus => simp [removeZero_isLit, h2] at h
        | minus => simp [isLit] at h
    | none =>
      cases h2 : isLit rb.1 with
      | some y => simp [removeZero_isLit, h1]
      | none =>
        refine ⟨fun h => ?_, fun h => ?_⟩
        · simp only [Bool.or_eq_false_iff] at h
          rw [ha1 h.1, hb1 h.2, apply_zero, toInt_zero]
        · have : isLit (removeZero (.bin o' (removeZero ra.1) (removeZero rb.1))) = none := by
            rw [removeZero_isLit]; rfl
          simp [this] at h

theorem litCost_toInt (n : Int) : litCost (toInt n) ≤ litCost n := by
  unfold litCost
  by_cases h : n = 0
  · simp [h, toInt_zero]
  · simp only [h, if_false]; split <;> omega

theorem litCost_apply (op : BinOp) (x y : Int) :
    litCost (BinOp.apply op x y) ≤ litCost x + litCost y := by
  unfold litCost
  by_cases hx : x = 0
  · subst hx
    by_cases hy : y = 0
    · subst hy; simp [apply_zero]
    · simp only [hy, if_true, if_false]; split <;> omega
  · simp only [hx, if_false]; split <;> omega

theorem litCost_add (x y : Int) : litCost (x + y) ≤ litCost x + litCost y :=
  litCost_apply .plus x y

theorem lweight_lit_apply (op : BinOp) (x y : Int) :
    lweight (.lit (BinOp.apply op x y)) ≤ lweight (.lit x) + weight (.lit y) + 1 := by
  simp only [lweight_lit, weight_lit]
  by_cases hx : x = 0
  · subst hx
    by_cases hy : y = 0
    · subst hy; simp [apply_zero]
    · simp only [hy]; split <;> simp
  · simp only [hx]; split <;> simp
    split <;> omega

theorem litCost_lt (n : Int) : litCost n + 1 ≤ lweight (.lit n) := by
  simp only [litCost, lweight_lit]; split <;> omega

theorem litCost_le (n : Int) : litCost n ≤ weight (.lit n) + 1 := by
  simp only [litCost, weight_lit]; split <;> omega

/-- the literal bound on the weight of the parts -/
theorem assemble_weight {op op' : BinOp} {ra rb : Expr × Bool × Int} {A B : Nat}
    (ha : lweight ra.1 + litCost ra.2.2 ≤ A) (hb : weight rb.1 + litCost rb.2.2 ≤ B)
    (fa : (isLit ra.1).isSome → ra.2 = (false, 0)) (fb : (isLit rb.1).isSome → rb.2 = (false, 0)) :
    lweight (assemble op op' ra rb).1 + litCost (assemble op op' ra rb).2.2 ≤ A + B + 1 := by
  have k1 := lweight_removeZero ra.1
  have k2 := weight_removeZero rb.1
  simp only [assemble, removeZero_isLit]
  have hl : litCost (toInt (BinOp.apply op ra.2.2 rb.2.2)) ≤ litCost ra.2.2 + litCost rb.2.2 :=
    Nat.le_trans (litCost_toInt _) (litCost_apply _ _ _)
  cases h1 : isLit ra.1 with
  | some x =>
    have e1 := fa (by simp [h1])
    have r1 := isLit_some.1 h1
    cases h2 : isLit rb.1 with
    | some y =>
      have e2 := fb (by simp [h2])
      have r2 := isLit_some.1 h2
      simp only [e1, e2, apply_zero, toInt_zero]
      rw [r1] at ha
      rw [r2] at hb
      have := lweight_lit_apply op x y
      simp only [litCost, if_true] at *
      omega
    | none =>
      rw [r1] at ha
      have hx := litCost_lt x
      have e2' : isLit (removeZero rb.1) = none := by rw [removeZero_isLit]; exact h2
      have k3 : litCost (toInt (toInt (BinOp.apply op ra.2.2 rb.2.2) + x))
          ≤ litCost ra.2.2 + litCost rb.2.2 + litCost x :=
        Nat.le_trans (litCost_toInt _) (Nat.le_trans (litCost_add _ _) (by omega))
      cases op with
      | plus =>
        simp only [lweight_none e2']
        omega
      | minus =>
        simp only [lweight_bin]
        have : lweight (.lit 0) = 1 := by simp [lweight_lit]
        omega
  | none =>
    cases h2 : isLit rb.1 with
    | some y =>
      have r2 := isLit_some.1 h2
      rw [r2] at hb
      have hy := litCost_le y
      have k3 : litCost (toInt (BinOp.apply op (toInt (BinOp.apply op ra.2.2 rb.2.2)) y))
          ≤ litCost ra.2.2 + litCost rb.2.2 + litCost y :=
        Nat.le_trans (litCost_toInt _) (Nat.le_trans (litCost_apply _ _ _) (by omega))
      simp only
      omega
    | none =>
      simp only
      have := lweight_removeZero (.bin op' (removeZero ra.1) (removeZero rb.1))
      rw [lweight_bin] at this
      omega

/-- Propagating constants does not add weight, with the constants counted. -/
theorem propagate_weight (e : Expr) :
    lweight (propagate e).1 + litCost (propagate e).2.2 ≤ lweight e
    ∧ weight (propagate e).1 + litCost (propagate e).2.2 ≤ weight e := by
  induction e using propagate_induct with
  | term t => simp [propagate_term, litCost]
  | un o e => simp [propagate_un, litCost]
  | bin o a b ha hb =>
    rw [propagate_bin]
    have h := assemble_weight (op := o) (op' := (dropZero o b).1) ha.1 hb.2 (propagate_flag a).2
      (propagate_flag _).2
    have h2 := dropZero_le o b
    have h3 := lweight_le (assemble o (dropZero o b).1 (propagate a) (propagate (dropZero o b).2)).1
    rw [lweight_bin, weight_bin]
    omega

theorem combine_le {e : Expr} {W : Nat}
    (h : lweight (propagate e).1 + litCost (propagate e).2.2 ≤ W) : lweight (combine e) ≤ W := by
  unfold combine
  simp only
  split
  · next hc =>
    simp only [Bool.and_eq_true, bne_iff_ne] at hc
    simp only [lweight_bin, weight_lit, if_neg hc.2]
    simp only [litCost, if_neg hc.2] at h
    omega
  · omega

theorem combine_lweight (e : Expr) : lweight (combine e) ≤ lweight e :=
  combine_le (propagate_weight e).1

theorem combine_nonbin {e : Expr} (h : ∀ o a b, e ≠ .bin o a b) : combine e = e := by
  cases e with
  | term t => simp [combine, propagate_term]
  | un o e => simp [combine, propagate_un]
  | bin o a b => exact absurd rfl (h o a b)

theorem combine_weight (e : Expr) : weight (combine e) ≤ weight e := by
  cases e with
  | bin o a b =>
    have := combine_lweight (.bin o a b)
    have := lweight_le (combine (.bin o a b))
    rw [lweight_bin] at *
    rw [weight_bin]
    omega
  | _ => rw [combine_nonbin (by simp)]

theorem lweight_term_simplify (t : Term) :
    lweight (.term t.simplify) ≤ lweight (.term t) ∧ weight (.term t.simplify) ≤ weight (.term t) := by
  cases t with
  | lit n => exact ⟨Nat.le_refl _, Nat.le_refl _⟩
  | ref r v => exact ⟨Nat.le_refl _, Nat.le_refl _⟩
  | node n =>
    simp only [Term.simplify]
    split
    · rw [lweight_lit, weight_lit]
      simp only [lweight, weight, litExtra]
      constructor <;> split <;> omega
    · exact ⟨Nat.le_refl _, Nat.le_refl _⟩

theorem lweight_simplifyUnary (op : UnOp) (e : Expr) :
    lweight (simplifyUnary op e) ≤ weight (.un op e) := by
  have hl : ∀ (n : Node) (k : Int), lweight (.lit k) ≤ weight (.un op (.term (.node n))) := by
    intro n k
    rw [lweight_lit]
    simp only [weight]
    split <;> omega
  have hs : lweight (.un op e) ≤ weight (.un op e) := Nat.le_refl _
  have hp : ∀ a b, e = .bin .plus a b →
      lweight (.bin .minus (.un op a) b) ≤ weight (.un op e) := by
    rintro a b rfl
    simp only [lweight_bin, weight_un, weight_bin, lweight_un]
    have := lweight_le a
    omega
  unfold simplifyUnary
  split
  · exact hs
  · exact hs
  all_goals
    split
    · split
      · exact hl _ _
      · exact hl _ _
      · exact hs
    · exact hp _ _ rfl
    · exact hs

theorem value_lit {e : Expr} {x : Int} (h : value e = some x) :
    lweight (.lit x) ≤ lweight e ∧ weight (.lit x) ≤ weight e := by
  cases e with
  | term t =>
    cases t with
    | lit n => simp only [value, Term.value, Option.some.injEq] at h; subst h; simp
    | ref r v =>
      rw [lweight_lit, weight_lit]
      simp only [lweight, weight, litExtra]
      constructor <;> split <;> omega
    | node n => simp [value, Term.value] at h
  | un o e => simp [value] at h
  | bin o a b => simp [value] at h

theorem lweight_simplifyBinary (sim : Nat → Nat → Bool) (op : BinOp) (a b : Expr) :
    lweight (simplifyBinary sim op a b) ≤ weight (.bin op a b) := by
  unfold simplifyBinary
  split
  · next x y hx hy =>
    have := (value_lit hx).1
    have := (value_lit hy).2
    have := lweight_lit_apply .plus x y
    simp only [BinOp.apply] at this
    rw [weight_bin]
    omega
  · split
    · rw [lweight_lit, weight_bin]; simp
    · exact Nat.le_refl _

theorem simplifyTop_weight (sim : Nat → Nat → Bool) (e : Expr) :
    lweight (simplifyTop sim e) ≤ lweight e ∧ weight (simplifyTop sim e) ≤ weight e := by
  cases e with
  | term t => exact lweight_term_simplify t
  | un op e =>
    have h := lweight_simplifyUnary op e
    exact ⟨h, Nat.le_trans (lweight_le _) h⟩
  | bin op a b =>
    have h := lweight_simplifyBinary sim op a b
    exact ⟨h, Nat.le_trans (lweight_le _) h⟩

theorem children_weight {f : Expr → Option Expr} {e : Expr}
    (hf : ∀ x, weight x < weight e → ∃ y, f x = some y ∧ lweight y ≤ lweight x ∧ weight y ≤ weight x) :
    ∃ y, children f e = some y ∧ lweight y ≤ lweight e ∧ weight y ≤ weight e := by
  cases e with
  | term t => exact ⟨_, rfl, Nat.le_refl _, Nat.le_refl _⟩
  | un op a =>
    obtain ⟨y, hy, h1, h2⟩ := hf a (by simp [weight])
    exact ⟨.un op y, by simp [children, hy], by simp only [lweight_un]; omega,
      by simp only [weight_un]; omega⟩
  | bin op a b =>
    have hla := lweight_le a
    have hpb := weight_pos b
    obtain ⟨y, hy, h1, h2⟩ := hf a (by rw [weight_bin]; omega)
    obtain ⟨z, hz, h3, h4⟩ := hf b (by rw [weight_bin]; omega)
    exact ⟨.bin op y z, by simp [children, hy, hz], by simp only [lweight_bin]; omega,
      by simp only [weight_bin]; omega⟩

/-- Simplification ends, and does not add weight. -/
theorem simplifyN_some (sim : Nat → Nat → Bool) (n : Nat) (e : Expr) (h : weight e ≤ n) :
    ∃ y, simplifyN sim n e = some y ∧ lweight y ≤ lweight e ∧ weight y ≤ weight e := by
  induction n generalizing e with
  | zero => have := weight_pos e; omega
  | succ n ih =>
    obtain ⟨e1, h1, h2, h3⟩ := children_weight (e := e) (fun x hx => ih x (by omega))
    obtain ⟨e2, h4, h5, h6⟩ := children_weight (e := combine e1)
      (fun x hx => ih x (by have := combine_weight e1; omega))
    have := combine_weight e1
    have := combine_lweight e1
    have := simplifyTop_weight sim e2
    exact ⟨simplifyTop sim e2, by simp [simplifyN, h1, h4], by omega, by omega⟩

theorem children_mono {f g : Expr → Option Expr} (h : ∀ x y, f x = some y → g x = some y)
    {e y : Expr} (hf : children f e = some y) : children g e = some y := by
  cases e with
  | term t => exact hf
  | un op a =>
    simp only [children, Option.map_eq_some_iff] at hf ⊢
    obtain ⟨x, hx, rfl⟩ := hf
    exact ⟨x, h _ _ hx, rfl⟩
  | bin op a b =>
    simp only [children, Option.bind_eq_some_iff, Option.map_eq_some_iff] at hf ⊢
    obtain ⟨x, hx, z, hz, rfl⟩ := hf
    exact ⟨x, h _ _ hx, z, h _ _ hz, rfl⟩

theorem simplifyN_succ (sim : Nat → Nat → Bool) (n : Nat) {e y : Expr}
    (h : simplifyN sim n e = some y) : simplifyN sim (n + 1) e = some y := by
  induction n generalizing e y with
  | zero => simp [simplifyN] at h
  | succ n ih =>
    rw [simplifyN] at h
    simp only [Option.bind_eq_some_iff, Option.map_eq_some_iff] at h
    obtain ⟨e1, h1, e2, h2, rfl⟩ := h
    rw [simplifyN, children_mono (fun _ _ => ih) h1, Option.bind_some,
      children_mono (fun _ _ => ih) h2, Option.map_some]

theorem simplifyN_mono (sim : Nat → Nat → Bool) {n m : Nat} (hnm : n ≤ m) {e y : Expr}
    (h : simplifyN sim n e = some y) : simplifyN sim m e = some y := by
  induction hnm with
  | refl => exact h
  | step _ ih => exact simplifyN_succ sim _ ih

theorem weight_size (e : Expr) : lweight e ≤ 5 * size e := by
  induction e with
  | term t =>
    cases t with
    | lit n => rw [lweight_lit]; simp only [size]; split <;> omega
    | ref r v => simp [lweight, weight, litExtra, size]
    | node n => simp [lweight, weight, litExtra, size]
  | un o e ih =>
    have := lweight_le e
    simp only [lweight_un, size]; omega
  | bin o a b iha ihb =>
    have := lweight_le b
    simp only [lweight_bin, size]; omega

theorem weight_bound (e : Expr) : weight e ≤ bound e := by
  have := weight_size e
  have := lweight_le e
  unfold bound
  omega

/-- enough depth gives the result -/
theorem simplify_of (sim : Nat → Nat → Bool) {n : Nat} {e y : Expr}
    (h : simplifyN sim n e = some y) : simplify sim e = y := by
  obtain ⟨z, hz, _⟩ := simplifyN_some sim (bound e) e (weight_bound e)
  have h1 := simplifyN_mono sim (Nat.le_max_left n (bound e)) h
  have h2 := simplifyN_mono sim (Nat.le_max_right n (bound e)) hz
  rw [h1] at h2
  cases h2
  simp [simplify, hz]

theorem simplifyN_simplify (sim : Nat → Nat → Bool) {n : Nat} {e : Expr} (h : weight e ≤ n) :
    simplifyN sim n e = some (simplify sim e) := by
  obtain ⟨y, hy, _⟩ := simplifyN_some sim n e h
  rw [hy, simplify_of sim hy]

theorem simplify_weight (sim : Nat → Nat → Bool) (e : Expr) :
    lweight (simplify sim e) ≤ lweight e ∧ weight (simplify sim e) ≤ weight e := by
  obtain ⟨y, hy, h⟩ := simplifyN_some sim (bound e) e (weight_bound e)
  rw [simplify_of sim hy]
  exact h

/-- `constraintExpr_simplifyChildren` with the finished function -/
def kids (sim : Nat → Nat → Bool) : Expr → Expr
  | .term t => .term t
  | .un op e => .un op (simplify sim e)
  | .bin op a b => .bin op (simplify sim a) (simplify sim b)

theorem children_simplifyN (sim : Nat → Nat → Bool) {n : Nat} {e : Expr} (h : weight e ≤ n + 1) :
    children (simplifyN sim n) e = some (kids sim e) := by
  cases e with
  | term t => rfl
  | un op a =>
    rw [weight_un] at h
    simp [children, kids, simplifyN_simplify sim (show weight a ≤ n by omega)]
  | bin op a b =>
    have := lweight_le a
    have := weight_pos b
    rw [weight_bin] at h
    simp [children, kids, simplifyN_simplify sim (show weight a ≤ n by omega),
      simplifyN_simplify sim (show weight b ≤ n by omega)]

theorem kids_weight (sim : Nat → Nat → Bool) (e : Expr) :
    lweight (kids sim e) ≤ lweight e ∧ weight (kids sim e) ≤ weight e := by
  cases e with
  | term t => exact ⟨Nat.le_refl _, Nat.le_refl _⟩
  | un op a =>
    have := simplify_weight sim a
    simp only [kids, lweight_un, weight_un]; omega
  | bin op a b =>
    have := simplify_weight sim a
    have := simplify_weight sim b
    simp only [kids, lweight_bin, weight_bin]; omega

/-- `constraintExpr_simplify` as the recursive function it is in the code. -/
theorem simplify_eq (sim : Nat → Nat → Bool) (e : Expr) :
    simplify sim e = simplifyTop sim (kids sim (combine (kids sim e))) := by
  apply simplify_of sim (n := weight e + 1)
  have h1 := kids_weight sim e
  have h2 := combine_weight (kids sim e)
  rw [simplifyN, children_simplifyN sim (by omega), Option.bind_some,
    children_simplifyN sim (by omega), Option.map_some]

/-- Induction along the recursion of `simplify`. -/
theorem simplify_induct {P : Expr → Prop} (h : ∀ e, (∀ x, weight x < weight e → P x) → P e) :
    ∀ e, P e := by
  intro e
  induction hn : weight e using Nat.strongRecOn generalizing e with
  | _ n ih => exact h e fun x hx => ih _ (hn ▸ hx) x rfl

end Splint.Bounds.Expr
