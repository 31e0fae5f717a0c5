import Verif.Proofs.CExprTerm
import Verif.Model.Constraint
/-! Simplification of bounds constraints terminates: the sides are not exchanged for ever. -/
namespace Splint.Bounds
open Expr
namespace Constraint

variable (sim : Nat → Nat → Bool)

/-- the second half of `constraintExpr_simplify` -/
def half (e : Expr) : Expr := simplifyTop sim (kids sim e)

theorem half_lweight (e : Expr) : lweight (half sim e) ≤ lweight e :=
  Nat.le_trans (simplifyTop_weight sim _).1 (kids_weight sim e).1

theorem half_lit (n : Int) : half sim (.lit n) = .lit n := rfl

theorem simplify_lit (n : Int) : Expr.simplify sim (.lit n) = .lit n := by
  rw [simplify_eq]
  have : combine (kids sim (.lit n)) = .lit n := combine_nonbin (by simp [kids])
  rw [this]; rfl

theorem simplify_bin (op : BinOp) (a b : Expr) :
    Expr.simplify sim (.bin op a b)
      = half sim (combine (.bin op (Expr.simplify sim a) (Expr.simplify sim b))) := by
  rw [simplify_eq]; rfl

/-- what a constant on the right becomes -/
theorem half_addLit (z : Expr) (k : Int) :
    (∃ n, half sim (.bin .plus z (.lit k)) = .lit n)
    ∨ half sim (.bin .plus z (.lit k)) = .bin .plus (Expr.simplify sim z) (.lit k) := by
  simp only [half, kids, simplifyTop, simplify_lit, simplifyBinary]
  cases (Expr.simplify sim z).value with
  | some x => exact .inl ⟨_, rfl⟩
  | none => exact .inr (by simp)

theorem half_zeroMinus (e : Expr) :
    (∃ n, half sim (.bin .minus (.lit 0) e) = .lit n)
    ∨ half sim (.bin .minus (.lit 0) e) = .bin .minus (.lit 0) (Expr.simplify sim e) := by
  simp only [half, kids, simplifyTop, simplify_lit, simplifyBinary]
  split
  · exact .inl ⟨_, rfl⟩
  · split
    · exact .inl ⟨_, rfl⟩
    · exact .inr rfl

/-- `lit n op b` with its constants propagated -/
theorem propagate_litBin (op : BinOp) (n : Int) (b : Expr) :
    propagate (.bin op (.lit n) b)
      = assemble op (dropZero op b).1 (.lit n, false, 0) (propagate (dropZero op b).2) := by
  rw [propagate_bin, propagate_term]

theorem combine_litBin (op : BinOp) (n : Int) (b : Expr) :
    (∃ m, combine (.bin op (.lit n) b) = .lit m)
    ∨ ∃ e2 l, isLit e2 = none
      ∧ weight e2 + litCost l ≤ weight (dropZero op b).2 + litCost n
      ∧ combine (.bin op (.lit n) b)
        = let e := match op with
            | .plus => e2
            | .minus => .bin .minus (.lit 0) e2
          if l = 0 then e else .bin .plus e (.lit l) := by
  have hw := (propagate_weight (dropZero op b).2).2
  have hf := propagate_flag (dropZero op b).2
  unfold combine
  rw [propagate_litBin]
  generalize propagate (dropZero op b).2 = rb at *
  generalize (dropZero op b).1 = o' at *
  have h1 : isLit (removeZero (Expr.lit n)) = some n := rfl
  simp only [assemble, h1, removeZero_isLit]
  cases h2 : isLit rb.1 with
  | some y =>
    left
    exact ⟨BinOp.apply op n y, by simp⟩
  | none =>
    right
    refine ⟨removeZero rb.1, toInt (toInt (BinOp.apply op 0 rb.2.2) + n), ?_, ?_, ?_⟩
    · rw [removeZero_isLit]; exact h2
    · have k1 := weight_removeZero rb.1
      have k2 := Nat.le_trans (litCost_toInt (toInt (BinOp.apply op 0 rb.2.2) + n))
        (litCost_add _ _)
      have k3 := Nat.le_trans (litCost_toInt (BinOp.apply op 0 rb.2.2)) (litCost_apply op 0 rb.2.2)
      have k4 : litCost 0 = 0 := rfl
      omega
    · cases op <;> simp only [Bool.true_and, bne_iff_ne, ne_eq, ite_not]

/-- A constant on the left of `+` goes to the right or away. -/
theorem litPlus_drop (n : Int) (b : Expr)
    (h : isLit (Expr.simplify sim (.bin .plus (.lit n) b)) = none) :
    lweight (Expr.simplify sim (.bin .plus (.lit n) b)) + 2 ≤ lweight (.lit n) + weight b + 1 := by
  rw [simplify_bin, simplify_lit] at *
  have hb := (simplify_weight sim b).2
  generalize Expr.simplify sim b = b' at *
  have hd := dropZero_le .plus b'
  rcases combine_litBin .plus n b' with ⟨m, hm⟩ | ⟨e2, l, h2, hw, hc⟩
  · rw [hm] at h; simp [half_lit, isLit] at h
  · have h1 := half_lweight sim (combine (.bin .plus (.lit n) b'))
    have h3 : lweight (combine (.bin .plus (.lit n) b')) ≤ weight e2 + litCost l := by
      rw [hc]
      simp only
      split
      · next h0 => rw [lweight_none h2]; omega
      · next h0 =>
        rw [lweight_bin, lweight_none h2, weight_lit, litCost, if_neg h0, if_neg h0]
    have h4 : litCost n + 1 ≤ lweight (.lit n) := litCost_lt n
    omega

/-- the forms after which the exchange of the sides makes progress -/
def Tame (e : Expr) : Prop :=
  (∃ z k, k ≠ 0 ∧ e = .bin .plus z (.lit k)) ∨ ∃ w, e = .bin .minus (.lit 0) w

theorem litMinus (n : Int) (b : Expr)
    (h : isLit (Expr.simplify sim (.bin .minus (.lit n) b)) = none) :
    Tame (Expr.simplify sim (.bin .minus (.lit n) b))
    ∨ lweight (Expr.simplify sim (.bin .minus (.lit n) b)) < lweight (.lit n) + weight b + 1 := by
  rw [simplify_bin, simplify_lit] at *
  have hb := (simplify_weight sim b).2
  generalize Expr.simplify sim b = b' at *
  rcases combine_litBin .minus n b' with ⟨m, hm⟩ | ⟨e2, l, h2, hw, hc⟩
  · rw [hm] at h; simp [half_lit, isLit] at h
  · left
    simp only at hc
    by_cases hl : l = 0
    · rw [if_pos hl] at hc
      rw [hc] at h ⊢
      rcases half_zeroMinus sim e2 with ⟨m, hm⟩ | hm
      · rw [hm] at h; simp [isLit] at h
      · exact .inr ⟨_, hm⟩
    · rw [if_neg hl] at hc
      rw [hc] at h ⊢
      rcases half_addLit sim (.bin .minus (.lit 0) e2) l with ⟨m, hm⟩ | hm
      · rw [hm] at h; simp [isLit] at h
      · exact .inl ⟨_, l, hl, hm⟩

/-- the opposite operator, with which the operand goes to the other side -/
def other : BinOp → BinOp
  | .plus => .minus
  | .minus => .plus

theorem simplify_twoLits_eq (op : BinOp) (n m : Int) :
    Expr.simplify sim (.bin op (.lit n) (.lit m)) = .lit (BinOp.apply op n m) := by
  rw [simplify_bin, simplify_lit, simplify_lit]
  have : combine (.bin op (.lit n) (.lit m)) = .lit (BinOp.apply op n m) := by
    unfold combine
    rw [propagate_litBin]
    have hd : dropZero op (.lit m) = (op, .lit m) := rfl
    rw [hd, propagate_term]
    rfl
  rw [this, half_lit]

theorem simplify_twoLits (op : BinOp) (n m : Int) :
    ∃ k, Expr.simplify sim (.bin op (.lit n) (.lit m)) = .lit k :=
  ⟨_, simplify_twoLits_eq _ op n m⟩

theorem combine_addLit (z : Expr) (k : Int) :
    (∃ m, combine (.bin .plus z (.lit k)) = .lit m)
    ∨ ∃ e l, lweight e ≤ lweight z
      ∧ combine (.bin .plus z (.lit k)) = if l = 0 then e else .bin .plus e (.lit l) := by
  have hw := (propagate_weight z).1
  unfold combine
  have hd : dropZero .plus (.lit k) = (.plus, .lit k) := rfl
  rw [propagate_bin, hd, propagate_term]
  generalize propagate z = ra at *
  have h1 : isLit (removeZero (Expr.lit k)) = some k := rfl
  simp only [assemble, h1, removeZero_isLit]
  cases h2 : isLit ra.1 with
  | some y => exact .inl ⟨BinOp.apply .plus y k, by simp⟩
  | none =>
    right
    refine ⟨removeZero ra.1, toInt (BinOp.apply .plus (toInt (BinOp.apply .plus ra.2.2 0)) k), ?_, ?_⟩
    · have := lweight_removeZero ra.1
      omega
    · simp only [Bool.true_and, bne_iff_ne, ne_eq, ite_not]

/-- From a tame form either the weight decreases or the operand was subtracted. -/
theorem tame_step {L a b : Expr} {op : BinOp} {n : Int} (ht : Tame L)
    (hs : Expr.simplify sim L = .bin op a b)
    (hr : isLit (Expr.simplify sim (.bin (other op) (.lit n) b)) = none) :
    op = .minus ∨ lweight (Expr.simplify sim L) < lweight L := by
  have nolit : ∀ k, b ≠ .lit k := by
    rintro k rfl
    obtain ⟨m, hm⟩ := simplify_twoLits sim (other op) n k
    rw [hm] at hr; simp [isLit] at hr
  rcases ht with ⟨z, k, hk, rfl⟩ | ⟨w, rfl⟩
  · right
    have hz := (simplify_weight sim z).1
    rw [simplify_bin, simplify_lit] at hs ⊢
    rcases combine_addLit (Expr.simplify sim z) k with ⟨m, hm⟩ | ⟨e, l, he, hc⟩
    · rw [hm, half_lit] at hs; simp at hs
    · by_cases hl : l = 0
      · rw [if_pos hl] at hc
        have := half_lweight sim (combine (.bin .plus (Expr.simplify sim z) (.lit k)))
        rw [hc] at this ⊢
        rw [lweight_bin]
        omega
      · rw [if_neg hl] at hc
        rw [hc] at hs
        rcases half_addLit sim e l with ⟨m, hm⟩ | hm
        · rw [hm] at hs; simp at hs
        · rw [hm] at hs
          injection hs with _ _ h3
          exact absurd h3.symm (nolit l)
  · have hw := (simplify_weight sim w).2
    rw [simplify_bin, simplify_lit] at hs ⊢
    generalize Expr.simplify sim w = w' at *
    rcases combine_litBin .minus 0 w' with ⟨m, hm⟩ | ⟨e2, l, h2, hwt, hc⟩
    · rw [hm, half_lit] at hs; simp at hs
    · simp only at hc
      by_cases hl : l = 0
      · left
        rw [if_pos hl] at hc
        rw [hc] at hs
        rcases half_zeroMinus sim e2 with ⟨m, hm⟩ | hm
        · rw [hm] at hs; simp at hs
        · rw [hm] at hs
          injection hs with h1 _ _
          exact h1.symm
      · rw [if_neg hl] at hc
        rw [hc] at hs
        rcases half_addLit sim (.bin .minus (.lit 0) e2) l with ⟨m, hm⟩ | hm
        · rw [hm] at hs; simp at hs
        · rw [hm] at hs
          injection hs with _ _ h3
          exact absurd h3.symm (nolit l)

open Classical in
noncomputable def rank (e : Expr) : Nat := if Tame e then 0 else 1

theorem rank_le (e : Expr) : rank e ≤ 1 := by unfold rank; split <;> omega
theorem rank_tame {e : Expr} (h : Tame e) : rank e = 0 := by rw [rank, if_pos h]
theorem rank_wild {e : Expr} (h : ¬Tame e) : rank e = 1 := by rw [rank, if_neg h]

/-- the potential of a constraint with a literal on the right -/
noncomputable def potential (L : Expr) (n : Int) : Nat :=
  2 * (lweight L + lweight (.lit n)) + rank L

theorem potential_lt {L a b : Expr} {op : BinOp} {n m : Int}
    (hs : Expr.simplify sim L = .bin op a b) (ha : Expr.simplify sim a = .lit m)
    (hr : isLit (Expr.simplify sim (.bin (other op) (.lit n) b)) = none) :
    potential (Expr.simplify sim (.bin (other op) (.lit n) b)) m < potential L n := by
  have h1 := (simplify_weight sim L).1
  have h2 := (simplify_weight sim a).1
  have h3 := (simplify_weight sim (.bin (other op) (.lit n) b)).1
  rw [ha] at h2
  rw [lweight_bin] at h3
  have h4 : lweight (Expr.simplify sim L) = lweight a + weight b + 1 := by rw [hs, lweight_bin]
  have ht := fun h => tame_step sim (L := L) (n := n) h hs hr
  have e1 := rank_le (Expr.simplify sim (.bin (other op) (.lit n) b))
  unfold potential
  cases op with
  | minus =>
    have := litPlus_drop sim n b hr
    simp only [other] at *
    omega
  | plus =>
    simp only [other] at *
    by_cases hL : Tame L
    · have := (ht hL).resolve_left (by simp)
      omega
    · rw [rank_wild hL]
      rcases litMinus sim n b hr with h | h
      · rw [rank_tame h]; omega
      · omega

/-- what `step` yields -/
theorem step_cases (c : Constraint) :
    (∃ op a b, Expr.simplify sim c.l = .bin op a b
      ∧ step sim c = ⟨Expr.simplify sim a, c.ar,
          Expr.simplify sim (.bin (other op) (Expr.simplify sim c.r) b)⟩)
    ∨ ((∀ op a b, Expr.simplify sim c.l ≠ .bin op a b)
      ∧ step sim c = ⟨Expr.simplify sim c.l, c.ar, Expr.simplify sim c.r⟩) := by
  unfold step
  simp only [both]
  cases h : Expr.simplify sim c.l with
  | bin op a b =>
    left
    refine ⟨op, a, b, rfl, ?_⟩
    cases op <;> simp [solve, other]
  | term t => exact .inr ⟨by simp, rfl⟩
  | un o e => exact .inr ⟨by simp, rfl⟩

/-- From a constraint with a literal on the right, exchanging the sides ends. -/
theorem simplifyN_lit (k : Nat) (L : Expr) (ar : Ar) (n : Int) (h : potential L n < k) :
    ∃ c, simplifyN sim k ⟨L, ar, .lit n⟩ = some c := by
  induction k generalizing L ar n with
  | zero => omega
  | succ k ih =>
    rw [simplifyN]
    split
    · exact ⟨_, rfl⟩
    · simp only
      split
      · next hc =>
        rcases step_cases sim ⟨L, ar, .lit n⟩ with ⟨op, a, b, hs, he⟩ | ⟨_, he⟩
        · rw [he] at hc ⊢
          simp only [Bool.and_eq_true, Option.isNone_iff_eq_none] at hc
          obtain ⟨m, hm⟩ := Option.isSome_iff_exists.1 hc.1
          have hm := isLit_some.1 hm
          simp only at hm hc hs
          rw [simplify_lit] at hc ⊢
          have := potential_lt sim hs hm hc.2
          simp only [swap]
          rw [hm]
          exact ih _ _ _ (by omega)
        · rw [he] at hc
          simp only [simplify_lit] at hc
          simp [isLit] at hc
      · exact ⟨_, rfl⟩

theorem step_weight (c : Constraint) :
    lweight (step sim c).l + lweight (step sim c).r ≤ lweight c.l + lweight c.r := by
  have h1 := (simplify_weight sim c.l).1
  have h2 := (simplify_weight sim c.r).1
  rcases step_cases sim c with ⟨op, a, b, hs, he⟩ | ⟨_, he⟩
  · rw [he]
    rw [hs, lweight_bin] at h1
    have h3 := (simplify_weight sim a).1
    have h4 := (simplify_weight sim (.bin (other op) (Expr.simplify sim c.r) b)).1
    rw [lweight_bin] at h4
    simp only
    omega
  · rw [he]
    simp only
    omega

/-- Simplification of a constraint ends. -/
theorem simplifyN_bound (c : Constraint) : ∃ d, simplifyN sim (bound c) c = some d := by
  have h1 := weight_size c.l
  have h2 := weight_size c.r
  have h3 : 1 ≤ size c.l := by cases c.l <;> simp [size]
  obtain ⟨k, hk⟩ : ∃ k, bound c = k + 1 := ⟨bound c - 1, by unfold bound; omega⟩
  rw [hk, simplifyN]
  split
  · exact ⟨_, rfl⟩
  · simp only
    split
    · next hc =>
      simp only [Bool.and_eq_true] at hc
      obtain ⟨m, hm⟩ := Option.isSome_iff_exists.1 hc.1
      have hw := step_weight sim c
      rw [isLit_some.1 hm] at hw
      simp only [swap, isLit_some.1 hm]
      apply simplifyN_lit
      unfold potential
      unfold bound at hk
      have := rank_le (step sim c).r
      omega
    · exact ⟨_, rfl⟩

theorem simplifyN_succ (n : Nat) {c d : Constraint} (h : simplifyN sim n c = some d) :
    simplifyN sim (n + 1) c = some d := by
  induction n generalizing c d with
  | zero => simp [simplifyN] at h
  | succ n ih =>
    rw [simplifyN] at h ⊢
    split
    · next ht => rw [if_pos ht] at h; exact h
    · next ht =>
      rw [if_neg ht] at h
      simp only at h ⊢
      split
      · next hc => rw [if_pos hc] at h; exact ih h
      · next hc => rw [if_neg hc] at h; exact h

theorem simplifyN_mono {n m : Nat} (hnm : n ≤ m) {c d : Constraint}
    (h : simplifyN sim n c = some d) : simplifyN sim m c = some d := by
  induction hnm with
  | refl => exact h
  | step _ ih => exact simplifyN_succ sim _ ih

theorem simplify_of {n : Nat} {c d : Constraint} (h : simplifyN sim n c = some d) :
    simplify sim c = d := by
  obtain ⟨z, hz⟩ := simplifyN_bound sim c
  have h1 := simplifyN_mono sim (Nat.le_max_left n (bound c)) h
  have h2 := simplifyN_mono sim (Nat.le_max_right n (bound c)) hz
  rw [h1] at h2
  cases h2
  simp [simplify, hz]

/-- `constraint_simplify` as the recursive function it is in the code. -/
theorem simplify_eq (c : Constraint) :
    simplify sim c
      = if tooDeep c then c
        else if (isLit (step sim c).l).isSome && (isLit (step sim c).r).isNone then
          simplify sim (swap (step sim c))
        else step sim c := by
  obtain ⟨d, hd⟩ := simplifyN_bound sim (swap (step sim c))
  apply simplify_of sim (n := bound (swap (step sim c)) + 1)
  rw [simplifyN]
  split
  · rfl
  · simp only
    split
    · rw [hd, simplify_of sim hd]
    · rfl

end Constraint
end Splint.Bounds
