import Verif.Proofs.CExprEval
import Verif.Proofs.ConstraintTerm
/-! Rearranging constraints (C26). -/
namespace Splint.Bounds
open Expr Spec

variable {sim : Nat → Nat → Bool} {ρ : State} {S S' : Term → Prop} {K K' : Prop} {u w : Bool}

theorem Spec.Regular.widen {C : Expr → Prop} (h : ∀ t, S t → S' t) (hk : K → K') {k : Option Term}
    {e : Expr} (hr : Regular sim C S K u k e) : Regular sim C S' K' u k e := by
  induction hr with
  | term h => exact .term h
  | un _ ih => exact .un ih
  | cplus hc _ ih => exact .cplus hc ih
  | cminus hc _ hs ih => exact .cminus hc ih (h _ hs)
  | binC _ hb ih => exact .binC ih hb
  | binK _ h ih => exact .binK ih (hk h)
  | binG _ _ hs hd iha ihb => exact .binG iha ihb (h _ hs) hd

theorem Inv.widen {C : Expr → Prop} (h : ∀ t, S t → S' t) {k : Option Term} {e : Expr} {v : Val}
    {B : Nat} (hi : Inv sim ρ S K u w C k e v B) : Inv sim ρ S' K u w C k e v B :=
  ⟨hi.reg.widen h id, hi.val, hi.typed, hi.fits, hi.small⟩

/-- moving an operand to the other side -/
theorem other_apply {op : BinOp} {xa xb x y : Val} (h : Val.apply op xa xb = some x)
    (hb : x.base = y.base) :
    ∃ y2, Val.apply (Constraint.other op) y xb = some y2 ∧ xa.base = y2.base
      ∧ xa.off - y2.off = x.off - y.off := by
  obtain ⟨ba, oa⟩ := xa
  obtain ⟨bb, ob⟩ := xb
  obtain ⟨bx, ox⟩ := x
  obtain ⟨by', oy⟩ := y
  simp only at hb
  subst hb
  cases op <;> cases ba <;> cases bb <;> cases bx <;>
    simp only [Val.apply, Constraint.other, Val.add, Val.sub, Val.int, Val.ptr, Option.some.injEq,
      Val.mk.injEq, reduceCtorEq, false_and, true_and, and_false, Option.ite_none_right_eq_some] at h ⊢
  all_goals first
    | (obtain ⟨rfl, h⟩ := h; exact ⟨_, ⟨rfl, rfl⟩, rfl, by simp only; omega⟩)
    | (obtain ⟨rfl, h⟩ := h; exact ⟨_, rfl, rfl, by simp only; omega⟩)
    | exact ⟨_, rfl, rfl, by simp only; omega⟩
    | (exfalso; simp_all)

theorem rel_congr {ar : Ar} {x y x' y' : Val} (h1 : x.base = y.base) (h2 : x'.base = y'.base)
    (h : x.off - y.off = x'.off - y'.off) : Rel ar x y ↔ Rel ar x' y' := by
  obtain ⟨bx, ox⟩ := x
  obtain ⟨by', oy⟩ := y
  obtain ⟨bx', ox'⟩ := x'
  obtain ⟨by2, oy'⟩ := y'
  simp only at h1 h2 h
  subst h1 h2
  cases ar <;> simp only [Rel, true_and, Val.mk.injEq] <;> omega

theorem rel_flip {ar : Ar} {x y : Val} : Rel (Constraint.flipAr ar) y x ↔ Rel ar x y := by
  cases ar <;> simp only [Rel, Constraint.flipAr] <;> constructor <;>
    first
    | (rintro ⟨h1, h2⟩; exact ⟨h1.symm, h2⟩)
    | (intro h; exact h.symm)

theorem holds_swap (c : Constraint) : Holds ρ c.swap ↔ Holds ρ c := by
  constructor
  · rintro ⟨x, y, hx, hy, h⟩; exact ⟨y, x, hy, hx, rel_flip.1 h⟩
  · rintro ⟨x, y, hx, hy, h⟩; exact ⟨y, x, hy, hx, rel_flip.2 h⟩

theorem Spec.Rel.base {ar : Ar} {x y : Val} (h : Rel ar x y) : x.base = y.base := by
  cases ar <;> first | exact h.1 | (cases h; rfl)

theorem apply_other_other {op : BinOp} {y xb y2 xa : Val}
    (h : Val.apply (Constraint.other op) y xb = some y2) (hb : xa.base = y2.base) :
    ∃ x, Val.apply op xa xb = some x ∧ x.base = y.base ∧ xa.off - y2.off = x.off - y.off := by
  obtain ⟨x, h1, h2, h3⟩ := other_apply h hb.symm
  have : Constraint.other (Constraint.other op) = op := by cases op <;> rfl
  rw [this] at h1
  exact ⟨x, h1, h2.symm, by omega⟩

theorem holds_solve (c : Constraint) : Holds ρ c.solve ↔ Holds ρ c := by
  have key : ∀ (op : BinOp) (a b r : Expr) (ar : Ar),
      Holds ρ ⟨a, ar, .bin (Constraint.other op) r b⟩ ↔ Holds ρ ⟨.bin op a b, ar, r⟩ := by
    intro op a b r ar
    constructor
    · rintro ⟨x, y, hx, hy, h⟩
      obtain ⟨yr, yb, h1, h2, h3⟩ := eval_bin hy
      obtain ⟨z, h4, h5, h6⟩ := apply_other_other h3 h.base
      exact ⟨z, yr, eval_bin_intro hx h2 h4, h1, (rel_congr h.base h5 h6).1 h⟩
    · rintro ⟨x, y, hx, hy, h⟩
      obtain ⟨xa, xb, h1, h2, h3⟩ := eval_bin hx
      obtain ⟨z, h4, h5, h6⟩ := other_apply h3 h.base
      exact ⟨xa, z, h1, eval_bin_intro hy h2 h4, (rel_congr h5 h.base h6).2 h⟩
  obtain ⟨l, ar, r⟩ := c
  cases l with
  | term t => exact Iff.rfl
  | un o e => exact Iff.rfl
  | bin op a b =>
    cases op with
    | plus => exact key .plus a b r ar
    | minus => exact key .minus a b r ar

/-- a literal or a regular expression, with its value -/
def Side (sim : Nat → Nat → Bool) (ρ : State) (S : Term → Prop) (e : Expr) (v : Val) (B : Nat) :
    Prop :=
  (∃ n : Int, e = .lit n ∧ v = .int n ∧ n.natAbs ≤ B)
  ∨ ∃ k, Inv sim ρ S False false false IsLit k e v B ∧ NoLead e

theorem Side.eval {e : Expr} {v : Val} {B : Nat} (h : Side sim ρ S e v B) :
    Spec.eval ρ e = some v := by
  rcases h with ⟨n, rfl, rfl, _⟩ | ⟨k, h, _⟩
  · rfl
  · exact h.val

theorem side_const {e : Expr} {v : Val} {B : Nat} (hB : B < 2 ^ 31) (hc : Const e)
    (hv : eval ρ e = some v) (hf : Fits ρ e) (hm : mag e ≤ B) :
    Side sim ρ S (simplify sim e) v B := by
  obtain ⟨n, h1, h2, h3⟩ := const_inv (sim := sim) hB hc hv hf hm
  exact .inl ⟨n, h1, h2, by omega⟩

theorem side_inv {C : Expr → Prop} (hC : ∀ e, C e → Const e) {k : Option Term} {e : Expr} {v : Val}
    {B : Nat} (hB : B < 2 ^ 31) (h : Inv sim ρ S False false false C k e v B) :
    Side sim ρ S (simplify sim e) v B := by
  obtain ⟨h1, h2⟩ := simplify_inv e hC hB h
  exact .inr ⟨k, h1, h2⟩

/-- what the right side of a constraint may be: a constant, or regular with a first term that is
not taken to be the same as that of any right operand on the left -/
def Right (sim : Nat → Nat → Bool) (ρ : State) (S S' : Term → Prop) (e : Expr) (v : Val) (B : Nat) :
    Prop :=
  (Const e ∧ eval ρ e = some v ∧ Fits ρ e ∧ mag e ≤ B)
  ∨ ∃ k, Inv sim ρ S' False false false Const k e v B
    ∧ ∀ s, S s → ∀ t, k = some t → t.similar sim s = false

namespace Constraint

/-- one step of rearranging -/
theorem step_inv {c : Constraint} {k : Option Term} {x y : Val} {B D : Nat} (hBD : B + D < 2 ^ 31)
    (hl : Inv sim ρ S False false false Const k c.l x B) (hr : Right sim ρ S S' c.r y D)
    (hb : x.base = y.base) :
    ∃ x2 y2 B2 D2, Side sim ρ (fun t => S t ∨ S' t) (step sim c).l x2 B2
      ∧ Side sim ρ (fun t => S t ∨ S' t) (step sim c).r y2 D2
      ∧ B2 + D2 ≤ B + D ∧ x2.base = y2.base ∧ x2.off - y2.off = x.off - y.off
      ∧ (step sim c).ar = c.ar := by
  obtain ⟨hl1, hl2⟩ := simplify_inv c.l (fun _ h => h) (by omega) hl
  have hr1 : (∃ n : Int, Expr.simplify sim c.r = .lit n ∧ y = .int n ∧ n.natAbs ≤ D)
      ∨ ∃ k, (Inv sim ρ S' False false false IsLit k (Expr.simplify sim c.r) y D
          ∧ NoLead (Expr.simplify sim c.r))
        ∧ ∀ s, S s → ∀ t, k = some t → t.similar sim s = false := by
    rcases hr with ⟨h1, h2, h3, h4⟩ | ⟨k, h1, h2⟩
    · obtain ⟨n, a1, a2, a3⟩ := const_inv (sim := sim) (by omega) h1 h2 h3 h4
      exact .inl ⟨n, a1, a2, by omega⟩
    · exact .inr ⟨k, simplify_inv c.r (fun _ h => h) (by omega) h1, h2⟩
  rcases step_cases sim c with ⟨op, a, b, hs, he⟩ | ⟨_, he⟩
  · rw [he]
    rw [hs] at hl1 hl2
    generalize Expr.simplify sim c.r = r at *
    obtain ⟨hreg, hv, ht, hf, hm⟩ := hl1
    obtain ⟨xa, xb, ha, hb', hab⟩ := eval_bin hv
    obtain ⟨y2, h1, h2, h3⟩ := other_apply hab hb
    have hmab : mag a + mag b ≤ B := hm
    -- the new right side
    have lit : ∀ m : Int, b = .lit m →
        Side sim ρ (fun t => S t ∨ S' t) (Expr.simplify sim (.bin (other op) r b)) y2 (D + mag b) := by
      rintro m rfl
      rcases hr1 with ⟨n, rfl, rfl, hn⟩ | ⟨k', ⟨hi, _⟩, _⟩
      · exact side_const (by simp only [mag] at *; omega) (.bin (.lit n) (.lit m))
          (eval_bin_intro rfl hb' h1) ⟨trivial, trivial⟩ (by simp only [mag, termMag]; omega)
      · have hi5 := hi.small
        refine side_inv (fun _ => lit_const) (by omega)
          ((⟨.binC hi.reg (.lit m), eval_bin_intro hi.val hb' h1, ⟨hi.typed, trivial, ?_, ?_⟩,
            ⟨hi.fits, trivial⟩, ?_⟩ : Inv sim ρ S' False false false IsLit k' _ y2 _).widen
              fun _ h => .inr h)
        · rw [eval_bin_intro hi.val hb' h1]; rfl
        · intro h; cases h
        · simp only [mag]; omega
    have reg : ∀ s : Term, S s → Regular sim IsLit S False false (some s) b →
        Side sim ρ (fun t => S t ∨ S' t) (Expr.simplify sim (.bin (other op) r b)) y2 (D + mag b) := by
      intro s hs hb2
      have hb3 := hb2.widen (S' := fun t => S t ∨ S' t) (fun _ h => .inl h) (id : False → False)
      have hty : ∀ {r : Expr} {y : Val}, Typed ρ false r → eval ρ r = some y →
          Val.apply (other op) y xb = some y2 → Typed ρ false (.bin (other op) r b) := by
        intro r y h1 h2 h3
        refine ⟨h1, ht.2.1, ?_, by intro h; cases h⟩
        rw [eval_bin_intro h2 hb' h3]; rfl
      rcases hr1 with ⟨n, rfl, rfl, hn⟩ | ⟨k', ⟨hi, _⟩, hd⟩
      · have hm : mag (Expr.bin (other op) (.lit n) b) ≤ D + mag b := by
          simp only [mag, termMag]; omega
        cases hop : other op with
        | plus =>
          rw [hop] at hm h1 hty
          exact side_inv (fun _ => lit_const) (by omega)
            ⟨.cplus (.lit n) hb3, eval_bin_intro rfl hb' h1, hty trivial rfl h1, ⟨trivial, hf.2⟩, hm⟩
        | minus =>
          rw [hop] at hm h1 hty
          exact side_inv (fun _ => lit_const) (by omega)
            ⟨.cminus (.lit n) hb3 (.inl hs), eval_bin_intro rfl hb' h1, hty trivial rfl h1,
              ⟨trivial, hf.2⟩, hm⟩
      · have hi5 := hi.small
        exact side_inv (fun _ => lit_const) (by omega)
          ⟨.binG (hi.reg.widen (fun _ h => .inr h) id) hb3 (.inl hs) (fun _ => hd s hs),
            eval_bin_intro hi.val hb' h1, hty hi.typed hi.val h1, ⟨hi.fits, hf.2⟩,
            by simp only [mag]; omega⟩
    have left : ∀ k, Regular sim IsLit S False false k a →
        Side sim ρ (fun t => S t ∨ S' t) (Expr.simplify sim a) xa (mag a) := by
      intro k hk
      exact side_inv (fun _ => lit_const) (by omega)
        ((⟨hk, ha, ht.1, hf.1, Nat.le_refl _⟩ : Inv sim ρ S False false false IsLit k a xa _).widen
          fun _ h => .inl h)
    cases hreg with
    | cplus hc hb => cases hc; exact absurd (hl2 _ _ rfl) (by simp [isLit])
    | cminus hc hb hS =>
      refine ⟨xa, y2, mag a, D + mag b, ?_, reg _ hS hb, by omega, h2, h3, rfl⟩
      cases hc with
      | lit n => exact side_const (by omega) (.lit n) ha hf.1 (Nat.le_refl _)
    | binC ha hb =>
      cases hb with
      | lit m => exact ⟨xa, y2, mag a, _, left _ ha, lit m rfl, by omega, h2, h3, rfl⟩
    | binK _ hk => exact hk.elim
    | binG ha hb hS hd =>
      exact ⟨xa, y2, mag a, D + mag b, left _ ha, reg _ hS hb, by omega, h2, h3, rfl⟩
  · rw [he]
    refine ⟨x, y, B, D, .inr ⟨k, hl1.widen fun _ h => .inl h, hl2⟩, ?_, Nat.le_refl _, hb, rfl, rfl⟩
    rcases hr1 with h | ⟨k', ⟨h, hn⟩, _⟩
    · exact .inl h
    · exact .inr ⟨k', h.widen fun _ h => .inr h, hn⟩

/-- rearranging a constraint -/
theorem simplifyN_inv (n : Nat) {c d : Constraint} {k : Option Term} {x y : Val} {B D : Nat}
    (hBD : B + D < 2 ^ 31)
    (hl : Inv sim ρ S False false false Const k c.l x B) (hr : Right sim ρ S S' c.r y D)
    (hb : x.base = y.base) (hd : simplifyN sim n c = some d) : 
    ∃ x' y', eval ρ d.l = some x' ∧ eval ρ d.r = some y' ∧ x'.base = y'.base
      ∧ (Rel d.ar x' y' ↔ Rel c.ar x y) := by
  induction n generalizing c k x y B D S S' with
  | zero => cases hd
  | succ n ih =>
    rw [simplifyN] at hd
    split at hd
    · cases hd
      refine ⟨x, y, hl.val, ?_, hb, Iff.rfl⟩
      rcases hr with h | ⟨_, h, _⟩
      · exact h.2.1
      · exact h.val
    · simp only at hd
      obtain ⟨x2, y2, B2, D2, h1, h2, h3, h4, h5, h6⟩ := step_inv hBD hl hr hb
      split at hd
      · next hc =>
        simp only [Bool.and_eq_true, Option.isNone_iff_eq_none] at hc
        rcases h1 with ⟨m, e1, rfl, e3⟩ | ⟨_, h1, _⟩
        · rcases h2 with ⟨m2, e2, _⟩ | ⟨k2, i2, _⟩
          · rw [e2] at hc; simp [isLit] at hc
          · have i3 : Inv sim ρ (fun t => S t ∨ S' t) False false false Const k2 (step sim c).r y2 D2 :=
              ⟨i2.reg.mono fun _ => lit_const, i2.val, i2.typed, i2.fits, i2.small⟩
            obtain ⟨x', y', a1, a2, a3, a4⟩ := ih (c := swap (step sim c)) (B := D2) (D := B2)
              (S' := S) (y := .int m) (by omega) i3
              (.inl ⟨by rw [swap, e1]; exact .lit m, by rw [swap, e1]; rfl, by rw [swap, e1]; trivial,
                by rw [swap, e1]; exact e3⟩) h4.symm hd
            refine ⟨x', y', a1, a2, a3, a4.trans ?_⟩
            simp only [swap]
            rw [rel_flip, h6]
            exact rel_congr h4 hb h5
        · rw [h1.reg.notLit] at hc; simp at hc
      · cases hd
        exact ⟨x2, y2, h1.eval, h2.eval, h4, by rw [h6]; exact rel_congr h4 hb h5⟩

end Constraint
end Splint.Bounds
