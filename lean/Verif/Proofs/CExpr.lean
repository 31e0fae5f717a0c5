import Verif.Proofs.CExprTerm
import Verif.Spec.CExpr
/-! Similar expressions have the same value; replacing equals by equals (C29). -/
namespace Splint.Bounds
open Expr Spec

theorem Term.similar_eval {sim : Nat → Nat → Bool} {ρ : State} (hs : Same sim ρ) {t u : Term}
    (ht : TermFits ρ t) (hu : TermFits ρ u) (h : t.similar sim u = true) :
    evalTerm ρ t = evalTerm ρ u := by
  have val : ∀ (t : Term) x, TermFits ρ t → t.value = some x → evalTerm ρ t = .int x := by
    intro t x ht hv
    cases t with
    | lit n => simp only [Term.value, Option.some.injEq] at hv; subst hv; rfl
    | ref r v => exact ht x hv
    | node n => cases hv
  have rf : ∀ (t : Term) r, TermFits ρ t → t.getRef = some r → evalTerm ρ t = ρ.ref r := by
    intro t x ht hv
    cases t with
    | lit n => cases hv
    | ref r v => simp only [Term.getRef, Option.some.injEq] at hv; subst hv; rfl
    | node n => exact ht.1 x hv
  unfold Term.similar at h
  split at h
  · next x y hx hy =>
    rw [val t x ht hx, val u y hu hy, eq_of_beq h]
  · cases h
  · cases h
  · split at h
    · next r s hr hs' => rw [rf t r ht hr, rf u s hu hs', hs r s h]
    · cases h

theorem Expr.similar_eval {sim : Nat → Nat → Bool} {ρ : State} (hs : Same sim ρ) {e f : Expr}
    (he : Fits ρ e) (hf : Fits ρ f) (h : e.similar sim f = true) : eval ρ e = eval ρ f := by
  induction e generalizing f with
  | term t =>
    cases f with
    | term u => simp only [eval, Term.similar_eval hs he hf h]
    | un o e => cases h
    | bin o a b => cases h
  | un o e ih =>
    cases f with
    | term u => cases h
    | un p f =>
      simp only [Expr.similar, Bool.and_eq_true, beq_iff_eq] at h
      obtain ⟨rfl, h⟩ := h
      have hf : Fits ρ f := hf
      simp only [eval, ih he hf h]
    | bin o a b => cases h
  | bin o a b iha ihb =>
    cases f with
    | term u => cases h
    | un p f => cases h
    | bin p c d =>
      simp only [Expr.similar, Bool.and_eq_true, beq_iff_eq] at h
      obtain ⟨rfl, h1, h2⟩ := h
      simp only [eval, iha he.1 hf.1 h1, ihb he.2 hf.2 h2]

theorem Expr.replace_eval {sim : Nat → Nat → Bool} {ρ : State} (hs : Same sim ρ)
    {old new e : Expr} (ho : Fits ρ old) (he : Fits ρ e) (heq : eval ρ old = eval ρ new) :
    eval ρ (Expr.replace sim old new e) = eval ρ e := by
  induction e with
  | term t =>
    simp only [Expr.replace]
    split
    · next h => rw [← heq, Expr.similar_eval hs he ho h]
    · rfl
  | un o e ih =>
    simp only [Expr.replace]
    split
    · next h => rw [← heq, Expr.similar_eval hs he ho h]
    · simp only [eval, ih he]
  | bin o a b iha ihb =>
    simp only [Expr.replace]
    split
    · next h => rw [← heq, Expr.similar_eval hs he ho h]
    · simp only [eval, iha he.1, ihb he.2]

theorem Expr.search_iff {sim : Nat → Nat → Bool} {old e : Expr} :
    Expr.search sim old e = true ↔ ∃ s, Part s e ∧ Expr.similar sim s old = true := by
  induction e with
  | term t =>
    constructor
    · intro h; exact ⟨_, .refl _, h⟩
    · rintro ⟨s, hp, h⟩; cases hp; exact h
  | un o e ih =>
    simp only [Expr.search, Bool.or_eq_true, ih]
    constructor
    · rintro (h | ⟨s, hp, h⟩)
      · exact ⟨_, .refl _, h⟩
      · exact ⟨s, .un hp, h⟩
    · rintro ⟨s, hp, h⟩
      cases hp with
      | refl => exact .inl h
      | un hp => exact .inr ⟨s, hp, h⟩
  | bin o a b iha ihb =>
    simp only [Expr.search, Bool.or_eq_true, iha, ihb]
    constructor
    · rintro (h | ⟨s, hp, h⟩ | ⟨s, hp, h⟩)
      · exact ⟨_, .refl _, h⟩
      · exact ⟨s, .left hp, h⟩
      · exact ⟨s, .right hp, h⟩
    · rintro ⟨s, hp, h⟩
      cases hp with
      | refl => exact .inl h
      | left hp => exact .inr (.inl ⟨s, hp, h⟩)
      | right hp => exact .inr (.inr ⟨s, hp, h⟩)

theorem Expr.replace_absent {sim : Nat → Nat → Bool} {old new e : Expr}
    (h : Expr.search sim old e = false) : Expr.replace sim old new e = e := by
  induction e with
  | term t => simp only [Expr.search] at h; simp [Expr.replace, h]
  | un o e ih =>
    simp only [Expr.search, Bool.or_eq_false_iff] at h
    simp [Expr.replace, h.1, ih h.2]
  | bin o a b iha ihb =>
    simp only [Expr.search, Bool.or_eq_false_iff] at h
    simp [Expr.replace, h.1, iha h.2.1, ihb h.2.2]

end Splint.Bounds
