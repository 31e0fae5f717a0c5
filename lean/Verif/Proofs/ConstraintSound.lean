import Verif.Proofs.Constraint
import Verif.Spec.Constraint
/-! Soundness of dropping constraints (C27, C28). -/
namespace Splint.Bounds
open Expr Spec

variable {sim : Nat → Nat → Bool} {ρ : State}

theorem value_eval {e : Expr} {n : Int} (h : e.value = some n) (hf : Fits ρ e) :
    eval ρ e = some (.int n) := by
  cases e with
  | term t =>
    cases t with
    | lit m => simp only [value, Term.value, Option.some.injEq] at h; subst h; rfl
    | ref r v => simp only [value, Term.value] at h; simp only [eval, evalTerm, hf n h]
    | node n => cases h
  | un o e => cases h
  | bin o a b => cases h

/-- Propagating constants in a clean expression splits off a constant. -/
theorem propagate_clean {e : Expr} (hc : Clean ρ e) {v : Val} (hv : eval ρ e = some v)
    (hf : Fits ρ e) :
    ∃ v', eval ρ (propagate e).1 = some v' ∧ v = v'.shift (propagate e).2.2
      ∧ Fits ρ (propagate e).1 := by
  rcases hc with h | ⟨S, K, u, w, k, hr, ht, hm⟩
  · have : propagate e = (e, false, 0) := by
      cases e with
      | term t => exact propagate_term t
      | un o e => exact propagate_un o e
      | bin o a b => exact absurd rfl (h o a b)
    rw [this]
    exact ⟨v, hv, (shift_zero v).symm, hf⟩
  · obtain ⟨v', h1, h2, _⟩ := propagate_inv hm ⟨hr, hv, ht, hf, Nat.le_refl _⟩
    exact ⟨v', h1.val, h2, h1.fits⟩

namespace Constraint

theorem simplify_holds {c : Constraint} (h : Linear sim ρ c) :
    Comparable ρ (simplify sim c) ∧ (Holds ρ (simplify sim c) ↔ Holds ρ c) := by
  obtain ⟨hfl, hfr, ⟨x, y, hx, hy, hb⟩, hm, hform⟩ := h
  -- from a result about values
  have fin : ∀ {d : Constraint}, (∃ x' y', eval ρ d.l = some x' ∧ eval ρ d.r = some y'
      ∧ x'.base = y'.base ∧ (Rel d.ar x' y' ↔ Rel c.ar x y)) →
      Comparable ρ d ∧ (Holds ρ d ↔ Holds ρ c) := by
    rintro d ⟨x', y', h1, h2, h3, h4⟩
    refine ⟨⟨x', y', h1, h2, h3⟩, ?_, ?_⟩
    · rintro ⟨a, b, ha, hb', hr⟩
      rw [h1] at ha
      rw [h2] at hb'
      cases ha
      cases hb'
      exact ⟨x, y, hx, hy, h4.1 hr⟩
    · rintro ⟨a, b, ha, hb', hr⟩
      rw [hx] at ha
      rw [hy] at hb'
      cases ha
      cases hb'
      exact ⟨x', y', h1, h2, h4.2 hr⟩
  rcases hform with ⟨hc, hr⟩ | ⟨S, k, ⟨h1, h2⟩, hr⟩
  · obtain ⟨n, e1, rfl, e3⟩ := const_inv (sim := sim) (B := mag c.l) (by omega) hc hx hfl (Nat.le_refl _)
    rw [simplify_eq]
    split
    · exact ⟨⟨_, _, hx, hy, hb⟩, Iff.rfl⟩
    · have hs : step sim c = ⟨.lit n, c.ar, Expr.simplify sim c.r⟩ := by
        simp only [step, both, e1]
      rw [hs]
      rcases hr with hr | ⟨S, k, h1, h2⟩
      · obtain ⟨m, f1, rfl, f3⟩ := const_inv (sim := sim) (B := mag c.r) (by omega) hr hy hfr
          (Nat.le_refl _)
        have : ((isLit (Expr.lit n)).isSome && (isLit (Expr.simplify sim c.r)).isNone) = false := by
          rw [f1]; rfl
        simp only [this, Bool.false_eq_true, if_false]
        exact fin ⟨.int n, .int m, rfl, by rw [f1]; rfl, rfl, Iff.rfl⟩
      · obtain ⟨i1, i2⟩ := simplify_inv c.r (fun _ h => h) (B := mag c.r) (by omega)
          ⟨h1, hy, h2, hfr, Nat.le_refl _⟩
        have : ((isLit (Expr.lit n)).isSome && (isLit (Expr.simplify sim c.r)).isNone) = true := by
          rw [i1.reg.notLit]; rfl
        simp only [this, if_true]
        obtain ⟨d, hd⟩ := simplifyN_bound sim (swap ⟨.lit n, c.ar, Expr.simplify sim c.r⟩)
        rw [simplify_of sim hd]
        obtain ⟨x', y', a1, a2, a3, a4⟩ := simplifyN_inv (S := S) (S' := S) _
          (c := swap ⟨.lit n, c.ar, Expr.simplify sim c.r⟩)
          (B := mag c.r) (D := mag c.l) (k := k) (x := y) (y := .int n) (by omega)
          ⟨i1.reg.mono fun _ => lit_const, i1.val, i1.typed, i1.fits, i1.small⟩
          (.inl ⟨.lit n, rfl, trivial, e3⟩) hb.symm hd
        exact fin ⟨x', y', a1, a2, a3, a4.trans rel_flip⟩
  · obtain ⟨d, hd⟩ := simplifyN_bound sim c
    rw [simplify_of sim hd]
    rcases hr with hr | ⟨S', k', ⟨h3, h4⟩, h5⟩
    · exact fin (simplifyN_inv (S' := S) _ hm ⟨h1, hx, h2, hfl, Nat.le_refl _⟩
        (.inl ⟨hr, hy, hfr, Nat.le_refl _⟩) hb hd)
    · exact fin (simplifyN_inv (S' := S') _ hm ⟨h1, hx, h2, hfl, Nat.le_refl _⟩
        (.inr ⟨k', ⟨h3, hy, h4, hfr, Nat.le_refl _⟩, h5⟩) hb hd)

theorem sizeofBufComp_false {b1 b2 : Expr} (h : ∀ n, b2 = .term (.node n) → n.sizeOf = none)
    {b : Bool} (hz : sizeofBufComp sim b1 b2 = some b) : b = false := by
  unfold sizeofBufComp at hz
  split at hz
  · rw [h _ rfl] at hz; cases hz; rfl
  · rw [h _ rfl] at hz; cases hz; rfl
  · cases hz; rfl
  · cases hz
  · cases hz; rfl

theorem sizeOfMaxSet_false {c : Constraint} (h : NoSizeof c) {b : Bool}
    (hz : sizeOfMaxSet sim c = some b) : b = false := by
  have key : ∀ {op : BinOp} {b1 b2 con : Expr}, c.r = .bin op b2 con →
      sizeofBufComp sim b1 b2 = some b → b = false := by
    intro op b1 b2 con hr hz
    exact sizeofBufComp_false (fun n hn => h op n con (by rw [hr, hn])) hz
  unfold sizeOfMaxSet at hz
  repeat' split at hz
  all_goals first
    | (cases hz; rfl)
    | (rename_i hr _ _ _ _; exact key hr hz)
    | (rename_i hr _ _ _; exact key hr hz)
    | (rename_i hr _ _ ; exact key hr hz)
    | (rename_i hr _; exact key hr hz)
    | (rename_i hr; exact key hr hz)

theorem cmp_rel {ar : Ar} {x y : Int} (h : cmp ar (cmpValue x y) = true) :
    Rel ar (.int x) (.int y) := by
  unfold cmpValue at h
  cases ar <;> simp only [cmp, beq_iff_eq, decide_eq_true_eq, Rel, true_and, Val.mk.injEq] at * <;>
    (split at h <;> first | omega | (split at h <;> simp only [beq_iff_eq] at * <;> omega))

theorem isAlwaysTrue_rel {c : Constraint} (hs : Same sim ρ) (hl : Fits ρ c.l) (hr : Fits ρ c.r)
    (hz : NoSizeof c) (hc : Clean ρ c.r) (hcmp : Comparable ρ c)
    (h : isAlwaysTrue sim c = some true) : Holds ρ c := by
  obtain ⟨x, y, hx, hy, hb⟩ := hcmp
  refine ⟨x, y, hx, hy, ?_⟩
  simp only [isAlwaysTrue, Option.map_eq_some_iff] at h
  obtain ⟨z, hz', h⟩ := h
  rw [sizeOfMaxSet_false hz hz', Bool.false_or] at h
  split at h
  · next m n hm hn =>
    rw [value_eval hm hl] at hx
    rw [value_eval hn hr] at hy
    cases hx
    cases hy
    exact cmp_rel h
  · split at h
    · next hsim =>
      simp only [Bool.and_eq_true, Bool.or_eq_true, beq_iff_eq] at hsim
      have := Expr.similar_eval hs hl hr hsim.1
      rw [hx, hy] at this
      cases this
      rcases hsim.2 with (h | h) | h <;> rw [h] <;> simp [Rel]
    · split at h
      · next hsim =>
        simp only [Bool.and_eq_true] at hsim
        obtain ⟨v', h1, h2, h3⟩ := propagate_clean hc hy hr
        have := Expr.similar_eval hs hl h3 hsim.1
        rw [hx, h1] at this
        cases this
        rw [h2]
        cases har : c.ar <;> rw [har] at h <;>
          simp only [beq_iff_eq, decide_eq_true_eq] at h <;>
          simp only [Rel, Val.shift, true_and] <;> first | omega | skip
        rw [h]; simp
      · cases h

theorem rangeValues_rel {flip : Bool} {e1 e2 : Expr} (hs : Same sim ρ) (h1 : Fits ρ e1)
    (h2 : Fits ρ e2) (c1 : Clean ρ e1) (c2 : Clean ρ e2) {x y : Val} (hx : eval ρ e1 = some x)
    (hy : eval ρ e2 = some y) (h : rangeValues sim flip e1 e2 = true) :
    x.base = y.base ∧ if flip then y.off ≤ x.off else x.off ≤ y.off := by
  unfold rangeValues at h
  split at h
  · next m n hm hn =>
    rw [value_eval hm h1] at hx
    rw [value_eval hn h2] at hy
    cases hx
    cases hy
    refine ⟨rfl, ?_⟩
    unfold cmpValue at h
    cases flip <;> simp only [Bool.false_eq_true, ↓reduceIte, decide_eq_true_eq] at h ⊢ <;>
      (split at h <;> first | omega | (split at h <;> simp only [beq_iff_eq] at * <;> omega))
  · simp only [Bool.and_eq_true] at h
    obtain ⟨_, h4, h5⟩ := h
    obtain ⟨v1, a1, a2, a3⟩ := propagate_clean c1 hx h1
    obtain ⟨v2, b1, b2, b3⟩ := propagate_clean c2 hy h2
    have f1 := (propagate_flag e1).1
    have f2 := (propagate_flag e2).1
    have e := Expr.similar_eval hs a3 b3 h5
    rw [a1, b1] at e
    cases e
    have g1 : (if (propagate e1).2.1 then (propagate e1).2.2 else 0) = (propagate e1).2.2 := by
      split
      · rfl
      · next h => rw [f1 (by simpa using h)]
    have g2 : (if (propagate e2).2.1 then (propagate e2).2.2 else 0) = (propagate e2).2.2 := by
      split
      · rfl
      · next h => rw [f2 (by simpa using h)]
    rw [g1, g2] at h4
    rw [a2, b2]
    refine ⟨rfl, ?_⟩
    cases flip <;> simp only [Bool.false_eq_true, ↓reduceIte, decide_eq_true_eq, Val.shift]
      at h4 ⊢ <;> omega

theorem rangeCheck_rel {ar1 ar2 : Ar} {e1 e2 : Expr} (hs : Same sim ρ) (h1 : Fits ρ e1)
    (h2 : Fits ρ e2) (c1 : Clean ρ e1) (c2 : Clean ρ e2) {l x y : Val} (hx : eval ρ e1 = some x)
    (hy : eval ρ e2 = some y) (hst : Strict ar1 → Strict ar2)
    (h : rangeCheck sim ar1 e1 ar2 e2 = true) (hr : Rel ar2 l y) : Rel ar1 l x := by
  simp only [rangeCheck, Bool.and_eq_true] at h
  obtain ⟨hc, h⟩ := h
  have sm : similar sim e1 e2 = true → x = y := by
    intro h
    have := Expr.similar_eval hs h1 h2 h
    rw [hx, hy] at this
    cases this
    rfl
  have rv : ∀ flip, rangeValues sim flip e1 e2 = true → _ :=
    fun flip h => rangeValues_rel hs h1 h2 c1 c2 hx hy h
  have rb := hr.base
  cases ar1 with
  | gte =>
    have : ar2 = .gt ∨ ar2 = .gte ∨ ar2 = .eq := by cases ar2 <;> simp [canResolve] at hc ⊢
    have hr' : l.off ≥ y.off := by
      rcases this with rfl | rfl | rfl
      · have := hr.2; omega
      · exact hr.2
      · cases hr; exact Int.le_refl _
    rcases Bool.or_eq_true _ _ ▸ h with h | h
    · rw [sm h]; exact ⟨rb, hr'⟩
    · have := rv false h
      simp only [Bool.false_eq_true, if_false] at this
      exact ⟨rb.trans this.1.symm, by omega⟩
  | lte =>
    have : ar2 = .lt ∨ ar2 = .lte ∨ ar2 = .eq := by cases ar2 <;> simp [canResolve] at hc ⊢
    have hr' : l.off ≤ y.off := by
      rcases this with rfl | rfl | rfl
      · have := hr.2; omega
      · exact hr.2
      · cases hr; exact Int.le_refl _
    rcases Bool.or_eq_true _ _ ▸ h with h | h
    · rw [sm h]; exact ⟨rb, hr'⟩
    · have := rv true h
      simp only [if_true] at this
      exact ⟨rb.trans this.1.symm, by omega⟩
  | eq =>
    have : ar2 = .eq := by cases ar2 <;> simp [canResolve] at hc ⊢
    subst this
    rw [sm h]
    exact hr
  | gt =>
    have : ar2 = .gt := by
      have := hst (.inl rfl)
      cases ar2 <;> simp [canResolve, Strict] at hc this ⊢
    subst this
    have := rv false h
    simp only [Bool.false_eq_true, if_false] at this
    have := hr.2
    exact ⟨rb.trans (by simp_all), by omega⟩
  | lt =>
    have : ar2 = .lt := by
      have := hst (.inr rfl)
      cases ar2 <;> simp [canResolve, Strict] at hc this ⊢
    subst this
    have := rv true h
    simp only [if_true] at this
    have := hr.2
    exact ⟨rb.trans (by simp_all), by omega⟩

theorem satisfies_holds {pre post : Constraint} (hs : Same sim ρ) (hp : Proper ρ pre)
    (hq : Fact ρ post) (hst : Strict pre.ar → Strict post.ar)
    (h : satisfies sim pre post = some true) (hh : Holds ρ post) : Holds ρ pre := by
  simp only [satisfies, Option.map_eq_some_iff, Bool.or_eq_true, Bool.and_eq_true] at h
  obtain ⟨t, ht, h⟩ := h
  rcases h with rfl | ⟨h1, h2⟩
  · exact isAlwaysTrue_rel hs hp.left hp.right hp.noSizeof hp.clean hp.comparable ht
  · obtain ⟨x, y, hx, hy, hb⟩ := hp.comparable
    obtain ⟨l, y', hl, hy', hr⟩ := hh
    have := Expr.similar_eval hs hp.left hq.left h1
    rw [hx, hl] at this
    cases this
    exact ⟨_, _, hx, hy, rangeCheck_rel hs hp.right hq.right hp.clean hq.clean hy hy' hst h2 hr⟩

theorem resolve_iff {c : Constraint} {ps : List Constraint} (h : resolve sim c ps = some true) :
    ∃ p ∈ ps, satisfies sim c p = some true := by
  induction ps with
  | nil => cases h
  | cons p ps ih =>
    simp only [resolve, Option.bind_eq_some_iff] at h
    obtain ⟨b, hb, h⟩ := h
    split at h
    · next ht => exact ⟨p, by simp, by rw [hb, ht]⟩
    · obtain ⟨q, hq, h⟩ := ih h
      exact ⟨q, by simp [hq], h⟩

theorem subsume_split {facts cs kept : List Constraint} (h : subsume sim facts cs = some kept) :
    (∀ c ∈ kept, c ∈ cs) ∧ ∀ c ∈ cs, c ∈ kept ∨ resolve sim c facts = some true := by
  induction cs generalizing kept with
  | nil => cases h; simp
  | cons c cs ih =>
    simp only [subsume, Option.bind_eq_some_iff, Option.map_eq_some_iff] at h
    obtain ⟨b, hb, rs, hrs, rfl⟩ := h
    obtain ⟨h1, h2⟩ := ih hrs
    split
    · next ht =>
      refine ⟨fun d hd => by simp [h1 d hd], fun d hd => ?_⟩
      rcases List.mem_cons.1 hd with rfl | hd
      · right; rw [hb, ht]
      · exact h2 d hd
    · refine ⟨fun d hd => ?_, fun d hd => ?_⟩
      · rcases List.mem_cons.1 hd with rfl | hd
        · simp
        · simp [h1 d hd]
      · rcases List.mem_cons.1 hd with rfl | hd
        · simp
        · rcases h2 d hd with h | h
          · simp [h]
          · exact .inr h

theorem replace_fits {old new e : Expr} (hn : Fits ρ new) (he : Fits ρ e) :
    Fits ρ (Expr.replace sim old new e) := by
  induction e with
  | term t => simp only [Expr.replace]; split <;> assumption
  | un o e ih =>
    simp only [Expr.replace]
    split
    · exact hn
    · exact ih he
  | bin o a b iha ihb =>
    simp only [Expr.replace]
    split
    · exact hn
    · exact ⟨iha he.1, ihb he.2⟩

theorem substituteIn_holds (hs : Same sim ρ) {closer : Constraint → Constraint → Bool}
    {ps : List Constraint} (hp : ∀ p ∈ ps, p.ar = .eq → Fits ρ p.l ∧ Fits ρ p.r ∧ Holds ρ p
      ∧ Expr.search sim p.l p.r = false) {c : Constraint} (hl : Fits ρ c.l) (hr : Fits ρ c.r) :
    (Holds ρ (substituteIn sim closer c ps) ↔ Holds ρ c) := by
  induction ps generalizing c with
  | nil => exact Iff.rfl
  | cons p ps ih =>
    replace ih := @ih (fun q hq => hp q (by simp [hq]))
    rw [substituteIn]
    split
    · next hc =>
      simp only [Bool.and_eq_true, beq_iff_eq] at hc
      obtain ⟨h1, h2, ⟨x, y, hx, hy, hxy⟩, h4⟩ := hp p (by simp) hc.1
      have ha : adjust sim closer p c = p := by simp [adjust, h4]
      simp only [ha]
      rw [ih (replace_fits h2 hl) (replace_fits h2 hr)]
      rw [hc.1] at hxy
      have e : eval ρ p.l = eval ρ p.r := by rw [hx, hy, hxy]
      simp only [Holds, Constraint.replace, Expr.replace_eval hs h1 hl e,
        Expr.replace_eval hs h1 hr e]
    · exact ih hl hr

end Constraint
end Splint.Bounds
