import Verif.Proofs.ConstraintSound
import Verif.Props.CExpr
/-! C26-C28: bounds constraints. -/
namespace Splint
open Bounds Bounds.Spec Bounds.Constraint

namespace BoundsEx

/-- `sizeof(p)`, where the elements of the buffer take four bytes -/
abbrev sizeP : Expr := .term (.node { id := 0, sizeOf := some (some 2) })

/-- as `ρ`, and `sizeof(p)` is 40 -/
def ρ' : State := { ρ with node := fun _ => .int 40 }

theorem same' : Same sim ρ' := by intro r s h; rw [eq_of_beq h]

end BoundsEx

/-- Simplification preserves the truth of every constraint whose two sides can be compared. -/
def C26_full : Prop :=
  ∀ (sim : Nat → Nat → Bool) (ρ : State) (c : Constraint), Same sim ρ → Fits ρ c.l → Fits ρ c.r →
    Comparable ρ c → (Holds ρ (simplify sim c) ↔ Holds ρ c)

/-- `y + N >= 12`, where `N` is a named constant with value 5, becomes `y >= 17`. -/
theorem C26_full_is_false : ¬C26_full := by
  intro h
  have h := h BoundsEx.sim BoundsEx.ρ ⟨.bin .plus BoundsEx.y BoundsEx.five, .gte, .lit 12⟩ BoundsEx.same
    (by simp [Fits, TermFits, BoundsEx.ρ]) trivial ⟨.int 12, .int 12, by decide, by decide, rfl⟩
  have e : simplify BoundsEx.sim ⟨.bin .plus BoundsEx.y BoundsEx.five, .gte, .lit 12⟩
      = ⟨BoundsEx.y, .gte, .lit 17⟩ := by decide +kernel
  rw [e] at h
  obtain ⟨x, y, hx, hy, hr⟩ := h.2 ⟨.int 12, .int 12, by decide, by decide, rfl, by decide⟩
  cases hx
  cases hy
  exact absurd hr.2 (by decide)

/-- Exchanging the sides preserves the truth. -/
theorem C26_swap (ρ : State) (c : Constraint) : Holds ρ (swap c) ↔ Holds ρ c := holds_swap c

example : swap ⟨.lit 5, .lt, BoundsEx.x⟩ = ⟨BoundsEx.x, .gt, .lit 5⟩ := rfl

/-- Moving an operand to the other side preserves the truth. -/
theorem C26_solve (ρ : State) (c : Constraint) : Holds ρ (solve c) ↔ Holds ρ c := holds_solve c

example : solve ⟨.bin .minus BoundsEx.x BoundsEx.y, .gte, .lit 5⟩
    = ⟨BoundsEx.x, .gte, .bin .plus (.lit 5) BoundsEx.y⟩ := rfl

/-- Simplification preserves the truth of linear constraints (`Spec.Linear`).  Missing: constraints
with named constants, with `c - e` as right operand, with the same variable on both sides or in both
operands of `-`, and with large literals. -/
theorem C26_partial {sim : Nat → Nat → Bool} {ρ : State} {c : Constraint} (h : Linear sim ρ c) :
    Holds ρ (simplify sim c) ↔ Holds ρ c :=
  (simplify_holds h).2

/-- and what can be compared before can be compared afterwards -/
theorem C26_comparable_partial {sim : Nat → Nat → Bool} {ρ : State} {c : Constraint}
    (h : Linear sim ρ c) : Comparable ρ (simplify sim c) :=
  (simplify_holds h).1

/-- `5 <= (y + 3) - x` -/
example : Linear BoundsEx.sim BoundsEx.ρ
      ⟨.lit 5, .lte, .bin .minus (.bin .plus BoundsEx.y (.lit 3)) BoundsEx.x⟩
    ∧ simplify BoundsEx.sim ⟨.lit 5, .lte, .bin .minus (.bin .plus BoundsEx.y (.lit 3)) BoundsEx.x⟩
      = ⟨.bin .minus BoundsEx.y BoundsEx.x, .gte, .lit 2⟩ := by
  refine ⟨⟨trivial, by simp [Fits, TermFits], ⟨.int 5, .int 7, rfl, rfl, rfl⟩, by decide, .inl ⟨.lit 5,
    .inr ⟨fun _ => True, some (.ref 1 none), ?_, ?_⟩⟩⟩, by decide +kernel⟩
  · refine .binG (s := .ref 0 none) (.binC (.term rfl) (.lit 3)) (.term rfl) trivial ?_
    rintro _ t ⟨⟩
    rfl
  · exact ⟨⟨trivial, trivial, rfl, by intro h; cases h⟩, trivial, rfl, by intro h; cases h⟩

/-- A constraint that is discarded as always true holds. -/
def C27_full : Prop :=
  ∀ (sim : Nat → Nat → Bool) (ρ : State) (c : Constraint), Same sim ρ → Fits ρ c.l → Fits ρ c.r →
    Comparable ρ c → isAlwaysTrue sim c = some true → Holds ρ c

/-- `maxSet(p) >= sizeof(p) - 1` is taken to be true for a buffer of any type. -/
theorem C27_full_is_false : ¬C27_full := by
  intro h
  obtain ⟨x, y, hx, hy, hr⟩ := h BoundsEx.sim BoundsEx.ρ'
    ⟨.un .maxSet BoundsEx.p, .gte, .bin .minus BoundsEx.sizeP (.lit 1)⟩ BoundsEx.same'
    (by simp [Fits, TermFits]) (by simp [Fits, TermFits]) ⟨.int 9, .int 39, rfl, rfl, rfl⟩
    (by decide +kernel)
  cases hx
  cases hy
  exact absurd hr.2 (by decide)

/-- `maxSet(p) <= sizeof(p) - 1` and equality are taken to be true as well. -/
theorem C27_sizeof_any (ar : Ar) (h : ar = .eq ∨ ar = .gte ∨ ar = .lte) :
    isAlwaysTrue BoundsEx.sim ⟨.un .maxSet BoundsEx.p, ar, .bin .minus BoundsEx.sizeP (.lit 1)⟩
      = some true := by
  rcases h with rfl | rfl | rfl <;> decide +kernel

/-- `y <= 5 + (0 - y)` is taken to be true, before simplification. -/
theorem C27_stale_operator :
    isAlwaysTrue BoundsEx.sim
        ⟨BoundsEx.y, .lte, .bin .plus (.lit 5) (.bin .minus (.lit 0) BoundsEx.y)⟩ = some true
    ∧ ¬ Holds BoundsEx.ρ ⟨BoundsEx.y, .lte, .bin .plus (.lit 5) (.bin .minus (.lit 0) BoundsEx.y)⟩ := by
  refine ⟨by decide +kernel, ?_⟩
  rintro ⟨x, y, hx, hy, hr⟩
  cases hx
  cases hy
  exact absurd hr.2 (by decide)

/-- For `maxSet(p) >= (x + y) - 1`, which comes from `p[x + y - 1]`, the data of a binary expression
are read as those of a term. -/
theorem C27_reads_wrong_kind :
    isAlwaysTrue BoundsEx.sim
      ⟨.un .maxSet BoundsEx.p, .gte, .bin .plus (.bin .plus BoundsEx.x BoundsEx.y) (.lit (-1))⟩
      = none := by decide +kernel

/-- Apart from that, the rule for `sizeof` applies to nothing else: the relation is not strict, and the
sides are `maxSet(b)` and `sizeof(b)` less one, for the same `b`. -/
theorem C27_sizeof_exactly {sim : Nat → Nat → Bool} {c : Constraint} :
    sizeOfMaxSet sim c = some true ↔
      ¬ Strict c.ar ∧ ∃ (t : Term) (op : BinOp) (n : Node) (s : Option Nat) (k : Expr),
        c.l = .un .maxSet (.term t) ∧ c.r = .bin op (.term (.node n)) k ∧ n.sizeOf = some s
        ∧ k.value = some (if op = .minus then 1 else -1)
        ∧ ((s = none ∧ t.getRef = none) ∨ ∃ a b, s = some a ∧ t.getRef = some b ∧ sim a b = true) := by
  have hsame : ∀ x y : Option Nat, sameRef sim x y = true ↔
      ((x = none ∧ y = none) ∨ ∃ a b, x = some a ∧ y = some b ∧ sim a b = true) := by
    intro x y
    cases x <;> cases y <;> simp [sameRef]
  have hb : ∀ (ar : Ar) (b1 b2 k : Expr) (op : BinOp) (i : Int), i = (if op = .minus then 1 else -1) →
      k.value = some i → sizeofBufComp sim b1 b2 = some true →
      ∃ (t : Term) (op' : BinOp) (n : Node) (s : Option Nat) (k' : Expr),
        (⟨.un .maxSet b1, ar, .bin op b2 k⟩ : Constraint).l = .un .maxSet (.term t)
        ∧ (⟨.un .maxSet b1, ar, .bin op b2 k⟩ : Constraint).r = .bin op' (.term (.node n)) k'
        ∧ n.sizeOf = some s ∧ k'.value = some (if op' = .minus then 1 else -1)
        ∧ ((s = none ∧ t.getRef = none) ∨ ∃ a b, s = some a ∧ t.getRef = some b ∧ sim a b = true) := by
    intro ar b1 b2 k op i hi hv h
    rw [hi] at hv
    unfold sizeofBufComp at h
    split at h
    · split at h
      · next hs =>
        simp only [Option.some.injEq] at h
        exact ⟨_, _, _, _, _, rfl, rfl, hs, hv, (hsame _ _).1 h⟩
      · simp at h
    · split at h <;> simp at h
    · simp at h
    · simp at h
    · simp at h
  constructor
  · intro h
    obtain ⟨l, ar, r⟩ := c
    unfold sizeOfMaxSet at h
    simp only at h
    split at h
    · cases h
    · cases h
    all_goals
      refine ⟨by simp [Strict], ?_⟩
      split at h
      · split at h
        · next hv =>
          split at h <;> simp only [beq_iff_eq] at h <;> split at h
          · next hi => exact hb _ _ _ _ _ _ hi hv h
          · simp at h
          · next hi => exact hb _ _ _ _ _ _ hi hv h
          · simp at h
        · simp at h
      · simp at h
  · rintro ⟨hst, t, op, n, s, k, hl, hr, hn, hv, hs⟩
    obtain ⟨l, ar, r⟩ := c
    simp only at hl hr hst
    subst hl hr
    cases ar
    · exact absurd (by simp [Strict]) hst
    · cases op <;> simp_all [sizeOfMaxSet, sizeofBufComp, (hsame _ _).2 hs]
    · exact absurd (by simp [Strict]) hst
    · cases op <;> simp_all [sizeOfMaxSet, sizeofBufComp, (hsame _ _).2 hs]
    · cases op <;> simp_all [sizeOfMaxSet, sizeofBufComp, (hsame _ _).2 hs]

/-- `maxSet(x) >= sizeof(p) - 1` is not taken to be true. -/
example : isAlwaysTrue BoundsEx.sim
    ⟨.un .maxSet BoundsEx.x, .gte, .bin .minus BoundsEx.sizeP (.lit 1)⟩ = some false := by decide +kernel

/-- A constraint that is discarded as always true holds, if its right side is not `sizeof(..)` plus or
minus something, and is clean (`Spec.Clean`).  Missing: `sizeof`, for which it fails, and right sides
with `c - e` as right operand, or beginning with a named constant. -/
theorem C27_partial {sim : Nat → Nat → Bool} {ρ : State} {c : Constraint} (hs : Same sim ρ)
    (hp : Proper ρ c) (h : isAlwaysTrue sim c = some true) : Holds ρ c :=
  isAlwaysTrue_rel hs hp.left hp.right hp.noSizeof hp.clean hp.comparable h

/-- `p <= (p + 3) - 1` -/
example : Proper BoundsEx.ρ ⟨BoundsEx.p, .lte, .bin .minus (.bin .plus BoundsEx.p (.lit 3)) (.lit 1)⟩
    ∧ isAlwaysTrue BoundsEx.sim
      ⟨BoundsEx.p, .lte, .bin .minus (.bin .plus BoundsEx.p (.lit 3)) (.lit 1)⟩ = some true := by
  refine ⟨⟨⟨by simp [Fits, TermFits], by simp [Fits, TermFits], .inr ⟨fun _ => True, True, false, false,
    some (.ref 2 none), .binC (.binC (.term rfl) (.lit 3)) (.lit 1),
    ⟨⟨trivial, trivial, rfl, by intro h; cases h⟩, trivial, rfl, by intro h; cases h⟩, by decide⟩⟩,
    ⟨.ptr 0 0, .ptr 0 2, rfl, rfl, rfl⟩, ?_⟩, by decide +kernel⟩
  intro op n e h
  cases h

/-- A requirement that is dropped because of known facts holds if the facts do. -/
def C28_full : Prop :=
  ∀ (sim : Nat → Nat → Bool) (closer : Constraint → Constraint → Bool) (ρ : State)
    (facts : List Constraint) (c : Constraint), Same sim ρ → Proper ρ c →
    (∀ p ∈ facts, Fact ρ p ∧ Holds ρ p) →
    reflectOne sim closer facts c = some none → Holds ρ c

theorem BoundsEx.fact_var {ρ : State} {r s : Nat} {ar : Ar} :
    Fact ρ ⟨.term (.ref r none), ar, .term (.ref s none)⟩ :=
  ⟨by simp [Fits, TermFits], by simp [Fits, TermFits], .inl (by intro op a b h; cases h)⟩

theorem BoundsEx.fact_lit {ρ : State} {r : Nat} {n : Int} {ar : Ar} :
    Fact ρ ⟨.term (.ref r none), ar, .lit n⟩ :=
  ⟨by simp [Fits, TermFits], trivial, .inl (by intro op a b h; cases h)⟩

/-- `x > 3` is dropped because of `x >= 3`. -/
theorem C28_full_is_false : ¬C28_full := by
  intro h
  obtain ⟨x, y, hx, hy, hr⟩ := h BoundsEx.sim (fun _ _ => false) BoundsEx.ρ
    [⟨BoundsEx.x, .gte, .lit 3⟩] ⟨BoundsEx.x, .gt, .lit 3⟩ BoundsEx.same
    ⟨BoundsEx.fact_lit, ⟨.int 3, .int 3, rfl, rfl, rfl⟩, by intro op n e h; cases h⟩
    (by
      simp only [List.mem_singleton, forall_eq]
      exact ⟨BoundsEx.fact_lit, .int 3, .int 3, rfl, rfl, rfl, by decide⟩)
    (by decide +kernel)
  cases hx
  cases hy
  exact absurd hr.2 (by decide)

/-- `x >= y` is dropped because of `b < y` and `x >= b + 1`: the requirement is weakened to
`x >= b + 1`.  In the state below, `x` is 3, `y` is 7, and `b` is 0. -/
theorem C28_weakened :
    reflectOne BoundsEx.sim (fun _ _ => false)
      [⟨.term (.ref 4 none), .lt, BoundsEx.y⟩,
        ⟨BoundsEx.x, .gte, .bin .plus (.term (.ref 4 none)) (.lit 1)⟩]
      ⟨BoundsEx.x, .gte, BoundsEx.y⟩ = some none
    ∧ Holds BoundsEx.ρ ⟨.term (.ref 4 none), .lt, BoundsEx.y⟩
    ∧ Holds BoundsEx.ρ ⟨BoundsEx.x, .gte, .bin .plus (.term (.ref 4 none)) (.lit 1)⟩
    ∧ ¬ Holds BoundsEx.ρ ⟨BoundsEx.x, .gte, BoundsEx.y⟩ := by
  refine ⟨by decide +kernel, ⟨.int 0, .int 7, rfl, rfl, rfl, by decide⟩,
    ⟨.int 3, .int 1, rfl, rfl, rfl, by decide⟩, ?_⟩
  rintro ⟨x, y, hx, hy, hr⟩
  cases hx
  cases hy
  exact absurd hr.2 (by decide)

/-- `x >= N` is dropped because of `x <= y` and `y >= N`: the upper bound is put in for `x`. -/
theorem C28_unsound :
    reflectOne BoundsEx.sim (fun _ _ => false)
      [⟨BoundsEx.x, .lte, BoundsEx.y⟩, ⟨BoundsEx.y, .gte, .lit 5⟩] ⟨BoundsEx.x, .gte, .lit 5⟩
      = some none
    ∧ Holds BoundsEx.ρ ⟨BoundsEx.x, .lte, BoundsEx.y⟩
    ∧ Holds BoundsEx.ρ ⟨BoundsEx.y, .gte, .lit 5⟩
    ∧ ¬ Holds BoundsEx.ρ ⟨BoundsEx.x, .gte, .lit 5⟩ := by
  refine ⟨by decide +kernel, ⟨.int 3, .int 7, rfl, rfl, rfl, by decide⟩,
    ⟨.int 7, .int 5, rfl, rfl, rfl, by decide⟩, ?_⟩
  rintro ⟨x, y, hx, hy, hr⟩
  cases hx
  cases hy
  exact absurd hr.2 (by decide)

/-- One fact that is taken to give a requirement gives it, unless the requirement is strict and the
fact is not. -/
theorem C28_satisfies_partial {sim : Nat → Nat → Bool} {ρ : State} {pre post : Constraint}
    (hs : Same sim ρ) (hp : Proper ρ pre) (hq : Fact ρ post) (hst : Strict pre.ar → Strict post.ar)
    (h : satisfies sim pre post = some true) (hh : Holds ρ post) : Holds ρ pre :=
  satisfies_holds hs hp hq hst h hh

example : Proper BoundsEx.ρ ⟨BoundsEx.y, .gte, .lit 5⟩ ∧ Fact BoundsEx.ρ ⟨BoundsEx.y, .gt, .lit 6⟩
    ∧ satisfies BoundsEx.sim ⟨BoundsEx.y, .gte, .lit 5⟩ ⟨BoundsEx.y, .gt, .lit 6⟩ = some true
    ∧ Holds BoundsEx.ρ ⟨BoundsEx.y, .gt, .lit 6⟩ :=
  ⟨⟨BoundsEx.fact_lit, ⟨.int 7, .int 5, rfl, rfl, rfl⟩, by intro op n e h; cases h⟩, BoundsEx.fact_lit,
    by decide +kernel, .int 7, .int 6, rfl, rfl, rfl, by decide⟩

/-- A requirement that is not strict and is found among the facts holds.  Missing: strict
requirements, for which it fails. -/
theorem C28_resolve_partial {sim : Nat → Nat → Bool} {ρ : State} {c : Constraint}
    {facts : List Constraint} (hs : Same sim ρ) (hp : Proper ρ c) (hst : ¬ Strict c.ar)
    (hf : ∀ p ∈ facts, Fact ρ p ∧ Holds ρ p) (h : resolve sim c facts = some true) : Holds ρ c := by
  obtain ⟨p, hm, h⟩ := resolve_iff h
  exact satisfies_holds hs hp (hf p hm).1 (fun h => absurd h hst) h (hf p hm).2

example : resolve BoundsEx.sim ⟨BoundsEx.y, .gte, .lit 5⟩
    [⟨BoundsEx.x, .gte, .lit 5⟩, ⟨BoundsEx.y, .eq, .lit 7⟩] = some true := by decide +kernel

/-- Requirements dropped by `constraintList_subsumeEnsures` follow from the facts, and the others are
kept: if the facts and what is kept hold, then all requirements hold. -/
theorem C28_subsume_partial {sim : Nat → Nat → Bool} {ρ : State} {facts cs kept : List Constraint}
    (hs : Same sim ρ) (hp : ∀ c ∈ cs, Proper ρ c ∧ ¬ Strict c.ar)
    (hf : ∀ p ∈ facts, Fact ρ p ∧ Holds ρ p) (h : subsume sim facts cs = some kept)
    (hk : ∀ c ∈ kept, Holds ρ c) : ∀ c ∈ cs, Holds ρ c := by
  intro c hc
  rcases (subsume_split h).2 c hc with h | h
  · exact hk c h
  · exact C28_resolve_partial hs (hp c hc).1 (hp c hc).2 hf h

/-- and nothing is added -/
theorem C28_subsume_sub {sim : Nat → Nat → Bool} {facts cs kept : List Constraint}
    (h : subsume sim facts cs = some kept) : ∀ c ∈ kept, c ∈ cs :=
  (subsume_split h).1

example : subsume BoundsEx.sim [⟨BoundsEx.y, .eq, .lit 7⟩]
    [⟨BoundsEx.y, .gte, .lit 5⟩, ⟨BoundsEx.x, .gte, .lit 5⟩] = some [⟨BoundsEx.x, .gte, .lit 5⟩] := by
  decide +kernel

/-- Putting in equals for equals, as `constraint_substitute` does with the facts that are equalities,
preserves the truth of a constraint, if no such fact contains its left side in its right side, and
what comes out can be rearranged (`Spec.Linear`). -/
theorem C28_substitute_partial {sim : Nat → Nat → Bool} {ρ : State} {c : Constraint}
    {closer : Constraint → Constraint → Bool} {facts : List Constraint} (hs : Same sim ρ)
    (hl : Fits ρ c.l) (hr : Fits ρ c.r)
    (hf : ∀ p ∈ facts, p.ar = .eq → Fits ρ p.l ∧ Fits ρ p.r ∧ Holds ρ p
      ∧ Expr.search sim p.l p.r = false)
    (hn : Linear sim ρ (substituteIn sim closer c facts)) :
    Holds ρ (substitute sim closer c facts) ↔ Holds ρ c :=
  ((simplify_holds hn).2).trans (substituteIn_holds hs hf hl hr)

/-- `maxSet(p) >= y` with `y = x + 4` -/
example : Linear BoundsEx.sim BoundsEx.ρ (substituteIn BoundsEx.sim (fun _ _ => false)
      ⟨.un .maxSet BoundsEx.p, .gte, BoundsEx.y⟩ [⟨BoundsEx.y, .eq, .bin .plus BoundsEx.x (.lit 4)⟩])
    ∧ substitute BoundsEx.sim (fun _ _ => false)
      ⟨.un .maxSet BoundsEx.p, .gte, BoundsEx.y⟩ [⟨BoundsEx.y, .eq, .bin .plus BoundsEx.x (.lit 4)⟩]
      = ⟨.un .maxSet BoundsEx.p, .gte, .bin .plus BoundsEx.x (.lit 4)⟩ := by
  have e : substituteIn BoundsEx.sim (fun _ _ => false)
      ⟨.un .maxSet BoundsEx.p, .gte, BoundsEx.y⟩ [⟨BoundsEx.y, .eq, .bin .plus BoundsEx.x (.lit 4)⟩]
      = ⟨.un .maxSet BoundsEx.p, .gte, .bin .plus BoundsEx.x (.lit 4)⟩ := by decide +kernel
  rw [e]
  refine ⟨⟨by simp [Fits, TermFits], by simp [Fits, TermFits], ⟨.int 9, .int 7, rfl, rfl, rfl⟩,
    by decide, .inr ⟨fun _ => False, some (.ref 2 none), ⟨.un (.term rfl), trivial, 0, 0, rfl⟩,
      .inr ⟨fun _ => False, some (.ref 0 none), ⟨.binC (.term rfl) (.lit 4), trivial, trivial, rfl,
        by intro h; cases h⟩, fun _ h => h.elim⟩⟩⟩, by decide +kernel⟩

/-- What `x >= y` is weakened to because of `b < y` is `x > b`. -/
theorem C28_inequality {sim : Nat → Nat → Bool} {ρ : State} {c p : Constraint} (ha : c.ar = .gte)
    (hp : p.ar = .lt) (hsim : Expr.similar sim p.r c.r = true) :
    Holds ρ (inequalityIn sim c [p]) ↔ Holds ρ ⟨c.l, .gt, p.l⟩ := by
  have e : inequalityIn sim c [p] = ⟨c.l, .gte, inc p.l⟩ := by
    simp [inequalityIn, hp, hsim, ha]
  rw [e]
  simp only [Holds, inc, eval, evalTerm]
  constructor
  · rintro ⟨x, y, hx, hy, hr⟩
    cases hb : eval ρ p.l with
    | none => rw [hb] at hy; cases hy
    | some z =>
      rw [hb] at hy
      obtain ⟨zb, zo⟩ := z
      refine ⟨x, ⟨zb, zo⟩, hx, rfl, ?_⟩
      cases zb <;> simp only [Val.apply, Val.add, Option.some.injEq] at hy <;> subst hy <;>
        simp only [Rel] at hr ⊢ <;> exact ⟨hr.1, by omega⟩
  · rintro ⟨x, ⟨zb, zo⟩, hx, hb, hr⟩
    rw [hb]
    refine ⟨x, ⟨zb, zo + 1⟩, hx, ?_, ?_⟩
    · cases zb <;> rfl
    · simp only [Rel] at hr ⊢
      exact ⟨hr.1, by omega⟩

example : inequalityIn BoundsEx.sim ⟨BoundsEx.x, .gte, BoundsEx.y⟩ [⟨BoundsEx.p, .lt, BoundsEx.y⟩]
    = ⟨BoundsEx.x, .gte, .bin .plus BoundsEx.p (.lit 1)⟩ := by decide +kernel

theorem inequalityIn_id {sim : Nat → Nat → Bool} {c : Constraint} {facts : List Constraint}
    (h : ∀ p ∈ facts, p.ar ≠ .lt) : inequalityIn sim c facts = c := by
  induction facts generalizing c with
  | nil => rfl
  | cons p ps ih =>
    have := h p (by simp)
    rw [inequalityIn, if_neg (by simp [this])]
    exact ih fun p hp => h p (by simp [hp])

theorem unsoundIn_id {sim : Nat → Nat → Bool} {c : Constraint} {facts : List Constraint}
    (h : ∀ p ∈ facts, p.ar ≠ .lt ∧ p.ar ≠ .lte) : unsoundIn sim c facts = c := by
  induction facts generalizing c with
  | nil => rfl
  | cons p ps ih =>
    obtain ⟨h1, h2⟩ := h p (by simp)
    rw [unsoundIn]
    split
    · next h => exact absurd h h2
    · next h => exact absurd h h1
    exact ih fun p hp => h p (by simp [hp])

/-- A requirement that is dropped because of the facts holds, and one that is kept in another form
holds exactly if that form does: for requirements that are not strict, and stay so when equals are put
in for equals, and facts that are not upper bounds if the requirement is a lower one. Missing: strict
requirements and upper bounds, for which it fails. -/
theorem C28_reflect_partial {sim : Nat → Nat → Bool} {ρ : State} {c t : Constraint}
    {closer : Constraint → Constraint → Bool} {facts : List Constraint} (hs : Same sim ρ)
    (hp : Proper ρ c) (hst : ¬ Strict c.ar) (hf : ∀ p ∈ facts, Fact ρ p ∧ Holds ρ p)
    (he : ∀ p ∈ facts, p.ar = .eq → Expr.search sim p.l p.r = false)
    (hn : Linear sim ρ (substituteIn sim closer c facts)) (ht : substitute sim closer c facts = t)
    (hpt : Proper ρ t) (hstt : ¬ Strict t.ar)
    (hg : t.ar = .gte → (∀ p ∈ facts, p.ar ≠ .lt ∧ p.ar ≠ .lte) ∧ simplify sim t = t)
    {r : Option Constraint} (h : reflectOne sim closer facts c = some r) :
    (r = none ∧ Holds ρ c) ∨ (r = some t ∧ (Holds ρ t ↔ Holds ρ c)) := by
  have hc : Holds ρ t ↔ Holds ρ c := by
    rw [← ht]
    exact C28_substitute_partial hs hp.left hp.right
      (fun p hm ha => ⟨(hf p hm).1.left, (hf p hm).1.right, (hf p hm).2, he p hm ha⟩) hn
  have h1 : inequality sim t facts = t := by
    unfold inequality
    split
    · next ha =>
      obtain ⟨h1, h2⟩ := hg (eq_of_beq ha)
      rw [inequalityIn_id fun p hm => (h1 p hm).1, h2]
    · rfl
  have h2 : unsound sim t facts = t := by
    unfold unsound
    split
    · next ha =>
      obtain ⟨h1, h2⟩ := hg (eq_of_beq ha)
      rw [unsoundIn_id h1, h2]
    · rfl
  unfold reflectOne at h
  rw [ht] at h
  cases e1 : resolve sim c facts with
  | none => rw [e1] at h; cases h
  | some b1 =>
    cases b1 with
    | true =>
      rw [e1] at h
      cases h
      exact .inl ⟨rfl, C28_resolve_partial hs hp hst hf e1⟩
    | false =>
      cases e2 : resolve sim t facts with
      | none => simp [e1, e2] at h
      | some b2 =>
        cases b2 with
        | true =>
          simp only [e1, e2, Option.bind_some, if_true, Bool.false_eq_true, if_false] at h
          cases h
          exact .inl ⟨rfl, hc.1 (C28_resolve_partial hs hpt hstt hf e2)⟩
        | false =>
          simp only [e1, e2, h1, h2, Option.bind_some, Bool.false_eq_true, if_false] at h
          cases h
          exact .inr ⟨rfl, hc⟩

/-- `y >= x` with `x = 3` and `y = 7` -/
example : ∃ t, substitute BoundsEx.sim (fun _ _ => false) ⟨BoundsEx.y, .gte, BoundsEx.x⟩
      [⟨BoundsEx.x, .eq, .lit 3⟩] = t ∧ simplify BoundsEx.sim t = t
    ∧ reflectOne BoundsEx.sim (fun _ _ => false) [⟨BoundsEx.x, .eq, .lit 3⟩]
      ⟨BoundsEx.y, .gte, BoundsEx.x⟩ = some (some t)
    ∧ reflectOne BoundsEx.sim (fun _ _ => false) [⟨BoundsEx.x, .eq, .lit 3⟩, ⟨BoundsEx.y, .eq, .lit 7⟩]
      ⟨BoundsEx.y, .gte, BoundsEx.x⟩ = some none :=
  ⟨_, rfl, by decide +kernel, by decide +kernel, by decide +kernel⟩

end Splint
