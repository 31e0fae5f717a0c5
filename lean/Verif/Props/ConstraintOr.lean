import Verif.Spec.ConstraintOr
import Verif.Props.Constraint
/-! C123: bounds requirements with alternatives. -/
namespace Splint
open Bounds Bounds.Spec Bounds.Constraint

variable {sim : Nat → Nat → Bool} {closer : Constraint → Constraint → Bool} {ρ : State}

theorem resolveOr_single (c : Constraint) (facts : List Constraint) :
    resolveOr sim [c] facts
      = match resolve sim c facts with
        | none => .error .badRead
        | some b => .ok b := by
  unfold resolveOr resolveFrom
  cases resolve sim c facts with
  | none => rfl
  | some b => cases b <;> rfl

namespace Bounds.Spec

/-- what a requirement becomes that is found in none of its forms: equals are put in for equals, and
the two weaker forms are alternatives where they differ -/
def kept (sim : Nat → Nat → Bool) (closer : Constraint → Constraint → Bool)
    (facts : List Constraint) (c : Constraint) : List Constraint :=
  let t := substitute sim closer c facts
  let u := unsound sim (inequality sim c facts) facts
  let s := strong sim (inequality sim c facts) facts
  t :: (if same sim t u then [] else [substitute sim closer u facts])
    ++ (if same sim t s || same sim s u then [] else [substitute sim closer s facts])

end Bounds.Spec

theorem alternatives_single (facts : List Constraint) (t u s : Constraint) :
    alternatives sim closer facts [t] [u] [s]
      = t :: (if same sim t u then [] else [substitute sim closer u facts])
        ++ (if same sim t s || same sim s u then [] else [substitute sim closer s facts]) := by
  by_cases h1 : same sim t u = true <;> by_cases h2 : same sim t s = true <;>
    by_cases h3 : same sim s u = true <;>
    simp [alternatives, onHead, sameHead, addOr, h1, h2, h3]

theorem doResolve_single (c : Constraint) (facts : List Constraint) :
    (doResolve sim closer [c] facts = .ok none
      ∧ ∃ d ∈ forms sim closer facts c, resolve sim d facts = some true)
    ∨ (doResolve sim closer [c] facts = .ok (some (kept sim closer facts c))
      ∧ ∀ d ∈ forms sim closer facts c, resolve sim d facts = some false)
    ∨ (doResolve sim closer [c] facts = .error .badRead
      ∧ ∃ d ∈ forms sim closer facts c, resolve sim d facts = none) := by
  unfold doResolve
  simp only [onHead, resolveOr_single, forms, List.mem_cons, List.not_mem_nil, or_false,
    exists_eq_or_imp, exists_eq_left, forall_eq_or_imp, forall_eq]
  cases h1 : resolve sim c facts with
  | none => exact .inr (.inr ⟨rfl, .inl rfl⟩)
  | some b1 =>
  cases b1 with
  | true => exact .inl ⟨rfl, .inl rfl⟩
  | false =>
  cases h2 : resolve sim (substitute sim closer c facts) facts with
  | none => exact .inr (.inr ⟨rfl, .inr (.inl rfl)⟩)
  | some b2 =>
  cases b2 with
  | true => exact .inl ⟨rfl, .inr (.inl rfl)⟩
  | false =>
  cases h3 : resolve sim (inequality sim c facts) facts with
  | none => exact .inr (.inr ⟨rfl, .inr (.inr (.inl rfl))⟩)
  | some b3 =>
  cases b3 with
  | true => exact .inl ⟨rfl, .inr (.inr (.inl rfl))⟩
  | false =>
  cases h4 : resolve sim (strong sim (inequality sim c facts) facts) facts with
  | none => exact .inr (.inr ⟨rfl, .inr (.inr (.inr (.inl rfl)))⟩)
  | some b4 =>
  cases b4 with
  | true => exact .inl ⟨rfl, .inr (.inr (.inr (.inl rfl)))⟩
  | false =>
  cases h5 : resolve sim (unsound sim (inequality sim c facts) facts) facts with
  | none => exact .inr (.inr ⟨rfl, .inr (.inr (.inr (.inr rfl)))⟩)
  | some b5 =>
  cases b5 with
  | true => exact .inl ⟨rfl, .inr (.inr (.inr (.inr rfl)))⟩
  | false =>
    refine .inr (.inl ⟨?_, rfl, rfl, rfl, rfl, rfl⟩)
    show Except.ok (some (alternatives _ _ _ _ _ _)) = _
    rw [alternatives_single]
    rfl

theorem resolveRest_cases (facts : List Constraint) (cs ret : List Constraint) :
    (resolveRest sim closer facts ret cs = .ok none
      ∧ ∃ c ∈ cs, ∃ d ∈ forms sim closer facts c, resolve sim d facts = some true)
    ∨ (resolveRest sim closer facts ret cs = .ok (some (ret ++ cs.flatMap (kept sim closer facts)))
      ∧ ∀ c ∈ cs, ∀ d ∈ forms sim closer facts c, resolve sim d facts = some false)
    ∨ (resolveRest sim closer facts ret cs = .error .badRead
      ∧ ∃ c ∈ cs, ∃ d ∈ forms sim closer facts c, resolve sim d facts = none) := by
  induction cs generalizing ret with
  | nil => exact .inr (.inl ⟨by simp [resolveRest], by simp⟩)
  | cons c cs ih =>
    rcases doResolve_single (sim := sim) (closer := closer) c facts with ⟨h, hd⟩ | ⟨h, hd⟩ | ⟨h, hd⟩
    · exact .inl ⟨by rw [resolveRest, h]; rfl, c, by simp, hd⟩
    · have e : resolveRest sim closer facts ret (c :: cs)
          = resolveRest sim closer facts (ret ++ kept sim closer facts c) cs := by
        rw [resolveRest, h]; rfl
      rw [e]
      rcases ih (ret ++ kept sim closer facts c) with ⟨h', c', hc, hd'⟩ | ⟨h', hd'⟩ | ⟨h', c', hc, hd'⟩
      · exact .inl ⟨h', c', by simp [hc], hd'⟩
      · refine .inr (.inl ⟨by rw [h']; simp, ?_⟩)
        intro c' hc
        rcases List.mem_cons.1 hc with rfl | hc
        · exact hd
        · exact hd' c' hc
      · exact .inr (.inr ⟨h', c', by simp [hc], hd'⟩)
    · exact .inr (.inr ⟨by rw [resolveRest, h]; rfl, c, by simp, hd⟩)

/-- What becomes of a requirement with alternatives, given facts.  It is dropped if one of its
alternatives is found in one of the five forms.  Otherwise each alternative is replaced by its one to
three changed forms.  The only other outcome is an invalid read, when a form is looked up: the
assertion that there are at most ten alternatives (constraintResolve.c:367) does not fail, for each is
resolved on its own. -/
theorem C123_exactly {c facts : List Constraint} (hf : facts ≠ []) (hc : c ≠ []) :
    (doResolveOr sim closer c facts = .ok none
      ∧ ∃ a ∈ c, ∃ d ∈ forms sim closer facts a, resolve sim d facts = some true)
    ∨ (doResolveOr sim closer c facts = .ok (some (c.flatMap (kept sim closer facts)))
      ∧ ∀ a ∈ c, ∀ d ∈ forms sim closer facts a, resolve sim d facts = some false)
    ∨ (doResolveOr sim closer c facts = .error .badRead
      ∧ ∃ a ∈ c, ∃ d ∈ forms sim closer facts a, resolve sim d facts = none) := by
  cases facts with
  | nil => exact absurd rfl hf
  | cons f fs =>
  cases c with
  | nil => exact absurd rfl hc
  | cons a cs =>
    have e : doResolveOr sim closer (a :: cs) (f :: fs) = resolveRest sim closer (f :: fs) [] (a :: cs) := by
      show (doResolve sim closer [a] (f :: fs) >>= _) = (doResolve sim closer [a] (f :: fs) >>= _)
      congr 1
    rw [e]
    simpa using resolveRest_cases (sim := sim) (closer := closer) (f :: fs) (a :: cs) []

/-- Without facts the requirement is kept as it is. -/
theorem C123_no_facts (c : List Constraint) : doResolveOr sim closer c [] = .ok (some c) := rfl

/-- Each alternative is replaced by at least one and at most three. -/
theorem C123_growth {c facts r : List Constraint} (hf : facts ≠ []) (hc : c ≠ [])
    (h : doResolveOr sim closer c facts = .ok (some r)) :
    c.length ≤ r.length ∧ r.length ≤ 3 * c.length := by
  have one : ∀ a, 1 ≤ (kept sim closer facts a).length ∧ (kept sim closer facts a).length ≤ 3 := by
    intro a
    simp only [kept]
    split <;> split <;> simp
  rcases C123_exactly (sim := sim) (closer := closer) hf hc with ⟨h', -⟩ | ⟨h', -⟩ | ⟨h', -⟩
  · rw [h'] at h; cases h
  · rw [h'] at h
    simp only [Except.ok.injEq, Option.some.injEq] at h
    subst h
    clear h' hc
    induction c with
    | nil => simp
    | cons a c ih =>
      have := one a
      simp only [List.flatMap_cons, List.length_append, List.length_cons]
      omega
  · rw [h'] at h; cases h

namespace BoundsEx
abbrev b : Expr := .term (.ref 4 none)
abbrev w : Expr := .term (.ref 5 none)
abbrev z : Expr := .term (.ref 6 none)
end BoundsEx

/-- three alternatives from one: `x >= y` with `b < y`, `b + 1 <= z` and `x <= w` -/
theorem C123_growth_reached :
    doResolveOr BoundsEx.sim (fun _ _ => false) [⟨BoundsEx.x, .gte, BoundsEx.y⟩]
      [⟨BoundsEx.b, .lt, BoundsEx.y⟩, ⟨.bin .plus BoundsEx.b (.lit 1), .lte, BoundsEx.z⟩,
        ⟨BoundsEx.x, .lte, BoundsEx.w⟩]
    = .ok (some [⟨BoundsEx.x, .gte, BoundsEx.y⟩,
        ⟨BoundsEx.w, .gte, .bin .plus BoundsEx.b (.lit 1)⟩, ⟨BoundsEx.x, .gte, BoundsEx.z⟩]) := by
  decide +kernel

/-- Whatever the facts are, if they hold, then a requirement that is dropped because of them holds, and
one that is kept in another form holds if that form does. -/
def C123_full : Prop :=
  ∀ (sim : Nat → Nat → Bool) (closer : Constraint → Constraint → Bool) (ρ : State)
    (facts c : List Constraint) (r : Option (List Constraint)), Same sim ρ →
    (∀ a ∈ c, Proper ρ a ∧ ¬ Strict a.ar) → (∀ p ∈ facts, Fact ρ p ∧ Holds ρ p) →
    doResolveOr sim closer c facts = .ok r → (∀ k, r = some k → AnyHolds ρ k) → AnyHolds ρ c

/-- `x >= y` with `b < y` becomes `x >= y` or `x >= b + 1`.  In the state below, `x` is 3, `y` is 7, and
`b` is 0. -/
theorem C123_full_is_false : ¬ C123_full := by
  intro h
  obtain ⟨a, ha, x, y, hx, hy, hr⟩ := h BoundsEx.sim (fun _ _ => false) BoundsEx.ρ
    [⟨BoundsEx.b, .lt, BoundsEx.y⟩] [⟨BoundsEx.x, .gte, BoundsEx.y⟩]
    (some [⟨BoundsEx.x, .gte, BoundsEx.y⟩, ⟨BoundsEx.x, .gte, .bin .plus BoundsEx.b (.lit 1)⟩])
    BoundsEx.same
    (by
      simp only [List.mem_singleton, forall_eq]
      exact ⟨⟨BoundsEx.fact_var, ⟨.int 3, .int 7, rfl, rfl, rfl⟩, by intro op n e h; cases h⟩,
        by simp [Strict]⟩)
    (by
      simp only [List.mem_singleton, forall_eq]
      exact ⟨BoundsEx.fact_var, .int 0, .int 7, rfl, rfl, rfl, by decide⟩)
    (by decide +kernel)
    (by
      rintro k ⟨⟩
      exact ⟨⟨BoundsEx.x, .gte, .bin .plus BoundsEx.b (.lit 1)⟩, by simp, .int 3, .int 1, rfl, rfl,
        rfl, by decide⟩)
  simp only [List.mem_singleton] at ha
  subst ha
  cases hx
  cases hy
  exact absurd hr.2 (by decide)

/-- The rule that is used for alternatives only is sound: if the facts and the new form hold, then the
requirement holds. -/
theorem C123_strong {c : Constraint} {facts : List Constraint} (hs : Same sim ρ)
    (ha : c.ar = .gte) (hc : Fits ρ c.r) (hf : ∀ p ∈ facts, Fits ρ p.l ∧ Fits ρ p.r ∧ Holds ρ p)
    (h : Holds ρ (strongIn sim c facts)) : Holds ρ c := by
  induction facts generalizing c with
  | nil => exact h
  | cons p ps ih =>
    obtain ⟨hl, hr, hp⟩ := hf p (by simp)
    have hf' : ∀ q ∈ ps, Fits ρ q.l ∧ Fits ρ q.r ∧ Holds ρ q := fun q hq => hf q (by simp [hq])
    rw [strongIn] at h
    by_cases hb : ((p.ar == .lt || p.ar == .lte) && Expr.similar sim p.l c.r) = true
    · rw [if_pos hb] at h
      simp only [Bool.and_eq_true, Bool.or_eq_true, beq_iff_eq] at hb
      obtain ⟨har, hsim⟩ := hb
      have hev := Expr.similar_eval hs hl hc hsim
      obtain ⟨v, w, hv, hw, hrel⟩ := hp
      rcases har with har | har
      · rw [if_neg (by simp [har])] at h
        obtain ⟨x, y, hx, hy, hxy⟩ := ih (c := ⟨c.l, c.ar, inc p.r⟩) ha ⟨hr, trivial⟩ hf' h
        simp only [inc, eval, hw, evalTerm] at hx hy hxy
        rw [har] at hrel
        refine ⟨x, v, hx, hev ▸ hv, ?_⟩
        rw [ha] at hxy ⊢
        obtain ⟨wb, wo⟩ := w
        obtain ⟨h1, h2⟩ := hrel
        cases wb <;> simp only [Val.apply, Val.add, Option.some.injEq] at hy <;> subst hy <;>
          obtain ⟨h3, h4⟩ := hxy <;> simp only at h1 h2 h3 h4 <;>
          exact ⟨h3.trans h1.symm, by omega⟩
      · rw [if_pos (by simp [har])] at h
        obtain ⟨x, y, hx, hy, hxy⟩ := ih (c := ⟨c.l, c.ar, p.r⟩) ha hr hf' h
        simp only at hx hy hxy
        rw [hw] at hy
        cases hy
        rw [har] at hrel
        refine ⟨x, v, hx, hev ▸ hv, ?_⟩
        rw [ha] at hxy ⊢
        obtain ⟨h1, h2⟩ := hrel
        obtain ⟨h3, h4⟩ := hxy
        exact ⟨h3.trans h1.symm, by omega⟩
    · rw [if_neg hb] at h
      exact ih ha hc hf' h

/-- `y >= x` with `x < 5` becomes `y >= 5 + 1` -/
example : strongIn BoundsEx.sim ⟨BoundsEx.y, .gte, BoundsEx.x⟩
      [⟨BoundsEx.b, .lte, BoundsEx.x⟩, ⟨BoundsEx.x, .lt, .lit 5⟩]
    = ⟨BoundsEx.y, .gte, .bin .plus (.lit 5) (.lit 1)⟩
    ∧ Holds BoundsEx.ρ (strongIn BoundsEx.sim ⟨BoundsEx.y, .gte, BoundsEx.x⟩
      [⟨BoundsEx.b, .lte, BoundsEx.x⟩, ⟨BoundsEx.x, .lt, .lit 5⟩]) :=
  ⟨by decide +kernel, .int 7, .int 6, rfl, rfl, rfl, by decide⟩

theorem strongIn_id {c : Constraint} {facts : List Constraint}
    (h : ∀ p ∈ facts, p.ar ≠ .lt ∧ p.ar ≠ .lte) : strongIn sim c facts = c := by
  induction facts generalizing c with
  | nil => rfl
  | cons p ps ih =>
    have := h p (by simp)
    rw [strongIn, if_neg (by simp [this])]
    exact ih fun p hp => h p (by simp [hp])

/-- The three changed forms of a safe requirement are the requirement itself. -/
theorem Bounds.Spec.Safe.ids {facts : List Constraint} {c : Constraint}
    (h : Safe sim closer ρ facts c) :
    inequality sim c facts = c ∧ strong sim c facts = c ∧ unsound sim c facts = c := by
  by_cases ha : c.ar = .gte
  · obtain ⟨h1, h2⟩ := h.lower ha
    simp only [inequality, strong, unsound, ha, beq_self_eq_true, if_true,
      inequalityIn_id fun p hp => (h1 p hp).1, strongIn_id h1, unsoundIn_id h1, h2, and_self]
  · simp [inequality, strong, unsound, ha]

/-- A safe requirement is kept as one that says the same, perhaps repeated. -/
theorem Bounds.Spec.Safe.kept {facts : List Constraint} {c : Constraint}
    (h : Safe sim closer ρ facts c) :
    ∀ d, d ∈ kept sim closer facts c ↔ d = substitute sim closer c facts := by
  intro d
  obtain ⟨h1, h2, h3⟩ := h.ids
  simp only [Spec.kept, h1, h2, h3]
  constructor
  · intro hd
    simp only [List.cons_append, List.mem_cons, List.mem_append] at hd
    rcases hd with rfl | hd | hd
    · rfl
    · split at hd <;> simp_all
    · split at hd <;> simp_all
  · rintro rfl
    simp

theorem Bounds.Spec.Safe.sub {facts : List Constraint} {c : Constraint}
    (h : Safe sim closer ρ facts c) (hs : Same sim ρ) (hf : ∀ p ∈ facts, Fact ρ p ∧ Holds ρ p)
    (he : ∀ p ∈ facts, p.ar = .eq → Expr.search sim p.l p.r = false) :
    Holds ρ (substitute sim closer c facts) ↔ Holds ρ c :=
  C28_substitute_partial hs h.proper.left h.proper.right
    (fun p hm ha => ⟨(hf p hm).1.left, (hf p hm).1.right, (hf p hm).2, he p hm ha⟩) h.linear

/-- For safe requirements, and facts in which no equality contains its left side in its right side: a
requirement that is dropped because of the facts holds, and one that is kept in another form holds
exactly if that form does.  Missing: strict requirements, and upper bounds among the facts, for which it
fails; requirements that cannot be evaluated. -/
theorem C123_reflect_partial {c facts : List Constraint} {r : Option (List Constraint)}
    (hs : Same sim ρ) (hf : ∀ p ∈ facts, Fact ρ p ∧ Holds ρ p)
    (he : ∀ p ∈ facts, p.ar = .eq → Expr.search sim p.l p.r = false)
    (hc : ∀ a ∈ c, Safe sim closer ρ facts a) (h : doResolveOr sim closer c facts = .ok r) :
    (r = none ∧ AnyHolds ρ c) ∨ ∃ k, r = some k ∧ (AnyHolds ρ k ↔ AnyHolds ρ c) := by
  by_cases h0 : facts = []
  · subst h0
    cases h
    exact .inr ⟨c, rfl, Iff.rfl⟩
  by_cases h1 : c = []
  · subst h1
    cases facts with
    | nil => exact absurd rfl h0
    | cons f fs => cases h
  rcases C123_exactly (sim := sim) (closer := closer) h0 h1 with ⟨h', a, ha, d, hd, hr⟩ | ⟨h', -⟩ | ⟨h', -⟩
  · rw [h'] at h
    cases h
    refine .inl ⟨rfl, a, ha, ?_⟩
    obtain ⟨i1, i2, i3⟩ := (hc a ha).ids
    simp only [forms, i1, i2, i3, List.mem_cons, List.not_mem_nil, or_false] at hd
    rcases hd with rfl | rfl | rfl | rfl | rfl
    · exact C28_resolve_partial hs (hc _ ha).proper (hc _ ha).notStrict hf hr
    · exact ((hc a ha).sub hs hf he).1
        (C28_resolve_partial hs (hc a ha).proper' (hc a ha).notStrict' hf hr)
    all_goals exact C28_resolve_partial hs (hc _ ha).proper (hc _ ha).notStrict hf hr
  · rw [h'] at h
    cases h
    refine .inr ⟨_, rfl, ?_⟩
    simp only [AnyHolds, List.mem_flatMap]
    constructor
    · rintro ⟨d, ⟨a, ha, hd⟩, hh⟩
      rw [(hc a ha).kept] at hd
      exact ⟨a, ha, ((hc a ha).sub hs hf he).1 (hd ▸ hh)⟩
    · rintro ⟨a, ha, hh⟩
      exact ⟨_, ⟨a, ha, ((hc a ha).kept _).2 rfl⟩, ((hc a ha).sub hs hf he).2 hh⟩
  · rw [h'] at h
    cases h

/-- `y >= x` or `maxSet(p) >= x`, with `x = 3`: each is kept twice -/
example : doResolveOr BoundsEx.sim (fun _ _ => false)
      [⟨BoundsEx.y, .gte, BoundsEx.x⟩, ⟨.un .maxSet BoundsEx.p, .gte, BoundsEx.x⟩]
      [⟨BoundsEx.x, .eq, .lit 3⟩]
      = .ok (some [⟨BoundsEx.y, .gte, .lit 3⟩, ⟨BoundsEx.y, .gte, .lit 3⟩,
        ⟨.un .maxSet BoundsEx.p, .gte, .lit 3⟩, ⟨.un .maxSet BoundsEx.p, .gte, .lit 3⟩])
    ∧ Safe BoundsEx.sim (fun _ _ => false) BoundsEx.ρ [⟨BoundsEx.x, .eq, .lit 3⟩]
      ⟨BoundsEx.y, .gte, BoundsEx.x⟩ := by
  have e : substituteIn BoundsEx.sim (fun _ _ => false) ⟨BoundsEx.y, .gte, BoundsEx.x⟩
      [⟨BoundsEx.x, .eq, .lit 3⟩] = ⟨BoundsEx.y, .gte, .lit 3⟩ := by decide +kernel
  have e' : substitute BoundsEx.sim (fun _ _ => false) ⟨BoundsEx.y, .gte, BoundsEx.x⟩
      [⟨BoundsEx.x, .eq, .lit 3⟩] = ⟨BoundsEx.y, .gte, .lit 3⟩ := by decide +kernel
  refine ⟨by decide +kernel,
    ⟨BoundsEx.fact_var, ⟨.int 7, .int 3, rfl, rfl, rfl⟩, by intro op n e h; cases h⟩,
    by simp [Strict], ?_, ?_, ?_, fun _ => ⟨by simp, by decide +kernel⟩⟩
  · rw [e]
    exact ⟨by simp [Fits, TermFits], trivial, ⟨.int 7, .int 3, rfl, rfl, rfl⟩, by decide,
      .inr ⟨fun _ => False, some (.ref 1 none), ⟨.term rfl, trivial⟩, .inl (.lit 3)⟩⟩
  · rw [e']
    exact ⟨BoundsEx.fact_lit, ⟨.int 7, .int 3, rfl, rfl, rfl⟩, by intro op n e h; cases h⟩
  · rw [e']
    simp [Strict]

/-- Whenever putting in equals changes a safe requirement, it is kept twice: as an alternative to
itself. -/
theorem C123_doubled {c : Constraint} {facts k : List Constraint} (hc : Safe sim closer ρ facts c)
    (h0 : facts ≠ []) (h1 : same sim (substitute sim closer c facts) c = false)
    (h2 : same sim c c = true) (h : doResolveOr sim closer [c] facts = .ok (some k)) :
    k = [substitute sim closer c facts, substitute sim closer c facts] := by
  rcases C123_exactly (sim := sim) (closer := closer) h0 (c := [c]) (by simp) with
    ⟨h', -⟩ | ⟨h', -⟩ | ⟨h', -⟩
  · rw [h'] at h; cases h
  · rw [h'] at h
    obtain ⟨i1, i2, i3⟩ := hc.ids
    simp only [Except.ok.injEq, Option.some.injEq] at h
    subst h
    simp [kept, i1, i2, i3, h1, h2]
  · rw [h'] at h; cases h

example : same BoundsEx.sim ⟨BoundsEx.y, .gte, .lit 3⟩ ⟨BoundsEx.y, .gte, BoundsEx.x⟩ = false
    ∧ same BoundsEx.sim ⟨BoundsEx.y, .gte, BoundsEx.x⟩ ⟨BoundsEx.y, .gte, BoundsEx.x⟩ = true := by
  decide +kernel

/-! ### Comparing alternatives, and the form of the stronger one -/

/-- Alternatives are taken for the same only if they have the same relation between things that are
similar; so two that are taken for the same hold in the same states, or neither can be evaluated. -/
theorem C123_same {c d : Constraint} (hs : Same sim ρ) (hl : Fits ρ c.l) (hr : Fits ρ c.r)
    (hl' : Fits ρ d.l) (hr' : Fits ρ d.r) (h : same sim c d = true) :
    c.ar = d.ar ∧ eval ρ c.l = eval ρ d.l ∧ eval ρ c.r = eval ρ d.r ∧ (Holds ρ c ↔ Holds ρ d) := by
  simp only [same, Bool.and_eq_true, beq_iff_eq] at h
  obtain ⟨h1, h2, h3⟩ := h
  have e1 := Expr.similar_eval hs hl hl' h2
  have e2 := Expr.similar_eval hs hr hr' h3
  refine ⟨h1, e1, e2, ?_⟩
  unfold Holds
  rw [h1, e1, e2]

/-- `x >= 5` and `x >= five` are the same; `x >= 5` and `x <= 5` are not. -/
example : same BoundsEx.sim ⟨BoundsEx.x, .gte, .lit 5⟩ ⟨BoundsEx.x, .gte, BoundsEx.five⟩ = true
    ∧ same BoundsEx.sim ⟨BoundsEx.x, .gte, .lit 5⟩ ⟨BoundsEx.x, .lte, .lit 5⟩ = false := by
  decide +kernel

/-- With the fact that `s` is less than a literal, the requirement that `r` is at least `s` gets the
stronger form that `r` is at least the literal that is one more, not a sum: for all variables and every
literal. -/
theorem C123_strong_literal (r s : Nat) (n : Int) (hs : sim s s = true) :
    strong sim ⟨.term (.ref r none), .gte, .term (.ref s none)⟩ [⟨.term (.ref s none), .lt, .lit n⟩]
      = ⟨.term (.ref r none), .gte, .lit (n + 1)⟩ := by
  have h : Expr.similar sim (.term (.ref s none)) (.term (.ref s none)) = true := by
    simpa [Expr.similar, Term.similar, Term.value, Term.getRef] using hs
  have e : strongIn sim ⟨.term (.ref r none), .gte, .term (.ref s none)⟩
      [⟨.term (.ref s none), .lt, .lit n⟩] = ⟨.term (.ref r none), .gte, inc (.lit n)⟩ := by
    simp [strongIn, h]
  unfold strong
  rw [e, if_pos (by rfl)]
  have e1 : Expr.simplify sim (.term (.ref r none)) = .term (.ref r none) := simplify_term _
  have e2 : Expr.simplify sim (inc (.lit n)) = .lit (n + 1) := simplify_twoLits_eq sim BinOp.plus n 1
  show (simplifyN sim (_ + 1) _).getD _ = _
  rw [simplifyN, if_neg (by simp [tooDeep, Expr.depth, inc])]
  simp [step, both, e1, e2, Expr.isLit]

example : strong BoundsEx.sim ⟨BoundsEx.y, .gte, BoundsEx.x⟩ [⟨BoundsEx.x, .lt, .lit 5⟩]
    = ⟨BoundsEx.y, .gte, .lit 6⟩ := by decide +kernel

/-! ### Lists of requirements -/

theorem heads_append (s t : List (List Constraint)) : heads (s ++ t) = heads s ++ heads t := by
  simp [heads]

/-- A requirement is not added to a list if the first alternative of an element of the list gives its
first alternative; otherwise it is.  The other alternatives are not considered. -/
theorem C123_add {s r : List (List Constraint)} {c : Constraint} {cs : List Constraint}
    (h : add sim s (c :: cs) = .ok r) :
    (r = s ∧ ∃ p ∈ heads s, satisfies sim c p = some true)
      ∨ (r = s ++ [c :: cs] ∧ resolve sim c (heads s) = some false) := by
  rw [add] at h
  split at h
  · cases h
  · next hr => cases h; exact .inl ⟨rfl, resolve_iff hr⟩
  · next hr => cases h; exact .inr ⟨rfl, hr⟩

/-- So a requirement is lost when the same requirement, or something else, is in the list: whenever the
something else holds and the requirement does not, all in the list holds, but not what was added. -/
theorem C123_add_lost {c d : Constraint} (hr : satisfies sim c c = some true) (hd : Holds ρ d)
    (hc : ¬ Holds ρ c) :
    add sim [[c, d]] [c] = .ok [[c, d]] ∧ AllHold ρ [[c, d]] ∧ ¬ AnyHolds ρ [c] := by
  refine ⟨?_, ?_, ?_⟩
  · simp [add, heads, resolve, hr]
  · intro e he
    simp only [List.mem_singleton] at he
    subst he
    exact ⟨d, by simp, hd⟩
  · rintro ⟨a, ha, hh⟩
    simp only [List.mem_singleton] at ha
    exact hc (ha ▸ hh)

example : satisfies BoundsEx.sim ⟨BoundsEx.x, .gte, .lit 5⟩ ⟨BoundsEx.x, .gte, .lit 5⟩ = some true
    ∧ Holds BoundsEx.ρ ⟨BoundsEx.y, .gte, .lit 5⟩ ∧ ¬ Holds BoundsEx.ρ ⟨BoundsEx.x, .gte, .lit 5⟩ := by
  refine ⟨by decide +kernel, ⟨.int 7, .int 5, rfl, rfl, rfl, by decide⟩, ?_⟩
  rintro ⟨x, y, hx, hy, hr⟩
  cases hx
  cases hy
  exact absurd hr.2 (by decide)

/-- The requirements of two parts of the program, put together, give those of each, if all are lower
bounds in simplest form. -/
def C123_merge_full : Prop :=
  ∀ (sim : Nat → Nat → Bool) (closer : Constraint → Constraint → Bool) (redundant : Bool) (ρ : State)
    (l1 l2 r : List (List Constraint)), Same sim ρ →
    (∀ c ∈ l1 ++ l2, c ≠ [] ∧ ∀ a ∈ c, Proper ρ a ∧ a.ar = .gte ∧ simplify sim a = a) →
    mergeRequires sim closer redundant l1 l2 = .ok r → AllHold ρ r → AllHold ρ l1 ∧ AllHold ρ l2

/-- `x >= 5`, together with `x >= 5` or `y >= 5`, gives the latter only. -/
theorem C123_merge_full_is_false : ¬ C123_merge_full := by
  intro h
  have p1 : Proper BoundsEx.ρ ⟨BoundsEx.x, .gte, .lit 5⟩ :=
    ⟨BoundsEx.fact_lit, ⟨.int 3, .int 5, rfl, rfl, rfl⟩, by intro op n e h; cases h⟩
  have p2 : Proper BoundsEx.ρ ⟨BoundsEx.y, .gte, .lit 5⟩ :=
    ⟨BoundsEx.fact_lit, ⟨.int 7, .int 5, rfl, rfl, rfl⟩, by intro op n e h; cases h⟩
  have s1 : simplify BoundsEx.sim ⟨BoundsEx.x, .gte, .lit 5⟩ = ⟨BoundsEx.x, .gte, .lit 5⟩ := by
    decide +kernel
  have s2 : simplify BoundsEx.sim ⟨BoundsEx.y, .gte, .lit 5⟩ = ⟨BoundsEx.y, .gte, .lit 5⟩ := by
    decide +kernel
  obtain ⟨h1, -⟩ := h BoundsEx.sim (fun _ _ => false) false BoundsEx.ρ
    [[⟨BoundsEx.x, .gte, .lit 5⟩]] [[⟨BoundsEx.x, .gte, .lit 5⟩, ⟨BoundsEx.y, .gte, .lit 5⟩]]
    [[⟨BoundsEx.x, .gte, .lit 5⟩, ⟨BoundsEx.y, .gte, .lit 5⟩]] BoundsEx.same
    (by
      simp only [List.cons_append, List.nil_append, List.mem_cons, List.not_mem_nil, or_false,
        forall_eq_or_imp, forall_eq, ne_eq, reduceCtorEq, not_false_eq_true, true_and]
      exact ⟨⟨p1, s1⟩, ⟨p1, s1⟩, p2, s2⟩)
    (by decide +kernel)
    (by
      intro e he
      simp only [List.mem_singleton] at he
      subst he
      exact ⟨⟨BoundsEx.y, .gte, .lit 5⟩, by simp, .int 7, .int 5, rfl, rfl, rfl, by decide⟩)
  obtain ⟨a, ha, x, y, hx, hy, hr⟩ := h1 _ (List.mem_singleton.2 rfl)
  simp only [List.mem_singleton] at ha
  subst ha
  cases hx
  cases hy
  exact absurd hr.2 (by decide)

theorem Bounds.Spec.Lower.cons {c : Constraint} {cs : List Constraint} (h : Lower sim ρ (c :: cs)) :
    Proper ρ c ∧ c.ar = .gte ∧ simplify sim c = c ∧ (∀ a ∈ c :: cs, a = c)
      ∧ (AnyHolds ρ (c :: cs) ↔ Holds ρ c) := by
  obtain ⟨d, -, h1, h2, h3, h4⟩ := h
  have := h1 c (by simp)
  subst this
  refine ⟨h2, h3, h4, h1, ?_, fun h => ⟨c, by simp, h⟩⟩
  rintro ⟨a, ha, hh⟩
  exact h1 a ha ▸ hh

theorem heads_lower {s : List (List Constraint)} (h : ∀ c ∈ s, Lower sim ρ c) (ha : AllHold ρ s) :
    ∀ p ∈ heads s, Fact ρ p ∧ Holds ρ p := by
  intro p hp
  simp only [heads, List.mem_filterMap] at hp
  obtain ⟨c, hc, he⟩ := hp
  cases c with
  | nil => cases he
  | cons d ds =>
    cases he
    obtain ⟨h1, -, -, -, h5⟩ := (h _ hc).cons
    exact ⟨h1.toFact, h5.1 (ha _ hc)⟩

theorem heads_gte {s : List (List Constraint)} (h : ∀ c ∈ s, Lower sim ρ c) :
    ∀ p ∈ heads s, p.ar = .gte := by
  intro p hp
  simp only [heads, List.mem_filterMap] at hp
  obtain ⟨c, hc, he⟩ := hp
  cases c with
  | nil => cases he
  | cons d ds => cases he; exact (h _ hc).cons.2.1

theorem add_lower {s r : List (List Constraint)} {c : List Constraint} (hs : Same sim ρ)
    (h1 : ∀ c ∈ s, Lower sim ρ c) (h2 : Lower sim ρ c) (h : add sim s c = .ok r) :
    (∀ c ∈ r, Lower sim ρ c) ∧ (AllHold ρ r ↔ AllHold ρ s ∧ AnyHolds ρ c) := by
  cases c with
  | nil => cases h
  | cons d ds =>
    obtain ⟨hp, ha, -, -, hh⟩ := h2.cons
    rw [add] at h
    split at h
    · cases h
    · next hr =>
      cases h
      refine ⟨h1, fun h => ⟨h, hh.2 ?_⟩, And.left⟩
      exact C28_resolve_partial hs hp (by simp [Strict, ha]) (heads_lower h1 h) hr
    · next hr =>
      cases h
      refine ⟨?_, ?_⟩
      · intro c hc
        rcases List.mem_append.1 hc with hc | hc
        · exact h1 c hc
        · exact List.mem_singleton.1 hc ▸ h2
      · constructor
        · intro h
          exact ⟨fun c hc => h c (by simp [hc]), h _ (by simp)⟩
        · rintro ⟨h, h'⟩ c hc
          rcases List.mem_append.1 hc with hc | hc
          · exact h c hc
          · exact List.mem_singleton.1 hc ▸ h'

theorem addList_lower {s t r : List (List Constraint)} (hs : Same sim ρ)
    (h1 : ∀ c ∈ s, Lower sim ρ c) (h2 : ∀ c ∈ t, Lower sim ρ c) (h : addList sim s t = .ok r) :
    (∀ c ∈ r, Lower sim ρ c) ∧ (AllHold ρ r ↔ AllHold ρ s ∧ AllHold ρ t) := by
  induction t generalizing s with
  | nil => cases h; exact ⟨h1, by simp [AllHold]⟩
  | cons e es ih =>
    rw [addList] at h
    cases ha : add sim s e with
    | error e' => rw [ha] at h; cases h
    | ok s' =>
      rw [ha] at h
      obtain ⟨h3, h4⟩ := add_lower hs h1 (h2 e (by simp)) ha
      obtain ⟨h5, h6⟩ := ih h3 (fun c hc => h2 c (by simp [hc])) h
      refine ⟨h5, h6.trans ?_⟩
      rw [h4]
      simp only [AllHold, List.mem_cons, forall_eq_or_imp, and_assoc]

theorem substituteIn_id {c : Constraint} {facts : List Constraint}
    (h : ∀ p ∈ facts, p.ar = .gte) : substituteIn sim closer c facts = c := by
  induction facts generalizing c with
  | nil => rfl
  | cons p ps ih =>
    rw [substituteIn, if_neg (by simp [h p (by simp)])]
    exact ih fun p hp => h p (by simp [hp])

theorem doResolveOr_lower {c : List Constraint} {post : List (List Constraint)}
    {r : Option (List Constraint)} (hs : Same sim ρ) (h1 : Lower sim ρ c)
    (h2 : ∀ c ∈ post, Lower sim ρ c) (h : doResolveOr sim closer c (heads post) = .ok r) :
    (r = none ∧ (AllHold ρ post → AnyHolds ρ c))
      ∨ ∃ k, r = some k ∧ Lower sim ρ k ∧ (AnyHolds ρ k ↔ AnyHolds ρ c) := by
  by_cases h0 : heads post = []
  · rw [h0] at h
    cases h
    exact .inr ⟨c, rfl, h1, Iff.rfl⟩
  cases c with
  | nil => exact absurd rfl h1.choose_spec.1
  | cons d ds =>
    obtain ⟨hp, ha, hsi, hall, hh⟩ := h1.cons
    have hg := heads_gte h2
    have hno : ∀ p ∈ heads post, p.ar ≠ .lt ∧ p.ar ≠ .lte := fun p hp => by simp [hg p hp]
    have i0 : substitute sim closer d (heads post) = d := by
      rw [substitute, substituteIn_id hg, hsi]
    have i1 : inequality sim d (heads post) = d := by
      simp only [inequality, ha, beq_self_eq_true, if_true, inequalityIn_id fun p hp => (hno p hp).1,
        hsi]
    have i2 : strong sim d (heads post) = d := by
      simp only [strong, ha, beq_self_eq_true, if_true, strongIn_id hno, hsi]
    have i3 : unsound sim d (heads post) = d := by
      simp only [unsound, ha, beq_self_eq_true, if_true, unsoundIn_id hno, hsi]
    have hk : ∀ e, e ∈ kept sim closer (heads post) d ↔ e = d := by
      intro e
      simp only [kept, i0, i1, i2, i3]
      constructor
      · intro he
        simp only [List.cons_append, List.mem_cons, List.mem_append] at he
        rcases he with rfl | he | he
        · rfl
        · split at he <;> simp_all
        · split at he <;> simp_all
      · rintro rfl
        simp
    rcases C123_exactly (sim := sim) (closer := closer) h0 (c := d :: ds) (by simp) with
      ⟨h', a, hm, e, he, hr⟩ | ⟨h', -⟩ | ⟨h', -⟩
    · rw [h'] at h
      cases h
      refine .inl ⟨rfl, fun hpost => hh.2 ?_⟩
      have := hall a hm
      subst this
      simp only [forms, i0, i1, i2, i3, List.mem_cons, List.not_mem_nil, or_false, or_self] at he
      subst he
      exact C28_resolve_partial hs hp (by simp [Strict, ha]) (heads_lower h2 hpost) hr
    · rw [h'] at h
      cases h
      have hm : ∀ e, e ∈ (d :: ds).flatMap (kept sim closer (heads post)) ↔ e = d := by
        intro e
        simp only [List.mem_flatMap]
        constructor
        · rintro ⟨a, ha, he⟩
          rw [hall a ha] at he
          exact (hk e).1 he
        · rintro rfl
          exact ⟨e, by simp, (hk e).2 rfl⟩
      refine .inr ⟨_, rfl, ⟨d, ?_, fun a ha => (hm a).1 ha, hp, ha, hsi⟩, ?_⟩
      · intro hn
        have := (hm d).2 rfl
        rw [hn] at this
        cases this
      · rw [hh]
        constructor
        · rintro ⟨e, he, h⟩
          exact (hm e).1 he ▸ h
        · intro h
          exact ⟨d, (hm d).2 rfl, h⟩
    · rw [h'] at h
      cases h

theorem reflectFrom_lower {post ret es r : List (List Constraint)} (hs : Same sim ρ)
    (h0 : ∀ c ∈ post, Lower sim ρ c) (h1 : ∀ c ∈ ret, Lower sim ρ c) (h2 : ∀ c ∈ es, Lower sim ρ c)
    (h : reflectFrom sim closer post ret es = .ok r) :
    (∀ c ∈ r, Lower sim ρ c) ∧ (AllHold ρ post → (AllHold ρ r ↔ AllHold ρ ret ∧ AllHold ρ es)) := by
  induction es generalizing ret with
  | nil => cases h; exact ⟨h1, fun _ => by simp [AllHold]⟩
  | cons e es ih =>
    rw [reflectFrom] at h
    have split : AllHold ρ (e :: es) ↔ AnyHolds ρ e ∧ AllHold ρ es := by simp [AllHold]
    cases hd : doResolveOr sim closer e (heads post) with
    | error x => rw [hd] at h; cases h
    | ok t =>
      rw [hd] at h
      rcases doResolveOr_lower hs (h2 e (by simp)) h0 hd with ⟨rfl, hp⟩ | ⟨k, rfl, hk, hiff⟩
      · obtain ⟨h3, h4⟩ := ih h1 (fun c hc => h2 c (by simp [hc])) h
        refine ⟨h3, fun hpost => ?_⟩
        rw [h4 hpost, split]
        exact ⟨fun ⟨a, b⟩ => ⟨a, hp hpost, b⟩, fun ⟨a, _, b⟩ => ⟨a, b⟩⟩
      · cases ha : add sim ret k with
        | error x =>
          have h : (add sim ret k >>= fun x => reflectFrom sim closer post x es) = .ok r := h
          rw [ha] at h; cases h
        | ok ret' =>
          have h : (add sim ret k >>= fun x => reflectFrom sim closer post x es) = .ok r := h
          rw [ha] at h
          obtain ⟨h5, h6⟩ := add_lower hs h1 hk ha
          obtain ⟨h3, h4⟩ := ih h5 (fun c hc => h2 c (by simp [hc])) h
          refine ⟨h3, fun hpost => ?_⟩
          rw [h4 hpost, split, h6, hiff, and_assoc]

/-- If all requirements are lower bounds in simplest form, without alternatives, then those of two
parts of the program put together hold exactly if those of each do.  Missing: requirements with
alternatives, for which it fails; equalities and upper bounds. -/
theorem C123_merge_partial {redundant : Bool} {l1 l2 r : List (List Constraint)} (hs : Same sim ρ)
    (h1 : ∀ c ∈ l1, Lower sim ρ c) (h2 : ∀ c ∈ l2, Lower sim ρ c)
    (h : mergeRequires sim closer redundant l1 l2 = .ok r) :
    AllHold ρ r ↔ AllHold ρ l1 ∧ AllHold ρ l2 := by
  unfold mergeRequires at h
  split at h
  · exact (addList_lower hs h1 h2 h).2
  · cases ht : reflectOr sim closer l1 l2 with
    | error e => rw [ht] at h; cases h
    | ok temp =>
      rw [ht] at h
      have h : (reflectOr sim closer l2 temp >>= fun ret => addList sim ret temp) = .ok r := h
      cases hr : reflectOr sim closer l2 temp with
      | error e => rw [hr] at h; cases h
      | ok ret =>
        rw [hr] at h
        have nil : ∀ c ∈ ([] : List (List Constraint)), Lower sim ρ c := by simp
        have nilh : AllHold ρ [] := by simp [AllHold]
        obtain ⟨a1, a2⟩ := reflectFrom_lower hs h2 nil h1 ht
        obtain ⟨b1, b2⟩ := reflectFrom_lower hs a1 nil h2 hr
        rw [(addList_lower hs b1 a1 h).2]
        constructor
        · rintro ⟨hret, htemp⟩
          have h2 := ((b2 htemp).1 hret).2
          exact ⟨((a2 h2).1 htemp).2, h2⟩
        · rintro ⟨x1, x2⟩
          have htemp := (a2 x2).2 ⟨nilh, x1⟩
          exact ⟨(b2 htemp).2 ⟨nilh, x2⟩, htemp⟩

example : mergeRequires BoundsEx.sim (fun _ _ => false) false
      [[⟨BoundsEx.x, .gte, .lit 2⟩], [⟨BoundsEx.y, .gte, .lit 5⟩]] [[⟨BoundsEx.x, .gte, .lit 3⟩]]
      = .ok [[⟨BoundsEx.x, .gte, .lit 3⟩], [⟨BoundsEx.y, .gte, .lit 5⟩]]
    ∧ Lower BoundsEx.sim BoundsEx.ρ [⟨BoundsEx.x, .gte, .lit 3⟩] :=
  ⟨by decide +kernel, ⟨BoundsEx.x, .gte, .lit 3⟩, by simp, by simp,
    ⟨BoundsEx.fact_lit, ⟨.int 3, .int 3, rfl, rfl, rfl⟩, by intro op n e h; cases h⟩, rfl,
    by decide +kernel⟩

end Splint
