import Verif.Proofs.Guards
/-! # C21, C51, C52: null guards -/
namespace Splint
open SRef SRefSet SetOp GExpr

/-! ## C21: guards are true -/

/-- C21, for conditions made of `==`, `!=`, null tests, `!`, `&&`, `||`, about any references for which
similar references are null together: what the code treats as guarded in a branch is not null when
the branch is taken. -/
theorem C21_sound (cm : Nat → Nat → Bool) (W : World) (hW : W.Obeys) (c : GExpr) (hc : c.isCond = true)
    (s : SRef) (hR : Guards.Respects W (s :: c.refs)) (b : Bool) (hb : c.eval W ≠ 0 ↔ b = true) :
    ∃ g, c.branch cm b = some g ∧ (g.isGuarded s = true → W.ref s ≠ 0) := by
  obtain ⟨x, h1, h2⟩ := node_good cm W hW (s :: c.refs) hR c hc (fun t ht => List.mem_cons_of_mem _ ht)
  obtain ⟨y, h3, h4⟩ := h2.produce cm
  refine ⟨_, by simp only [branch, h1, Option.bind_eq_bind, Option.bind_some, h3]; rfl, ?_⟩
  intro hg
  rw [Guards.isGuarded, member, List.any_eq_true] at hg
  obtain ⟨e, he, hs⟩ := hg
  cases b with
  | true =>
    simp only [if_true, Guards.copy_true] at he
    have := h4.t e he
    exact hR s (by simp) e this.1 hs (this.2 (hb.2 rfl))
  | false =>
    simp only [Bool.false_eq_true, if_false, Guards.invert_true] at he
    have := h4.f e he
    refine hR s (by simp) e this.1 hs (this.2 ?_)
    by_contra h0
    exact absurd (hb.1 h0) (by simp)

/-- C21 as stated, for variables and parameters, and elements, fields and targets of them. -/
def C21_full : Prop :=
  ∀ (cm : Nat → Nat → Bool) (H : Nat → SRef) (W : World) (M : Reading) (ρ : SRef → Nat) (c : GExpr)
    (s : SRef) (b : Bool), W.Obeys → (∀ v, M.ptr v = M.fetch v (some 0)) → c.isCond = true →
    (∀ r ∈ s :: c.refs, PathRef H r) → (c.eval (W.at M ρ) ≠ 0 ↔ b = true) →
    ∃ g, c.branch cm b = some g ∧ (g.isGuarded s = true → s.value M ρ ≠ 0)

/-- A world for the counterexamples: null tests of null. -/
def plainWorld : World := ⟨fun _ => 0, fun _ => 0, fun w _ x => if w = (x == 0) then 1 else 0, fun _ _ _ => 0⟩

theorem plainWorld_obeys : plainWorld.Obeys := by intro n; exact ⟨by simp [plainWorld], by simp [plainWorld]⟩

/-- `if (*a != NULL)` guards `a[1]`. -/
theorem C21_full_is_false : ¬ C21_full := by
  intro h
  obtain ⟨g, h1, h2⟩ := h (fun _ _ => true) sampleHeap plainWorld
    ⟨fun _ => 7, fun _ _ => 0, fun _ i => if i = some 0 then 7 else 0⟩ (fun _ => 1)
    (nullTest true (ref (sampleHeap 7) true)) (sampleHeap 4) true plainWorld_obeys (by simp) rfl
    (by
      intro r hr
      simp only [refs, List.mem_cons, List.not_mem_nil, or_false] at hr
      rcases hr with rfl | rfl
      · exact ⟨by simp [InHeap, sampleHeap, addr], rfl, rfl⟩
      · exact ⟨by simp [InHeap, sampleHeap, addr], rfl, rfl⟩)
    (by simp [eval, World.at, sampleHeap, value])
  have h3 : (branch (fun _ _ => true) (nullTest true (ref (sampleHeap 7) true)) true).map
      (fun g => g.isGuarded (sampleHeap 4)) = some true := by decide +kernel
  rw [h1] at h3
  simp only [Option.map_some, Option.some.injEq] at h3
  exact h2 h3 (by simp [sampleHeap, value])

/-- The same in an intersection: `a[1] != NULL || *a != NULL` guards `a[1]` when it is true. -/
theorem C21_elements : (branch (fun _ _ => true) (or_ (nullTest true (ref (sampleHeap 4) true))
    (nullTest true (ref (sampleHeap 7) true))) true).map (fun g => g.isGuarded (sampleHeap 4)) =
      some true := by decide +kernel

/-- C21 without array elements (missing: elements, for which `C21_full` fails). -/
theorem C21_partial (cm : Nat → Nat → Bool) (H : Nat → SRef) (W : World) (M : Reading)
    (ρ : SRef → Nat) (c : GExpr) (s : SRef) (b : Bool) (hW : W.Obeys) (hc : c.isCond = true)
    (hp : ∀ r ∈ s :: c.refs, FieldPath H r) (hb : c.eval (W.at M ρ) ≠ 0 ↔ b = true) :
    ∃ g, c.branch cm b = some g ∧ (g.isGuarded s = true → s.value M ρ ≠ 0) := by
  obtain ⟨g, h1, h2⟩ := C21_sound cm (W.at M ρ) hW c hc s (fieldPath_respects W M ρ _ hp) b hb
  exact ⟨g, h1, fun h => by have := h2 h; simpa [World.at] using this⟩

/-- `!(x == NULL || !x->f0)` with both not null. -/
example : ∃ (W : World) (M : Reading) (ρ : SRef → Nat),
    (not_ (or_ (nullTest false (ref (sampleHeap 1) true)) (not_ (ref (sampleHeap 9) true)))).isCond = true ∧
    W.Obeys ∧
    ((not_ (or_ (nullTest false (ref (sampleHeap 1) true)) (not_ (ref (sampleHeap 9) true)))).eval
      (W.at M ρ) ≠ 0 ↔ true = true) ∧
    (∀ r ∈ sampleHeap 9 :: [sampleHeap 1, sampleHeap 9], FieldPath sampleHeap r) := by
  refine ⟨plainWorld, ⟨fun _ => 1, fun _ _ => 1, fun _ _ => 1⟩, fun _ => 1, rfl, plainWorld_obeys, ?_, ?_⟩
  · simp [eval, World.at, sampleHeap, value]
  · intro r hr
    simp only [List.mem_cons, List.not_mem_nil, or_false] at hr
    rcases hr with rfl | rfl | rfl <;>
      exact ⟨⟨by simp [InHeap, sampleHeap, addr], rfl, rfl⟩, rfl⟩

/-- C21 for all conditions without side effects, about variables, fields and targets. -/
def C21_operators_full : Prop :=
  ∀ (cm : Nat → Nat → Bool) (H : Nat → SRef) (W : World) (M : Reading) (ρ : SRef → Nat) (c : GExpr)
    (s : SRef) (b : Bool), W.Obeys → (∀ r ∈ s :: c.refs, FieldPath H r) →
    (c.eval (W.at M ρ) ≠ 0 ↔ b = true) →
    ∃ g, c.branch cm b = some g ∧ (g.isGuarded s = true → s.value M ρ ≠ 0)

/-- `(x != NULL) == 0`. -/
def comparedTest : GExpr := nullTest false (paren (nullTest true (ref (sampleHeap 1) true)))

/-- `if ((x != NULL) == 0)` guards `x` in the true branch, where it is null. -/
theorem C21_operators_full_is_false : ¬ C21_operators_full := by
  intro h
  obtain ⟨g, h1, h2⟩ := h (fun _ _ => true) sampleHeap plainWorld
    ⟨fun _ => 0, fun _ _ => 0, fun _ _ => 0⟩ (fun _ => 0) comparedTest (sampleHeap 1) true
    plainWorld_obeys
    (by
      intro r hr
      simp only [refs, comparedTest, List.mem_cons, List.not_mem_nil, or_false] at hr
      rcases hr with rfl | rfl <;>
        exact ⟨⟨by simp [InHeap, sampleHeap, addr], rfl, rfl⟩, rfl⟩)
    (by simp [comparedTest, eval, World.at, sampleHeap, value])
  have h3 : (comparedTest.branch (fun _ _ => true) true).map
      (fun g => g.isGuarded (sampleHeap 1)) = some true := by decide +kernel
  rw [h1] at h3
  simp only [Option.map_some, Option.some.injEq] at h3
  exact h2 h3 (by simp [sampleHeap, value])

/-- The same with other operators, with `,` and with `?:`: `(x != NULL) < y`, `(x != NULL, y)`,
`x != NULL ? y : z` and `y ? x : z` all guard `x` in the true branch. -/
theorem C21_other_operators :
    (branch (fun _ _ => true) (op 0 (nullTest true (ref (sampleHeap 1) true)) (other 0 false)) true).map
      (fun g => g.isGuarded (sampleHeap 1)) = some true ∧
    (branch (fun _ _ => true) (comma (nullTest true (ref (sampleHeap 1) true)) (other 0 false)) true).map
      (fun g => g.isGuarded (sampleHeap 1)) = some true ∧
    (branch (fun _ _ => true) (cond (nullTest true (ref (sampleHeap 1) true)) (other 0 false)
      (other 1 false)) true).map (fun g => g.isGuarded (sampleHeap 1)) = some true ∧
    (branch (fun _ _ => true) (cond (other 0 false) (ref (sampleHeap 1) true)
      (other 1 true)) true).map (fun g => g.isGuarded (sampleHeap 1)) = some true := by
  decide +kernel

/-! ### After statements -/

/-- All references that are guarded are not null. -/
def Guards.True (W : World) (g : Guards) : Prop :=
  FitsO g.trueSet ∧ FitsO g.falseSet ∧ ∀ e ∈ elemsOf g.trueSet, W.ref e ≠ 0

theorem levelUnion_true (cm : Nat → Nat → Bool) (W : World) (g h : Guards) (level : Int)
    (hg : g.True W) (hh : ∀ e ∈ elemsOf h.trueSet, W.ref e ≠ 0) :
    ∃ k, Guards.levelUnion cm g h level = some k ∧ k.True W := by
  cases h with
  | none => exact ⟨g, rfl, hg⟩
  | some h =>
    cases g with
    | none =>
      obtain ⟨a, a1, a2, a3⟩ := levelCopy_spec h.tguard level
      obtain ⟨b, b1, b2, _⟩ := levelCopy_spec h.fguard level
      refine ⟨some ⟨a, b⟩, ?_, a2, b2, ?_⟩
      · simp only [Guards.levelUnion]; rw [a1, Option.bind_eq_bind, Option.bind_some, b1]; rfl
      · intro e he
        have he : e ∈ elemsOf a := he
        rw [a3] at he
        exact hh e (List.mem_filter.1 he).1
    | some g =>
      obtain ⟨a, a1, a2, a3⟩ := insertAll_spec cm
        ((elemsOf h.tguard).filter fun el => decide (el.lexLevel ≤ level)) g.tguard hg.1
      obtain ⟨b, b1, _, b3⟩ := insertAll_spec cm
        ((elemsOf h.fguard).filter fun el => decide (el.lexLevel ≤ level)) g.fguard hg.2.1
      refine ⟨some ⟨a, b⟩, ?_, a3, b3, ?_⟩
      · have a1 : SRefSet.levelUnion cm g.tguard h.tguard level = some a := a1
        have b1 : SRefSet.levelUnion cm g.fguard h.fguard level = some b := b1
        simp only [Guards.levelUnion]; rw [a1, Option.bind_eq_bind, Option.bind_some, b1]; rfl
      · intro e he
        have he : e ∈ elemsOf a := he
        rw [a2] at he
        rcases Guards.mem_foldl_ins cm _ _ he with he | he
        · exact hg.2.2 e he
        · exact hh e (List.mem_filter.1 he).1

/-- C21 after `if (c) A else B`, of which `A` (`t`) or `B` (`f`) or both do not come back: when the
execution goes on, all guards of the scope are true. -/
theorem C21_after_return (cm : Nat → Nat → Bool) (W : World) (hW : W.Obeys) (c : GExpr)
    (hc : c.isCond = true) (hR : Guards.Respects W c.refs) (env : Guards) (henv : env.True W)
    (level : Int) (t f : Bool) (ht : t = true → c.eval W = 0) (hf : f = true → c.eval W ≠ 0) :
    ∃ g, afterBranches cm env c level t f = some g ∧ g.True W := by
  obtain ⟨x, h1, h2⟩ := node_good cm W hW c.refs hR c hc (fun t ht => ht)
  obtain ⟨y, h3, h4⟩ := h2.produce cm
  have hstep : ∃ e1, (if t then Guards.levelUnion cm env y.guards.invert level else some env) = some e1 ∧
      e1.True W := by
    cases t with
    | false => exact ⟨env, rfl, henv⟩
    | true =>
      refine levelUnion_true cm W env _ level henv ?_
      intro e he
      rw [Guards.invert_true] at he
      exact (h4.f e he).2 (ht rfl)
  obtain ⟨e1, h5, h6⟩ := hstep
  have hstep2 : ∃ e2, (if f then Guards.levelUnion cm e1 y.guards level else some e1) = some e2 ∧
      e2.True W := by
    cases f with
    | false => exact ⟨e1, rfl, h6⟩
    | true =>
      refine levelUnion_true cm W e1 _ level h6 ?_
      intro e he
      exact (h4.t e he).2 (hf rfl)
  obtain ⟨e2, h7, h8⟩ := hstep2
  exact ⟨e2, by
    simp only [afterBranches, h1, Option.bind_eq_bind, Option.bind_some, h3]
    cases t <;> simp_all, h8⟩

/-- `if (x == NULL) return;` with `x` not null, and then `x` is guarded. -/
example : (afterBranches (fun _ _ => true) none (nullTest false (ref (sampleHeap 1) true)) 3 true false).map
    (fun g => g.isGuarded (sampleHeap 1)) = some true ∧
    Guards.True plainWorld none ∧ (true = true → (nullTest false (ref (sampleHeap 1) true)).eval
      ⟨fun _ => 1, fun _ => 0, plainWorld.call, fun _ _ _ => 0⟩ = 0) := by
  refine ⟨by decide +kernel, ⟨trivial, trivial, by simp [Guards.trueSet, elemsOf]⟩, by simp [eval]⟩

/-- C21 after a loop, however it is left. -/
def C21_loop_full : Prop :=
  ∀ (cm : Nat → Nat → Bool) (W : World) (c : GExpr) (env : Guards), W.Obeys → c.isCond = true →
    Guards.Respects W c.refs → env.True W → ∃ g, afterLoop cm env c = some g ∧ g.True W

/-- `while (x == NULL) break;` guards `x`, which is null. -/
theorem C21_loop_full_is_false : ¬ C21_loop_full := by
  intro h
  obtain ⟨g, h1, h2⟩ := h (fun _ _ => true) plainWorld (nullTest false (ref (sampleHeap 1) true)) none
    plainWorld_obeys rfl (by intro s _ t _ _ h; exact absurd rfl h)
    ⟨trivial, trivial, by simp [Guards.trueSet, elemsOf]⟩
  have h3 : (afterLoop (fun _ _ => true) none (nullTest false (ref (sampleHeap 1) true))).map
      (fun g => (elemsOf g.trueSet).any fun _ => true) = some true := by decide +kernel
  rw [h1] at h3
  simp only [Option.map_some, Option.some.injEq, List.any_eq_true] at h3
  obtain ⟨e, he, _⟩ := h3
  exact h2.2.2 e he rfl

/-- C21 after a loop that is left because its condition is false (missing: `break`). -/
theorem C21_loop_partial (cm : Nat → Nat → Bool) (W : World) (hW : W.Obeys) (c : GExpr)
    (hc : c.isCond = true) (hR : Guards.Respects W c.refs) (env : Guards) (henv : env.True W)
    (h0 : c.eval W = 0) : ∃ g, afterLoop cm env c = some g ∧ g.True W := by
  obtain ⟨x, h1, h2⟩ := node_good cm W hW c.refs hR c hc (fun t ht => ht)
  obtain ⟨y, h3, h4⟩ := h2.produce cm
  have hy : ∀ e ∈ elemsOf y.guards.invert.trueSet, W.ref e ≠ 0 := by
    intro e he
    rw [Guards.invert_true] at he
    exact (h4.f e he).2 h0
  have hu : ∃ k, Guards.union cm env y.guards.invert = some k ∧ k.True W := by
    cases hi : y.guards.invert with
    | none => exact ⟨env, rfl, henv⟩
    | some h =>
      rw [hi] at hy
      cases env with
      | none =>
        refine ⟨some ⟨newCopy h.tguard, newCopy h.fguard⟩, rfl, newCopy_fits _, newCopy_fits _, ?_⟩
        intro e he
        have he : e ∈ elemsOf (newCopy h.tguard) := he
        rw [newCopy_elems] at he
        exact hy e he
      | some env =>
        obtain ⟨a, a1, a2, a3⟩ := Guards.union_mem cm env.tguard h.tguard henv.1
        obtain ⟨b, b1, b2, _⟩ := Guards.union_mem cm env.fguard h.fguard henv.2.1
        refine ⟨some ⟨a, b⟩, ?_, a2, b2, ?_⟩
        · simp only [Guards.union]; rw [a1, Option.bind_eq_bind, Option.bind_some, b1]; rfl
        · intro e he
          rcases a3 e he with he | he
          · exact henv.2.2 e he
          · exact hy e he
  obtain ⟨k, h5, h6⟩ := hu
  exact ⟨k, by simp only [afterLoop, h1, Option.bind_eq_bind, Option.bind_some, h3, h5], h6⟩

/-- `while (x == NULL)` left with `x` not null. -/
example : (nullTest false (ref (sampleHeap 1) true)).eval
      ⟨fun _ => 1, fun _ => 0, plainWorld.call, fun _ _ _ => 0⟩ = 0 ∧
    (afterLoop (fun _ _ => true) none (nullTest false (ref (sampleHeap 1) true))).map
      (fun g => g.isGuarded (sampleHeap 1)) = some true := by
  refine ⟨by simp [eval], by decide +kernel⟩

/-- C21 after `a || b` where `b` does not come back: the execution goes on only if `a` is true. -/
def C21_or_full : Prop :=
  ∀ (cm : Nat → Nat → Bool) (W : World) (a b : GExpr) (env : Guards) (level : Int), W.Obeys →
    (or_ a b).isCond = true → Guards.Respects W (or_ a b).refs → env.True W → a.eval W ≠ 0 →
    ∃ g, afterOr cm env a b level = some g ∧ g.True W

/-- After `x == NULL || fatal()`, where `fatal` does not come back, `x` is guarded, though it is
null. -/
theorem C21_or_full_is_false : ¬ C21_or_full := by
  intro h
  obtain ⟨g, h1, h2⟩ := h (fun _ _ => true) plainWorld (nullTest false (ref (sampleHeap 1) true))
    (other 0 false) none 3 plainWorld_obeys rfl (by intro s _ t _ _ h; exact absurd rfl h)
    ⟨trivial, trivial, by simp [Guards.trueSet, elemsOf]⟩ (by simp [eval, plainWorld])
  have h3 : (afterOr (fun _ _ => true) none (nullTest false (ref (sampleHeap 1) true))
      (other 0 false) 3).map (fun g => (elemsOf g.trueSet).any fun _ => true) = some true := by
    decide +kernel
  rw [h1] at h3
  simp only [Option.map_some, Option.some.injEq, List.any_eq_true] at h3
  obtain ⟨e, he, _⟩ := h3
  exact h2.2.2 e he rfl

/-! ## C51: what is shown is guarded -/

/-- C51: for conditions made of null tests of variables, fields and targets with `!`, `&&`, `||`, the
references guarded in a branch are exactly those that the condition shows not to be null. -/
theorem C51_exactly (cm : Nat → Nat → Bool) (H : Nat → SRef) (c : GExpr) (ht : c.isTest = true)
    (hr : ∀ s ∈ c.refs, FieldPath H s) (b : Bool) :
    ∃ g, c.branch cm b = some g ∧
      ∀ s, FieldPath H s → (g.isGuarded s = true ↔ s.strip ∈ c.shows b) := by
  obtain ⟨x, h1, h2⟩ := node_built cm H c ht hr
  obtain ⟨y, h3, h4⟩ := h2.produce cm hr
  refine ⟨_, by simp only [branch, h1, Option.bind_eq_bind, Option.bind_some, h3]; rfl, ?_⟩
  intro s hs
  cases b with
  | true =>
    rw [Guards.isGuarded, if_pos rfl, Guards.copy_true, member_texts h4.okT s hs, h4.t]
  | false =>
    rw [Guards.isGuarded, if_neg (by simp), Guards.invert_true, member_texts h4.okF s hs, h4.f]

/-- `x && !isnull(x->f0)` shows both when it is true. -/
example : (and_ (ref (sampleHeap 1) true) (not_ (call true 0 (ref (sampleHeap 9) true)))).isTest = true ∧
    (sampleHeap 9).strip ∈
      (and_ (ref (sampleHeap 1) true) (not_ (call true 0 (ref (sampleHeap 9) true)))).shows true ∧
    (sampleHeap 1).strip ∈
      (and_ (ref (sampleHeap 1) true) (not_ (call true 0 (ref (sampleHeap 9) true)))).shows true := by
  refine ⟨rfl, ?_, ?_⟩
  · right; exact ⟨rfl, _, rfl, rfl⟩
  · left; exact ⟨rfl, rfl, rfl⟩

/-! ## C52: guards go when the reference is assigned to -/

/-- C52: after the guards of `s` are removed, nothing inside `s` is guarded. -/
def C52_full : Prop :=
  ∀ (cm : Nat → Nat → Bool) (H : Nat → SRef) (sc : GuardScopes) (s u : SRef),
    (∀ x ∈ sc, FSetOk H x.2.trueSet) → FieldPath H s → FieldPath H u →
    s.strip ∈ u.strip.containers →
    ∃ sc', unguard cm sc s = some sc' ∧ scopesGuarded sc' u = false

/-- `if (x->f0 != NULL) { x = ...; }` leaves `x->f0` guarded. -/
theorem C52_full_is_false : ¬ C52_full := by
  intro h
  have hf : FieldPath sampleHeap (sampleHeap 9) := ⟨⟨by simp [InHeap, sampleHeap, addr], rfl, rfl⟩, rfl⟩
  obtain ⟨sc, h1, h2⟩ := h (fun _ _ => true) sampleHeap
    [(3, some ⟨some (single (sampleHeap 9)), none⟩)] (sampleHeap 1) (sampleHeap 9)
    (by
      intro x hx
      simp only [List.mem_singleton] at hx
      subst hx
      refine ⟨⟨by simp [Guards.trueSet, FitsO, Fits, single, baseSize], ?_, ?_⟩, ?_⟩
      · intro e he
        simp only [Guards.trueSet, Option.bind_some, elemsOf, single, Option.map_some, Option.getD_some,
          List.mem_singleton] at he
        subst he; exact hf.1
      · simp [Guards.trueSet, elemsOf, single]
      · intro e he
        simp only [Guards.trueSet, Option.bind_some, elemsOf, single, Option.map_some, Option.getD_some,
          List.mem_singleton] at he
        subst he; exact hf)
    ⟨⟨by simp [InHeap, sampleHeap, addr], rfl, rfl⟩, rfl⟩ hf (by simp [sampleHeap, strip, containers])
  have h3 : (unguard (fun _ _ => true) [(3, some ⟨some (single (sampleHeap 9)), none⟩)]
      (sampleHeap 1)).map (fun sc => scopesGuarded sc (sampleHeap 9)) = some true := by decide +kernel
  rw [h1] at h3
  simp [h2] at h3

/-- Also, `a[1]` is guarded because of `*a`, and an assignment to `a[1]` does not change that. -/
theorem C52_element : scopesGuarded [(3, some ⟨some (single (sampleHeap 7)), none⟩)] (sampleHeap 4) = true ∧
    (unguard (fun _ _ => true) [(3, some ⟨some (single (sampleHeap 7)), none⟩)] (sampleHeap 4)).map
      (fun sc => scopesGuarded sc (sampleHeap 4)) = some true := by decide +kernel

theorem mem_eraseP_strip (cm : Nat → Nat → Bool) (s : SRef) (l : List SRef)
    (hn : (l.map SRef.strip).Nodup) (h : ∀ e ∈ l, (s.realSame cm e = true ↔ s.strip = e.strip)) :
    ∀ e, e ∈ l.eraseP (s.realSame cm) ↔ e ∈ l ∧ e.strip ≠ s.strip := by
  induction l with
  | nil => simp
  | cons x l ih =>
    intro e
    rw [List.map_cons, List.nodup_cons] at hn
    have ih := ih hn.2 fun e he => h e (List.mem_cons_of_mem _ he)
    have hx := h x (by simp)
    by_cases hr : s.realSame cm x = true
    · rw [List.eraseP_cons_of_pos hr, List.mem_cons]
      constructor
      · intro he
        refine ⟨Or.inr he, fun h1 => hn.1 ?_⟩
        rw [← hx.1 hr, ← h1]
        exact List.mem_map_of_mem he
      · rintro ⟨rfl | he, h1⟩
        · exact absurd (hx.1 hr).symm h1
        · exact he
    · rw [List.eraseP_cons_of_neg hr, List.mem_cons, List.mem_cons, ih e]
      constructor
      · rintro (rfl | he)
        · exact ⟨Or.inl rfl, fun h1 => hr (hx.2 h1.symm)⟩
        · exact ⟨Or.inr he.1, he.2⟩
      · rintro ⟨rfl | he, h1⟩
        · exact Or.inl rfl
        · exact Or.inr ⟨he, h1⟩

/-- What `usymtab_unguard` does to one scope. -/
theorem delete_guards (cm : Nat → Nat → Bool) (H : Nat → SRef) (g : Guards) (s : SRef)
    (hg : FSetOk H g.trueSet) (hs : FieldPath H s) (u : SRef) (hu : FieldPath H u) :
    ∀ g', Guards.delete cm g s = some g' →
      (g'.isGuarded u = true ↔ g.isGuarded u = true ∧ u.strip ≠ s.strip) := by
  intro g' h
  cases g with
  | none => simp [Guards.delete] at h
  | some g =>
    simp only [Guards.delete, Option.map_some, Option.some.injEq] at h
    subst h
    cases ht : g.tguard with
    | none => simp [Guards.isGuarded, Guards.trueSet, ht, elemsOf, member]
    | some x =>
      have hg' : FSetOk H (some x) := by simpa [Guards.trueSet, ht] using hg
      obtain ⟨_, h2, _⟩ := deleteLoop_spec cm x s hg'.1.1 x.elems.length 0 (by omega)
      simp only [List.take_zero, List.drop_zero, List.nil_append] at h2
      have hrs : ∀ e ∈ x.elems, (s.realSame cm e = true ↔ s.strip = e.strip) := fun e he =>
        realSame_iff cm H s e hs.1.1 (hg'.1.2.1 e he).1 (exact_comparable s hs.1.2.2)
      have hel : ∀ e, e ∈ x.elems.eraseP (s.realSame cm) ↔ e ∈ x.elems ∧ e.strip ≠ s.strip :=
        mem_eraseP_strip cm s x.elems hg'.1.2.2 hrs
      simp only [Guards.isGuarded, Guards.trueSet, Option.bind_some, Option.map_some, ht, elemsOf,
        Option.getD_some, member, List.any_eq_true, SRefSet.delete, h2]
      constructor
      · rintro ⟨e, he, h⟩
        rw [hel] at he
        refine ⟨⟨e, he.1, h⟩, ?_⟩
        rw [(similar_fieldPath u e hu (hg'.2 e he.1)).1 h]
        exact he.2
      · rintro ⟨⟨e, he, h⟩, hne⟩
        refine ⟨e, (hel e).2 ⟨he, ?_⟩, h⟩
        rw [← (similar_fieldPath u e hu (hg'.2 e he)).1 h]
        exact hne

/-- One step of `unguard`. -/
def unguardOne (cm : Nat → Nat → Bool) (s : SRef) (x : Int × Guards) : Int × Guards :=
  if x.2.isGuarded s then (x.1, (Guards.delete cm x.2 s).getD none) else x

theorem unguard_eq (cm : Nat → Nat → Bool) (sc : GuardScopes) (s : SRef) :
    unguard cm sc s = some ((sc.takeWhile fun x => decide (lowLevel s ≤ x.1)).map (unguardOne cm s) ++
      sc.dropWhile fun x => decide (lowLevel s ≤ x.1)) := by
  have : ∀ l : GuardScopes, (l.mapM fun x =>
      if x.2.isGuarded s then (Guards.delete cm x.2 s).map fun g => (x.1, g) else some x) =
      some (l.map (unguardOne cm s)) := by
    intro l
    induction l with
    | nil => rfl
    | cons x l ih =>
      have h1 : (if x.2.isGuarded s then (Guards.delete cm x.2 s).map fun g => (x.1, g) else some x) =
          some (unguardOne cm s x) := by
        unfold unguardOne
        split
        · rename_i h
          cases hx : x.2 with
          | none => simp [hx, Guards.isGuarded, Guards.trueSet, elemsOf, member] at h
          | some g => simp [Guards.delete]
        · rfl
      rw [List.mapM_cons, h1, Option.bind_eq_bind, Option.bind_some, ih]; rfl
  simp only [unguard, this, Option.bind_eq_bind, Option.bind_some]

theorem unguardOne_guarded (cm : Nat → Nat → Bool) (H : Nat → SRef) (x : Int × Guards) (s : SRef)
    (hg : FSetOk H x.2.trueSet) (hs : FieldPath H s) (u : SRef) (hu : FieldPath H u) :
    (unguardOne cm s x).2.isGuarded u = true ↔ x.2.isGuarded u = true ∧ u.strip ≠ s.strip := by
  unfold unguardOne
  split
  · rename_i h
    cases hx : x.2 with
    | none => simp [hx, Guards.isGuarded, Guards.trueSet, elemsOf, member] at h
    | some g =>
      rw [hx] at hg
      exact delete_guards cm H (some g) s hg hs u hu _ rfl
  · rename_i h
    constructor
    · intro hu'
      refine ⟨hu', fun he => h ?_⟩
      rw [Guards.isGuarded, member_texts hg s hs, ← he, ← member_texts hg u hu]
      exact hu'
    · exact And.left

theorem unguardOne_level (cm : Nat → Nat → Bool) (x : Int × Guards) (s : SRef) :
    (unguardOne cm s x).1 = x.1 := by unfold unguardOne; split <;> rfl

theorem takeWhile_map_level (f : Int × Guards → Int × Guards) (hf : ∀ x, (f x).1 = x.1) (n : Int)
    (l : GuardScopes) : (l.map f).takeWhile (fun x => decide (n ≤ x.1)) =
      (l.takeWhile fun x => decide (n ≤ x.1)).map f := by
  induction l with
  | nil => rfl
  | cons x l ih =>
    simp only [List.map_cons, List.takeWhile_cons, hf]
    split <;> simp [ih]

/-- The scopes after `unguard`: those down to the level of `s` are changed. -/
def unguardAll (cm : Nat → Nat → Bool) (s : SRef) (n : Int) (l : GuardScopes) : GuardScopes :=
  (l.takeWhile fun x => decide (n ≤ x.1)).map (unguardOne cm s) ++ l.dropWhile fun x => decide (n ≤ x.1)

theorem any_unguardAll (cm : Nat → Nat → Bool) (s : SRef) (n m : Int) (u : SRef) (l : GuardScopes)
    (h : ∀ x ∈ l, (unguardOne cm s x).2.isGuarded u = x.2.isGuarded u) :
    ((unguardAll cm s n l).takeWhile fun x => decide (m ≤ x.1)).any (fun x => x.2.isGuarded u) =
      (l.takeWhile fun x => decide (m ≤ x.1)).any fun x => x.2.isGuarded u := by
  induction l with
  | nil => rfl
  | cons x l ih =>
    have ih := ih fun y hy => h y (List.mem_cons_of_mem _ hy)
    have hx := h x (by simp)
    by_cases hn : n ≤ x.1
    · have : unguardAll cm s n (x :: l) = unguardOne cm s x :: unguardAll cm s n l := by
        simp [unguardAll, List.takeWhile_cons, List.dropWhile_cons, hn]
      rw [this]
      by_cases hm : m ≤ x.1
      · simp only [List.takeWhile_cons, unguardOne_level, hm, decide_true, if_true, List.any_cons, hx, ih]
      · simp [List.takeWhile_cons, unguardOne_level, hm]
    · have : unguardAll cm s n (x :: l) = x :: l := by
        simp [unguardAll, List.takeWhile_cons, List.dropWhile_cons, hn]
      rw [this]

theorem takeWhile_unguardAll (cm : Nat → Nat → Bool) (s : SRef) (n : Int) (l : GuardScopes) :
    (unguardAll cm s n l).takeWhile (fun x => decide (n ≤ x.1)) =
      (l.takeWhile fun x => decide (n ≤ x.1)).map (unguardOne cm s) := by
  induction l with
  | nil => rfl
  | cons x l ih =>
    by_cases hn : n ≤ x.1
    · have : unguardAll cm s n (x :: l) = unguardOne cm s x :: unguardAll cm s n l := by
        simp [unguardAll, List.takeWhile_cons, List.dropWhile_cons, hn]
      rw [this]
      simp [List.takeWhile_cons, unguardOne_level, hn, ih]
    · simp [unguardAll, List.takeWhile_cons, List.dropWhile_cons, hn]

/-- C52 for the reference itself (missing: references inside it, for which `C52_full` fails, and array
elements): it is not guarded any more, and the others are guarded as before. -/
theorem C52_partial (cm : Nat → Nat → Bool) (H : Nat → SRef) (sc : GuardScopes) (s : SRef)
    (hsc : ∀ x ∈ sc, FSetOk H x.2.trueSet) (hs : FieldPath H s) :
    ∃ sc', unguard cm sc s = some sc' ∧ scopesGuarded sc' s = false ∧
      ∀ u, FieldPath H u → u.strip ≠ s.strip → scopesGuarded sc' u = scopesGuarded sc u := by
  refine ⟨unguardAll cm s (lowLevel s) sc, unguard_eq cm sc s, ?_, ?_⟩
  · rw [scopesGuarded, takeWhile_unguardAll, List.any_map, List.any_eq_false]
    intro x hx
    have := unguardOne_guarded cm H x s (hsc x (List.takeWhile_subset _ hx)) hs s hs
    simp only [Function.comp_apply, this]
    simp
  · intro u hu hne
    rw [scopesGuarded, any_unguardAll, ← scopesGuarded]
    intro x hx
    have := unguardOne_guarded cm H x s (hsc x hx) hs u hu
    rw [Bool.eq_iff_iff, this]
    exact ⟨And.left, fun h => ⟨h, hne⟩⟩

/-- `x` and `x->f0` are guarded, and `x` is assigned to. -/
example : scopesGuarded [(3, some ⟨some ⟨[sampleHeap 1, sampleHeap 9], 0, 8⟩, none⟩)] (sampleHeap 1) = true ∧
    FSetOk sampleHeap (Guards.trueSet (some ⟨some ⟨[sampleHeap 1, sampleHeap 9], 0, 8⟩, none⟩)) := by
  refine ⟨by decide +kernel, ⟨by simp [Guards.trueSet, FitsO, Fits], ?_, ?_⟩, ?_⟩
  · intro e he
    simp only [Guards.trueSet, Option.bind_some, elemsOf, Option.map_some, Option.getD_some,
      List.mem_cons, List.not_mem_nil, or_false] at he
    rcases he with rfl | rfl <;> exact ⟨by simp [InHeap, sampleHeap, addr], rfl, rfl⟩
  · simp [Guards.trueSet, elemsOf, sampleHeap, strip]
  · intro e he
    simp only [Guards.trueSet, Option.bind_some, elemsOf, Option.map_some, Option.getD_some,
      List.mem_cons, List.not_mem_nil, or_false] at he
    rcases he with rfl | rfl <;> exact ⟨⟨by simp [InHeap, sampleHeap, addr], rfl, rfl⟩, rfl⟩

/-- C52: a reference that is known to be null stays so when it is assigned to: false guards are never
removed. -/
theorem C52_null_stays (cm : Nat → Nat → Bool) (sc : GuardScopes) (s : SRef) (sc' : GuardScopes)
    (h : unguard cm sc s = some sc') (u : SRef) :
    sc'.map (fun x => (x.1, x.2.mustBeNull u)) = sc.map (fun x => (x.1, x.2.mustBeNull u)) := by
  rw [unguard_eq, Option.some.injEq] at h
  subst h
  have h1 : ∀ x, ((unguardOne cm s x).1, (unguardOne cm s x).2.mustBeNull u) = (x.1, x.2.mustBeNull u) := by
    intro x
    rw [unguardOne_level]
    unfold unguardOne
    split
    · cases hx : x.2 with
      | none => simp [Guards.delete]
      | some g => simp [Guards.delete, Guards.mustBeNull, Guards.falseSet]
    · rfl
  rw [List.map_append, List.map_map]
  conv_rhs => rw [← List.takeWhile_append_dropWhile (p := fun x => decide (lowLevel s ≤ x.1)) (l := sc),
    List.map_append]
  congr 1
  exact List.map_congr_left fun x _ => h1 x

/-- `if (x == NULL) { x = ...; }`. -/
example : (unguard (fun _ _ => true) [(3, some ⟨none, some (single (sampleHeap 1))⟩)] (sampleHeap 1)).map
    (fun sc => sc.map fun x => x.2.mustBeNull (sampleHeap 1)) = some [true] := by decide +kernel

end Splint
