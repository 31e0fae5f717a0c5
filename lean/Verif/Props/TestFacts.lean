import Verif.Spec.TestFacts
/-!
C100: what is assumed in the branches of a test is true there.
-/
namespace Splint.Facts
open Spec

variable {C : Type}

theorem add_sub (L : Logic C) (s : List C) (el f : C) (h : f ∈ L.add s el) : f ∈ s ∨ f = el := by
  unfold Logic.add at h
  split at h
  · exact Or.inl h
  · simpa using h

theorem addList_sub (L : Logic C) (l : List C) : ∀ s, ∀ f ∈ L.addList s l, f ∈ s ∨ f ∈ l := by
  induction l with
  | nil => intro s f h; exact Or.inl h
  | cons el l ih =>
    intro s f h
    rcases ih _ f h with h | h
    · rcases add_sub L s el f h with h | h
      · exact Or.inl h
      · exact Or.inr (by simp [h])
    · exact Or.inr (List.mem_cons_of_mem _ h)

theorem sub_add (L : Logic C) (s : List C) (el f : C) (h : f ∈ s) : f ∈ L.add s el := by
  unfold Logic.add
  split
  · exact h
  · simp [h]

theorem sub_addList (L : Logic C) (l : List C) : ∀ s, ∀ f ∈ s, f ∈ L.addList s l := by
  induction l with
  | nil => intro s f h; exact h
  | cons el l ih => intro s f h; exact ih _ f (sub_add L s el f h)

theorem addList_all {P : C → Prop} (L : Logic C) (s l : List C) (hs : ∀ f ∈ s, P f) (hl : ∀ f ∈ l, P f) :
    ∀ f ∈ L.addList s l, P f := by
  intro f hf
  rcases addList_sub L l s f hf with h | h
  · exact hs f h
  · exact hl f h

theorem orLoop_sub (L : Logic C) (other l : List C) : ∀ ret, ∀ f ∈ L.orLoop other ret l,
    f ∈ ret ∨ (f ∈ l ∧ (L.resolve f other = true ∨ L.resolve (L.subst f other) other = true)) := by
  induction l with
  | nil => intro ret f h; exact Or.inl h
  | cons el l ih =>
    intro ret f h
    rcases ih _ f h with h | ⟨h, hr⟩
    · split at h
      · rename_i hc
        rcases add_sub L ret el f h with h | h
        · exact Or.inl h
        · subst h
          simp only [Bool.and_eq_true, Bool.or_eq_true] at hc
          exact Or.inr ⟨by simp, hc.1⟩
      · exact Or.inl h
    · exact Or.inr ⟨List.mem_cons_of_mem _ h, hr⟩

/-- what is left of two lists of which one holds, holds -/
theorem or_holds {L : Logic Fact} (hL : Sound L) {σ : State} (hσ : Meaning σ) (l1 l2 : List Fact)
    (h : (∀ g ∈ l1, Fact.Holds σ g) ∨ (∀ g ∈ l2, Fact.Holds σ g)) :
    ∀ f ∈ L.or l1 l2, Fact.Holds σ f := by
  have key : ∀ (l : List Fact) (f : Fact), (∀ g ∈ l, Fact.Holds σ g) →
      (L.resolve f l = true ∨ L.resolve (L.subst f l) l = true) → Fact.Holds σ f := by
    intro l f hl hr
    rcases hr with hr | hr
    · exact hL.resolve σ f l hσ hr hl
    · exact hL.subst σ f l hσ hl (hL.resolve σ _ l hσ hr hl)
  intro f hf
  rcases orLoop_sub L l1 l2 _ f hf with hf | ⟨hf, hr⟩
  · rcases orLoop_sub L l2 l1 _ f hf with hf | ⟨hf, hr⟩
    · simp at hf
    · rcases h with h | h
      · exact h f hf
      · exact key l2 f h hr
  · rcases h with h | h
    · exact key l1 f h hr
    · exact h f hf

/-- The facts recorded for the node of a test itself are true. -/
theorem C100_own (L : Logic Fact) (hL : Sound L) (σ : State) (hσ : Meaning σ) (t : Tst)
    (hs : Safe σ t) :
    (σ.val t ≠ 0 → ∀ f ∈ (own L t).1, Fact.Holds σ f)
    ∧ (σ.val t = 0 → ∀ f ∈ (own L t).2, Fact.Holds σ f) := by
  induction t with
  | leaf n => simp [own]
  | fetch a i iha ihi =>
    refine ⟨fun _ f hf => ?_, by simp [own]⟩
    simp only [own, List.mem_singleton] at hf
    subst hf
    exact hs.1
  | parens e ih => simp [own]
  | cmp r a b iha ihb =>
    refine ⟨fun h f hf => ?_, fun h f hf => ?_⟩
    · simp only [own, List.mem_singleton] at hf
      subst hf
      exact (hσ.cmp r a b).1 h
    · have hn : ¬ Rel.Holds r (σ.val a) (σ.val b) := fun hc => (hσ.cmp r a b).2 hc h
      cases r <;> simp [own, Rel.negate] at hf <;> subst hf <;>
        simp only [Rel.Holds, Fact.Holds] at hn ⊢ <;> omega
  | and a b iha ihb =>
    obtain ⟨sa, sb⟩ := hs
    refine ⟨fun h => ?_, fun h => ?_⟩
    · obtain ⟨ha, hb⟩ := (hσ.and a b).1 h
      exact addList_all L _ _ (by simp) (addList_all L _ _ ((iha sa).1 ha) ((ihb (sb ha)).1 hb))
    · refine addList_all L _ _ (by simp) (or_holds hL hσ _ _ ?_)
      by_cases ha : σ.val a = 0
      · exact Or.inr ((iha sa).2 ha)
      · have hb : σ.val b = 0 := by
          by_contra hb
          exact ((hσ.and a b).2 ⟨ha, hb⟩) h
        exact Or.inl (addList_all L _ _ ((iha sa).1 ha) ((ihb (sb ha)).2 hb))
  | or a b iha ihb =>
    obtain ⟨sa, sb⟩ := hs
    refine ⟨fun h => ?_, fun h => ?_⟩
    · refine addList_all L _ _ (by simp) (or_holds hL hσ _ _ ?_)
      by_cases ha : σ.val a = 0
      · have hb : σ.val b ≠ 0 := ((hσ.or a b).1 h).resolve_left (by simp [ha])
        exact Or.inl (addList_all L _ _ ((iha sa).2 ha) ((ihb (sb ha)).1 hb))
      · exact Or.inr ((iha sa).1 ha)
    · have ha : σ.val a = 0 := by
        by_contra ha
        exact ((hσ.or a b).2 (Or.inl ha)) h
      have hb : σ.val b = 0 := by
        by_contra hb
        exact ((hσ.or a b).2 (Or.inr hb)) h
      exact addList_all L _ _ (by simp) (addList_all L _ _ ((iha sa).2 ha) ((ihb (sb ha)).2 hb))
  | not e ih =>
    refine ⟨fun h => ?_, fun h => ?_⟩
    · exact (ih hs).2 ((hσ.not e).1 h)
    · refine (ih hs).1 ?_
      intro he
      exact ((hσ.not e).2 he) h
  | unary o e ih => simp [own]
  | binary o a b iha ihb => simp [own]

theorem quiet_true (L : Logic Fact) (σ : State) (t : Tst) (hq : Quiet t = true) (hs : Safe σ t) :
    ∀ f ∈ trueFacts L t, Fact.Holds σ f := by
  induction t with
  | leaf n => simp [trueFacts, collect, own]
  | fetch a i iha ihi =>
    simp only [Quiet, Bool.and_eq_true] at hq
    obtain ⟨h, sa, si⟩ := hs
    refine addList_all L _ _ (addList_all L _ _ ?_ (iha hq.1 sa)) (ihi hq.2 si)
    simp only [own, List.mem_singleton]
    rintro f rfl
    exact h
  | parens e ih => exact addList_all L _ _ (by simp [own]) (ih hq hs)
  | cmp r a b iha ihb => simp [Quiet] at hq
  | and a b iha ihb => simp [Quiet] at hq
  | or a b iha ihb => simp [Quiet] at hq
  | not e ih => simp [Quiet] at hq
  | unary o e ih => exact addList_all L _ _ (by simp [own]) (ih hq hs)
  | binary o a b iha ihb =>
    simp only [Quiet, Bool.and_eq_true] at hq
    exact addList_all L _ _ (addList_all L _ _ (by simp [own]) (iha hq.1 hs.1)) (ihb hq.2 hs.2)

theorem quiet_false (L : Logic Fact) (t : Tst) (hq : Quiet t = true) : falseFacts L t = [] := by
  induction t with
  | leaf n => rfl
  | fetch a i iha ihi =>
    simp only [Quiet, Bool.and_eq_true] at hq
    simp only [falseFacts] at iha ihi
    simp [falseFacts, collect, own, iha hq.1, ihi hq.2, Logic.addList]
  | parens e ih =>
    simp only [falseFacts] at ih
    simp [falseFacts, collect, own, ih hq, Logic.addList]
  | cmp r a b iha ihb => simp [Quiet] at hq
  | and a b iha ihb => simp [Quiet] at hq
  | or a b iha ihb => simp [Quiet] at hq
  | not e ih => simp [Quiet] at hq
  | unary o e ih =>
    simp only [falseFacts] at ih
    simp [falseFacts, collect, own, ih hq, Logic.addList]
  | binary o a b iha ihb =>
    simp only [Quiet, Bool.and_eq_true] at hq
    simp only [falseFacts] at iha ihb
    simp [falseFacts, collect, own, iha hq.1, ihb hq.2, Logic.addList]

theorem bare_true (L : Logic Fact) (t : Tst) (hq : Bare t = true) : trueFacts L t = [] := by
  induction t with
  | leaf n => rfl
  | fetch a i iha ihi => simp [Bare] at hq
  | parens e ih =>
    simp only [trueFacts] at ih
    simp [trueFacts, collect, own, ih hq, Logic.addList]
  | cmp r a b iha ihb => simp [Bare] at hq
  | and a b iha ihb => simp [Bare] at hq
  | or a b iha ihb => simp [Bare] at hq
  | not e ih => simp [Bare] at hq
  | unary o e ih =>
    simp only [trueFacts] at ih
    simp [trueFacts, collect, own, ih hq, Logic.addList]
  | binary o a b iha ihb =>
    simp only [Bare, Bool.and_eq_true] at hq
    simp only [trueFacts] at iha ihb
    simp [trueFacts, collect, own, iha hq.1, ihb hq.2, Logic.addList]

/-- In the branch for the true test everything is true that is assumed there, and in the `else` branch
as well. -/
def C100_full : Prop := ∀ (L : Logic Fact), Sound L → ∀ (σ : State), Meaning σ → ∀ t, Safe σ t →
  (σ.val t ≠ 0 → ∀ f ∈ trueFacts L t, Fact.Holds σ f)
  ∧ (σ.val t = 0 → ∀ f ∈ falseFacts L t, Fact.Holds σ f)

/-- Missing for `C100_full`: comparisons below `!` and `||`. -/
theorem C100_true_partial (L : Logic Fact) (hL : Sound L) (σ : State) (hσ : Meaning σ) (t : Tst)
    (hs : Safe σ t) (hc : Conjunctive t = true) (h : σ.val t ≠ 0) :
    ∀ f ∈ trueFacts L t, Fact.Holds σ f := by
  induction t with
  | leaf n => simp [trueFacts, collect, own]
  | fetch a i iha ihi => exact quiet_true L σ _ hc hs
  | parens e ih =>
    refine addList_all L _ _ (by simp [own]) (ih hs hc ?_)
    rwa [← hσ.parens]
  | cmp r a b iha ihb =>
    simp only [Conjunctive, Bool.and_eq_true] at hc
    refine addList_all L _ _ (addList_all L _ _ ?_ (quiet_true L σ a hc.1 hs.1))
      (quiet_true L σ b hc.2 hs.2)
    exact (C100_own L hL σ hσ _ hs).1 h
  | and a b iha ihb =>
    simp only [Conjunctive, Bool.and_eq_true] at hc
    obtain ⟨ha, hb⟩ := (hσ.and a b).1 h
    refine addList_all L _ _ (addList_all L _ _ ?_ (iha hs.1 hc.1 ha)) (ihb (hs.2 ha) hc.2 hb)
    exact (C100_own L hL σ hσ _ hs).1 h
  | or a b iha ihb =>
    simp only [Conjunctive, Bool.and_eq_true] at hc
    refine addList_all L _ _ (addList_all L _ _ ?_ (quiet_true L σ a hc.1 hs.1)) ?_
    · exact (C100_own L hL σ hσ _ hs).1 h
    · have := bare_true L b hc.2
      simp only [trueFacts] at this
      simp [this]
  | not e ih =>
    refine addList_all L _ _ ?_ (quiet_true L σ e hc hs)
    exact (C100_own L hL σ hσ _ hs).1 h
  | unary o e ih => exact quiet_true L σ _ hc hs
  | binary o a b iha ihb => exact quiet_true L σ _ hc hs

/-- Missing for `C100_full`: comparisons below `!` and `&&`. -/
theorem C100_false_partial (L : Logic Fact) (hL : Sound L) (σ : State) (hσ : Meaning σ) (t : Tst)
    (hs : Safe σ t) (hc : Disjunctive t = true) (h : σ.val t = 0) :
    ∀ f ∈ falseFacts L t, Fact.Holds σ f := by
  induction t with
  | leaf n => simp [falseFacts, collect, own]
  | fetch a i iha ihi => simp [quiet_false L (.fetch a i) hc]
  | parens e ih =>
    refine addList_all L _ _ (by simp [own]) (ih hs hc ?_)
    rwa [← hσ.parens]
  | cmp r a b iha ihb =>
    simp only [Disjunctive, Bool.and_eq_true] at hc
    have ha := quiet_false L a hc.1
    have hb := quiet_false L b hc.2
    simp only [falseFacts] at ha hb
    refine addList_all L _ _ (addList_all L _ _ ?_ (by simp [ha])) (by simp [hb])
    exact (C100_own L hL σ hσ _ hs).2 h
  | and a b iha ihb =>
    simp only [Disjunctive, Bool.and_eq_true] at hc
    have ha := quiet_false L a hc.1
    have hb := quiet_false L b hc.2
    simp only [falseFacts] at ha hb
    refine addList_all L _ _ (addList_all L _ _ ?_ (by simp [ha])) (by simp [hb])
    exact (C100_own L hL σ hσ _ hs).2 h
  | or a b iha ihb =>
    simp only [Disjunctive, Bool.and_eq_true] at hc
    have ha : σ.val a = 0 := by
      by_contra ha
      exact ((hσ.or a b).2 (Or.inl ha)) h
    have hb : σ.val b = 0 := by
      by_contra hb
      exact ((hσ.or a b).2 (Or.inr hb)) h
    refine addList_all L _ _ (addList_all L _ _ ?_ (iha hs.1 hc.1 ha)) (ihb (hs.2 ha) hc.2 hb)
    exact (C100_own L hL σ hσ _ hs).2 h
  | not e ih =>
    have he := quiet_false L e hc
    simp only [falseFacts] at he
    refine addList_all L _ _ ?_ (by simp [he])
    exact (C100_own L hL σ hσ _ hs).2 h
  | unary o e ih => simp [quiet_false L (.unary o e) hc]
  | binary o a b iha ihb => simp [quiet_false L (.binary o a b) hc]

/-- what is assumed after `if (t) return;` and the like is true if the test was false -/
theorem C100_after (L : Logic Fact) (hL : Sound L) (σ : State) (hσ : Meaning σ) (t : Tst)
    (hs : Safe σ t) (h : σ.val t = 0) : ∀ f ∈ afterFacts L t, Fact.Holds σ f :=
  (C100_own L hL σ hσ t hs).2 h

/-- nothing follows but what is there -/
def plain : Logic Fact where
  resolve f l := decide (f ∈ l)
  subst f _ := f

theorem plain_sound : Sound plain where
  resolve := by
    intro σ f l _ h hl
    exact hl f (by simpa [plain] using h)
  subst := by intro σ f l _ _ h; exact h

/-- a state in which the variables have the values given, and buffers 10 elements -/
def evalT (env : Nat → Int) : Tst → Int
  | .leaf n => env n
  | .fetch _ _ => 0
  | .parens e => evalT env e
  | .cmp r a b =>
    let x := evalT env a
    let y := evalT env b
    match r with
    | .eq => if x = y then 1 else 0
    | .lt => if x < y then 1 else 0
    | .le => if x ≤ y then 1 else 0
    | .gt => if x > y then 1 else 0
    | .ge => if x ≥ y then 1 else 0
  | .and a b => if evalT env a ≠ 0 ∧ evalT env b ≠ 0 then 1 else 0
  | .or a b => if evalT env a ≠ 0 ∨ evalT env b ≠ 0 then 1 else 0
  | .not e => if evalT env e = 0 then 1 else 0
  | .unary _ e => evalT env e
  | .binary _ _ _ => 0

def stateOf (env : Nat → Int) : State := ⟨evalT env, fun _ => 9⟩

theorem stateOf_meaning (env : Nat → Int) : Meaning (stateOf env) where
  parens _ := rfl
  cmp r a b := by cases r <;> simp [stateOf, evalT, Rel.Holds]
  and a b := by simp [stateOf, evalT]
  or a b := by
    simp only [stateOf, evalT]
    split <;> simp_all
  not e := by simp [stateOf, evalT]

theorem addList_back {L : Logic Fact} (hL : Sound L) {σ : State} (hσ : Meaning σ) (l : List Fact) :
    ∀ s, (∀ f ∈ L.addList s l, Fact.Holds σ f) → ∀ f ∈ l, Fact.Holds σ f := by
  induction l with
  | nil => simp
  | cons el l ih =>
    intro s h f hf
    rcases List.mem_cons.1 hf with rfl | hf
    · by_cases hr : L.resolve f s = true
      · exact hL.resolve σ f s hσ hr fun g hg => h g (sub_addList L (f :: l) s g hg)
      · refine h f (sub_addList L l (L.add s f) f ?_)
        simp [Logic.add, hr]
    · exact ih _ h f hf

/-- What is assumed if `a || b` is true includes what is assumed if `a` is true and what is assumed if
`b` is true; and what is assumed if `!e` is true includes what is assumed if `e` is true. -/
theorem C100_assumes_both (L : Logic Fact) (hL : Sound L) (σ : State) (hσ : Meaning σ) (a b e : Tst) :
    ((∀ f ∈ trueFacts L (.or a b), Fact.Holds σ f) →
      (∀ f ∈ trueFacts L a, Fact.Holds σ f) ∧ ∀ f ∈ trueFacts L b, Fact.Holds σ f)
    ∧ ((∀ f ∈ trueFacts L (.not e), Fact.Holds σ f) → ∀ f ∈ trueFacts L e, Fact.Holds σ f)
    ∧ ((∀ f ∈ falseFacts L (.and a b), Fact.Holds σ f) →
      (∀ f ∈ falseFacts L a, Fact.Holds σ f) ∧ ∀ f ∈ falseFacts L b, Fact.Holds σ f)
    ∧ ((∀ f ∈ falseFacts L (.not e), Fact.Holds σ f) → ∀ f ∈ falseFacts L e, Fact.Holds σ f) := by
  refine ⟨fun h => ⟨?_, ?_⟩, fun h => ?_, fun h => ⟨?_, ?_⟩, fun h => ?_⟩
  · exact addList_back hL hσ _ _ fun f hf => h f (sub_addList L _ _ f hf)
  · exact addList_back hL hσ _ _ h
  · exact addList_back hL hσ _ _ h
  · exact addList_back hL hσ _ _ fun f hf => h f (sub_addList L _ _ f hf)
  · exact addList_back hL hσ _ _ h
  · exact addList_back hL hσ _ _ h

/-- So a comparison below `!` is taken to be true where it is false. -/
theorem C100_not_wrong (L : Logic Fact) (hL : Sound L) (σ : State) (hσ : Meaning σ) (r : Rel) (a b : Tst)
    (h : σ.val (.not (.parens (.cmp r a b))) ≠ 0) :
    ∃ f ∈ trueFacts L (.not (.parens (.cmp r a b))), ¬ Fact.Holds σ f := by
  by_contra hc
  push Not at hc
  have h1 := (C100_assumes_both L hL σ hσ a a (.parens (.cmp r a b))).2.1 hc
  have h2 := addList_back hL hσ _ _ h1
  have h3 := h2 (.rel r a b) (sub_addList L _ _ _ (sub_addList L _ _ _ (by simp [own])))
  rw [hσ.not, hσ.parens] at h
  exact ((hσ.cmp r a b).2 h3) h

/-- `if (!(x < y))` with `x = 1`, `y = 0` -/
theorem C100_full_is_false : ¬ C100_full := by
  intro h
  have hv : (stateOf fun n => if n = 0 then 1 else 0).val (.not (.parens (.cmp .lt (.leaf 0) (.leaf 1))))
      ≠ 0 := by
    simp [stateOf, evalT]
  obtain ⟨f, hf, hn⟩ := C100_not_wrong plain plain_sound _ (stateOf_meaning _) .lt (.leaf 0) (.leaf 1) hv
  exact hn ((h plain plain_sound (stateOf fun n => if n = 0 then 1 else 0) (stateOf_meaning _)
    (.not (.parens (.cmp .lt (.leaf 0) (.leaf 1)))) ⟨trivial, trivial⟩).1 hv f hf)

/-- `if (x < y || z)` with `x = 1`, `y = 0`, `z = 1`: what is recorded for the node itself is true, what
is collected is not. -/
theorem C100_or_is_false : ∃ t σ, Meaning σ ∧ Safe σ t ∧ σ.val t ≠ 0
    ∧ (∃ f ∈ trueFacts plain t, ¬ Fact.Holds σ f) ∧ (∀ f ∈ (own plain t).1, Fact.Holds σ f) := by
  refine ⟨.or (.cmp .lt (.leaf 0) (.leaf 1)) (.leaf 2), stateOf fun n => if n = 1 then 0 else 1,
    stateOf_meaning _, ⟨⟨trivial, trivial⟩, fun _ => trivial⟩, by simp [stateOf, evalT],
    ⟨.rel .lt (.leaf 0) (.leaf 1), by decide, by simp [Fact.Holds, Rel.Holds, stateOf, evalT]⟩, ?_⟩
  have : (own plain (.or (.cmp .lt (.leaf 0) (.leaf 1)) (.leaf 2))).1 = [] := by decide
  simp [this]

/-- `x < 3 && a[x]`: both facts are there, and are true in a state with `x = 2`, `a[2]` not 0 -/
example : Conjunctive (.and (.cmp .lt (.leaf 0) (.leaf 1)) (.fetch (.leaf 2) (.leaf 0))) = true
    ∧ trueFacts plain (.and (.cmp .lt (.leaf 0) (.leaf 1)) (.fetch (.leaf 2) (.leaf 0)))
      = [.rel .lt (.leaf 0) (.leaf 1), .within (.leaf 0) (.leaf 2)]
    ∧ falseFacts plain (.or (.cmp .lt (.leaf 0) (.leaf 1)) (.cmp .ge (.leaf 0) (.leaf 3)))
      = [.rel .ge (.leaf 0) (.leaf 1), .rel .lt (.leaf 0) (.leaf 3)] := by
  decide

end Splint.Facts
