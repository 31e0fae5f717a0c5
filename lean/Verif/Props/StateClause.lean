import Verif.Spec.StateClause
/-!
# Proofs about state clauses (C151 to C154)
-/
namespace Splint
namespace StateClause

theorem set_eq (σ : Store) (r : Ref) (s : St) : σ.set r s r = s := by simp [Store.set]
theorem set_ne (σ : Store) (r q : Ref) (s : St) (h : q ≠ r) : σ.set r s q = σ q := by simp [Store.set, h]

theorem qualTest_iff (q : Qual) (t : St → Bool) (h : qualTest q = some t) (s : St) : t s = true ↔ Stated q s := by
  cases q <;> simp only [qualTest, Option.some.injEq, reduceCtorEq] at h <;> subst h <;> simp [Stated, definitelyNull]
  exact or_comm

theorem strictReadable_iff (s : St) : strictReadable s = true ↔ Readable s := by
  unfold strictReadable Readable
  cases h : s.df <;> simp

theorem preTest_iff (c : Clause) (t : St → Bool) (hb : c.isBefore = true) (h : preTest c = some t) (s : St) : t s = true ↔ Pre c s := by
  have hstor : hasNoStorage s = true ↔ (Readable s → s.sharable = true → s.nul = .defnull ∨ s.nul = .constnull) := by
    rw [← strictReadable_iff]
    unfold hasNoStorage definitelyNull
    cases strictReadable s <;> cases s.sharable <;> simp
  cases c with
  | plain k rs =>
    cases k <;> simp only [preTest, Option.some.injEq] at h <;> subst h <;> simp only [Pre]
    · exact strictReadable_iff s
    · exact hstor
    · exact hstor
    · simp [isNotUndefined, and_assoc]
    · simp [isNotUndefined, and_assoc]
  | before q rs => exact qualTest_iff q t h s
  | after q rs => cases hb

theorem postTest_iff (c : Clause) (t : St → Bool) (h : postTest c = some t) (s : St) : t s = true ↔ Post c s := by
  have hdef : isReallyDefined s = true ↔
      (s.df = .defined ∨ s.df = .reldef ∨ s.df = .part ∨ ((s.df = .allocated ∨ s.df = .pdefined) ∧ s.parts = true)) := by
    unfold isReallyDefined
    cases h : s.df <;> simp
  cases c with
  | plain k rs =>
    cases k <;> simp only [postTest, Option.some.injEq] at h <;> subst h <;> simp only [Post]
    · exact hdef
    · simp [isAllocated]
    · unfold isDeadStorage definitelyNull
      cases h : s.df <;> simp
    · exact hdef
  | before q rs => cases h
  | after q rs => exact qualTest_iff q t h s

theorem userTest_iff (k : Nat) (v : Int) (s : St) : userTest k v s = true ↔ s.user k = -1 ∨ s.user k = v := by
  simp [userTest]

/-! ### Lists of references -/

theorem setRefs_not (p : Ref → Bool) (f : St → St) (r : Ref) : ∀ (rs : List Ref) (σ : Store), (p r = true → r ∉ rs) →
    setRefs p f rs σ r = σ r := by
  intro rs
  induction rs with
  | nil => intro σ _; rfl
  | cons a rs ih =>
    intro σ h
    rw [setRefs, ih _ (fun h1 h2 => h h1 (List.mem_cons_of_mem _ h2))]
    by_cases hp : p a = true
    · rw [if_pos hp, set_ne]
      intro he; subst he
      exact h hp (List.mem_cons_self ..)
    · rw [if_neg hp]

theorem setRefs_mem (p : Ref → Bool) (f : St → St) (r : Ref) (hp : p r = true) : ∀ (rs : List Ref) (σ : Store), rs.Nodup → r ∈ rs →
    setRefs p f rs σ r = f (σ r) := by
  intro rs
  induction rs with
  | nil => intro σ _ h; cases h
  | cons a rs ih =>
    intro σ hn h
    rw [setRefs]
    have hn' := List.nodup_cons.1 hn
    by_cases he : r = a
    · subst he
      rw [if_pos hp, setRefs_not _ _ _ _ _ (fun _ => hn'.1), set_eq]
    · rcases List.mem_cons.1 h with h | h
      · exact absurd h he
      · rw [ih _ hn'.2 h]
        split_ifs
        · rw [set_ne _ _ _ _ he]
        · rfl

theorem failing_mem (j : Nat) (p : Ref → Bool) (t : St → Bool) (rs : List Ref) (σ : Store) (j' : Nat) (r : Ref) :
    (j', r) ∈ failing j p t rs σ ↔ j' = j ∧ r ∈ rs ∧ p r = true ∧ ¬ t (σ r) = true := by
  simp only [failing, List.mem_map, List.mem_filter, Bool.and_eq_true, Bool.not_eq_true', Prod.mk.injEq]
  constructor
  · rintro ⟨a, ⟨h1, h2, h3⟩, h4, h5⟩
    subst h4; subst h5
    exact ⟨rfl, h1, h2, by simp [h3]⟩
  · rintro ⟨h1, h2, h3, h4⟩
    exact ⟨r, ⟨h2, h3, by simpa using h4⟩, h1.symm, rfl⟩

theorem testSet_store (j : Nat) (p : Ref → Bool) (t : St → Bool) (f : St → St) : ∀ (rs : List Ref) (σ : Store),
    (testSet j (fun _ => p) t f rs σ).1 = setRefs p f rs σ := by
  intro rs
  induction rs with
  | nil => intro σ; rfl
  | cons a rs ih =>
    intro σ
    rw [testSet, setRefs]
    by_cases hp : p a = true
    · rw [if_pos hp, if_pos hp]; exact ih _
    · rw [if_neg hp, if_neg hp]; exact ih _

theorem testSet_mem (j : Nat) (p : Ref → Bool) (t : St → Bool) (f : St → St) (j' : Nat) (r : Ref) : ∀ (rs : List Ref) (σ : Store), rs.Nodup →
    ((j', r) ∈ (testSet j (fun _ => p) t f rs σ).2 ↔ j' = j ∧ r ∈ rs ∧ p r = true ∧ ¬ t (σ r) = true) := by
  intro rs
  induction rs with
  | nil => intro σ _; simp [testSet]
  | cons a rs ih =>
    intro σ hn
    have hn' := List.nodup_cons.1 hn
    rw [testSet]
    by_cases hp : p a = true
    · rw [if_pos hp]
      dsimp only
      rw [List.mem_append, ih _ hn'.2]
      by_cases he : r = a
      · subst he
        simp only [List.mem_cons, true_or, true_and, hp, hn'.1, false_and, and_false, or_false]
        by_cases ht : t (σ r) = true
        · simp [ht]
        · simp [ht]
      · rw [set_ne _ _ _ _ he]
        simp only [List.mem_cons, he, false_or]
        constructor
        · rintro (h | h)
          · exfalso
            split_ifs at h
            · cases h
            · simp only [List.mem_cons, Prod.mk.injEq, List.not_mem_nil, or_false] at h
              exact he h.2
          · exact h
        · exact Or.inr
    · rw [if_neg hp, ih _ hn'.2]
      constructor
      · rintro ⟨h1, h2, h3⟩; exact ⟨h1, List.mem_cons_of_mem _ h2, h3⟩
      · rintro ⟨h1, h2, h3⟩
        rcases List.mem_cons.1 h2 with h2 | h2
        · subst h2; exact absurd h3.1 hp
        · exact ⟨h1, h2, h3⟩

/-! ### The arguments of a call -/

theorem effectFn_before (c : Clause) (hb : c.isBefore = true) : ∃ f, effectFn c = some f ∧
    ∀ (r : Ref) (cs : List Clause) (s : St), Effects r (c :: cs) s = Effects r cs (if r ∈ c.refs then f s else s) := by
  cases c with
  | plain k rs => cases k <;> exact ⟨_, rfl, fun r cs s => rfl⟩
  | before q rs => exact ⟨_, rfl, fun r cs s => by simp [Effects]⟩
  | after q rs => cases hb

theorem effects_after (c : Clause) (hb : ¬ c.isBefore = true) (r : Ref) (cs : List Clause) (s : St) :
    Effects r (c :: cs) s = Effects r cs s := by
  cases c with
  | plain k rs => exact absurd rfl hb
  | before q rs => exact absurd rfl hb
  | after q rs => rfl

theorem passArg_spec (i : Nat) : ∀ (cs : List Clause) (j : Nat) (σ σ' : Store) (l : List (Nat × Ref)), (∀ c ∈ cs, c.refs.Nodup) →
    passArg i j cs σ = some (σ', l) →
    (∀ r, r.base ≠ .param i → σ' r = σ r) ∧ (∀ r, r.base = .param i → σ' r = Effects r cs (σ r)) ∧
    ∀ j' r, (j', r) ∈ l ↔ ∃ k c, j' = j + k ∧ cs[k]? = some c ∧ c.isBefore = true ∧ r ∈ c.refs ∧ r.base = .param i ∧
      ¬ Pre c (Effects r (cs.take k) (σ r)) := by
  intro cs
  induction cs with
  | nil =>
    intro j σ σ' l _ h
    simp only [passArg, Option.some.injEq, Prod.mk.injEq] at h
    obtain ⟨h1, h2⟩ := h
    subst h1; subst h2
    exact ⟨fun _ _ => rfl, fun _ _ => rfl, by simp⟩
  | cons c cs ih =>
    intro j σ σ' l hn h
    rw [passArg] at h
    have hn1 := hn c (List.mem_cons_self ..)
    have hn2 : ∀ d ∈ cs, d.refs.Nodup := fun d hd => hn d (List.mem_cons_of_mem _ hd)
    by_cases hb : c.isBefore = true
    · rw [if_pos hb] at h
      obtain ⟨f, hf, hE⟩ := effectFn_before c hb
      cases ht : preTest c with
      | none => rw [ht] at h; cases h
      | some t =>
        rw [ht, hf] at h
        dsimp only at h
        rw [testSet_store j (fun r => decide (r.base = .param i))] at h
        cases hq : passArg i (j + 1) cs (setRefs (fun r => decide (r.base = .param i)) f c.refs σ) with
        | none => rw [hq] at h; cases h
        | some q =>
          obtain ⟨σ2, l2⟩ := q
          rw [hq] at h
          simp only [Option.map_some, Option.some.injEq, Prod.mk.injEq] at h
          obtain ⟨h1, h2⟩ := h
          subst h1; subst h2
          obtain ⟨g1, g2, g3⟩ := ih (j + 1) _ _ _ hn2 hq
          have hst : ∀ r, r.base = .param i → setRefs (fun r => decide (r.base = .param i)) f c.refs σ r = if r ∈ c.refs then f (σ r) else σ r := by
            intro r hr
            by_cases hm : r ∈ c.refs
            · rw [if_pos hm, setRefs_mem _ _ _ (by simp [hr]) _ _ hn1 hm]
            · rw [if_neg hm, setRefs_not _ _ _ _ _ (fun _ => hm)]
          refine ⟨?_, ?_, ?_⟩
          · intro r hr
            rw [g1 r hr, setRefs_not _ _ _ _ _ (by simp [hr])]
          · intro r hr
            rw [g2 r hr, hE, hst r hr]
          · intro j' r
            rw [List.mem_append, testSet_mem j (fun r => decide (r.base = .param i)) _ _ _ _ _ _ hn1, g3]
            constructor
            · rintro (⟨h1, h2, h3, h4⟩ | ⟨k, d, h1, h2, h3, h4, h5, h6⟩)
              · refine ⟨0, c, by simpa using h1, rfl, hb, h2, by simpa using h3, ?_⟩
                rw [List.take_zero]
                intro h
                exact h4 ((preTest_iff c t hb ht _).2 h)
              · refine ⟨k + 1, d, by omega, by simpa using h2, h3, h4, h5, ?_⟩
                rw [List.take_succ_cons, hE, ← hst r h5]
                exact h6
            · rintro ⟨k, d, h1, h2, h3, h4, h5, h6⟩
              cases k with
              | zero =>
                simp only [List.getElem?_cons_zero, Option.some.injEq] at h2
                subst h2
                refine Or.inl ⟨by omega, h4, by simpa using h5, fun h => h6 ((preTest_iff c t hb ht _).1 h)⟩
              | succ k =>
                refine Or.inr ⟨k, d, by omega, by simpa using h2, h3, h4, h5, ?_⟩
                rw [List.take_succ_cons, hE, ← hst r h5] at h6
                exact h6
    · rw [if_neg hb] at h
      obtain ⟨g1, g2, g3⟩ := ih (j + 1) _ _ _ hn2 h
      refine ⟨g1, ?_, ?_⟩
      · intro r hr
        rw [g2 r hr, effects_after c hb]
      · intro j' r
        rw [g3]
        constructor
        · rintro ⟨k, d, h1, h2, h3, h4, h5, h6⟩
          refine ⟨k + 1, d, by omega, by simpa using h2, h3, h4, h5, ?_⟩
          rw [List.take_succ_cons, effects_after c hb]
          exact h6
        · rintro ⟨k, d, h1, h2, h3, h4, h5, h6⟩
          cases k with
          | zero =>
            simp only [List.getElem?_cons_zero, Option.some.injEq] at h2
            subst h2
            exact absurd h3 hb
          | succ k =>
            refine ⟨k, d, by omega, by simpa using h2, h3, h4, h5, ?_⟩
            rw [List.take_succ_cons, effects_after c hb] at h6
            exact h6

theorem special_iff (cs : List Clause) (i : Nat) : special cs i = true ↔ ∃ c ∈ cs, ∃ r ∈ c.refs, r.base = .param i := by
  simp [special]

theorem effects_not (r : Ref) : ∀ (cs : List Clause) (s : St), (∀ c ∈ cs, r ∉ c.refs) → Effects r cs s = s := by
  intro cs
  induction cs with
  | nil => intro s _; rfl
  | cons c cs ih =>
    intro s h
    have h1 := h c (List.mem_cons_self ..)
    have h2 := ih s (fun d hd => h d (List.mem_cons_of_mem _ hd))
    cases c with
    | plain k rs => rw [Effects, if_neg (show r ∉ rs from h1)]; exact h2
    | before q rs => exact h2
    | after q rs => exact h2

theorem passArgs_spec (cs : List Clause) (hn : ∀ c ∈ cs, c.refs.Nodup) : ∀ (is : List Nat) (σ σ' : Store) (l : List (Nat × Ref)), is.Nodup →
    passArgs cs is σ = some (σ', l) →
    (∀ r, (∀ i ∈ is, r.base ≠ .param i) → σ' r = σ r) ∧ (∀ r, ∀ i ∈ is, r.base = .param i → σ' r = Effects r cs (σ r)) ∧
    ∀ j r, (j, r) ∈ l ↔ ∃ c, cs[j]? = some c ∧ c.isBefore = true ∧ r ∈ c.refs ∧ (∃ i ∈ is, r.base = .param i) ∧
      ¬ Pre c (Effects r (cs.take j) (σ r)) := by
  intro is
  induction is with
  | nil =>
    intro σ σ' l _ h
    simp only [passArgs, Option.some.injEq, Prod.mk.injEq] at h
    obtain ⟨h1, h2⟩ := h
    subst h1; subst h2
    exact ⟨fun _ _ => rfl, by simp, by simp⟩
  | cons i is ih =>
    intro σ σ' l hnd h
    rw [passArgs] at h
    have hnd' := List.nodup_cons.1 hnd
    by_cases hs : special cs i = true
    · rw [if_pos hs] at h
      cases hp : passArg i 0 cs σ with
      | none => rw [hp] at h; cases h
      | some q =>
        obtain ⟨σ1, l1⟩ := q
        rw [hp] at h
        dsimp only at h
        cases hq : passArgs cs is σ1 with
        | none => rw [hq] at h; cases h
        | some q =>
          obtain ⟨σ2, l2⟩ := q
          rw [hq] at h
          simp only [Option.map_some, Option.some.injEq, Prod.mk.injEq] at h
          obtain ⟨h1, h2⟩ := h
          subst h1; subst h2
          obtain ⟨f1, f2, f3⟩ := passArg_spec i cs 0 _ _ _ hn hp
          obtain ⟨g1, g2, g3⟩ := ih _ _ _ hnd'.2 hq
          refine ⟨?_, ?_, ?_⟩
          · intro r hr
            rw [g1 r (fun k hk => hr k (List.mem_cons_of_mem _ hk)), f1 r (hr i (List.mem_cons_self ..))]
          · intro r k hk hr
            rcases List.mem_cons.1 hk with hk | hk
            · subst hk
              rw [g1 r, f2 r hr]
              intro m hm he
              rw [hr] at he
              cases he
              exact hnd'.1 hm
            · rw [g2 r k hk hr, f1 r]
              rw [hr]
              intro he
              cases he
              exact hnd'.1 hk
          · intro j r
            rw [List.mem_append, f3, g3]
            constructor
            · rintro (⟨k, c, h1, h2, h3, h4, h5, h6⟩ | ⟨c, h2, h3, h4, ⟨m, hm, h5⟩, h6⟩)
              · rw [Nat.zero_add] at h1
                subst h1
                exact ⟨c, h2, h3, h4, ⟨i, List.mem_cons_self .., h5⟩, h6⟩
              · refine ⟨c, h2, h3, h4, ⟨m, List.mem_cons_of_mem _ hm, h5⟩, ?_⟩
                rw [f1 r] at h6
                · exact h6
                · rw [h5]
                  intro he
                  cases he
                  exact hnd'.1 hm
            · rintro ⟨c, h2, h3, h4, ⟨m, hm, h5⟩, h6⟩
              rcases List.mem_cons.1 hm with hm | hm
              · subst hm
                exact Or.inl ⟨j, c, by omega, h2, h3, h4, h5, h6⟩
              · refine Or.inr ⟨c, h2, h3, h4, ⟨m, hm, h5⟩, ?_⟩
                rw [f1 r]
                · exact h6
                · rw [h5]
                  intro he
                  cases he
                  exact hnd'.1 hm
    · rw [if_neg hs] at h
      obtain ⟨g1, g2, g3⟩ := ih _ _ _ hnd'.2 h
      have hno : ∀ r, r.base = .param i → ∀ c ∈ cs, r ∉ c.refs := by
        intro r hr c hc hm
        exact hs ((special_iff cs i).2 ⟨c, hc, r, hm, hr⟩)
      refine ⟨fun r hr => g1 r (fun k hk => hr k (List.mem_cons_of_mem _ hk)), ?_, ?_⟩
      · intro r k hk hr
        rcases List.mem_cons.1 hk with hk | hk
        · subst hk
          rw [g1 r, effects_not r cs _ (hno r hr)]
          intro m hm he
          rw [hr] at he
          cases he
          exact hnd'.1 hm
        · exact g2 r k hk hr
      · intro j r
        rw [g3]
        constructor
        · rintro ⟨c, h2, h3, h4, ⟨m, hm, h5⟩, h6⟩
          exact ⟨c, h2, h3, h4, ⟨m, List.mem_cons_of_mem _ hm, h5⟩, h6⟩
        · rintro ⟨c, h2, h3, h4, ⟨m, hm, h5⟩, h6⟩
          rcases List.mem_cons.1 hm with hm | hm
          · subst hm
            exact absurd h4 (hno r h5 c (List.mem_of_getElem? h2))
          · exact ⟨c, h2, h3, h4, ⟨m, hm, h5⟩, h6⟩

theorem forall_before (P : Qual → List Ref → Prop) (q : Qual) (rs : List Ref) (cs : List Clause) :
    (∀ q' rs', Clause.before q' rs' ∈ Clause.before q rs :: cs → P q' rs') ↔ P q rs ∧ ∀ q' rs', Clause.before q' rs' ∈ cs → P q' rs' := by
  constructor
  · intro h
    exact ⟨h q rs (List.mem_cons_self ..), fun q' rs' hm => h q' rs' (List.mem_cons_of_mem _ hm)⟩
  · rintro ⟨h1, h2⟩ q' rs' hm
    rcases List.mem_cons.1 hm with hm | hm
    · cases hm; exact h1
    · exact h2 q' rs' hm

theorem forall_after (P : Qual → List Ref → Prop) (q : Qual) (rs : List Ref) (cs : List Clause) :
    (∀ q' rs', Clause.after q' rs' ∈ Clause.after q rs :: cs → P q' rs') ↔ P q rs ∧ ∀ q' rs', Clause.after q' rs' ∈ cs → P q' rs' := by
  constructor
  · intro h
    exact ⟨h q rs (List.mem_cons_self ..), fun q' rs' hm => h q' rs' (List.mem_cons_of_mem _ hm)⟩
  · rintro ⟨h1, h2⟩ q' rs' hm
    rcases List.mem_cons.1 hm with hm | hm
    · cases hm; exact h1
    · exact h2 q' rs' hm

theorem exists_after (P : Qual → Prop) (q : Qual) (rs : List Ref) (cs : List Clause) :
    (∃ q' rs', Clause.after q' rs' ∈ Clause.after q rs :: cs ∧ P q') ↔ P q ∨ ∃ q' rs', Clause.after q' rs' ∈ cs ∧ P q' := by
  constructor
  · rintro ⟨q', rs', hm, h⟩
    rcases List.mem_cons.1 hm with hm | hm
    · cases hm; exact Or.inl h
    · exact Or.inr ⟨q', rs', hm, h⟩
  · rintro (h | ⟨q', rs', hm, h⟩)
    · exact ⟨q, rs, List.mem_cons_self .., h⟩
    · exact ⟨q', rs', List.mem_cons_of_mem _ hm, h⟩

theorem passArg_some (i : Nat) : ∀ (cs : List Clause) (j : Nat) (σ : Store),
    (passArg i j cs σ).isSome = true ↔ ∀ q rs, Clause.before q rs ∈ cs → Testable q := by
  intro cs
  induction cs with
  | nil => intro j σ; simp [passArg]
  | cons c cs ih =>
    intro j σ
    rw [passArg]
    cases c with
    | plain k rs =>
      rw [if_pos (show (Clause.plain k rs).isBefore = true from rfl)]
      cases k <;> simp only [preTest, effectFn, Option.isSome_map] <;> rw [ih] <;> simp
    | before q rs =>
      rw [if_pos (show (Clause.before q rs).isBefore = true from rfl), forall_before (fun q _ => Testable q)]
      cases q <;> simp only [preTest, qualTest, effectFn, Option.isSome_map, Option.isSome_none] <;> first | (rw [ih]; simp [Testable]; done) | (simp [Testable]; done)
    | after q rs =>
      rw [if_neg (by simp [Clause.isBefore]), ih]
      simp

theorem passArgs_some (cs : List Clause) : ∀ (is : List Nat) (σ : Store),
    (passArgs cs is σ).isSome = true ↔ ((∃ i ∈ is, special cs i = true) → ∀ q rs, Clause.before q rs ∈ cs → Testable q) := by
  intro is
  induction is with
  | nil => intro σ; simp [passArgs]
  | cons i is ih =>
    intro σ
    rw [passArgs]
    by_cases hs : special cs i = true
    · rw [if_pos hs]
      have h0 := passArg_some i cs 0 σ
      cases hp : passArg i 0 cs σ with
      | none =>
        rw [hp] at h0
        simp only [Option.isSome_none, Bool.false_eq_true, false_iff]
        intro h
        have := h0.2 (h ⟨i, List.mem_cons_self .., hs⟩)
        cases this
      | some q =>
        obtain ⟨σ1, l1⟩ := q
        rw [hp] at h0
        have h1 := h0.1 rfl
        simp only [Option.isSome_map]
        rw [ih]
        exact ⟨fun _ _ => h1, fun _ _ => h1⟩
    · rw [if_neg hs, ih]
      constructor
      · rintro h ⟨k, hk, hk2⟩
        rcases List.mem_cons.1 hk with hk | hk
        · subst hk; exact absurd hk2 hs
        · exact h ⟨k, hk, hk2⟩
      · rintro h ⟨k, hk, hk2⟩
        exact h ⟨k, List.mem_cons_of_mem _ hk, hk2⟩

theorem testable_not_user (q : Qual) (h : Testable q) : ¬ IsUser q := by
  rintro ⟨k, v, rfl⟩
  simp [Testable] at h

theorem require_reports : ∀ (cs : List Clause) (j : Nat) (σ σ' : Store) (l : List (Nat × Ref)), require j cs σ = some (σ', l) →
    ∀ x ∈ l, ∃ k v rs, Clause.before (.user k v) rs ∈ cs ∧ x.2 ∈ rs ∧ x.2.isParam = true := by
  intro cs
  induction cs with
  | nil =>
    intro j σ σ' l h x hx
    simp only [require, Option.some.injEq, Prod.mk.injEq] at h
    rw [← h.2] at hx
    cases hx
  | cons c cs ih =>
    intro j σ σ' l h x hx
    have up : (∃ k v rs, Clause.before (.user k v) rs ∈ cs ∧ x.2 ∈ rs ∧ x.2.isParam = true) →
        ∃ k v rs, Clause.before (.user k v) rs ∈ c :: cs ∧ x.2 ∈ rs ∧ x.2.isParam = true := by
      rintro ⟨k, v, rs, h1, h2⟩
      exact ⟨k, v, rs, List.mem_cons_of_mem _ h1, h2⟩
    cases c with
    | plain k rs => exact up (ih _ _ _ _ h x hx)
    | after q rs => exact up (ih _ _ _ _ h x hx)
    | before q rs =>
      by_cases hu : IsUser q
      · obtain ⟨k, v, rfl⟩ := hu
        simp only [require] at h
        split_ifs at h with h1
        cases hr : require (j + 1) cs σ with
        | none => rw [hr] at h; cases h
        | some p =>
          obtain ⟨σ2, l2⟩ := p
          rw [hr] at h
          simp only [Option.map_some, Option.some.injEq, Prod.mk.injEq] at h
          rw [← h.2] at hx
          rcases List.mem_append.1 hx with hx | hx
          · obtain ⟨x1, x2⟩ := x
            rw [failing_mem] at hx
            exact ⟨k, v, rs, List.mem_cons_self .., hx.2.1, hx.2.2.1⟩
          · exact up (ih _ _ _ _ hr x hx)
      · have hs : require j (Clause.before q rs :: cs) σ = match stateFn q with
            | some f => require (j + 1) cs (setRefs Ref.isParam f rs σ)
            | none => none := by
          cases q <;> first | rfl | exact absurd ⟨_, _, rfl⟩ hu
        rw [hs] at h
        cases hf : stateFn q with
        | none => rw [hf] at h; cases h
        | some f =>
          rw [hf] at h
          exact up (ih _ _ _ _ h x hx)

theorem isParam_iff (r : Ref) : r.isParam = true ↔ ∃ i, r.base = .param i := by
  unfold Ref.isParam
  cases r.base <;> simp

theorem call_parts (n : Nat) (cs : List Clause) (σ σ' : Store) (l : List (Nat × Ref)) (h : call n cs σ = some (σ', l)) :
    ∃ σ1 σ2 σ3 l1 l2, passArgs cs (List.range n) σ = some (σ1, l1) ∧ require 0 cs σ1 = some (σ2, l2) ∧
      (if specialResult cs then returned cs σ2 else some σ2) = some σ3 ∧ reflect cs σ3 = some σ' ∧ l = l1 ++ l2 := by
  rw [call] at h
  cases h1 : passArgs cs (List.range n) σ with
  | none => rw [h1] at h; cases h
  | some p =>
    obtain ⟨σ1, l1⟩ := p
    rw [h1] at h
    dsimp only at h
    cases h2 : require 0 cs σ1 with
    | none => rw [h2] at h; cases h
    | some p =>
      obtain ⟨σ2, l2⟩ := p
      rw [h2] at h
      dsimp only at h
      cases h3 : (if specialResult cs then returned cs σ2 else some σ2) with
      | none => rw [h3] at h; cases h
      | some σ3 =>
        rw [h3] at h
        dsimp only at h
        cases h4 : reflect cs σ3 with
        | none => rw [h4] at h; cases h
        | some σ4 =>
          rw [h4] at h
          simp only [Option.map_some, Option.some.injEq, Prod.mk.injEq] at h
          rw [← h.1]
          exact ⟨σ1, σ2, σ3, l1, l2, rfl, h2, h3, h4, h.2.symm⟩

/-- **C151 (exactly).**  A call reports exactly the arguments that, after what the clauses before do to them, are not as the clause says. -/
theorem C151_exactly (n : Nat) (cs : List Clause) (σ σ' : Store) (l : List (Nat × Ref)) (hp : Proper n cs)
    (h : call n cs σ = some (σ', l)) (j : Nat) (r : Ref) :
    (j, r) ∈ l ↔ ∃ c, cs[j]? = some c ∧ c.isBefore = true ∧ r ∈ c.refs ∧ r.isParam = true ∧ ¬ Pre c (Effects r (cs.take j) (σ r)) := by
  obtain ⟨σ1, σ2, σ3, l1, l2, h1, h2, h3, h4, rfl⟩ := call_parts n cs σ σ' l h
  obtain ⟨g1, g2, g3⟩ := passArgs_spec cs (fun c hc => (hp c hc).1) _ _ _ _ List.nodup_range h1
  have hempty : ∀ x ∈ l2, False := by
    intro x hx
    obtain ⟨k, v, rs, e1, e2, e3⟩ := require_reports cs 0 _ _ _ h2 x hx
    obtain ⟨i, hi⟩ := (isParam_iff _).1 e3
    have hlt := (hp _ e1).2 x.2 e2 i hi
    have hs := (passArgs_some cs (List.range n) σ).1 (by rw [h1]; rfl) ⟨i, List.mem_range.2 hlt, (special_iff cs i).2 ⟨_, e1, x.2, e2, hi⟩⟩
    exact testable_not_user _ (hs _ _ e1) ⟨k, v, rfl⟩
  rw [List.mem_append, g3]
  constructor
  · rintro (⟨c, e1, e2, e3, ⟨i, _, e4⟩, e5⟩ | e)
    · exact ⟨c, e1, e2, e3, (isParam_iff r).2 ⟨i, e4⟩, e5⟩
    · exact (hempty _ e).elim
  · rintro ⟨c, e1, e2, e3, e4, e5⟩
    obtain ⟨i, hi⟩ := (isParam_iff _).1 e4
    have hlt := (hp c (List.mem_of_getElem? e1)).2 r e3 i hi
    exact Or.inl ⟨c, e1, e2, e3, ⟨i, List.mem_range.2 hlt, hi⟩, e5⟩

theorem effects_untouched (r : Ref) : ∀ (cs : List Clause) (s : St), (∀ c ∈ cs, ¬ Touches c r) → Effects r cs s = s := by
  intro cs
  induction cs with
  | nil => intro s _; rfl
  | cons c cs ih =>
    intro s h
    have h1 := h c (List.mem_cons_self ..)
    have h2 := fun s => ih s (fun d hd => h d (List.mem_cons_of_mem _ hd))
    cases c with
    | plain k rs =>
      rw [Effects, h2]
      by_cases hr : r ∈ rs
      · rw [if_pos hr]
        have : k = .uses := by
          by_contra hk
          exact h1 ⟨k, rs, rfl, hk, hr⟩
        subst this
        rfl
      · rw [if_neg hr]
    | before q rs => exact h2 s
    | after q rs => exact h2 s

theorem effects_append (r : Ref) : ∀ (cs ds : List Clause) (s : St), Effects r (cs ++ ds) s = Effects r ds (Effects r cs s) := by
  intro cs
  induction cs with
  | nil => intro ds s; rfl
  | cons c cs ih =>
    intro ds s
    cases c <;> simp only [List.cons_append, Effects, ih]

/-- **C151.**  As long as no clause before says what happens to the storage, it is the state at the call that counts. -/
theorem C151_partial (n : Nat) (cs : List Clause) (σ σ' : Store) (l : List (Nat × Ref)) (hp : Proper n cs)
    (h : call n cs σ = some (σ', l)) (j : Nat) (r : Ref) (ht : ∀ c ∈ cs.take j, ¬ Touches c r) :
    (j, r) ∈ l ↔ ∃ c, cs[j]? = some c ∧ c.isBefore = true ∧ r ∈ c.refs ∧ r.isParam = true ∧ ¬ Pre c (σ r) := by
  rw [C151_exactly n cs σ σ' l hp h j r, effects_untouched r _ _ ht]

/-- **C151 (hidden).**  Undefined storage is never reported for a `uses` clause behind one that sets or defines it. -/
theorem C151_hidden (n : Nat) (as bs es : List Clause) (k : Plain) (rs us : List Ref) (σ σ' : Store) (l : List (Nat × Ref)) (r : Ref)
    (hk : k = .sets ∨ k = .defines) (hr : r ∈ rs) (hb : ∀ c ∈ bs, ¬ Touches c r)
    (hp : Proper n (as ++ .plain k rs :: (bs ++ .plain .uses us :: es)))
    (h : call n (as ++ .plain k rs :: (bs ++ .plain .uses us :: es)) σ = some (σ', l)) :
    (as.length + 1 + bs.length, r) ∉ l := by
  rw [C151_exactly n _ σ σ' l hp h]
  rintro ⟨c, h1, _, _, _, h5⟩
  have ht : (as ++ .plain k rs :: (bs ++ .plain .uses us :: es)).take (as.length + 1 + bs.length) = as ++ .plain k rs :: bs := by
    rw [show as ++ .plain k rs :: (bs ++ .plain .uses us :: es) = (as ++ .plain k rs :: bs) ++ (.plain .uses us :: es) by simp]
    rw [List.take_append_of_le_length (by simp; omega), List.take_of_length_le (by simp; omega)]
  have hc : (as ++ .plain k rs :: (bs ++ .plain .uses us :: es))[as.length + 1 + bs.length]? = some (.plain .uses us) := by
    rw [show as ++ .plain k rs :: (bs ++ .plain .uses us :: es) = (as ++ .plain k rs :: bs) ++ (.plain .uses us :: es) by simp]
    rw [List.getElem?_append_right (by simp; omega)]
    simp only [List.length_append, List.length_cons]
    rw [show as.length + 1 + bs.length - (as.length + (bs.length + 1)) = 0 by omega]
    rfl
  rw [hc] at h1
  cases h1
  apply h5
  rw [ht, effects_append, Effects, if_pos hr, effects_untouched r bs _ hb]
  rcases hk with rfl | rfl <;> simp [plainEffect, Pre, Readable]

/-- **C151 (spurious).**  Storage that is in a `releases` clause and then in a `uses` clause is always reported, unless it is shared. -/
theorem C151_spurious (n : Nat) (as bs es : List Clause) (rs us : List Ref) (σ σ' : Store) (l : List (Nat × Ref)) (r : Ref)
    (hr : r ∈ rs) (hu : r ∈ us) (hpar : r.isParam = true) (ha : ∀ c ∈ as, ¬ Touches c r) (hb : ∀ c ∈ bs, ¬ Touches c r) (hs : (σ r).al ≠ .shared)
    (hp : Proper n (as ++ .plain .releases rs :: (bs ++ .plain .uses us :: es)))
    (h : call n (as ++ .plain .releases rs :: (bs ++ .plain .uses us :: es)) σ = some (σ', l)) :
    (as.length + 1 + bs.length, r) ∈ l := by
  rw [C151_exactly n _ σ σ' l hp h]
  have he : as ++ .plain .releases rs :: (bs ++ .plain .uses us :: es) = (as ++ .plain .releases rs :: bs) ++ (.plain .uses us :: es) := by simp
  refine ⟨.plain .uses us, ?_, rfl, hu, hpar, ?_⟩
  · rw [he, List.getElem?_append_right (by simp; omega)]
    simp only [List.length_append, List.length_cons]
    rw [show as.length + 1 + bs.length - (as.length + (bs.length + 1)) = 0 by omega]
    rfl
  · rw [he, List.take_append_of_le_length (by simp; omega), List.take_of_length_le (by simp; omega), effects_append, Effects, if_pos hr,
      effects_untouched r bs _ hb, effects_untouched r as _ ha]
    simp [plainEffect, Pre, Readable, hs]

/-! ### The return -/

theorem leave_spec : ∀ (cs : List Clause) (j : Nat) (σ : Store) (l : List (Nat × Ref)), leave j cs σ = some l →
    ∀ j' r, (j', r) ∈ l ↔ ∃ k c, j' = j + k ∧ cs[k]? = some c ∧ c.isAfter = true ∧ r ∈ c.refs ∧ r.isParam = true ∧ ¬ Post c (σ r) := by
  intro cs
  induction cs with
  | nil =>
    intro j σ l h j' r
    simp only [leave, Option.some.injEq] at h
    subst h
    simp
  | cons c cs ih =>
    intro j σ l h j' r
    have hshift : ∀ (P : Clause → Prop) (j' : Nat), (∃ k d, j' = j + 1 + k ∧ cs[k]? = some d ∧ P d) ∨ (j' = j ∧ P c) ↔
        ∃ k d, j' = j + k ∧ (c :: cs)[k]? = some d ∧ P d := by
      intro P j'
      constructor
      · rintro (⟨k, d, h1, h2, h3⟩ | ⟨h1, h2⟩)
        · exact ⟨k + 1, d, by omega, by simpa using h2, h3⟩
        · exact ⟨0, c, by omega, rfl, h2⟩
      · rintro ⟨k, d, h1, h2, h3⟩
        cases k with
        | zero => simp only [List.getElem?_cons_zero, Option.some.injEq] at h2; subst h2; exact Or.inr ⟨by omega, h3⟩
        | succ k => exact Or.inl ⟨k, d, by omega, by simpa using h2, h3⟩
    rw [← hshift (fun c => c.isAfter = true ∧ r ∈ c.refs ∧ r.isParam = true ∧ ¬ Post c (σ r))]
    have hgen : ∀ (t : St → Bool) (rs : List Ref), rs = c.refs → c.isAfter = true → (∀ s, t s = true ↔ Post c s) →
        (leave (j + 1) cs σ).map (failing j Ref.isParam t rs σ ++ ·) = some l →
        ((j', r) ∈ l ↔ (∃ k d, j' = j + 1 + k ∧ cs[k]? = some d ∧ d.isAfter = true ∧ r ∈ d.refs ∧ r.isParam = true ∧ ¬ Post d (σ r)) ∨
          (j' = j ∧ c.isAfter = true ∧ r ∈ c.refs ∧ r.isParam = true ∧ ¬ Post c (σ r))) := by
      intro t rs hrs ha ht hl
      subst hrs
      cases hr : leave (j + 1) cs σ with
      | none => rw [hr] at hl; cases hl
      | some l2 =>
        rw [hr] at hl
        simp only [Option.map_some, Option.some.injEq] at hl
        rw [← hl, List.mem_append, ih _ _ _ hr, failing_mem, ht]
        simp only [ha, true_and]
        exact or_comm
    cases c with
    | plain k rs =>
      have hl : leave j (Clause.plain k rs :: cs) σ = match postTest (.plain k rs) with
          | some t => (leave (j + 1) cs σ).map (failing j Ref.isParam t rs σ ++ ·)
          | none => none := rfl
      rw [hl] at h
      cases ht : postTest (.plain k rs) with
      | none => rw [ht] at h; cases h
      | some t => rw [ht] at h; exact hgen t rs rfl rfl (postTest_iff _ t ht) h
    | before q rs =>
      have hl : leave j (Clause.before q rs :: cs) σ = leave (j + 1) cs σ := rfl
      rw [hl] at h
      rw [ih _ _ _ h]
      simp [Clause.isAfter]
    | after q rs =>
      by_cases hu : IsUser q
      · obtain ⟨k, v, rfl⟩ := hu
        exact hgen (userTest k v) rs rfl rfl (userTest_iff k v) h
      · have hl : leave j (Clause.after q rs :: cs) σ = match postTest (.after q rs) with
            | some t => (leave (j + 1) cs σ).map (failing j Ref.isParam t rs σ ++ ·)
            | none => none := by
          cases q <;> first | rfl | exact absurd ⟨_, _, rfl⟩ hu
        rw [hl] at h
        cases ht : postTest (.after q rs) with
        | none => rw [ht] at h; cases h
        | some t => rw [ht] at h; exact hgen t rs rfl rfl (postTest_iff _ t ht) h

/-- **C152 (parameters).**  At the end of a function exactly the parameters are reported that are not as a clause says. -/
theorem C152_params (cs : List Clause) (σ : Store) (l : List (Nat × Ref)) (h : leave 0 cs σ = some l) (j : Nat) (r : Ref) :
    (j, r) ∈ l ↔ ∃ c, cs[j]? = some c ∧ c.isAfter = true ∧ r ∈ c.refs ∧ r.isParam = true ∧ ¬ Post c (σ r) := by
  rw [leave_spec cs 0 σ l h]
  constructor
  · rintro ⟨k, c, h1, h2⟩
    rw [Nat.zero_add] at h1
    subst h1
    exact ⟨c, h2⟩
  · rintro ⟨c, h2⟩
    exact ⟨j, c, by omega, h2⟩

theorem testSet_const (j : Nat) (t : St → Bool) (f : St → St) (hf : ∀ s, (f s).nul = s.nul) (d : Bool) : ∀ (rs : List Ref) (σ : Store),
    definitelyNull (σ resultRoot) = d →
    testSet j (fun σ r => !r.isParam && !definitelyNull (σ resultRoot)) t f rs σ = testSet j (fun _ r => !r.isParam && !d) t f rs σ := by
  intro rs
  induction rs with
  | nil => intro σ _; rfl
  | cons a rs ih =>
    intro σ hd
    have hd' : definitelyNull (σ.set a (f (σ a)) resultRoot) = d := by
      by_cases he : resultRoot = a
      · rw [← he, set_eq]; rw [← hd]; simp [definitelyNull, hf]
      · rw [set_ne _ _ _ _ he]; exact hd
    rw [testSet, testSet, hd, ih _ hd', ih _ hd]

theorem returnEffect_nul (c : Clause) (s : St) : (returnEffectFn c s).nul = s.nul := by
  unfold returnEffectFn
  split
  · unfold kill; split_ifs <;> rfl
  · rfl

theorem given_cons (c : Clause) (r : Ref) (cs : List Clause) (s : St) :
    Given r (c :: cs) s = Given r cs (if r ∈ c.refs then returnEffectFn c s else s) := by
  cases c with
  | plain k rs => simp [Given, returnEffectFn]
  | before q rs => simp [Given, returnEffectFn]
  | after q rs => cases q <;> (by_cases hr : r ∈ rs <;> simp [Given, returnEffectFn, Clause.refs, kill, hr])

theorem setRefs_nul (p : Ref → Bool) (f : St → St) (hf : ∀ s, (f s).nul = s.nul) (q : Ref) : ∀ (rs : List Ref) (σ : Store),
    (setRefs p f rs σ q).nul = (σ q).nul := by
  intro rs
  induction rs with
  | nil => intro σ; rfl
  | cons a rs ih =>
    intro σ
    rw [setRefs, ih]
    split_ifs
    · by_cases he : q = a
      · subst he; rw [set_eq, hf]
      · rw [set_ne _ _ _ _ he]
    · rfl

theorem setRefs_none (p : Ref → Bool) (f : St → St) (hp : ∀ r, p r = false) : ∀ (rs : List Ref) (σ : Store), setRefs p f rs σ = σ := by
  intro rs
  induction rs with
  | nil => intro σ; rfl
  | cons a rs ih => intro σ; rw [setRefs, if_neg (by simp [hp]), ih]

theorem giveBack_spec (d : Bool) : ∀ (cs : List Clause) (j : Nat) (σ σ' : Store) (l : List (Nat × Ref)), (∀ c ∈ cs, c.refs.Nodup) →
    definitelyNull (σ resultRoot) = d → giveBack j cs σ = some (σ', l) →
    (∀ r, r.isParam = true → σ' r = σ r) ∧
    ∀ j' r, (j', r) ∈ l ↔ ∃ k c, j' = j + k ∧ cs[k]? = some c ∧ c.isAfter = true ∧ r ∈ c.refs ∧ r.isParam = false ∧
      (d = true → ∃ k v rs, c = .after (.user k v) rs) ∧ ¬ Post c (if d then σ r else Given r (cs.take k) (σ r)) := by
  intro cs
  induction cs with
  | nil =>
    intro j σ σ' l _ _ h
    simp only [giveBack, Option.some.injEq, Prod.mk.injEq] at h
    obtain ⟨h1, h2⟩ := h
    subst h1; subst h2
    exact ⟨fun _ _ => rfl, by simp⟩
  | cons c cs ih =>
    intro j σ σ' l hn hd h
    have hn1 := hn c (List.mem_cons_self ..)
    have hn2 : ∀ d ∈ cs, d.refs.Nodup := fun d hd => hn d (List.mem_cons_of_mem _ hd)
    -- the rest, where this clause has no effect
    have hsame : ∀ (l2 l1 : List (Nat × Ref)), (∀ r s, Given r (c :: cs) s = Given r cs s → True) →
        (∀ r s k, Given r ((c :: cs).take (k + 1)) s = Given r (cs.take k) s) → giveBack (j + 1) cs σ = some (σ', l2) → l = l1 ++ l2 →
        (∀ j' r, (j', r) ∈ l1 ↔ j' = j ∧ c.isAfter = true ∧ r ∈ c.refs ∧ r.isParam = false ∧
          (d = true → ∃ k v rs, c = .after (.user k v) rs) ∧ ¬ Post c (σ r)) →
        (∀ r, r.isParam = true → σ' r = σ r) ∧
        ∀ j' r, (j', r) ∈ l ↔ ∃ k c', j' = j + k ∧ (c :: cs)[k]? = some c' ∧ c'.isAfter = true ∧ r ∈ c'.refs ∧ r.isParam = false ∧
          (d = true → ∃ k v rs, c' = .after (.user k v) rs) ∧ ¬ Post c' (if d then σ r else Given r ((c :: cs).take k) (σ r)) := by
      intro l2 l1 _ hG hg hl hl1
      obtain ⟨g1, g2⟩ := ih (j + 1) σ σ' l2 hn2 hd hg
      refine ⟨g1, ?_⟩
      intro j' r
      rw [hl, List.mem_append, g2, hl1]
      constructor
      · rintro (⟨h1, h2, h3, h4, h5, h6⟩ | ⟨k, e, h1, h2, h3, h4, h5, h6, h7⟩)
        · exact ⟨0, c, by omega, rfl, h2, h3, h4, h5, by simpa [Given] using h6⟩
        · exact ⟨k + 1, e, by omega, by simpa using h2, h3, h4, h5, h6, by rw [hG]; exact h7⟩
      · rintro ⟨k, e, h1, h2, h3, h4, h5, h6, h7⟩
        cases k with
        | zero =>
          simp only [List.getElem?_cons_zero, Option.some.injEq] at h2
          subst h2
          exact Or.inl ⟨by omega, h3, h4, h5, h6, by simpa [Given] using h7⟩
        | succ k =>
          rw [hG] at h7
          exact Or.inr ⟨k, e, by omega, by simpa using h2, h3, h4, h5, h6, h7⟩
    have hplain : ∀ t, postTest c = some t → c.isAfter = true → (¬ ∃ k v rs, c = .after (.user k v) rs) →
        (giveBack (j + 1) cs (testSet j (fun σ r => !r.isParam && !definitelyNull (σ resultRoot)) t (returnEffectFn c) c.refs σ).1).map
          (fun (σ', l) => (σ', (testSet j (fun σ r => !r.isParam && !definitelyNull (σ resultRoot)) t (returnEffectFn c) c.refs σ).2 ++ l))
          = some (σ', l) →
        (∀ r, r.isParam = true → σ' r = σ r) ∧
        ∀ j' r, (j', r) ∈ l ↔ ∃ k c', j' = j + k ∧ (c :: cs)[k]? = some c' ∧ c'.isAfter = true ∧ r ∈ c'.refs ∧ r.isParam = false ∧
          (d = true → ∃ k v rs, c' = .after (.user k v) rs) ∧ ¬ Post c' (if d then σ r else Given r ((c :: cs).take k) (σ r)) := by
      intro t ht ha hu hg
      rw [testSet_const j t _ (returnEffect_nul c) d c.refs σ hd, testSet_store j (fun r => !r.isParam && !d)] at hg
      cases hq : giveBack (j + 1) cs (setRefs (fun r => !r.isParam && !d) (returnEffectFn c) c.refs σ) with
      | none => rw [hq] at hg; cases hg
      | some q =>
        obtain ⟨σ2, l2⟩ := q
        rw [hq] at hg
        simp only [Option.map_some, Option.some.injEq, Prod.mk.injEq] at hg
        obtain ⟨e1, e2⟩ := hg
        subst e1
        have hd2 : definitelyNull (setRefs (fun r => !r.isParam && !d) (returnEffectFn c) c.refs σ resultRoot) = d := by
          rw [← hd]
          simp [definitelyNull, setRefs_nul _ _ (returnEffect_nul c)]
        obtain ⟨g1, g2⟩ := ih (j + 1) _ _ _ hn2 hd2 hq
        refine ⟨?_, ?_⟩
        · intro r hr
          rw [g1 r hr, setRefs_not _ _ _ _ _ (by simp [hr])]
        · intro j' r
          rw [← e2, List.mem_append, testSet_mem j (fun r => !r.isParam && !d) _ _ _ _ _ _ hn1, g2]
          have hst : r.isParam = false → d = false → setRefs (fun r => !r.isParam && !d) (returnEffectFn c) c.refs σ r =
              if r ∈ c.refs then returnEffectFn c (σ r) else σ r := by
            intro hr hdf
            by_cases hm : r ∈ c.refs
            · rw [if_pos hm, setRefs_mem _ _ _ (by simp [hr, hdf]) _ _ hn1 hm]
            · rw [if_neg hm, setRefs_not _ _ _ _ _ (fun _ => hm)]
          cases hdd : d with
          | true =>
            subst hdd
            rw [setRefs_none _ _ (by simp)]
            constructor
            · rintro (⟨h1, h2, h3, h4⟩ | ⟨k, e, h1, h2, h3, h4, h5, h6, h7⟩)
              · simp at h3
              · exact ⟨k + 1, e, by omega, by simpa using h2, h3, h4, h5, h6, h7⟩
            · rintro ⟨k, e, h1, h2, h3, h4, h5, h6, h7⟩
              cases k with
              | zero =>
                simp only [List.getElem?_cons_zero, Option.some.injEq] at h2
                subst h2
                exact absurd (h6 rfl) hu
              | succ k => exact Or.inr ⟨k, e, by omega, by simpa using h2, h3, h4, h5, h6, h7⟩
          | false =>
            subst hdd
            simp only [Bool.false_eq_true, false_implies, true_and, if_false]
            constructor
            · rintro (⟨h1, h2, h3, h4⟩ | ⟨k, e, h1, h2, h3, h4, h5, h7⟩)
              · refine ⟨0, c, by omega, rfl, ha, h2, by simpa using h3, ?_⟩
                rw [List.take_zero, Given]
                exact fun h => h4 ((postTest_iff c t ht _).2 h)
              · refine ⟨k + 1, e, by omega, by simpa using h2, h3, h4, h5, ?_⟩
                rw [List.take_succ_cons, given_cons, ← hst h5 rfl]
                exact h7
            · rintro ⟨k, e, h1, h2, h3, h4, h5, h7⟩
              cases k with
              | zero =>
                simp only [List.getElem?_cons_zero, Option.some.injEq] at h2
                subst h2
                rw [List.take_zero, Given] at h7
                exact Or.inl ⟨by omega, h4, by simp [h5], fun h => h7 ((postTest_iff c t ht _).1 h)⟩
              | succ k =>
                rw [List.take_succ_cons, given_cons, ← hst h5 rfl] at h7
                exact Or.inr ⟨k, e, by omega, by simpa using h2, h3, h4, h5, h7⟩
    cases c with
    | plain k rs =>
      have hl : giveBack j (Clause.plain k rs :: cs) σ = match postTest (.plain k rs) with
          | some t => (giveBack (j + 1) cs (testSet j (fun σ r => !r.isParam && !definitelyNull (σ resultRoot)) t
              (returnEffectFn (.plain k rs)) rs σ).1).map (fun (σ', l) => (σ', (testSet j (fun σ r => !r.isParam &&
              !definitelyNull (σ resultRoot)) t (returnEffectFn (.plain k rs)) rs σ).2 ++ l))
          | none => none := rfl
      rw [hl] at h
      cases ht : postTest (.plain k rs) with
      | none => rw [ht] at h; cases h
      | some t => rw [ht] at h; exact hplain t ht rfl (by simp) h
    | before q rs =>
      have hl : giveBack j (Clause.before q rs :: cs) σ = giveBack (j + 1) cs σ := rfl
      rw [hl] at h
      exact hsame l [] (fun _ _ _ => trivial) (fun _ _ _ => rfl) h rfl (by simp [Clause.isAfter])
    | after q rs =>
      by_cases hu : IsUser q
      · obtain ⟨k, v, rfl⟩ := hu
        rw [giveBack] at h
        rw [if_pos (show (Clause.after (.user k v) rs).isAfter = true from rfl)] at h
        dsimp only at h
        cases hr : giveBack (j + 1) cs σ with
        | none => rw [hr] at h; cases h
        | some p =>
          obtain ⟨σ2, l2⟩ := p
          rw [hr] at h
          simp only [Option.map_some, Option.some.injEq, Prod.mk.injEq] at h
          rw [h.1] at hr
          refine hsame l2 _ (fun _ _ _ => trivial) (fun _ _ _ => rfl) hr h.2.symm ?_
          intro j' r
          rw [failing_mem, userTest_iff]
          simp [Clause.isAfter, Clause.refs, Post, Stated]
      · have hl : giveBack j (Clause.after q rs :: cs) σ = match postTest (.after q rs) with
            | some t => (giveBack (j + 1) cs (testSet j (fun σ r => !r.isParam && !definitelyNull (σ resultRoot)) t
                (returnEffectFn (.after q rs)) rs σ).1).map (fun (σ', l) => (σ', (testSet j (fun σ r => !r.isParam &&
                !definitelyNull (σ resultRoot)) t (returnEffectFn (.after q rs)) rs σ).2 ++ l))
            | none => none := by
          cases q <;> first | rfl | exact absurd ⟨_, _, rfl⟩ hu
        rw [hl] at h
        cases ht : postTest (.after q rs) with
        | none => rw [ht] at h; cases h
        | some t =>
          rw [ht] at h
          refine hplain t ht rfl ?_ h
          rintro ⟨k, v, rs', he⟩
          cases he
          exact hu ⟨k, v, rfl⟩

/-- **C152 (result, exactly).**  A returned expression that is definitely null is only checked for user-defined states; any other one is
reported exactly if it is not as the clause says, after what `only` clauses before do to it. -/
theorem C152_result_exactly (n : Nat) (cs : List Clause) (σ σ' : Store) (l : List (Nat × Ref)) (hp : Proper n cs)
    (h : giveBack 0 cs σ = some (σ', l)) (j : Nat) (r : Ref) :
    (j, r) ∈ l ↔ ∃ c, cs[j]? = some c ∧ c.isAfter = true ∧ r ∈ c.refs ∧ r.isParam = false ∧
      if (σ resultRoot).nul = .defnull ∨ (σ resultRoot).nul = .constnull then (∃ k v rs, c = .after (.user k v) rs) ∧ ¬ Post c (σ r)
      else ¬ Post c (Given r (cs.take j) (σ r)) := by
  rw [(giveBack_spec (definitelyNull (σ resultRoot)) cs 0 σ σ' l (fun c hc => (hp c hc).1) rfl h).2]
  have hd : definitelyNull (σ resultRoot) = true ↔ (σ resultRoot).nul = .defnull ∨ (σ resultRoot).nul = .constnull := by simp [definitelyNull]
  by_cases hdd : definitelyNull (σ resultRoot) = true
  · simp only [hd.1 hdd]
    simp only [hdd, if_true, true_implies, Nat.zero_add]
    constructor
    · rintro ⟨k, c, h1, h2, h3, h4, h5, h6, h7⟩
      subst h1
      exact ⟨c, h2, h3, h4, h5, h6, h7⟩
    · rintro ⟨c, h2, h3, h4, h5, h6, h7⟩
      exact ⟨j, c, rfl, h2, h3, h4, h5, h6, h7⟩
  · simp only [show ¬ ((σ resultRoot).nul = .defnull ∨ (σ resultRoot).nul = .constnull) from fun h => hdd (hd.2 h)]
    simp only [hdd, Bool.false_eq_true, if_false, false_implies, true_and, Nat.zero_add]
    constructor
    · rintro ⟨k, c, h1, h2, h3, h4, h5, h7⟩
      subst h1
      exact ⟨c, h2, h3, h4, h5, h7⟩
    · rintro ⟨c, h2, h3, h4, h5, h7⟩
      exact ⟨j, c, rfl, h2, h3, h4, h5, h7⟩

/-- **C152 (null).**  Returning a null pointer is never reported for a clause `ensures notnull result`. -/
theorem C152_null (n : Nat) (cs : List Clause) (σ σ' : Store) (l : List (Nat × Ref)) (hp : Proper n cs) (h : giveBack 0 cs σ = some (σ', l))
    (hnull : (σ resultRoot).nul = .defnull) (j : Nat) (rs : List Ref) (hc : cs[j]? = some (.after .notnull rs)) (r : Ref) : (j, r) ∉ l := by
  rw [C152_result_exactly n cs σ σ' l hp h]
  rintro ⟨c, h1, _, _, _, h5⟩
  rw [if_pos (Or.inl hnull)] at h5
  rw [hc] at h1
  cases h1
  obtain ⟨⟨k, v, rs', he⟩, _⟩ := h5
  cases he

theorem given_not (r : Ref) : ∀ (cs : List Clause) (s : St), (∀ rs, Clause.after .only rs ∈ cs → r ∉ rs) → Given r cs s = s := by
  intro cs
  induction cs with
  | nil => intro s _; rfl
  | cons c cs ih =>
    intro s h
    have h2 := fun s => ih s (fun rs hrs => h rs (List.mem_cons_of_mem _ hrs))
    rw [given_cons, h2]
    by_cases hr : r ∈ c.refs
    · rw [if_pos hr]
      cases c with
      | plain k rs => rfl
      | before q rs => rfl
      | after q rs =>
        cases q <;> first | rfl | exact absurd hr (h rs (List.mem_cons_self ..))
    · rw [if_neg hr]

/-- **C152 (result).**  If the returned expression is not definitely null and no clause before is `ensures only` for it, it is reported exactly if it is
not as the clause says. -/
theorem C152_result_partial (n : Nat) (cs : List Clause) (σ σ' : Store) (l : List (Nat × Ref)) (hp : Proper n cs)
    (h : giveBack 0 cs σ = some (σ', l)) (hnull : (σ resultRoot).nul ≠ .defnull ∧ (σ resultRoot).nul ≠ .constnull) (j : Nat) (r : Ref)
    (ho : ∀ rs, Clause.after .only rs ∈ cs.take j → r ∉ rs) :
    (j, r) ∈ l ↔ ∃ c, cs[j]? = some c ∧ c.isAfter = true ∧ r ∈ c.refs ∧ r.isParam = false ∧ ¬ Post c (σ r) := by
  rw [C152_result_exactly n cs σ σ' l hp h, given_not r _ _ ho]
  simp [hnull]

/-! ### What is assumed -/

theorem entryFn_pre (c : Clause) (f : St → St) (hb : c.isBefore = true) (h : entryFn c = some f) (s : St) : Pre c (f s) := by
  cases c with
  | plain k rs =>
    cases k <;> simp only [entryFn, Option.some.injEq] at h <;> subst h <;> simp [Pre, Readable, setDefined, setUndefined, setAllocated]
  | before q rs =>
    cases q <;> simp only [entryFn, qualSet, Option.some.injEq, reduceCtorEq] at h <;> subst h <;> simp [Pre, Stated]
  | after q rs => cases hb

theorem enter_cons (c : Clause) (cs : List Clause) (σ : Store) : ∃ (o : Option (St → St)), enter (c :: cs) σ =
    (match o with | some f => enter cs (setRefs Ref.isParam f c.refs σ) | none => none) ∧
    (∀ f, o = some f → c.isBefore = true → c.refs.any Ref.isParam = true → ∀ s, Pre c (f s)) ∧
    (∀ f, o = some f → ¬ c.isBefore = true → ∀ s, f s = s) ∧
    (o = none ↔ ∃ q rs, c = .before q rs ∧ ¬ IsUser q ∧ ¬ Testable q ∧ ∃ r ∈ rs, r.isParam = true) := by
  have hid : ∀ (rs : List Ref) (σ : Store), setRefs Ref.isParam id rs σ = σ := by
    intro rs
    induction rs with
    | nil => intro σ; rfl
    | cons a rs ih =>
      intro σ
      rw [setRefs, ih]
      split_ifs
      · funext q
        by_cases he : q = a
        · subst he; rw [set_eq]; rfl
        · rw [set_ne _ _ _ _ he]
      · rfl
  by_cases hb : c.isBefore = true
  · by_cases hu : ∃ k v rs, c = .before (.user k v) rs
    · obtain ⟨k, v, rs, rfl⟩ := hu
      refine ⟨some (setUser k v), rfl, ?_, fun _ _ h => absurd hb h, ?_⟩
      · intro f hf _ _ s
        cases hf
        simp [Pre, Stated, setUser]
      · constructor
        · intro h; cases h
        · rintro ⟨q, rs', he, h1, _⟩
          cases he
          exact absurd ⟨k, v, rfl⟩ h1
    · have hs : enter (c :: cs) σ = if c.refs.any Ref.isParam then (match entryFn c with
          | some f => enter cs (setRefs Ref.isParam f c.refs σ)
          | none => none) else enter cs σ := by
        cases c with
        | plain k rs => rfl
        | before q rs => cases q <;> first | rfl | exact absurd ⟨_, _, _, rfl⟩ hu
        | after q rs => cases hb
      by_cases ha : c.refs.any Ref.isParam = true
      · rw [if_pos ha] at hs
        refine ⟨entryFn c, hs, fun f hf _ _ s => entryFn_pre c f hb hf s, fun _ _ h => absurd hb h, ?_⟩
        obtain ⟨r, hr1, hr2⟩ := List.any_eq_true.1 ha
        cases c with
        | plain k rs => cases k <;> simp [entryFn]
        | before q rs =>
          constructor
          · intro h
            refine ⟨q, rs, rfl, ?_, ?_, r, hr1, hr2⟩
            · rintro ⟨k, v, rfl⟩; exact hu ⟨k, v, rs, rfl⟩
            · cases q <;> simp [entryFn, qualSet] at h <;> simp [Testable]
          · rintro ⟨q', rs', he, h1, h2, _⟩
            cases he
            cases q <;> simp [Testable] at h2 <;> rfl
        | after q rs => cases hb
      · rw [if_neg ha] at hs
        refine ⟨some id, by rw [hs]; dsimp only; rw [hid], fun _ _ _ h => absurd h ha, fun _ _ h => absurd hb h, ?_⟩
        constructor
        · intro h; cases h
        · rintro ⟨q, rs, he, _, _, r, h3, h4⟩
          subst he
          exact absurd (List.any_eq_true.2 ⟨r, h3, h4⟩) ha
  · refine ⟨some id, ?_, fun _ _ h => absurd h hb, fun f hf _ s => by cases hf; rfl, ?_⟩
    · dsimp only
      rw [hid]
      cases c with
      | plain k rs => exact absurd rfl hb
      | before q rs => exact absurd rfl hb
      | after q rs => rfl
    · constructor
      · intro h; cases h
      · rintro ⟨q, rs, he, _⟩
        subst he
        exact absurd rfl hb

theorem enter_untouched (r : Ref) : ∀ (cs : List Clause) (σ σ' : Store), enter cs σ = some σ' → (∀ c ∈ cs, c.isBefore = true → r ∉ c.refs) →
    σ' r = σ r := by
  intro cs
  induction cs with
  | nil =>
    intro σ σ' h _
    simp only [enter, Option.some.injEq] at h
    rw [h]
  | cons c cs ih =>
    intro σ σ' h hr
    obtain ⟨o, h1, h2, h3, h4⟩ := enter_cons c cs σ
    rw [h1] at h
    cases o with
    | none => cases h
    | some f =>
      rw [ih _ _ h (fun d hd => hr d (List.mem_cons_of_mem _ hd))]
      by_cases hb : c.isBefore = true
      · exact setRefs_not _ _ _ _ _ (fun _ => hr c (List.mem_cons_self ..) hb)
      · have hf : f = id := by funext s; exact h3 f rfl hb s
        by_cases hm : r.isParam = true ∧ r ∈ c.refs
        · subst hf
          have : ∀ (rs : List Ref) (σ : Store), setRefs Ref.isParam id rs σ r = σ r := by
            intro rs
            induction rs with
            | nil => intro σ; rfl
            | cons a rs ih2 =>
              intro σ
              rw [setRefs, ih2]
              split_ifs
              · by_cases he : r = a
                · subst he; rw [set_eq]; rfl
                · rw [set_ne _ _ _ _ he]
              · rfl
          exact this _ _
        · exact setRefs_not _ _ _ _ _ (fun h1 h2 => hm ⟨h1, h2⟩)

/-- **C153 (entry).**  What is assumed of a parameter at the entry is what is checked at a call, unless a later clause is about the same storage. -/
theorem C153_entry_partial (n : Nat) (as bs : List Clause) (c : Clause) (σ σ' : Store) (r : Ref) (hp : Proper n (as ++ c :: bs))
    (h : enter (as ++ c :: bs) σ = some σ') (hb : c.isBefore = true) (hr : r ∈ c.refs) (hpar : r.isParam = true)
    (hlast : ∀ d ∈ bs, d.isBefore = true → r ∉ d.refs) : Pre c (σ' r) := by
  induction as generalizing σ with
  | nil =>
    rw [List.nil_append] at h hp
    obtain ⟨o, h1, h2, h3, h4⟩ := enter_cons c bs σ
    rw [h1] at h
    cases o with
    | none => cases h
    | some f =>
      rw [enter_untouched r _ _ _ h hlast, setRefs_mem _ _ _ hpar _ _ (hp c (List.mem_cons_self ..)).1 hr]
      exact h2 f rfl hb (List.any_eq_true.2 ⟨r, hr, hpar⟩) _
  | cons a as ih =>
    rw [List.cons_append] at h hp
    obtain ⟨o, h1, _⟩ := enter_cons a (as ++ c :: bs) σ
    rw [h1] at h
    cases o with
    | none => cases h
    | some f => exact ih _ (fun d hd => hp d (List.mem_cons_of_mem _ hd)) h

theorem stateFn_stated (q : Qual) (f : St → St) (h : stateFn q = some f) (s : St) : Stated q (f s) ∧ (f s).df = s.df := by
  cases q <;> simp only [stateFn, Option.some.injEq, reduceCtorEq] at h <;> subst h <;> simp [Stated]

theorem stateFn_none (q : Qual) : stateFn q = none ↔ ¬ Settable q := by
  cases q <;> simp [stateFn, Settable, IsUser]

theorem setUsers_ne (k : Nat) (v : Int) (r : Ref) : ∀ (rs : List Ref) (σ : Store), r.isParam = true → r ∉ rs → setUsers k v rs σ r = σ r := by
  intro rs
  induction rs with
  | nil => intro σ _ _; rfl
  | cons a rs ih =>
    intro σ hr hn
    rw [setUsers]
    rw [ih _ hr (fun h => hn (List.mem_cons_of_mem _ h)), set_ne]
    split_ifs
    · intro he; subst he; exact hn (List.mem_cons_self ..)
    · intro he; subst he; cases hr

theorem setUsers_mem (k : Nat) (v : Int) (r : Ref) : ∀ (rs : List Ref) (σ : Store), r.isParam = true → r ∈ rs →
    (setUsers k v rs σ r).user k = v := by
  have keep : ∀ (rs : List Ref) (σ : Store), (σ r).user k = v → (setUsers k v rs σ r).user k = v := by
    intro rs
    induction rs with
    | nil => intro σ h; exact h
    | cons a rs ih =>
      intro σ h
      rw [setUsers]
      apply ih
      by_cases he : r = if a.isParam = true then a else resultRoot
      · rw [← he, set_eq]; simp [setUser]
      · rw [set_ne _ _ _ _ he]; exact h
  intro rs
  induction rs with
  | nil => intro σ _ h; cases h
  | cons a rs ih =>
    intro σ hr h
    rw [setUsers]
    by_cases he : r = a
    · subst he
      apply keep
      rw [if_pos hr, set_eq]
      simp [setUser]
    · rcases List.mem_cons.1 h with h | h
      · exact absurd h he
      · exact ih _ hr h

theorem reflect_cons (c : Clause) (cs : List Clause) (σ : Store) : (∃ q rs, c = .after q rs ∧ ¬ IsUser q ∧ reflect (c :: cs) σ =
      match stateFn q with | some f => reflect cs (setRefs (fun _ => true) f rs σ) | none => none) ∨
    (∃ k v rs, c = .after (.user k v) rs ∧ reflect (c :: cs) σ = reflect cs (setUsers k v rs σ)) ∨
    (¬ (∃ q rs, c = .after q rs) ∧ reflect (c :: cs) σ = reflect cs σ) := by
  cases c with
  | plain k rs => exact Or.inr (Or.inr ⟨by simp, rfl⟩)
  | before q rs => exact Or.inr (Or.inr ⟨by simp, rfl⟩)
  | after q rs =>
    by_cases hu : IsUser q
    · obtain ⟨k, v, rfl⟩ := hu
      exact Or.inr (Or.inl ⟨k, v, rs, rfl, rfl⟩)
    · refine Or.inl ⟨q, rs, rfl, hu, ?_⟩
      cases q <;> first | rfl | exact absurd ⟨_, _, rfl⟩ hu

theorem setRefs_df (p : Ref → Bool) (f : St → St) (hf : ∀ s, (f s).df = s.df) (q : Ref) : ∀ (rs : List Ref) (σ : Store),
    (setRefs p f rs σ q).df = (σ q).df := by
  intro rs
  induction rs with
  | nil => intro σ; rfl
  | cons a rs ih =>
    intro σ
    rw [setRefs, ih]
    split_ifs
    · by_cases he : q = a
      · subst he; rw [set_eq, hf]
      · rw [set_ne _ _ _ _ he]
    · rfl

theorem setUsers_df (k : Nat) (v : Int) (q : Ref) : ∀ (rs : List Ref) (σ : Store), (setUsers k v rs σ q).df = (σ q).df := by
  intro rs
  induction rs with
  | nil => intro σ; rfl
  | cons a rs ih =>
    intro σ
    rw [setUsers]
    rw [ih]
    by_cases he : q = if a.isParam = true then a else resultRoot
    · rw [← he, set_eq]; rfl
    · rw [set_ne _ _ _ _ he]

theorem reflect_df (r : Ref) : ∀ (cs : List Clause) (σ σ' : Store), reflect cs σ = some σ' → (σ' r).df = (σ r).df := by
  intro cs
  induction cs with
  | nil => intro σ σ' h; simp only [reflect, Option.some.injEq] at h; rw [h]
  | cons c cs ih =>
    intro σ σ' h
    rcases reflect_cons c cs σ with ⟨q, rs, _, _, h1⟩ | ⟨k, v, rs, _, h1⟩ | ⟨_, h1⟩
    · rw [h1] at h
      cases hf : stateFn q with
      | none => rw [hf] at h; cases h
      | some f => rw [hf] at h; rw [ih _ _ h, setRefs_df _ _ (fun s => (stateFn_stated q f hf s).2)]
    · rw [h1] at h; rw [ih _ _ h, setUsers_df]
    · rw [h1] at h; exact ih _ _ h

theorem reflect_untouched (r : Ref) (hr : r.isParam = true) : ∀ (cs : List Clause) (σ σ' : Store), reflect cs σ = some σ' →
    (∀ q rs, Clause.after q rs ∈ cs → r ∉ rs) → σ' r = σ r := by
  intro cs
  induction cs with
  | nil => intro σ σ' h _; simp only [reflect, Option.some.injEq] at h; rw [h]
  | cons c cs ih =>
    intro σ σ' h hn
    have hn2 : ∀ q rs, Clause.after q rs ∈ cs → r ∉ rs := fun q rs hm => hn q rs (List.mem_cons_of_mem _ hm)
    rcases reflect_cons c cs σ with ⟨q, rs, hc, _, h1⟩ | ⟨k, v, rs, hc, h1⟩ | ⟨_, h1⟩
    · rw [h1] at h
      cases hf : stateFn q with
      | none => rw [hf] at h; cases h
      | some f =>
        rw [hf] at h
        subst hc
        rw [ih _ _ h hn2, setRefs_not _ _ _ _ _ (fun _ => hn q rs (List.mem_cons_self ..))]
    · rw [h1] at h
      subst hc
      rw [ih _ _ h hn2, setUsers_ne _ _ _ _ _ hr (hn _ rs (List.mem_cons_self ..))]
    · rw [h1] at h; exact ih _ _ h hn2

theorem reflect_stated (as bs : List Clause) (q : Qual) (rs : List Ref) (σ σ' : Store) (r : Ref) (hnd : rs.Nodup)
    (h : reflect (as ++ .after q rs :: bs) σ = some σ') (hr : r ∈ rs) (hpar : r.isParam = true)
    (hlast : ∀ q' rs', Clause.after q' rs' ∈ bs → r ∉ rs') : Stated q (σ' r) := by
  induction as generalizing σ with
  | nil =>
    rw [List.nil_append] at h
    rcases reflect_cons (.after q rs) bs σ with ⟨q', rs', hc, hu, h1⟩ | ⟨k, v, rs', hc, h1⟩ | ⟨hc, _⟩
    · cases hc
      rw [h1] at h
      cases hf : stateFn q with
      | none => rw [hf] at h; cases h
      | some f =>
        rw [hf] at h
        rw [reflect_untouched r hpar _ _ _ h hlast, setRefs_mem (fun _ => true) f r rfl _ _ hnd hr]
        exact (stateFn_stated q f hf _).1
    · cases hc
      rw [h1] at h
      rw [reflect_untouched r hpar _ _ _ h hlast]
      exact Or.inr (setUsers_mem k v r rs σ hpar hr)
    · exact absurd ⟨q, rs, rfl⟩ hc
  | cons a as ih =>
    rw [List.cons_append] at h
    rcases reflect_cons a (as ++ .after q rs :: bs) σ with ⟨q', rs', _, _, h1⟩ | ⟨k, v, rs', _, h1⟩ | ⟨_, h1⟩
    · rw [h1] at h
      cases hf : stateFn q' with
      | none => rw [hf] at h; cases h
      | some f => rw [hf] at h; exact ih _ h
    · rw [h1] at h; exact ih _ h
    · rw [h1] at h; exact ih _ h

/-- **C153 (ensures).**  After a call the arguments are as the `ensures` clauses say, unless a later one is about the same storage. -/
theorem C153_ensures_partial (n : Nat) (as bs : List Clause) (q : Qual) (rs : List Ref) (σ σ' : Store) (l : List (Nat × Ref)) (r : Ref)
    (hp : Proper n (as ++ .after q rs :: bs)) (h : call n (as ++ .after q rs :: bs) σ = some (σ', l)) (hr : r ∈ rs) (hpar : r.isParam = true)
    (hlast : ∀ q' rs', Clause.after q' rs' ∈ bs → r ∉ rs') : Stated q (σ' r) := by
  obtain ⟨σ1, σ2, σ3, l1, l2, h1, h2, h3, h4, rfl⟩ := call_parts n _ σ σ' l h
  exact reflect_stated as bs q rs σ3 σ' r (hp (.after q rs) (by simp)).1 h4 hr hpar hlast

theorem require_df (r : Ref) : ∀ (cs : List Clause) (j : Nat) (σ σ' : Store) (l : List (Nat × Ref)), require j cs σ = some (σ', l) →
    (σ' r).df = (σ r).df := by
  intro cs
  induction cs with
  | nil =>
    intro j σ σ' l h
    simp only [require, Option.some.injEq, Prod.mk.injEq] at h
    rw [h.1]
  | cons c cs ih =>
    intro j σ σ' l h
    cases c with
    | plain k rs => exact ih _ _ _ _ h
    | after q rs => exact ih _ _ _ _ h
    | before q rs =>
      by_cases hu : IsUser q
      · obtain ⟨k, v, rfl⟩ := hu
        simp only [require] at h
        split_ifs at h with h1
        cases hr : require (j + 1) cs σ with
        | none => rw [hr] at h; cases h
        | some p =>
          obtain ⟨σ2, l2⟩ := p
          rw [hr] at h
          simp only [Option.map_some, Option.some.injEq, Prod.mk.injEq] at h
          rw [← h.1]
          exact ih _ _ _ _ hr
      · have hs : require j (Clause.before q rs :: cs) σ = match stateFn q with
            | some f => require (j + 1) cs (setRefs Ref.isParam f rs σ)
            | none => none := by
          cases q <;> first | rfl | exact absurd ⟨_, _, rfl⟩ hu
        rw [hs] at h
        cases hf : stateFn q with
        | none => rw [hf] at h; cases h
        | some f =>
          rw [hf] at h
          rw [ih _ _ _ _ h, setRefs_df _ _ (fun s => (stateFn_stated q f hf s).2)]

theorem returned_param (r : Ref) (hr : r.isParam = true) : ∀ (cs : List Clause) (σ σ' : Store), returned cs σ = some σ' → σ' r = σ r := by
  intro cs
  induction cs with
  | nil => intro σ σ' h; simp only [returned, Option.some.injEq] at h; rw [h]
  | cons c cs ih =>
    intro σ σ' h
    rw [returned] at h
    by_cases ha : c.isAfter = true
    · rw [if_pos ha] at h
      cases hf : effectFn c with
      | none => rw [hf] at h; cases h
      | some f =>
        rw [hf] at h
        rw [ih _ _ h, setRefs_not _ _ _ _ _ (by simp [hr])]
    · rw [if_neg ha] at h
      exact ih _ _ h

/-- **C153 (defines, sets, allocates, releases).**  After a call the arguments are as the last such clause says, but storage that was shared is not released. -/
theorem C153_effects_partial (n : Nat) (as bs : List Clause) (k : Plain) (rs : List Ref) (σ σ' : Store) (l : List (Nat × Ref)) (r : Ref)
    (hp : Proper n (as ++ .plain k rs :: bs)) (h : call n (as ++ .plain k rs :: bs) σ = some (σ', l)) (hr : r ∈ rs) (hpar : r.isParam = true)
    (hlast : ∀ c ∈ bs, ¬ Touches c r) (hs : k = .releases → (σ r).al ≠ .shared ∧ (σ r).oal ≠ .shared) :
    Post (.plain k rs) (σ' r) := by
  obtain ⟨σ1, σ2, σ3, l1, l2, h1, h2, h3, h4, rfl⟩ := call_parts n _ σ σ' l h
  obtain ⟨_, g2, _⟩ := passArgs_spec _ (fun c hc => (hp c hc).1) _ _ _ _ List.nodup_range h1
  obtain ⟨i, hi⟩ := (isParam_iff _).1 hpar
  have hlt := (hp (.plain k rs) (by simp)).2 r hr i hi
  have hσ1 := g2 r i (List.mem_range.2 hlt) hi
  have hdf : (σ' r).df = (σ1 r).df := by
    rw [reflect_df r _ _ _ h4]
    have : σ3 r = σ2 r := by
      split_ifs at h3 with hsp
      · exact returned_param r hpar _ _ _ h3
      · cases h3; rfl
    rw [this, require_df r _ _ _ _ _ h2]
  rw [effects_append, Effects, if_pos hr, effects_untouched r bs _ hlast] at hσ1
  have hal : ∀ (ds : List Clause) (s : St), s.al ≠ .shared → s.oal ≠ .shared → (Effects r ds s).al ≠ .shared := by
    intro ds
    induction ds with
    | nil => intro s h _; exact h
    | cons d ds ih =>
      intro s h1 h2
      cases d with
      | plain k rs =>
        rw [Effects]
        split_ifs
        · cases k with
          | releases => simp only [plainEffect]; rw [if_neg h1]; exact ih _ h2 h2
          | _ => exact ih _ h1 h2
        · exact ih _ h1 h2
      | before q rs => exact ih _ h1 h2
      | after q rs => exact ih _ h1 h2
  cases k with
  | uses => trivial
  | defines => left; rw [hdf, hσ1]; rfl
  | sets => left; rw [hdf, hσ1]; rfl
  | allocates => show (σ' r).df = .allocated; rw [hdf, hσ1]; rfl
  | releases =>
    left
    rw [hdf, hσ1]
    have := hal as (σ r) (hs rfl).1 (hs rfl).2
    simp [plainEffect, this]

/-! ### Internal bugs -/

theorem enter_some : ∀ (cs : List Clause) (σ : Store), (enter cs σ).isSome = true ↔
    ∀ q rs, Clause.before q rs ∈ cs → IsUser q ∨ Testable q ∨ ∀ r ∈ rs, r.isParam = false := by
  intro cs
  induction cs with
  | nil => intro σ; simp [enter]
  | cons c cs ih =>
    intro σ
    obtain ⟨o, h1, _, _, h4⟩ := enter_cons c cs σ
    rw [h1]
    cases o with
    | none =>
      obtain ⟨q, rs, he, g1, g2, r, g3, g4⟩ := h4.1 rfl
      simp only [Option.isSome_none, Bool.false_eq_true, false_iff]
      intro h
      rcases h q rs (by rw [he]; exact List.mem_cons_self ..) with h | h | h
      · exact g1 h
      · exact g2 h
      · rw [h r g3] at g4; cases g4
    | some f =>
      dsimp only
      rw [ih]
      constructor
      · intro h q rs hm
        rcases List.mem_cons.1 hm with hm | hm
        · by_contra hc
          push Not at hc
          have := h4.2 ⟨q, rs, hm.symm, hc.1, hc.2.1, by
            obtain ⟨r, hr1, hr2⟩ := hc.2.2
            exact ⟨r, hr1, by simpa using hr2⟩⟩
          cases this
        · exact h q rs hm
      · intro h q rs hm
        exact h q rs (List.mem_cons_of_mem _ hm)

/-- **C154 (entry, exactly).**  Entering a function is an internal bug exactly if a `requires` clause for a parameter has a qualifier without a test. -/
theorem C154_enter_exactly (cs : List Clause) (σ : Store) : enter cs σ = none ↔
    ∃ q rs, Clause.before q rs ∈ cs ∧ ¬ IsUser q ∧ ¬ Testable q ∧ ∃ r ∈ rs, r.isParam = true := by
  have h := enter_some cs σ
  rw [← Option.not_isSome_iff_eq_none, h]
  push Not
  constructor
  · rintro ⟨q, rs, h1, h2, h3, r, h4, h5⟩
    exact ⟨q, rs, h1, h2, h3, r, h4, by simpa using h5⟩
  · rintro ⟨q, rs, h1, h2, h3, r, h4, h5⟩
    exact ⟨q, rs, h1, h2, h3, r, h4, by simp [h5]⟩

theorem postTest_none (c : Clause) (ha : c.isAfter = true) : postTest c = none ↔ ∃ q rs, c = .after q rs ∧ ¬ Testable q := by
  cases c with
  | plain k rs => cases k <;> simp [postTest]
  | before q rs => cases ha
  | after q rs => cases q <;> simp [postTest, qualTest, Testable]

/-- **C154 (return, exactly).**  Leaving a function is an internal bug exactly if an `ensures` clause has a qualifier without a test. -/
theorem C154_leave_exactly : ∀ (cs : List Clause) (j : Nat) (σ : Store), leave j cs σ = none ↔
    ∃ q rs, Clause.after q rs ∈ cs ∧ ¬ IsUser q ∧ ¬ Testable q := by
  intro cs
  induction cs with
  | nil => intro j σ; simp [leave]
  | cons c cs ih =>
    intro j σ
    cases c with
    | plain k rs =>
      cases k <;> simp only [leave, Clause.isAfter, if_true, postTest, Option.map_eq_none_iff] <;> rw [ih] <;> simp
    | before q rs =>
      have hl : leave j (Clause.before q rs :: cs) σ = leave (j + 1) cs σ := rfl
      rw [hl, ih]
      simp
    | after q rs =>
      rw [exists_after (fun q => ¬ IsUser q ∧ ¬ Testable q)]
      cases q <;> simp only [leave, Clause.isAfter, if_true, postTest, qualTest, Option.map_eq_none_iff] <;>
        first | (rw [ih]; simp [IsUser, Testable]; done) | (simp [IsUser, Testable]; done)

/-- **C154 (returned expression, exactly).**  The same holds for returning an expression, even if no clause is about the result. -/
theorem C154_giveBack_exactly : ∀ (cs : List Clause) (j : Nat) (σ : Store), giveBack j cs σ = none ↔
    ∃ q rs, Clause.after q rs ∈ cs ∧ ¬ IsUser q ∧ ¬ Testable q := by
  intro cs
  induction cs with
  | nil => intro j σ; simp [giveBack]
  | cons c cs ih =>
    intro j σ
    cases c with
    | plain k rs =>
      cases k <;> simp only [giveBack, Clause.isAfter, if_true, postTest, Option.map_eq_none_iff] <;> rw [ih] <;> simp
    | before q rs =>
      have hl : giveBack j (Clause.before q rs :: cs) σ = giveBack (j + 1) cs σ := rfl
      rw [hl, ih]
      simp
    | after q rs =>
      rw [exists_after (fun q => ¬ IsUser q ∧ ¬ Testable q)]
      cases q <;> simp only [giveBack, Clause.isAfter, if_true, postTest, qualTest, Option.map_eq_none_iff] <;>
        first | (rw [ih]; simp [IsUser, Testable]; done) | (simp [IsUser, Testable]; done)

theorem require_some : ∀ (cs : List Clause) (j : Nat) (σ : Store), (require j cs σ).isSome = true ↔
    ∀ q rs, Clause.before q rs ∈ cs → (IsUser q → ∀ r ∈ rs, r.isParam = true) ∧ (IsUser q ∨ Settable q) := by
  intro cs
  induction cs with
  | nil => intro j σ; simp [require]
  | cons c cs ih =>
    intro j σ
    have step : ∀ q rs, (∀ q' rs', Clause.before q' rs' ∈ Clause.before q rs :: cs →
        (IsUser q' → ∀ r ∈ rs', r.isParam = true) ∧ (IsUser q' ∨ Settable q')) ↔
        ((IsUser q → ∀ r ∈ rs, r.isParam = true) ∧ (IsUser q ∨ Settable q)) ∧ ∀ q' rs', Clause.before q' rs' ∈ cs →
        (IsUser q' → ∀ r ∈ rs', r.isParam = true) ∧ (IsUser q' ∨ Settable q') := by
      intro q rs
      constructor
      · intro h
        exact ⟨h q rs (List.mem_cons_self ..), fun q' rs' hm => h q' rs' (List.mem_cons_of_mem _ hm)⟩
      · rintro ⟨h1, h2⟩ q' rs' hm
        rcases List.mem_cons.1 hm with hm | hm
        · cases hm; exact h1
        · exact h2 q' rs' hm
    cases c with
    | plain k rs =>
      have hl : require j (Clause.plain k rs :: cs) σ = require (j + 1) cs σ := rfl
      rw [hl, ih]; simp
    | after q rs =>
      have hl : require j (Clause.after q rs :: cs) σ = require (j + 1) cs σ := rfl
      rw [hl, ih]; simp
    | before q rs =>
      rw [step]
      by_cases hu : IsUser q
      · have hu' := hu
        obtain ⟨k, v, rfl⟩ := hu'
        simp only [require]
        by_cases ha : (rs.any fun r => !r.isParam) = true
        · rw [if_pos ha]
          obtain ⟨r, h1, h2⟩ := List.any_eq_true.1 ha
          simp only [Option.isSome_none, Bool.false_eq_true, false_iff]
          rintro ⟨⟨h, _⟩, _⟩
          rw [h hu r h1] at h2
          cases h2
        · rw [if_neg ha, Option.isSome_map, ih]
          have : ∀ r ∈ rs, r.isParam = true := by
            intro r hr
            by_contra hc
            exact ha (List.any_eq_true.2 ⟨r, hr, by simpa using hc⟩)
          constructor
          · intro h; exact ⟨⟨fun _ => this, Or.inl hu⟩, h⟩
          · intro h; exact h.2
      · have hs : require j (Clause.before q rs :: cs) σ = match stateFn q with
            | some f => require (j + 1) cs (setRefs Ref.isParam f rs σ)
            | none => none := by
          cases q <;> first | rfl | exact absurd ⟨_, _, rfl⟩ hu
        rw [hs]
        cases hf : stateFn q with
        | none =>
          have := (stateFn_none q).1 hf
          simp only [Option.isSome_none, Bool.false_eq_true, false_iff]
          rintro ⟨⟨_, h⟩, _⟩
          exact h.elim hu this
        | some f =>
          have : Settable q := by
            by_contra hc
            rw [(stateFn_none q).2 hc] at hf
            cases hf
          dsimp only
          rw [ih]
          constructor
          · intro h; exact ⟨⟨fun h' => absurd h' hu, Or.inr this⟩, h⟩
          · intro h; exact h.2

theorem returned_some : ∀ (cs : List Clause) (σ : Store), (returned cs σ).isSome = true ↔ ∀ q rs, Clause.after q rs ∈ cs → Testable q := by
  intro cs
  induction cs with
  | nil => intro σ; simp [returned]
  | cons c cs ih =>
    intro σ
    cases c with
    | plain k rs => cases k <;> simp only [returned, Clause.isAfter, if_true, effectFn] <;> rw [ih] <;> simp
    | before q rs =>
      have hl : returned (Clause.before q rs :: cs) σ = returned cs σ := rfl
      rw [hl, ih]; simp
    | after q rs =>
      rw [forall_after (fun q _ => Testable q)]
      cases q <;> simp only [returned, Clause.isAfter, if_true, effectFn, qualSet] <;> first | (rw [ih]; simp [Testable]; done) | (simp [Testable]; done)

theorem reflect_some : ∀ (cs : List Clause) (σ : Store), (reflect cs σ).isSome = true ↔
    ∀ q rs, Clause.after q rs ∈ cs → IsUser q ∨ Settable q := by
  intro cs
  induction cs with
  | nil => intro σ; simp [reflect]
  | cons c cs ih =>
    intro σ
    have hcons : ∀ q rs, (∀ q' rs', Clause.after q' rs' ∈ Clause.after q rs :: cs → IsUser q' ∨ Settable q') ↔
        (IsUser q ∨ Settable q) ∧ ∀ q' rs', Clause.after q' rs' ∈ cs → IsUser q' ∨ Settable q' := by
      intro q rs
      constructor
      · intro h
        exact ⟨h q rs (List.mem_cons_self ..), fun q' rs' hm => h q' rs' (List.mem_cons_of_mem _ hm)⟩
      · rintro ⟨h1, h2⟩ q' rs' hm
        rcases List.mem_cons.1 hm with hm | hm
        · cases hm; exact h1
        · exact h2 q' rs' hm
    rcases reflect_cons c cs σ with ⟨q, rs, hc, hu, h1⟩ | ⟨k, v, rs, hc, h1⟩ | ⟨hc, h1⟩
    · subst hc
      rw [h1, hcons]
      cases hf : stateFn q with
      | none =>
        have := (stateFn_none q).1 hf
        simp [hu, this]
      | some f =>
        have : Settable q := by
          by_contra hc
          rw [(stateFn_none q).2 hc] at hf
          cases hf
        dsimp only
        rw [ih]
        simp [this]
    · subst hc
      rw [h1, hcons, ih]
      have : IsUser (.user k v) := ⟨k, v, rfl⟩
      simp [this]
    · rw [h1, ih]
      constructor
      · intro h q rs hm
        rcases List.mem_cons.1 hm with hm | hm
        · exact absurd ⟨q, rs, hm.symm⟩ hc
        · exact h q rs hm
      · intro h q rs hm
        exact h q rs (List.mem_cons_of_mem _ hm)

/-- **C154 (call, exactly).**  When a call is not an internal bug. -/
theorem C154_call_exactly (n : Nat) (cs : List Clause) (σ : Store) : (call n cs σ).isSome = true ↔
    ((∃ i < n, ∃ c ∈ cs, ∃ r ∈ c.refs, r.base = .param i) → ∀ q rs, Clause.before q rs ∈ cs → Testable q) ∧
    (∀ q rs, Clause.before q rs ∈ cs → (IsUser q → ∀ r ∈ rs, r.isParam = true) ∧ (IsUser q ∨ Settable q)) ∧
    ((∃ c ∈ cs, c.isAfter = true ∧ ∃ r ∈ c.refs, r.isParam = false) → ∀ q rs, Clause.after q rs ∈ cs → Testable q) ∧
    (∀ q rs, Clause.after q rs ∈ cs → IsUser q ∨ Settable q) := by
  have e1 : (passArgs cs (List.range n) σ).isSome = true ↔
      ((∃ i < n, ∃ c ∈ cs, ∃ r ∈ c.refs, r.base = .param i) → ∀ q rs, Clause.before q rs ∈ cs → Testable q) := by
    rw [passArgs_some]
    simp only [List.mem_range, special_iff]
  have e3 : specialResult cs = true ↔ ∃ c ∈ cs, c.isAfter = true ∧ ∃ r ∈ c.refs, r.isParam = false := by
    simp [specialResult]
  rw [← e1, ← e3]
  rw [call]
  cases h1 : passArgs cs (List.range n) σ with
  | none => simp
  | some p =>
    obtain ⟨σ1, l1⟩ := p
    dsimp only
    rw [← require_some cs 0 σ1]
    cases h2 : require 0 cs σ1 with
    | none => simp
    | some p =>
      obtain ⟨σ2, l2⟩ := p
      dsimp only
      by_cases hs : specialResult cs = true
      · rw [if_pos hs, ← returned_some cs σ2]
        cases h3 : returned cs σ2 with
        | none => simp [hs]
        | some σ3 => rw [← reflect_some cs σ3]; simp
      · rw [if_neg hs, ← reflect_some cs σ2]
        simp [hs]

/-- **C154 (user-defined states).**  A call is an internal bug whenever a user-defined state is required of an argument or ensured for the result. -/
theorem C154_user (n : Nat) (cs : List Clause) (σ : Store) (k : Nat) (v : Int) (rs : List Ref) (r : Ref) (hr : r ∈ rs)
    (h : (Clause.before (.user k v) rs ∈ cs ∧ ∃ i < n, r.base = .param i) ∨ (Clause.after (.user k v) rs ∈ cs ∧ r.base = .result)) :
    call n cs σ = none := by
  rw [← Option.not_isSome_iff_eq_none, C154_call_exactly]
  rintro ⟨h1, _, h3, _⟩
  rcases h with ⟨h, i, hi, hb⟩ | ⟨h, hb⟩
  · exact testable_not_user _ (h1 ⟨i, hi, _, h, r, hr, hb⟩ _ _ h) ⟨k, v, rfl⟩
  · exact testable_not_user _ (h3 ⟨_, h, rfl, r, hr, by simp [Ref.isParam, hb]⟩ _ _ h) ⟨k, v, rfl⟩

/-! ### The full statements -/

def st0 : St := ⟨.undefined, .unknown, .unknown, .unknown, .unknown, true, false, false, fun _ => 0⟩

def p0 : Ref := ⟨.param 0, 1⟩

/-- `sets *p` and then `uses *p`: undefined storage is not reported. -/
theorem C151_full_is_false : ¬ C151_full := by
  intro h
  have hp : Proper 1 [.plain .sets [p0], .plain .uses [p0]] := by
    intro c hc
    simp only [List.mem_cons, List.not_mem_nil, or_false] at hc
    rcases hc with rfl | rfl <;> exact ⟨by simp [Clause.refs], by simp [Clause.refs, p0]⟩
  have h1 := h 1 _ (fun _ => st0) _ _ hp rfl 1 p0
  exact C151_hidden 1 [] [] [] .sets [p0] [p0] (fun _ => st0) _ _ p0 (Or.inl rfl) (by simp) (by simp) hp rfl
    (h1.2 ⟨.plain .uses [p0], rfl, rfl, by simp [Clause.refs], rfl, by simp [Pre, Readable, st0]⟩)

/-- `ensures notnull result` and returning a null pointer. -/
theorem C152_full_is_false : ¬ C152_full := by
  intro h
  have hp : Proper 0 [.after .notnull [resultRoot]] := by
    intro c hc
    simp only [List.mem_cons, List.not_mem_nil, or_false] at hc
    subst hc
    exact ⟨by simp [Clause.refs], by simp [Clause.refs, resultRoot]⟩
  have h1 := (h 0 _ (fun _ => { st0 with nul := .defnull }) _ _ _ hp rfl rfl 0 resultRoot).2
    ⟨.after .notnull [resultRoot], rfl, rfl, by simp [Clause.refs], by simp [Post, Stated]⟩
  revert h1
  decide

/-- `releases *p` for shared storage. -/
theorem C153_full_is_false : ¬ C153_full := by
  rintro ⟨_, h⟩
  have hp : Proper 1 [.plain .releases [p0]] := by
    intro c hc
    simp only [List.mem_cons, List.not_mem_nil, or_false] at hc
    subst hc
    exact ⟨by simp [Clause.refs], by simp [Clause.refs, p0]⟩
  have h1 := h 1 _ (fun _ => { st0 with df := .defined, al := .shared }) _ _ hp rfl (.plain .releases [p0]) (by simp) p0 (by simp [Clause.refs]) rfl rfl
  revert h1
  simp [Post, Store.set, setRefs, kill, testSet, p0, st0, effectFn, require, Clause.refs]

/-- `requires temp *p`. -/
theorem C154_full_is_false : ¬ C154_full := by
  intro h
  have hp : Proper 1 [.before .temp [p0]] := by
    intro c hc
    simp only [List.mem_cons, List.not_mem_nil, or_false] at hc
    subst hc
    exact ⟨by simp [Clause.refs], by simp [Clause.refs, p0]⟩
  have h1 := (h 1 _ (fun _ => st0) hp).1
  revert h1
  decide

/-! ### Examples -/

/-- `uses *p`, `requires isnull *p`, `ensures notnull *p` (test/specclauses6.c) -/
example : (call 1 [.plain .uses [p0], .before .isnull [p0], .after .notnull [p0]] (fun _ => { st0 with df := .defined, nul := .notnull })).map
    (fun x => (x.2, (x.1 p0).nul)) = some ([(1, p0)], .mnotnull) := by decide

example : (enter [.plain .uses [p0], .before .isnull [p0], .after .notnull [p0]] (fun _ => st0)).map (fun σ => ((σ p0).df, (σ p0).nul)) =
    some (.defined, .defnull) := by decide

example : leave 0 [.plain .uses [p0], .after .isnull [p0]] (fun _ => st0) = some [(1, p0)] := by decide

example : (giveBack 0 [.after .only [resultRoot], .plain .defines [resultRoot]] (fun _ => { st0 with df := .defined, al := .only })).map (·.2) =
    some [(1, resultRoot)] := by decide

end StateClause
end Splint
