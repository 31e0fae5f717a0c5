import Verif.Tactics
import Verif.Spec.Unused
/-!
# C129: unused declarations
-/
namespace Splint
namespace Unused

theorem loc_iff (e : Entry) (l : Loc) : loc e = some l ↔ At e l := by
  unfold loc At
  cases h : e.declared <;> simp

theorem skipped_iff (env : Env) (e : Entry) : skipped env e = false ↔ Mine env e := by
  unfold skipped Mine
  cases hl : loc e with
  | none =>
    simp only [isInvalid, Bool.true_or, Bool.true_eq_false, false_iff]
    rintro ⟨l, h, -⟩
    rw [← loc_iff, hl] at h
    cases h
  | some l =>
    have hat : ∀ l', At e l' ↔ l' = l := by
      intro l'; rw [← loc_iff, hl]; simp [eq_comm]
    have hsome : isSpecial (some l) = l.special := rfl
    simp only [hat, exists_eq_left, isInvalid, isLib, isBuiltin, hsome]
    have hd : isSpecial e.defined = false ↔ ∀ l', e.defined = some l' → l'.special = false := by
      cases e.defined with
      | none => simp [isSpecial]
      | some a => simp [isSpecial]
    rw [← hd]
    cases hk : l.kind <;> cases l.valid <;> cases l.special <;> cases isSpecial e.defined <;>
      cases env.unusedSpecial <;> simp

theorem user_iff (e : Entry) : isUser (loc e) = true ↔ InSource e := by
  unfold InSource
  cases hl : loc e with
  | none =>
    simp only [isUser, Bool.false_eq_true, false_iff]
    rintro ⟨l, h, -⟩
    rw [← loc_iff, hl] at h
    cases h
  | some l =>
    have hat : ∀ l', At e l' ↔ l' = l := by
      intro l'; rw [← loc_iff, hl]; simp [eq_comm]
    simp [hat, isUser]

theorem complaint_iff (env : Env) (e : Entry) (f : Flag) : complaint env e = some f ↔ Says env e f := by
  have hu := user_iff e
  constructor
  · intro h
    unfold complaint at h
    cases hk : e.kind with
    | var v =>
      cases v <;> simp only [hk, isParam, isRefParam, Bool.false_eq_true, if_false, if_true] at h
      case param =>
        cases hm : env.inMacro <;> simp only [hm, Bool.false_eq_true, if_false, if_true] at h
        · cases hd : e.dots <;> simp only [hd, Bool.false_eq_true, if_false, if_true] at h
          · cases h; exact .param hm (by simp [hk]) hd
          · cases h
        · cases hs : e.safe <;> cases hr : e.realName <;> simp [hs, hr] at h
          subst h
          exact .macroParam hm hk hs hr
      case yieldParam =>
        cases hm : env.inMacro <;> simp only [hm, Bool.false_eq_true, if_false, if_true] at h
        · cases hd : e.dots <;> simp only [hd, Bool.false_eq_true, if_false, if_true] at h
          · cases h; exact .param hm (by simp [hk]) hd
          · cases h
        · simp at h
      all_goals
        first
        | (simp at h; done)
        | (cases hf : e.fnType <;> cases hi : isUser (loc e) <;> simp [hf, hi] at h <;> subst h <;>
            first
            | exact .var _ hk (by simp [VarLike]) hf (hu.1 hi)
            | exact .fnVar _ hk (by simp [VarLike]) hf (hu.1 hi))
    | endIter => simp [hk, isParam] at h
    | tag => simp [hk, isParam] at h
    | function => 
      cases hi : isUser (loc e) <;> simp [hk, isParam, hi] at h; subst h; exact .function (by simp [hk]) (hu.1 hi)
    | iter => 
      cases hi : isUser (loc e) <;> simp [hk, isParam, hi] at h; subst h; exact .function (by simp [hk]) (hu.1 hi)
    | enumConst => 
      cases hi : isUser (loc e) <;> simp [hk, isParam, hi] at h; subst h; exact .enumConst hk (hu.1 hi)
    | constant => 
      cases hi : isUser (loc e) <;> simp [hk, isParam, hi] at h; subst h; exact .constant hk (hu.1 hi)
    | datatype => 
      cases hi : isUser (loc e) <;> simp [hk, isParam, hi] at h; subst h; exact .datatype hk (hu.1 hi)
  · intro h
    unfold complaint
    cases h with
    | param hm hk hd => 
      simp only [List.mem_cons, List.not_mem_nil, or_false] at hk
      rcases hk with hk | hk <;> simp [hk, isParam, hm, hd]
    | macroParam hm hk hs hr => simp [hk, isParam, hm, hs, hr]
    | function hk hi => 
      simp only [List.mem_cons, List.not_mem_nil, or_false] at hk
      rcases hk with hk | hk <;> simp [hk, isParam, hu.2 hi]
    | enumConst hk hi => simp [hk, isParam, hu.2 hi]
    | constant hk hi => simp [hk, isParam, hu.2 hi]
    | datatype hk hi => simp [hk, isParam, hu.2 hi]
    | fnVar v hk hv hf hi =>
      simp only [VarLike, List.mem_cons, List.not_mem_nil, or_false] at hv
      rcases hv with rfl | rfl | rfl | rfl | rfl <;> simp [hk, isParam, isRefParam, hf, hu.2 hi]
    | var v hk hv hf hi =>
      simp only [VarLike, List.mem_cons, List.not_mem_nil, or_false] at hv
      rcases hv with rfl | rfl | rfl | rfl | rfl <;> simp [hk, isParam, isRefParam, hf, hu.2 hi]

/-! ### Fields -/

theorem fieldLoop_marked (env : Env) (i : Nat) (named : Bool) : ∀ (xs marked : List Nat) (x : Nat),
    x ∈ (fieldLoop env i named xs marked).2 ↔ x ∈ marked ∨ x ∈ xs
  | [], marked, x => by simp [fieldLoop]
  | y :: ys, marked, x => by
    unfold fieldLoop
    by_cases hy : y ∈ marked
    · rw [if_pos hy, fieldLoop_marked env i named ys marked x]
      constructor
      · rintro (h | h)
        · exact Or.inl h
        · exact Or.inr (by simp [h])
      · rintro (h | h)
        · exact Or.inl h
        · rcases List.mem_cons.1 h with rfl | h
          · exact Or.inl hy
          · exact Or.inr h
    · rw [if_neg hy]
      have ih := fieldLoop_marked env i named ys (y :: marked) x
      simp only
      split
      all_goals
        simp only [ih, List.mem_cons]
        tauto

theorem fieldLoop_reports (env : Env) (i : Nat) (named : Bool) : ∀ (xs marked : List Nat) (r : Report),
    r ∈ (fieldLoop env i named xs marked).1 ↔
      ∃ x, r = .field i x ∧ x ∈ xs ∧ x ∉ marked ∧ named = true ∧ env.shown (.field i x) = true
  | [], marked, r => by simp [fieldLoop]
  | y :: ys, marked, r => by
    unfold fieldLoop
    by_cases hy : y ∈ marked
    · rw [if_pos hy, fieldLoop_reports env i named ys marked r]
      constructor
      · rintro ⟨x, h1, h2, h3⟩; exact ⟨x, h1, by simp [h2], h3⟩
      · rintro ⟨x, h1, h2, h3, h4⟩
        rcases List.mem_cons.1 h2 with rfl | h2
        · exact absurd hy h3
        · exact ⟨x, h1, h2, h3, h4⟩
    · rw [if_neg hy]
      have ih := fieldLoop_reports env i named ys (y :: marked) r
      simp only
      by_cases hs : (named && env.shown (.field i y)) = true
      · rw [if_pos hs]
        simp only [Bool.and_eq_true] at hs
        simp only [List.mem_cons, ih]
        constructor
        · rintro (rfl | ⟨x, h1, h2, h3, h4⟩)
          · exact ⟨y, rfl, Or.inl rfl, hy, hs⟩
          · exact ⟨x, h1, Or.inr h2, fun h => h3 (Or.inr h), h4⟩
        · rintro ⟨x, h1, h2, h3, h4⟩
          by_cases hxy : x = y
          · exact Or.inl (by rw [h1, hxy])
          · exact Or.inr ⟨x, h1, h2.resolve_left hxy, fun h => (h.elim hxy h3), h4⟩
      · rw [if_neg hs, ih]
        simp only [Bool.and_eq_true] at hs
        constructor
        · rintro ⟨x, h1, h2, h3, h4⟩
          exact ⟨x, h1, by simp [h2], fun h => h3 (by simp [h]), h4⟩
        · rintro ⟨x, h1, h2, h3, h4⟩
          by_cases hxy : x = y
          · subst hxy; exact absurd h4 hs
          · refine ⟨x, h1, (List.mem_cons.1 h2).resolve_left hxy, fun h => ?_, h4⟩
            rcases List.mem_cons.1 h with h | h
            · exact hxy h
            · exact h3 h

theorem fieldLoop_nodup (env : Env) (i : Nat) (named : Bool) : ∀ (xs marked : List Nat),
    (fieldLoop env i named xs marked).1.Nodup
  | [], marked => by simp [fieldLoop]
  | y :: ys, marked => by
    unfold fieldLoop
    by_cases hy : y ∈ marked
    · rw [if_pos hy]; exact fieldLoop_nodup env i named ys marked
    · rw [if_neg hy]
      have ih := fieldLoop_nodup env i named ys (y :: marked)
      simp only
      split
      · refine List.nodup_cons.2 ⟨fun h => ?_, ih⟩
        obtain ⟨x, h1, -, h3, -⟩ := (fieldLoop_reports env i named ys (y :: marked) _).1 h
        cases h1
        exact h3 (by simp)
      · exact ih

/-! ### One entry -/

theorem step_skipped (env : Env) (i : Nat) (e : Entry) (marked : List Nat) (h : ¬ Mine env e) :
    step env i e marked = ([], marked) := by
  rw [← skipped_iff] at h
  unfold step
  rw [if_pos (by simpa using h)]

theorem step_entry (env : Env) (i : Nat) (e : Entry) (marked : List Nat) (j : Nat) (f : Flag) :
    .entry j f ∈ (step env i e marked).1 ↔
      j = i ∧ Mine env e ∧ e.used = false ∧ Says env e f ∧ env.shown (.entry i f) = true := by
  by_cases hm : Mine env e
  · have hs := (skipped_iff env e).2 hm
    unfold step
    simp only [hs, Bool.false_eq_true, if_false]
    by_cases h1 : (!e.used && e.kind != .tag) = true
    · rw [if_pos h1]
      simp only [Bool.and_eq_true, Bool.not_eq_true', bne_iff_ne] at h1
      cases hc : complaint env e with
      | none =>
        simp only [List.not_mem_nil, false_iff]
        rintro ⟨-, -, -, h, -⟩
        rw [← complaint_iff, hc] at h
        cases h
      | some f' =>
        by_cases hsh : env.shown (.entry i f') = true
        · simp only [hsh, if_true, List.mem_singleton, Report.entry.injEq]
          constructor
          · rintro ⟨rfl, rfl⟩; exact ⟨rfl, hm, h1.1, (complaint_iff env e f).1 hc, hsh⟩
          · rintro ⟨rfl, -, -, h, -⟩
            rw [← complaint_iff, hc] at h
            exact ⟨rfl, (Option.some.inj h).symm⟩
        · simp only [hsh, Bool.false_eq_true, if_false, List.not_mem_nil, false_iff]
          rintro ⟨-, -, -, h, h'⟩
          rw [← complaint_iff, hc] at h
          cases h
          exact hsh h'
    · rw [if_neg h1]
      simp only [Bool.and_eq_true, Bool.not_eq_true', bne_iff_ne] at h1
      have hno : .entry j f ∉ (if (e.kind == .datatype || e.kind == .tag) = true
          then fieldLoop env i e.hasName e.fields marked else ([], marked)).1 := by
        split
        · intro h
          obtain ⟨x, h, -⟩ := (fieldLoop_reports env i _ _ _ _).1 h
          cases h
        · simp
      constructor
      · intro h; exact absurd h hno
      · rintro ⟨-, -, h2, h3, -⟩
        exfalso
        apply h1
        refine ⟨h2, fun hk => ?_⟩
        rw [← complaint_iff] at h3
        simp [complaint, hk, isParam] at h3
  · rw [step_skipped env i e marked hm]
    simp [hm]

theorem step_field (env : Env) (i : Nat) (e : Entry) (marked : List Nat) (j x : Nat) :
    .field j x ∈ (step env i e marked).1 ↔
      j = i ∧ Looked env e ∧ x ∈ e.fields ∧ x ∉ marked ∧ e.hasName = true ∧ env.shown (.field i x) = true := by
  unfold Looked
  by_cases hm : Mine env e
  · have hs := (skipped_iff env e).2 hm
    unfold step
    simp only [hs, Bool.false_eq_true, if_false, hm, true_and]
    by_cases h1 : (!e.used && e.kind != .tag) = true
    · rw [if_pos h1]
      simp only [Bool.and_eq_true, Bool.not_eq_true', bne_iff_ne] at h1
      have hno : .field j x ∉ (match complaint env e with
          | some f => if env.shown (.entry i f) = true then ([Report.entry i f], marked) else ([], marked)
          | none => ([], marked)).1 := by
        cases complaint env e with
        | none => simp
        | some f => by_cases hsh : env.shown (.entry i f) = true <;> simp [hsh]
      constructor
      · intro h; exact absurd h hno
      · rintro ⟨-, hk | ⟨-, hu⟩, -⟩
        · exact absurd hk h1.2
        · rw [h1.1] at hu; cases hu
    · rw [if_neg h1]
      simp only [Bool.and_eq_true, Bool.not_eq_true', bne_iff_ne] at h1
      by_cases hk : e.kind = .datatype ∨ e.kind = .tag
      · have hk' : (e.kind == .datatype || e.kind == .tag) = true := by simpa using hk
        rw [if_pos hk', fieldLoop_reports]
        constructor
        · rintro ⟨x', h, h2⟩
          cases h
          refine ⟨rfl, ?_, h2⟩
          rcases hk with hk | hk
          · right
            refine ⟨hk, ?_⟩
            by_contra hu
            exact h1 ⟨by simpa using hu, by simp [hk]⟩
          · exact Or.inl hk
        · rintro ⟨rfl, -, h2⟩; exact ⟨x, rfl, h2⟩
      · have hk' : (e.kind == .datatype || e.kind == .tag) = false := by simpa using hk
        simp only [hk', Bool.false_eq_true, if_false, List.not_mem_nil, false_iff]
        rintro ⟨-, h | ⟨h, -⟩, -⟩
        · exact hk (Or.inr h)
        · exact hk (Or.inl h)
  · rw [step_skipped env i e marked hm]
    simp [hm]

theorem step_marked (env : Env) (i : Nat) (e : Entry) (marked : List Nat) (x : Nat) :
    x ∈ (step env i e marked).2 ↔ x ∈ marked ∨ (Looked env e ∧ x ∈ e.fields) := by
  unfold Looked
  by_cases hm : Mine env e
  · have hs := (skipped_iff env e).2 hm
    unfold step
    simp only [hs, Bool.false_eq_true, if_false, hm, true_and]
    by_cases h1 : (!e.used && e.kind != .tag) = true
    · rw [if_pos h1]
      simp only [Bool.and_eq_true, Bool.not_eq_true', bne_iff_ne] at h1
      have hgoal : x ∈ marked ↔
          x ∈ marked ∨ (e.kind = EKind.tag ∨ e.kind = EKind.datatype ∧ e.used = true) ∧ x ∈ e.fields := ?_
      · cases complaint env e with
        | none => exact hgoal
        | some f => by_cases hsh : env.shown (.entry i f) = true <;> simpa [hsh] using hgoal
      constructor
      · exact Or.inl
      · rintro (h | ⟨hk | ⟨-, hu⟩, -⟩)
        · exact h
        · exact absurd hk h1.2
        · rw [h1.1] at hu; cases hu
    · rw [if_neg h1]
      simp only [Bool.and_eq_true, Bool.not_eq_true', bne_iff_ne] at h1
      by_cases hk : e.kind = .datatype ∨ e.kind = .tag
      · have hk' : (e.kind == .datatype || e.kind == .tag) = true := by simpa using hk
        rw [if_pos hk', fieldLoop_marked]
        have : e.kind = .tag ∨ (e.kind = .datatype ∧ e.used = true) := by
          rcases hk with hk | hk
          · right
            refine ⟨hk, ?_⟩
            by_contra hu
            exact h1 ⟨by simpa using hu, by simp [hk]⟩
          · exact Or.inl hk
        simp [this]
      · have hk' : (e.kind == .datatype || e.kind == .tag) = false := by simpa using hk
        simp only [hk', Bool.false_eq_true, if_false]
        constructor
        · exact Or.inl
        · rintro (h | ⟨h | ⟨h, -⟩, -⟩)
          · exact h
          · exact absurd (Or.inr h) hk
          · exact absurd (Or.inl h) hk
  · rw [step_skipped env i e marked hm]
    simp [hm]

theorem step_nodup (env : Env) (i : Nat) (e : Entry) (marked : List Nat) : (step env i e marked).1.Nodup := by
  unfold step
  split
  · simp
  · split
    · cases complaint env e with
      | none => simp
      | some f => by_cases hsh : env.shown (.entry i f) = true <;> simp [hsh]
    · split
      · exact fieldLoop_nodup env i _ _ _
      · simp

/-! ### The table -/

theorem pass_entry (env : Env) (j : Nat) (f : Flag) : ∀ (es : List Entry) (n : Nat) (marked : List Nat),
    .entry j f ∈ (pass env n es marked).1 ↔
      ∃ k e, j = n + k ∧ es[k]? = some e ∧ Mine env e ∧ e.used = false ∧ Says env e f ∧
        env.shown (.entry j f) = true
  | [], n, marked => by simp [pass]
  | e :: es, n, marked => by
    unfold pass
    simp only [List.mem_append, step_entry, pass_entry env j f es (n + 1)]
    constructor
    · rintro (⟨rfl, h⟩ | ⟨k, e', h1, h2, h3⟩)
      · exact ⟨0, e, rfl, rfl, h⟩
      · exact ⟨k + 1, e', by omega, by simpa using h2, h3⟩
    · rintro ⟨k, e', h1, h2, h3⟩
      cases k with
      | zero =>
        have : e = e' := by simpa using h2
        subst this
        have : j = n := by omega
        subst this
        exact Or.inl ⟨rfl, h3⟩
      | succ k => exact Or.inr ⟨k, e', by omega, by simpa using h2, h3⟩

theorem pass_field (env : Env) (j x : Nat) : ∀ (es : List Entry) (n : Nat) (marked : List Nat),
    .field j x ∈ (pass env n es marked).1 ↔
      ∃ k e, j = n + k ∧ es[k]? = some e ∧ Looked env e ∧ x ∈ e.fields ∧ x ∉ marked ∧ e.hasName = true ∧
        env.shown (.field j x) = true ∧
        ∀ k' e', k' < k → es[k']? = some e' → Looked env e' → x ∉ e'.fields
  | [], n, marked => by simp [pass]
  | e :: es, n, marked => by
    unfold pass
    simp only [List.mem_append, step_field, pass_field env j x es (n + 1), step_marked]
    constructor
    · rintro (⟨rfl, h1, h2, h3, h4, h5⟩ | ⟨k, e', h1, h2, h3, h4, h5, h6, h7, h8⟩)
      · exact ⟨0, e, rfl, rfl, h1, h2, h3, h4, h5, fun k' _ h => absurd h (by omega)⟩
      · refine ⟨k + 1, e', by omega, by simpa using h2, h3, h4, fun h => h5 (Or.inl h), h6, h7, ?_⟩
        intro k' e'' hk he hl hx
        cases k' with
        | zero =>
          have : e = e'' := by simpa using he
          subst this
          exact h5 (Or.inr ⟨hl, hx⟩)
        | succ k' => exact h8 k' e'' (by omega) (by simpa using he) hl hx
    · rintro ⟨k, e', h1, h2, h3, h4, h5, h6, h7, h8⟩
      cases k with
      | zero =>
        have : e = e' := by simpa using h2
        subst this
        have : j = n := by omega
        subst this
        exact Or.inl ⟨rfl, h3, h4, h5, h6, h7⟩
      | succ k =>
        refine Or.inr ⟨k, e', by omega, by simpa using h2, h3, h4, ?_, h6, h7, ?_⟩
        · rintro (h | ⟨hl, hx⟩)
          · exact h5 h
          · exact h8 0 e (by omega) rfl hl hx
        · intro k' e'' hk he hl
          exact h8 (k' + 1) e'' (by omega) (by simpa using he) hl

theorem pass_nodup (env : Env) : ∀ (es : List Entry) (n : Nat) (marked : List Nat),
    (pass env n es marked).1.Nodup
  | [], n, marked => by simp [pass]
  | e :: es, n, marked => by
    unfold pass
    simp only
    refine List.nodup_append.2 ⟨step_nodup env n e marked, pass_nodup env es (n + 1) _, ?_⟩
    intro r hr r' hr' hrr
    subst hrr
    cases r with
    | entry j f =>
      have h1 := ((step_entry env n e marked j f).1 hr).1
      obtain ⟨k, -, h2, -⟩ := (pass_entry env j f es (n + 1) _).1 hr'
      omega
    | field j x =>
      have h1 := ((step_field env n e marked j x).1 hr).1
      obtain ⟨k, -, h2, -⟩ := (pass_field env j x es (n + 1) _).1 hr'
      omega

theorem pass_used (env : Env) : ∀ (es : List Entry) (n : Nat) (marked : List Nat) (k : Nat) (e : Entry),
    es[k]? = some e → ∃ b, (pass env n es marked).2.1[k]? = some { e with used := b } ∧
      (b = true ↔ e.used = true ∨ (∃ f, .entry (n + k) f ∈ (pass env n es marked).1) ∨
        ∃ x, .field (n + k) x ∈ (pass env n es marked).1)
  | [], n, marked, k, e, h => by simp at h
  | e :: es, n, marked, k, e', h => by
    unfold pass
    simp only [List.mem_append]
    cases k with
    | zero =>
      have : e = e' := by simpa using h
      subst this
      refine ⟨_, rfl, ?_⟩
      simp only [Bool.or_eq_true, Nat.add_zero]
      have e1 : ∀ f, .entry n f ∉ (pass env (n + 1) es (step env n e marked).2).1 := by
        intro f hf
        obtain ⟨k, -, h2, -⟩ := (pass_entry env n f es (n + 1) _).1 hf
        omega
      have e2 : ∀ x, .field n x ∉ (pass env (n + 1) es (step env n e marked).2).1 := by
        intro x hf
        obtain ⟨k, -, h2, -⟩ := (pass_field env n x es (n + 1) _).1 hf
        omega
      simp only [e1, e2, or_false]
      apply or_congr Iff.rfl
      constructor
      · intro hne
        have : (step env n e marked).1 ≠ [] := by simpa using hne
        obtain ⟨r, hr⟩ := List.exists_mem_of_ne_nil _ this
        cases r with
        | entry j f =>
          have := ((step_entry env n e marked j f).1 hr).1
          subst this
          exact Or.inl ⟨f, hr⟩
        | field j x =>
          have := ((step_field env n e marked j x).1 hr).1
          subst this
          exact Or.inr ⟨x, hr⟩
      · rintro (⟨f, hf⟩ | ⟨x, hx⟩)
        · have := List.ne_nil_of_mem hf; simpa using this
        · have := List.ne_nil_of_mem hx; simpa using this
    | succ k =>
      obtain ⟨b, h1, h2⟩ := pass_used env es (n + 1) (step env n e marked).2 k e' (by simpa using h)
      refine ⟨b, by simpa using h1, ?_⟩
      rw [h2]
      have e0 : n + 1 + k = n + (k + 1) := by omega
      rw [e0]
      have e1 : ∀ f, .entry (n + (k + 1)) f ∉ (step env n e marked).1 := by
        intro f hf
        have := ((step_entry env n e marked _ f).1 hf).1
        omega
      have e2 : ∀ x, .field (n + (k + 1)) x ∉ (step env n e marked).1 := by
        intro x hf
        have := ((step_field env n e marked _ x).1 hf).1
        omega
      simp only [e1, e2, false_or]

/-! ### The theorems -/

/-- Exactly which declarations are reported, and as what. -/
theorem C129_entry_exactly (env : Env) (es : List Entry) (marked : List Nat) (i : Nat) (f : Flag) :
    .entry i f ∈ (allUsed env es marked).1 ↔
      ∃ e, es[i]? = some e ∧ Mine env e ∧ e.used = false ∧ Says env e f ∧ env.shown (.entry i f) = true := by
  unfold allUsed
  rw [pass_entry]
  constructor
  · rintro ⟨k, e, h, h'⟩; rw [Nat.zero_add] at h; subst h; exact ⟨e, h'⟩
  · rintro ⟨e, h⟩; exact ⟨i, e, by omega, h⟩

/-- Exactly which fields are reported: those without a mark, by the first entry that has them and is looked at, if it
has a name. -/
theorem C129_field_exactly (env : Env) (es : List Entry) (marked : List Nat) (i x : Nat) :
    .field i x ∈ (allUsed env es marked).1 ↔
      ∃ e, es[i]? = some e ∧ Looked env e ∧ x ∈ e.fields ∧ x ∉ marked ∧ e.hasName = true ∧
        env.shown (.field i x) = true ∧
        ∀ j e', j < i → es[j]? = some e' → Looked env e' → x ∉ e'.fields := by
  unfold allUsed
  rw [pass_field]
  constructor
  · rintro ⟨k, e, h, h'⟩; rw [Nat.zero_add] at h; subst h; exact ⟨e, h'⟩
  · rintro ⟨e, h⟩; exact ⟨i, e, by omega, h⟩

/-- Nothing is reported twice, and a field not by two entries. -/
theorem C129_once (env : Env) (es : List Entry) (marked : List Nat) :
    (allUsed env es marked).1.Nodup ∧
    (∀ i f g, .entry i f ∈ (allUsed env es marked).1 → .entry i g ∈ (allUsed env es marked).1 → f = g) ∧
    (∀ i j x, .field i x ∈ (allUsed env es marked).1 → .field j x ∈ (allUsed env es marked).1 → i = j) := by
  refine ⟨pass_nodup env es 0 marked, ?_, ?_⟩
  · intro i f g h1 h2
    obtain ⟨e, a1, -, -, a2, -⟩ := (C129_entry_exactly env es marked i f).1 h1
    obtain ⟨e', b1, -, -, b2, -⟩ := (C129_entry_exactly env es marked i g).1 h2
    rw [a1] at b1
    cases b1
    rw [← complaint_iff] at a2 b2
    rw [a2] at b2
    exact Option.some.inj b2
  · intro i j x h1 h2
    obtain ⟨e, a1, a2, a3, -, -, -, a4⟩ := (C129_field_exactly env es marked i x).1 h1
    obtain ⟨e', b1, b2, b3, -, -, -, b4⟩ := (C129_field_exactly env es marked j x).1 h2
    by_contra hne
    rcases Nat.lt_or_gt_of_ne hne with h | h
    · exact b4 i e h a1 a2 a3
    · exact a4 j e' h b1 b2 b3

/-- What is used afterwards: what was, and what was reported. -/
theorem C129_marks (env : Env) (es : List Entry) (marked : List Nat) (i : Nat) (e : Entry) (h : es[i]? = some e) :
    ∃ b, (allUsed env es marked).2.1[i]? = some { e with used := b } ∧
      (b = true ↔ e.used = true ∨ (∃ f, .entry i f ∈ (allUsed env es marked).1) ∨
        ∃ x, .field i x ∈ (allUsed env es marked).1) := by
  have := pass_used env es 0 marked i e h
  rw [Nat.zero_add] at this
  exact this

/-- What is used is never reported. -/
theorem C129_used (env : Env) (es : List Entry) (marked : List Nat) (i : Nat) (e : Entry) (h : es[i]? = some e)
    (hu : e.used = true) (f : Flag) : .entry i f ∉ (allUsed env es marked).1 := by
  intro hr
  obtain ⟨e', h1, -, h2, -⟩ := (C129_entry_exactly env es marked i f).1 hr
  rw [h] at h1
  cases h1
  rw [hu] at h2
  cases h2

/-- An unused field of the program that has a name is reported; so is an unused parameter, as a parameter. -/
def C129_full : Prop := ∀ (env : Env) (es : List Entry) (marked : List Nat) (i : Nat) (e : Entry),
  es[i]? = some e → Mine env e → InSource e → (∀ r, env.shown r = true) → env.inMacro = false →
  (∀ x ∈ e.fields, x ∉ marked → Looked env e → e.hasName = true → ∃ j, .field j x ∈ (allUsed env es marked).1) ∧
  ((∃ qs : List Qual, e.kind = .var (qs.foldl reflect .param)) → e.used = false → e.dots = false →
    .entry i .paramUnused ∈ (allUsed env es marked).1)

def everything : Env := { shown := fun _ => true }

/-- `typedef struct { int x; } *T;`: the unnamed structure is in the table in front of the type. -/
def unnamedFirst : List Entry :=
  [{ kind := .tag, declared := some ⟨.normal, true, false⟩, hasName := false, fields := [7] },
   { kind := .datatype, used := true, declared := some ⟨.normal, true, false⟩, fields := [7] }]

theorem C129_full_is_false : ¬ C129_full := by
  intro h
  have hm : Mine everything { kind := .datatype, used := true, declared := some ⟨.normal, true, false⟩, fields := [7] } :=
    (skipped_iff _ _).1 rfl
  obtain ⟨j, hj⟩ := (h everything unnamedFirst [] 1 _ rfl hm ((user_iff _).1 rfl) (fun _ => rfl) rfl).1 7 (by simp)
    (by simp) ⟨hm, Or.inr ⟨rfl, rfl⟩⟩ rfl
  have : (allUsed everything unnamedFirst []).1 = [] := by decide
  rw [this] at hj
  cases hj

/-- If the first entry that has the field has no name, the field is never reported. -/
theorem C129_unnamed (env : Env) (es : List Entry) (marked : List Nat) (i x : Nat) (e : Entry) (h : es[i]? = some e)
    (hl : Looked env e) (hx : x ∈ e.fields) (hn : e.hasName = false)
    (hf : ∀ j e', j < i → es[j]? = some e' → Looked env e' → x ∉ e'.fields) (j : Nat) :
    .field j x ∉ (allUsed env es marked).1 := by
  intro hr
  obtain ⟨e', h1, h2, h3, -, h4, -, h5⟩ := (C129_field_exactly env es marked j x).1 hr
  rcases Nat.lt_trichotomy i j with hij | hij | hij
  · exact h5 i e hij h hl hx
  · subst hij; rw [h] at h1; cases h1; rw [hn] at h4; cases h4
  · exact hf j e' hij h1 h2 h3

/-- If the report of the first such entry is suppressed, the field is not reported by a later one. -/
theorem C129_suppressed (env : Env) (es : List Entry) (marked : List Nat) (i x : Nat) (e : Entry)
    (h : es[i]? = some e) (hl : Looked env e) (hx : x ∈ e.fields) (hn : env.shown (.field i x) = false)
    (hf : ∀ j e', j < i → es[j]? = some e' → Looked env e' → x ∉ e'.fields) (j : Nat) :
    .field j x ∉ (allUsed env es marked).1 := by
  intro hr
  obtain ⟨e', h1, h2, h3, -, -, h4, h5⟩ := (C129_field_exactly env es marked j x).1 hr
  rcases Nat.lt_trichotomy i j with hij | hij | hij
  · exact h5 i e hij h hl hx
  · subst hij; rw [hn] at h4; cases h4
  · exact hf j e' hij h1 h2 h3

/-- The fields of a type that is itself unused are not looked at by its entry. -/
theorem C129_unused_type (env : Env) (es : List Entry) (marked : List Nat) (i x : Nat) (e : Entry)
    (h : es[i]? = some e) (hk : e.kind = .datatype) (hu : e.used = false) :
    .field i x ∉ (allUsed env es marked).1 := by
  intro hr
  obtain ⟨e', h1, ⟨-, h2⟩, -⟩ := (C129_field_exactly env es marked i x).1 hr
  rw [h] at h1
  cases h1
  rcases h2 with h2 | ⟨-, h2⟩
  · rw [hk] at h2; cases h2
  · rw [hu] at h2; cases h2

theorem reflect_not_param (qs : List Qual) (hq : qs ≠ []) :
    qs.foldl reflect .param ∈ [.retParam, .sefParam, .sefRetParam] := by
  obtain rfl | ⟨l, q, rfl⟩ := List.eq_nil_or_concat qs
  · exact absurd rfl hq
  · clear hq
    rw [List.concat_eq_append, List.foldl_append]
    have hl : ∀ v ∈ [VKind.param, .retParam, .sefParam, .sefRetParam],
        l.foldl reflect v ∈ [VKind.param, .retParam, .sefParam, .sefRetParam] := by
      intro v hv'
      induction l generalizing v with
      | nil => exact hv'
      | cons a l ih =>
        apply ih
        simp only [List.mem_cons, List.not_mem_nil, or_false] at hv'
        rcases hv' with rfl | rfl | rfl | rfl <;> cases a <;> simp [reflect]
    replace hl := hl .param (by simp)
    generalize l.foldl reflect .param = v at hl
    simp only [List.mem_cons, List.not_mem_nil, or_false] at hl
    rcases hl with rfl | rfl | rfl | rfl <;> cases q <;> simp [reflect]

/-- What a parameter with these qualifiers becomes: the last one counts, and the one in front of it if they are
`returned sef`, in which case a third one must not be in front of them. -/
theorem C129_qualified (qs : List Qual) :
    qs.foldl reflect .param = .retParam ↔ qs.getLast? = some .returned := by
  obtain rfl | ⟨l, q, rfl⟩ := List.eq_nil_or_concat qs
  · decide
  · rw [List.concat_eq_append, List.foldl_append]
    cases q <;> simp [reflect]
    split <;> simp

theorem C129_qualified_both (qs : List Qual) :
    qs.foldl reflect .param = .sefRetParam ↔ ∃ l, qs = l ++ [.returned, .sef] := by
  obtain rfl | ⟨l, q, rfl⟩ := List.eq_nil_or_concat qs
  · simp
  · rw [List.concat_eq_append, List.foldl_append]
    cases q with
    | returned =>
      refine iff_of_false (by simp [reflect]) ?_
      rintro ⟨l', h⟩
      have := congrArg List.getLast? h
      simp at this
    | sef =>
      have h1 : [Qual.sef].foldl reflect (l.foldl reflect .param) = .sefRetParam ↔
          l.foldl reflect .param = .retParam := by
        generalize l.foldl reflect .param = v
        cases v <;> simp [reflect]
      rw [h1, C129_qualified]
      constructor
      · intro h
        obtain rfl | ⟨l', q, rfl⟩ := List.eq_nil_or_concat l
        · simp at h
        · simp at h
          exact ⟨l', by simp [h]⟩
      · rintro ⟨l', h⟩
        rw [show l' ++ [Qual.returned, .sef] = (l' ++ [.returned]) ++ [.sef] by simp] at h
        have := List.append_inj_left' h rfl
        simp [this]

/-- When a function is defined by a macro (cscannerHelp.c:2566), a parameter whose last qualifier is `returned` becomes a
plain one, which is reported as a parameter; one that ends with `sef` does not. -/
theorem C129_defined (qs : List Qual) :
    setParam (qs.foldl reflect .param) = .param ↔ qs = [] ∨ qs.getLast? = some .returned := by
  rw [← C129_qualified]
  by_cases hq : qs = []
  · subst hq; decide
  · have h := reflect_not_param qs hq
    generalize qs.foldl reflect .param = v at h
    simp only [List.mem_cons, List.not_mem_nil, or_false] at h
    rcases h with rfl | rfl | rfl <;> simp [setParam, hq]

/-- An unused parameter that is declared `sef` or `returned` is reported as a variable (or, by its type, as a
function), and never as a parameter. -/
theorem C129_sef_returned (env : Env) (es : List Entry) (marked : List Nat) (i : Nat) (e : Entry)
    (h : es[i]? = some e) (qs : List Qual) (hq : qs ≠ []) (hk : e.kind = .var (qs.foldl reflect .param)) :
    .entry i .paramUnused ∉ (allUsed env es marked).1 ∧ .entry i .macroParams ∉ (allUsed env es marked).1 ∧
    (e.fnType = false → (.entry i .varUnused ∈ (allUsed env es marked).1 ↔
      Mine env e ∧ InSource e ∧ e.used = false ∧ env.shown (.entry i .varUnused) = true)) := by
  have hv := reflect_not_param qs hq
  generalize qs.foldl reflect .param = v at hv hk
  refine ⟨?_, ?_, ?_⟩
  · intro hr
    obtain ⟨e', h1, -, -, h2, -⟩ := (C129_entry_exactly env es marked i _).1 hr
    rw [h] at h1; cases h1
    cases h2 with
    | param _ hk' _ =>
      rw [hk] at hk'
      simp only [List.mem_cons, List.not_mem_nil, or_false] at hv
      rcases hv with rfl | rfl | rfl <;> simp at hk'
  · intro hr
    obtain ⟨e', h1, -, -, h2, -⟩ := (C129_entry_exactly env es marked i _).1 hr
    rw [h] at h1; cases h1
    cases h2 with
    | macroParam _ hk' =>
      rw [hk] at hk'
      simp only [List.mem_cons, List.not_mem_nil, or_false] at hv
      rcases hv with rfl | rfl | rfl <;> simp at hk'
  · intro hf
    rw [C129_entry_exactly]
    constructor
    · rintro ⟨e', h1, h2, h3, h4, h5⟩
      rw [h] at h1; cases h1
      cases h4 with
      | var v' _ _ _ hi => exact ⟨h2, hi, h3, h5⟩
    · rintro ⟨h2, h3, h4, h5⟩
      refine ⟨e, h, h2, h4, .var v hk ?_ hf h3, h5⟩
      simp only [List.mem_cons, List.not_mem_nil, or_false] at hv
      rcases hv with rfl | rfl | rfl <;> simp [VarLike]

/-! ### Examples -/

def here : Option Loc := some ⟨.normal, true, false⟩

def someTable : List Entry :=
  [{ kind := .function, declared := here },
   { kind := .var .param, declared := here },
   { kind := .var .retParam, declared := here },
   { kind := .tag, declared := here, fields := [1, 2] },
   { kind := .datatype, used := true, declared := here, fields := [1, 2, 3] },
   { kind := .datatype, declared := here, fields := [4] },
   { kind := .function, declared := some ⟨.stdLib, true, false⟩ },
   { kind := .var .normal, used := true, declared := here }]

example : (allUsed everything someTable [2]).1 =
    [.entry 0 .funcUnused, .entry 1 .paramUnused, .entry 2 .varUnused, .field 3 1, .field 4 3, .entry 5 .typeUnused] := by
  decide

example : ((allUsed everything someTable [2]).2.1.map (·.used)) =
    [true, true, true, true, true, true, false, true] := by decide

example : Looked everything { kind := .tag, declared := here, hasName := false, fields := [7] } :=
  ⟨(skipped_iff _ _).1 rfl, Or.inl rfl⟩

example : (allUsed everything unnamedFirst []).1 = [] := by decide

example : [Qual.sef, .returned].foldl reflect .param = .retParam := rfl

example : Mine everything { kind := .var .retParam, declared := here } := (skipped_iff _ _).1 rfl

end Unused
end Splint
