import Verif.Spec.Redecl
import Verif.Tactics
/-!
# C120: declarations that contradict each other are reported, and what they say together is in effect
-/
namespace Splint.Redecl
open Spec

/-- entries of variables and functions: the old entry is kept -/
def oldSide {S D : Type} (f : S → D → List Msg × S × S) : S → D → List Msg × S := fun s d => ((f s d).1, (f s d).2.1)
/-- entries of parameters: the new entry is kept -/
def newSide {S D : Type} (f : S → D → List Msg × S × S) : S → D → List Msg × S := fun s d => ((f s d).1, (f s d).2.2)

/-- a run in which nothing is said -/
theorem run_silent {S D : Type} {step : S → D → List Msg × S} {ok : S → D → Prop} {inv : S → Prop}
    (hok : ∀ s d, inv s → ((step s d).1 = [] ↔ ok s d)) (hinv : ∀ s d, inv s → ok s d → inv (step s d).2)
    (hst : ∀ s d e, inv s → ok s d → (ok (step s d).2 e ↔ ok s e)) :
    ∀ (ds : List D) (s : S), inv s → ((run step s ds).1 = [] ↔ ∀ d ∈ ds, ok s d) := by
  intro ds
  induction ds with
  | nil => simp [run]
  | cons d ds ih =>
    intro s hs
    rw [run]
    simp only [List.append_eq_nil_iff, List.mem_cons, forall_eq_or_imp]
    rw [hok s d hs]
    constructor
    · rintro ⟨h1, h2⟩
      exact ⟨h1, fun e he => (hst s d e hs h1).1 ((ih _ (hinv s d hs h1)).1 h2 e he)⟩
    · rintro ⟨h1, h2⟩
      exact ⟨h1, (ih _ (hinv s d hs h1)).2 fun e he => (hst s d e hs h1).2 (h2 e he)⟩

theorem run_result {S : Type} {step : S → S → List Msg × S} {p : S → Bool} {q : S → Prop}
    (h : ∀ s d, q s → q d → (step s d).2 = if p d then d else s) :
    ∀ (ds : List S) (s : S), q s → (∀ d ∈ ds, q d) → (run step s ds).2 = lastOr p s ds := by
  intro ds
  induction ds with
  | nil => intro s _ _; rfl
  | cons d ds ih =>
    intro s hs hds
    rw [run, lastOr]
    have hd := hds d (by simp)
    simp only
    rw [h s d hs hd]
    exact ih _ (by split_ifs <;> assumption) fun e he => hds e (by simp [he])

theorem alias_skip {a : AlKind} (env : Env) (fn : Bool) (old : AlKind) (h : ¬ AliasExplicit a) :
    (aliasStep env fn false old a).1 = [] ∧ (aliasStep env fn false old a).2.1 = old
    ∧ ((aliasStep env fn false old a).2.2 = if a = .unknown ∨ a = .error then a else old) := by
  revert h
  cases a <;> simp [aliasStep, AliasExplicit, AlKind.isImplicit, AlKind.equal]

theorem alias_explicit {a : AlKind} (env : Env) (fn : Bool) (old : AlKind) (h : AliasExplicit a) :
    aliasStep env fn false old a
      = if old.equal a then ([], old, a)
        else if old ≠ .unknown then
          if env.must then ([.alias_], if env.shown .alias_ then .error else a, a) else ([], a, a)
        else (if env.must ∧ fn = false then [.aliasImplicit] else [], a, a) := by
  obtain ⟨h1, h2, h3, h4, h5, h6⟩ := h
  have : a.isImplicit = false := by simp [AlKind.isImplicit, h3, h4, h5]
  simp [aliasStep, this, h6, h1]

theorem equal_explicit {s a : AlKind} (hs : s ≠ .error) (h : AliasExplicit a) : s.equal a = true ↔ AliasSame s a := by
  revert hs h
  cases s <;> cases a <;> decide

theorem same_trans {s d e : AlKind} (hd : AliasExplicit d) (he : AliasExplicit e) (h : AliasSame s d) :
    AliasSame d e ↔ AliasSame s e := by
  have hde : AliasSame d e ↔ d = e := by
    obtain ⟨h1, h2, h3, h4, h5, h6⟩ := hd
    unfold AliasSame; tauto
  rw [hde]
  constructor
  · rintro rfl; exact h
  · intro h'
    obtain ⟨-, -, h3, h4, h5, -⟩ := hd
    obtain ⟨-, -, k3, k4, k5, -⟩ := he
    rcases h with rfl | ⟨rfl, rfl⟩ | ⟨rfl, rfl⟩ | ⟨rfl, rfl⟩ <;>
      rcases h' with h' | ⟨h', rfl⟩ | ⟨h', rfl⟩ | ⟨h', rfl⟩ <;> first | rfl | (subst h'; tauto) | (cases h') | skip

end Splint.Redecl

namespace Splint
open Redecl Redecl.Spec

/-! ## Null -/

/-- With null and notnull only, nothing is reported exactly if each declaration says nothing or the same as the first;
for a variable, a function and a parameter. -/
theorem C120_null_silent_exactly (env : Redecl.Env) (fn : Bool) (hm : env.must = true) (s : NState) (ds : List NState)
    (hs : NullPlain s) (hds : ∀ d ∈ ds, NullPlain d) :
    ((run (oldSide (nullStep env fn false)) s ds).1 = [] ↔ ∀ d ∈ ds, d = .unknown ∨ d = s)
    ∧ ((run (newSide (nullStep env fn false)) s ds).1 = [] ↔ ∀ d ∈ ds, d = .unknown ∨ d = s) := by
  induction ds generalizing s with
  | nil => simp [run]
  | cons d ds ih =>
    have hd := hds d (by simp)
    have hds' := fun e he => hds e (List.mem_cons_of_mem _ he)
    simp only [run, List.append_eq_nil_iff, List.mem_cons, forall_eq_or_imp]
    unfold NullPlain at hs hd
    rcases hs with rfl | rfl | rfl <;> rcases hd with rfl | rfl | rfl <;>
      simp only [oldSide, newSide, nullStep, hm] <;> simp
    all_goals try exact ih _ (by unfold NullPlain; simp) hds'
    have := ih .unknown (by unfold NullPlain; simp) hds'
    simpa using this

/-- The last declaration that says something counts. -/
theorem C120_null_result (env : Redecl.Env) (fn : Bool) (s : NState) (ds : List NState)
    (hs : NullPlain s) (hds : ∀ d ∈ ds, NullPlain d) :
    (run (oldSide (nullStep env fn false)) s ds).2 = lastOr (· ≠ .unknown) s ds
    ∧ (run (newSide (nullStep env fn false)) s ds).2 = lastOr (· ≠ .unknown) s ds := by
  constructor
  · refine run_result (q := NullPlain) ?_ ds s hs hds
    rintro s d (rfl | rfl | rfl) (rfl | rfl | rfl) <;> simp [oldSide, nullStep]
  · refine run_result (q := NullPlain) ?_ ds s hs hds
    rintro s d (rfl | rfl | rfl) (rfl | rfl | rfl) <;> simp [newSide, nullStep]

example (env : Redecl.Env) (h : env.must = true) :
    run (oldSide (nullStep env false false)) .unknown [.posNull, .unknown, .mNotNull] = ([.posNull, .notNull], .mNotNull) := by
  simp [run, oldSide, nullStep, h]

/-- relnull in a declaration that is not the first is never reported and never has an effect, whatever was said before. -/
theorem C120_relnull_ignored (env : Redecl.Env) (fn ua : Bool) (old : NState) (h : old ≠ .absNull) :
    (nullStep env fn ua old .relNull).1 = [] ∧ (nullStep env fn ua old .relNull).2.1 = old := by
  simp [nullStep, h]

/-- and null after relnull is not reported. -/
theorem C120_null_after_relnull (env : Redecl.Env) (fn ua : Bool) :
    nullStep env fn ua .relNull .posNull = ([], .posNull, .posNull) := by
  simp [nullStep]

/-! ## Definition -/

/-- Nothing is reported exactly if each declaration says nothing, `in`, or the same as the first. -/
theorem C120_def_silent_exactly (env : Redecl.Env) (hm : env.must = true) (s : SState) (ds : List SState) :
    (run (oldSide (defStep env)) s ds).1 = [] ↔ ∀ d ∈ ds, d = .unknown ∨ d = .defined ∨ d = s := by
  refine run_silent (ok := fun s d => d = .unknown ∨ d = .defined ∨ d = s) (inv := fun _ => True) ?_ (fun _ _ _ _ => trivial) ?_ ds s
    trivial
  · intro s d _
    simp only [oldSide, defStep, hm]
    split_ifs with h
    · simp; tauto
    · simp; tauto
  · intro s d e _ h
    simp only [oldSide, defStep]
    split_ifs with h'
    · tauto
    · rfl

/-- The last one that says something but `in` counts; the entries of parameters are the same. -/
theorem C120_def_result (env : Redecl.Env) (s : SState) (ds : List SState) :
    (run (oldSide (defStep env)) s ds).2 = lastOr (fun d => d ≠ .unknown ∧ d ≠ .defined) s ds
    ∧ run (newSide (defStep env)) s ds = run (oldSide (defStep env)) s ds := by
  constructor
  · refine run_result (q := fun _ => True) ?_ ds s trivial (fun _ _ => trivial)
    intro s d _ _
    simp only [oldSide, defStep, decide_eq_true_eq]
    by_cases h1 : d ≠ s ∧ d ≠ .unknown ∧ d ≠ .defined
    · rw [if_pos h1, if_pos h1.2]
    · rw [if_neg h1]
      by_cases h2 : d ≠ .unknown ∧ d ≠ .defined
      · rw [if_pos h2]
        by_contra h
        exact h1 ⟨fun h' => h h'.symm, h2⟩
      · rw [if_neg h2]
  · have : (newSide (defStep env)) = oldSide (defStep env) := by
      funext s d
      simp only [oldSide, newSide, defStep]
      split_ifs <;> rfl
    rw [this]

/-- `out` and then `in` is not reported, and the parameter stays `out`; `in` and then `out` is reported. -/
example (env : Redecl.Env) (h : env.must = true) : defStep env .allocated .defined = ([], .allocated, .allocated)
    ∧ defStep env .defined .allocated = ([.defState], .allocated, .allocated) := by
  simp [defStep, h]

/-! ## Exposure -/

theorem C120_exposure_silent_exactly (env : Redecl.Env) (hm : env.must = true) (s : ExKind) (ds : List ExKind) :
    (run (oldSide (expStep env)) s ds).1 = [] ↔ ∀ d ∈ ds, d = .unknown ∨ d = .normal ∨ d = s := by
  refine run_silent (ok := fun s d => d = .unknown ∨ d = .normal ∨ d = s) (inv := fun _ => True) ?_ (fun _ _ _ _ => trivial) ?_ ds s
    trivial
  · intro s d _
    cases s <;> cases d <;> simp [oldSide, expStep, exKnown, hm]
  · intro s d e _
    cases s <;> cases d <;> simp [oldSide, expStep, exKnown]

theorem C120_exposure_result (env : Redecl.Env) (s : ExKind) (ds : List ExKind) :
    (run (oldSide (expStep env)) s ds).2 = lastOr (fun d => d = .exposed ∨ d = .observer) s ds
    ∧ (run (newSide (expStep env)) s ds).2 = lastOr (fun d => d = .exposed ∨ d = .observer) s ds := by
  constructor
  · refine run_result (q := fun _ => True) ?_ ds s trivial (fun _ _ => trivial)
    intro s d _ _
    cases s <;> cases d <;> simp [oldSide, expStep, exKnown]
  · refine run_result (q := fun _ => True) ?_ ds s trivial (fun _ _ => trivial)
    intro s d _ _
    cases s <;> cases d <;> simp [newSide, expStep, exKnown]

/-! ## Ownership -/

/-- For variables, and for functions whose first declaration says something, nothing is reported exactly if each
declaration says nothing or the same as the first. -/
theorem C120_alias_silent_exactly (env : Redecl.Env) (fn : Bool) (hm : env.must = true) (s : AlKind) (ds : List AlKind)
    (hs : s ≠ .error) (hf : fn = false ∨ s ≠ .unknown) :
    (run (oldSide (aliasStep env fn false)) s ds).1 = [] ↔ ∀ d ∈ ds, AliasExplicit d → AliasSame s d := by
  have key : ∀ s d, s ≠ .error ∧ (fn = false ∨ s ≠ .unknown) →
      ((oldSide (aliasStep env fn false) s d).1 = [] ↔ (AliasExplicit d → AliasSame s d))
      ∧ ((AliasExplicit d → AliasSame s d) → (oldSide (aliasStep env fn false) s d).2 = s) := by
    rintro s d ⟨h1, h2⟩
    simp only [oldSide]
    by_cases hd : AliasExplicit d
    · rw [alias_explicit env fn s hd]
      by_cases he : s.equal d = true
      · have := (equal_explicit h1 hd).1 he
        rw [if_pos he]
        tauto
      · have := mt (equal_explicit h1 hd).2 he
        rw [if_neg he]
        refine ⟨?_, fun h => absurd (h hd) this⟩
        by_cases hu : s = .unknown
        · simp [hu, hm, show fn = false by tauto]
          rw [hu] at this
          tauto
        · simp [hu, hm]
          tauto
    · obtain ⟨h3, h4, -⟩ := alias_skip env fn s hd
      rw [h3, h4]
      tauto
  refine run_silent (ok := fun s d => AliasExplicit d → AliasSame s d) (inv := fun s => s ≠ .error ∧ (fn = false ∨ s ≠ .unknown))
    (fun s d h => (key s d h).1) ?_ ?_ ds s ⟨hs, hf⟩
  · intro s d h h'
    rw [(key s d h).2 h']
    exact h
  · intro s d e h h'
    rw [(key s d h).2 h']

/-- If the first declaration of a function says nothing, a later one may say something, and the others must agree. -/
theorem C120_alias_function (env : Redecl.Env) (a : AlKind) (before ds : List AlKind) (hm : env.must = true)
    (ha : AliasExplicit a) (hb : ∀ d ∈ before, ¬ AliasExplicit d ∧ d ≠ .error) :
    (run (oldSide (aliasStep env true false)) .unknown (before ++ a :: ds)).1 = [] ↔ ∀ d ∈ ds, AliasExplicit d → AliasSame a d := by
  induction before with
  | nil =>
    simp only [List.nil_append, run]
    have : oldSide (aliasStep env true false) .unknown a = ([], a) := by
      revert ha
      cases a <;> simp [oldSide, aliasStep, AliasExplicit, AlKind.isImplicit, AlKind.equal]
    rw [this]
    simp only [List.nil_append]
    exact C120_alias_silent_exactly env true hm a ds ha.2.1 (Or.inr ha.1)
  | cons d before ih =>
    have hd := hb d (by simp)
    simp only [List.cons_append, run]
    have : oldSide (aliasStep env true false) .unknown d = ([], .unknown) := by
      revert hd
      cases d <;> simp [oldSide, aliasStep, AliasExplicit, AlKind.isImplicit]
    rw [this]
    simp only [List.nil_append]
    exact ih fun e he => hb e (by simp [he])

/-- Nothing at all is known after a contradiction, and no other contradiction is reported. -/
theorem C120_alias_after_error (env : Redecl.Env) (fn : Bool) (ds : List AlKind) :
    run (oldSide (aliasStep env fn false)) .error ds = ([], .error) := by
  induction ds with
  | nil => rfl
  | cons d ds ih =>
    have : oldSide (aliasStep env fn false) .error d = ([], .error) := by
      cases d <;> simp [oldSide, aliasStep, AlKind.isImplicit, AlKind.equal]
    rw [run, this]
    simp [ih]

/-- Of a parameter that is declared without ownership, the ownership in earlier declarations is forgotten, silently. -/
theorem C120_alias_lost (env : Redecl.Env) (old : AlKind) : newSide (aliasStep env false false) old .unknown = ([], .unknown) := by
  simp [newSide, aliasStep, AlKind.isImplicit]

/-- That does not happen if what is not written is implied (`paramimptemp`): then as for variables. -/
theorem C120_alias_param_partial (env : Redecl.Env) (hm : env.must = true) (s : AlKind) (ds : List AlKind)
    (hs : s ≠ .error ∧ s ≠ .unknown) (hds : ∀ d ∈ ds, d ≠ .unknown ∧ d ≠ .error) :
    (run (newSide (aliasStep env false false)) s ds).1 = [] ↔ ∀ d ∈ ds, AliasExplicit d → AliasSame s d := by
  induction ds generalizing s with
  | nil => simp [run]
  | cons d ds ih =>
    have hd := hds d (by simp)
    have hds' := fun e he => hds e (List.mem_cons_of_mem _ he)
    simp only [run, List.append_eq_nil_iff, List.mem_cons, forall_eq_or_imp]
    simp only [newSide]
    by_cases hx : AliasExplicit d
    · have he := equal_explicit hs.1 hx
      rw [alias_explicit env false s hx]
      by_cases hq : s.equal d = true
      · rw [if_pos hq]
        have hsame := he.1 hq
        have := ih d ⟨hd.2, hd.1⟩ hds'
        simp only [true_and, this]
        constructor
        · intro h
          exact ⟨fun _ => hsame, fun e he' hx' => (same_trans hx hx' hsame).1 (h e he' hx')⟩
        · rintro ⟨-, h⟩ e he' hx'
          exact (same_trans hx hx' hsame).2 (h e he' hx')
      · rw [if_neg hq, if_pos hs.2, if_pos hm]
        simp
        intro h
        exact absurd (he.2 (h hx)) hq
    · obtain ⟨h3, -, h5⟩ := alias_skip env false s hx
      rw [h3, h5, if_neg (by tauto)]
      have := ih s hs hds'
      rw [this]
      tauto

example (env : Redecl.Env) (h : env.must = true) (hs : env.shown = fun _ => true) :
    run (oldSide (aliasStep env false false)) .only [.unknown, .keep, .only, .shared] = ([.alias_], .error)
    ∧ run (newSide (aliasStep env false false)) .only [.unknown, .keep] = ([.aliasImplicit], .keep)
    ∧ run (newSide (aliasStep env false false)) .only [.impTemp, .keep] = ([.alias_], .keep) := by
  simp [run, oldSide, newSide, aliasStep, AlKind.isImplicit, AlKind.equal, h, hs]

/-! ## Together -/

/-- Declarations that contradict each other are reported. -/
def C120_full : Prop :=
  ∀ (env : Redecl.Env) (fn : Bool) (a b : Ann), env.must = true → Contradict a b → (annStep env fn false a b).1 ≠ []

theorem C120_full_is_false : ¬ C120_full := by
  intro h
  refine h ⟨true, fun _ => true⟩ false ⟨.unknown, .allocated, .unknown, .unknown⟩ ⟨.unknown, .defined, .unknown, .unknown⟩
    rfl ?_ (by decide)
  exact Or.inr (Or.inl ⟨by decide, by decide, by decide⟩)

/-- Contradictions are not reported exactly if there are only these: `in` after something else, relnull in either. -/
theorem C120_contradictions_exactly (env : Redecl.Env) (fn : Bool) (a b : Ann) (hm : env.must = true)
    (hc : Contradict a b) :
    (annStep env fn false a b).1 = [] ↔
      (b.defn = .unknown ∨ b.defn = .defined ∨ b.defn = a.defn)
      ∧ (a.null = .absNull ∨ (b.null ≠ .posNull ∧ b.null ≠ .mNotNull) ∨ b.null = a.null
          ∨ (b.null = .posNull ∧ a.null ∈ [.relNull, .constNull, .defNull, .error]))
      ∧ (AliasExplicit b.alias_ → a.alias_ = .error ∨ AliasSame a.alias_ b.alias_ ∨ (a.alias_ = .unknown ∧ fn = true))
      ∧ (b.exp = .unknown ∨ b.exp = .normal ∨ b.exp = a.exp) := by
  clear hc
  obtain ⟨an, ad, aa, ae⟩ := a
  obtain ⟨bn, bd, ba, be⟩ := b
  simp only [annStep, List.append_eq_nil_iff]
  have h1 : (defStep env ad bd).1 = [] ↔ (bd = .unknown ∨ bd = .defined ∨ bd = ad) := by
    simp only [defStep, hm]
    split_ifs with h
    · simp; tauto
    · simp; tauto
  have h2 : (nullStep env fn false an bn).1 = [] ↔ (an = .absNull ∨ (bn ≠ .posNull ∧ bn ≠ .mNotNull) ∨ bn = an
      ∨ (bn = .posNull ∧ an ∈ [.relNull, .constNull, .defNull, .error])) := by
    cases an <;> cases bn <;> simp [nullStep, hm]
  have h3 : (aliasStep env fn false aa ba).1 = [] ↔
      (AliasExplicit ba → aa = .error ∨ AliasSame aa ba ∨ (aa = .unknown ∧ fn = true)) := by
    by_cases hx : AliasExplicit ba
    · rw [alias_explicit env fn aa hx]
      by_cases he : aa = .error
      · subst he
        have : AlKind.error.equal ba = true := by cases ba <;> rfl
        simp [this]
      · by_cases hq : aa.equal ba = true
        · rw [if_pos hq]
          have := (equal_explicit he hx).1 hq
          simp [this]
        · have hns := mt (equal_explicit he hx).2 hq
          rw [if_neg hq]
          by_cases hu : aa = .unknown
          · subst hu
            cases fn <;> simp [hm, hx, hns]
          · simp [hu, hm, hx, hns, he]
    · have := (alias_skip env fn aa hx).1
      simp [this, hx]
  have h4 : (expStep env ae be).1 = [] ↔ (be = .unknown ∨ be = .normal ∨ be = ae) := by
    cases ae <;> cases be <;> simp [expStep, exKnown, hm]
  rw [h1, h2, h3, h4, and_assoc, and_assoc]

/-- A declaration that repeats what is known is not reported, nor is one that says nothing. -/
theorem C120_repeat (env : Redecl.Env) (fn ua : Bool) (a : Ann) :
    (annStep env fn ua a a).1 = [] ∧ (annStep env fn ua a ⟨.unknown, .unknown, .unknown, .unknown⟩).1 = [] := by
  obtain ⟨an, ad, aa, ae⟩ := a
  simp only [annStep, List.append_eq_nil_iff]
  refine ⟨⟨⟨⟨?_, ?_⟩, ?_⟩, ?_⟩, ⟨⟨?_, ?_⟩, ?_⟩, ?_⟩
  · simp [defStep]
  · cases an <;> cases ua <;> simp [nullStep]
  · cases aa <;> simp [aliasStep, AlKind.isImplicit, AlKind.equal]
  · cases ae <;> simp [expStep, exKnown]
  · simp [defStep]
  · cases an <;> simp [nullStep]
  · simp [aliasStep, AlKind.isImplicit]
  · simp [expStep, exKnown]

/-! ## Kinds of parameters -/

/-- returned is reported if it was not said before. -/
theorem C120_returned (env : Redecl.Env) (old new : VKind) :
    .returned ∈ (kindStep env old new).1 ↔ isRet new = true ∧ isRet old = false := by
  simp only [kindStep, retStep, sefStep]
  split_ifs <;> simp_all

/-- If the message is suppressed, it is not recorded that the parameter is returned. -/
theorem C120_returned_lost (env : Redecl.Env) (old : VKind) (h : env.shown .returned = false) (ho : old ≠ .spec)
    (hr : isRet old = false) : (kindStep env old .retParam).2 = old := by
  cases old <;> simp_all [kindStep, retStep, sefStep, isRet, isSef]

/-- If a parameter that is returned is declared again as sef, it is not returned any more. -/
theorem C120_sef_drops_returned (env : Redecl.Env) (h : env.shown .sef = true) :
    kindStep env .retParam .sefParam = ([.sef], .sefParam) := by
  simp [kindStep, retStep, sefStep, isRet, isSef, h]

/-- What is said of a parameter is in effect afterwards. -/
def C120_kind_full : Prop :=
  ∀ (env : Redecl.Env) (old new : VKind), old ≠ .spec → new ≠ .spec →
    isRet (kindStep env old new).2 = (isRet old || isRet new) ∧ isSef (kindStep env old new).2 = (isSef old || isSef new)

theorem C120_kind_full_is_false : ¬ C120_kind_full := by
  intro h
  have := (h ⟨true, fun _ => true⟩ .retParam .sefParam (by decide) (by decide)).1
  revert this
  decide

/-- It is, if messages are not suppressed, and unless one says returned and the other says sef, but neither both. -/
theorem C120_kind_partial (env : Redecl.Env) (h : ∀ m, env.shown m = true) (old new : VKind) (ho : old ≠ .spec)
    (hn : new ≠ .spec) :
    (isRet (kindStep env old new).2 = (isRet old || isRet new) ∧ isSef (kindStep env old new).2 = (isSef old || isSef new))
      ↔ ¬ (old = .retParam ∧ new = .sefParam) ∧ ¬ (old = .sefParam ∧ new = .retParam) := by
  cases old <;> cases new <;> simp_all [kindStep, retStep, sefStep, isRet, isSef]

/-- Whether uses of a parameter are checked: what a later declaration says is in effect, and is reported if it is not what
was said before; but if nothing was said before, only if that was in a file of the user. -/
theorem C120_checked (userFile : Bool) (old new : Checked) :
    checkedStep userFile old new
      = (if new ≠ .unknown ∧ new ≠ old ∧ (old ≠ .unknown ∨ userFile = true) then [.checked] else [],
        if new = .unknown then old else new) := by
  cases userFile <;> cases old <;> cases new <;> decide

example : (checkedStep false .unknown .checked).1 = [] ∧ (checkedStep true .unknown .checked).1 = [.checked] := by decide

/-! ## Functions -/

/-- the messages about one thing that is declared -/
def Redecl.plainMsg : Msg → Bool
  | .posNull | .notNull | .defState | .alias_ | .aliasImplicit | .exposure | .returned | .sef | .checked => true
  | _ => false

theorem Redecl.annStep_plain (env : Redecl.Env) (fn ua : Bool) (a b : Ann) : ∀ m ∈ (annStep env fn ua a b).1, plainMsg m = true := by
  have h1 : ∀ m ∈ (defStep env a.defn b.defn).1, plainMsg m = true := by
    unfold defStep; split_ifs <;> simp [plainMsg]
  have h2 : ∀ m ∈ (nullStep env fn ua a.null b.null).1, plainMsg m = true := by
    unfold nullStep; repeat' split
    all_goals simp [plainMsg]
  have h3 : ∀ m ∈ (aliasStep env fn false a.alias_ b.alias_).1, plainMsg m = true := by
    unfold aliasStep; repeat' split
    all_goals simp [plainMsg]
  have h4 : ∀ m ∈ (expStep env a.exp b.exp).1, plainMsg m = true := by
    unfold expStep; repeat' split
    all_goals simp [plainMsg]
  intro m hm
  simp only [annStep, List.mem_append] at hm
  rcases hm with ((h | h) | h) | h
  exacts [h1 m h, h2 m h, h3 m h, h4 m h]

theorem Redecl.varStep_plain {T : Type} (env : Redecl.Env) (o n : Param T) : ∀ m ∈ (varStep env o n).1, plainMsg m = true := by
  have h1 : ∀ m ∈ (kindStep env o.kind n.kind).1, plainMsg m = true := by
    simp only [kindStep, retStep, sefStep]
    split_ifs <;> simp [plainMsg]
  have h2 : ∀ m ∈ (checkedStep o.userFile o.checked n.checked).1, plainMsg m = true := by
    unfold checkedStep; repeat' split
    all_goals simp [plainMsg]
  intro m hm
  simp only [varStep, List.mem_append] at hm
  rcases hm with (h | h) | h
  exacts [h1 m h, h2 m h, annStep_plain _ _ _ _ _ m h]

theorem Redecl.nameMsgs_mem (names : Option (Option Redecl.Text)) (i : Nat) (a b : Option Redecl.Text) :
    ∀ m ∈ nameMsgs names i a b, m = .paramName i := by
  unfold nameMsgs
  repeat' split
  all_goals simp

theorem Redecl.mem_paramsStep {T : Type} (env : Redecl.Env) (ty : Tys T) (names : Option (Option Redecl.Text)) :
    ∀ (os ns : List (Param T)) (i : Nat),
      (.exit ∉ (paramsStep env ty names i os ns).1 ∧ .nargs ∉ (paramsStep env ty names i os ns).1)
      ∧ (∀ k, .paramType k ∈ (paramsStep env ty names i os ns).1 ↔
          ∃ j o n, k = i + j ∧ os[j]? = some o ∧ ns[j]? = some n ∧ ty.same o.typ n.typ = false) := by
  intro os
  induction os with
  | nil => intro ns i; simp [paramsStep]
  | cons o os ih =>
    intro ns i
    cases ns with
    | nil => simp [paramsStep]
    | cons n ns =>
      obtain ⟨⟨i1, i2⟩, i3⟩ := ih ns (i + 1)
      have hv : ∀ m ∈ (if ty.elips o.typ || ty.elips n.typ then ([], o, n) else varStep env o n).1, plainMsg m = true := by
        split
        · simp
        · exact varStep_plain env o n
      simp only [paramsStep, List.mem_append]
      generalize (if ty.elips o.typ || ty.elips n.typ then ([], o, n) else varStep env o n) = v at *
      have hn := nameMsgs_mem names i v.2.1.name v.2.2.name
      have ht : ∀ m ∈ (if ty.same o.typ n.typ then [] else [Msg.paramType i]), m = .paramType i := by split <;> simp
      refine ⟨⟨?_, ?_⟩, ?_⟩
      · rintro (((h | h) | h) | h)
        · exact absurd (hv _ h) (by simp [plainMsg])
        · cases hn _ h
        · cases ht _ h
        · exact i1 h
      · rintro (((h | h) | h) | h)
        · exact absurd (hv _ h) (by simp [plainMsg])
        · cases hn _ h
        · cases ht _ h
        · exact i2 h
      · intro k
        constructor
        · rintro (((h | h) | h) | h)
          · exact absurd (hv _ h) (by simp [plainMsg])
          · cases hn _ h
          · have := ht _ h
            simp only [Msg.paramType.injEq] at this
            refine ⟨0, o, n, by simpa using this, rfl, rfl, ?_⟩
            by_contra hc
            simp [show ty.same o.typ n.typ = true by simpa using hc] at h
          · obtain ⟨j, o', n', hk, hj⟩ := (i3 k).1 h
            exact ⟨j + 1, o', n', by omega, by simpa using hj⟩
        · rintro ⟨j, o', n', hk, h1, h2, h3⟩
          cases j with
          | zero =>
            simp only [List.getElem?_cons_zero, Option.some.injEq] at h1 h2
            subst h1; subst h2
            left; right
            simp [h3, hk]
          | succ j =>
            right
            exact (i3 k).2 ⟨j, o', n', by omega, by simpa using h1, by simpa using h2, h3⟩

theorem Redecl.fcnStep_counts {T : Type} (env : Redecl.Env) (ty : Tys T) (names : Option (Option Redecl.Text)) (f d : Fcn T) :
    (fcnStep env ty names f d).1.count .exit = (if d.exit ≠ .unknown ∧ d.exit ≠ f.exit then 1 else 0)
    ∧ (fcnStep env ty names f d).2.exit = f.exit ∧ (fcnStep env ty names f d).2.nullPred = f.nullPred
    ∧ (fcnStep env ty names f d).2.special = f.special := by
  have ha : (annStep env true d.ua f.ann d.ann).1.count .exit = 0 := by
    rw [List.count_eq_zero]
    intro h
    exact absurd (annStep_plain _ _ _ _ _ _ h) (by simp [plainMsg])
  have hr : ∀ b : Bool, (if b then [Msg.retType] else []).count .exit = 0 := by intro b; cases b <;> simp
  have he : (keepStep .exit .unknown f.exit d.exit).count .exit = if d.exit ≠ .unknown ∧ d.exit ≠ f.exit then 1 else 0 := by
    unfold keepStep; split <;> simp
  have hn : (keepStep .nullPred none f.nullPred d.nullPred).count .exit = 0 := by
    unfold keepStep; split <;> simp
  have hs : (keepStep .specialCode none f.special d.special).count .exit = 0 := by
    unfold keepStep; split <;> simp
  unfold fcnStep
  rcases hf : f.params with _ | os <;> rcases hd : d.params with _ | ns
  · simp only [List.count_append, hr, ha, he, hn, hs]
    simp
  · simp only [List.count_append, hr, ha, he, hn, hs]
    simp
  · simp only [List.count_append, hr, ha, he, hn, hs]
    simp
  · have hp := List.count_eq_zero.2 (mem_paramsStep env ty names os ns 0).1.1
    have hl : (if os.length ≠ ns.length then [Msg.nargs] else []).count .exit = 0 := by split <;> simp
    simp only [List.count_append, hr, ha, he, hn, hs, hp, hl]
    simp

/-- What a later declaration says about exits, null predicates and formats is reported each time it is said, and never
gets known. -/
theorem C120_never_recorded {T : Type} (env : Redecl.Env) (ty : Tys T) (names : Option (Option Redecl.Text)) (f : Fcn T)
    (ds : List (Fcn T)) :
    let r := run (fcnStep env ty names) f ds
    r.2.exit = f.exit ∧ r.2.nullPred = f.nullPred ∧ r.2.special = f.special
    ∧ r.1.count .exit = ds.countP fun d => d.exit ≠ .unknown ∧ d.exit ≠ f.exit := by
  induction ds generalizing f with
  | nil => simp [run]
  | cons d ds ih =>
    obtain ⟨h1, h2, h3, h4⟩ := fcnStep_counts env ty names f d
    obtain ⟨i1, i2, i3, i4⟩ := ih (fcnStep env ty names f d).2
    simp only [run]
    refine ⟨i1.trans h2, i2.trans h3, i3.trans h4, ?_⟩
    rw [List.count_append, i4, h1, h2, List.countP_cons]
    simp only [decide_eq_true_eq]
    omega

/-- The number of parameters and their types are compared with those in the last declaration that has them. -/
theorem C120_prototype {T : Type} (env : Redecl.Env) (ty : Tys T) (names : Option (Option Redecl.Text)) (f : Fcn T) (d : Fcn T) :
    (.nargs ∈ (fcnStep env ty names f d).1 ↔ ∃ os ns, f.params = some os ∧ d.params = some ns ∧ os.length ≠ ns.length)
    ∧ ∀ i, .paramType i ∈ (fcnStep env ty names f d).1 ↔ ∃ os ns o n, f.params = some os ∧ d.params = some ns
        ∧ os[i]? = some o ∧ ns[i]? = some n ∧ ty.same o.typ n.typ = false := by
  have ha : ∀ m, plainMsg m = false → m ∉ (annStep env true d.ua f.ann d.ann).1 := by
    intro m hm h
    have := annStep_plain _ _ _ _ _ _ h
    simp [hm] at this
  have hr : ∀ (b : Bool) m, m ∈ (if b then [Msg.retType] else []) → m = .retType := by intro b m; cases b <;> simp
  have hk : ∀ {A : Type} [DecidableEq A] (m' : Msg) (x y z : A) m, m ∈ keepStep m' x y z → m = m' := by
    intro A _ m' x y z m; unfold keepStep; split <;> simp
  have hrest : ∀ (b : Bool) m, plainMsg m = false → m ≠ .retType → m ≠ .exit → m ≠ .nullPred → m ≠ .specialCode →
      ¬ m ∈ (if b then [Msg.retType] else []) ++ (annStep env true d.ua f.ann d.ann).1 ++ (keepStep .exit .unknown f.exit d.exit
        ++ keepStep .nullPred none f.nullPred d.nullPred ++ keepStep .specialCode none f.special d.special) := by
    intro b m h1 h2 h3 h4 h5 h
    simp only [List.mem_append] at h
    rcases h with (h | h) | (h | h) | h
    · exact h2 (hr _ _ h)
    · exact ha m h1 h
    · exact h3 (hk _ _ _ _ _ h)
    · exact h4 (hk _ _ _ _ _ h)
    · exact h5 (hk _ _ _ _ _ h)
  unfold fcnStep
  rcases hf : f.params with _ | os <;> rcases hd : d.params with _ | ns
  · exact ⟨⟨fun h => absurd h (hrest _ _ rfl (by simp) (by simp) (by simp) (by simp)), by simp⟩,
      fun i => ⟨fun h => absurd h (hrest _ _ rfl (by simp) (by simp) (by simp) (by simp)), by simp⟩⟩
  · exact ⟨⟨fun h => absurd h (hrest _ _ rfl (by simp) (by simp) (by simp) (by simp)), by simp⟩,
      fun i => ⟨fun h => absurd h (hrest _ _ rfl (by simp) (by simp) (by simp) (by simp)), by simp⟩⟩
  · exact ⟨⟨fun h => absurd h (hrest _ _ rfl (by simp) (by simp) (by simp) (by simp)), by simp⟩,
      fun i => ⟨fun h => absurd h (hrest _ _ rfl (by simp) (by simp) (by simp) (by simp)), by simp⟩⟩
  · obtain ⟨⟨-, p2⟩, p3⟩ := mem_paramsStep env ty names os ns 0
    constructor
    · rw [List.mem_append, List.mem_append]
      have := hrest (ty.known f.ret && ty.known d.ret && !ty.sameDef d.ret f.ret && env.must) .nargs rfl (by simp) (by simp) (by simp) (by simp)
      by_cases hl : os.length = ns.length
      · simp [hl, this, p2]
        simpa using this
      · simp [hl]
    · intro i
      rw [List.mem_append, List.mem_append, p3]
      have := hrest (ty.known f.ret && ty.known d.ret && !ty.sameDef d.ret f.ret && env.must) (.paramType i) rfl (by simp) (by simp) (by simp) (by simp)
      have hl : Msg.paramType i ∉ (if os.length ≠ ns.length then [Msg.nargs] else []) := by split <;> simp
      constructor
      · rintro ((h | h) | ⟨j, o, n, hk, h⟩)
        · exact absurd h this
        · exact absurd h hl
        · exact ⟨os, ns, o, n, rfl, rfl, by rw [show i = j by omega]; exact h⟩
      · rintro ⟨os', ns', o, n, h1, h2, h⟩
        simp only [Option.some.injEq] at h1 h2
        subst h1; subst h2
        exact Or.inr ⟨i, o, n, by omega, h⟩

/-- names and types of the parameters -/
def Redecl.shape {T : Type} (f : Fcn T) : Option (List (Option Redecl.Text × T)) := f.params.map (·.map fun p => (p.name, p.typ))

theorem Redecl.shape_paramsStep {T : Type} (env : Redecl.Env) (ty : Tys T) (names : Option (Option Redecl.Text)) :
    ∀ (os ns : List (Param T)) (i : Nat),
      (paramsStep env ty names i os ns).2.2.map (fun p => (p.name, p.typ)) = ns.map fun p => (p.name, p.typ) := by
  intro os
  induction os with
  | nil => intro ns i; simp [paramsStep]
  | cons o os ih =>
    intro ns i
    cases ns with
    | nil => simp [paramsStep]
    | cons n ns =>
      simp only [paramsStep, List.map_cons, ih]
      congr 1
      split
      · rfl
      · simp [varStep]

/-- The parameters that are known after some declarations are those of the last one with a prototype. -/
theorem C120_last_prototype {T : Type} (env : Redecl.Env) (ty : Tys T) (names : Option (Option Redecl.Text)) (f : Fcn T)
    (ds : List (Fcn T)) :
    shape (run (fcnStep env ty names) f ds).2 = lastOr Option.isSome (shape f) (ds.map shape) := by
  induction ds generalizing f with
  | nil => rfl
  | cons d ds ih =>
    simp only [run, List.map_cons, lastOr]
    rw [ih]
    congr 1
    unfold fcnStep shape
    rcases hf : f.params with _ | os <;> rcases hd : d.params with _ | ns <;> simp [hf]
    have := shape_paramsStep env ty names os ns 0
    rw [this]

/-- If matching of types were transitive (and symmetric), a type that does not match the first declaration would be
reported. -/
def C120_types_full : Prop :=
  ∀ (T : Type) (env : Redecl.Env) (ty : Tys T) (names : Option (Option Redecl.Text)) (f : Fcn T) (ds : List (Fcn T)),
    (∀ a, ty.same a a = true) → (∀ a b, ty.same a b = ty.same b a) →
    (∃ d ∈ ds, ∃ os ns o n, f.params = some os ∧ d.params = some ns ∧ os[0]? = some o ∧ ns[0]? = some n
        ∧ ty.same o.typ n.typ = false) →
    .paramType 0 ∈ (run (fcnStep env ty names) f ds).1

/-- The match is not transitive: `int`, `enum` and another `enum`, or pointers with a pointer to void between. -/
theorem C120_types_full_is_false : ¬ C120_types_full := by
  intro h
  let par (t : Nat) : Param Nat := ⟨none, t, .param, .unknown, ⟨.unknown, .unknown, .unknown, .unknown⟩, false, true⟩
  let fcn (t : Nat) : Fcn Nat := ⟨0, ⟨.unknown, .unknown, .unknown, .unknown⟩, false, .unknown, none, none, some [par t]⟩
  have := h Nat ⟨true, fun _ => true⟩ ⟨fun a b => a = b || a = 0 || b = 0, fun _ _ => true, fun _ => true, fun _ => false⟩ none
    (fcn 1) [fcn 0, fcn 2] (by intro a; simp) (by
      intro a b
      by_cases h1 : a = b <;> simp [h1, eq_comm, Bool.or_comm])
    ⟨fcn 2, by simp, [par 1], [par 2], par 1, par 2, rfl, rfl, rfl, rfl, by decide⟩
  revert this
  decide

/-- It is reported if they are. -/
theorem C120_types_partial {T : Type} (env : Redecl.Env) (ty : Tys T) (names : Option (Option Redecl.Text)) (i : Nat)
    (hsym : ∀ a b, ty.same a b = ty.same b a)
    (htr : ∀ a b c, ty.same a b = true → ty.same b c = true → ty.same a c = true) (ds : List (Fcn T)) (f : Fcn T)
    (hlen : ∀ d ∈ f :: ds, ∃ ns n, d.params = some ns ∧ ns[i]? = some n) :
    .paramType i ∉ (run (fcnStep env ty names) f ds).1 ↔
      ∀ d ∈ ds, ∀ os ns o n, f.params = some os → d.params = some ns → os[i]? = some o → ns[i]? = some n →
        ty.same o.typ n.typ = true := by
  induction ds generalizing f with
  | nil => simp [run]
  | cons d ds ih =>
    obtain ⟨os, o, hos, ho⟩ := hlen f (by simp)
    obtain ⟨ns, n, hns, hn⟩ := hlen d (by simp)
    have hst : shape (fcnStep env ty names f d).2 = shape d := by
      have := C120_last_prototype env ty names f [d]
      simp only [run, List.map_cons, List.map_nil, lastOr] at this
      rw [this, if_pos (by simp [shape, hns])]
    obtain ⟨ps, hps, hps'⟩ : ∃ ps, (fcnStep env ty names f d).2.params = some ps ∧
        ps.map (fun p => (p.name, p.typ)) = ns.map fun p => (p.name, p.typ) := by
      unfold shape at hst
      rw [hns] at hst
      rcases hx : (fcnStep env ty names f d).2.params with _ | ps
      · simp [hx] at hst
      · simp [hx] at hst
        exact ⟨ps, rfl, by simpa using hst⟩
    obtain ⟨q, hq, hqt⟩ : ∃ q, ps[i]? = some q ∧ q.typ = n.typ := by
      have := congrArg (fun l => l[i]?) hps'
      simp only [List.getElem?_map, hn, Option.map_some] at this
      rcases hx : ps[i]? with _ | q
      · simp [hx] at this
      · simp [hx] at this
        exact ⟨q, rfl, this.2⟩
    have ih' := ih (fcnStep env ty names f d).2 (by
      intro e he
      rcases List.mem_cons.1 he with rfl | he
      · exact ⟨ps, q, hps, hq⟩
      · exact hlen e (by simp [he]))
    simp only [run, List.mem_append, not_or]
    rw [ih', (C120_prototype env ty names f d).2 i]
    constructor
    · rintro ⟨h1, h2⟩ e he os' ns' o' n' e1 e2 e3 e4
      rw [hos] at e1; cases e1
      rw [ho] at e3; cases e3
      have hon : ty.same o.typ n.typ = true := by
        by_contra hc
        exact h1 ⟨os, ns, o, n, hos, hns, ho, hn, by simpa using hc⟩
      rcases List.mem_cons.1 he with rfl | he
      · rw [hns] at e2; cases e2
        rw [hn] at e4; cases e4
        exact hon
      · have := h2 e he ps ns' q n' hps e2 hq e4
        rw [hqt] at this
        exact htr _ _ _ hon this
    · intro h
      have hon := h d (by simp) os ns o n hos hns ho hn
      constructor
      · rintro ⟨os', ns', o', n', e1, e2, e3, e4, e5⟩
        rw [hos] at e1; cases e1
        rw [ho] at e3; cases e3
        rw [hns] at e2; cases e2
        rw [hn] at e4; cases e4
        rw [hon] at e5; cases e5
      · intro e he os' ns' o' n' e1 e2 e3 e4
        rw [hps] at e1; cases e1
        rw [hq] at e3; cases e3
        rw [hqt]
        exact htr _ _ _ (by rw [hsym]; exact hon) (h e (by simp [he]) os ns' o n' hos e2 ho e4)

example : ∃ (f : Fcn Nat) (ds : List (Fcn Nat)), ds.length = 2 ∧
    .paramType 0 ∈ (run (fcnStep ⟨true, fun _ => true⟩ ⟨fun a b => a = b, fun a b => a = b, fun _ => true, fun _ => false⟩ none) f ds).1
    ∧ .nargs ∈ (run (fcnStep ⟨true, fun _ => true⟩ ⟨fun a b => a = b, fun a b => a = b, fun _ => true, fun _ => false⟩ none) f ds).1 := by
  let par (t : Nat) : Param Nat := ⟨none, t, .param, .unknown, ⟨.unknown, .unknown, .unknown, .unknown⟩, false, true⟩
  let fcn (t : List Nat) : Fcn Nat := ⟨0, ⟨.unknown, .unknown, .unknown, .unknown⟩, false, .unknown, none, none, some (t.map par)⟩
  exact ⟨fcn [1], [fcn [2], fcn [2, 3]], rfl, by decide, by decide⟩

/-- The name of a parameter is compared, without the prefix, if both have one. -/
theorem C120_param_name (pfx : Redecl.Text) (i : Nat) (a b : Redecl.Text)
    (ha : ¬ pfx.isPrefixOf a) (hb : ¬ pfx.isPrefixOf b) :
    (nameMsgs (some (some pfx)) i (some a) (some b) = [] ↔ a = b)
    ∧ (nameMsgs (some (some pfx)) i (some (pfx ++ a)) (some b) = [] ↔ a = b)
    ∧ (nameMsgs (some (some pfx)) i (some a) (some (pfx ++ b)) = [] ↔ a = b)
    ∧ (nameMsgs (some (some pfx)) i (some (pfx ++ a)) (some (pfx ++ b)) = [] ↔ a = b) := by
  have h : ∀ a, strip (some pfx) (pfx ++ a) = a := by
    intro a
    have : pfx.isPrefixOf (pfx ++ a) = true := by rw [List.isPrefixOf_iff_prefix]; exact List.prefix_append _ _
    simp [strip, this]
  have h' : ∀ a, ¬ pfx.isPrefixOf a → strip (some pfx) a = a := by intro a ha; simp [strip, ha]
  simp only [nameMsgs, h, h' a ha, h' b hb]
  simp

example : nameMsgs (some (some c!"p_")) 0 (some c!"p_x") (some c!"x") = []
    ∧ nameMsgs (some (some c!"p_")) 0 (some c!"p_x") (some c!"y") = [.paramName 0] := by decide

end Splint
