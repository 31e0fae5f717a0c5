import Verif.Spec.Kinds
import Verif.Tactics
/-!
# C22, C23, C41, C45: merging of branch states

Statements about all values of the enumerations are decided by the kernel over the complete
(finite) domain; statements about any number of branches are by induction.
-/
namespace Splint
open Spec

/-! ## C22: null states -/

/-- `nstate_possiblyNull` recognises exactly the states that allow null. -/
theorem C22_possiblyNull_iff : ∀ n : NState, n.possiblyNull = true ↔ allowsNull n := by
  decide +kernel

/-- Full statement (kept in view): whatever the two states, null allowed by either branch is
still reported after the merge. -/
def C22_full : Prop :=
  ∀ n1 n2 : NState, allowsNull n1 ∨ allowsNull n2 → (n1.combine n2).possiblyNull = true

/-- It fails: a null constant merged with a non-null reference counts as non-null. -/
theorem C22_constnull_lost :
    NState.combine .constNull .notNull = .notNull ∧
      NState.combine .notNull .constNull = .posNull := by
  decide

theorem C22_full_is_false : ¬ C22_full := by unfold C22_full; decide +kernel

/-- Exactly which pairs lose the possibility of null: those with an error or `relnull` state,
and a null constant or abstract null on the left with a non-null state on the right. -/
theorem C22_lost_exactly : ∀ n1 n2 : NState,
    ((allowsNull n1 ∨ allowsNull n2) ∧ (n1.combine n2).possiblyNull = false) ↔
      ((n1 ∈ [NState.error, .relNull] ∧ allowsNull n2) ∨
       (n1 ∈ [NState.constNull, .absNull] ∧ n2 ∈ [NState.error, .notNull, .mNotNull, .relNull])) := by
  decide +kernel

/-- For the states produced by checking ordinary code the merge reports null exactly when one
of the branches allows it.  Missing: the states listed in `C22_lost_exactly`. -/
theorem C22_merge_partial : ∀ n1 n2 : NState, flowNull n1 → flowNull n2 →
    flowNull (n1.combine n2) ∧
      ((n1.combine n2).possiblyNull = true ↔ allowsNull n1 ∨ allowsNull n2) := by
  decide +kernel

example : flowNull .notNull ∧ flowNull .defNull ∧ NState.combine .notNull .defNull = .posNull := by
  decide

/-- The same for any number of branches merged one after the other. -/
theorem C22_fold_partial (n : NState) (ns : List NState) (hn : flowNull n)
    (hns : ∀ m ∈ ns, flowNull m) :
    (ns.foldl NState.combine n).possiblyNull = true ↔ ∃ m ∈ n :: ns, allowsNull m := by
  induction ns generalizing n with
  | nil => simp [C22_possiblyNull_iff]
  | cons m ns ih =>
    obtain ⟨h1, h2⟩ := C22_merge_partial n m hn (hns m (by simp))
    rw [List.foldl_cons, ih (n.combine m) h1 (fun k hk => hns k (by simp [hk]))]
    rw [C22_possiblyNull_iff] at h2
    simp only [List.mem_cons, exists_eq_or_imp, h2]
    tauto

example : ((([.notNull, .posNull, .unknown] : List NState).foldl NState.combine .notNull).possiblyNull
    = true) := by decide

/-- The order of the branches does not matter for what is reported. -/
theorem C22_merge_order_partial : ∀ n1 n2 : NState, flowNull n1 → flowNull n2 →
    (n1.combine n2).possiblyNull = (n2.combine n1).possiblyNull := by
  decide +kernel

/-- The complete merge of two branch states of a reference merges the null states in this way,
whatever the other components are. -/
theorem C22_merge_state (env : MergeEnv) (res other m : MState) (w : Bool)
    (h : MState.merge env res other = some (m, w)) :
    m.nullstate = res.nullstate.combine other.nullstate := by
  have h1 : ∀ r o : MState, (MState.adjustDead r o).1.nullstate = r.nullstate ∧
      (MState.adjustDead r o).2.nullstate = o.nullstate := by
    intro r o; unfold MState.adjustDead; constructor <;> (repeat' split) <;> rfl
  have h2 : ∀ r o : MState, (MState.adjustAlias r o).1.nullstate = r.nullstate ∧
      (MState.adjustAlias r o).2.nullstate = o.nullstate := by
    intro r o; unfold MState.adjustAlias; constructor <;> simp only [] <;> (repeat' split) <;> rfl
  unfold MState.merge at h
  simp only [] at h
  split at h
  · cases h
  · simp only [Option.some.injEq, Prod.mk.injEq] at h
    obtain ⟨rfl, -⟩ := h
    simp [h1, h2]

/-! ## C23: definition states -/

/-- Full statement (kept in view): the merge is never more defined than a branch. -/
def C23_full : Prop :=
  ∀ s1 s2 s : SState, s1.combine s2 = some s → (unusable s1 ∨ unusable s2 → unusable s) ∧
    (flowDef s1 → flowDef s2 → level s ≤ level s1 ∧ level s ≤ level s2)

/-- It fails: released storage merged into a `reldef` or `partial` state becomes usable again,
and merging partially defined storage into allocated storage gains definedness, while the
opposite order does not. -/
theorem C23_gains :
    SState.combine .relDef .dead = some .relDef ∧
    SState.combine .allocated .pDefined = some .pDefined ∧
    SState.combine .pDefined .allocated = some .allocated := by decide

theorem C23_full_is_false : ¬ C23_full := by
  intro h
  exact absurd ((h .relDef .dead .relDef (by decide)).1 (by decide)) (by decide)

/-- Exactly which merges make unusable storage usable. -/
theorem C23_lost_exactly : ∀ s1 s2 s : SState, s1.combine s2 = some s →
    (((unusable s1 ∨ unusable s2) ∧ ¬ unusable s) ↔ (programmer s1 ∧ unusable s2)) := by
  decide +kernel

/-- The merge is completely defined only if both branches are completely defined (or carry no
information). -/
theorem C23_defined : ∀ s1 s2 : SState, s1.combine s2 = some .defined →
    s1 ∈ [SState.defined, .unknown, .fixed] ∧ s2 ∈ [SState.defined, .unknown] := by
  decide +kernel

example : SState.combine .defined .defined = some .defined := by decide

/-- For the states produced by checking ordinary code the merge never fails, never makes
unusable storage usable, and is at most as defined as each branch except when partially
defined storage is merged into allocated storage.  Missing: that exception and the states left
to the programmer. -/
theorem C23_merge_partial : ∀ s1 s2 : SState, flowDef s1 → flowDef s2 →
    ∃ s, s1.combine s2 = some s ∧ flowDef s ∧ (unusable s ↔ unusable s1 ∨ unusable s2) ∧
      (level s ≤ level s1 ∧ level s ≤ level s2 ∨ (s1 = .allocated ∧ s2 = .pDefined)) := by
  decide +kernel

/-- Any number of branches: the merge exists, and it is unusable exactly when one of the
branches is; it is completely defined only if each branch is (or carries no information). -/
theorem C23_fold_partial (s : SState) (ss : List SState) (hs : flowDef s)
    (hss : ∀ m ∈ ss, flowDef m) :
    ∃ r, ss.foldlM SState.combine s = some r ∧ (unusable r ↔ ∃ m ∈ s :: ss, unusable m) ∧
      (r = .defined → ∀ m ∈ s :: ss, m = .defined ∨ m = .unknown) := by
  induction ss generalizing s with
  | nil => exact ⟨s, rfl, by simp, by simp; tauto⟩
  | cons m ss ih =>
    obtain ⟨t, h1, h2, h3, -⟩ := C23_merge_partial s m hs (hss m (by simp))
    obtain ⟨r, hr, hu, hd⟩ := ih t h2 (fun k hk => hss k (by simp [hk]))
    refine ⟨r, by simp [h1, hr], ?_, ?_⟩
    · rw [hu]; simp only [List.mem_cons, exists_eq_or_imp, h3]; tauto
    · intro hrd k hk
      have ht := hd hrd
      have key : ∀ a b c : SState, flowDef a → flowDef b → a.combine b = some c →
          (c = .defined ∨ c = .unknown) → (a = .defined ∨ a = .unknown) ∧
            (b = .defined ∨ b = .unknown) := by decide +kernel
      have h4 := key s m t hs (hss m (by simp)) h1 (ht t (by simp))
      simp only [List.mem_cons] at hk
      rcases hk with rfl | rfl | hk
      · exact h4.1
      · exact h4.2
      · exact ht k (by simp [hk])

example : ([.dead, .defined] : List SState).foldlM SState.combine .defined = some .dead := by
  decide

/-- The function of definition state, definite nullness and ownership computed by the complete
merge for the definition state. -/
theorem merge_defstate (env : MergeEnv) (res other m : MState) (w : Bool)
    (h : MState.merge env res other = some (m, w)) :
    let p := MState.adjustDead res other
    let q := MState.adjustAlias p.1 p.2
    SState.combine q.1.defstate q.2.defstate = some m.defstate := by
  unfold MState.merge at h
  simp only [] at h ⊢
  split at h
  · cases h
  · next d hd =>
    simp only [Option.some.injEq, Prod.mk.injEq] at h
    obtain ⟨rfl, -⟩ := h
    exact hd

theorem adjustDead_cases (r o : MState) :
    (MState.adjustDead r o = (r, o)) ∨
    (MState.adjustDead r o = ({ r with defstate := .unuseable }, o) ∧
      (o.defstate = .dead ∨ r.defstate = .dead)) ∨
    (MState.adjustDead r o = ({ r with defstate := .dead }, o) ∧
      (o.defstate = .dead ∨ r.defstate = .dead)) ∨
    (MState.adjustDead r o = (r, { o with defstate := .defined }) ∧ r.defstate = .defined ∧
      o.defstate = .allocated ∧ o.definitelyNull = true) ∨
    (MState.adjustDead r o = ({ r with defstate := .defined }, o) ∧ o.defstate = .defined ∧
      r.defstate = .allocated ∧ r.definitelyNull = true) := by
  unfold MState.adjustDead
  repeat' split
  all_goals simp_all

theorem adjustAlias_def (r o : MState) :
    ((MState.adjustAlias r o).1.defstate = r.defstate ∨
      (MState.adjustAlias r o).1.defstate = .dead) ∧
    ((MState.adjustAlias r o).2.defstate = o.defstate ∨
      (MState.adjustAlias r o).2.defstate = .dead) := by
  unfold MState.adjustAlias
  constructor <;> simp only [] <;> (repeat' split) <;> simp

/-- A reference is completely defined after the merge only if on each branch it was
completely defined, unconstrained or fixed, or was a null pointer that still counted as
allocated. -/
theorem C23_merge_state (env : MergeEnv) (res other m : MState) (w : Bool)
    (h : MState.merge env res other = some (m, w)) (hd : m.defstate = .defined) :
    (res.defstate ∈ [SState.defined, .unknown, .fixed] ∨
      (res.defstate = .allocated ∧ res.definitelyNull = true)) ∧
    (other.defstate ∈ [SState.defined, .unknown, .fixed] ∨
      (other.defstate = .allocated ∧ other.definitelyNull = true)) := by
  have h1 := merge_defstate env res other m w h
  simp only [] at h1
  rw [hd] at h1
  obtain ⟨ha, hb⟩ := C23_defined _ _ h1
  obtain ⟨hp, hq⟩ := adjustAlias_def (MState.adjustDead res other).1 (MState.adjustDead res other).2
  replace hp := hp.resolve_right (by rintro e; rw [e] at ha; revert ha; decide)
  replace hq := hq.resolve_right (by rintro e; rw [e] at hb; revert hb; decide)
  rw [hp] at ha; rw [hq] at hb
  rcases adjustDead_cases res other with e | ⟨e, -⟩ | ⟨e, -⟩ | ⟨e, e1, e2, e3⟩ | ⟨e, e1, e2, e3⟩ <;>
    rw [e] at ha hb <;> simp at ha hb ⊢ <;> simp_all <;> tauto

example : ∃ m w, MState.merge ⟨false, false⟩
    ⟨.defined, .notNull, .only, .unknown, false, true⟩
    ⟨.allocated, .defNull, .only, .unknown, false, true⟩ = some (m, w) ∧ m.defstate = .defined := by
  refine ⟨_, _, rfl, ?_⟩; decide

/-- Storage released on one branch cannot be used after the merge, unless on the other branch
its definition is left to the programmer. -/
theorem C23_released_partial (env : MergeEnv) (res other m : MState) (w : Bool)
    (h : MState.merge env res other = some (m, w))
    (hd : res.defstate = .dead ∨ (other.defstate = .dead ∧ ¬ programmer res.defstate)) :
    unusable m.defstate := by
  have h1 := merge_defstate env res other m w h
  simp only [] at h1
  have key : ∀ a b c : SState, a.combine b = some c → (unusable a ∨ (unusable b ∧ ¬ programmer a)) →
      unusable c := by decide +kernel
  refine key _ _ _ h1 ?_
  obtain ⟨hp, hq⟩ := adjustAlias_def (MState.adjustDead res other).1 (MState.adjustDead res other).2
  have hud : unusable .dead := by decide
  have huu : unusable .unuseable := by decide
  rcases hp with hp | hp
  · rcases adjustDead_cases res other with e | ⟨e, -⟩ | ⟨e, -⟩ | ⟨e, e1, e2, e3⟩ | ⟨e, e1, e2, e3⟩ <;>
      rcases hq with hq | hq <;> rcases hd with hd | ⟨hd, hd'⟩ <;> rw [e] at hp hq ⊢ <;>
      simp_all
  · left; rw [hp]; exact hud

/-- The exception is real: a `reldef` field released on the second branch stays usable. -/
theorem C23_released_reldef :
    (MState.merge ⟨false, false⟩ ⟨.relDef, .notNull, .unknown, .unknown, false, false⟩
      ⟨.dead, .notNull, .unknown, .unknown, false, false⟩).map (·.1.defstate) = some .relDef := by
  decide

/-- Exposure: the merge of different known kinds is `observer`, the most restricted one. -/
theorem C23_exposure : ∀ a b : ExKind, (a.combine b = b.combine a) ∧
    (a ≠ b → a ≠ .unknown → b ≠ .unknown → a.combine b = .observer) ∧ (a.combine a = a) ∧
    (a = .observer ∨ b = .observer → a.combine b = .observer) := by
  decide +kernel

/-! ## C41: ownership kinds -/

/-- Equality of ownership kinds is equality up to implicit annotations, and the error kind
equals everything. -/
theorem C41_equal_iff : ∀ a b : AlKind,
    a.equal b = true ↔ (explicit a = explicit b ∨ a = .error ∨ b = .error) := by decide +kernel

theorem C41_equal_refl_symm : ∀ a b : AlKind, a.equal a = true ∧ a.equal b = b.equal a := by
  decide +kernel

/-- Transitivity holds exactly away from the error kind. -/
theorem C41_equal_trans : ∀ a b c : AlKind, b ≠ .error → a.equal b = true → b.equal c = true →
    a.equal c = true := by decide +kernel

example : AlKind.equal .only .impOnly = true ∧ AlKind.equal .impOnly .only = true := by decide

/-- Equal kinds are compatible. -/
theorem C41_equal_compatible : ∀ a b : AlKind, a.equal b = true → a.compatible b = true := by
  decide +kernel

/-- Full statement (kept in view): compatibility is symmetric and implicit kinds behave as the
explicit ones. -/
def C41_full : Prop :=
  (∀ a b : AlKind, a.compatible b = b.compatible a) ∧
  (∀ a : AlKind, a.fixImplicit = explicit a)

/-- Compatibility is symmetric except on exactly these pairs. -/
theorem C41_compatible_symm_exactly : ∀ a b : AlKind, a.compatible b = b.compatible a ↔
    ¬ ((a = .keep ∧ b = .fresh) ∨ (b = .keep ∧ a = .fresh) ∨ (a = .temp ∧ b = .unique) ∨
       (b = .temp ∧ a = .unique) ∨
       (a = .static ∧ b ∈ [AlKind.returned, .stack, .refCounted, .refs, .killRef, .newRef, .local_]) ∨
       (b = .static ∧ a ∈ [AlKind.returned, .stack, .refCounted, .refs, .killRef, .newRef, .local_])) := by
  decide +kernel

/-- `alkind_fixImplicit` maps each implicit kind to the explicit one except `imponly`. -/
theorem C41_fixImplicit_exactly : ∀ a : AlKind, a.fixImplicit = explicit a ↔ a ≠ .impOnly := by
  decide +kernel

theorem C41_full_is_false : ¬ C41_full := by unfold C41_full; decide +kernel

/-- Storage with a release obligation is compatible only with obliged or erroneous kinds. -/
theorem C41_compatible_obliged_partial : ∀ a b : AlKind, obliged a → a ≠ .newRef →
    a.compatible b = true → obliged b ∨ b = .error := by decide +kernel

/-- Selecting a component never creates ownership: a component of storage that is only
borrowed (dependent, kept) is not owned, and a component is obliged only if the component is
declared so or the container is. -/
theorem C41_derive_no_gain : ∀ outer inner : AlKind, obliged (outer.derive inner) →
    obliged outer ∨ (obliged inner ∧ outer ∉ [AlKind.kept, .dependent, .impDependent, .refCounted,
      .refs, .killRef, .stack, .static]) := by decide +kernel

/-- Components reached through any path from borrowed storage are never owned unless they
pass through shared storage. -/
theorem C41_derive_path (outer : AlKind) (path : List AlKind)
    (h : outer ∈ [AlKind.kept, .dependent, .impDependent]) (hs : AlKind.shared ∉ path) :
    ¬ obliged (path.foldl AlKind.derive outer) := by
  have key : ∀ o i : AlKind, o ∈ [AlKind.kept, .dependent, .impDependent] → i ≠ .shared →
      o.derive i ∈ [AlKind.kept, .dependent, .impDependent] := by decide +kernel
  induction path generalizing outer with
  | nil => revert h; revert outer; decide +kernel
  | cons i path ih =>
    simp only [List.mem_cons, not_or] at hs
    exact ih _ (key outer i h (fun e => hs.1 e.symm)) hs.2

example : ([.only, .fresh] : List AlKind).foldl AlKind.derive .dependent = .impDependent := by decide

/-- Resolving prefers the first known kind, and `local` yields to any other known kind. -/
theorem C41_resolve : ∀ a b : AlKind,
    (a ∉ [AlKind.unknown, .error, .local_] → a.resolve b = a) ∧
    (a ∈ [AlKind.unknown, .error] → a.resolve b = b) ∧
    (a = .local_ → b ∉ [AlKind.unknown, .error] → a.resolve b = b) ∧
    (a = .local_ → b ∈ [AlKind.unknown, .error] → a.resolve b = a) := by decide +kernel

theorem C41_resolve_assoc : ∀ a b c : AlKind, a ≠ .error → b ≠ .error → c ≠ .error →
    (a.resolve b).resolve c = a.resolve (b.resolve c) := by decide +kernel

/-! ## C45: merging ownership -/

/-- Full statement (kept in view): merging two branches, in both of which the storage is live,
defined and not null, keeps a release obligation of either branch or warns. -/
def C45_full : Prop :=
  ∀ (env : MergeEnv) (res other : MState),
    res.defstate ≠ .dead → other.defstate ≠ .dead → res.defstate ≠ .undefined →
    other.defstate ≠ .undefined → res.definitelyNull = false → other.definitelyNull = false →
    obliged res.aliaskind ∨ obliged other.aliaskind →
    obliged (MState.combineAliasKinds env res other).1 ∨
      (MState.combineAliasKinds env res other).2 = true

/-- It fails: dependent storage merged with freshly allocated storage stays dependent and
nothing is reported; in the opposite order the obligation is kept. -/
theorem C45_dependent_drops :
    MState.combineAliasKinds ⟨false, false⟩ ⟨.defined, .notNull, .dependent, .unknown, false, true⟩
      ⟨.defined, .notNull, .fresh, .unknown, false, true⟩ = (.dependent, false) ∧
    MState.combineAliasKinds ⟨false, false⟩ ⟨.defined, .notNull, .fresh, .unknown, false, true⟩
      ⟨.defined, .notNull, .dependent, .unknown, false, true⟩ = (.fresh, false) := by decide

theorem C45_full_is_false : ¬ C45_full := by
  intro h
  have := h ⟨false, false⟩ ⟨.defined, .notNull, .dependent, .unknown, false, true⟩
    ⟨.defined, .notNull, .fresh, .unknown, false, true⟩
  revert this; decide

/-- The ownership merge of live, defined, non-null storage depends only on the kinds and four
flags. -/
theorem combineAliasKinds_live (env : MergeEnv) (res other : MState)
    (h1 : res.defstate ≠ .dead) (h2 : other.defstate ≠ .dead) (h3 : res.defstate ≠ .undefined)
    (h4 : other.defstate ≠ .undefined) (h5 : res.definitelyNull = false)
    (h6 : other.definitelyNull = false) :
    MState.combineAliasKinds env res other =
      MState.combineAliasKinds ⟨env.altNull, env.otherNull⟩
        ⟨.defined, .notNull, res.aliaskind, .unknown, res.isConst, res.isLocalVar⟩
        ⟨.defined, .notNull, other.aliaskind, .unknown, other.isConst, other.isLocalVar⟩ := by
  have e : ∀ a c l, MState.definitelyNull ⟨.defined, .notNull, a, .unknown, c, l⟩ = false := by
    intro a c l; rfl
  simp [MState.combineAliasKinds, MState.combineAliasKindsError, MState.isFresh, h1, h2, h3, h4, h5,
    h6, e]

/-- Exactly when the obligation is silently dropped for storage that is not a constant:
an error was already reported; the first branch holds dependent storage; fresh storage meets
storage the surroundings know to be null; or owned local storage meets unowned local storage. -/
theorem C45_dropped_exactly (env : MergeEnv) (res other : MState)
    (h1 : res.defstate ≠ .dead) (h2 : other.defstate ≠ .dead) (h3 : res.defstate ≠ .undefined)
    (h4 : other.defstate ≠ .undefined) (h5 : res.definitelyNull = false)
    (h6 : other.definitelyNull = false) (h7 : res.isConst = false) (h8 : other.isConst = false) :
    ((obliged res.aliaskind ∨ obliged other.aliaskind) ∧
      ¬ obliged (MState.combineAliasKinds env res other).1 ∧
      (MState.combineAliasKinds env res other).2 = false) ↔
    ((res.aliaskind = .error ∧ obliged other.aliaskind) ∨
     (res.aliaskind ∈ [AlKind.dependent, .impDependent] ∧ obliged other.aliaskind) ∨
     (res.aliaskind ∈ [AlKind.local_, .unique, .static, .temp, .impTemp] ∧
       other.aliaskind = .fresh ∧ env.altNull = true) ∨
     (other.aliaskind ∈ [AlKind.local_, .unique, .static, .temp, .impTemp] ∧
       res.aliaskind = .fresh ∧ env.otherNull = true) ∨
     (res.aliaskind = .local_ ∧ other.aliaskind = .owned ∧ other.isLocalVar = true) ∨
     (other.aliaskind = .local_ ∧ res.aliaskind = .owned ∧ res.isLocalVar = true)) := by
  rw [combineAliasKinds_live env res other h1 h2 h3 h4 h5 h6, h7, h8]
  generalize res.aliaskind = a
  generalize other.aliaskind = b
  generalize res.isLocalVar = rl
  generalize other.isLocalVar = ol
  generalize env.altNull = x
  generalize env.otherNull = y
  cases rl <;> cases ol <;> cases x <;> cases y <;> revert a b <;> decide +kernel

/-- So the statement holds for storage that is neither dependent nor erroneous nor a constant
nor owned by a local variable, when the surroundings do not know it to be null.  Missing: the
cases of `C45_dropped_exactly` and constants. -/
theorem C45_obligation_partial (env : MergeEnv) (res other : MState)
    (h1 : res.defstate ≠ .dead) (h2 : other.defstate ≠ .dead) (h3 : res.defstate ≠ .undefined)
    (h4 : other.defstate ≠ .undefined) (h5 : res.definitelyNull = false)
    (h6 : other.definitelyNull = false) (h7 : res.isConst = false) (h8 : other.isConst = false)
    (he : env.altNull = false ∧ env.otherNull = false)
    (ha : res.aliaskind ∉ [AlKind.error, .dependent, .impDependent, .owned])
    (hb : other.aliaskind ≠ .owned)
    (ho : obliged res.aliaskind ∨ obliged other.aliaskind) :
    obliged (MState.combineAliasKinds env res other).1 ∨
      (MState.combineAliasKinds env res other).2 = true := by
  have := C45_dropped_exactly env res other h1 h2 h3 h4 h5 h6 h7 h8
  by_contra hc
  push Not at hc
  have h9 := this.1 ⟨ho, hc.1, by simpa using hc.2⟩
  simp only [List.mem_cons, not_or] at ha
  simp_all

example : MState.combineAliasKinds ⟨false, false⟩
    ⟨.defined, .notNull, .temp, .unknown, false, true⟩
    ⟨.defined, .notNull, .fresh, .unknown, false, true⟩ = (.local_, true) := by decide
end Splint
