import Verif.Props.SRef
import Verif.Proofs.Modify
/-!
# C42, C48, C49: modifies clauses
-/
namespace Splint
namespace SRef

/-! ## C48: which flags govern global variables -/

/-- What the descriptions of the flags say (flags.def:1397-1400, 1482-1518): whether the modification
of a variable with annotation `k` that is not listed is reported. -/
def globModDocumented (fl : ModFlags) (hasMods : Bool) (k : ChKind) : Bool :=
  match k, hasMods with
  | .unchecked, true => fl.modGlobsUnchecked
  | .unknown, true => if fl.allGlobals then fl.modGlobs else fl.modGlobsUnchecked
  | _, true => fl.modGlobs
  | .checkedStrict, false => fl.modStrictGlobsUnspec
  | .checked, false | .checkMod, false => fl.modGlobsUnspec
  | .unknown, false => fl.allGlobals && fl.modGlobsUnspec
  | .unchecked, false => false

/-- C48 in full. -/
def C48_full : Prop := ∀ fl hasMods k, checkGlobMod fl hasMods k = globModDocumented fl hasMods k

/-- With `+modstrictglobsnomods -modglobsnomods`, a strict variable is not checked in a function
without a modifies clause. -/
theorem C48_full_is_false : ¬ C48_full := by
  intro h
  have := h ⟨false, false, false, true, false, false, false, false, false⟩ false .checkedStrict
  revert this
  decide

/-- C48: the answer is the documented one when there is a modifies clause, or when the two flags for
functions without one agree. -/
theorem C48_partial (fl : ModFlags) (hasMods : Bool) (k : ChKind)
    (h : hasMods = true ∨ fl.modGlobsUnspec = fl.modStrictGlobsUnspec) :
    checkGlobMod fl hasMods k = globModDocumented fl hasMods k := by
  cases hasMods <;> cases k <;> simp_all [checkGlobMod, globModDocumented] <;>
    cases fl.allGlobals <;> simp_all

/-- C48: without a modifies clause the two flags have each other's effect. -/
theorem C48_exactly (fl : ModFlags) (k : ChKind) :
    checkGlobMod fl false k = globModDocumented
      { fl with modGlobsUnspec := fl.modStrictGlobsUnspec, modStrictGlobsUnspec := fl.modGlobsUnspec }
      false k := by
  cases k <;> simp [checkGlobMod, globModDocumented] <;> cases fl.allGlobals <;> simp

example : (⟨true, true, true, true, true, true, true, true, true⟩ : ModFlags).modGlobsUnspec =
    (⟨true, true, true, true, true, true, true, true, true⟩ : ModFlags).modStrictGlobsUnspec := rfl

/-! ## C42: what a clause permits -/

/-- What should be reported: no part of the storage is listed, and no part is free. -/
def Undocumented (env : ModEnv) (sl : Mods) (s : SRef) : Prop :=
  s.freeTop = false ∧ ∀ u ∈ s.parts, (∀ e ∈ sl, u.similar e.1 = false) ∧ u.freeRoot env = false

/-- C42 in full: a modification is reported exactly if it is undocumented, whether or not unused
elements are looked for. -/
def C42_full : Prop :=
  ∀ (env : ModEnv) (sl : Mods) (s : SRef), s.every notConj = true → s.every notResult = true →
    env.flags.modifies = true → env.hasMods = true →
    ∃ b sl', modification env sl s = some (b, sl') ∧ (b = true ↔ Undocumented env sl s)

/-- C42: a modification is reported exactly if it is undocumented. Missing: with `+mustmod`, the
internal state itself (`C42_full_is_false`); merged references (`C42_merged`). -/
theorem C42_partial (env : ModEnv) (sl : Mods) (s : SRef) (hc : s.every notConj = true)
    (hr : s.every notResult = true) (hm : env.flags.modifies = true)
    (hh : (env.hasMods || env.flags.modNoMods) = true)
    (hi : env.flags.mustMod = false ∨ s.isInternal = false) :
    ∃ b sl', modification env sl s = some (b, sl') ∧ (b = true ↔ Undocumented env sl s) := by
  refine ⟨_, _, modification_eq env sl s hc hr hm hh, ?_⟩
  rw [permTop_one _ _ _ _ (tops_single s hc)]
  have : (env.flags.mustMod && s.isInternal) = false := by
    rcases hi with h | h <;> simp [h]
  rw [this]
  unfold permVal Undocumented listed
  rw [alts_single s hc]
  simp only [Bool.or_false, List.all_cons, List.all_nil, Bool.and_true, Bool.not_or,
    Bool.and_eq_true, Bool.not_eq_true', List.any_eq_false, Bool.or_eq_true, not_or,
    List.any_eq_true, not_exists, not_and, Bool.not_eq_true]

/-- An environment with all flags on, in which everything is checked. -/
def allOn (must : Bool) : ModEnv :=
  ⟨⟨true, true, true, true, true, true, must, true, true⟩, true, fun _ _ => .checked, fun _ => false⟩

/-- With `+mustmod` a modification of the internal state is not reported. -/
theorem C42_full_is_false : ¬ C42_full := by
  intro h
  obtain ⟨b, sl', h1, h2⟩ := h (allOn true) [] (special 1 .internal) rfl rfl rfl rfl
  have e : modification (allOn true) [] (special 1 .internal) = some (false, []) := by rfl
  rw [e] at h1
  simp only [Option.some.injEq, Prod.mk.injEq] at h1
  have := h2.2 ⟨rfl, by intro u hu; simp [parts] at hu; subst hu; exact ⟨by simp, rfl⟩⟩
  rw [← h1.1] at this
  exact absurd this (by decide)

/-- Without `+mustmod` it is. -/
theorem C42_internal_reported :
    modification (allOn false) [] (special 1 .internal) = some (true, []) := rfl

/-- `g.f` and `*p` for a checked global `g` and a parameter `p`; the clause lists `*p`. -/
example : let env := allOn true
    let sl : Mods := [(ptr 2 (param 1 0), false)]
    (modification env sl (field 4 (cvar 3 0 7) 1)).map (·.1) = some true ∧
    (modification env sl (field 5 (ptr 6 (param 1 0)) 1)).map (·.1) = some false := by
  decide +kernel

/-- C42: storage that may stand for the same access as a listed one is permitted. -/
theorem C42_listed_permitted (env : ModEnv) (sl : Mods) (s u e : SRef) (m : Bool) (p : Access)
    (hu : u ∈ s.parts) (he : (e, m) ∈ sl) (h1 : u.every notDerived = true)
    (h2 : e.every notDerived = true) (d1 : u.Denotes p) (d2 : e.Denotes p) :
    ¬ Undocumented env sl s := by
  rintro ⟨_, h⟩
  have := (h u hu).1 (e, m) he
  rw [C43_similar_partial u e h1 h2 p d1 d2] at this
  cases this

/-- The elements of `r` with an index in `i`. -/
def ElemOf (R : Access → Prop) (i : Option Int) (p : Access) : Prop :=
  ∃ q k, R q ∧ (i = none ∨ i = some k) ∧ p = ⟨q.root, .elem k :: q.steps⟩

theorem fetch_may (a : Nat) (r : SRef) (i : Option Int) (p : Access) :
    (fetch a r i).MayDenote p ↔ ElemOf r.MayDenote i p := by
  cases i with
  | none => simp [MayDenote, ElemOf]
  | some i =>
    simp only [MayDenote, ElemOf, reduceCtorEq, Option.some.injEq, false_or]
    constructor
    · rintro ⟨q, h1, h2⟩; exact ⟨q, i, h1, rfl, h2⟩
    · rintro ⟨q, k, h1, rfl, h2⟩; exact ⟨q, h1, h2⟩

theorem ptr_may (a : Nat) (r : SRef) (p : Access) :
    (ptr a r).MayDenote p ↔ ElemOf r.MayDenote none p := by
  simp [MayDenote, ElemOf]

theorem elemOf_common (R R' : Access → Prop) (i j : Option Int) :
    (∃ p, ElemOf R i p ∧ ElemOf R' j p) ↔ (∃ q, R q ∧ R' q) ∧ indMay i j = true := by
  constructor
  · rintro ⟨p, ⟨q, k, h1, h2, rfl⟩, ⟨q', k', h3, h4, h5⟩⟩
    simp only [Access.mk.injEq, List.cons.injEq, Step.elem.injEq] at h5
    obtain ⟨e1, rfl, e2⟩ := h5
    have : q = q' := by cases q; cases q'; simp_all
    subst this
    refine ⟨⟨q, h1, h3⟩, ?_⟩
    rcases h2 with rfl | rfl <;> rcases h4 with rfl | rfl <;> simp [indMay]
  · rintro ⟨⟨q, h1, h2⟩, h3⟩
    cases i with
    | none =>
      cases j with
      | none => exact ⟨_, ⟨q, 0, h1, Or.inl rfl, rfl⟩, ⟨q, 0, h2, Or.inl rfl, rfl⟩⟩
      | some j => exact ⟨_, ⟨q, j, h1, Or.inl rfl, rfl⟩, ⟨q, j, h2, Or.inr rfl, rfl⟩⟩
    | some i =>
      cases j with
      | none => exact ⟨_, ⟨q, i, h1, Or.inr rfl, rfl⟩, ⟨q, i, h2, Or.inl rfl, rfl⟩⟩
      | some j =>
        simp only [indMay, decide_eq_true_eq] at h3
        subst h3
        exact ⟨_, ⟨q, i, h1, Or.inr rfl, rfl⟩, ⟨q, i, h2, Or.inr rfl, rfl⟩⟩

/-- The kind of the last step, or of the start. -/
def shape : SRef → Nat
  | cvar .. => 0
  | param .. => 1
  | unconstrained .. => 2
  | special .. => 3
  | fetch .. | ptr .. => 4
  | field .. => 5
  | adr .. => 6
  | _ => 7

/-- The same, of an access. -/
def shapeA (p : Access) : Nat :=
  match p.steps with
  | [] => match p.root with
    | .cvar .. => 0
    | .param .. => 1
    | .unconstrained .. => 2
    | .special .. => 3
  | .elem _ :: _ => 4
  | .field _ :: _ => 5
  | .adr :: _ => 6

theorem shape_may (s : SRef) (p : Access) (h : s.MayDenote p) : shapeA p = s.shape := by
  cases s with
  | fetch a r i => rw [fetch_may] at h; obtain ⟨q, k, _, _, rfl⟩ := h; rfl
  | ptr a r => rw [ptr_may] at h; obtain ⟨q, k, _, _, rfl⟩ := h; rfl
  | field a r f => obtain ⟨q, _, rfl⟩ := h; rfl
  | adr a r => obtain ⟨q, _, rfl⟩ := h; rfl
  | cvar | param | unconstrained | special => simp only [MayDenote] at h; subst h; rfl
  | _ => exact absurd h (by simp [MayDenote])

theorem core_shape (s t : SRef) (h : s.shape ≠ t.shape) : similarCore s t = false := by
  cases s <;> cases t <;> first | rfl | exact absurd rfl h

theorem similar_may (H : Nat → SRef) : ∀ (n : Nat) (s t : SRef), s.size + t.size ≤ n → s.InHeap H →
    t.InHeap H → s.every simple = true → t.every simple = true →
    (similar s t = true ↔ ∃ p, s.MayDenote p ∧ t.MayDenote p) := by
  have ne : ∀ s : SRef, s.every simple = true → ∃ p, s.MayDenote p := by
    intro s
    induction s with
    | cvar a l i => intro _; exact ⟨_, rfl⟩
    | param a l => intro _; exact ⟨_, rfl⟩
    | unconstrained a l => intro _; exact ⟨_, rfl⟩
    | special a l => intro _; exact ⟨_, rfl⟩
    | fetch a r i ih =>
      intro h
      obtain ⟨q, hq⟩ := ih (by simp_all [every])
      cases i with
      | none => exact ⟨_, q, 0, hq, rfl⟩
      | some i => exact ⟨_, q, hq, rfl⟩
    | ptr a r ih =>
      intro h
      obtain ⟨q, hq⟩ := ih (by simp_all [every])
      exact ⟨_, q, 0, hq, rfl⟩
    | field a r f ih =>
      intro h
      obtain ⟨q, hq⟩ := ih (by simp_all [every])
      exact ⟨_, q, hq, rfl⟩
    | adr a r ih =>
      intro h
      obtain ⟨q, hq⟩ := ih (by simp_all [every])
      exact ⟨_, q, hq, rfl⟩
    | _ => intro h; simp [every, simple] at h
  intro n
  induction n with
  | zero => intro s t h; cases s <;> simp [size] at h
  | succ n ih =>
    intro s t hn hs ht ks kt
    have hs0 := every_here ks
    have ht0 := every_here kt
    rw [similar_core s t (by cases s <;> simp_all [simple, notConj])
      (by cases s <;> simp_all [simple, notDerived]) (by cases t <;> simp_all [simple, notConj])
      (by cases t <;> simp_all [simple, notDerived])]
    by_cases hp : s.ptrEq t = true
    · have : s = t := InHeap.eq hs ht (by simpa [ptrEq] using hp)
      subst this
      simp only [hp, Bool.true_or, true_iff]
      obtain ⟨p, h⟩ := ne s ks
      exact ⟨p, h, h⟩
    · simp only [Bool.not_eq_true] at hp
      rw [hp, Bool.false_or]
      have one : ∀ (R R' : Access → Prop) (st : Step),
          (∃ p : Access, (∃ q, R q ∧ p = ⟨q.root, st :: q.steps⟩) ∧ (∃ q, R' q ∧ p = ⟨q.root, st :: q.steps⟩)) ↔
          ∃ q, R q ∧ R' q := by
        intro R R' st
        constructor
        · rintro ⟨p, ⟨q, h1, rfl⟩, ⟨q', h2, h3⟩⟩
          simp only [Access.mk.injEq, List.cons.injEq, true_and] at h3
          have : q = q' := by cases q; cases q'; simp_all
          subst this
          exact ⟨q, h1, h2⟩
        · rintro ⟨q, h1, h2⟩; exact ⟨_, ⟨q, h1, rfl⟩, ⟨q, h2, rfl⟩⟩
      have sub : ∀ r r' : SRef, r.size + r'.size ≤ n → r.InHeap H → r'.InHeap H →
          r.every simple = true → r'.every simple = true →
          ((∃ q, r.MayDenote q ∧ r'.MayDenote q) ↔ similar r r' = true) :=
        fun r r' a b c d e => (ih r r' a b c d e).symm
      by_cases hsh : s.shape = t.shape
      swap
      · rw [core_shape s t hsh]
        simp only [Bool.false_eq_true, false_iff, not_exists, not_and]
        intro p h1 h2
        exact hsh ((shape_may s p h1).symm.trans (shape_may t p h2))
      cases s with
      | fetch a r i =>
        simp only [InHeap, every, Bool.and_eq_true, size] at hs ks hn
        cases t with
        | fetch a' r' i' =>
          simp only [InHeap, every, Bool.and_eq_true, size] at ht kt hn
          simp only [fetch_may, elemOf_common, sub r r' (by omega) hs.2 ht.2 ks.2 kt.2, similarCore,
            Bool.and_eq_true]
        | ptr a' r' =>
          simp only [InHeap, every, Bool.and_eq_true, size] at ht kt hn
          simp only [fetch_may, ptr_may, elemOf_common, sub r r' (by omega) hs.2 ht.2 ks.2 kt.2,
            similarCore]
          cases i <;> simp [indMay]
        | _ => simp [shape] at hsh
      | ptr a r =>
        simp only [InHeap, every, Bool.and_eq_true, size] at hs ks hn
        cases t with
        | fetch a' r' i' =>
          simp only [InHeap, every, Bool.and_eq_true, size] at ht kt hn
          simp only [fetch_may, ptr_may, elemOf_common, similarCore]
          rw [← sub r' r (by omega) ht.2 hs.2 kt.2 ks.2]
          cases i' <;> simp [indMay, and_comm]
        | ptr a' r' =>
          simp only [InHeap, every, Bool.and_eq_true, size] at ht kt hn
          simp only [ptr_may, elemOf_common, sub r r' (by omega) hs.2 ht.2 ks.2 kt.2, similarCore]
          simp [indMay]
        | _ => simp [shape] at hsh
      | field a r f =>
        simp only [InHeap, every, Bool.and_eq_true, size] at hs ks hn
        cases t with
        | field a' r' f' =>
          simp only [InHeap, every, Bool.and_eq_true, size] at ht kt hn
          simp only [similarCore, Bool.and_eq_true, decide_eq_true_eq]
          rw [← sub r r' (by omega) hs.2 ht.2 ks.2 kt.2]
          constructor
          · rintro ⟨h, rfl⟩; exact (one _ _ _).2 h
          · rintro ⟨p, ⟨q, h1, rfl⟩, ⟨q', h2, h3⟩⟩
            simp only [Access.mk.injEq, List.cons.injEq, Step.field.injEq] at h3
            have : q = q' := by cases q; cases q'; simp_all
            subst this
            exact ⟨⟨q, h1, h2⟩, h3.2.1⟩
        | _ => simp [shape] at hsh
      | adr a r =>
        simp only [InHeap, every, Bool.and_eq_true, size] at hs ks hn
        cases t with
        | adr a' r' =>
          simp only [InHeap, every, Bool.and_eq_true, size] at ht kt hn
          simp only [similarCore]
          rw [← sub r r' (by omega) hs.2 ht.2 ks.2 kt.2]
          exact (one _ _ _).symm
        | _ => simp [shape] at hsh
      | cvar a l i =>
        cases t with
        | cvar a' l' i' => simp [similarCore, MayDenote]
        | _ => simp [shape] at hsh
      | param a l =>
        cases t with
        | param a' l' => simp [similarCore, MayDenote]
        | _ => simp [shape] at hsh
      | unconstrained a l =>
        cases t with
        | unconstrained a' l' => simp [similarCore, MayDenote]
        | _ => simp [shape] at hsh
      | special a l =>
        cases t with
        | special a' l' => simp [similarCore, MayDenote]
        | _ => simp [shape] at hsh
      | _ => simp [simple] at hs0

/-- C43: on variables, parameters and special references, and elements, fields, targets and addresses
of them, two references are similar exactly if they may stand for the same access when `*p` may be
any element of `p`. -/
theorem C43_similar_exactly (H : Nat → SRef) (s t : SRef) (hs : s.InHeap H) (ht : t.InHeap H)
    (ks : s.every simple = true) (kt : t.every simple = true) :
    similar s t = true ↔ ∃ p, s.MayDenote p ∧ t.MayDenote p :=
  similar_may H _ s t (Nat.le_refl _) hs ht ks kt

/-- `a[5]` may be modified if `*a` is listed, though `*a` is `a[0]`. -/
theorem C42_other_element :
    modification (allOn false) [(ptr 2 (param 1 0), false)] (fetch 4 (param 1 0) (some 5)) =
      some (false, [(ptr 2 (param 1 0), false)]) := by decide +kernel

/-- Of a merged reference, only the first alternative decides whether a report is suppressed: with an
unchecked variable first, the modification of the other, checked one is not reported. -/
theorem C42_merged :
    let env : ModEnv := ⟨⟨false, true, true, true, false, true, false, true, true⟩, true,
      fun _ i => if i = 0 then .unchecked else .checked, fun _ => false⟩
    modification env [] (conj 3 (cvar 1 0 0) (cvar 2 0 1)) = some (false, []) ∧
    modification env [] (conj 3 (cvar 2 0 1) (cvar 1 0 0)) = some (true, []) := by
  decide +kernel

/-- C42, for storage that a called function modifies: it may be modified exactly if every alternative
has a listed or free part, with or without `+mustmod`. -/
theorem C42_value (env : ModEnv) (sl : Mods) (s : SRef) (hr : s.every notResult = true) :
    ∃ b sl', canModifyVal env sl s = some (b, sl') ∧
      (b = true ↔ ∀ c ∈ s.alts, ∃ u ∈ c, (∃ e ∈ sl, u.similar e.1 = true) ∨ u.freeRoot env = true) := by
  have hp : permVal env sl s = true ↔
      ∀ c ∈ s.alts, ∃ u ∈ c, (∃ e ∈ sl, u.similar e.1 = true) ∨ u.freeRoot env = true := by
    simp only [permVal, listed, List.all_eq_true, List.any_eq_true, Bool.or_eq_true]
  unfold canModifyVal
  cases env.flags.mustMod
  · exact ⟨_, sl, by rw [checkModifyVal_eq env sl s hr]; rfl, hp⟩
  · exact ⟨_, _, doModifyVal_eq env s hr sl, hp⟩

example : (fetch 4 (conj 3 (cvar 1 0 0) (param 2 0)) none).every notResult = true ∧
    (fetch 4 (conj 3 (cvar 1 0 0) (param 2 0)) none).alts.length = 2 := by decide

/-! ## C49: elements of the clause that are not modified -/

/-- A modification touches a listed element: a part of the storage is similar to it. -/
def Touches (s e : SRef) : Prop :=
  s.freeTop = false ∧ s.isInternal = false ∧ ∃ u ∈ s.parts, u.markable = true ∧ u.similar e = true

/-- C49: after the modifications of a function body, with `+mustmod`, an element is marked exactly if
it was marked before or some modification touched it; the elements stay the same. -/
theorem C49_marks (env : ModEnv) (l : List SRef) (hl : ∀ s ∈ l, s.every notConj = true ∧
    s.every notResult = true) (hm : env.flags.mustMod = true) :
    ∀ sl : Mods, ∃ reps sl', modifications env sl l = some (reps, sl') ∧
      sl'.map (·.1) = sl.map (·.1) ∧
      ∀ (i : Nat) e m, sl[i]? = some (e, m) → ∃ m', sl'[i]? = some (e, m') ∧
        (m' = true ↔ m = true ∨ ∃ s ∈ l, Touches s e) := by
  induction l with
  | nil =>
    intro sl
    refine ⟨[], sl, rfl, rfl, ?_⟩
    intro i e m h
    exact ⟨m, h, by simp⟩
  | cons s l ih =>
    intro sl
    obtain ⟨hc, hr⟩ := hl s (by simp)
    have h1 : ∃ b, modification env sl s = some (b, markTop sl s) := by
      by_cases hg : (env.flags.modifies && (env.hasMods || env.flags.modNoMods)) = true
      · simp only [Bool.and_eq_true] at hg
        rw [modification_eq env sl s hc hr hg.1 hg.2, hm]
        exact ⟨_, rfl⟩
      · refine ⟨false, ?_⟩
        unfold modification canModify
        rw [if_neg hg, hm]
        simp [doModify_eq env s hr sl]
    obtain ⟨b, h1⟩ := h1
    obtain ⟨reps, sl', h2, h3, h4⟩ := ih (fun s hs => hl s (by simp [hs])) (markTop sl s)
    refine ⟨b :: reps, sl', by simp [modifications, h1, h2], ?_, ?_⟩
    · rw [h3]; simp [markTop]
    · intro i e m h
      have hi : (markTop sl s)[i]? = some (e, m || s.tops.any fun t => !(t.freeTop || t.isInternal) &&
          t.parts.any fun u => u.markable && u.similar e) := by
        simp [markTop, h]
      obtain ⟨m', h5, h6⟩ := h4 i e _ hi
      refine ⟨m', h5, ?_⟩
      rw [h6, tops_single s hc]
      simp only [List.any_cons, List.any_nil, Bool.or_false, Bool.or_eq_true, Bool.and_eq_true,
        Bool.not_eq_true', Bool.or_eq_false_iff, List.any_eq_true, List.mem_cons, exists_eq_or_imp,
        Touches, and_assoc, or_assoc]

/-- C49: the end of the function reports exactly the listed objects that no modification touched. -/
theorem C49_unused (env : ModEnv) (l : List SRef) (hl : ∀ s ∈ l, s.every notConj = true ∧
    s.every notResult = true) (hm : env.flags.mustMod = true) (els : List SRef)
    (hk : ∀ e ∈ els, ∀ a k, e ≠ special a k) :
    ∃ reps sl', modifications env (els.map fun e => (e, false)) l = some (reps, sl') ∧
      ∀ e, e ∈ unused sl' ↔ e ∈ els ∧ ∀ s ∈ l, ¬ Touches s e := by
  obtain ⟨reps, sl', h1, h2, h3⟩ := C49_marks env l hl hm (els.map fun e => (e, false))
  refine ⟨reps, sl', h1, ?_⟩
  rw [List.map_map] at h2
  have h2 : sl'.map (·.1) = els := by rw [h2]; simp [Function.comp_def]
  have hmark : ∀ x ∈ sl', x.1 ∈ els ∧ (x.2 = true ↔ ∃ s ∈ l, Touches s x.1) := by
    intro x hx
    obtain ⟨i, hi⟩ := List.getElem?_of_mem hx
    have hlen : i < sl'.length := (List.getElem?_eq_some_iff.1 hi).1
    have hel : els[i]? = some x.1 := by rw [← h2, List.getElem?_map, hi]; rfl
    obtain ⟨m', h5, h6⟩ := h3 i x.1 false (by simp [hel])
    rw [hi] at h5
    obtain ⟨e1, rfl⟩ : x = (x.1, m') ∧ m' = x.2 := by
      have := Option.some.inj h5
      exact ⟨this, by rw [this]⟩
    exact ⟨List.mem_of_getElem? hel, by simpa using h6⟩
  have hunused : unused sl' = (sl'.filter fun e => !e.2).map (·.1) := by
    unfold unused
    congr 1
    apply List.filter_congr
    intro x hx
    have := hk x.1 (hmark x hx).1
    obtain ⟨y, m⟩ := x
    cases y with
    | special a k => exact absurd rfl (this a k)
    | _ => rfl
  intro e
  rw [hunused, List.mem_map]
  constructor
  · rintro ⟨x, hx, rfl⟩
    simp only [List.mem_filter, Bool.not_eq_true'] at hx
    obtain ⟨a, b⟩ := hmark x hx.1
    refine ⟨a, fun s hs ht => ?_⟩
    have := b.2 ⟨s, hs, ht⟩
    rw [hx.2] at this
    cases this
  · rintro ⟨he, hn⟩
    rw [← h2] at he
    obtain ⟨x, hx, rfl⟩ := List.mem_map.1 he
    refine ⟨x, ?_, rfl⟩
    simp only [List.mem_filter, Bool.not_eq_true']
    refine ⟨hx, ?_⟩
    cases hx2 : x.2
    · rfl
    · obtain ⟨s, hs, ht⟩ := (hmark x hx).2.1 hx2
      exact absurd ht (hn s hs)

/-- A body that modifies `p->f`, with `*p` and a global listed: the global is reported. -/
example : (modifications (allOn true) [(ptr 2 (param 1 0), false), (cvar 3 0 7, false)]
    [field 5 (ptr 6 (param 1 0)) 1]).map (fun r => unused r.2) = some [cvar 3 0 7] := by
  decide +kernel

end SRef
end Splint
