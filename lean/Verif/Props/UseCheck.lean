import Verif.Tactics
import Verif.Spec.UseCheck
/-!
# C125: uses of undefined and released storage
-/
namespace Splint
namespace UseCheck
open SRef

theorem byState_yes (env : Env) (v : SState) : lvalue.byState env v = .yes ↔ bad env.strict v = false := by
  cases v <;> simp [lvalue.byState, bad]

theorem lvalue_yes (env : Env) (st : States) (s : SRef) :
    lvalue env st s = .yes ↔ Usable env.strict st s := by
  induction s with
  | conj a x y ihx ihy =>
    unfold lvalue Usable
    by_cases h : st a = .unknown
    · simp only [h, if_true, ← ihx, ← ihy]
      by_cases h1 : lvalue env st x = .yes <;> by_cases h2 : lvalue env st y = .yes <;> simp [h1, h2]
    · simp only [h, if_false]
      exact byState_yes env _
  | _ => exact byState_yes env _

theorem byState_maybe (env : Env) (v : SState) (h : bad env.strict v = true) :
    lvalue.byState env v = .maybe ↔ v = .hoffa := by
  cases v <;> simp_all [lvalue.byState, bad]

theorem lvalue_maybe (env : Env) (st : States) (s : SRef) (h : ¬ Usable env.strict st s) :
    lvalue env st s = .maybe ↔ SomeUsable env.strict st s := by
  cases s with
  | conj a x y =>
    unfold lvalue SomeUsable
    unfold Usable at h
    by_cases hu : st a = .unknown
    · simp only [hu, if_true, ← lvalue_yes] at h ⊢
      by_cases h1 : lvalue env st x = .yes <;> by_cases h2 : lvalue env st y = .yes <;> simp_all
    · simp only [hu, if_false] at h ⊢
      exact byState_maybe env _ (by simpa using h)
  | _ => exact byState_maybe env _ (by simpa [Usable] using h)

theorem lvalue_no (env : Env) (st : States) (s : SRef) (h : ¬ Usable env.strict st s)
    (h' : ¬ SomeUsable env.strict st s) : lvalue env st s = .no := by
  cases hl : lvalue env st s with
  | no => rfl
  | yes => exact absurd ((lvalue_yes env st s).1 hl) h
  | maybe => exact absurd ((lvalue_maybe env st s h).1 hl) h'

theorem baseSafe_size (s b : SRef) (h : baseSafe s = some b) : b.size < s.size := by
  induction s with
  | conj a x y ihx ihy =>
    simp only [baseSafe] at h
    have := ihx h
    simp only [SRef.size]
    omega
  | ptr a r ih => simp only [baseSafe, Option.some.injEq] at h; subst h; simp [SRef.size]
  | field a r f ih => simp only [baseSafe, Option.some.injEq] at h; subst h; simp [SRef.size]
  | fetch a r i ih => simp only [baseSafe, Option.some.injEq] at h; subst h; simp [SRef.size]
  | _ => simp [baseSafe] at h

theorem size_pos (s : SRef) : 0 < s.size := by cases s <;> simp [SRef.size]

theorem around_baseSafe (s : SRef) :
    around s = match baseSafe s with | none => [] | some b => read b := by
  induction s with
  | conj a x y ihx ihy => simpa only [around, baseSafe] using ihx
  | _ => rfl

theorem known_step (s : SRef) (h : isUnknown s = false) :
    known s = match baseSafe s with | none => [s] | some b => s :: known b := by
  unfold known
  conv_lhs => rw [show read s = s :: around s from rfl, around_baseSafe]
  rw [List.takeWhile_cons_of_pos (by simp [h])]
  cases baseSafe s <;> rfl

/-- What the loop computes: the storage of the list in turn. -/
theorem findError_eq (env : Env) (st : States) : ∀ (n : Nat) (s : SRef) (f : Found), s.size ≤ n →
    findError env st n s f = (known s).foldl (fun f r => look env st r f) f := by
  intro n
  induction n with
  | zero => intro s f h; have := size_pos s; omega
  | succ n ih =>
    intro s f h
    unfold findError
    cases hu : isUnknown s with
    | true => simp [known, read, hu]
    | false =>
      rw [known_step s hu]
      simp only [Bool.false_eq_true, if_false]
      cases hb : baseSafe s with
      | none => rfl
      | some b =>
        have := baseSafe_size s b hb
        simp only [List.foldl_cons]
        exact ih b _ (by omega)

/-- The storage of the list that may not be read. -/
def wrong (env : Env) (st : States) (l : List SRef) : List SRef :=
  l.filter fun r => decide (¬ Usable env.strict st r)

theorem fold_wrong (env : Env) (st : States) (l : List SRef) : ∀ f : Found,
    l.foldl (fun f r => look env st r f) f = (wrong env st l).foldl (fun f r => look env st r f) f := by
  induction l with
  | nil => intro f; rfl
  | cons r l ih =>
    intro f
    by_cases h : Usable env.strict st r
    · have : look env st r f = f := by unfold look; rw [(lvalue_yes env st r).2 h]
      rw [List.foldl_cons, this, ih]
      simp [wrong, h]
    · rw [List.foldl_cons, ih]
      simp [wrong, h]

theorem look_wrong (env : Env) (st : States) (r : SRef) (f : Found) (h : ¬ Usable env.strict st r) :
    (look env st r f).error = some r ∧ (look env st r f).last = f.error := by
  unfold look
  cases hl : lvalue env st r with
  | yes => exact absurd ((lvalue_yes env st r).1 hl) h
  | maybe => exact ⟨rfl, rfl⟩
  | no => exact ⟨rfl, rfl⟩

theorem fold_concat (env : Env) (st : States) (l : List SRef) (r : SRef) (f : Found) :
    (l ++ [r]).foldl (fun f r => look env st r f) f =
      look env st r (l.foldl (fun f r => look env st r f) f) := by
  rw [List.foldl_append]; rfl

theorem fold_error (env : Env) (st : States) (l : List SRef) (h : ∀ r ∈ l, ¬ Usable env.strict st r) :
    (l.foldl (fun f r => look env st r f) {}).error = l.getLast? := by
  rcases List.eq_nil_or_concat l with rfl | ⟨l', r, rfl⟩
  · rfl
  · rw [List.concat_eq_append] at h ⊢
    rw [fold_concat, (look_wrong env st r _ (h r (by simp))).1]
    simp

theorem wrong_mem (env : Env) (st : States) (l : List SRef) (r : SRef) :
    r ∈ wrong env st l ↔ r ∈ l ∧ ¬ Usable env.strict st r := by
  simp [wrong]

/-- Whether uses are checked at all. -/
def Active (env : Env) (s : SRef) : Prop :=
  isUnknown s = false ∧ isConst s = false ∧ env.protect = false

instance (env : Env) (s : SRef) : Decidable (Active env s) := by unfold Active; infer_instance

/-- What the loop finds. -/
def found (env : Env) (st : States) (s : SRef) : Found :=
  (wrong env st (known s)).foldl (fun f r => look env st r f) {}

theorem checkUse_active (env : Env) (st : States) (s : SRef) (h : Active env s) :
    checkUse env st s = match (wrong env st (known s)).getLast? with
      | none => (none, st)
      | some e => (some (report (found env st s) (chosen (found env st s) e)),
          afterReport env (chosen (found env st s) e) st) := by
  unfold checkUse
  have hf : findError env st s.size s {} = found env st s := by
    rw [findError_eq env st _ s _ (Nat.le_refl _), fold_wrong]; rfl
  have he : (found env st s).error = (wrong env st (known s)).getLast? :=
    fold_error env st _ (fun r hr => ((wrong_mem env st _ r).1 hr).2)
  simp only [h.1, h.2.1, h.2.2, Bool.or_self, Bool.false_eq_true, if_false, hf, he]
  cases (wrong env st (known s)).getLast? <;> rfl

/-- C125: a use is reported exactly if the storage, or storage that contains it, may not be read
(up to unknown storage). -/
theorem C125_reported (env : Env) (st : States) (s : SRef) (h : Active env s) :
    (checkUse env st s).1 ≠ none ↔ ∃ r ∈ known s, ¬ Usable env.strict st r := by
  rw [checkUse_active env st s h]
  cases hw : (wrong env st (known s)).getLast? with
  | none =>
    rw [List.getLast?_eq_none_iff] at hw
    simp only [ne_eq, not_true_eq_false, false_iff, not_exists, not_and, not_not]
    intro r hr
    by_contra hu
    have := (wrong_mem env st _ r).2 ⟨hr, hu⟩
    rw [hw] at this
    cases this
  | some e =>
    have := (wrong_mem env st _ e).1 (List.mem_of_getLast? hw)
    exact ⟨fun _ => ⟨e, this⟩, fun _ => by simp⟩

/-- Storage without unknown parts is read to the end. -/
theorem C125_known (s : SRef) (h : ∀ r ∈ read s, isUnknown r = false) : known s = read s := by
  unfold known
  have : ∀ l : List SRef, (∀ r ∈ l, isUnknown r = false) → l.takeWhile (fun r => !isUnknown r) = l := by
    intro l
    induction l with
    | nil => intro _; rfl
    | cons a l ih =>
      intro h
      rw [List.takeWhile_cons_of_pos (by simp [h a List.mem_cons_self]),
        ih fun r hr => h r (List.mem_cons_of_mem _ hr)]
  exact this _ h

/-- Unknown storage, constants, and everything in a part of the text whose variables are protected are
not checked. -/
theorem C125_inactive (env : Env) (st : States) (s : SRef) (h : ¬ Active env s) :
    checkUse env st s = (none, st) := by
  unfold checkUse
  have : (isUnknown s || isConst s || env.protect) = true := by
    unfold Active at h
    cases h1 : isUnknown s <;> cases h2 : isConst s <;> cases h3 : env.protect <;> simp_all
  rw [if_pos this]

theorem fold_last (env : Env) (st : States) (l : List SRef) (x y : SRef)
    (h : ∀ r ∈ l ++ [x, y], ¬ Usable env.strict st r) :
    ((l ++ [x, y]).foldl (fun f r => look env st r f) {}).last = some x := by
  have e : l ++ [x, y] = (l ++ [x]) ++ [y] := by simp
  rw [e, fold_concat, (look_wrong env st y _ (h y (by simp))).2,
    fold_error env st (l ++ [x]) (fun r hr => h r (by
      rcases List.mem_append.1 hr with h' | h'
      · exact List.mem_append_left _ h'
      · exact List.mem_append_right _ (List.mem_cons.2 (Or.inl (List.mem_singleton.1 h')))))]
  simp

/-- C125: the report is about the outermost storage that may not be read; if that is the target of a
pointer and the next one is a field, about the field. -/
theorem C125_which (env : Env) (st : States) (s : SRef) (h : Active env s) (l : List SRef) (e : SRef)
    (hw : (known s).filter (fun r => decide (¬ Usable env.strict st r)) = l ++ [e]) :
    ∃ r, (checkUse env st s).1 = some r ∧
      r.ref = match l.getLast? with
        | some x => if isField x && isPointer e then x else e
        | none => e := by
  have hw' : wrong env st (known s) = l ++ [e] := hw
  rw [checkUse_active env st s h]
  have hl : (wrong env st (known s)).getLast? = some e := by rw [hw']; simp
  rw [hl]
  refine ⟨_, rfl, ?_⟩
  have hr : ∀ (f : Found) (x : SRef), (report f x).ref = x := by
    intro f x; unfold report; split
    · split <;> rfl
    · split <;> rfl
  rw [hr]
  unfold chosen
  have hlast : (found env st s).last = l.getLast? := by
    have hall : ∀ r ∈ l ++ [e], ¬ Usable env.strict st r := by
      intro r hr; rw [← hw'] at hr; exact ((wrong_mem env st _ r).1 hr).2
    unfold found
    rw [hw']
    rcases List.eq_nil_or_concat l with rfl | ⟨l', x, rfl⟩
    · exact (look_wrong env st e _ (hall e (by simp))).2
    · rw [List.concat_eq_append] at hall ⊢
      rw [List.append_assoc] at hall ⊢
      rw [show [x] ++ [e] = [x, e] from rfl] at hall ⊢
      rw [fold_last env st l' x e hall]
      simp
  rw [hlast]
  cases l.getLast? <;> rfl

theorem isFetch_iff : ∀ (s : SRef), throughFetch.isFetch s = true ↔ Element s
  | fetch .. => by simp [throughFetch.isFetch, Element.fetch]
  | conj a x y => by
    rw [throughFetch.isFetch, Bool.or_eq_true_iff, isFetch_iff x, isFetch_iff y]
    constructor
    · rintro (h | h)
      · exact .left h
      · exact .right h
    · intro h
      cases h with
      | left h => exact Or.inl h
      | right h => exact Or.inr h
  | cvar .. | param .. | field .. | ptr .. | adr .. | derived .. | external .. | object ..
  | unconstrained .. | special .. | const _ | new _ | type _ | result _ | unknown _ => by
    constructor
    · intro h; simp [throughFetch.isFetch] at h
    · intro h; cases h

theorem throughFetch_iff : ∀ (s : SRef), throughFetch s = true ↔ InElement s
  | fetch .. => by simp [throughFetch, InElement.element Element.fetch]
  | conj a x y => by
    rw [throughFetch, Bool.or_eq_true_iff, Bool.or_eq_true_iff, isFetch_iff x, isFetch_iff y, throughFetch_iff x]
    constructor
    · rintro ((h | h) | h)
      · exact .element (.left h)
      · exact .element (.right h)
      · exact .first h
    · intro h
      cases h with
      | element h =>
        cases h with
        | left h => exact Or.inl (Or.inl h)
        | right h => exact Or.inl (Or.inr h)
      | first h => exact Or.inr h
  | ptr _ r => by
    rw [throughFetch, throughFetch_iff r]
    exact ⟨.ptr, fun h => by cases h with | element h => cases h | ptr h => exact h⟩
  | field _ r _ => by
    rw [throughFetch, throughFetch_iff r]
    exact ⟨.field, fun h => by cases h with | element h => cases h | field h => exact h⟩
  | adr _ r => by
    rw [throughFetch, throughFetch_iff r]
    exact ⟨.adr, fun h => by cases h with | element h => cases h | adr h => exact h⟩
  | derived _ r => by
    rw [throughFetch, throughFetch_iff r]
    exact ⟨.derived, fun h => by cases h with | element h => cases h | derived h => exact h⟩
  | external _ r => by
    rw [throughFetch, throughFetch_iff r]
    exact ⟨.external, fun h => by cases h with | element h => cases h | external h => exact h⟩
  | cvar .. | param .. | object ..
  | unconstrained .. | special .. | const _ | new _ | type _ | result _ | unknown _ => by
    constructor
    · intro h; simp [throughFetch] at h
    · intro h; cases h with | element h => cases h

/-- The message for the storage `e` with state `v`. -/
def verdict (strict : Bool) (st : States) (e : SRef) (r : Report) : Prop :=
  (r.msg = .released ↔ st e.addr = .dead ∨ st e.addr = .hoffa) ∧
  (r.msg = .inconsistent ↔ st e.addr = .unuseable) ∧
  (r.flag = .useDef ↔ r.msg ≠ .released) ∧
  (r.msg = .released → (r.flag = .strictUseReleased ↔ InElement r.ref)) ∧
  (r.hedged = true ↔ SomeUsable strict st e ∨ r.flag = .strictUseReleased)

theorem some_hoffa (strict : Bool) (st : States) (e : SRef) (h : st e.addr = .hoffa) :
    SomeUsable strict st e := by
  cases e <;> simp_all [SomeUsable, SRef.addr]

theorem not_some (strict : Bool) (st : States) (e : SRef) (h : st e.addr ≠ .hoffa)
    (h' : st e.addr ≠ .unknown) : ¬ SomeUsable strict st e := by
  cases e <;> simp_all [SomeUsable, SRef.addr]

/-- C125: what the report says follows from the state of the outermost storage that may not be
read. -/
theorem C125_verdict (env : Env) (st : States) (s : SRef) (h : Active env s) (l : List SRef) (e : SRef)
    (hw : (known s).filter (fun r => decide (¬ Usable env.strict st r)) = l ++ [e]) :
    ∃ r, (checkUse env st s).1 = some r ∧ verdict env.strict st e r := by
  have hw' : wrong env st (known s) = l ++ [e] := hw
  have hu : ¬ Usable env.strict st e :=
    ((wrong_mem env st _ e).1 (by rw [hw']; simp)).2
  rw [checkUse_active env st s h]
  have hl : (wrong env st (known s)).getLast? = some e := by rw [hw']; simp
  rw [hl]
  refine ⟨_, rfl, ?_⟩
  have hf : found env st s = look env st e (l.foldl (fun f r => look env st r f) {}) := by
    unfold found; rw [hw', fold_concat]
  rw [hf]
  generalize hg : l.foldl (fun f r => look env st r f) {} = g
  generalize hc : chosen (look env st e g) e = c
  unfold verdict report
  rw [← throughFetch_iff]
  by_cases hs : SomeUsable env.strict st e
  · have hl := (lvalue_maybe env st e hu).2 hs
    have hd : st e.addr ≠ .dead := fun hd => not_some env.strict st e (by simp [hd]) (by simp [hd]) hs
    have hn : st e.addr ≠ .unuseable := fun hd => not_some env.strict st e (by simp [hd]) (by simp [hd]) hs
    have hk : look env st e g = ⟨some e, g.error, st e.addr == .hoffa, st e.addr == .unuseable, true⟩ := by
      unfold look; rw [hl]
    rw [hk]
    by_cases hh : st e.addr = .hoffa
    · cases ht : throughFetch c <;> simp [hh, hs, ht]
    · simp [hh, hs, hd, hn]
  · have hl := lvalue_no env st e hu hs
    have hh : st e.addr ≠ .hoffa := fun hh => hs (some_hoffa env.strict st e hh)
    have hk : look env st e g = ⟨some e, g.error, st e.addr == .dead, st e.addr == .unuseable, false⟩ := by
      unfold look; rw [hl]
    rw [hk]
    by_cases hd : st e.addr = .dead
    · cases ht : throughFetch c <;> simp [hd, hs, ht]
    · by_cases hn : st e.addr = .unuseable
      · simp [hn, hs]
      · simp [hd, hn, hs, hh]

/-! ## Released storage -/

/-- C125 in full: a use of storage all alternatives of which are released is reported as such. -/
def C125_full : Prop :=
  ∀ (env : Env) (st : States) (s : SRef), Active env s → AllDead st s → around s = [] →
    ∃ r, (checkUse env st s).1 = some r ∧ r.msg = .released

/-- `free (p); free (q); use (c ? p : q)`: "used before definition". -/
theorem C125_full_is_false : ¬ C125_full := by
  intro h
  obtain ⟨r, h1, h2⟩ := h ⟨false, false, fun _ => false, fun _ => false⟩
    (fun a => if a = 3 then .unknown else .dead) (conj 3 (cvar 1 2 0) (cvar 2 2 1))
    ⟨rfl, rfl, rfl⟩ (Or.inr ⟨rfl, rfl, rfl⟩) rfl
  have e : (checkUse ⟨false, false, fun _ => false, fun _ => false⟩
    (fun a => if a = 3 then .unknown else .dead) (conj 3 (cvar 1 2 0) (cvar 2 2 1))).1 =
    some ⟨.useDef, .undefined, conj 3 (cvar 1 2 0) (cvar 2 2 1), false⟩ := by decide
  rw [e] at h1
  cases h1
  cases h2

theorem single (env : Env) (st : States) (s : SRef) (h : Active env s) (ha : around s = [])
    (hu : ¬ Usable env.strict st s) :
    (known s).filter (fun r => decide (¬ Usable env.strict st r)) = [] ++ [s] := by
  have : known s = [s] := by
    unfold known read
    rw [ha]
    simp [h.1]
  rw [this]
  simp [hu]

/-- C125, the other way: alternatives without a state of their own are never reported as released,
whatever has been released. -/
theorem C125_alternatives (env : Env) (st : States) (a : Nat) (x y : SRef)
    (h : Active env (conj a x y)) (hs : st a = .unknown) (ha : around (conj a x y) = [])
    (hu : ¬ (Usable env.strict st x ∧ Usable env.strict st y)) :
    ∃ r, (checkUse env st (conj a x y)).1 = some r ∧ r.flag = .useDef ∧ r.msg = .undefined := by
  have hu' : ¬ Usable env.strict st (conj a x y) := by
    unfold Usable; rw [if_pos hs]; exact hu
  obtain ⟨r, h1, h2, h3, h4, _⟩ := C125_verdict env st _ h [] _ (single env st _ h ha hu')
  have e : st (conj a x y).addr = .unknown := hs
  rw [e] at h2 h3
  have hm : r.msg ≠ .released := by simp at h2; exact h2
  have hi : r.msg ≠ .inconsistent := by simp at h3; exact h3
  refine ⟨r, h1, h4.2 hm, ?_⟩
  cases hr : r.msg
  · exact absurd hr hm
  · exact absurd hr hi
  · rfl

/-- C125, partial: for storage with a state of its own that is not part of other storage, released
storage is reported as such. Missing: alternatives (`C125_alternatives`). -/
theorem C125_partial (env : Env) (st : States) (s : SRef) (h : Active env s) (hd : st s.addr = .dead)
    (ha : around s = []) :
    ∃ r, (checkUse env st s).1 = some r ∧ r.msg = .released ∧ (r.hedged = true ↔ InElement s) := by
  have hu : ¬ Usable env.strict st s := by
    cases s <;> simp_all [Usable, SRef.addr, bad]
  obtain ⟨r, h1, h2, h3, h4, h5, h6⟩ := C125_verdict env st s h [] s (single env st s h ha hu)
  obtain ⟨r', h1', hr'⟩ := C125_which env st s h [] s (single env st s h ha hu)
  rw [h1] at h1'
  cases h1'
  have hr : r.ref = s := hr'
  have hm : r.msg = .released := h2.2 (Or.inl hd)
  refine ⟨r, h1, hm, ?_⟩
  have hs := not_some env.strict st s (by simp [hd]) (by simp [hd])
  rw [h6, h5 hm, hr]
  simp [hs]

example : Active ⟨false, false, fun _ => false, fun _ => false⟩ (cvar 1 2 0) ∧
    around (conj 3 (cvar 1 2 0) (cvar 2 2 1)) = [] := by decide

/-! ## What follows a report -/

/-- States that differ only by storage that has become defined. -/
def Better (st st' : States) : Prop := ∀ a, st' a = st a ∨ st' a = .defined

theorem Better.refl (st : States) : Better st st := fun _ => Or.inl rfl

theorem Better.trans {a b c : States} (h : Better a b) (h' : Better b c) : Better a c := by
  intro x
  rcases h' x with h1 | h1
  · rw [h1]; exact h x
  · exact Or.inr h1

theorem better_set (st : States) (a : Nat) : Better st (set st a .defined) := by
  intro b
  unfold set
  by_cases h : b = a
  · simp [h]
  · simp [h]

theorem setDefined_better (env : Env) (s : SRef) : ∀ st, Better st (setDefined env s st) := by
  induction s with
  | ptr a p ih =>
    intro st
    unfold setDefined
    simp only
    split
    · exact (better_set st a).trans (ih _)
    · exact better_set st a
  | field a p f ih =>
    intro st
    unfold setDefined
    simp only
    split
    · exact (better_set st a).trans (ih _)
    · exact better_set st a
  | fetch a p i ih =>
    intro st
    unfold setDefined
    simp only
    split
    · refine (better_set st a).trans ?_
      generalize set st a .defined = st1
      have h1 : Better st1 (if env.openTarget p = true ∧ (st1 p.addr = .allocated ∨ st1 p.addr = .special)
          then setDefined env p st1 else st1) := by
        split
        · exact ih _
        · exact Better.refl _
      refine h1.trans ?_
      generalize (if env.openTarget p = true ∧ (st1 p.addr = .allocated ∨ st1 p.addr = .special)
          then setDefined env p st1 else st1) = st2
      split
      · exact better_set st2 _
      · exact Better.refl _
    · exact better_set st a
  | _ => intro st; exact better_set st _

theorem better_defined (st st' : States) (h : Better st st') (a : Nat) (ha : st a = .defined) :
    st' a = .defined := by
  rcases h a with h' | h'
  · rw [h', ha]
  · exact h'

theorem setDefined_self (env : Env) (s : SRef) (st : States) : setDefined env s st s.addr = .defined := by
  have hset : ∀ (st : States) (a : Nat), set st a .defined a = .defined := by intro st a; simp [set]
  cases s with
  | ptr a p =>
    show setDefined env (ptr a p) st a = .defined
    unfold setDefined
    simp only
    split
    · exact better_defined _ _ (setDefined_better env p _) a (hset st a)
    · exact hset st a
  | field a p f =>
    show setDefined env (field a p f) st a = .defined
    unfold setDefined
    simp only
    split
    · exact better_defined _ _ (setDefined_better env p _) a (hset st a)
    · exact hset st a
  | fetch a p i =>
    show setDefined env (fetch a p i) st a = .defined
    unfold setDefined
    simp only
    have h0 := hset st a
    generalize set st a .defined = st1 at h0
    split
    · have h1 : (if env.openTarget p = true ∧ (st1 p.addr = .allocated ∨ st1 p.addr = .special)
          then setDefined env p st1 else st1) a = .defined := by
        split
        · exact better_defined _ _ (setDefined_better env p _) a h0
        · exact h0
      generalize (if env.openTarget p = true ∧ (st1 p.addr = .allocated ∨ st1 p.addr = .special)
          then setDefined env p st1 else st1) = st2 at h1
      split
      · exact better_defined _ _ (better_set st2 _) a h1
      · exact h1
    · exact h0
  | _ => exact hset st _

theorem afterReport_better (env : Env) (e : SRef) (st : States) : Better st (afterReport env e st) := by
  unfold afterReport
  split
  · split
    · exact (setDefined_better env e st).trans (setDefined_better env _ _)
    · exact setDefined_better env e st
  · exact setDefined_better env e st

theorem afterReport_self (env : Env) (e : SRef) (st : States) : afterReport env e st e.addr = .defined := by
  unfold afterReport
  split
  · cases e.rootBase with
    | none => exact setDefined_self env e st
    | some r => exact better_defined _ _ (setDefined_better env r _) _ (setDefined_self env e st)
  · exact setDefined_self env e st

theorem afterReport_root (env : Env) (e b : SRef) (st : States) (ha : isAddress e = true)
    (hb : e.rootBase = some b) : afterReport env e st b.addr = .defined := by
  unfold afterReport
  rw [if_pos ha, hb]
  exact setDefined_self env b _

theorem usable_better (strict : Bool) (st st' : States) (h : Better st st') (s : SRef)
    (hs : Usable strict st s) : Usable strict st' s := by
  induction s with
  | conj a x y ihx ihy =>
    unfold Usable at hs ⊢
    rcases h a with h' | h'
    · rw [h']
      by_cases hu : st a = .unknown
      · rw [if_pos hu] at hs ⊢; exact ⟨ihx hs.1, ihy hs.2⟩
      · rw [if_neg hu] at hs ⊢; exact hs
    · simp [h', bad]
  | _ =>
    rename_i a
    simp only [Usable, SRef.addr] at hs ⊢
    rcases h _ with h' | h'
    · rw [h']; exact hs
    · rw [h']; rfl

theorem usable_defined (strict : Bool) (st : States) (s : SRef) (h : st s.addr = .defined) :
    Usable strict st s := by
  cases s <;> simp_all [Usable, SRef.addr, bad]

/-- C125: a use makes no storage unusable, and what was reported is usable afterwards. -/
theorem C125_after (env : Env) (st : States) (s : SRef) :
    (∀ u, Usable env.strict st u → Usable env.strict (checkUse env st s).2 u) ∧
    ∀ r, (checkUse env st s).1 = some r → ¬ Usable env.strict st r.ref ∧ r.ref ∈ known s ∧
      Usable env.strict (checkUse env st s).2 r.ref := by
  by_cases h : Active env s
  · rw [checkUse_active env st s h]
    cases hw : (wrong env st (known s)).getLast? with
    | none =>
      refine ⟨fun u hu => hu, fun r hr => ?_⟩
      cases hr
    | some e =>
      refine ⟨fun u hu => usable_better _ _ _ (afterReport_better env _ st) u hu, fun r hr => ?_⟩
      obtain ⟨l, hl⟩ : ∃ l, wrong env st (known s) = l ++ [e] := by
        rcases List.eq_nil_or_concat (wrong env st (known s)) with h' | ⟨l, x, h'⟩
        · rw [h'] at hw; cases hw
        · rw [List.concat_eq_append] at h'
          rw [h'] at hw
          simp only [List.getLast?_append, List.getLast?_singleton, Option.some_or, Option.some.injEq] at hw
          subst hw
          exact ⟨l, h'⟩
      obtain ⟨r', hr', href⟩ := C125_which env st s h l e hl
      rw [checkUse_active env st s h, hw] at hr'
      have hrr : r = r' := by
        simp only [Option.some.injEq] at hr hr'
        rw [← hr, ← hr']
      have hch : r.ref = chosen (found env st s) e := by
        simp only [Option.some.injEq] at hr
        rw [← hr]
        unfold report; split
        · split <;> rfl
        · split <;> rfl
      have hmem : r.ref ∈ wrong env st (known s) := by
        rw [hrr, href, hl]
        cases hlast : l.getLast? with
        | none => simp
        | some x =>
          simp only
          split
          · exact List.mem_append_left _ (List.mem_of_getLast? hlast)
          · simp
      obtain ⟨h1, h2⟩ := (wrong_mem env st _ _).1 hmem
      refine ⟨h2, h1, ?_⟩
      rw [hch]
      exact usable_defined _ _ _ (afterReport_self env _ st)
  · rw [C125_inactive env st s h]
    refine ⟨fun u hu => hu, fun r hr => ?_⟩
    cases hr

/-- The number of levels that may not be read. -/
def levels (env : Env) (st : States) (s : SRef) : Nat :=
  ((known s).filter fun r => decide (¬ Usable env.strict st r)).length

theorem filter_lt (l : List SRef) (p q : SRef → Bool) (h : ∀ r ∈ l, q r = true → p r = true)
    (x : SRef) (hx : x ∈ l) (hp : p x = true) (hq : q x = false) :
    (l.filter q).length < (l.filter p).length := by
  induction l with
  | nil => cases hx
  | cons a l ih =>
    have hle : (l.filter q).length ≤ (l.filter p).length := by
      have h' : ∀ r ∈ l, q r = true → p r = true := fun r hr => h r (List.mem_cons_of_mem _ hr)
      clear ih hx h
      induction l with
      | nil => exact Nat.le_refl _
      | cons b l ih =>
        have := ih (fun r hr => h' r (List.mem_cons_of_mem _ hr))
        simp only [List.filter_cons]
        cases hqb : q b with
        | true => rw [h' b List.mem_cons_self hqb]; simpa using this
        | false => cases p b <;> simp <;> omega
    rcases List.mem_cons.1 hx with rfl | hx'
    · simp only [List.filter_cons, hp, hq]
      simp
      omega
    · have := ih (fun r hr => h r (List.mem_cons_of_mem _ hr)) hx'
      simp only [List.filter_cons]
      cases hqb : q a with
      | true => rw [h a List.mem_cons_self hqb]; simpa using this
      | false => cases p a <;> simp <;> omega

theorem levels_report (env : Env) (st : States) (s : SRef) (r : Report)
    (hr : (checkUse env st s).1 = some r) : levels env (checkUse env st s).2 s < levels env st s := by
  obtain ⟨h1, h2⟩ := C125_after env st s
  obtain ⟨h3, h4, h5⟩ := h2 r hr
  refine filter_lt _ _ _ ?_ r.ref h4 (by simpa using h3) (by simpa using h5)
  intro u _ hu
  simp only [decide_not, Bool.not_eq_true', decide_eq_false_iff_not] at hu ⊢
  exact fun hh => hu (h1 u hh)

/-- C125: however often the same storage is used, there are at most as many reports as levels that
may not be read at first; the first uses are those that are reported. -/
theorem C125_repeat (env : Env) (s : SRef) (n : Nat) : ∀ st : States,
    ∃ k, k ≤ levels env st s ∧ ∃ l : List Report, l.length = min k n ∧
      (uses env s n st).1 = l.map some ++ List.replicate (n - k) none := by
  induction n with
  | zero => intro st; exact ⟨0, by omega, [], rfl, rfl⟩
  | succ n ih =>
    intro st
    cases hr : (checkUse env st s).1 with
    | none =>
      have hst : (checkUse env st s).2 = st := by
        by_cases h : Active env s
        · rw [checkUse_active env st s h] at hr ⊢
          cases hw : (wrong env st (known s)).getLast? with
          | none => rfl
          | some e => rw [hw] at hr; cases hr
        · rw [C125_inactive env st s h]
      have hall : ∀ m, (uses env s m st).1 = List.replicate m none := by
        intro m
        induction m with
        | zero => rfl
        | succ m ihm => simp only [uses, hr, hst, ihm, List.replicate_succ]
      exact ⟨0, by omega, [], by simp, by rw [hall]; simp⟩
    | some r =>
      obtain ⟨k, hk, l, hl, hu⟩ := ih (checkUse env st s).2
      have := levels_report env st s r hr
      refine ⟨k + 1, by omega, r :: l, by simp [hl], ?_⟩
      simp only [uses, hr, hu, List.map_cons, List.cons_append]
      have : n + 1 - (k + 1) = n - k := by omega
      rw [this]

/-- `p->f` where `p` is not defined: three levels, three reports. -/
example : (uses ⟨false, false, fun _ => false, fun _ => false⟩ (field 3 (ptr 2 (cvar 1 2 0)) 7) 4
    (fun a => if a = 1 then .undefined else .unuseable)).1 =
    [some ⟨.useDef, .undefined, cvar 1 2 0, false⟩,
     some ⟨.useDef, .inconsistent, field 3 (ptr 2 (cvar 1 2 0)) 7, false⟩,
     some ⟨.useDef, .inconsistent, ptr 2 (cvar 1 2 0), false⟩, none] := by decide

/-- C125: after a report about an address, the storage whose address it is counts as defined too. -/
theorem C125_address (env : Env) (st : States) (s b : SRef) (r : Report)
    (hr : (checkUse env st s).1 = some r) (ha : isAddress r.ref = true) (hb : r.ref.rootBase = some b) :
    Usable env.strict (checkUse env st s).2 b := by
  by_cases h : Active env s
  · rw [checkUse_active env st s h] at hr ⊢
    cases hw : (wrong env st (known s)).getLast? with
    | none => rw [hw] at hr; cases hr
    | some e =>
      rw [hw] at hr
      have hch : r.ref = chosen (found env st s) e := by
        simp only [Option.some.injEq] at hr
        rw [← hr]
        unfold report; split
        · split <;> rfl
        · split <;> rfl
      rw [hch] at ha hb
      exact usable_defined _ _ _ (afterReport_root env _ b st ha hb)
  · rw [C125_inactive env st s h] at hr
    cases hr

example : (checkUse ⟨false, false, fun _ => false, fun _ => false⟩ (fun _ => .undefined)
    (adr 2 (cvar 1 2 0))).1 = some ⟨.useDef, .undefined, adr 2 (cvar 1 2 0), false⟩ ∧
    (adr 2 (cvar 1 2 0)).rootBase = some (cvar 1 2 0) := by decide

/-- C125: after a report about the target of a pointer, or the first or an unknown element of an array,
a pointer that pointed to allocated storage points to defined storage; after one about a field of a
union, the union is defined. -/
theorem C125_pointer (env : Env) (st : States) (a : Nat) (p : SRef) (h : st p.addr = .allocated)
    (hne : p.addr ≠ a) : setDefined env (ptr a p) st p.addr = .defined := by
  unfold setDefined
  have : set st a .defined p.addr = .allocated := by simp [set, hne, h]
  simp only [this]
  exact setDefined_self env p _

theorem C125_union (env : Env) (st : States) (a f : Nat) (p : SRef) (h : env.isUnion p = true) :
    setDefined env (field a p f) st p.addr = .defined := by
  unfold setDefined
  simp only [h]
  exact setDefined_self env p _

theorem C125_element (env : Env) (st : States) (a : Nat) (p : SRef) (i : Option Int)
    (hi : i = none ∨ i = some 0) (h : st p.addr = .allocated ∨ st p.addr = .pDefined) (hne : p.addr ≠ a) :
    setDefined env (fetch a p i) st p.addr = .defined := by
  unfold setDefined
  simp only [hi, if_true]
  have h1 : set st a .defined p.addr = st p.addr := by simp [set, hne]
  rw [h1]
  by_cases hc : env.openTarget p = true ∧ (st p.addr = .allocated ∨ st p.addr = .special)
  · rw [if_pos hc]
    have := setDefined_self env p (set st a .defined)
    simp [this]
  · rw [if_neg hc, h1]
    rcases h with h | h <;> simp [h, set]

/-- Other elements leave the array alone. -/
theorem C125_other_element (env : Env) (st : States) (a : Nat) (p : SRef) (n : Int) (hn : n ≠ 0)
    (b : Nat) (hb : b ≠ a) : setDefined env (fetch a p (some n)) st b = st b := by
  unfold setDefined
  simp [hn, set, hb]

/-- A field of a structure leaves the structure alone. -/
theorem C125_field (env : Env) (st : States) (a f : Nat) (p : SRef) (h : env.isUnion p = false)
    (b : Nat) (hb : b ≠ a) : setDefined env (field a p f) st b = st b := by
  unfold setDefined
  simp [h, set, hb]

end UseCheck
end Splint
