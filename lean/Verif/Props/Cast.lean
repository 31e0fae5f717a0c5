import Verif.Spec.Cast
/-!
# Casts
-/
namespace Splint.CastProps
open Splint.Cast Splint.CastSpec

variable {E : Env}

/-! ## What types are made of -/

theorem real_made {c : Ty} (h : isAbstract (realType E c) = true) :
    ∃ n i r, realType E c = .abst n i r ∧ E.access i = false ∧ MadeOf E.access c i := by
  induction c with
  | user i r ih =>
    obtain ⟨n, j, q, h1, h2, h3⟩ := ih h
    exact ⟨n, j, q, h1, h2, .user h3⟩
  | abst n i r ih =>
    by_cases ha : E.access i = true
    · have e : realType E (.abst n i r) = realType E r := by simp [realType, ha]
      rw [e] at h ⊢
      obtain ⟨n, j, q, h1, h2, h3⟩ := ih h
      exact ⟨n, j, q, h1, h2, .rep ha h3⟩
    · have ha' : E.access i = false := by simpa using ha
      exact ⟨n, i, r, by simp [realType, ha'], ha', .abst ha'⟩
  | _ => simp [realType, isAbstract] at h

theorem base_made {c : Ty} {j : Nat} (h : MadeOf E.access (getBase c) j) : MadeOf E.access c j := by
  induction c with
  | ptr b ih => exact .ptr (ih h)
  | arr b ih => exact .arr (ih h)
  | _ => exact h

theorem made_base {c : Ty} {j : Nat} (h : MadeOf E.access c j) : MadeOf E.access (getBase c) j := by
  induction c with
  | ptr b ih => cases h with | ptr h => exact ih h
  | arr b ih => cases h with | arr h => exact ih h
  | _ => exact h

theorem closed_made {c : Ty} (h : closed E (getBase c) = true) : ∃ j, MadeOf E.access c j := by
  simp only [closed, Bool.and_eq_true] at h
  obtain ⟨_, i, _, _, _, hm⟩ := real_made h.1
  exact ⟨i, base_made hm⟩

theorem plain_made {c : Ty} (h : isAbstract (realType E (getBase c)) = true) : ∃ j, MadeOf E.access c j := by
  obtain ⟨_, i, _, _, _, hm⟩ := real_made h
  exact ⟨i, base_made hm⟩

theorem names_real {c : Ty} {j : Nat} (h : Names c j) (ha : E.access j = false) :
    isAbstract (realType E c) = true := by
  induction h with
  | abst => simp [realType, ha, isAbstract]
  | user _ ih => simpa [realType] using ih ha

theorem bare_closed {c : Ty} {j : Nat} (hb : Bare E.access c) (hm : MadeOf E.access c j) :
    closed E (getBase c) = true := by
  induction hb with
  | ptr _ ih => cases hm with | ptr hm => exact ih hm
  | arr _ ih => cases hm with | arr hm => exact ih hm
  | free hf => exact absurd hm (hf j)
  | abst ha => simp [closed, getBase, realType, ha, isAbstract, accessTo]
  | name ha hn hj =>
    have := names_real hn hj
    simp [closed, getBase, realType, this, accessTo, ha]

theorem plain_access {b : Ty} (h : isAbstract (realType E b) = true) : accessTo E (realType E b) = false := by
  obtain ⟨n, i, r, h1, h2, _⟩ := real_made h
  simp [h1, accessTo, h2]

theorem fcn_not_crossing {c t : Ty} {r : Rep} (h : r ∈ fcnReports E c t) : ¬Crossing r := by
  simp only [fcnReports, List.mem_append] at h
  rcases h with h | h <;> split at h <;> simp_all [Crossing]

theorem expose_not_crossing {c : Ty} {e : Operand} {r : Rep} (h : r ∈ exposeReports E c e) : ¬Crossing r := by
  simp only [exposeReports] at h
  split at h
  · split at h
    · simp at h
    · split at h <;> simp_all [Crossing]
  · simp at h

theorem ptr_sound {c : Ty} {e : Operand} {r : Rep} (h : r ∈ ptrReports E c e) :
    closed E (getBase c) = true ∨ closed E (getBase e.t) = true := by
  simp only [ptrReports] at h
  by_contra hn
  push Not at hn
  obtain ⟨h1, h2⟩ := hn
  simp [h1, h2] at h

theorem plain_sound {c : Ty} {e : Operand} {r : Rep} (h : r ∈ plainReports E c e) :
    isAbstract (realType E (getBase c)) = true ∨ isAbstract (realType E (getBase e.t)) = true := by
  simp only [plainReports] at h
  by_contra hn
  push Not at hn
  obtain ⟨h1, h2⟩ := hn
  simp [h1, h2] at h

theorem crossing_from {c : Ty} {e : Operand} {r : Rep} (h : r ∈ castReports E c e) (hr : Crossing r) :
    c ≠ .void ∧ ((isAP (realType E c) = true ∧ r ∈ ptrReports E c e) ∨
      (isAP (realType E c) = false ∧ r ∈ plainReports E c e)) := by
  simp only [castReports, List.mem_append] at h
  rcases h with h | h
  · by_cases hv : c = .void
    · rw [if_pos hv] at h
      split at h <;> simp_all [Crossing]
    · rw [if_neg hv] at h
      refine ⟨hv, ?_⟩
      by_cases hp : isAP (realType E c) = true
      · rw [if_pos hp, List.mem_append] at h
        rcases h with h | h
        · exact absurd hr (fcn_not_crossing h)
        · exact .inl ⟨hp, h⟩
      · rw [if_neg hp] at h
        exact .inr ⟨by simpa using hp, h⟩
  · exact absurd hr (expose_not_crossing h)

/-- **C156** What is reported as a use of an abstract type is one: one of the two types is made of an abstract type
that the context has no access to. -/
theorem C156_sound (c : Ty) (e : Operand) (r : Rep) (h : r ∈ castReports E c e) (hr : Crossing r) :
    ∃ j, MadeOf E.access c j ∨ MadeOf E.access e.t j := by
  obtain ⟨_, ⟨_, h⟩ | ⟨_, h⟩⟩ := crossing_from h hr
  · rcases ptr_sound h with h | h
    · obtain ⟨j, h⟩ := closed_made h; exact ⟨j, .inl h⟩
    · obtain ⟨j, h⟩ := closed_made h; exact ⟨j, .inr h⟩
  · rcases plain_sound h with h | h
    · obtain ⟨j, h⟩ := plain_made h; exact ⟨j, .inl h⟩
    · obtain ⟨j, h⟩ := plain_made h; exact ⟨j, .inr h⟩

/-- the context of a module without access to anything, and types that only match if they are the same -/
def noAccess : Env := ⟨fun _ => false, fun a b => a == b, fun a b => a == b, true, false⟩
/-- an abstract type: its representation is a pointer -/
def setT : Ty := .abst false 7 (.ptr (.other 1))

example : castReports noAccess (.ptr (.other 1)) { t := .ptr setT } = [.fromUnder (.ptr setT)] ∧
    castReports noAccess setT { t := .ptr (.other 1) } = [.toAbst setT] := by decide

/-- The full statement: a cast from or to a type that is made of an abstract type without access is reported, unless
the types match, or it is a cast to void or of zero. -/
def C156_full : Prop :=
  ∀ (E : Env) (c : Ty) (e : Operand) (j : Nat), c ≠ .void → e.zero = false → E.abstVoidP = false →
    E.same c e.t = false → (MadeOf E.access c j ∨ MadeOf E.access e.t j) → ∃ r ∈ castReports E c e, Crossing r

/-- **C156** It is reported if no name stands for a pointer to the abstract type (and no name that the context has
access to stands for the type). Missing: types with such names. -/
theorem C156_partial (c : Ty) (e : Operand) (j : Nat) (hv : c ≠ .void) (hz : e.zero = false)
    (hf : E.abstVoidP = false) (hs : E.same c e.t = false) (hc : Bare E.access c) (ht : Bare E.access e.t)
    (hm : MadeOf E.access c j ∨ MadeOf E.access e.t j) : ∃ r ∈ castReports E c e, Crossing r := by
  have hcl : closed E (getBase c) = true ∨ closed E (getBase e.t) = true := by
    rcases hm with hm | hm
    · exact .inl (bare_closed hc hm)
    · exact .inr (bare_closed ht hm)
  by_cases hp : isAP (realType E c) = true
  · have : ∃ r ∈ ptrReports E c e, Crossing r := by
      simp only [ptrReports, hz, hf, Bool.false_and, Bool.false_eq_true, if_false]
      rcases hcl with h | h
      · by_cases hx : (isVoidPtr E e.t || e.t == Ty.unknown) = true
        · exact ⟨.toAbstVoidP c, by simp only [h, hx, if_true]; simp, trivial⟩
        · exact ⟨.toUnder c, by simp only [h, hx, if_true]; simp, trivial⟩
      · by_cases hx : (c == Ty.unknown || isVoidPtr E c) = true
        · exact ⟨.fromAbstVoidP e.t, by simp only [h, hx, if_true]; simp, trivial⟩
        · exact ⟨.fromUnder e.t, by simp only [h, hx, if_true]; simp, trivial⟩
    obtain ⟨r, hr, hx⟩ := this
    exact ⟨r, by simp only [castReports, if_neg hv, if_pos hp, List.mem_append]; exact .inl (.inr hr), hx⟩
  · have : ∃ r ∈ plainReports E c e, Crossing r := by
      have ha : ∀ {b : Ty}, closed E b = true → isAbstract (realType E b) = true := by
        intro b h; simp only [closed, Bool.and_eq_true] at h; exact h.1
      simp only [plainReports, hs, Bool.false_eq_true, if_false]
      rcases hcl with h | h
      · have h1 := ha h
        have h2 := plain_access h1
        by_cases hn : isNumAbstract (realType E (getBase c)) = true
        · by_cases hl : e.numLit = true
          · exact ⟨.litToNum (realType E (getBase c)), by simp [h1, h2, hn, hl], trivial⟩
          · exact ⟨.toNum (realType E (getBase c)), by simp [h1, h2, hn, hl], trivial⟩
        · exact ⟨.toAbst (realType E (getBase c)), by simp [h1, h2, hn], trivial⟩
      · have h1 := ha h
        have h2 := plain_access h1
        exact ⟨.fromAbst (realType E (getBase e.t)), by simp [h1, h2], trivial⟩
    obtain ⟨r, hr, hx⟩ := this
    exact ⟨r, by simp only [castReports, if_neg hv, if_neg hp, List.mem_append]; exact .inl hr, hx⟩

example : Bare noAccess.access (.ptr (.user 3 setT)) ∧ MadeOf noAccess.access (.ptr (.user 3 setT)) 7 ∧
    noAccess.same (.ptr (.other 1)) (.ptr (.user 3 setT)) = false :=
  ⟨.ptr (.name rfl .abst rfl), .ptr (.user (.abst rfl)), rfl⟩

theorem points_real {c b : Ty} (h : Points E.access c b) :
    realType E c = .ptr b ∨ realType E c = .arr b := by
  induction h with
  | ptr => exact .inl rfl
  | arr => exact .inr rfl
  | user _ ih => simpa [realType] using ih
  | rep ha _ ih => simpa [realType, ha] using ih

theorem hidden_closed {i : Nat} {r b : Ty} (h : Points E.access r b) :
    isAbstract (realType E (getBase (.user i r))) = false := by
  have : realType E (.user i r) = realType E r := rfl
  simp only [getBase, this]
  rcases points_real h with h | h <;> simp [h, isAbstract]

theorem free_closed {c : Ty} (h : ∀ j, ¬MadeOf E.access c j) : isAbstract (realType E (getBase c)) = false := by
  by_contra hn
  obtain ⟨j, hj⟩ := plain_made (by simpa using hn)
  exact h j hj

theorem not_closed {b : Ty} (h : isAbstract (realType E b) = false) : ¬closed E b = true := by simp [closed, h]

theorem silent {c : Ty} {e : Operand} (h1 : isAbstract (realType E (getBase c)) = false)
    (h2 : isAbstract (realType E (getBase e.t)) = false) : ∀ r ∈ castReports E c e, ¬Crossing r := by
  intro r hr hx
  obtain ⟨_, ⟨_, h⟩ | ⟨_, h⟩⟩ := crossing_from hr hx
  · rcases ptr_sound h with h | h
    · exact not_closed h1 h
    · exact not_closed h2 h
  · rcases plain_sound h with h | h
    · simp [h1] at h
    · simp [h2] at h

/-- **C156** What is behind a name for a pointer is not seen: no cast from it to a type that has nothing to do with
abstract types is reported, whatever the pointer is to. -/
theorem C156_hidden_from (i : Nat) (r b c : Ty) (e : Operand) (ht : e.t = .user i r) (hp : Points E.access r b)
    (hc : ∀ j, ¬MadeOf E.access c j) : ∀ r ∈ castReports E c e, ¬Crossing r :=
  silent (free_closed hc) (by rw [ht]; exact hidden_closed hp)

/-- **C156** ... and no cast to it. -/
theorem C156_hidden_to (i : Nat) (r b : Ty) (e : Operand) (hp : Points E.access r b)
    (ht : ∀ j, ¬MadeOf E.access e.t j) : ∀ r' ∈ castReports E (.user i r) e, ¬Crossing r' :=
  silent (hidden_closed hp) (free_closed ht)

theorem other_free (a : Nat → Bool) (n : Nat) : ∀ j, ¬MadeOf a (.ptr (.other n)) j := by
  intro j h; cases h with | ptr h => cases h

/-- a name for a pointer to the abstract type -/
def setP : Ty := .user 4 (.ptr setT)

example : MadeOf noAccess.access setP 7 ∧ Points noAccess.access (.ptr setT) setT ∧
    castReports noAccess (.ptr (.other 1)) { t := setP } = [] ∧
    castReports noAccess setP { t := .ptr (.other 1) } = [] ∧
    castReports noAccess (.ptr (.other 1)) { t := .ptr setT } ≠ [] :=
  ⟨.user (.ptr (.abst rfl)), .ptr, by decide, by decide, by decide⟩

/-- **C156** If the context has access to a name for the abstract type, but not to that type, casts between pointers to
it and other pointers are not reported. Without the pointers they are. -/
theorem C156_name_access (i : Nat) (r c : Ty) (e : Operand) (ha : E.access i = true) (ht : e.t = .ptr (.user i r))
    (hp : isAP (realType E c) = true) (hc : ∀ j, ¬MadeOf E.access c j) : ∀ r ∈ castReports E c e, ¬Crossing r := by
  intro x hr hx
  obtain ⟨_, ⟨_, h⟩ | ⟨hp', _⟩⟩ := crossing_from hr hx
  · rcases ptr_sound h with h | h
    · exact not_closed (free_closed hc) h
    · rw [ht] at h; simp [closed, getBase, accessTo, ha] at h
  · rw [hp] at hp'; exact Bool.noConfusion hp'

/-- access to type 3 only -/
def access3 : Env := { noAccess with access := fun i => i == 3 }

example : castReports access3 (.ptr (.other 1)) { t := .ptr (.user 3 setT) } = [] ∧
    castReports access3 (.other 1) { t := .user 3 setT } = [.fromAbst setT] := by decide

/-- **C156** So not all such casts are reported. -/
theorem C156_full_is_false : ¬C156_full := by
  intro h
  obtain ⟨r, hr, hx⟩ := h noAccess (.ptr (.other 1)) { t := setP } 7 (by decide) rfl rfl rfl
    (.inr (.user (.ptr (.abst rfl))))
  exact C156_hidden_from 4 (.ptr setT) setT _ _ rfl .ptr (other_free _ 1) r hr hx

/-! ## Pointers to functions -/

theorem isFunction_real {b : Ty} (h : isFunction b = true) : realType E b = b := by
  cases b <;> simp_all [isFunction, realType]

theorem fcn_iff (b : Ty) : isFunction (realType E b) = true ↔ Fcn E.access b := by
  constructor
  · intro h
    induction b with
    | user i r ih => exact .user (ih h)
    | abst n i r ih =>
      by_cases ha : E.access i = true
      · exact .rep ha (ih (by simpa [realType, ha] using h))
      · simp [realType, ha, isFunction] at h
    | fcn r => exact .fcn
    | ptr b => cases b <;> simp [realType, isFunction] at h; exact .ptr
    | _ => simp [realType, isFunction] at h
  · intro h
    induction h with
    | fcn => rfl
    | ptr => rfl
    | user _ ih => exact ih
    | rep ha _ ih => simpa [realType, ha] using ih

theorem real_real (c : Ty) : realType E (realType E c) = realType E c := by
  induction c with
  | user i r ih => exact ih
  | abst n i r ih => by_cases ha : E.access i = true <;> simp [realType, ha, ih]
  | _ => rfl

theorem basePtr_real (c : Ty) : basePtr E (realType E c) = basePtr E c := by
  simp [basePtr, real_real]

theorem real_points {c : Ty} (h : isAP (realType E c) = true) : Points E.access c (basePtr E c) := by
  induction c with
  | user i r ih => exact .user (ih h)
  | abst n i r ih =>
    by_cases ha : E.access i = true
    · have e : basePtr E (.abst n i r) = basePtr E r := by simp [basePtr, realType, ha]
      rw [e]
      exact .rep ha (ih (by simpa [realType, ha] using h))
    · simp [realType, ha, isAP] at h
  | ptr b => exact .ptr
  | arr b => exact .arr
  | _ => simp [realType, isAP] at h

theorem points_ap {c b : Ty} (h : Points E.access c b) : isAP (realType E c) = true ∧ basePtr E c = b := by
  rcases points_real h with h | h <;> simp [h, isAP, basePtr]

theorem fcn_mem {c : Ty} {e : Operand} {r : Rep} (hr : (∃ a b, r = .fromFcn a b) ∨ (∃ a b, r = .toFcn a b)) :
    r ∈ castReports E c e ↔ isAP (realType E c) = true ∧ r ∈ fcnReports E c e.t := by
  have hx : r ∉ exposeReports E c e := by
    simp only [exposeReports]
    rcases hr with ⟨a, b, rfl⟩ | ⟨a, b, rfl⟩ <;> split_ifs <;> simp
  have hp : r ∉ ptrReports E c e := by
    simp only [ptrReports, List.mem_append]
    rcases hr with ⟨a, b, rfl⟩ | ⟨a, b, rfl⟩ <;> split_ifs <;> simp
  have hq : r ∉ plainReports E c e := by
    simp only [plainReports, List.mem_append]
    rcases hr with ⟨a, b, rfl⟩ | ⟨a, b, rfl⟩ <;> split_ifs <;> simp
  have hf : r ∉ (if e.fresh = true then [Rep.freshLost] else []) := by
    rcases hr with ⟨a, b, rfl⟩ | ⟨a, b, rfl⟩ <;> split_ifs <;> simp
  by_cases hv : c = .void
  · subst hv
    constructor
    · intro h
      simp only [castReports, List.mem_append, hx, or_false] at h
      exact absurd h hf
    · intro h
      simp [realType, isAP] at h
  · by_cases ha : isAP (realType E c) = true
    · simp [castReports, hv, ha, hx, hp]
    · simp [castReports, hv, ha, hx, hq]

theorem ap_eq {c : Ty} {P : Prop} : (isAP (realType E c) = true ∧ P) ↔ (∃ b, Points E.access c b) ∧ P := by
  constructor
  · exact fun h => ⟨⟨_, real_points h.1⟩, h.2⟩
  · exact fun ⟨⟨_, hb⟩, h⟩ => ⟨(points_ap hb).1, h⟩

/-- **C157** When "Cast from function pointer type ... to non-function pointer" is said: the types are those of the
cast in the wrong order, the cast is *to* what is directly a pointer to a function, and from one to something else. -/
theorem C157_from_exactly (c : Ty) (e : Operand) (a b : Ty) :
    Rep.fromFcn a b ∈ castReports E c e ↔ a = c ∧ b = e.t ∧
      ∃ x y, Points E.access c x ∧ isFunction x = true ∧ Points E.access e.t y ∧ ¬Fcn E.access y := by
  rw [fcn_mem (.inl ⟨a, b, rfl⟩)]
  simp only [fcnReports, basePtr_real, List.mem_append]
  have h2 : Rep.fromFcn a b ∉ (if !isFunction (basePtr E c) && (isAP (realType E e.t)
      && isFunction (realType E (basePtr E e.t))) then [Rep.toFcn c e.t] else []) := by split_ifs <;> simp
  simp only [h2, or_false]
  constructor
  · rintro ⟨hp, h⟩
    split at h
    · rename_i hc
      simp only [Bool.and_eq_true, Bool.not_eq_true'] at hc
      simp only [List.mem_singleton, Rep.fromFcn.injEq] at h
      refine ⟨h.1, h.2, _, _, real_points hp, hc.1, real_points hc.2.1, ?_⟩
      rw [← fcn_iff]; simp [hc.2.2]
    · simp at h
  · rintro ⟨rfl, rfl, x, y, hx, hf, hy, hn⟩
    obtain ⟨h1, h2⟩ := points_ap hx
    obtain ⟨h3, h4⟩ := points_ap hy
    refine ⟨h1, ?_⟩
    rw [← fcn_iff] at hn
    simp [h2, hf, h3, h4, hn]

/-- **C157** When "Cast from non-function pointer type ... to function pointer" is said: the cast is *from* a pointer
to a function, and to what is not directly one. -/
theorem C157_to_exactly (c : Ty) (e : Operand) (a b : Ty) :
    Rep.toFcn a b ∈ castReports E c e ↔ a = c ∧ b = e.t ∧
      ∃ x y, Points E.access c x ∧ isFunction x = false ∧ Points E.access e.t y ∧ Fcn E.access y := by
  rw [fcn_mem (.inr ⟨a, b, rfl⟩)]
  simp only [fcnReports, basePtr_real, List.mem_append]
  have h2 : Rep.toFcn a b ∉ (if isFunction (basePtr E c) && (isAP (realType E e.t)
      && !isFunction (realType E (basePtr E e.t))) then [Rep.fromFcn c e.t] else []) := by split_ifs <;> simp
  simp only [h2, false_or]
  constructor
  · rintro ⟨hp, h⟩
    split at h
    · rename_i hc
      simp only [Bool.and_eq_true, Bool.not_eq_true'] at hc
      simp only [List.mem_singleton, Rep.toFcn.injEq] at h
      refine ⟨h.1, h.2, _, _, real_points hp, hc.1, real_points hc.2.1, ?_⟩
      rw [← fcn_iff]; exact hc.2.2
    · simp at h
  · rintro ⟨rfl, rfl, x, y, hx, hf, hy, hn⟩
    obtain ⟨h1, h2⟩ := points_ap hx
    obtain ⟨h3, h4⟩ := points_ap hy
    refine ⟨h1, ?_⟩
    rw [← fcn_iff] at hn
    simp [h2, hf, h3, h4, hn]

/-- The full statement: "cast from a function pointer `a` to a non-function pointer `b`" is said just for those
casts, of an expression of type `a` to the type `b`. -/
def C157_full : Prop :=
  ∀ (E : Env) (c : Ty) (e : Operand) (a b : Ty), Rep.fromFcn a b ∈ castReports E c e ↔ a = e.t ∧ b = c ∧
    ∃ x y, Points E.access e.t x ∧ Fcn E.access x ∧ Points E.access c y ∧ ¬Fcn E.access y

/-- **C157** It is never said for such a cast. -/
theorem C157_reversed (c : Ty) (e : Operand) (a b : Ty) (h : Rep.fromFcn a b ∈ castReports E c e) :
    ¬∃ x y, Points E.access e.t x ∧ Fcn E.access x ∧ Points E.access c y ∧ ¬Fcn E.access y := by
  rintro ⟨x, y, hx, hf, _, _⟩
  obtain ⟨_, _, _, y', _, _, hy, hn⟩ := (C157_from_exactly c e a b).1 h
  have := (points_ap hx).2.symm.trans (points_ap hy).2
  exact hn (this ▸ hf)

/-- a pointer to a function -/
def fp : Ty := .ptr (.fcn (.other 1))

example : castReports noAccess fp { t := .ptr .void } = [.fromFcn fp (.ptr .void)] ∧
    castReports noAccess (.ptr .void) { t := fp } = [.toFcn (.ptr .void) fp] := by decide

theorem C157_full_is_false : ¬C157_full := by
  intro h
  have h1 : Rep.fromFcn fp (.ptr .void) ∈ castReports noAccess fp { t := .ptr .void } := by decide
  have h2 := ((h noAccess fp { t := .ptr .void } fp (.ptr .void)).1 h1).2.2
  exact C157_reversed _ _ _ _ h1 h2

/-- **C157** But one of the two messages is given just if one of the types is a pointer to a function and the other a
pointer to something else, unless the type cast to is a pointer to what is named and a function. Missing: those
pointers, and that the message is the right one. -/
theorem C157_some_partial (c : Ty) (e : Operand) (x y : Ty) (hx : Points E.access c x) (hy : Points E.access e.t y)
    (hn : Fcn E.access x → isFunction x = true) :
    (∃ a b, Rep.fromFcn a b ∈ castReports E c e ∨ Rep.toFcn a b ∈ castReports E c e) ↔
      ¬(Fcn E.access x ↔ Fcn E.access y) := by
  have ux : ∀ x', Points E.access c x' → x' = x := fun x' h => (points_ap h).2.symm.trans (points_ap hx).2
  have uy : ∀ y', Points E.access e.t y' → y' = y := fun y' h => (points_ap h).2.symm.trans (points_ap hy).2
  have hf : isFunction x = true → Fcn E.access x := fun h => by
    rw [← fcn_iff, isFunction_real h]; exact h
  constructor
  · rintro ⟨a, b, h | h⟩ hiff
    · obtain ⟨_, _, x', y', h1, h2, h3, h4⟩ := (C157_from_exactly c e a b).1 h
      rw [ux x' h1] at h2; rw [uy y' h3] at h4
      exact h4 (hiff.1 (hf h2))
    · obtain ⟨_, _, x', y', h1, h2, h3, h4⟩ := (C157_to_exactly c e a b).1 h
      rw [ux x' h1] at h2; rw [uy y' h3] at h4
      have := hn (hiff.2 h4)
      rw [h2] at this; exact Bool.noConfusion this
  · intro h
    by_cases h1 : Fcn E.access x
    · have h2 : ¬Fcn E.access y := fun h2 => h ⟨fun _ => h2, fun _ => h1⟩
      exact ⟨c, e.t, .inl ((C157_from_exactly ..).2 ⟨rfl, rfl, x, y, hx, hn h1, hy, h2⟩)⟩
    · have h2 : Fcn E.access y := by
        by_contra h2; exact h ⟨fun h => absurd h h1, fun h => absurd h h2⟩
      have h3 : isFunction x = false := by
        by_contra h3; exact h1 (hf (by simpa using h3))
      exact ⟨c, e.t, .inr ((C157_to_exactly ..).2 ⟨rfl, rfl, x, y, hx, h3, hy, h2⟩)⟩

example : Points noAccess.access fp (.fcn (.other 1)) ∧ Points noAccess.access (.ptr .void) .void ∧
    Fcn noAccess.access (.fcn (.other 1)) := ⟨.ptr, .ptr, .fcn⟩

/-- **C157** A cast to a pointer to a named type of functions, from a pointer to any function, is always reported as one
of a non-function pointer: also the cast of an expression to the type that it has. -/
theorem C157_named (i : Nat) (r y : Ty) (e : Operand) (hy : Points E.access e.t y) (hf : Fcn E.access y) :
    Rep.toFcn (.ptr (.user i r)) e.t ∈ castReports E (.ptr (.user i r)) e :=
  (C157_to_exactly ..).2 ⟨rfl, rfl, .user i r, y, .ptr, rfl, hy, hf⟩

/-- a pointer to a named type of functions -/
def namedFp : Ty := .ptr (.user 5 (.fcn (.other 1)))

example : castReports noAccess namedFp { t := namedFp } = [.toFcn namedFp namedFp] ∧
    castReports noAccess namedFp { t := fp } = [.toFcn namedFp fp] ∧
    castReports noAccess namedFp { t := .ptr .void } = [] := by decide

/-! ## Casts that need no report, and exposure -/

/-- **C158** A cast to void is only reported if what is thrown away is fresh storage. -/
theorem C158_void (e : Operand) :
    castReports E .void e = if e.fresh then [.freshLost] else [] := by
  simp [castReports, exposeReports, isAbstract]

example : castReports noAccess .void { t := setT, fresh := true } = [.freshLost] ∧
    castReports noAccess .void { t := setT } = [] := by
  decide

/-- **C158** A cast of zero to a pointer is not reported as a use of an abstract type (if `zeroptr` is set), though the
test for it asks for access the wrong way round. -/
theorem C158_zero (c : Ty) (e : Operand) (hz : e.zero = true) (hf : E.zeroPtr = true)
    (hp : isAP (realType E c) = true) (ht : ∀ j, ¬MadeOf E.access e.t j) : ∀ r ∈ castReports E c e, ¬Crossing r := by
  intro r hr hx
  obtain ⟨_, ⟨_, h⟩ | ⟨hp', _⟩⟩ := crossing_from hr hx
  · by_cases hc : (isAbstract (realType E (getBase c)) && accessTo E (getBase c)) = true
    · rcases ptr_sound h with h' | h'
      · simp only [Bool.and_eq_true] at hc
        simp [closed, hc.2] at h'
      · exact not_closed (free_closed ht) h'
    · simp [ptrReports, hz, hf, hc] at h
  · rw [hp] at hp'; exact Bool.noConfusion hp'

example : castReports noAccess (.ptr setT) { t := .other 1, zero := true } = [] ∧
    castReports noAccess (.ptr setT) { t := .other 1 } = [.toUnder (.ptr setT)] ∧
    castReports noAccess setT { t := .other 1, zero := true } = [.toAbst setT] := by decide

/-- **C158** When a cast is reported to expose a representation. -/
theorem C158_expose_exactly (c : Ty) (e : Operand) (a : Ty) :
    Rep.exposes a ∈ castReports E c e ↔ a = c ∧ (∃ n i r, c = .abst n i r) ∧ e.exposed = false ∧ e.only = false ∧
      e.sharable = true ∧ e.extVisible = true ∧ ¬∃ n i r, e.t = .abst n i r ∧ E.access i = true := by
  have hfront : Rep.exposes a ∉ (if c = .void then (if e.fresh then [Rep.freshLost] else [])
      else if isAP (realType E c) then fcnReports E c e.t ++ ptrReports E c e else plainReports E c e) := by
    split_ifs
    · simp
    · simp
    · simp only [List.mem_append, fcnReports, ptrReports]
      split_ifs <;> simp
    · simp only [List.mem_append, plainReports]
      split_ifs <;> simp
  have h1 : (isAbstract c = true) ↔ ∃ n i r, c = .abst n i r := by cases c <;> simp [isAbstract]
  have h2 : (isAbstract e.t && accessTo E e.t) = true ↔ ∃ n i r, e.t = .abst n i r ∧ E.access i = true := by
    cases e.t <;> simp [isAbstract, accessTo]
  rw [castReports, List.mem_append, or_iff_right hfront, ← h1, ← h2]
  simp only [exposeReports]
  cases isAbstract c <;> cases e.exposed <;> cases e.only <;> cases e.sharable <;> cases e.extVisible <;>
    cases (isAbstract e.t && accessTo E e.t) <;> simp

example : castReports { noAccess with access := fun _ => true } setT
    { t := .ptr (.other 1), sharable := true, extVisible := true }
    = [.exposes setT] := by decide

/-- The full statement: storage that is visible outside and is cast to an abstract type, by whatever name, is reported
to expose the representation. -/
def C158_full : Prop :=
  ∀ (E : Env) (c : Ty) (e : Operand) (j : Nat), Names c j → e.exposed = false → e.only = false → e.sharable = true →
    e.extVisible = true → (∀ j, ¬Names e.t j) → Rep.exposes c ∈ castReports E c e

/-- **C158** It is so for the abstract type itself. Missing: names for it. -/
theorem C158_expose_partial (n : Bool) (i : Nat) (r : Ty) (e : Operand) (h1 : e.exposed = false)
    (h2 : e.only = false) (h3 : e.sharable = true) (h4 : e.extVisible = true) (h5 : ∀ j, ¬Names e.t j) :
    Rep.exposes (.abst n i r) ∈ castReports E (.abst n i r) e :=
  (C158_expose_exactly ..).2 ⟨rfl, ⟨n, i, r, rfl⟩, h1, h2, h3, h4, by
    rintro ⟨n, j, r, h, _⟩
    exact h5 j (h ▸ .abst)⟩

/-- **C158** No cast to a name for it is. -/
theorem C158_named (i : Nat) (r a : Ty) (e : Operand) : Rep.exposes a ∉ castReports E (.user i r) e := by
  intro h
  obtain ⟨_, ⟨_, _, _, h⟩, _⟩ := (C158_expose_exactly ..).1 h
  cases h

theorem C158_full_is_false : ¬C158_full := fun h =>
  C158_named 3 setT _ { t := .ptr (.other 1), sharable := true, extVisible := true }
    (h noAccess (.user 3 setT) { t := .ptr (.other 1), sharable := true, extVisible := true } 7 (.user .abst) rfl rfl
      rfl rfl (by intro j h; cases h))

/-- **C158** A cast to an abstract type never both reports the exposure and takes it off. -/
theorem C158_clears (c : Ty) (e : Operand) (h : clears c e = true) : ∀ a, Rep.exposes a ∉ castReports E c e := by
  intro a ha
  obtain ⟨_, _, h1, h2, _⟩ := (C158_expose_exactly ..).1 ha
  simp [clears, h1, h2] at h

example : clears setT { t := .ptr (.other 1), exposed := true, sharable := true, extVisible := true } = true := by decide

/-- **C158** A cast of a pointer to an abstract type to the type that it has is reported twice, as a use of the
representation; the types are not compared for pointers. -/
theorem C158_same (n : Bool) (i : Nat) (r : Ty) (e : Operand) (ha : E.access i = false) (hz : e.zero = false)
    (ht : e.t = .ptr (.abst n i r)) :
    castReports E (.ptr (.abst n i r)) e = [.toUnder (.ptr (.abst n i r)), .fromUnder (.ptr (.abst n i r))] := by
  have hr : realType E (.abst n i r) = .abst n i r := by simp [realType, ha]
  simp [castReports, realType, isAP, fcnReports, basePtr, isFunction, hr, ha, ht, ptrReports, hz, closed, getBase, isAbstract,
    accessTo, isVoidPtr, exposeReports]

example : castReports noAccess (.ptr setT) { t := .ptr setT } = [.toUnder (.ptr setT), .fromUnder (.ptr setT)] ∧
    castReports noAccess setT { t := setT } = [.redundant setT] := by decide

end Splint.CastProps
