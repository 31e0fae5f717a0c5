import Verif.Tactics
import Verif.Spec.ReallyDefined
/-!
# C126: out storage must be defined
-/
namespace Splint
namespace ReallyDefined

variable {α : Type}

theorem firstBad_none (f : α → Option α) (l : List α) : firstBad f l = none ↔ ∀ a ∈ l, f a = none := by
  induction l with
  | nil => simp [firstBad]
  | cons a l ih =>
    unfold firstBad
    cases h : f a with
    | some r => simp [h]
    | none => simp [h, ih]

theorem firstBad_some (f : α → Option α) (l : List α) (r : α) (h : firstBad f l = some r) :
    ∃ a ∈ l, f a = some r := by
  induction l with
  | nil => cases h
  | cons a l ih =>
    unfold firstBad at h
    cases hf : f a with
    | some x => rw [hf] at h; exact ⟨a, List.mem_cons_self, by rw [hf]; exact h⟩
    | none =>
      rw [hf] at h
      obtain ⟨b, hb, hr⟩ := ih h
      exact ⟨b, List.mem_cons_of_mem _ hb, hr⟩

theorem allFields_none (skip : α → Bool) (f : α → Option α) (l : List (α × Bool)) :
    allFields skip f l = none := by
  induction l with
  | nil => rfl
  | cons a l ih =>
    obtain ⟨a, b⟩ := a
    unfold allFields
    cases b <;> cases skip a <;> cases f a <;> simp [ih]

/-- C126: an allocated structure counts as defined, whatever its fields. -/
theorem C126_struct (env : Env α) (n : Nat) (s : α) (hv : env.view s = .struct)
    (hs : env.state s = .allocated) : whatUndefined env n s = none := by
  cases n with
  | zero => rfl
  | succ n =>
    unfold whatUndefined
    simp [hv, hs, anyDefined, allFields_none]

theorem sound (env : Env α) : ∀ (n : Nat) (s r : α), whatUndefined env n s = some r →
    ∃ m, n = m + 1 ∧ Within (Part env) m s r ∧ Bad env r := by
  intro n
  induction n with
  | zero => intro s r h; cases h
  | succ n ih =>
    intro s r h
    refine ⟨n, rfl, ?_⟩
    unfold whatUndefined at h
    by_cases hk : (!env.known s || anyDefined (env.state s)) = true
    · rw [if_pos hk] at h; cases h
    rw [if_neg hk] at h
    have hkn : env.known s = true := by
      cases hh : env.known s <;> simp_all
    have had : anyDefined (env.state s) = false := by
      cases hh : anyDefined (env.state s) <;> simp_all
    by_cases hu : env.state s = .unuseable ∨ env.state s = .undefined
    · rw [if_pos hu] at h
      cases h
      exact ⟨.here _ _, hkn, by tauto⟩
    rw [if_neg hu] at h
    have hopen : env.state s ≠ .unknown → Open env s := by
      intro h0
      refine ⟨hkn, ?_⟩
      intro hm
      simp only [List.mem_cons, List.not_mem_nil, or_false] at hm
      rcases hm with h' | h' | h' | h' | h' | h'
      · rw [h'] at had; cases had
      · rw [h'] at had; cases had
      · rw [h'] at had; cases had
      · exact hu (Or.inl h')
      · exact hu (Or.inr h')
      · exact h0 h'
    cases hv : env.view s with
    | unknown => rw [hv] at h; cases h
    | other => rw [hv] at h; cases h
    | pointer =>
      rw [hv] at h
      simp only at h
      by_cases h0 : env.state s = .unknown
      · rw [if_pos h0] at h; cases h
      · rw [if_neg h0] at h
        obtain ⟨m, rfl, hw, hb⟩ := ih _ _ h
        exact ⟨.step _ _ _ _ (.target s (hopen h0) hv) hw, hb⟩
    | struct =>
      rw [hv] at h
      simp only at h
      by_cases h0 : env.state s = .unknown
      · rw [if_pos h0] at h
        cases h
        exact ⟨.here _ _, hkn, Or.inr (Or.inr ⟨hv, h0⟩)⟩
      · rw [if_neg h0, had] at h
        by_cases hp : env.state s = .pDefined
        · rw [if_pos (Or.inl hp)] at h
          obtain ⟨f, hf, hr⟩ := firstBad_some _ _ _ h
          by_cases hrec : env.recursive f = true
          · rw [if_pos hrec] at hr; cases hr
          · rw [if_neg hrec] at hr
            obtain ⟨m, rfl, hw, hb⟩ := ih _ _ hr
            exact ⟨.step _ _ _ _ (.field s f (hopen h0) hv hp hf (by simpa using hrec)) hw, hb⟩
        · rw [if_neg (by simp [hp]), allFields_none] at h
          split at h <;> cases h

theorem anyDefined_open (env : Env α) (s : α) (h : Open env s) : anyDefined (env.state s) = false := by
  have := h.2
  cases hs : env.state s <;> simp_all [anyDefined]

theorem complete (env : Env α) : ∀ (n : Nat) (s r : α), Within (Part env) n s r → Bad env r →
    whatUndefined env (n + 1) s ≠ none := by
  intro n s r h
  induction h with
  | here n s =>
    intro hb
    obtain ⟨hk, h1 | h1 | ⟨hv, h1⟩⟩ := hb <;> unfold whatUndefined <;> simp [hk, h1, anyDefined]
    simp [hv]
  | step n s t u hp _ ih =>
    intro hb
    have hn := ih hb
    cases hp with
    | target ho hv =>
      have ha := anyDefined_open env s ho
      have ho2 := ho.2
      simp only [List.mem_cons, List.not_mem_nil, or_false, not_or] at ho2
      unfold whatUndefined
      simp only [ho.1, ha, ho2, hv, Bool.not_true, Bool.or_self, Bool.false_eq_true, if_false, or_self]
      exact hn
    | field _ ho hv hs hf hrec =>
      have ha := anyDefined_open env s ho
      unfold whatUndefined
      simp only [ho.1, ha, hs, hv, Bool.not_true, Bool.or_self, Bool.false_eq_true, if_false, true_or,
        if_true, reduceCtorEq, or_self]
      intro hnone
      have := (firstBad_none _ _).1 hnone t hf
      simp only [hrec, Bool.false_eq_true, if_false] at this
      exact hn this

/-- C126: exactly which storage is taken for not completely defined: that which has, within ten steps, a
part that is not defined, where the parts of a structure are the mentioned fields, and only if the
structure is partly defined. -/
theorem C126_exactly (env : Env α) (s : α) :
    checkDefined env s = false ↔ ∃ r, Within (Part env) 10 s r ∧ Bad env r := by
  unfold checkDefined maxDepth
  cases h : whatUndefined env (10 + 1) s with
  | none =>
    simp only [Option.isNone_none, Bool.true_eq_false, false_iff, not_exists, not_and]
    intro r hw hb
    exact complete env 10 s r hw hb h
  | some r =>
    obtain ⟨m, hm, hw, hb⟩ := sound env _ s r h
    have : m = 10 := by omega
    subst this
    simp only [Option.isNone_some, true_iff]
    exact ⟨r, hw, hb⟩

/-- C126: which out variables are reported at the end of a function or block. -/
theorem C126_reported (env : Env α) (mustDefine isOut : Bool) (s : α) :
    outReported env mustDefine isOut s = true ↔
      mustDefine = true ∧ isOut = true ∧
      (env.state s ∉ [.defined, .relDef, .partial_, .allocated, .pDefined, .dead] ∨
       (env.state s ∈ [.allocated, .pDefined] ∧ ∃ r, Within (Part env) 10 s r ∧ Bad env r)) := by
  unfold outReported isReallyDefined
  rw [← C126_exactly]
  cases mustDefine <;> cases isOut <;> cases hs : env.state s <;> simp [anyDefined]

/-- C126 in full: out storage is reported if some part that must be defined is not. -/
def C126_full : Prop :=
  ∀ (α : Type) (env : Env α) (s r : α), env.state s ∈ [.allocated, .pDefined] →
    Within (Must env) 10 s r → Bad env r → outReported env true true s = true

/-- References of the example `struct { int x; } *p`. -/
inductive Ref where
  | p | target | x
deriving DecidableEq, Repr

/-- `void f (/*@out@*/ struct { int x; } *p) { }` -/
def outStruct : Env Ref where
  known := fun _ => true
  state := fun | .p => .allocated | .target => targetState .allocated true | .x => .undefined
  view := fun | .p => .pointer | .target => .struct | .x => .other
  deref := fun _ => .target
  mentioned := fun _ => []
  fields := fun | .target => [(.x, false)] | _ => []
  recursive := fun _ => false

theorem C126_full_is_false : ¬ C126_full := by
  intro h
  have hp : Must outStruct .p .target := .part _ _ (.target Ref.p ⟨rfl, by decide⟩ rfl)
  have hx : Must outStruct .target .x := .all Ref.target Ref.x ⟨rfl, by decide⟩ rfl rfl (by decide) rfl
  have := h Ref outStruct .p .x (by decide) (.step 9 _ _ _ hp (.step 8 _ _ _ hx (.here 8 _)))
    ⟨rfl, Or.inr (Or.inl rfl)⟩
  revert this
  decide

/-- C126, the other way: a pointer to an allocated structure is never reported. -/
theorem C126_out_struct (env : Env α) (s : α) (mustDefine isOut : Bool) (hs : env.state s = .allocated)
    (hv : env.view s = .pointer) (ht : env.state (env.deref s) = .allocated)
    (htv : env.view (env.deref s) = .struct) : outReported env mustDefine isOut s = false := by
  have hc : checkDefined env s = true := by
    unfold checkDefined maxDepth
    have := C126_struct env 10 (env.deref s) htv ht
    unfold whatUndefined
    simp [hs, hv, anyDefined, this]
  unfold outReported isReallyDefined
  simp [hs, anyDefined, hc]

/-- C126, partial: without allocated structures on the way, what must be defined and is not is
reported. Missing: allocated structures (`C126_struct`). -/
theorem C126_partial (env : Env α) (s r : α) (hs : env.state s ∈ [.allocated, .pDefined])
    (hno : ∀ t, env.view t = .struct → env.state t ≠ .allocated)
    (hw : Within (Must env) 10 s r) (hb : Bad env r) : outReported env true true s = true := by
  have hc : ∀ (n : Nat) (s r : α), Within (Must env) n s r → Within (Part env) n s r := by
    intro n s r h
    induction h with
    | here n s => exact .here n s
    | step n s t u hm _ ih =>
      cases hm with
      | part hp => exact .step n s t u hp ih
      | all ho hv hst _ _ => exact absurd hst (hno s hv)
  rw [C126_reported]
  exact ⟨rfl, rfl, Or.inr ⟨hs, r, hc _ _ _ hw, hb⟩⟩

/-- C126: nothing else is reported for allocated or partly defined storage: a report means that a part
that must be defined is not. -/
theorem C126_no_more (env : Env α) (s : α) (a b : Bool) (hs : env.state s ∈ [.allocated, .pDefined])
    (h : outReported env a b s = true) : ∃ r, Within (Must env) 10 s r ∧ Bad env r := by
  rw [C126_reported] at h
  obtain ⟨-, -, h | ⟨-, r, hw, hb⟩⟩ := h
  · exfalso
    simp only [List.mem_cons, List.not_mem_nil, or_false, not_or] at h hs
    tauto
  · refine ⟨r, ?_, hb⟩
    have hc : ∀ (n : Nat) (s r : α), Within (Part env) n s r → Within (Must env) n s r := by
      intro n s r h
      induction h with
      | here n s => exact .here n s
      | step n s t u hp _ ih => exact .step n s t u (.part _ _ hp) ih
    exact hc _ _ _ hw

/-- C126: an out pointer that the function does not mention is reported exactly if it does not point to
a structure or union. -/
theorem C126_unmentioned (env : Env α) (s : α) (su : Bool) (hk : env.known s = true)
    (hkt : env.known (env.deref s) = true) (hs : env.state s = .allocated) (hv : env.view s = .pointer)
    (ht : env.state (env.deref s) = targetState (env.state s) su)
    (htv : su = true → env.view (env.deref s) = .struct ∨ env.view (env.deref s) = .other) :
    outReported env true true s = true ↔ su = false := by
  unfold outReported isReallyDefined checkDefined maxDepth
  cases su with
  | false =>
    rw [hs] at ht
    have ht' : env.state (env.deref s) = .undefined := ht
    unfold whatUndefined
    simp only [hs, hk, hv, anyDefined]
    unfold whatUndefined
    simp [ht', hkt, anyDefined]
  | true =>
    rw [hs] at ht
    have ht' : env.state (env.deref s) = .allocated := ht
    unfold whatUndefined
    simp only [hs, hk, hv, anyDefined]
    have : whatUndefined env 10 (env.deref s) = none := by
      rcases htv rfl with h | h
      · exact C126_struct env 10 _ h ht'
      · unfold whatUndefined
        simp [ht', h, anyDefined]
    simp [this]

/-- C126: fields that were not mentioned play no role. -/
theorem C126_fields (env env' : Env α) (hk : env.known = env'.known) (hs : env.state = env'.state)
    (hv : env.view = env'.view) (hd : env.deref = env'.deref) (hm : env.mentioned = env'.mentioned)
    (hr : env.recursive = env'.recursive) (s : α) : checkDefined env s = checkDefined env' s := by
  rw [Bool.eq_iff_iff, ← Bool.not_eq_false, ← Bool.not_eq_false, C126_exactly, C126_exactly]
  have hp : Part env = Part env' := by
    funext x y
    refine propext ⟨fun h => ?_, fun h => ?_⟩
    · cases h with
      | target ho h1 =>
        rw [hd]; exact .target x (by unfold Open at *; rw [← hk, ← hs]; exact ho) (by rw [← hv]; exact h1)
      | field _ ho h1 h2 h3 h4 =>
        exact .field x y (by unfold Open at *; rw [← hk, ← hs]; exact ho) (by rw [← hv]; exact h1)
          (by rw [← hs]; exact h2) (by rw [← hm]; exact h3) (by rw [← hr]; exact h4)
    · cases h with
      | target ho h1 =>
        rw [← hd]; exact .target x (by unfold Open at *; rw [hk, hs]; exact ho) (by rw [hv]; exact h1)
      | field _ ho h1 h2 h3 h4 =>
        exact .field x y (by unfold Open at *; rw [hk, hs]; exact ho) (by rw [hv]; exact h1)
          (by rw [hs]; exact h2) (by rw [hm]; exact h3) (by rw [hr]; exact h4)
  rw [hp]
  unfold Bad
  rw [hk, hs, hv]

/-- C126: the part that is shown with a report is not defined and is a part of the storage; showing it
never fails after `sRef_isReallyDefined` said no, and always fails otherwise. -/
theorem C126_show [DecidableEq α] (env : Env α) (valid : Bool) (s : α) :
    (show_ env valid s = .bug ↔ isReallyDefined env valid s = true) ∧
    ∀ r, show_ env valid s = .sub r → r ≠ s ∧ Within (Part env) 10 s r ∧ Bad env r := by
  unfold show_ isReallyDefined checkDefined maxDepth
  cases valid with
  | false => simp
  | true =>
    simp only [if_true]
    by_cases ha : anyDefined (env.state s) = true
    · simp [ha]
    · simp only [ha, Bool.false_eq_true, if_false]
      by_cases hs : env.state s = .allocated ∨ env.state s = .pDefined
      · simp only [hs, if_true]
        cases hw : whatUndefined env (10 + 1) s with
        | none => simp
        | some r =>
          obtain ⟨m, hm, hw', hb⟩ := sound env _ s r hw
          have : m = 10 := by omega
          subst this
          by_cases hr : r = s
          · simp [hr]
          · simp only [ne_eq, hr, not_false_eq_true, if_true, reduceCtorEq, Option.isNone_some,
              Bool.false_eq_true, true_and, Shown.sub.injEq]
            intro r' hr'
            subst hr'
            exact ⟨hr, hw', hb⟩
      · simp [hs]

/-- `int **p` with `*p` undefined: shown. -/
example : show_ { outStruct with state := fun | .p => .allocated | .target => targetState .allocated false
                                              | .x => .undefined } true .p = .sub .target ∧
    show_ outStruct true Ref.p = .bug := by decide

/-- A structure that is partly defined, with an undefined mentioned field. -/
example : outReported { outStruct with state := fun | .p => .allocated | .target => .pDefined | .x => .undefined
                                       mentioned := fun | .target => [.x] | _ => [] } true true .p = true ∧
    outReported { outStruct with state := fun | .p => .allocated | .target => .pDefined | .x => .undefined }
      true true .p = false := by decide

/-- The hypotheses of `C126_out_struct` and `C126_unmentioned`. -/
example : outStruct.state .p = .allocated ∧ outStruct.view .p = .pointer ∧
    outStruct.state (outStruct.deref .p) = .allocated ∧ outStruct.view (outStruct.deref .p) = .struct ∧
    outStruct.state (outStruct.deref .p) = targetState (outStruct.state .p) true := by decide

/-- Ten steps are looked at, eleven are not: pointers to pointers. -/
def pointers (n : Nat) : Env Nat where
  known := fun _ => true
  state := fun k => if k = n then .undefined else .allocated
  view := fun _ => .pointer
  deref := fun k => k + 1
  mentioned := fun _ => []
  fields := fun _ => []
  recursive := fun _ => false

theorem C126_limit : outReported (pointers 10) true true 0 = true ∧
    outReported (pointers 11) true true 0 = false := by decide

end ReallyDefined
end Splint
