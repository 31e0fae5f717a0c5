import Verif.Spec.GlobUse
import Verif.Tactics
/-!
# C122: uses of global variables
-/
namespace Splint.GlobUse

theorem or_shift {a b c : Prop} : a ∨ b ∨ c ↔ (b ∨ a) ∨ c := by tauto

theorem or_shift_if {a b c d : Prop} (h : d) : a ∨ b ∨ c ↔ (b ∨ d ∧ a) ∨ c := by tauto

theorem or_shift_not {a b c d : Prop} (h : ¬ d) : b ∨ c ↔ (b ∨ d ∧ a) ∨ c := by tauto

/-! ## What is used -/

theorem used_usedGlobal (w x : What) (st : St) :
    x ∈ (usedGlobal w st).used ↔ x = w ∨ x ∈ st.used := by
  unfold usedGlobal
  by_cases h : st.used.contains w = true
  · rw [if_pos h]
    simp only [List.contains_iff_mem] at h
    constructor
    · exact Or.inr
    · rintro (rfl | h') <;> assumption
  · rw [if_neg h]; simp; tauto

@[simp] theorem msgs_usedGlobal (w : What) (st : St) : (usedGlobal w st).msgs = st.msgs := by
  unfold usedGlobal; split <;> rfl

@[simp] theorem state_usedGlobal (w : What) (st : St) : (usedGlobal w st).state = st.state := by
  unfold usedGlobal; split <;> rfl

@[simp] theorem used_report (b : Bool) (m : Msg) (st : St) : (report b m st).used = st.used := by
  unfold report; split <;> rfl

@[simp] theorem state_report (b : Bool) (m : Msg) (st : St) : (report b m st).state = st.state := by
  unfold report; split <;> rfl

theorem msgs_report (b : Bool) (m : Msg) (st : St) :
    (report b m st).msgs = st.msgs ++ if b then [m] else [] := by
  unfold report; cases b <;> simp

@[simp] theorem used_setState (l i : Int) (s : GState) (st : St) :
    (setState l i s st).used = st.used := rfl

@[simp] theorem msgs_setState (l i : Int) (s : GState) (st : St) :
    (setState l i s st).msgs = st.msgs := rfl

theorem state_setState (l i : Int) (s : GState) (st : St) (l' i' : Int) :
    (setState l i s st).state l' i' = if l' = l ∧ i' = i then s else st.state l' i' := rfl

@[simp] theorem used_checkUse (env : Env) (l i : Int) (st : St) :
    (checkUse env l i st).used = st.used := by
  unfold checkUse; split <;> simp

@[simp] theorem used_checkSet (l i : Int) (st : St) : (checkSet l i st).used = st.used := by
  unfold checkSet; split <;> simp

@[simp] theorem msgs_checkSet (l i : Int) (st : St) : (checkSet l i st).msgs = st.msgs := by
  unfold checkSet; split <;> simp

theorem used_checkGlobUse (env : Env) (hf : env.inFcn = true) (b : Bool) (l i : Int) (st : St)
    (x : What) : x ∈ (checkGlobUse env b l i st).used ↔ x = .var l i ∨ x ∈ st.used := by
  unfold checkGlobUse
  rw [if_pos hf]
  simp only
  repeat' split
  all_goals try simp only [used_report]
  all_goals exact used_usedGlobal _ _ _

theorem state_checkGlobUse (env : Env) (b : Bool) (l i : Int) (st : St) :
    (checkGlobUse env b l i st).state = st.state := by
  unfold checkGlobUse
  simp only
  repeat' split
  all_goals simp

theorem used_usedByCall (env : Env) (hf : env.inFcn = true) (e : Elem) (l i : Int) (st : St)
    (x : What) : x ∈ (usedByCall env e l i st).used ↔ x = .var l i ∨ x ∈ st.used := by
  unfold usedByCall
  simp only
  rw [used_checkGlobUse env hf]
  repeat' split
  all_goals simp

theorem used_callElem (env : Env) (hf : env.inFcn = true) (e : Elem) (st : St) (x : What) :
    x ∈ (callElem env st e).used ↔
      (e.what = x ∧ (x = .internal ∨ x = .system ∨
        ((∃ l i, x = .var l i) ∧ (e.undef = false ∨ e.killed = true)))) ∨ x ∈ st.used := by
  obtain ⟨w, u, k, a⟩ := e
  unfold callElem
  cases w with
  | var l i =>
    by_cases hx : x = .var l i
    · subst hx
      cases u <;> cases k <;> simp [used_usedGlobal, used_usedByCall env hf]
    · have hx' : What.var l i ≠ x := fun h => hx h.symm
      cases u <;> cases k <;> simp [used_usedGlobal, used_usedByCall env hf, hx, hx']
  | internal =>
    simp only
    repeat' split
    all_goals simp only [used_report, used_usedGlobal]
    all_goals
      constructor
      · rintro (rfl | h)
        · exact Or.inl ⟨rfl, by simp⟩
        · exact Or.inr h
      · rintro (⟨h, _⟩ | h)
        · exact Or.inl h.symm
        · exact Or.inr h
  | system =>
    simp only
    repeat' split
    all_goals simp only [used_report, used_usedGlobal]
    all_goals
      constructor
      · rintro (rfl | h)
        · exact Or.inl ⟨rfl, by simp⟩
        · exact Or.inr h
      · rintro (⟨h, _⟩ | h)
        · exact Or.inl h.symm
        · exact Or.inr h
  | nothing => simp; rintro rfl; simp
  | specState => simp; rintro rfl; simp

theorem used_callElems (env : Env) (hf : env.inFcn = true) (es : List Elem) (st : St) (x : What) :
    x ∈ (es.foldl (callElem env) st).used ↔
      (∃ e ∈ es, e.what = x ∧ (x = .internal ∨ x = .system ∨
        ((∃ l i, x = .var l i) ∧ (e.undef = false ∨ e.killed = true)))) ∨ x ∈ st.used := by
  induction es generalizing st with
  | nil => simp
  | cons e es ih =>
    rw [List.foldl_cons, ih, used_callElem env hf]
    simp only [List.mem_cons, exists_eq_or_imp]
    exact or_shift

theorem used_roots (roots : List (Int × Int)) (st : St) (x : What) :
    x ∈ (roots.foldl (fun st r => usedGlobal (.var r.1 r.2) st) st).used ↔
      (∃ r ∈ roots, x = .var r.1 r.2) ∨ x ∈ st.used := by
  induction roots generalizing st with
  | nil => simp
  | cons r roots ih =>
    rw [List.foldl_cons, ih, used_usedGlobal]
    simp only [List.mem_cons, exists_eq_or_imp]
    exact or_shift

theorem used_step (env : Env) (hf : env.inFcn = true) (ev : Event) (st : St) (x : What) :
    x ∈ (step env st ev).used ↔ Uses env x ev ∨ x ∈ st.used := by
  cases ev with
  | ident l i => exact used_checkGlobUse env hf _ _ _ _ _
  | become l i s => simp [step, Uses]
  | call globs roots =>
    unfold step callMods Uses
    simp only
    by_cases h : env.hasMods = true ∨ env.flags.modNoMods = true
    · rw [if_pos (by simpa using h), used_roots, used_callElems env hf]
      exact or_shift_if h
    · rw [if_neg (by simpa using h), used_callElems env hf]
      exact or_shift_not h

theorem used_events (env : Env) (hf : env.inFcn = true) (evs : List Event) (st : St) (x : What) :
    x ∈ (evs.foldl (step env) st).used ↔ (∃ ev ∈ evs, Uses env x ev) ∨ x ∈ st.used := by
  induction evs generalizing st with
  | nil => simp
  | cons ev evs ih =>
    rw [List.foldl_cons, ih, used_step env hf]
    simp only [List.mem_cons, exists_eq_or_imp]
    exact or_shift

/-! ## Messages of one kind -/

theorem isAccess_state (l i : Int) (m : Msg) : isStateOf l i m = true → isAccess m = false := by
  cases m <;> simp [isStateOf, isAccess]

theorem globAccess_iff (env : Env) (w : What) : globAccess env w = true ↔ Documented env w := by
  unfold globAccess Documented; simp

theorem watched_iff (env : Env) (hf : env.inFcn = true) (k : ChKind) :
    (checkGlob env k = true ∧ env.flags.globals = true) ↔ Watched env k := by
  unfold checkGlob Watched hasGlobs
  rw [hf]
  cases k <;> simp <;> tauto

theorem watchedInternal_iff (env : Env) (hf : env.inFcn = true) :
    (checkInternalUse env = true ∧ env.flags.internalGlobs = true) ↔ WatchedInternal env := by
  unfold checkInternalUse WatchedInternal hasGlobs
  rw [hf]
  by_cases h : env.fcnHasGlobs = true <;> simp [h] <;> tauto

/-- All messages of `checkGlobUse`. -/
theorem msgs_checkGlobUse (env : Env) (hf : env.inFcn = true) (b : Bool) (l i : Int) (st : St) :
    (checkGlobUse env b l i st).msgs = st.msgs ++
      if Watched env (env.annotation l i) ∧ ¬ Documented env (.var l i) then
        [if b then .mayAccess l i else .undocumented l i] else [] := by
  unfold checkGlobUse
  rw [if_pos hf]
  simp only
  simp only [← watched_iff env hf, ← globAccess_iff]
  by_cases h1 : checkGlob env (env.annotation l i) = true
  · rw [if_pos h1]
    by_cases h2 : globAccess env (.var l i) = true
    · simp [h2]
    · rw [if_pos (by simpa using h2)]
      cases h3 : env.flags.globals <;> cases b <;> simp [msgs_report, h1, h2]
  · rw [if_neg h1, if_neg (by tauto)]; simp

/-- All messages for a variable used by a called function. -/
theorem msgs_usedByCall (env : Env) (hf : env.inFcn = true) (e : Elem) (l i : Int) (st : St) :
    (usedByCall env e l i st).msgs = st.msgs ++
      (if e.alloc then [] else stateMsgs env.flags l i (st.state l i) [.use]) ++
      if Watched env (env.annotation l i) ∧ ¬ Documented env (.var l i) then
        [.mayAccess l i] else [] := by
  unfold usedByCall
  simp only
  rw [msgs_checkGlobUse env hf]
  simp only [if_true]
  congr 1
  cases e.alloc
  · simp only [Bool.false_eq_true, if_false]
    unfold checkUse
    cases h : st.state l i <;>
      simp [state_setState, msgs_report, h, stateMsgs]
  · simp

theorem state_usedByCall (env : Env) (e : Elem) (l i l' i' : Int) (st : St) :
    (usedByCall env e l i st).state l' i' =
      if l' = l ∧ i' = i then next (st.state l i) (if e.alloc then .out else .use)
      else st.state l' i' := by
  unfold usedByCall
  simp only
  rw [state_checkGlobUse]
  cases e.alloc
  · simp only [Bool.false_eq_true, if_false]
    unfold checkUse
    by_cases hl : l' = l ∧ i' = i
    · obtain ⟨rfl, rfl⟩ := hl
      cases h : st.state l' i' <;> simp [state_setState, h, next]
    · rw [if_neg hl]
      cases h : st.state l i <;> simp [state_setState, h, hl]
  · simp only [if_true]
    unfold checkSet
    by_cases hl : l' = l ∧ i' = i
    · obtain ⟨rfl, rfl⟩ := hl
      cases h : st.state l' i' <;> simp [state_setState, h, next]
    · rw [if_neg hl]
      cases h : st.state l i <;> simp [state_setState, h, hl]

/-! ## Undocumented accesses -/

theorem stateMsgs_noAccess (fl : Flags) (l i : Int) (s : GState) (as : List Act) :
    (stateMsgs fl l i s as).filter isAccess = [] := by
  induction as generalizing s with
  | nil => cases s <;> rfl
  | cons a as ih =>
    cases s <;> cases a <;> simp only [stateMsgs, ih, List.filter_append, List.append_nil] <;>
      split <;> rfl

theorem access_callElem (env : Env) (hf : env.inFcn = true) (e : Elem) (st : St) :
    (callElem env st e).msgs.filter isAccess = st.msgs.filter isAccess ++ elemMsgs env e := by
  obtain ⟨w, u, k, a⟩ := e
  unfold callElem elemMsgs
  cases w with
  | var l i =>
    have key : (usedByCall env ⟨.var l i, u, k, a⟩ l i st).msgs.filter isAccess =
        st.msgs.filter isAccess ++
          if Watched env (env.annotation l i) ∧ ¬ Documented env (.var l i) then
            [.mayAccess l i] else [] := by
      rw [msgs_usedByCall env hf]
      simp only [List.filter_append]
      cases a
      · simp only [Bool.false_eq_true, if_false, stateMsgs_noAccess, List.append_nil]
        congr 1
        split <;> rfl
      · simp only [if_true, List.filter_nil, List.append_nil]
        congr 1
        split <;> rfl
    cases u
    · cases k <;> simp [key]
    · cases k <;> simp
  | internal =>
    simp only
    simp only [← watchedInternal_iff env hf, ← globAccess_iff]
    by_cases h1 : checkInternalUse env = true
    · by_cases h2 : globAccess env .internal = true
      · simp [h1, h2]
      · cases h3 : env.flags.internalGlobs <;> simp [h1, h2, h3, msgs_report, isAccess]
    · simp [h1]
  | system =>
    simp only
    simp only [← watchedInternal_iff env hf, ← globAccess_iff]
    by_cases h1 : checkInternalUse env = true
    · by_cases h2 : globAccess env .system = true
      · simp [h1, h2]
      · cases h3 : env.flags.internalGlobs <;> cases h4 : env.flags.modFileSystem <;>
          simp [h1, h2, h3, h4, msgs_report, isAccess]
    · simp [h1]
  | nothing => simp
  | specState => simp

theorem access_callElems (env : Env) (hf : env.inFcn = true) (es : List Elem) (st : St) :
    (es.foldl (callElem env) st).msgs.filter isAccess =
      st.msgs.filter isAccess ++ es.flatMap (elemMsgs env) := by
  induction es generalizing st with
  | nil => simp
  | cons e es ih =>
    rw [List.foldl_cons, ih, access_callElem env hf, List.flatMap_cons, List.append_assoc]

theorem msgs_roots (roots : List (Int × Int)) (st : St) :
    (roots.foldl (fun st r => usedGlobal (.var r.1 r.2) st) st).msgs = st.msgs := by
  induction roots generalizing st with
  | nil => rfl
  | cons r roots ih => rw [List.foldl_cons, ih, msgs_usedGlobal]

theorem msgs_callMods (env : Env) (roots : List (Int × Int)) (st : St) :
    (callMods env roots st).msgs = st.msgs := by
  unfold callMods; split
  · exact msgs_roots _ _
  · rfl

theorem state_roots (roots : List (Int × Int)) (st : St) :
    (roots.foldl (fun st r => usedGlobal (.var r.1 r.2) st) st).state = st.state := by
  induction roots generalizing st with
  | nil => rfl
  | cons r roots ih => rw [List.foldl_cons, ih, state_usedGlobal]

theorem state_callMods (env : Env) (roots : List (Int × Int)) (st : St) :
    (callMods env roots st).state = st.state := by
  unfold callMods; split
  · exact state_roots _ _
  · rfl

theorem access_step (env : Env) (hf : env.inFcn = true) (ev : Event) (st : St) :
    (step env st ev).msgs.filter isAccess = st.msgs.filter isAccess ++ accessMsgs env ev := by
  cases ev with
  | ident l i =>
    unfold step accessMsgs
    simp only
    rw [msgs_checkGlobUse env hf, List.filter_append]
    congr 1
    split <;> rfl
  | become l i s => simp [step, accessMsgs]
  | call globs roots =>
    unfold step accessMsgs
    simp only
    rw [msgs_callMods, access_callElems env hf]

theorem access_events (env : Env) (hf : env.inFcn = true) (evs : List Event) (st : St) :
    (evs.foldl (step env) st).msgs.filter isAccess =
      st.msgs.filter isAccess ++ evs.flatMap (accessMsgs env) := by
  induction evs generalizing st with
  | nil => simp
  | cons e es ih =>
    rw [List.foldl_cons, ih, access_step env hf, List.flatMap_cons, List.append_assoc]

/-! ## Unused elements -/

theorem unused_stateMsgs (fl : Flags) (l i : Int) (s : GState) (as : List Act) :
    (stateMsgs fl l i s as).filter isUnused = [] := by
  induction as generalizing s with
  | nil => cases s <;> rfl
  | cons a as ih =>
    cases s <;> cases a <;> simp only [stateMsgs, ih, List.filter_append, List.append_nil] <;>
      split <;> rfl

theorem unused_callElem (env : Env) (hf : env.inFcn = true) (e : Elem) (st : St) :
    (callElem env st e).msgs.filter isUnused = st.msgs.filter isUnused := by
  obtain ⟨w, u, k, a⟩ := e
  unfold callElem
  cases w with
  | var l i =>
    have key : (usedByCall env ⟨.var l i, u, k, a⟩ l i st).msgs.filter isUnused =
        st.msgs.filter isUnused := by
      rw [msgs_usedByCall env hf]
      simp only [List.filter_append]
      have : (if Watched env (env.annotation l i) ∧ ¬ Documented env (.var l i) then
            [Msg.mayAccess l i] else []).filter isUnused = [] := by split <;> rfl
      rw [this]
      cases a <;> simp [unused_stateMsgs]
    cases u <;> cases k <;> simp [key]
  | internal =>
    simp only
    repeat' split
    all_goals simp [msgs_report, isUnused]
  | system =>
    simp only
    repeat' split
    all_goals simp [msgs_report, isUnused]
  | nothing => rfl
  | specState => rfl

theorem unused_step (env : Env) (hf : env.inFcn = true) (ev : Event) (st : St) :
    (step env st ev).msgs.filter isUnused = st.msgs.filter isUnused := by
  cases ev with
  | ident l i =>
    unfold step
    simp only
    rw [msgs_checkGlobUse env hf, List.filter_append]
    split <;> simp [isUnused]
  | become l i s => rfl
  | call globs roots =>
    unfold step
    simp only
    rw [msgs_callMods]
    induction globs generalizing st with
    | nil => rfl
    | cons e es ih => rw [List.foldl_cons, ih, unused_callElem env hf]

theorem unused_events (env : Env) (hf : env.inFcn = true) (evs : List Event) (st : St) :
    (evs.foldl (step env) st).msgs.filter isUnused = st.msgs.filter isUnused := by
  induction evs generalizing st with
  | nil => rfl
  | cons e es ih => rw [List.foldl_cons, ih, unused_step env hf]

/-- One element at the end of the function. -/
def endStep (env : Env) (st : St) (e : Elem) : St :=
  if !st.used.contains e.what then
    match e.what with
    | .internal | .specState | .nothing => st
    | w => report env.flags.useAllGlobs (.unused w) st
  else st

theorem endStep_used (env : Env) (st : St) (e : Elem) : (endStep env st e).used = st.used := by
  unfold endStep; repeat' split
  all_goals simp

theorem endStep_msgs (env : Env) (st : St) (e : Elem) :
    (endStep env st e).msgs = st.msgs ++
      if env.flags.useAllGlobs = true ∧ Expected e.what = true ∧ e.what ∉ st.used then
        [.unused e.what] else [] := by
  obtain ⟨w, u, k, a⟩ := e
  unfold endStep
  simp only
  by_cases h : w ∈ st.used
  · have h' : st.used.contains w = true := by simpa using h
    rw [h', if_neg (by simp), if_neg (fun x => x.2.2 h), List.append_nil]
  · have h' : st.used.contains w = false := by simpa using h
    rw [h']
    cases hu : env.flags.useAllGlobs <;> cases w <;> simp [msgs_report, Expected, h]

theorem checkUsedGlobs_eq (env : Env) (st : St) :
    checkUsedGlobs env st = env.globs.foldl (endStep env) st := rfl

theorem endSteps_msgs (env : Env) (es : List Elem) (st : St) :
    (es.foldl (endStep env) st).msgs = st.msgs ++ es.flatMap (fun e =>
      if env.flags.useAllGlobs = true ∧ Expected e.what = true ∧ e.what ∉ st.used then
        [.unused e.what] else []) := by
  induction es generalizing st with
  | nil => simp
  | cons e es ih =>
    rw [List.foldl_cons, ih, endStep_msgs, endStep_used, List.flatMap_cons, List.append_assoc]

/-! ## States -/

theorem stateMsgs_append (fl : Flags) (l i : Int) (s : GState) (as bs : List Act) :
    stateMsgs fl l i s (as ++ bs) =
      stateMsgs fl l i s as ++ stateMsgs fl l i (as.foldl next s) bs := by
  induction as generalizing s with
  | nil => cases s <;> simp [stateMsgs]
  | cons a as ih =>
    cases s <;> cases a <;> simp [stateMsgs, ih, next]

theorem stateMsgs_of (fl : Flags) (l i l' i' : Int) (s : GState) (as : List Act) :
    (stateMsgs fl l i s as).filter (isStateOf l' i') =
      if l = l' ∧ i = i' then stateMsgs fl l i s as else [] := by
  by_cases h : l = l' ∧ i = i'
  · rw [if_pos h]
    obtain ⟨rfl, rfl⟩ := h
    induction as generalizing s with
    | nil => cases s <;> rfl
    | cons a as ih =>
      cases s <;> cases a <;> simp only [stateMsgs, ih, List.filter_append] <;> split <;>
        simp [isStateOf]
  · rw [if_neg h]
    induction as generalizing s with
    | nil => cases s <;> rfl
    | cons a as ih =>
      cases s <;> cases a <;> simp only [stateMsgs, ih, List.filter_append, List.append_nil] <;>
        split <;> simp [isStateOf, h]
      all_goals tauto

theorem state_callElem (env : Env) (e : Elem) (st : St) (l i : Int) :
    (callElem env st e).state l i = (elemActs l i e).foldl next (st.state l i) := by
  obtain ⟨w, u, k, a⟩ := e
  unfold callElem elemActs
  cases w with
  | var l' i' =>
    have key := state_usedByCall env ⟨.var l' i', u, k, a⟩ l' i' l i st
    simp only at key
    by_cases h : l = l' ∧ i = i'
    · obtain ⟨rfl, rfl⟩ := h
      cases u <;> cases k <;> cases a <;>
        simp_all [state_setState, next, checkSet]
    · have h' : ¬ (l' = l ∧ i' = i) := fun x => h ⟨x.1.symm, x.2.symm⟩
      rw [if_neg h] at key
      have hn : ¬ What.var l' i' = What.var l i := by simpa using h'
      rw [if_neg hn]
      cases u <;> cases k <;>
        simp [state_setState, checkSet, h, key]
  | internal =>
    simp only
    repeat' split
    all_goals simp_all
  | system =>
    simp only
    repeat' split
    all_goals simp_all
  | nothing => simp
  | specState => simp

theorem stateMsg_callElem (env : Env) (hf : env.inFcn = true) (e : Elem) (st : St) (l i : Int) :
    (callElem env st e).msgs.filter (isStateOf l i) = st.msgs.filter (isStateOf l i) ++
      stateMsgs env.flags l i (st.state l i) (elemActs l i e) := by
  obtain ⟨w, u, k, a⟩ := e
  unfold callElem elemActs
  cases w with
  | var l' i' =>
    have key : (usedByCall env ⟨.var l' i', u, k, a⟩ l' i' st).msgs.filter (isStateOf l i) =
        st.msgs.filter (isStateOf l i) ++
          if l' = l ∧ i' = i then
            (if a then [] else stateMsgs env.flags l i (st.state l i) [.use]) else [] := by
      rw [msgs_usedByCall env hf]
      simp only [List.filter_append]
      have : (if Watched env (env.annotation l' i') ∧ ¬ Documented env (.var l' i') then
            [Msg.mayAccess l' i'] else []).filter (isStateOf l i) = [] := by split <;> rfl
      rw [this, List.append_nil]
      congr 1
      cases a
      · simp only [Bool.false_eq_true, if_false, stateMsgs_of]
        by_cases h : l' = l ∧ i' = i
        · obtain ⟨rfl, rfl⟩ := h; rfl
        · rw [if_neg h, if_neg h]
      · simp
    by_cases h : l' = l ∧ i' = i
    · obtain ⟨rfl, rfl⟩ := h
      cases u <;> cases k <;> cases a <;>
        simp_all [stateMsgs, stateMsgs_append]
      all_goals cases st.state l' i' <;> simp [stateMsgs]
    · rw [if_neg h, List.append_nil] at key
      have hn : ¬ What.var l' i' = What.var l i := by simpa using h
      rw [if_neg hn]
      cases u <;> cases k <;> simp [stateMsgs, key]
  | internal =>
    simp only
    repeat' split
    all_goals simp_all [msgs_report, stateMsgs, isStateOf]
  | system =>
    simp only
    repeat' split
    all_goals simp_all [msgs_report, stateMsgs, isStateOf]
  | nothing => simp [stateMsgs]
  | specState => simp [stateMsgs]

theorem state_callElems (env : Env) (es : List Elem) (st : St) (l i : Int) :
    (es.foldl (callElem env) st).state l i =
      (es.flatMap (elemActs l i)).foldl next (st.state l i) := by
  induction es generalizing st with
  | nil => rfl
  | cons e es ih =>
    rw [List.foldl_cons, ih, state_callElem, List.flatMap_cons, List.foldl_append]

theorem stateMsg_callElems (env : Env) (hf : env.inFcn = true) (es : List Elem) (st : St)
    (l i : Int) :
    (es.foldl (callElem env) st).msgs.filter (isStateOf l i) =
      st.msgs.filter (isStateOf l i) ++
        stateMsgs env.flags l i (st.state l i) (es.flatMap (elemActs l i)) := by
  induction es generalizing st with
  | nil => cases h : st.state l i <;> simp [stateMsgs]
  | cons e es ih =>
    rw [List.foldl_cons, ih, stateMsg_callElem env hf, List.flatMap_cons, stateMsgs_append,
      state_callElem, List.append_assoc]

theorem state_step (env : Env) (ev : Event) (st : St) (l i : Int) :
    (step env st ev).state l i = (acts l i ev).foldl next (st.state l i) := by
  cases ev with
  | ident l' i' => unfold step acts; simp only; rw [state_checkGlobUse]; rfl
  | become l' i' s =>
    unfold step acts
    simp only [state_setState]
    by_cases h : l = l' ∧ i = i'
    · obtain ⟨rfl, rfl⟩ := h; simp [next]
    · rw [if_neg h, if_neg (fun x => h ⟨x.1.symm, x.2.symm⟩)]; rfl
  | call globs roots =>
    unfold step acts
    simp only
    rw [state_callMods, state_callElems]

theorem stateMsg_step (env : Env) (hf : env.inFcn = true) (ev : Event) (st : St) (l i : Int) :
    (step env st ev).msgs.filter (isStateOf l i) = st.msgs.filter (isStateOf l i) ++
      stateMsgs env.flags l i (st.state l i) (acts l i ev) := by
  cases ev with
  | ident l' i' =>
    unfold step acts
    simp only
    rw [msgs_checkGlobUse env hf, List.filter_append]
    congr 1
    cases st.state l i <;> split <;> rfl
  | become l' i' s =>
    unfold step acts
    simp only [msgs_setState]
    split <;> cases st.state l i <;> simp [stateMsgs]
  | call globs roots =>
    unfold step acts
    simp only
    rw [msgs_callMods, stateMsg_callElems env hf]

theorem stateMsg_events (env : Env) (hf : env.inFcn = true) (evs : List Event) (st : St)
    (l i : Int) :
    (evs.foldl (step env) st).msgs.filter (isStateOf l i) = st.msgs.filter (isStateOf l i) ++
      stateMsgs env.flags l i (st.state l i) (evs.flatMap (acts l i)) := by
  induction evs generalizing st with
  | nil => cases st.state l i <;> simp [stateMsgs]
  | cons e es ih =>
    rw [List.foldl_cons, ih, stateMsg_step env hf, List.flatMap_cons, stateMsgs_append, state_step,
      List.append_assoc]

end Splint.GlobUse

namespace Splint
open GlobUse

theorem filter_endSteps (p : Msg → Bool) (hp : ∀ w, p (.unused w) = false) (env : Env) (st : St) :
    (checkUsedGlobs env st).msgs.filter p = st.msgs.filter p := by
  rw [checkUsedGlobs_eq, endSteps_msgs, List.filter_append]
  have : (env.globs.flatMap fun e =>
      if env.flags.useAllGlobs = true ∧ Expected e.what = true ∧ e.what ∉ st.used then
        [Msg.unused e.what] else []).filter p = [] := by
    rw [List.filter_eq_nil_iff]
    intro m hm
    rw [List.mem_flatMap] at hm
    obtain ⟨e, _, hm⟩ := hm
    split at hm
    · simp at hm; subst hm; simp [hp]
    · simp at hm
  rw [this, List.append_nil]

/-- **C122**, what is reported of accesses: whatever was used in earlier functions, the reports in a
function are, in order, one for every identifier that is a watched variable not in the globals list,
and for every call one for every such variable in the list of the called function that is not
`undef` there, and for the internal state and the file system. -/
theorem C122_partial (env : Env) (hf : env.inFcn = true) (evs : List Event) (st : St) :
    (function env evs st).msgs.filter isAccess =
      st.msgs.filter isAccess ++ evs.flatMap (accessMsgs env) := by
  unfold function
  simp only
  split
  · rw [filter_endSteps _ (fun _ => rfl), access_events env hf]
  · rw [access_events env hf]

/-- **C122**, what is listed but not used: exactly the variables and the file system for which
nothing in the body counts as a use, in the order of the list. -/
theorem C122_unused (env : Env) (hf : env.inFcn = true) (evs : List Event) (st : St) :
    (function env evs st).msgs.filter isUnused = st.msgs.filter isUnused ++
      if env.fcnHasGlobs = true ∧ env.flags.useAllGlobs = true then
        (env.globs.filter fun e => open Classical in
          decide (Expected e.what = true ∧ ¬ ∃ ev ∈ evs, Uses env e.what ev)).map
            fun e => .unused e.what
      else [] := by
  unfold function
  simp only
  by_cases hg : env.fcnHasGlobs = true
  · rw [if_pos hg, checkUsedGlobs_eq, endSteps_msgs, List.filter_append, unused_events env hf]
    congr 1
    by_cases hu : env.flags.useAllGlobs = true
    · rw [if_pos ⟨hg, hu⟩]
      have : ∀ es : List Elem, (es.flatMap fun e =>
          if env.flags.useAllGlobs = true ∧ Expected e.what = true ∧
            e.what ∉ (evs.foldl (step env) { st with used := [] }).used then
            [Msg.unused e.what] else []).filter isUnused =
          (es.filter fun e => open Classical in
            decide (Expected e.what = true ∧ ¬ ∃ ev ∈ evs, Uses env e.what ev)).map
              fun e => .unused e.what := by
        intro es
        induction es with
        | nil => rfl
        | cons e es ih =>
          rw [List.flatMap_cons, List.filter_append, ih, List.filter_cons]
          have hx := used_events env hf evs { st with used := [] } e.what
          simp only [List.not_mem_nil, or_false] at hx
          by_cases hc : Expected e.what = true ∧ ¬ ∃ ev ∈ evs, Uses env e.what ev
          · rw [if_pos ⟨hu, hc.1, fun h => hc.2 (hx.1 h)⟩, if_pos (by simpa using hc)]; rfl
          · rw [if_neg (fun h => hc ⟨h.2.1, fun h' => h.2.2 (hx.2 h')⟩),
              if_neg (by simpa using hc)]; rfl
      exact this _
    · rw [if_neg (by tauto)]
      simp [hu]
  · rw [if_neg hg, if_neg (by tauto), unused_events env hf, List.append_nil]

/-- **C122**, what is reported of the state of variables at calls: what is reported about a variable
depends on what happens to it alone, as `stateMsgs` says. -/
theorem C122_state (env : Env) (hf : env.inFcn = true) (evs : List Event) (st : St) (l i : Int) :
    (function env evs st).msgs.filter (isStateOf l i) = st.msgs.filter (isStateOf l i) ++
      stateMsgs env.flags l i (st.state l i) (evs.flatMap (acts l i)) := by
  unfold function
  simp only
  split
  · rw [filter_endSteps _ (fun _ => rfl), stateMsg_events env hf]
  · rw [stateMsg_events env hf]

/-- A function that lists what it and the functions it calls use has nothing reported. -/
theorem C122_documented (env : Env) (hf : env.inFcn = true) (evs : List Event) (st : St)
    (hi : ∀ l i, .ident l i ∈ evs → Documented env (.var l i))
    (hc : ∀ globs roots, .call globs roots ∈ evs → ∀ e ∈ globs, Documented env e.what) :
    (function env evs st).msgs.filter isAccess = st.msgs.filter isAccess := by
  rw [C122_partial env hf]
  have : evs.flatMap (accessMsgs env) = [] := by
    rw [List.flatMap_eq_nil_iff]
    intro ev hev
    cases ev with
    | ident l i => exact if_neg (fun h => h.2 (hi l i hev))
    | become l i s => rfl
    | call globs roots =>
      unfold accessMsgs
      rw [List.flatMap_eq_nil_iff]
      intro e he
      have hd := hc _ _ hev e he
      unfold elemMsgs
      obtain ⟨w, u, k, a⟩ := e
      cases w <;> simp_all
  rw [this, List.append_nil]

/-- Nothing is reported about variables, whatever their annotations and the other flags, when the
flag `globals` is not set. -/
theorem C122_globals_off (env : Env) (hf : env.inFcn = true) (h : env.flags.globals = false)
    (evs : List Event) (st : St) (l i : Int)
    (hm : .mayAccess l i ∈ (function env evs st).msgs ∨ .undocumented l i ∈ (function env evs st).msgs) :
    .mayAccess l i ∈ st.msgs ∨ .undocumented l i ∈ st.msgs := by
  have hw : ∀ k, ¬ Watched env k := by intro k; cases k <;> simp [Watched, h]
  have hz : ∀ ev, (accessMsgs env ev).all (fun m => match m with
      | .mayAccess .. | .undocumented .. => false | _ => true) = true := by
    intro ev
    cases ev with
    | ident l i => simp [accessMsgs, hw]
    | become l i s => rfl
    | call globs roots =>
      simp only [accessMsgs, List.all_flatMap, List.all_eq_true]
      rintro ⟨w, u, k, a⟩ _ m hm
      unfold elemMsgs at hm
      cases w <;> simp [hw] at hm <;> simp [hm]
  have h1 := C122_partial env hf evs st
  rcases hm with hm | hm
  · have : Msg.mayAccess l i ∈ (function env evs st).msgs.filter isAccess := by simp [hm, isAccess]
    rw [h1, List.mem_append] at this
    rcases this with h | h
    · exact Or.inl (List.mem_filter.1 h).1
    · rw [List.mem_flatMap] at h
      obtain ⟨ev, _, h⟩ := h
      simpa using List.all_eq_true.1 (hz ev) _ h
  · have : Msg.undocumented l i ∈ (function env evs st).msgs.filter isAccess := by
      simp [hm, isAccess]
    rw [h1, List.mem_append] at this
    rcases this with h | h
    · exact Or.inr (List.mem_filter.1 h).1
    · rw [List.mem_flatMap] at h
      obtain ⟨ev, _, h⟩ := h
      simpa using List.all_eq_true.1 (hz ev) _ h

/-- The property in full: a watched variable that is not listed, and that a called function may
access, is reported; and a listed variable that a called function may access counts as used. -/
def C122_full : Prop := ∀ (env : Env) (evs : List Event) (st : St) (globs : List Elem)
  (roots : List (Int × Int)) (e : Elem) (l i : Int), env.inFcn = true → .call globs roots ∈ evs →
  e ∈ globs → e.what = .var l i →
  (Watched env (env.annotation l i) → ¬ Documented env (.var l i) →
    .mayAccess l i ∈ (function env evs st).msgs) ∧
  (.unused (.var l i) ∈ (function env evs st).msgs → .unused (.var l i) ∈ st.msgs)

def sampleFlags : Flags :=
  ⟨true, true, true, true, true, true, true, true, true, true, true⟩

def sampleEnv (globs : List Elem) : Env :=
  ⟨sampleFlags, true, true, globs, true, fun _ _ => .checked⟩

def fresh : St := ⟨[], fun _ _ => .defined, []⟩

/-- A call of a function with `globals undef g` counts neither as an access nor as a use of `g`:
the call is not reported in a function that does not list `g`, and one that lists it is said not to
use it. -/
theorem C122_full_is_false : ¬ C122_full := by
  intro h
  have := (h (sampleEnv []) [.call [⟨.var 0 1, true, false, false⟩] []] fresh _ _ _ 0 1 rfl
    (List.mem_singleton.2 rfl) (List.mem_singleton.2 rfl) rfl).1 (by decide) (by decide)
  exact absurd this (by decide)

theorem C122_undef_unused :
    (function (sampleEnv [⟨.var 0 1, false, false, false⟩])
      [.call [⟨.var 0 1, true, false, false⟩] []] fresh).msgs = [.unused (.var 0 1)] := by decide

/-- That `undef` is the only reason. -/
theorem C122_reported (env : Env) (hf : env.inFcn = true) (evs : List Event) (st : St)
    (globs : List Elem) (roots : List (Int × Int)) (e : Elem) (l i : Int)
    (hev : .call globs roots ∈ evs) (he : e ∈ globs) (hw : e.what = .var l i)
    (hu : e.undef = false) :
    (Watched env (env.annotation l i) → ¬ Documented env (.var l i) →
      .mayAccess l i ∈ (function env evs st).msgs) ∧
    (.unused (.var l i) ∈ (function env evs st).msgs → .unused (.var l i) ∈ st.msgs) := by
  constructor
  · intro h1 h2
    have : Msg.mayAccess l i ∈ (function env evs st).msgs.filter isAccess := by
      rw [C122_partial env hf, List.mem_append, List.mem_flatMap]
      refine Or.inr ⟨_, hev, ?_⟩
      unfold accessMsgs
      rw [List.mem_flatMap]
      refine ⟨e, he, ?_⟩
      unfold elemMsgs
      rw [hw]
      simp only
      rw [if_pos ⟨hu, h1, h2⟩]
      exact List.mem_singleton.2 rfl
    exact (List.mem_filter.1 this).1
  · intro h
    have : Msg.unused (.var l i) ∈ (function env evs st).msgs.filter isUnused := by
      simp [h, isUnused]
    rw [C122_unused env hf, List.mem_append] at this
    rcases this with h | h
    · exact (List.mem_filter.1 h).1
    · exfalso
      split at h
      · rw [List.mem_map] at h
        obtain ⟨x, hx, hx'⟩ := h
        rw [List.mem_filter] at hx
        have hq : x.what = .var l i := by injection hx'
        have := @of_decide_eq_true _ (_) hx.2
        rw [hq] at this
        refine this.2 ⟨_, hev, Or.inl ⟨e, he, hw, Or.inr (Or.inr ⟨⟨l, i, rfl⟩, Or.inl hu⟩)⟩⟩
      · simp at h

/-- With `internalglobsnoglobs` but not `internalglobs` nothing is reported in a function without a
globals list: the message has the other flag. -/
theorem C122_internalNoGlobs (env : Env) (hf : env.inFcn = true)
    (h : env.flags.internalGlobs = false) (evs : List Event) (st : St) (w : What) :
    .mayAccessSpecial w ∈ (function env evs st).msgs → .mayAccessSpecial w ∈ st.msgs := by
  intro hm
  have : Msg.mayAccessSpecial w ∈ (function env evs st).msgs.filter isAccess := by
    simp [hm, isAccess]
  rw [C122_partial env hf, List.mem_append] at this
  rcases this with h' | h'
  · exact (List.mem_filter.1 h').1
  · exfalso
    rw [List.mem_flatMap] at h'
    obtain ⟨ev, _, h'⟩ := h'
    have hn : ¬ WatchedInternal env := by simp [WatchedInternal, h]
    cases ev with
    | ident l i =>
      simp only [accessMsgs] at h'
      split at h' <;> simp at h'
    | become l i s => simp [accessMsgs] at h'
    | call globs roots =>
      simp only [accessMsgs, List.mem_flatMap] at h'
      obtain ⟨⟨x, u, k, a⟩, _, h'⟩ := h'
      unfold elemMsgs at h'
      cases x <;> simp [hn] at h'

/-- Storage that was released is reported when it is used next, once, whatever is called between
that expects only storage (`out`): such a call is not reported. -/
theorem C122_released (fl : Flags) (l i : Int) (n : Nat) (as : List Act) :
    stateMsgs fl l i .dead (List.replicate n .out ++ .use :: as) =
      (if fl.useReleased then [.released l i] else []) ++ stateMsgs fl l i .defined as := by
  induction n with
  | zero => rfl
  | succ n ih => rw [List.replicate_succ, List.cons_append, stateMsgs]; exact ih; simp; simp

/-- An undefined variable is reported by the first call that uses it only. -/
theorem C122_once (fl : Flags) (l i : Int) (n : Nat) :
    stateMsgs fl l i .undefined (List.replicate (n + 1) .use) =
      if fl.globState then [.undefinedBefore l i] else [] := by
  have : ∀ n, stateMsgs fl l i .defined (List.replicate n .use) = [] := by
    intro n
    induction n with
    | zero => rfl
    | succ n ih => rw [List.replicate_succ, stateMsgs]; exact ih; simp; simp
  rw [List.replicate_succ, stateMsgs, this, List.append_nil]

example : (function (sampleEnv [⟨.var 0 1, false, false, false⟩, ⟨.internal, false, false, false⟩,
      ⟨.system, false, false, false⟩])
    [.ident 0 2, .become 0 1 .undefined,
     .call [⟨.var 0 1, false, true, false⟩, ⟨.var 0 3, false, false, false⟩,
       ⟨.internal, false, false, false⟩] [(0, 4)],
     .call [⟨.var 0 1, false, false, true⟩] [], .call [⟨.var 0 1, false, false, false⟩] []]
    fresh).msgs =
    [.undocumented 0 2, .undefinedBefore 0 1, .mayAccess 0 3, .released 0 1, .unused .system] := by
  decide

end Splint
