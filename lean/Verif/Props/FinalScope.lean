import Verif.Proofs.FinalScope
/-!
# C72, C73: storage that is not released

C72: when a function returns, each variable through which storage has to be released is reported. C73: when a block is
left, so is each variable of the block, unless a reference outside of it takes over.
-/
namespace Splint.FinalScope
open Spec

/-! ## Examples -/

/-- nothing is aliased -/
def env0 : Env := { aliasedBy := fun _ => [], allAliases := fun _ => [], guardNull := fun _ => false, owners := fun _ => [] }

/-- all references hold new storage -/
def allFresh : Refs := fun _ => { al := .fresh }

/-- `p` outside, and another `p` in an inner block -/
def shadowing : List (List Var) := [[{ obj := 1, name := 0, ref := 1 }], [{ obj := 0, name := 0, ref := 0 }]]

theorem shadowing_wf : WF shadowing := ⟨by decide, by decide, by decide⟩

/-! ## C72 -/

/-- C72: on a return, all variables that must release storage are reported. -/
def C72_full : Prop :=
  ∀ (E : Env) (scopes : List (List Var)) (R : Refs), WF scopes → ∀ v ∈ scopes.flatten, Plain v → Owns E v.ref (R v.ref) →
    Reported v (run E true scopes R)

/-- It does not hold: a variable is forgotten if an inner scope has one of the same name. -/
theorem C72_full_is_false : ¬ C72_full := by
  intro h
  obtain ⟨m, hm, hmem⟩ := h env0 shadowing allFresh shadowing_wf { obj := 0, name := 0, ref := 0 } (by decide)
    ⟨rfl, rfl, rfl, rfl⟩ ⟨rfl, by decide, rfl, rfl⟩
  have : (run env0 true shadowing allFresh).out = [(1, .notReleased)] := by decide +kernel
  rw [this] at hmem
  simp at hmem

/-- All that are not hidden are reported. -/
theorem C72_visible_partial (E : Env) (scopes : List (List Var)) (R : Refs) (hw : WF scopes) (v : Var)
    (hv : Visible scopes v) (hp : Plain v) (ho : Owns E v.ref (R v.ref)) : Reported v (run E true scopes R) := by
  have hsub := examined_sublist scopes
  obtain ⟨l1, l2, _, h⟩ := run_turn E true (examined scopes) R ((hsub.map _).nodup hw.refs) ((hsub.map _).nodup hw.objs) v
    ((examined_iff hw v).2 hv) hp
  rw [run, if_pos rfl]
  exact h.2 ⟨owns_owes (grows_foldl E true l1 { refs := R }) ho, .inl rfl⟩

example : Visible shadowing { obj := 1, name := 0, ref := 1 } ∧
    Owns env0 1 (allFresh 1) ∧ (run env0 true shadowing allFresh).out = [(1, .notReleased)] :=
  ⟨⟨[], _, _, rfl, by simp, by simp⟩, ⟨rfl, by decide, rfl, rfl⟩, by decide +kernel⟩

/-- Exactly which: those that are not hidden and must release storage. A new reference must be released even if it is dead
or null. (No structure whose storage is held elsewhere is in the scopes.) -/
theorem C72_exactly (E : Env) (scopes : List (List Var)) (R : Refs) (hw : WF scopes) (he : ∀ r, E.owners r = []) (v : Var)
    (hv : v ∈ scopes.flatten) (hp : Plain v) :
    Reported v (run E true scopes R) ↔
      Visible scopes v ∧ (Owns E v.ref (R v.ref) ∨ (R v.ref).al = .newRef) := by
  have hsub := examined_sublist scopes
  have hr := (hsub.map (·.ref)).nodup hw.refs
  have hob := (hsub.map (·.obj)).nodup hw.objs
  have howes : owes E v.ref (R v.ref) = true ↔ (Owns E v.ref (R v.ref) ∨ (R v.ref).al = .newRef) := by
    unfold owes Owns
    cases (R v.ref).al <;> simp [ownKind, Transfer.isOnly, and_assoc]
  by_cases hx : Visible scopes v
  · obtain ⟨l1, l2, _, h⟩ := run_turn E true (examined scopes) R hr hob v ((examined_iff hw v).2 hx) hp
    rw [run, if_pos rfl, h, foldl_return_refs E he]
    simp [hx, howes]
  · simp only [hx, false_and, iff_false]
    rintro ⟨m, _, hm⟩
    rw [run, if_pos rfl] at hm
    obtain ⟨l, e, k⟩ := foldl_out E true (examined scopes) { refs := R }
    rw [e] at hm
    obtain ⟨w, hw1, hw2⟩ := List.mem_map.1 (k _ (by simpa using hm))
    obtain rfl := nodup_map_eq (·.obj) hw.objs (hsub.subset hw1) hv hw2
    exact hx ((examined_iff hw w).1 hw1)

example : ¬ Visible shadowing { obj := 0, name := 0, ref := 0 } := by
  rw [lookup_visible _ shadowing_wf.names]
  decide

/-- `out` parameters and variables that are not defined are reported on a return, and user-defined states in which a
reference must not be lost, exactly where they are: of all variables that are not hidden. -/
theorem C72_other (E : Env) (scopes : List (List Var)) (R : Refs) (hw : WF scopes) (v : Var)
    (hv : Visible scopes v) (hf : v.isFcn = false) :
    ((v.obj, Rep.notDefined) ∈ (run E true scopes R).out ↔
      E.mustDefine = true ∧ v.isOut = true ∧ (R v.ref).really = false ∧ (R v.ref).defst ≠ .dead) ∧
    (∀ k, (v.obj, Rep.state k) ∈ (run E true scopes R).out ↔
      k ∈ v.loses ∧ v.isParam = false ∧ v.isGlobal = false ∧ (R v.ref).null = false ∧ E.guardNull v.ref = false
        ∧ (R v.ref).defst ≠ .undefined) := by
  have hsub := examined_sublist scopes
  rw [run, if_pos rfl]
  exact run_other E true _ R ((hsub.map (·.obj)).nodup hw.objs) v ((examined_iff hw v).2 hv) hf

example : (run env0 true [[{ obj := 0, name := 0, ref := 0, isOut := true, loses := [3] }]]
    fun _ => { al := .temp, defst := .allocated, really := false }).out = [(0, .state 3), (0, .notDefined)] := by
  decide +kernel

/-- The parts of a local structure are checked on a return (see C74) if and only if nothing else refers to it, and it is
neither exposed, observer nor partial. -/
theorem C72_struct (E : Env) (scopes : List (List Var)) (R : Refs) (hw : WF scopes) (he : ∀ r, E.owners r = []) (v : Var)
    (hv : Visible scopes v) (hf : v.isFcn = false) (hg : v.isGlobal = false) (hst : v.isStatic = false)
    (hp : v.isParam = false) (hsu : v.isSU = true) (ha : ownKind (R v.ref).al = false)
    (hd : (R v.ref).al ≠ .dependent ∧ (R v.ref).al ≠ .impDependent) :
    (v.obj, Rep.parts) ∈ (run E true scopes R).out ↔
      E.allAliases v.ref = [] ∧ (R v.ref).shown = false ∧ (R v.ref).defst ≠ .partial_ := by
  have hsub := examined_sublist scopes
  have hr := (hsub.map (·.ref)).nodup hw.refs
  have ho := (hsub.map (·.obj)).nodup hw.objs
  rw [run, if_pos rfl]
  obtain ⟨l1, l2, e⟩ := List.append_of_mem ((examined_iff hw v).2 hv)
  rw [e] at hr ho ⊢
  rw [List.map_append, List.map_cons, List.nodup_append] at hr ho
  have o1 : v.obj ∉ l1.map (·.obj) := fun h => ho.2.2 _ h _ (by simp) rfl
  have o2 : v.obj ∉ l2.map (·.obj) := (List.nodup_cons.1 ho.2.1).1
  have r1 : v.ref ∉ (l1.foldl (step E true) { refs := R }).checked := by
    intro h
    rcases foldl_checked E true l1 _ _ h with h | h
    · simp at h
    · exact hr.2.2 _ h _ (by simp) rfl
  have hR := foldl_return_refs E he l1 { refs := R }
  rw [foldl_turn E true l1 l2 v { refs := R } o2,
    turn_struct E true (l1.foldl (step E true) { refs := R }) v hf hg hst hp hsu
      (foldl_before E true l1 v { refs := R } o1 (by simp)) r1 (by rw [hR]; exact ha)
      (by rw [hR]; simp [Transfer.isDependent, hd]), hR]

example : (run env0 true [[{ obj := 0, name := 0, ref := 0, isSU := true }]] fun _ => { al := .local_ }).out =
    [(0, .parts)] := by decide +kernel

/-! ## C73 -/

/-- C73: when a block is left, storage that has to be released and that only variables of the block refer to is
reported, for one of them. -/
def C73_full : Prop :=
  ∀ (E : Env) (sc : List Var) (R : Refs), WF [sc] → ∀ v ∈ sc, Plain v → Owns E v.ref (R v.ref) →
    (∀ a ∈ E.aliasedBy v.ref, ∃ w ∈ sc, w.ref = a) →
    ∃ w ∈ sc, (w = v ∨ w.ref ∈ E.aliasedBy v.ref) ∧ Reported w (run E false [sc] R)

/-- `q = p;` makes `p` and `q` aliases of each other -/
def envPQ : Env := { env0 with aliasedBy := fun r => if r = 0 then [1] else if r = 1 then [0] else [] }

def blockPQ : List Var := [{ obj := 0, name := 0, ref := 0 }, { obj := 1, name := 1, ref := 1 }]

/-- It does not hold: in `{ char *p = malloc (3), *q = p; }` each takes the other for a reference that
stays. -/
theorem C73_full_is_false : ¬ C73_full := by
  intro h
  obtain ⟨w, hw, _, m, hm, hmem⟩ := h envPQ blockPQ (fun r => { al := if r = 0 then .dependent else .owned })
    ⟨by decide, by decide, by decide⟩ { obj := 1, name := 1, ref := 1 } (by decide) ⟨rfl, rfl, rfl, rfl⟩
    ⟨rfl, by decide, rfl, rfl⟩ (by decide)
  have : (run envPQ false [blockPQ] fun r => { al := if r = 0 then .dependent else .owned }).out = [] := by
    decide +kernel
  rw [this] at hmem
  cases hmem

/-- A variable that must release storage is reported when its block is left, if and only if no other reference to the
storage is known: also one of the same block. -/
theorem C73_exactly (E : Env) (sc : List Var) (rest : List (List Var)) (R : Refs) (hw : WF (sc :: rest)) (v : Var)
    (hv : v ∈ sc) (hp : Plain v) (ho : Owns E v.ref (R v.ref)) :
    Reported v (run E false (sc :: rest) R) ↔ E.aliasedBy v.ref = [] := by
  have hsub : sc.Sublist (sc :: rest).flatten := by simp
  obtain ⟨l1, l2, _, h⟩ := run_turn E false sc R ((hsub.map _).nodup hw.refs) ((hsub.map _).nodup hw.objs) v hv hp
  have : run E false (sc :: rest) R = sc.foldl (step E false) { refs := R } := rfl
  rw [this, h]
  simp [owns_owes (grows_foldl E false l1 { refs := R }) ho]

example : (run env0 false [blockPQ] allFresh).out = [(0, .notReleased), (1, .notReleased)] := by decide +kernel

/-- Without any alias in the block, the duty to release storage is never lost: the variable is reported, or a
reference outside of the block has the duty afterwards. -/
theorem C73_takeover_partial (E : Env) (sc : List Var) (rest : List (List Var)) (R : Refs) (hw : WF (sc :: rest)) (v : Var)
    (hv : v ∈ sc) (hp : Plain v) (ho : Owns E v.ref (R v.ref)) (ha : ∀ a ∈ E.aliasedBy v.ref, ∀ w ∈ sc, w.ref ≠ a) :
    Reported v (run E false (sc :: rest) R) ∨
      ∃ a ∈ E.aliasedBy v.ref, (∀ w ∈ sc, w.ref ≠ a) ∧ ownKind ((run E false (sc :: rest) R).refs a).al = true := by
  cases hal : E.aliasedBy v.ref with
  | nil => exact .inl ((C73_exactly E sc rest R hw v hv hp ho).2 hal)
  | cons a as =>
    right
    refine ⟨a, by simp, ha a (by simp [hal]), ?_⟩
    have hsub : sc.Sublist (sc :: rest).flatten := by simp
    have hr := (hsub.map (·.ref)).nodup hw.refs
    have : run E false (sc :: rest) R = sc.foldl (step E false) { refs := R } := rfl
    rw [this]
    obtain ⟨l1, l2, rfl⟩ := List.append_of_mem hv
    rw [List.map_append, List.map_cons, List.nodup_append] at hr
    have r1 : v.ref ∉ (l1.foldl (step E false) { refs := R }).checked := by
      intro h
      rcases foldl_checked E false l1 _ _ h with h | h
      · simp at h
      · exact hr.2.2 _ h _ (by simp) rfl
    rw [List.foldl_append, List.foldl_cons]
    generalize hs : l1.foldl (step E false) { refs := R } = s at r1
    have hg : Grows R s.refs := hs ▸ grows_foldl E false l1 { refs := R }
    have how := owns_owes hg ho
    have key : ownKind ((step E false s v).refs a).al = true := by
      have hc' : (checkStates E v s).checked.contains v.ref = false := by
        rw [(states_refs E v s).2]; simpa using r1
      have : (step E false s v).refs = setAl s.refs a (s.refs v.ref).al true := by
        unfold step
        simp only [hp.1, Bool.false_eq_true, if_false, (out_refs _ _ _).1]
        unfold checkLeak
        rw [hc']
        simp [hp.2.1, hp.2.2.1, hp.2.2.2, (states_refs E v s).1, how, hal]
      rw [this]
      simpa [setAl] using owes_kind how
    rcases (grows_foldl E false l2 (step E false s v) a).2 with e | e
    · rw [e]; exact key
    · exact e

example : ownKind ((run { env0 with aliasedBy := fun r => if r = 0 then [5] else [] } false
    [[{ obj := 0, name := 0, ref := 0 }]] fun r => { al := if r = 0 then .owned else .dependent }).refs 5).al = true := by
  decide +kernel

end Splint.FinalScope
