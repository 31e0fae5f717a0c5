import Verif.Spec.FinalScope
import Verif.Tactics
namespace Splint.FinalScope
open Spec
open Transfer (isOnly isDependent)

theorem owes_iff {E : Env} {r : Nat} {s : RS} (h1 : s.defst ≠ .dead) (h2 : s.null = false) (h3 : E.guardNull r = false) :
    owes E r s = ownKind s.al := by
  unfold owes
  cases h : s.al <;> simp [ownKind, isOnly, h1, h2, h3]

theorem owes_kind {E : Env} {r : Nat} {s : RS} (h : owes E r s = true) : ownKind s.al = true := by
  unfold owes at h
  cases ha : s.al <;> simp_all [ownKind, isOnly]

/-- What cannot change. -/
def Same (s t : RS) : Prop := t.defst = s.defst ∧ t.null = s.null ∧ t.shown = s.shown ∧ t.really = s.really

theorem Same.refl (s : RS) : Same s s := ⟨rfl, rfl, rfl, rfl⟩
theorem Same.trans {a b c : RS} (h : Same a b) (g : Same b c) : Same a c :=
  ⟨g.1.trans h.1, g.2.1.trans h.2.1, g.2.2.1.trans h.2.2.1, g.2.2.2.trans h.2.2.2⟩

/-- How references may change: only their kind, and to one that owns storage. -/
def Grows (R R' : Refs) : Prop := ∀ x, Same (R x) (R' x) ∧ ((R' x).al = (R x).al ∨ ownKind (R' x).al = true)

theorem Grows.refl (R : Refs) : Grows R R := fun _ => ⟨Same.refl _, .inl rfl⟩
theorem Grows.trans {R R' R'' : Refs} (h : Grows R R') (g : Grows R' R'') : Grows R R'' := by
  intro x
  refine ⟨(h x).1.trans (g x).1, ?_⟩
  rcases (g x).2 with e | e
  · rcases (h x).2 with e' | e'
    · exact .inl (e.trans e')
    · exact .inr (by rw [e]; exact e')
  · exact .inr e

theorem grows_setAl (R : Refs) (r : Nat) (k : AlKind) (b : Bool) (hk : ownKind k = true) : Grows R (setAl R r k b) := by
  intro x
  unfold setAl
  by_cases h : x = r
  · subst h; rw [if_pos rfl]; exact ⟨⟨rfl, rfl, rfl, rfl⟩, .inr hk⟩
  · rw [if_neg h]; exact ⟨Same.refl _, .inl rfl⟩

theorem grows_takeParts (l : List Nat) : ∀ R : Refs, Grows R (takeParts R l) := by
  induction l with
  | nil => exact Grows.refl
  | cons o os ih =>
    intro R
    unfold takeParts
    split_ifs
    · exact ih R
    · exact (grows_setAl R o .only false rfl).trans (ih _)

theorem grows_destroy (E : Env) (v : Var) (s : St) : Grows s.refs (destroyParts E v s).refs := by
  unfold destroyParts
  split_ifs
  · exact Grows.refl _
  · exact grows_takeParts _ _

theorem grows_leak (E : Env) (v : Var) (s : St) : Grows s.refs (leak E v s).refs := by
  unfold leak
  split_ifs
  · exact Grows.refl _
  · exact Grows.refl _
  · exact grows_destroy E v s
  · exact Grows.refl _

theorem states_refs (E : Env) (v : Var) (s : St) : (checkStates E v s).refs = s.refs ∧ (checkStates E v s).checked = s.checked := by
  unfold checkStates; split_ifs <;> exact ⟨rfl, rfl⟩

theorem out_refs (E : Env) (v : Var) (s : St) : (checkOut E v s).refs = s.refs ∧ (checkOut E v s).checked = s.checked := by
  unfold checkOut; split_ifs <;> exact ⟨rfl, rfl⟩

theorem destroy_checked (E : Env) (v : Var) (s : St) : (destroyParts E v s).checked = s.checked := by
  unfold destroyParts; split_ifs <;> rfl

theorem leak_checked (E : Env) (v : Var) (s : St) : (leak E v s).checked = s.checked := by
  unfold leak; split_ifs <;> first | rfl | exact destroy_checked E v s

theorem leakCheck_checked (E : Env) (b : Bool) (v : Var) (s : St) : (checkLeak E b v s).checked = s.checked := by
  unfold checkLeak
  split_ifs
  · rfl
  · exact destroy_checked E v s
  · rfl
  · exact leak_checked E v s
  · cases E.aliasedBy v.ref
    · exact leak_checked E v s
    · rfl
  · rfl

theorem grows_checkLeak (E : Env) (b : Bool) (v : Var) (s : St) : Grows s.refs (checkLeak E b v s).refs := by
  unfold checkLeak
  split_ifs with h1 h2 h3 h4 h5
  · exact Grows.refl _
  · exact grows_destroy E v s
  · exact Grows.refl _
  · exact grows_leak E v s
  · cases E.aliasedBy v.ref
    · exact grows_leak E v s
    · simp only [Bool.and_eq_true] at h4
      exact grows_setAl _ _ _ _ (owes_kind h4.2)
  · exact Grows.refl _

theorem grows_step (E : Env) (b : Bool) (s : St) (v : Var) : Grows s.refs (step E b s v).refs := by
  unfold step
  split_ifs
  · exact Grows.refl _
  · simp only [out_refs]
    have := grows_checkLeak E b v (checkStates E v s)
    rwa [(states_refs E v s).1] at this

theorem grows_foldl (E : Env) (b : Bool) (l : List Var) : ∀ s : St, Grows s.refs (l.foldl (step E b) s).refs := by
  induction l with
  | nil => exact fun s => Grows.refl _
  | cons v l ih => exact fun s => (grows_step E b s v).trans (ih _)

theorem step_checked (E : Env) (b : Bool) (s : St) (v : Var) :
    (step E b s v).checked = if v.isFcn then s.checked else v.ref :: s.checked := by
  unfold step
  split_ifs
  · rfl
  · simp [out_refs, leakCheck_checked, states_refs]

theorem foldl_checked (E : Env) (b : Bool) (l : List Var) : ∀ (s : St) (r : Nat),
    r ∈ (l.foldl (step E b) s).checked → r ∈ s.checked ∨ r ∈ l.map (·.ref) := by
  induction l with
  | nil => exact fun s r h => .inl h
  | cons v l ih =>
    intro s r h
    rcases ih _ r h with h | h
    · rw [step_checked] at h
      split_ifs at h
      · exact .inl h
      · rcases List.mem_cons.1 h with rfl | h
        · simp
        · exact .inl h
    · right; simp only [List.map_cons, List.mem_cons]; exact .inr h

/-! ## Messages -/

theorem destroy_out (E : Env) (v : Var) (s : St) :
    ∃ l, (destroyParts E v s).out = s.out ++ l ∧ ∀ p ∈ l, p = (v.obj, Rep.parts) := by
  unfold destroyParts
  split_ifs
  · exact ⟨[], by simp, by simp⟩
  · exact ⟨[(v.obj, .parts)], rfl, by simp⟩

theorem leak_out (E : Env) (v : Var) (s : St) :
    ∃ l, (leak E v s).out = s.out ++ l ∧ ∀ p ∈ l, p.1 = v.obj := by
  unfold leak
  split_ifs
  · exact ⟨[(v.obj, .last)], rfl, by simp⟩
  · exact ⟨[(v.obj, .newRef)], rfl, by simp⟩
  · obtain ⟨l, h1, h2⟩ := destroy_out E v s
    exact ⟨l, h1, fun p hp => by rw [h2 p hp]⟩
  · exact ⟨[(v.obj, .notReleased)], rfl, by simp⟩

theorem checkLeak_out (E : Env) (b : Bool) (v : Var) (s : St) :
    ∃ l, (checkLeak E b v s).out = s.out ++ l ∧ ∀ p ∈ l, p.1 = v.obj := by
  unfold checkLeak
  split_ifs
  · exact ⟨[], by simp, by simp⟩
  · obtain ⟨l, h1, h2⟩ := destroy_out E v s
    exact ⟨l, h1, fun p hp => by rw [h2 p hp]⟩
  · exact ⟨[], by simp, by simp⟩
  · exact leak_out E v s
  · cases E.aliasedBy v.ref
    · exact leak_out E v s
    · exact ⟨[], by simp, by simp⟩
  · exact ⟨[], by simp, by simp⟩

theorem states_out (E : Env) (v : Var) (s : St) :
    ∃ l, (checkStates E v s).out = s.out ++ l ∧ ∀ p ∈ l, p.1 = v.obj ∧ ∃ k, p.2 = .state k := by
  unfold checkStates
  split_ifs
  · exact ⟨[], by simp, by simp⟩
  · exact ⟨[], by simp, by simp⟩
  · exact ⟨[], by simp, by simp⟩
  · refine ⟨_, rfl, ?_⟩
    intro p hp
    obtain ⟨k, _, rfl⟩ := List.mem_map.1 hp
    exact ⟨rfl, k, rfl⟩

theorem checkOut_out (E : Env) (v : Var) (s : St) :
    ∃ l, (checkOut E v s).out = s.out ++ l ∧ ∀ p ∈ l, p = (v.obj, Rep.notDefined) := by
  unfold checkOut
  split_ifs
  · exact ⟨[(v.obj, .notDefined)], rfl, by simp⟩
  · exact ⟨[], by simp, by simp⟩

theorem step_out (E : Env) (b : Bool) (s : St) (v : Var) :
    ∃ l, (step E b s v).out = s.out ++ l ∧ ∀ p ∈ l, p.1 = v.obj := by
  unfold step
  split_ifs
  · exact ⟨[], by simp, by simp⟩
  · obtain ⟨l1, h1, k1⟩ := states_out E v s
    obtain ⟨l2, h2, k2⟩ := checkLeak_out E b v (checkStates E v s)
    obtain ⟨l3, h3, k3⟩ := checkOut_out E v (checkLeak E b v (checkStates E v s))
    refine ⟨l1 ++ l2 ++ l3, by simp [h3, h2, h1], ?_⟩
    intro p hp
    simp only [List.mem_append] at hp
    rcases hp with (hp | hp) | hp
    · exact (k1 p hp).1
    · exact k2 p hp
    · rw [k3 p hp]

theorem foldl_out (E : Env) (b : Bool) (l : List Var) : ∀ s : St,
    ∃ m, (l.foldl (step E b) s).out = s.out ++ m ∧ ∀ p ∈ m, p.1 ∈ l.map (·.obj) := by
  induction l with
  | nil => exact fun s => ⟨[], by simp, by simp⟩
  | cons v l ih =>
    intro s
    obtain ⟨m1, h1, k1⟩ := step_out E b s v
    obtain ⟨m2, h2, k2⟩ := ih (step E b s v)
    refine ⟨m1 ++ m2, by simp [h2, h1], ?_⟩
    intro p hp
    rcases List.mem_append.1 hp with hp | hp
    · simp [k1 p hp]
    · simp only [List.map_cons, List.mem_cons]; exact .inr (k2 p hp)

/-- The messages about a variable are those of its turn. -/
theorem foldl_turn (E : Env) (b : Bool) (l1 l2 : List Var) (v : Var) (s : St)
    (h2 : v.obj ∉ l2.map (·.obj)) (m : Rep) :
    (v.obj, m) ∈ ((l1 ++ v :: l2).foldl (step E b) s).out ↔
      (v.obj, m) ∈ (step E b (l1.foldl (step E b) s) v).out := by
  rw [List.foldl_append, List.foldl_cons]
  obtain ⟨m2, e2, k2⟩ := foldl_out E b l2 (step E b (l1.foldl (step E b) s) v)
  rw [e2, List.mem_append]
  exact or_iff_left fun h => h2 (k2 _ h)

/-- No message about it is there before its turn. -/
theorem foldl_before (E : Env) (b : Bool) (l1 : List Var) (v : Var) (s : St)
    (h1 : v.obj ∉ l1.map (·.obj)) (h0 : ∀ p ∈ s.out, p.1 ≠ v.obj) (m : Rep) :
    (v.obj, m) ∉ (l1.foldl (step E b) s).out := by
  obtain ⟨m1, e1, k1⟩ := foldl_out E b l1 s
  rw [e1, List.mem_append]
  rintro (h | h)
  · exact h0 _ h rfl
  · exact h1 (k1 _ h)

/-- The turn of a variable that is no structure. -/
theorem turn_plain (E : Env) (b : Bool) (s : St) (v : Var) (hp : Plain v) (hc : v.ref ∉ s.checked)
    (h0 : ∀ m, (v.obj, m) ∉ s.out) :
    (∃ m, isLeak m = true ∧ (v.obj, m) ∈ (step E b s v).out) ↔
      owes E v.ref (s.refs v.ref) = true ∧ (b = true ∨ E.aliasedBy v.ref = []) := by
  obtain ⟨hf, hg, hs, hu⟩ := hp
  have hc' : (checkStates E v s).checked.contains v.ref = false := by
    rw [(states_refs E v s).2]; simpa using hc
  obtain ⟨l1, e1, k1⟩ := states_out E v s
  obtain ⟨l3, e3, k3⟩ := checkOut_out E v (checkLeak E b v (checkStates E v s))
  have hst : (step E b s v).out = (checkLeak E b v (checkStates E v s)).out ++ l3 := by
    simp [step, hf, e3]
  have hcl : checkLeak E b v (checkStates E v s) =
      if owes E v.ref (s.refs v.ref) then
        if b then leak E v (checkStates E v s)
        else match E.aliasedBy v.ref with
          | [] => leak E v (checkStates E v s)
          | a :: _ => { checkStates E v s with refs := setAl s.refs a (s.refs v.ref).al true }
      else checkStates E v s := by
    unfold checkLeak
    rw [hc']
    cases E.aliasedBy v.ref <;> simp [hg, hu, hs, (states_refs E v s).1]
  have hno : ∀ m, isLeak m = true → (v.obj, m) ∉ s.out ++ l1 := by
    intro m hm h
    rcases List.mem_append.1 h with h | h
    · exact h0 m h
    · obtain ⟨_, k, hk⟩ := k1 _ h
      simp only at hk; subst hk; cases hm
  have hno3 : ∀ m, isLeak m = true → (v.obj, m) ∉ l3 := by
    intro m hm h
    have := k3 _ h
    simp only [Prod.mk.injEq, true_and] at this; subst this; cases hm
  have hleak : ∃ m, isLeak m = true ∧ (v.obj, m) ∈ (leak E v (checkStates E v s)).out := by
    unfold leak
    split_ifs
    · exact ⟨.last, rfl, by simp [St.say]⟩
    · exact ⟨.newRef, rfl, by simp [St.say]⟩
    · simp_all
    · exact ⟨.notReleased, rfl, by simp [St.say]⟩
  constructor
  · rintro ⟨m, hm, hmem⟩
    rw [hst, List.mem_append] at hmem
    have hmem := hmem.resolve_right (hno3 m hm)
    rw [hcl] at hmem
    by_cases ho : owes E v.ref (s.refs v.ref) = true
    · refine ⟨ho, ?_⟩
      by_cases hb : b = true
      · exact .inl hb
      · right
        cases ha : E.aliasedBy v.ref with
        | nil => rfl
        | cons a as =>
          simp only [ho, if_true, hb, ha] at hmem
          exact absurd (e1 ▸ hmem) (hno m hm)
    · simp only [ho] at hmem
      exact absurd (e1 ▸ hmem) (hno m hm)
  · rintro ⟨ho, hb⟩
    obtain ⟨m, hm, hmem⟩ := hleak
    refine ⟨m, hm, ?_⟩
    rw [hst, List.mem_append, hcl]
    left
    rcases hb with hb | hb
    · simpa [ho, hb] using hmem
    · by_cases hb' : b = true
      · simpa [ho, hb'] using hmem
      · simpa [ho, hb', hb] using hmem

/-! ## Which variables are examined -/

theorem lookup_visible (scopes : List (List Var)) (hw : ∀ sc ∈ scopes, (sc.map (·.name)).Nodup) (v : Var) :
    Visible scopes v ↔ lookup scopes v.name = some v := by
  constructor
  · rintro ⟨pre, sc, post, rfl, hv, hp⟩
    induction pre with
    | nil =>
      have hn := hw sc (by simp)
      have : sc.find? (fun w => w.name = v.name) = some v := by
        clear hw
        induction sc with
        | nil => cases hv
        | cons w sc ih =>
          rw [List.map_cons, List.nodup_cons] at hn
          by_cases h : w.name = v.name
          · rcases List.mem_cons.1 hv with rfl | hv'
            · simp
            · exact absurd (h ▸ List.mem_map_of_mem (f := (·.name)) hv') hn.1
          · rcases List.mem_cons.1 hv with rfl | hv'
            · exact absurd rfl h
            · simpa [h] using ih hv' hn.2
      simp [lookup, this]
    | cons s pre ih =>
      have : s.find? (fun w => w.name = v.name) = none := by
        rw [List.find?_eq_none]
        intro w hw'
        simpa using hp s (by simp) w hw'
      simp only [List.cons_append, lookup, this]
      exact ih (fun sc hsc => hw sc (by simp only [List.cons_append, List.mem_cons]; exact .inr hsc))
        (fun s' hs' => hp s' (by simp [hs']))
  · induction scopes with
    | nil => intro h; cases h
    | cons s rest ih =>
      intro h
      simp only [lookup] at h
      cases hf : s.find? (fun w => w.name = v.name) with
      | some w =>
        rw [hf] at h
        obtain rfl : w = v := by simpa using h
        exact ⟨[], s, rest, rfl, List.mem_of_find?_eq_some hf, by simp⟩
      | none =>
        rw [hf] at h
        obtain ⟨pre, sc, post, rfl, hv, hp⟩ := ih (fun sc hsc => hw sc (by simp [hsc])) h
        refine ⟨s :: pre, sc, post, rfl, hv, ?_⟩
        intro s' hs' w hw'
        rcases List.mem_cons.1 hs' with rfl | hs'
        · rw [List.find?_eq_none] at hf
          simpa using hf w hw'
        · exact hp s' hs' w hw'

theorem lookup_mem {scopes : List (List Var)} {n : Nat} {w : Var} (h : lookup scopes n = some w) :
    w ∈ scopes.flatten ∧ w.name = n := by
  induction scopes with
  | nil => cases h
  | cons s rest ih =>
    simp only [lookup] at h
    cases hf : s.find? (fun w => w.name = n) with
    | some u =>
      rw [hf] at h
      obtain rfl : u = w := by simpa using h
      have := List.find?_some hf
      exact ⟨by simp [List.mem_of_find?_eq_some hf], by simpa using this⟩
    | none =>
      rw [hf] at h
      obtain ⟨h1, h2⟩ := ih h
      exact ⟨by simp only [List.flatten_cons, List.mem_append]; exact .inr h1, h2⟩

theorem nodup_map_eq {α β : Type} (f : α → β) {l : List α} (h : (l.map f).Nodup) {a b : α} (ha : a ∈ l) (hb : b ∈ l)
    (e : f a = f b) : a = b := by
  induction l with
  | nil => cases ha
  | cons x l ih =>
    rw [List.map_cons, List.nodup_cons] at h
    rcases List.mem_cons.1 ha with rfl | ha' <;> rcases List.mem_cons.1 hb with rfl | hb'
    · rfl
    · exact absurd (e ▸ List.mem_map_of_mem (f := f) hb') h.1
    · exact absurd (e ▸ List.mem_map_of_mem (f := f) ha') h.1
    · exact ih h.2 ha' hb'

theorem examined_iff {scopes : List (List Var)} (hw : WF scopes) (v : Var) :
    v ∈ examined scopes ↔ Visible scopes v := by
  rw [lookup_visible scopes hw.names]
  cases scopes with
  | nil => simp [examined, lookup]
  | cons sc rest =>
    have obj : ∀ w, w ∈ (sc :: rest).flatten → v ∈ (sc :: rest).flatten → w.obj = v.obj → w = v :=
      fun w h1 h2 e => nodup_map_eq (·.obj) hw.objs h1 h2 e
    constructor
    · intro h
      simp only [examined, List.mem_append, List.mem_filter, decide_eq_true_eq] at h
      rcases h with h | ⟨h, h'⟩
      · rw [← lookup_visible _ hw.names]
        exact ⟨[], sc, rest, rfl, h, by simp⟩
      · cases hl : lookup (sc :: rest) v.name with
        | none => simp [hl] at h'
        | some w =>
          simp only [hl, Option.map_some, Option.some.injEq] at h'
          rw [obj w (lookup_mem hl).1 (by simp only [List.flatten_cons, List.mem_append]; right; simpa [List.flatMap_id] using h) h']
    · intro h
      have hm := (lookup_mem h).1
      simp only [List.flatten_cons, List.mem_append] at hm
      simp only [examined, List.mem_append, List.mem_filter, decide_eq_true_eq]
      rcases hm with hm | hm
      · exact .inl hm
      · exact .inr ⟨by simpa [List.flatMap_id] using hm, by simp [h]⟩

theorem examined_sublist (scopes : List (List Var)) : (examined scopes).Sublist scopes.flatten := by
  cases scopes with
  | nil => simp [examined]
  | cons sc rest =>
    simp only [examined, List.flatten_cons, List.flatMap_id]
    exact List.Sublist.append (List.Sublist.refl _) List.filter_sublist

/-- The state at the turn of a variable. -/
theorem run_turn (E : Env) (b : Bool) (l : List Var) (R : Refs) (hr : (l.map (·.ref)).Nodup) (ho : (l.map (·.obj)).Nodup)
    (v : Var) (hv : v ∈ l) (hp : Plain v) :
    ∃ l1 l2, l = l1 ++ v :: l2 ∧
      (Reported v (l.foldl (step E b) { refs := R }) ↔
        owes E v.ref ((l1.foldl (step E b) { refs := R }).refs v.ref) = true ∧ (b = true ∨ E.aliasedBy v.ref = [])) := by
  obtain ⟨l1, l2, rfl⟩ := List.append_of_mem hv
  refine ⟨l1, l2, rfl, ?_⟩
  rw [List.map_append, List.map_cons, List.nodup_append] at hr ho
  have r1 : v.ref ∉ l1.map (·.ref) := fun h => hr.2.2 _ h _ (by simp) rfl
  have o1 : v.obj ∉ l1.map (·.obj) := fun h => ho.2.2 _ h _ (by simp) rfl
  have o2 : v.obj ∉ l2.map (·.obj) := (List.nodup_cons.1 ho.2.1).1
  unfold Reported
  simp only [foldl_turn E b l1 l2 v { refs := R } o2]
  refine turn_plain E b _ v hp ?_ (foldl_before E b l1 v { refs := R } o1 (by simp))
  intro h
  rcases foldl_checked E b l1 _ _ h with h | h
  · simp at h
  · exact r1 h

theorem owns_owes {E : Env} {R R' : Refs} (g : Grows R R') {r : Nat} (h : Owns E r (R r)) : owes E r (R' r) = true := by
  obtain ⟨h1, h2, h3, h4⟩ := h
  obtain ⟨⟨e1, e2, _⟩, e⟩ := g r
  rw [owes_iff (by rw [e1]; exact h2) (by rw [e2]; exact h3) h4]
  rcases e with e | e
  · rw [e]; exact h1
  · exact e

end Splint.FinalScope

namespace Splint.FinalScope
open Spec
open Transfer (isOnly isDependent)

/-! ## Without structures that others hold on to, a return changes no reference -/

theorem step_return_refs (E : Env) (h : ∀ r, E.owners r = []) (s : St) (v : Var) : (step E true s v).refs = s.refs := by
  have hd : ∀ s', (destroyParts E v s').refs = s'.refs := by
    intro s'; unfold destroyParts; split_ifs
    · rfl
    · simp [h, takeParts]
  unfold step
  split_ifs
  · rfl
  · simp only [out_refs]
    unfold checkLeak
    split_ifs
    · exact (states_refs E v s).1
    · rw [hd]; exact (states_refs E v s).1
    · exact (states_refs E v s).1
    · unfold leak
      split_ifs
      · exact (states_refs E v s).1
      · exact (states_refs E v s).1
      · rw [hd]; exact (states_refs E v s).1
      · exact (states_refs E v s).1
    · exact absurd rfl ‹¬ true = true›
    · exact (states_refs E v s).1

theorem foldl_return_refs (E : Env) (h : ∀ r, E.owners r = []) (l : List Var) : ∀ s : St,
    (l.foldl (step E true) s).refs = s.refs := by
  induction l with
  | nil => exact fun _ => rfl
  | cons v l ih => exact fun s => by rw [List.foldl_cons, ih, step_return_refs E h]

/-! ## The other messages -/

theorem turn_other (E : Env) (b : Bool) (s : St) (v : Var) (hf : v.isFcn = false) (h0 : ∀ m, (v.obj, m) ∉ s.out) :
    ((v.obj, Rep.notDefined) ∈ (step E b s v).out ↔
      E.mustDefine = true ∧ v.isOut = true ∧ (s.refs v.ref).really = false ∧ (s.refs v.ref).defst ≠ .dead) ∧
    (∀ k, (v.obj, Rep.state k) ∈ (step E b s v).out ↔
      k ∈ v.loses ∧ v.isParam = false ∧ v.isGlobal = false ∧ (s.refs v.ref).null = false ∧ E.guardNull v.ref = false
        ∧ (s.refs v.ref).defst ≠ .undefined) := by
  obtain ⟨l2, e2, k2⟩ : ∃ l, (checkLeak E b v (checkStates E v s)).out = (checkStates E v s).out ++ l ∧
      ∀ p ∈ l, p.2 = .last ∨ p.2 = .newRef ∨ p.2 = .notReleased ∨ p.2 = .parts := by
    have hd : ∀ s', ∃ l, (destroyParts E v s').out = s'.out ++ l ∧
        ∀ p ∈ l, p.2 = .last ∨ p.2 = .newRef ∨ p.2 = .notReleased ∨ p.2 = .parts := by
      intro s'
      obtain ⟨l, h1, h2⟩ := destroy_out E v s'
      exact ⟨l, h1, fun p hp => by rw [h2 p hp]; simp⟩
    have hl : ∀ s', ∃ l, (leak E v s').out = s'.out ++ l ∧
        ∀ p ∈ l, p.2 = .last ∨ p.2 = .newRef ∨ p.2 = .notReleased ∨ p.2 = .parts := by
      intro s'
      unfold leak
      split_ifs
      · exact ⟨[(v.obj, .last)], rfl, by simp⟩
      · exact ⟨[(v.obj, .newRef)], rfl, by simp⟩
      · exact hd s'
      · exact ⟨[(v.obj, .notReleased)], rfl, by simp⟩
    unfold checkLeak
    split_ifs
    · exact ⟨[], by simp, by simp⟩
    · exact hd _
    · exact ⟨[], by simp, by simp⟩
    · exact hl _
    · cases E.aliasedBy v.ref
      · exact hl _
      · exact ⟨[], by simp, by simp⟩
    · exact ⟨[], by simp, by simp⟩
  obtain ⟨l1, e1, k1⟩ := states_out E v s
  obtain ⟨l3, e3, k3⟩ := checkOut_out E v (checkLeak E b v (checkStates E v s))
  have hst : (step E b s v).out = s.out ++ l1 ++ l2 ++ l3 := by
    simp [step, hf, e3, e2, e1]
  have g := (grows_checkLeak E b v (checkStates E v s)) v.ref
  rw [(states_refs E v s).1] at g
  obtain ⟨⟨g1, g2, g3, g4⟩, -⟩ := g
  constructor
  · constructor
    · intro h
      rw [hst] at h
      simp only [List.mem_append] at h
      rcases h with ((h | h) | h) | h
      · exact absurd h (h0 _)
      · obtain ⟨_, k, hk⟩ := k1 _ h; cases hk
      · rcases k2 _ h with h | h | h | h <;> cases h
      · unfold checkOut at e3
        split_ifs at e3 with hc
        · simpa [g1, g4, and_assoc] using hc
        · have : l3 = [] := by simpa using e3
          rw [this] at h; cases h
    · rintro ⟨a1, a2, a3, a4⟩
      have : (step E b s v).out = (checkLeak E b v (checkStates E v s)).out ++ [(v.obj, .notDefined)] := by
        simp [step, hf, checkOut, a1, a2, g1, g4, a3, a4, St.say]
      rw [this]; simp
  · intro k
    constructor
    · intro h
      rw [hst] at h
      simp only [List.mem_append] at h
      rcases h with ((h | h) | h) | h
      · exact absurd h (h0 _)
      · unfold checkStates at e1
        split_ifs at e1 with c1 c2 c3
        · have : l1 = [] := by simpa using e1
          rw [this] at h; cases h
        · have : l1 = [] := by simpa using e1
          rw [this] at h; cases h
        · have : l1 = [] := by simpa using e1
          rw [this] at h; cases h
        · have : v.loses.map (fun k => (v.obj, Rep.state k)) = l1 := by simpa using e1
          rw [← this] at h
          simp only [List.mem_map, Prod.mk.injEq, true_and, Rep.state.injEq, exists_eq_right] at h
          simp only [Bool.or_eq_true, not_or, Bool.not_eq_true] at c1 c2
          exact ⟨h, c1.1, c1.2, c2.1, c2.2, c3⟩
      · rcases k2 _ h with h | h | h | h <;> cases h
      · have := k3 _ h; simp at this
    · rintro ⟨a1, a2, a3, a4, a5, a6⟩
      have : (checkStates E v s).out = s.out ++ v.loses.map fun k => (v.obj, .state k) := by
        simp [checkStates, a2, a3, a4, a5, a6]
      have e : l1 = v.loses.map fun k => (v.obj, .state k) := by
        rw [e1] at this; simpa using this
      rw [hst]
      simp only [List.mem_append]
      left; left; right
      rw [e]
      exact List.mem_map.2 ⟨k, a1, rfl⟩

theorem run_other (E : Env) (b : Bool) (l : List Var) (R : Refs) (ho : (l.map (·.obj)).Nodup)
    (v : Var) (hv : v ∈ l) (hf : v.isFcn = false) :
    ((v.obj, Rep.notDefined) ∈ (l.foldl (step E b) { refs := R }).out ↔
      E.mustDefine = true ∧ v.isOut = true ∧ (R v.ref).really = false ∧ (R v.ref).defst ≠ .dead) ∧
    (∀ k, (v.obj, Rep.state k) ∈ (l.foldl (step E b) { refs := R }).out ↔
      k ∈ v.loses ∧ v.isParam = false ∧ v.isGlobal = false ∧ (R v.ref).null = false ∧ E.guardNull v.ref = false
        ∧ (R v.ref).defst ≠ .undefined) := by
  obtain ⟨l1, l2, rfl⟩ := List.append_of_mem hv
  rw [List.map_append, List.map_cons, List.nodup_append] at ho
  have o1 : v.obj ∉ l1.map (·.obj) := fun h => ho.2.2 _ h _ (by simp) rfl
  have o2 : v.obj ∉ l2.map (·.obj) := (List.nodup_cons.1 ho.2.1).1
  simp only [foldl_turn E b l1 l2 v { refs := R } o2]
  have t := turn_other E b (l1.foldl (step E b) { refs := R }) v hf (foldl_before E b l1 v { refs := R } o1 (by simp))
  obtain ⟨⟨g1, g2, g3, g4⟩, -⟩ := grows_foldl E b l1 { refs := R } v.ref
  simpa only [g1, g2, g4] using t

end Splint.FinalScope

namespace Splint.FinalScope
open Spec
open Transfer (isOnly isDependent)

/-- The turn of a structure. -/
theorem turn_struct (E : Env) (b : Bool) (s : St) (v : Var) (hf : v.isFcn = false) (hg : v.isGlobal = false) (hst : v.isStatic = false)
    (hp : v.isParam = false) (hsu : v.isSU = true) (h0 : ∀ m, (v.obj, m) ∉ s.out) (hc : v.ref ∉ s.checked)
    (ha : ownKind (s.refs v.ref).al = false) (hd : isDependent (s.refs v.ref).al = false) :
    (v.obj, Rep.parts) ∈ (step E b s v).out ↔
      E.allAliases v.ref = [] ∧ (s.refs v.ref).shown = false ∧ (s.refs v.ref).defst ≠ .partial_ := by
  have hc' : (checkStates E v s).checked.contains v.ref = false := by
    rw [(states_refs E v s).2]; simpa using hc
  have ho : (s.refs v.ref).al ≠ .owned := by intro h; rw [h] at ha; cases ha
  obtain ⟨l1, e1, k1⟩ := states_out E v s
  have h1 : (v.obj, Rep.parts) ∉ (checkStates E v s).out := by
    rw [e1]; intro h
    simp only [List.mem_append] at h
    rcases h with h | h
    · exact h0 _ h
    · obtain ⟨_, k, hk⟩ := k1 _ h; cases hk
  have hl : (v.obj, Rep.parts) ∈ (checkLeak E b v (checkStates E v s)).out ↔
      E.allAliases v.ref = [] ∧ (s.refs v.ref).shown = false ∧ (s.refs v.ref).defst ≠ .partial_ := by
    unfold checkLeak
    rw [hc']
    simp only [hg, hsu, hp, hst, (states_refs E v s).1, hd, Bool.or_self, Bool.false_eq_true, if_false, Bool.not_false, Bool.and_self,
      Bool.true_and, ho, ne_eq, not_false_eq_true, decide_true, if_true]
    by_cases hal : E.allAliases v.ref = []
    · rw [if_pos hal]
      unfold destroyParts
      simp only [(states_refs E v s).1]
      split_ifs with hx
      · simp only [Bool.or_eq_true, decide_eq_true_iff] at hx
        simp only [h1, hal, true_and, false_iff, not_and, not_not]
        intro h; rcases hx with hx | hx
        · rw [hx] at h; cases h
        · exact hx
      · simp only [Bool.or_eq_true, decide_eq_true_iff, not_or, Bool.not_eq_true] at hx
        simp [St.say, hal, hx]
    · rw [if_neg hal]; simp [h1, hal]
  rw [← hl]
  simp only [step, hf, Bool.false_eq_true, if_false]
  unfold checkOut
  split_ifs <;> simp [St.say]

end Splint.FinalScope
