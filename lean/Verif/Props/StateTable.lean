import Verif.Proofs.StateTable
import Verif.Spec.StateTable
import Mathlib.Data.List.Induction
/-!
# C40 and C47: user-defined states
-/
namespace Splint
open States

namespace States

theorem index_eq_pos (vals : List String) (name : String) : index vals name = pos vals name := by
  induction vals with
  | nil => rfl
  | cons v vs ih =>
    simp only [index, pos, List.findIdx?_cons]
    by_cases h : v = name
    · simp [h]
    · simp only [h, if_false, decide_false, Bool.false_eq_true]
      rw [ih]; rfl

theorem entryOf_eq_meaning (vals : List String) (a : Action) : entryOf vals a = meaning vals a := by
  cases a <;> simp [entryOf, meaning, index_eq_pos]

theorem pos_lt {vals : List String} {name : String} {i : Nat} (h : pos vals name = some i) :
    i < vals.length := index_lt (index_eq_pos vals name ▸ h)

end States

/-- C40, the table itself: after any number of updates the answer for a pair is the last entry
stored for it, and the first state unchanged if there was none; nothing is written outside the
table. -/
theorem C40_table (n : Nat) (us : List (Nat × Nat × Entry))
    (hu : ∀ u ∈ us, u.1 < n ∧ u.2.1 ≤ n) :
    ∃ t, us.foldlM (fun (t : Table) u => t.update u.1 u.2.1 u.2.2) (create n) = some t ∧
      ∀ i j : Nat, i < n → j ≤ n → t.lookup i j =
        some (((us.filter fun u => u.1 = i ∧ u.2.1 = j).getLast?.map (·.2.2)).getD ⟨i, none⟩) := by
  have key : ∀ (us : List (Nat × Nat × Entry)) (t : Table) (f : Nat → Nat → Entry), Rep t n f →
      (∀ u ∈ us, u.1 < n ∧ u.2.1 ≤ n) →
      ∃ t', us.foldlM (fun (t : Table) u => t.update u.1 u.2.1 u.2.2) t = some t' ∧
        Rep t' n fun i j =>
          ((us.filter fun u => u.1 = i ∧ u.2.1 = j).getLast?.map (·.2.2)).getD (f i j) := by
    intro us
    induction us with
    | nil => intro t f h _; exact ⟨t, rfl, by simpa using h⟩
    | cons u us ih =>
      intro t f h hu
      obtain ⟨h1, h2⟩ := hu u (by simp)
      obtain ⟨t1, e1, r1⟩ := h.update (i := u.1) (j := u.2.1) h1 (by omega) u.2.2
      obtain ⟨t2, e2, r2⟩ := ih t1 _ r1 fun v hv => hu v (by simp [hv])
      refine ⟨t2, by simp [List.foldlM_cons, e1, e2], r2.size, fun i j hi hj => ?_⟩
      rw [r2.get i j hi hj]
      simp only [upd, List.filter_cons]
      by_cases hm : u.1 = i ∧ u.2.1 = j
      · have hd : decide (u.1 = i ∧ u.2.1 = j) = true := by simpa using hm
        rw [if_pos hd, if_pos (⟨hm.1.symm, hm.2.symm⟩ : i = u.1 ∧ j = u.2.1), List.getLast?_cons]
        cases (us.filter fun u => decide (u.1 = i ∧ u.2.1 = j)).getLast? <;> simp
      · have hd : ¬ decide (u.1 = i ∧ u.2.1 = j) = true := by simpa using hm
        rw [if_neg hd, if_neg (fun hh : i = u.1 ∧ j = u.2.1 => hm ⟨hh.1.symm, hh.2.symm⟩)]
  obtain ⟨t, e, r⟩ := key us (create n) _ (rep_create n) hu
  exact ⟨t, e, fun i j hi hj => r.lookup hi (by omega)⟩

example : ∀ u ∈ ([(0, 1, ⟨1, none⟩), (1, 2, ⟨-1, some "lost"⟩)] : List (Nat × Nat × Entry)),
    u.1 < 2 ∧ u.2.1 ≤ 2 := by decide

/-- No state pair for which an error message was declared is declared again.  (Else the assertion
of `stateCombinationTable_set` fails, see `C40_redeclaration_fails`.) -/
def noRedeclaration (es : List Entry) : Prop := ∀ e ∈ es.dropLast, e.msg = none

namespace States

/-- One list of stores with `stateCombinationTable_set`. -/
theorem set_loop {α : Type} (g : α → Option (Nat × Nat × Entry)) (n : Nat)
    (hg : ∀ c p, g c = some p → p.1 < n ∧ p.2.1 ≤ n)
    (step : Table → α → Option Table)
    (hstep : ∀ t c, step t c = match g c with
      | some p => t.set p.1 p.2.1 p.2.2
      | none => some t)
    (cs : List α) (t : Table) (f : Nat → Nat → Entry) (h : Rep t n f) :
    (∃ t', cs.foldlM step t = some t' ∧
      Rep t' n (fun i j => ((f i j) :: (cs.filterMap g).filterMap fun p =>
        if p.1 = i ∧ p.2.1 = j then some p.2.2 else none).getLast?.getD (f i j)) ∧
      ∀ i j, i < n → j ≤ n → ∀ e ∈ ((f i j) :: (cs.filterMap g).filterMap fun p =>
        if p.1 = i ∧ p.2.1 = j then some p.2.2 else none).dropLast, e.msg = none) ∨
    (cs.foldlM step t = none ∧
      ∃ i j, i < n ∧ j ≤ n ∧ ∃ e ∈ ((f i j) :: (cs.filterMap g).filterMap fun p =>
        if p.1 = i ∧ p.2.1 = j then some p.2.2 else none).dropLast, e.msg ≠ none) := by
  induction cs generalizing t f with
  | nil => exact Or.inl ⟨t, rfl, by simpa using h, by simp⟩
  | cons c cs ih =>
    cases hc : g c with
    | none =>
      have : step t c = some t := by rw [hstep, hc]
      simpa [List.foldlM_cons, this, List.filterMap_cons, hc] using ih t f h
    | some p =>
      obtain ⟨h1, h2⟩ := hg c p hc
      have hs := h.set (i := p.1) (j := p.2.1) h1 (by omega) p.2.2
      have hst : step t c = t.set p.1 p.2.1 p.2.2 := by rw [hstep, hc]
      by_cases hm : (f p.1 p.2.1).msg = none
      · rw [if_pos hm] at hs
        obtain ⟨t1, e1, r1⟩ := hs
        have hfold : (c :: cs).foldlM step t = cs.foldlM step t1 := by
          simp [List.foldlM_cons, hst, e1]
        have hlist : ∀ i j, (f i j :: ((c :: cs).filterMap g).filterMap fun p =>
            if p.1 = i ∧ p.2.1 = j then some p.2.2 else none) =
            if p.1 = i ∧ p.2.1 = j then
              f i j :: (upd f p.1 p.2.1 p.2.2 i j :: (cs.filterMap g).filterMap fun p =>
                if p.1 = i ∧ p.2.1 = j then some p.2.2 else none)
            else (upd f p.1 p.2.1 p.2.2 i j :: (cs.filterMap g).filterMap fun p =>
                if p.1 = i ∧ p.2.1 = j then some p.2.2 else none) := by
          intro i j
          by_cases hij : p.1 = i ∧ p.2.1 = j
          · simp [List.filterMap_cons, hc, hij, upd]
          · have hij' : ¬ (i = p.1 ∧ j = p.2.1) := fun hh => hij ⟨hh.1.symm, hh.2.symm⟩
            simp [List.filterMap_cons, hc, hij, upd, hij']
        rcases ih t1 _ r1 with ⟨t2, e2, r2, m2⟩ | ⟨e2, i, j, hi, hj, e, he, hne⟩
        · refine Or.inl ⟨t2, by rw [hfold, e2], ⟨r2.size, ?_⟩, ?_⟩
          · intro i j hi hj
            rw [r2.get i j hi hj, hlist i j]
            split_ifs with hij
            · rw [List.getLast?_cons_cons]
              simp [List.getLast?_cons]
            · simp [List.getLast?_cons]
          · intro i j hi hj e he
            rw [hlist i j] at he
            split_ifs at he with hij
            · rw [List.dropLast_cons_of_ne_nil (by simp)] at he
              rcases List.mem_cons.1 he with rfl | he
              · rw [← hij.1, ← hij.2]; exact hm
              · exact m2 i j hi hj e he
            · exact m2 i j hi hj e he
        · refine Or.inr ⟨by rw [hfold, e2], i, j, hi, hj, e, ?_, hne⟩
          rw [hlist i j]
          split_ifs with hij
          · rw [List.dropLast_cons_of_ne_nil (by simp)]
            exact List.mem_cons_of_mem _ he
          · exact he
      · rw [if_neg hm] at hs
        refine Or.inr ⟨by simp [List.foldlM_cons, hst, hs], p.1, p.2.1, h1, h2, f p.1 p.2.1, ?_, hm⟩
        simp [List.filterMap_cons, hc]

/-- Target of a transfer clause. -/
def transferTarget (vals : List String) (c : Transfer) : Option (Nat × Nat × Entry) :=
  match pos vals c.source, pos vals c.target, meaning vals c.action with
  | some i, some j, some e => some (i, j, e)
  | _, _, _ => none

/-- Target of a lose clause. -/
def loseTarget (vals : List String) (c : Lose) : Option (Nat × Nat × Entry) :=
  (pos vals c.source).map fun i => (i, vals.length, ⟨-1, c.msg⟩)

theorem transferTarget_lt {vals : List String} {c : Transfer} {p : Nat × Nat × Entry}
    (h : transferTarget vals c = some p) : p.1 < vals.length ∧ p.2.1 < vals.length := by
  unfold transferTarget at h
  split at h
  · cases h
    exact ⟨pos_lt ‹_›, pos_lt ‹_›⟩
  · cases h

theorem transferTargets (vals : List String) (ts : List Transfer) (i j : Nat) :
    ((ts.filterMap (transferTarget vals)).filterMap fun p =>
      if p.1 = i ∧ p.2.1 = j then some p.2.2 else none) = transfersFor vals i j ts := by
  rw [List.filterMap_filterMap]
  unfold transfersFor
  congr 1
  funext c
  simp only [transferTarget]
  cases h1 : pos vals c.source with
  | none => simp
  | some a =>
    cases h2 : pos vals c.target with
    | none => simp
    | some b =>
      cases h3 : meaning vals c.action with
      | none => simp
      | some e => simp

theorem transferTargets_last (vals : List String) (ts : List Transfer) (i : Nat) :
    transfersFor vals i vals.length ts = [] := by
  unfold transfersFor
  rw [List.filterMap_eq_nil_iff]
  intro c _
  rw [if_neg]
  intro h
  have := pos_lt h.2
  omega

theorem loseTargets (vals : List String) (ls : List Lose) (i j : Nat) :
    ((ls.filterMap (loseTarget vals)).filterMap fun p =>
      if p.1 = i ∧ p.2.1 = j then some p.2.2 else none) =
      if j = vals.length then (losesFor vals i ls).map fun m => ⟨-1, m⟩ else [] := by
  rw [List.filterMap_filterMap]
  unfold losesFor
  induction ls with
  | nil => simp
  | cons c ls ih =>
    simp only [List.filterMap_cons, ih]
    cases h1 : pos vals c.source with
    | none => simp [loseTarget, h1]
    | some a =>
      by_cases hj : j = vals.length
      · subst hj
        by_cases ha : a = i
        · simp [loseTarget, h1, ha]
        · simp [loseTarget, h1, ha]
      · simp [loseTarget, h1, hj, Ne.symm hj]

end States

/-- C40: the transfer table is built without a failed assertion exactly when no pair (or lost
state) with a declared error message is declared again, and then it stated what the last clause
stated, the default being that the state does not change. -/
theorem C40_transfers (vals : List String) (ts : List Transfer) (ls : List Lose) :
    ((∀ i j, i < vals.length → j < vals.length → noRedeclaration (transfersFor vals i j ts)) ∧
      (∀ i, i < vals.length → ∀ m ∈ (losesFor vals i ls).dropLast, m = none) →
      ∃ t, transferTable vals ts ls = some t ∧
        (∀ i j : Nat, i < vals.length → j < vals.length →
          t.lookup i j = some ((transfersFor vals i j ts).getLast?.getD ⟨i, none⟩)) ∧
        (∀ i : Nat, i < vals.length →
          t.lookupLose i = some (((losesFor vals i ls).getLast?.map fun m => ⟨-1, m⟩).getD
            ⟨i, none⟩))) ∧
    (¬ ((∀ i j, i < vals.length → j < vals.length → noRedeclaration (transfersFor vals i j ts)) ∧
      (∀ i, i < vals.length → ∀ m ∈ (losesFor vals i ls).dropLast, m = none)) →
      transferTable vals ts ls = none) := by
  have hT := set_loop (transferTarget vals) vals.length
    (fun c p h => by have := transferTarget_lt h; omega) (addTransfer vals)
    (by
      intro t c
      simp only [addTransfer, transferTarget, index_eq_pos, entryOf_eq_meaning]
      cases pos vals c.source <;> cases pos vals c.target <;> cases meaning vals c.action <;> rfl)
    ts (create vals.length) _ (rep_create _)
  simp only [transferTargets] at hT
  have hdrop : ∀ (x : Entry) (l : List Entry), x.msg = none →
      ((∀ e ∈ (x :: l).dropLast, e.msg = none) ↔ noRedeclaration l) := by
    intro x l hx
    cases l with
    | nil => simp [noRedeclaration]
    | cons y l => simp [noRedeclaration, hx]
  rcases hT with ⟨t1, e1, r1, m1⟩ | ⟨e1, i, j, hi, hj, e, he, hne⟩
  · have hA : ∀ i j, i < vals.length → j < vals.length →
        noRedeclaration (transfersFor vals i j ts) :=
      fun i j hi hj => (hdrop _ _ rfl).1 (m1 i j hi (by omega))
    have hL := set_loop (loseTarget vals) vals.length
      (fun c p h => by
        unfold loseTarget at h
        obtain ⟨k, hk, rfl⟩ := Option.map_eq_some_iff.1 h
        exact ⟨pos_lt hk, le_refl _⟩) (addLose vals)
      (by
        intro t c
        simp only [addLose, loseTarget, index_eq_pos]
        cases pos vals c.source <;> rfl)
      ls t1 _ r1
    simp only [loseTargets] at hL
    have hlast : ∀ i : Nat, ((⟨(i : Int), none⟩ : Entry) :: transfersFor vals i vals.length ts) =
        [⟨i, none⟩] := by
      intro i; rw [transferTargets_last]
    have hB : ∀ i : Nat, ((∀ e ∈ ((⟨(i : Int), none⟩ : Entry) ::
        (losesFor vals i ls).map fun m => (⟨-1, m⟩ : Entry)).dropLast, e.msg = none) ↔
        ∀ m ∈ (losesFor vals i ls).dropLast, m = none) := by
      intro i
      rw [hdrop _ _ rfl]
      simp [noRedeclaration, ← List.map_dropLast]
    rcases hL with ⟨t2, e2, r2, m2⟩ | ⟨e2, i, j, hi, hj, e, he, hne⟩
    · have hM : ∀ i, i < vals.length → ∀ m ∈ (losesFor vals i ls).dropLast, m = none := by
        intro i hi
        have := m2 i vals.length hi (le_refl _)
        rw [hlast] at this
        simp only [if_true, List.getLast?_singleton, Option.getD_some] at this
        exact (hB i).1 this
      refine ⟨fun _ => ⟨t2, by simp [transferTable, e1, e2], ?_, ?_⟩, fun h => absurd ⟨hA, hM⟩ h⟩
      · intro i j hi hj
        rw [r2.lookup hi (by omega), if_neg (by omega)]
        simp [List.getLast?_cons]
      · intro i hi
        unfold Table.lookupLose
        rw [r2.size, r2.lookup hi (by omega), hlast]
        simp [List.getLast?_cons]
    · have hnone : transferTable vals ts ls = none := by simp [transferTable, e1, e2]
      refine ⟨?_, fun _ => hnone⟩
      rintro ⟨-, hM⟩
      exfalso
      by_cases hjl : j = vals.length
      · subst hjl
        rw [hlast] at he
        simp only [if_true, List.getLast?_singleton, Option.getD_some] at he
        exact hne ((hB i).2 (hM i hi) e he)
      · simp [hjl] at he
  · have hnone : transferTable vals ts ls = none := by simp [transferTable, e1]
    refine ⟨?_, fun _ => hnone⟩
    rintro ⟨hA, -⟩
    exfalso
    by_cases hjl : j = vals.length
    · subst hjl
      rw [transferTargets_last] at he
      simp at he
    · exact hne ((hdrop _ _ rfl).2 (hA i j hi (by omega)) e he)

/-- The declaration of test/metastate/file.mts. -/
example : (∀ i, i < 2 → ∀ j, j < 2 → noRedeclaration (transfersFor ["unopen", "open"] i j
      [⟨"open", "unopen", .error (some "open file passed as unopen")⟩,
       ⟨"unopen", "open", .error (some "unopen file passed as open")⟩])) ∧
    (∀ i, i < 2 → ∀ m ∈ (losesFor ["unopen", "open"] i
      [⟨"open", some "open file not closed"⟩]).dropLast, m = none) := by
  unfold noRedeclaration
  decide

/-- C40: two error clauses for one pair fail an assertion instead of letting the later win. -/
theorem C40_redeclaration_fails : transferTable ["a", "b"]
    [⟨"a", "b", .error (some "first")⟩, ⟨"a", "b", .value "a"⟩] [] = none := by
  decide +kernel

/-- C40: a lose clause without a message text is never reported. -/
theorem C40_lose_without_message :
    (transferTable ["unopen", "open"] [] [⟨"open", none⟩]).bind (fun t => loseReported t 1) =
      some false := by
  decide +kernel

/-- C40, losing references: with a message text it is reported exactly for the states declared. -/
theorem C40_lose_reported (vals : List String) (ts : List Transfer) (ls : List Lose) (t : Table)
    (ht : transferTable vals ts ls = some t) (hm : ∀ c ∈ ls, c.msg ≠ none) (i : Nat)
    (hi : i < vals.length) :
    loseReported t i = some (decide (∃ c ∈ ls, pos vals c.source = some i)) := by
  obtain ⟨h1, h2⟩ := C40_transfers vals ts ls
  by_cases hok : ((∀ i j, i < vals.length → j < vals.length →
      noRedeclaration (transfersFor vals i j ts)) ∧
      (∀ i, i < vals.length → ∀ m ∈ (losesFor vals i ls).dropLast, m = none))
  · obtain ⟨t', e, -, hl⟩ := h1 hok
    rw [ht] at e
    cases e
    unfold loseReported
    rw [hl i hi]
    simp only [Option.map_some, Option.some.injEq]
    cases hlast : (losesFor vals i ls).getLast? with
    | none =>
      rw [List.getLast?_eq_none_iff, losesFor, List.filterMap_eq_nil_iff] at hlast
      have : ¬ ∃ c ∈ ls, pos vals c.source = some i := by
        rintro ⟨c, hc, hp⟩
        have := hlast c hc
        simp [hp] at this
      simp [this]
    | some m =>
      have hmem := List.mem_of_getLast? hlast
      unfold losesFor at hmem
      rw [List.mem_filterMap] at hmem
      obtain ⟨c, hc, he⟩ := hmem
      split_ifs at he with hp
      · cases he
        have hex : ∃ c ∈ ls, pos vals c.source = some i := ⟨c, hc, hp⟩
        have := hm c hc
        simp only [Option.map_some, Option.getD_some, hex, decide_true]
        cases hcm : c.msg with
        | none => exact absurd hcm this
        | some _ => rfl
  · rw [h2 hok] at ht
    cases ht

example : ∃ t, transferTable ["unopen", "open"] [] [⟨"open", some "not closed"⟩] = some t ∧
    loseReported t 1 = some true ∧ loseReported t 0 = some false :=
  ⟨_, rfl, by decide, by decide⟩

/-! ## Merging -/

namespace States

theorem bounds_spec (vals : List String) (it : Item) :
    (bounds vals it = none ↔ ¬ known vals it) ∧
    ∀ l h, bounds vals it = some (l, h) →
      ∀ i : Nat, i < vals.length → ((l ≤ i ∧ (i : Int) ≤ h) ↔ covers vals it i) := by
  cases it with
  | star =>
    refine ⟨by simp [bounds, known], ?_⟩
    intro l h e i hi
    simp only [bounds, Option.some.injEq, Prod.mk.injEq] at e
    simp only [covers, iff_true]
    omega
  | value n =>
    simp only [bounds, known, covers, index_eq_pos]
    cases pos vals n with
    | none => simp
    | some k =>
      refine ⟨by simp, ?_⟩
      intro l h e i hi
      simp only [Option.map_some, Option.some.injEq, Prod.mk.injEq] at e
      simp only [Option.some.injEq]
      omega

theorem bounds_range {vals : List String} {it : Item} {l h : Int}
    (e : bounds vals it = some (l, h)) : 0 ≤ l ∧ h < vals.length := by
  cases it with
  | star =>
    simp only [bounds, Option.some.injEq, Prod.mk.injEq] at e
    omega
  | value n =>
    obtain ⟨k, hk, e⟩ := Option.map_eq_some_iff.1 e
    have := index_lt hk
    simp only [Prod.mk.injEq] at e
    omega

theorem not_covers {vals : List String} {it : Item} (h : ¬ known vals it) (i : Nat) :
    ¬ covers vals it i := by
  cases it with
  | star => simp [known] at h
  | value n => simp only [known, ne_eq, not_not] at h; simp [covers, h]

/-- What one clause stated about a pair. -/
def stated (vals : List String) (c : Merge) (i j : Nat) : Option Entry :=
  if covers vals c.item1 i ∧ covers vals c.item2 j then meaning vals c.action else none

/-- What one clause does to the table. -/
theorem addMerge_rep (vals : List String) (c : Merge) (t : Table) (f : Nat → Nat → Entry)
    (h : Rep t vals.length f) :
    ∃ t', addMerge vals t c = some t' ∧ Rep t' vals.length fun a b =>
      if b = vals.length then f a b
      else match stated vals c a b with
        | some e => match stated vals c b a with
          | some e' => if isDefault e then e' else e
          | none => e
        | none => match stated vals c b a with
          | some e => if isDefault (f a b) then e else f a b
          | none => f a b := by
  obtain ⟨hb1, hc1⟩ := bounds_spec vals c.item1
  obtain ⟨hb2, hc2⟩ := bounds_spec vals c.item2
  have hskip : (∀ i j, stated vals c i j = none) → addMerge vals t c = some t →
      ∃ t', addMerge vals t c = some t' ∧ Rep t' vals.length fun a b =>
      if b = vals.length then f a b
      else match stated vals c a b with
        | some e => match stated vals c b a with
          | some e' => if isDefault e then e' else e
          | none => e
        | none => match stated vals c b a with
          | some e => if isDefault (f a b) then e else f a b
          | none => f a b := by
    intro hs ha
    refine ⟨t, ha, ?_⟩
    simpa [hs] using h
  unfold addMerge at hskip ⊢
  cases h1 : bounds vals c.item1 with
  | none =>
    exact h1 ▸ hskip (fun i j => by
      rw [stated, if_neg (fun hh => not_covers (hb1.1 h1) i hh.1)]) (by rw [h1])
  | some p1 =>
    obtain ⟨l1, g1⟩ := p1
    cases h2 : bounds vals c.item2 with
    | none =>
      rw [h1, h2] at hskip
      exact hskip (fun i j => by
        rw [stated, if_neg (fun hh => not_covers (hb2.1 h2) j hh.2)]) rfl
    | some p2 =>
      obtain ⟨l2, g2⟩ := p2
      cases h3 : entryOf vals c.action with
      | none =>
        rw [h1, h2, h3] at hskip
        refine hskip (fun i j => ?_) rfl
        rw [entryOf_eq_meaning] at h3
        simp [stated, h3]
      | some e =>
        have hm : meaning vals c.action = some e := by rw [← entryOf_eq_meaning, h3]
        have r1 := bounds_range h1
        have r2 := bounds_range h2
        have hp : ∀ p ∈ pairs l1 g1 l2 g2, 0 ≤ p.1 ∧ p.1 < vals.length ∧ 0 ≤ p.2 ∧
            p.2 < vals.length := by
          rintro ⟨a, b⟩ hp
          rw [mem_pairs] at hp
          simp only
          omega
        obtain ⟨t1, e1, rep1⟩ := direct_loop e _ h hp
        obtain ⟨t2, e2, rep2⟩ := symmetric_loop e _ rep1 hp
        refine ⟨t2, by simp [e1, e2], rep2.size, fun a b ha hb => ?_⟩
        rw [rep2.get a b ha hb]
        by_cases hbn : b = vals.length
        · have q1 : ((a : Int), (b : Int)) ∉ pairs l1 g1 l2 g2 := by rw [mem_pairs]; omega
          have q2 : ((b : Int), (a : Int)) ∉ pairs l1 g1 l2 g2 := by rw [mem_pairs]; omega
          simp [hbn, q1, q2, hbn ▸ q1, hbn ▸ q2]
        · have hb' : b < vals.length := by omega
          have q1 : ((a : Int), (b : Int)) ∈ pairs l1 g1 l2 g2 ↔
              covers vals c.item1 a ∧ covers vals c.item2 b := by
            rw [mem_pairs, ← hc1 _ _ h1 a ha, ← hc2 _ _ h2 b hb']; tauto
          have q2 : ((b : Int), (a : Int)) ∈ pairs l1 g1 l2 g2 ↔
              covers vals c.item1 b ∧ covers vals c.item2 a := by
            rw [mem_pairs, ← hc1 _ _ h1 b hb', ← hc2 _ _ h2 a ha]; tauto
          simp only [q1, q2, stated, hm, hbn, if_false]
          by_cases x1 : covers vals c.item1 a ∧ covers vals c.item2 b
          · by_cases x2 : covers vals c.item1 b ∧ covers vals c.item2 a
            · simp [x1, x2]
            · simp [x1, x2]
          · by_cases x2 : covers vals c.item1 b ∧ covers vals c.item2 a
            · simp [x1, x2]
            · simp [x1, x2]

end States

/-- No clause uses the text of the built-in message. -/
def ownMessages (ms : List Merge) : Prop :=
  ∀ c ∈ ms, c.action ≠ .error (some "Incompatible state merge (default behavior)")

/-- C47, what the merge table stated: the last clause for the pair in this order, else the same state
for equal states, else the first clause for the pair in the other order, else an error. -/
theorem C47_merge_table (vals : List String) (ms : List Merge) (hm : ownMessages ms) :
    ∃ t, mergeTable vals ms = some t ∧ ∀ i j : Nat, i < vals.length → j < vals.length →
      t.lookup i j = some (mergeSpec vals i j ms) := by
  obtain ⟨t0, e0, r0⟩ := initialMerge_rep vals.length
  have hnd : ∀ ms : List Merge, ownMessages ms → ∀ i j, ∀ e ∈ mergesFor vals i j ms,
      ¬ isDefault e := by
    intro ms hm i j e he hd
    unfold mergesFor at he
    rw [List.mem_filterMap] at he
    obtain ⟨c, hc, he⟩ := he
    have hc' := hm c hc
    split_ifs at he with hcov
    · cases ha : c.action with
      | value n =>
        rw [ha] at he
        obtain ⟨k, _, rfl⟩ := Option.map_eq_some_iff.1 he
        have h1 : ((k : Int)) = -1 := hd.1
        omega
      | error m =>
        rw [ha] at he hc'
        simp only [meaning, Option.some.injEq] at he
        subst he
        have h2 : m = some defaultMessage := hd.2
        exact hc' (by rw [h2]; rfl)
  have key : ∀ ms : List Merge, ownMessages ms →
      ∃ t f, ms.foldlM (addMerge vals) t0 = some t ∧ Rep t vals.length f ∧
        ∀ i j, i < vals.length → j < vals.length → f i j = mergeSpec vals i j ms := by
    intro ms
    induction ms using List.reverseRecOn with
    | nil =>
      intro _
      refine ⟨t0, _, rfl, r0, ?_⟩
      intro i j hi hj
      simp only [mergeSpec, mergesFor, List.filterMap_nil, List.getLast?_nil, List.head?_nil,
        Option.getD_none]
      by_cases hij : i = j
      · simp [hij]
      · simp [hij, hj, defaultMessage]
    | append_singleton ms c ih =>
      intro hm
      have hm1 : ownMessages ms := fun c hc => hm c (by simp [hc])
      obtain ⟨t1, f1, e1, rep1, s1⟩ := ih hm1
      obtain ⟨t2, e2, rep2⟩ := addMerge_rep vals c t1 f1 rep1
      refine ⟨t2, _, by simp [List.foldlM_append, e1, e2], rep2, ?_⟩
      intro i j hi hj
      rw [if_neg (by omega)]
      have hsays : ∀ a b, mergesFor vals a b (ms ++ [c]) =
          mergesFor vals a b ms ++ (stated vals c a b).toList := by
        intro a b
        unfold mergesFor
        rw [List.filterMap_append]
        congr 1
      have hnds : ∀ a b e, stated vals c a b = some e → ¬ isDefault e := by
        intro a b e he
        exact hnd _ hm a b e (by rw [hsays, he]; simp)
      simp only [mergeSpec, hsays]
      cases hd : stated vals c i j with
      | some e =>
        have := hnds i j e hd
        cases hs : stated vals c j i with
        | some e' => simp [this]
        | none => simp
      | none =>
        have hold := s1 i j hi hj
        simp only [mergeSpec] at hold
        cases hs : stated vals c j i with
        | none => simpa [hs] using hold
        | some e' =>
          simp only [Option.toList_none, List.append_nil, Option.toList_some]
          cases hl : (mergesFor vals i j ms).getLast? with
          | some e =>
            rw [hl] at hold
            simp only at hold ⊢
            rw [hold, if_neg (hnd ms hm1 i j e (List.mem_of_getLast? hl))]
          | none =>
            rw [hl] at hold
            simp only at hold ⊢
            by_cases hij : i = j
            · subst hij; rw [hd] at hs; cases hs
            · rw [if_neg hij] at hold ⊢
              cases hh : (mergesFor vals j i ms).head? with
              | none =>
                rw [List.head?_eq_none_iff] at hh
                rw [hh] at hold
                rw [hold, hh]
                simp [isDefault, defaultMessage]
              | some e =>
                rw [hh] at hold
                have hmem := List.mem_of_head? hh
                rw [hold, Option.getD_some, if_neg (hnd ms hm1 j i e hmem), List.head?_append, hh]
                simp
  obtain ⟨t, f, e, rep, s⟩ := key ms hm
  refine ⟨t, by simp [mergeTable, e0, e], fun i j hi hj => ?_⟩
  rw [rep.lookup hi (by omega), s i j hi hj]

/-- The declaration of test/mergestate/taintednm.mts. -/
example : ownMessages [⟨.value "tainted", .value "untainted", .value "tainted"⟩,
      ⟨.value "untainted", .value "tainted", .error (some "bogus merge")⟩] ∧
    mergeSpec ["untainted", "tainted"] 0 1
      [⟨.value "tainted", .value "untainted", .value "tainted"⟩,
       ⟨.value "untainted", .value "tainted", .error (some "bogus merge")⟩] =
      ⟨-1, some "bogus merge"⟩ := by
  unfold ownMessages
  decide +kernel

/-- Every result of a merge is an error or a state, so that it can be looked up again. -/
theorem C47_merge_closed (vals : List String) (ms : List Merge) (i j : Nat)
    (hi : i < vals.length) :
    (mergeSpec vals i j ms).value = -1 ∨
      ∃ k, k < vals.length ∧ (mergeSpec vals i j ms).value = (k : Int) := by
  have hmem : ∀ a b e, e ∈ mergesFor vals a b ms →
      e.value = -1 ∨ ∃ k, k < vals.length ∧ e.value = (k : Int) := by
    intro a b e he
    unfold mergesFor at he
    rw [List.mem_filterMap] at he
    obtain ⟨c, -, he⟩ := he
    split_ifs at he
    · cases ha : c.action with
      | value n =>
        rw [ha] at he
        obtain ⟨k, hk, rfl⟩ := Option.map_eq_some_iff.1 he
        exact Or.inr ⟨k, pos_lt hk, rfl⟩
      | error m =>
        rw [ha] at he
        simp only [meaning, Option.some.injEq] at he
        exact Or.inl (by rw [← he])
  unfold mergeSpec
  cases hl : (mergesFor vals i j ms).getLast? with
  | some e => exact hmem _ _ _ (List.mem_of_getLast? hl)
  | none =>
    simp only
    split_ifs
    · exact Or.inr ⟨i, hi, rfl⟩
    · cases hh : (mergesFor vals j i ms).head? with
      | some e => exact hmem _ _ _ (List.mem_of_head? hh)
      | none => exact Or.inl rfl

/-- C47 as wished ("unless otherwise indicated, merging is symmetric", mtDeclarationNode.c:516):
if no clause is written for `i + j` then it is the same as `j + i`. -/
def C47_full : Prop := ∀ (vals : List String) (ms : List Merge), ownMessages ms →
  ∃ t, mergeTable vals ms = some t ∧ ∀ i j : Nat, i < vals.length → j < vals.length → i ≠ j →
    mergesFor vals i j ms = [] → t.lookup i j = t.lookup j i

/-- A general clause with a later exception: `* + closed ==> error "x"`,
`open + closed ==> closed`. -/
def exMerge : List Merge :=
  [⟨.star, .value "closed", .error (some "x")⟩, ⟨.value "open", .value "closed", .value "closed"⟩]

theorem C47_asymmetric : (mergeTable ["open", "closed"] exMerge).bind (fun t =>
      (t.lookup 0 1).bind fun e => (t.lookup 1 0).map fun e' => (e.value, e'.value)) =
    some (1, -1) ∧ mergesFor ["open", "closed"] 1 0 exMerge = [] := by
  decide +kernel

theorem C47_full_is_false : ¬ C47_full := by
  intro h
  obtain ⟨t, e, hs⟩ := h ["open", "closed"] exMerge (by unfold ownMessages; decide +kernel)
  have h1 := hs 1 0 (by decide) (by decide) (by decide) C47_asymmetric.2
  have h2 := C47_asymmetric.1
  rw [e] at h2
  simp only [Option.bind_some] at h2
  have h1' : t.lookup 1 0 = t.lookup 0 1 := h1
  rw [h1'] at h2
  cases hl : t.lookup 0 1 with
  | none => rw [hl] at h2; simp at h2
  | some x => rw [hl] at h2; simp at h2; omega

/-- C47, exactly: merging is symmetric for such a pair exactly when the first and the last clause
for the other order agree. -/
theorem C47_symmetric_exactly (vals : List String) (ms : List Merge) (i j : Nat) (hij : i ≠ j)
    (hn : mergesFor vals i j ms = []) :
    mergeSpec vals i j ms = mergeSpec vals j i ms ↔
      (mergesFor vals j i ms).head? = (mergesFor vals j i ms).getLast? := by
  unfold mergeSpec
  rw [hn]
  simp only [List.getLast?_nil, if_neg hij, if_neg (Ne.symm hij), List.head?_nil]
  cases h : mergesFor vals j i ms with
  | nil => simp
  | cons a l => simp [List.getLast?_cons]

/-- C47, proved part: symmetric when at most one clause is written for the other order. -/
theorem C47_symmetric_partial (vals : List String) (ms : List Merge) (hm : ownMessages ms) :
    ∃ t, mergeTable vals ms = some t ∧ ∀ i j : Nat, i < vals.length → j < vals.length → i ≠ j →
      mergesFor vals i j ms = [] → (mergesFor vals j i ms).length ≤ 1 →
      t.lookup i j = t.lookup j i := by
  obtain ⟨t, e, h⟩ := C47_merge_table vals ms hm
  refine ⟨t, e, fun i j hi hj hij hn hl => ?_⟩
  rw [h i j hi hj, h j i hj hi, (C47_symmetric_exactly vals ms i j hij hn).2]
  match hx : mergesFor vals j i ms with
  | [] => rfl
  | [a] => rfl
  | a :: b :: l => rw [hx] at hl; simp at hl

end Splint
