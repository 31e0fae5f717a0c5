import Mathlib.Data.List.Perm.Subperm
import Verif.Spec.SwitchEnum
/-!
# C88–C89: missing cases of a `switch`, and loops that are certain to be executed
-/
namespace Splint
open SwitchEnum SwitchEnum.Spec

/-! ## Lemmas -/

private theorem mem_case (n : Option Nat) : ∀ b : Body,
    Item.case_ n ∈ flatten b ↔ ∃ l, HasCase false l b ∧ l.name = n
  | .case_ l => by
    simp only [flatten, List.mem_singleton, Item.case_.injEq]
    constructor
    · rintro rfl; exact ⟨l, .here, rfl⟩
    · rintro ⟨m, hm, rfl⟩; cases hm; rfl
  | .dflt => by
    simp only [flatten, List.mem_singleton, reduceCtorEq, false_iff]
    rintro ⟨m, hm, -⟩; cases hm
  | .plain => by
    simp only [flatten, List.mem_singleton, reduceCtorEq, false_iff]
    rintro ⟨m, hm, -⟩; cases hm
  | .block s => by
    rw [flatten, mem_case n s]
    constructor
    · rintro ⟨l, h, rfl⟩; exact ⟨l, .block h, rfl⟩
    · rintro ⟨l, h, rfl⟩; cases h with | block h => exact ⟨l, h, rfl⟩
  | .list s t => by
    rw [flatten, List.mem_append, mem_case n s, mem_case n t]
    constructor
    · rintro (⟨l, h, rfl⟩ | ⟨l, h, rfl⟩)
      · exact ⟨l, .left h, rfl⟩
      · exact ⟨l, .right h, rfl⟩
    · rintro ⟨l, h, rfl⟩
      cases h with
      | left h => exact Or.inl ⟨l, h, rfl⟩
      | right h => exact Or.inr ⟨l, h, rfl⟩
  | .inner s => by
    simp only [flatten, List.mem_singleton, reduceCtorEq, false_iff]
    rintro ⟨m, hm, -⟩
    cases hm with | inner h _ => cases h
  | .switch s => by
    simp only [flatten, List.mem_singleton, reduceCtorEq, false_iff]
    rintro ⟨m, hm, -⟩; cases hm

private theorem mem_dflt : ∀ b : Body, Item.dflt ∈ flatten b ↔ HasDefault false b
  | .case_ l => by
    simp only [flatten, List.mem_singleton, reduceCtorEq, false_iff]
    intro hm; cases hm
  | .dflt => by
    simp only [flatten, List.mem_singleton, true_iff]
    exact .here
  | .plain => by
    simp only [flatten, List.mem_singleton, reduceCtorEq, false_iff]
    intro hm; cases hm
  | .block s => by
    rw [flatten, mem_dflt s]
    exact ⟨.block, fun h => by cases h with | block h => exact h⟩
  | .list s t => by
    rw [flatten, List.mem_append, mem_dflt s, mem_dflt t]
    constructor
    · rintro (h | h)
      · exact .left h
      · exact .right h
    · intro h
      cases h with
      | left h => exact Or.inl h
      | right h => exact Or.inr h
  | .inner s => by
    simp only [flatten, List.mem_singleton, reduceCtorEq, false_iff]
    intro hm
    cases hm with | inner h _ => cases h
  | .switch s => by
    simp only [flatten, List.mem_singleton, reduceCtorEq, false_iff]
    intro hm; cases hm

private theorem count_dflt : ∀ b : Body, (flatten b).count .dflt = defaults b
  | .case_ _ | .dflt | .plain | .inner _ | .switch _ => by simp [flatten, defaults]
  | .block s => count_dflt s
  | .list s t => by rw [flatten, List.count_append, count_dflt s, count_dflt t, defaults]

private theorem count_case (n : Nat) : ∀ b : Body, (flatten b).count (.case_ (some n)) = named n b
  | .case_ l => by
    simp only [flatten, named, List.count_cons, List.count_nil, beq_iff_eq, Item.case_.injEq, zero_add]
  | .dflt | .plain | .inner _ | .switch _ => by simp [flatten, named]
  | .block s => count_case n s
  | .list s t => by rw [flatten, List.count_append, count_case n s, count_case n t, named]

/-- The members with a `case` among the elements. -/
private def seen (es : List Nat) (l : List Item) (n : Nat) : Prop := n ∈ es ∧ Item.case_ (some n) ∈ l

private structure Inv (es : List Nat) (l : List Item) (st : St) : Prop where
  dflt : st.hasDefault = true ↔ Item.dflt ∈ l
  used : ∀ n, n ∈ st.used ↔ seen es l n
  nodup : st.used.Nodup
  dupD : Msg.duplicateDefault ∈ st.msgs ↔ 2 ≤ l.count .dflt
  dupC : ∀ n, Msg.duplicateCase n ∈ st.msgs ↔ n ∈ es ∧ 2 ≤ l.count (.case_ (some n))
  notM : ∀ n, Msg.notMember n ∈ st.msgs ↔ n ∉ es ∧ Item.case_ (some n) ∈ l
  miss : ∀ ns, Msg.missing ns ∉ st.msgs

private theorem inv_step {es : List Nat} {l : List Item} {st : St} (h : Inv es l st) (i : Item) :
    Inv es (l ++ [i]) (step (some es) st i) := by
  obtain ⟨h1, h2, h3, h4, h5, h6, h7⟩ := h
  simp only [seen] at h2
  cases i with
  | dflt =>
    have hc : 2 ≤ l.count Item.dflt + 1 ↔ st.hasDefault = true := by
      rw [h1, ← List.count_pos_iff]; omega
    constructor
    · simp [step]
    · simp [step, h2, seen]
    · exact h3
    · simp only [step, List.mem_append, h4, List.count_append, List.count_singleton_self, hc]
      by_cases hd : st.hasDefault = true
      · simp [hd]
      · have : ¬ 2 ≤ l.count Item.dflt := by rw [← hc] at hd; omega
        simp [hd, this]
    · intro n
      simp only [step, List.mem_append, h5, List.count_append]
      have : (if st.hasDefault = true then [Msg.duplicateDefault] else []) = [] ∨
        (if st.hasDefault = true then [Msg.duplicateDefault] else []) = [Msg.duplicateDefault] := by
        split <;> simp
      rcases this with e | e <;> simp [e]
    · intro n
      simp only [step, List.mem_append, h6]
      split <;> simp
    · intro ns
      simp only [step, List.mem_append, h7]
      split <;> simp
  | other =>
    constructor <;> simp [step, h1, h2, h3, h4, h5, h6, h7, seen]
  | case_ name =>
    cases name with
    | none => constructor <;> simp [step, h1, h2, h3, h4, h5, h6, h7, seen]
    | some m =>
      by_cases hm : m ∈ es
      · by_cases hu : m ∈ st.used
        · have hs := (h2 m).1 hu
          simp only [step, if_pos hm, if_pos hu]
          have hp := List.count_pos_iff.2 hs.2
          constructor
          · simp [h1]
          · intro n
            simp only [h2, seen, List.mem_append, List.mem_singleton, Item.case_.injEq, Option.some.injEq]
            constructor
            · exact fun h => ⟨h.1, Or.inl h.2⟩
            · rintro ⟨h, h' | rfl⟩
              · exact ⟨h, h'⟩
              · exact hs
          · exact h3
          · simp [h4]
          · intro n
            simp only [List.mem_append, h5, List.count_append, List.mem_singleton, Msg.duplicateCase.injEq]
            by_cases hn : n = m
            · subst hn
              simp only [List.count_singleton_self, or_true, true_iff]
              exact ⟨hm, by omega⟩
            · have : List.count (Item.case_ (some n)) [Item.case_ (some m)] = 0 := by
                rw [List.count_eq_zero]; simpa using hn
              simp [hn, this]
          · intro n
            simp only [List.mem_append, h6, List.mem_singleton, reduceCtorEq, or_false, Item.case_.injEq,
              Option.some.injEq]
            constructor
            · exact fun h => ⟨h.1, Or.inl h.2⟩
            · rintro ⟨h, h' | rfl⟩
              · exact ⟨h, h'⟩
              · exact absurd hm h
          · simp [h7]
        · have hs : Item.case_ (some m) ∉ l := fun h => hu ((h2 m).2 ⟨hm, h⟩)
          have hz := List.count_eq_zero.2 hs
          simp only [step, if_pos hm, if_neg hu]
          constructor
          · simp [h1]
          · intro n
            simp only [h2, seen, List.mem_append, List.mem_singleton, Item.case_.injEq, Option.some.injEq]
            constructor
            · rintro (h | rfl)
              · exact ⟨h.1, Or.inl h.2⟩
              · exact ⟨hm, Or.inr rfl⟩
            · rintro ⟨h, h' | rfl⟩
              · exact Or.inl ⟨h, h'⟩
              · exact Or.inr rfl
          · rw [List.nodup_append]
            refine ⟨h3, by simp, ?_⟩
            rintro a ha b hb rfl
            exact hu (by simp at hb; rwa [hb] at ha)
          · simp [h4]
          · intro n
            simp only [h5, List.count_append]
            by_cases hn : n = m
            · subst hn
              rw [hz]
              simp
            · have : List.count (Item.case_ (some n)) [Item.case_ (some m)] = 0 := by
                rw [List.count_eq_zero]; simpa using hn
              simp [this]
          · intro n
            simp only [List.mem_append, h6, List.mem_singleton, Item.case_.injEq, Option.some.injEq]
            constructor
            · exact fun h => ⟨h.1, Or.inl h.2⟩
            · rintro ⟨h, h' | rfl⟩
              · exact ⟨h, h'⟩
              · exact absurd hm h
          · exact h7
      · simp only [step, if_neg hm]
        constructor
        · simp [h1]
        · intro n
          simp only [h2, seen, List.mem_append, List.mem_singleton, Item.case_.injEq, Option.some.injEq]
          constructor
          · exact fun h => ⟨h.1, Or.inl h.2⟩
          · rintro ⟨h, h' | rfl⟩
            · exact ⟨h, h'⟩
            · exact absurd h hm
        · exact h3
        · simp [h4]
        · intro n
          simp only [List.mem_append, h5, List.count_append, List.mem_singleton, reduceCtorEq, or_false]
          by_cases hn : n = m
          · subst hn; simp [hm]
          · have : List.count (Item.case_ (some n)) [Item.case_ (some m)] = 0 := by
              rw [List.count_eq_zero]; simpa using hn
            simp [this]
        · intro n
          simp only [List.mem_append, h6, List.mem_singleton, Msg.notMember.injEq, Item.case_.injEq,
            Option.some.injEq]
          constructor
          · rintro (h | rfl)
            · exact ⟨h.1, Or.inl h.2⟩
            · exact ⟨hm, Or.inr rfl⟩
          · rintro ⟨h, h' | rfl⟩
            · exact Or.inl ⟨h, h'⟩
            · exact Or.inr rfl
        · simp [h7]

private theorem inv_all {es : List Nat} : ∀ (l pre : List Item) (st : St), Inv es pre st →
    Inv es (pre ++ l) (l.foldl (step (some es)) st)
  | [], pre, st, h => by simpa using h
  | i :: l, pre, st, h => by
    have := inv_all l (pre ++ [i]) _ (inv_step h i)
    simpa using this

private theorem inv_flatten (es : List Nat) (b : Body) :
    Inv es (flatten b) ((flatten b).foldl (step (some es)) ⟨false, [], []⟩) := by
  have := inv_all (es := es) (flatten b) [] ⟨false, [], []⟩
    ⟨by simp, by simp [seen], by simp, by simp, by simp, by simp, by simp⟩
  simpa using this

/-- As long as not all members have a case their numbers differ. -/
private theorem used_length {es : List Nat} (hn : es.Nodup) {l : List Item} {st : St} (h : Inv es l st) :
    st.used.length = es.length ↔ ∀ n ∈ es, Item.case_ (some n) ∈ l := by
  have hsub : st.used ⊆ es := fun n hx => ((h.used n).1 hx).1
  constructor
  · intro hl n hx
    have hp : st.used.Perm es := (List.subperm_of_subset h.nodup hsub).perm_of_length_le (by omega)
    exact ((h.used n).1 (hp.mem_iff.2 hx)).2
  · intro ha
    have hp : st.used.Perm es :=
      (List.perm_ext_iff_of_nodup h.nodup hn).2 fun n => ⟨fun hx => hsub hx, fun hx => (h.used n).2 ⟨hx, ha n hx⟩⟩
    exact hp.length_eq

/-! ## C88: the cases of a `switch` over an enumeration -/

/-- The message about missing cases lists exactly the members whose values the `switch` does not
handle. -/
def C88_full : Prop := ∀ (e : Enum) (body : Body), Agrees e body →
  ∀ ns, Msg.missing ns ∈ (checkSwitchExpr (some e.names) body).1 ↔
    ns ≠ [] ∧ ns = e.names.filter fun n => @decide (¬ Handles body (e.value n)) (Classical.dec _)

/-- `enum { A, B }` with `case 0:` and `case 1:`: the message lists both. -/
theorem C88_full_is_false : ¬ C88_full := by
  intro h
  have h1 := (h ⟨[0, 1], fun n => n, by decide⟩
    (.block (.list (.case_ ⟨none, 0⟩) (.case_ ⟨none, 1⟩))) ?_ [0, 1]).1 (by decide)
  · have h2 : (0 : Nat) ∈ [0, 1] := by decide
    rw [h1.2] at h2
    have := (List.mem_filter.1 h2).2
    simp only [decide_eq_true_eq] at this
    exact this (Or.inr ⟨_, .block (.left .here), rfl⟩)
  · intro l hl n hn hname
    cases hl with
    | block h => cases h with
      | left h => cases h; cases hname
      | right h => cases h; cases hname

/-- The list is exactly that of the members that do not occur by name as a label outside of inner
statements; there is no message if there is a `default`. -/
theorem C88_missing_exactly_partial (e : Enum) (body : Body) (ns : List Nat) :
    Msg.missing ns ∈ (checkSwitchExpr (some e.names) body).1 ↔
      ns ≠ [] ∧ ¬ HasDefault false body ∧
        ns = e.names.filter fun n =>
          @decide (¬ ∃ l, HasCase false l body ∧ l.name = some n) (Classical.dec _) := by
  have hi := inv_flatten e.names body
  have hl := used_length e.nodup hi
  have hd := hi.dflt
  rw [mem_dflt] at hd
  have hsub : subtract e.names ((flatten body).foldl (step (some e.names)) ⟨false, [], []⟩).used =
      e.names.filter fun n =>
        @decide (¬ ∃ l, HasCase false l body ∧ l.name = some n) (Classical.dec _) := by
    unfold subtract
    apply List.filter_congr
    intro n hn
    rw [decide_eq_decide, hi.used, seen, mem_case]
    generalize (∃ l, HasCase false l body ∧ l.name = some n) = q
    tauto
  unfold checkSwitchExpr
  simp only [← hsub]
  split
  · rename_i hc
    simp only [Bool.and_eq_true, Bool.not_eq_true', bne_iff_ne, ne_eq, hl] at hc
    obtain ⟨hc1, hc2⟩ := hc
    simp only [List.mem_append, hi.miss, false_or, List.mem_singleton, Msg.missing.injEq]
    have hnd : ¬ HasDefault false body := by rw [← hd, hc1]; simp
    constructor
    · rintro rfl
      refine ⟨?_, hnd, rfl⟩
      intro he
      apply hc2
      intro n hn
      by_contra hx
      have : n ∈ subtract e.names ((flatten body).foldl (step (some e.names)) ⟨false, [], []⟩).used :=
        List.mem_filter.2 ⟨hn, by simp [hi.used, seen, hx]⟩
      rw [he] at this
      cases this
    · exact fun h => h.2.2
  · rename_i hc
    simp only [hi.miss, false_iff]
    rintro ⟨hne, hnd, heq⟩
    apply hc
    have h1 : ((flatten body).foldl (step (some e.names)) ⟨false, [], []⟩).hasDefault = false := by
      rw [← hd] at hnd; simpa using hnd
    rw [h1]
    simp only [Bool.not_false, Bool.true_and, bne_iff_ne, ne_eq, hl]
    intro hall
    apply hne
    rw [heq, subtract, List.filter_eq_nil_iff]
    intro n hn
    simp [hi.used, seen, hn, hall n hn]

example : Msg.missing [1, 3] ∈ (checkSwitchExpr (some [0, 1, 2, 3])
    (.block (.list (.list (.case_ ⟨some 2, 2⟩) .plain) (.case_ ⟨some 0, 0⟩)))).1 := by decide

/-- A member whose value is not handled is always in the list. -/
theorem C88_unhandled_listed (e : Enum) (body : Body) (ha : Agrees e body) (n : Nat) (hn : n ∈ e.names)
    (hh : ¬ Handles body (e.value n)) :
    ∃ ns, Msg.missing ns ∈ (checkSwitchExpr (some e.names) body).1 ∧ n ∈ ns := by
  have lift : ∀ {l b}, HasCase false l b → HasCase true l b := by
    intro l b h
    induction h with
    | here => exact .here
    | block _ ih => exact .block ih
    | left _ ih => exact .left ih
    | right _ ih => exact .right ih
    | inner h => cases h
  have liftD : ∀ {b}, HasDefault false b → HasDefault true b := by
    intro b h
    induction h with
    | here => exact .here
    | block _ ih => exact .block ih
    | left _ ih => exact .left ih
    | right _ ih => exact .right ih
    | inner h => cases h
  have hx : n ∈ e.names.filter fun n =>
      @decide (¬ ∃ l, HasCase false l body ∧ l.name = some n) (Classical.dec _) := by
    refine List.mem_filter.2 ⟨hn, ?_⟩
    simp only [decide_eq_true_eq]
    rintro ⟨l, hl, hnm⟩
    exact hh (Or.inr ⟨l, lift hl, ha l (lift hl) n hn hnm⟩)
  exact ⟨_, (C88_missing_exactly_partial e body _).2
    ⟨List.ne_nil_of_mem hx, fun h => hh (Or.inl (liftD h)), rfl⟩, hx⟩

example : ¬ Handles (.case_ ⟨some 0, 0⟩) 1 := by
  rintro (h | ⟨l, h, hv⟩)
  · cases h
  · cases h; cases hv

/-- The list is that of the unhandled members when the values of the members are different, all labels
are names of members, and none is inside an inner statement. -/
theorem C88_unhandled_exactly_partial (e : Enum) (body : Body) (ha : Agrees e body)
    (hv : ∀ m ∈ e.names, ∀ n ∈ e.names, e.value m = e.value n → m = n)
    (hl : ∀ l, HasCase true l body → ∃ n ∈ e.names, l.name = some n) (hf : Flat body) (ns : List Nat) :
    Msg.missing ns ∈ (checkSwitchExpr (some e.names) body).1 ↔
      ns ≠ [] ∧ ns = e.names.filter fun n => @decide (¬ Handles body (e.value n)) (Classical.dec _) := by
  rw [C88_missing_exactly_partial]
  have lift : ∀ {l b}, HasCase false l b → HasCase true l b := by
    intro l b h
    induction h with
    | here => exact .here
    | block _ ih => exact .block ih
    | left _ ih => exact .left ih
    | right _ ih => exact .right ih
    | inner h => cases h
  by_cases hd : HasDefault false body
  · have liftD : HasDefault true body := by
      clear hf hl ha
      induction hd with
      | here => exact .here
      | block _ ih => exact .block ih
      | left _ ih => exact .left ih
      | right _ ih => exact .right ih
      | inner h => cases h
    constructor
    · exact fun h => absurd hd h.2.1
    · rintro ⟨h1, h2⟩
      exfalso
      apply h1
      rw [h2, List.filter_eq_nil_iff]
      intro n _
      simp [Handles, liftD]
  · have hdt : ¬ HasDefault true body := fun h => hd (hf.1 h)
    have : (e.names.filter fun n =>
          @decide (¬ ∃ l, HasCase false l body ∧ l.name = some n) (Classical.dec _)) =
        e.names.filter fun n => @decide (¬ Handles body (e.value n)) (Classical.dec _) := by
      apply List.filter_congr
      intro n hn
      rw [decide_eq_decide, not_iff_not]
      constructor
      · rintro ⟨l, h, hnm⟩
        exact Or.inr ⟨l, lift h, ha l (lift h) n hn hnm⟩
      · rintro (h | ⟨l, h, hval⟩)
        · exact absurd h hdt
        · obtain ⟨m, hm, hnm⟩ := hl l h
          have := hv m hm n hn (by rw [← ha l h m hm hnm, hval])
          exact ⟨l, hf.2 l h, by rw [hnm, this]⟩
    rw [this]
    simp [hd]

example : Flat (.block (.case_ ⟨some 0, 0⟩)) := by
  refine ⟨fun h => ?_, fun l h => ?_⟩
  · cases h with | block h => cases h
  · cases h with | block h => cases h; exact .block .here

/-- The other messages are exact for the labels outside of inner statements: a second `default`, a
member that is the label of two cases, and a name that is no member. -/
theorem C88_others_exactly (es : List Nat) (body : Body) :
    (Msg.duplicateDefault ∈ (checkSwitchExpr (some es) body).1 ↔ 2 ≤ defaults body) ∧
    (∀ n, Msg.duplicateCase n ∈ (checkSwitchExpr (some es) body).1 ↔ n ∈ es ∧ 2 ≤ named n body) ∧
    (∀ n, Msg.notMember n ∈ (checkSwitchExpr (some es) body).1 ↔
      n ∉ es ∧ ∃ l, HasCase false l body ∧ l.name = some n) := by
  have hi := inv_flatten es body
  simp only [← mem_case, ← count_dflt, ← count_case, ← hi.dupD, ← hi.dupC, ← hi.notM]
  unfold checkSwitchExpr
  simp only
  split <;> simp

example : Msg.duplicateCase 0 ∈ (checkSwitchExpr (some [0])
    (.list (.case_ ⟨some 0, 0⟩) (.block (.case_ ⟨some 0, 0⟩)))).1 := by decide

/-- Two members with the same value as labels are not noticed: only names are compared. -/
theorem C88_same_value_unnoticed (e : Enum) (m n : Nat) (hne : m ≠ n) :
    ∀ k, Msg.duplicateCase k ∉ (checkSwitchExpr (some e.names)
      (.list (.case_ ⟨some m, 0⟩) (.case_ ⟨some n, 0⟩))).1 := by
  intro k
  rw [(C88_others_exactly _ _).2.1 k]
  rintro ⟨-, h⟩
  simp only [named, Option.some.injEq] at h
  split_ifs at h <;> first | omega | (exact hne (by omega))

/-- All ways through a `switch` lead through one of its labels, as it is computed for later checks. -/
theorem C88_allpaths_sound (e : Enum) (body : Body) (ha : Agrees e body)
    (h : (checkSwitchExpr (some e.names) body).2 = true) (n : Nat) (hn : n ∈ e.names) :
    Handles body (e.value n) := by
  by_contra hh
  obtain ⟨ns, hm, -⟩ := C88_unhandled_listed e body ha n hn hh
  have hi := inv_flatten e.names body
  unfold checkSwitchExpr at h hm
  simp only at h hm
  split at h
  · cases h
  · rename_i hc
    rw [if_neg hc] at hm
    exact hi.miss ns hm

example : (checkSwitchExpr (some [0, 1]) (.list (.case_ ⟨some 1, 1⟩) (.case_ ⟨some 0, 0⟩))).2 = true := by
  decide

private theorem plain_step (st : St) (i : Item) :
    (step none st i).hasDefault = (st.hasDefault || decide (i = .dflt)) := by
  cases i <;> simp [step]

private theorem plain_all : ∀ (l : List Item) (st : St),
    ((l.foldl (step none) st).hasDefault = true ↔ st.hasDefault = true ∨ Item.dflt ∈ l)
  | [], st => by simp
  | i :: l, st => by
    rw [List.foldl_cons, plain_all l, plain_step]
    simp only [Bool.or_eq_true, decide_eq_true_eq, List.mem_cons]
    rw [or_assoc, @eq_comm _ i]

/-- Over any other type all ways lead through a label exactly if there is a `default` outside of inner
statements. -/
theorem C88_allpaths_plain (body : Body) :
    (checkSwitchExpr none body).2 = true ↔ HasDefault false body := by
  rw [← mem_dflt]
  unfold checkSwitchExpr
  simp only
  rw [plain_all]
  simp

example : (checkSwitchExpr none (.block (.list (.case_ ⟨none, 3⟩) .dflt))).2 = true
    ∧ (checkSwitchExpr none (.block (.case_ ⟨none, 3⟩))).2 = false := by decide

/-! ## C89: loops that are certain to be executed -/

/-- A loop is taken to be certain to be executed only if it is. -/
def C89_full : Prop := ∀ p, loopMustExec p = true → Executed p

/-- `for (i = 3; i < 3; …)` is taken to be executed. -/
theorem C89_full_is_false : ¬ C89_full := by
  intro h
  obtain ⟨v, w, hv, hw, -, hh⟩ := h ⟨some 3, .lt, true, some 3⟩ (by decide)
  cases hv; cases hw
  simp [Cmp.holds] at hh

/-- The loops for which this is wrong: `<` and `>` with equal values, and `==` with a greater one. -/
theorem C89_wrong_exactly (p : ForPred) :
    loopMustExec p = true ∧ ¬ Executed p ↔
      ∃ v w, p.init = some v ∧ p.bound = some w ∧ p.sameStorage = true ∧
        ((p.op = .lt ∧ v = w) ∨ (p.op = .gt ∧ v = w) ∨ (p.op = .eq ∧ v < w)) := by
  rcases p with ⟨i, o, s, b⟩
  cases i with
  | none => simp [loopMustExec, Executed]
  | some v =>
    cases b with
    | none => simp [loopMustExec, Executed]
    | some w =>
      cases s <;> cases o <;> simp [loopMustExec, Executed, Cmp.holds] <;> omega

example : loopMustExec ⟨some 3, .eq, true, some 5⟩ = true := by decide

/-- With `!=`, `<=` and `>=` the answer is right. -/
theorem C89_sound_partial (p : ForPred) (h : loopMustExec p = true)
    (ho : p.op = .ne ∨ p.op = .le ∨ p.op = .ge) : Executed p := by
  by_contra hc
  obtain ⟨v, w, -, -, -, h'⟩ := (C89_wrong_exactly p).1 ⟨h, hc⟩
  rcases ho with ho | ho | ho <;> simp [ho] at h'

example : loopMustExec ⟨some 0, .le, true, some 5⟩ = true := by decide

/-- The loops that are executed but not taken to be: `==`, `<=` and `>=` with equal values. -/
theorem C89_missed_exactly (p : ForPred) :
    Executed p ∧ loopMustExec p = false ↔
      ∃ v, p.init = some v ∧ p.bound = some v ∧ p.sameStorage = true ∧
        (p.op = .eq ∨ p.op = .le ∨ p.op = .ge) := by
  rcases p with ⟨i, o, s, b⟩
  cases i with
  | none => simp [loopMustExec, Executed]
  | some v =>
    cases b with
    | none => simp [loopMustExec, Executed]
    | some w =>
      cases s <;> cases o <;> simp [loopMustExec, Executed, Cmp.holds] <;> omega

end Splint
