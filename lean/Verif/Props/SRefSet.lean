import Verif.Props.SRef
import Verif.Proofs.SRefSet
import Verif.Spec.SRefSet
/-!
# C31, C32: reference sets
-/
namespace Splint

namespace SRef

theorem scope_fixConj (s : SRef) : s.fixConj.scope = s.scope := by
  induction s with
  | conj a x y ihx ihy => simpa [fixConj, scope] using ihx
  | _ => rfl

theorem wraps_fixConj (s : SRef) : s.fixConj.wraps ≤ s.wraps := by
  induction s with
  | conj a x y ihx ihy => simp only [fixConj, wraps]; omega
  | _ => exact Nat.le_refl _

theorem rootBaseAux_scope : ∀ (n : Nat) (s : SRef), s.wraps ≤ n → ∃ r, rootBaseAux (n + 1) s = some r ∧
    (match r with | cvar _ l _ => l | _ => globScope) = s.scope ∧
    r.isFileStatic = decide (s.scope = 1) := by
  intro n
  induction n with
  | zero =>
    intro s h
    cases s with
    | cvar a l i => exact ⟨_, rfl, rfl, rfl⟩
    | _ => simp_all [wraps, rootBaseAux, scope, globScope, isFileStatic, fileScope]
  | succ n ih =>
    intro s h
    cases s with
    | fetch a r i => simp only [rootBaseAux, scope]; exact ih r (by simp only [wraps] at h; omega)
    | field a r f => simp only [rootBaseAux, scope]; exact ih r (by simp only [wraps] at h; omega)
    | ptr a r => simp only [rootBaseAux, scope]; exact ih r (by simp only [wraps] at h; omega)
    | adr a r => simp only [rootBaseAux, scope]; exact ih r (by simp only [wraps] at h; omega)
    | conj a x y =>
      simp only [rootBaseAux, scope]
      have := ih x.fixConj (by have := wraps_fixConj x; simp only [wraps] at h; omega)
      rw [scope_fixConj] at this
      exact this
    | cvar a l i => exact ⟨_, rfl, rfl, rfl⟩
    | _ => simp [rootBaseAux, scope, globScope, isFileStatic, fileScope]

/-- The level the code computes is the scope, for at most 25 accesses. -/
theorem lexLevel_eq (s : SRef) (h : s.wraps ≤ 25) : s.lexLevel = s.scope := by
  obtain ⟨r, h1, h2, _⟩ := rootBaseAux_scope 25 s.fixConj (by have := wraps_fixConj s; omega)
  rw [scope_fixConj] at h2
  rw [← h2]
  unfold lexLevel rootBase
  rw [h1]
  cases r <;> rfl

theorem isStatic_eq (s : SRef) (h : s.wraps ≤ 25) : SRefSet.isStatic s = decide (s.scope = 1) := by
  obtain ⟨r, h1, _, h3⟩ := rootBaseAux_scope 25 s h
  unfold SRefSet.isStatic rootBase
  rw [h1]
  exact h3

theorem scope_strip (s : SRef) : s.strip.scope = s.scope := by
  induction s <;> simp_all [strip, scope]

end SRef

open SRef SRefSet

/-! ## C31 -/

/-- C31, in full, for sets: afterwards the set has exactly the references that are in scope. -/
def C31_set_full : Prop :=
  ∀ (s : SRefSet) (level : Int), s.Fits →
    ∃ s', s.levelPrune level = some s' ∧ s'.elems.Perm (s.elems.filter fun e => decide (e.scope ≤ level))

/-- `********x`, with 26 stars. -/
def manyStars : Nat → SRef
  | 0 => cvar 0 7 0
  | n + 1 => ptr (n + 1) (manyStars n)

/-- With more than 25 accesses, a reference counts as global and is kept. -/
theorem C31_set_full_is_false : ¬ C31_set_full := by
  intro h
  obtain ⟨s', h1, h2⟩ := h (single (manyStars 26)) 3 (by simp [Fits, single, baseSize])
  have e : (single (manyStars 26)).levelPrune 3 = some (single (manyStars 26)) := by decide +kernel
  rw [e] at h1
  obtain rfl := Option.some.inj h1
  have := h2.length_eq
  revert this
  decide +kernel

/-- C31, for sets: the references in scope are kept, each as often as before, and the others are
removed; nothing outside the array is touched. Missing: references with more than 25 accesses
(`C31_set_full_is_false`). -/
theorem C31_set_partial (s : SRefSet) (level : Int) (h : s.Fits)
    (hd : ∀ e ∈ s.elems, e.wraps ≤ 25) :
    ∃ s', s.levelPrune level = some s' ∧ s'.Fits ∧
      s'.elems.Perm (s.elems.filter fun e => decide (e.scope ≤ level)) := by
  obtain ⟨s', h1, h2, h3⟩ := levelPrune_spec s level h
  refine ⟨s', h1, h2, ?_⟩
  rw [List.filter_congr (fun e he => by rw [lexLevel_eq e (hd e he)])] at h3
  exact h3

example : (⟨[cvar 1 3 0, cvar 2 1 0, field 3 (cvar 1 3 0) 5, cvar 4 2 0], 0, 4⟩ : SRefSet).Fits ∧
    (SRefSet.levelPrune ⟨[cvar 1 3 0, cvar 2 1 0, field 3 (cvar 1 3 0) 5, cvar 4 2 0], 0, 4⟩ 2).map
      (·.elems) = some [cvar 4 2 0, cvar 2 1 0] := by
  refine ⟨by simp [Fits], by decide +kernel⟩

/-- An entry whose key is in scope, with the parts of its value that are. -/
def pruned (level : Int) (e : AliasEntry) (e' : SRef × List SRef) : Prop :=
  e'.1 = e.key ∧ e'.2.Perm ((elemsOf e.value).filter fun x => decide (x.scope ≤ level))

/-- C31, in full, for alias tables: exactly the entries whose key is in scope are kept, and their
values lose exactly what is out of scope. -/
def C31_table_full : Prop :=
  ∀ (t : List AliasEntry) (level : Int), (∀ e ∈ t, FitsO e.value) →
    ∃ t', aliasLevelPrune t level = some t' ∧
      (t'.map (·.key)).Perm ((t.map (·.key)).filter fun k => decide (k.scope ≤ level))

/-- When the block of `x` (level 3) ends, the fact about `y` (level 1) is lost. -/
theorem C31_table_full_is_false : ¬ C31_table_full := by
  intro h
  obtain ⟨t', h1, h2⟩ := h [⟨cvar 1 3 0, none⟩, ⟨cvar 2 1 0, some (single (cvar 3 1 1))⟩] 2
    (by intro e he; simp at he; rcases he with rfl | rfl <;> simp [FitsO, single, Fits, baseSize])
  have e : aliasLevelPrune [⟨cvar 1 3 0, none⟩, ⟨cvar 2 1 0, some (single (cvar 3 1 1))⟩] 2 = some [] := by
    decide +kernel
  rw [e] at h1
  obtain rfl := Option.some.inj h1
  exact absurd h2.length_eq (by decide)

/-- The entry at a position of a list, if it exists. -/
def inScope (level : Int) (t : List AliasEntry) (i : Nat) : Prop :=
  ∃ e, t[i]? = some e ∧ e.key.scope ≤ level

/-- The condition for losing an entry: with `g` keys in scope, the entry with index `g - 1` is out of
scope and the next one is in scope. -/
def loses (level : Int) (t : List AliasEntry) (g : Nat) : Prop :=
  0 < g ∧ ¬ inScope level t (g - 1) ∧ inScope level t g

theorem lost_iff (level : Int) (t : List AliasEntry) (hd : ∀ e ∈ t, e.key.wraps ≤ 25) :
    (PruneSt.lostEntry (fun e : AliasEntry => decide (e.key.lexLevel ≤ level)) t = none →
      ¬ loses level t (t.countP fun e => decide (e.key.scope ≤ level))) ∧
    (∀ y, PruneSt.lostEntry (fun e : AliasEntry => decide (e.key.lexLevel ≤ level)) t = some y →
      loses level t (t.countP fun e => decide (e.key.scope ≤ level)) ∧
      t[t.countP fun e => decide (e.key.scope ≤ level)]? = some y) := by
  have hc : (t.filter fun e : AliasEntry => decide (e.key.lexLevel ≤ level)).length =
      t.countP fun e => decide (e.key.scope ≤ level) := by
    rw [← List.countP_eq_length_filter]
    exact List.countP_congr (fun e he => by rw [lexLevel_eq _ (hd e he)])
  unfold PruneSt.lostEntry
  simp only [hc]
  generalize hg : (t.countP fun e => decide (e.key.scope ≤ level)) = g
  cases g with
  | zero => simp [loses]
  | succ k =>
    have hk : k < t.length := by
      have : t.countP (fun e => decide (e.key.scope ≤ level)) ≤ t.length := List.countP_le_length
      omega
    simp only [loses, inScope, Nat.add_sub_cancel]
    rw [List.getElem?_eq_getElem hk]
    cases hn : t[k + 1]? with
    | none => simp
    | some b =>
      have e1 := lexLevel_eq _ (hd t[k] (List.getElem_mem _))
      have e2 := lexLevel_eq _ (hd b (List.mem_of_getElem? hn))
      simp only [e1, e2]
      by_cases h1 : t[k].key.scope ≤ level <;> by_cases h2 : b.key.scope ≤ level <;> simp [h1, h2]

theorem prune_value (level : Int) (e : AliasEntry) (hf : FitsO e.value)
    (hd : ∀ x ∈ elemsOf e.value, x.wraps ≤ 25) :
    FitsO (e.prune level).value ∧ pruned level e ((e.prune level).key, elemsOf (e.prune level).value) := by
  unfold AliasEntry.prune pruned
  cases hv : e.value with
  | none => simp [FitsO, elemsOf]
  | some s =>
    rw [hv] at hf hd
    obtain ⟨s', h1, h2, h3⟩ := C31_set_partial s level hf hd
    simp only [Option.bind_some, h1]
    exact ⟨h2, trivial, h3⟩

/-- C31, for alias tables, exactly: the table afterwards, with the lost entry if there is one, has
exactly the entries whose key is in scope, with the parts of their values that are in scope. The lost
entry is the one behind the first `g`, where `g` is the number of keys in scope. -/
theorem C31_table_exactly (t : List AliasEntry) (level : Int) (hk : ∀ e ∈ t, e.key.wraps ≤ 25) :
    ∃ t', aliasLevelPrune t level = some t' ∧
      let g := t.countP fun e => decide (e.key.scope ≤ level)
      (¬ loses level t g → t'.Perm ((t.filter fun e => decide (e.key.scope ≤ level)).map (AliasEntry.prune level))) ∧
      (loses level t g → ∃ y, t[g]? = some y ∧
        (y.prune level :: t').Perm
          ((t.filter fun e => decide (e.key.scope ≤ level)).map (AliasEntry.prune level))) := by
  obtain ⟨st, h1, h2, _⟩ := PruneSt.outerA_perm
    (fun e : AliasEntry => decide (e.key.lexLevel ≤ level)) (AliasEntry.prune level)
    t.length [] t [] 0 (Nat.le_refl _)
  simp only [List.nil_append, List.append_nil, List.length_nil, Nat.zero_add] at h1 h2
  rw [List.filter_congr (fun e he => by rw [lexLevel_eq _ (hk e he)])] at h2
  refine ⟨st.arr.take st.entries, by simp [aliasLevelPrune, h1], ?_⟩
  obtain ⟨l1, l2⟩ := lost_iff level t hk
  cases hl : PruneSt.lostEntry (fun e : AliasEntry => decide (e.key.lexLevel ≤ level)) t with
  | none =>
    rw [hl] at h2
    exact ⟨fun _ => by simpa using h2, fun h => absurd h (l1 hl)⟩
  | some y =>
    rw [hl] at h2
    obtain ⟨a, b⟩ := l2 y hl
    exact ⟨fun h => absurd a h, fun _ => ⟨y, b, by simpa using h2⟩⟩

/-- C31, for alias tables: if the condition for losing an entry is not met, the keys in scope are
kept, and each value loses exactly what is out of scope. -/
theorem C31_table_partial (t : List AliasEntry) (level : Int) (hf : ∀ e ∈ t, FitsO e.value)
    (hk : ∀ e ∈ t, e.key.wraps ≤ 25) (hv : ∀ e ∈ t, ∀ x ∈ elemsOf e.value, x.wraps ≤ 25)
    (hl : ¬ loses level t (t.countP fun e => decide (e.key.scope ≤ level))) :
    ∃ t', aliasLevelPrune t level = some t' ∧
      (t'.map (·.key)).Perm ((t.map (·.key)).filter fun k => decide (k.scope ≤ level)) ∧
      (∀ e' ∈ t', ∃ e ∈ t, e.key.scope ≤ level ∧ FitsO e'.value ∧
        pruned level e (e'.key, elemsOf e'.value)) ∧
      (∀ e ∈ t, e.key.scope ≤ level → ∃ e' ∈ t', pruned level e (e'.key, elemsOf e'.value)) := by
  obtain ⟨t', h1, h2, _⟩ := C31_table_exactly t level hk
  have h2 := h2 hl
  refine ⟨t', h1, ?_, ?_, ?_⟩
  · have := h2.map (·.key)
    rw [List.map_map] at this
    refine this.trans ?_
    rw [List.filter_map]
    exact List.Perm.refl _
  · intro e' he'
    obtain ⟨e, he, rfl⟩ := List.mem_map.1 (h2.mem_iff.1 he')
    simp only [List.mem_filter, decide_eq_true_eq] at he
    exact ⟨e, he.1, he.2, prune_value level e (hf e he.1) (hv e he.1)⟩
  · intro e he hs
    refine ⟨e.prune level, h2.mem_iff.2 (List.mem_map.2 ⟨e, ?_, rfl⟩),
      (prune_value level e (hf e he) (hv e he)).2⟩
    simp [he, hs]

/-- A table where nothing is lost: an entry goes, and another one takes its place. -/
example : ¬ loses 2 [⟨cvar 1 3 0, none⟩, ⟨cvar 2 1 0, none⟩, ⟨cvar 3 2 0, none⟩]
    ((([⟨cvar 1 3 0, none⟩, ⟨cvar 2 1 0, none⟩, ⟨cvar 3 2 0, none⟩] : List AliasEntry).countP
      fun e => decide (e.key.scope ≤ 2))) := by
  have : (([⟨cvar 1 3 0, none⟩, ⟨cvar 2 1 0, none⟩, ⟨cvar 3 2 0, none⟩] : List AliasEntry).countP
      fun e => decide (e.key.scope ≤ 2)) = 2 := by decide
  rw [this]
  simp [loses, inScope, scope]

/-! ## C32 -/

namespace SetOp

theorem isSameMember_iff (cm : Nat → Nat → Bool) {H : Nat → SRef} {d : Nat} {l : List SRef} {el : SRef}
    (hl : ∀ e ∈ l, Ok.good H d e) (he : Ok.good H d el) :
    isSameMember cm l el = true ↔ el.strip ∈ texts l := by
  simp only [isSameMember, List.any_eq_true, texts, Set.mem_ofPred_eq]
  constructor
  · rintro ⟨e, h1, h2⟩
    exact ⟨e, h1, ((realSame_iff cm H el e he.1 (hl e h1).1 he.2.1).1 h2).symm⟩
  · rintro ⟨e, h1, h2⟩
    exact ⟨e, h1, (realSame_iff cm H el e he.1 (hl e h1).1 he.2.1).2 h2.symm⟩

/-- The elements are references of the memory, and no two have the same text. -/
def Inv (H : Nat → SRef) (d : Nat) (l : List SRef) : Prop :=
  (∀ e ∈ l, Ok.good H d e) ∧ (l.map SRef.strip).Nodup

theorem texts_append (l k : List SRef) : texts (l ++ k) = texts l ∪ texts k := by
  ext x
  simp only [texts, Set.mem_ofPred_eq, Set.mem_union, List.mem_append]
  constructor
  · rintro ⟨e, h1 | h1, h2⟩
    · exact Or.inl ⟨e, h1, h2⟩
    · exact Or.inr ⟨e, h1, h2⟩
  · rintro (⟨e, h1, h2⟩ | ⟨e, h1, h2⟩)
    · exact ⟨e, Or.inl h1, h2⟩
    · exact ⟨e, Or.inr h1, h2⟩

theorem texts_single (e : SRef) : texts [e] = {e.strip} := by
  ext x; simp [texts, eq_comm]

theorem texts_nil : texts [] = ∅ := by
  ext x; simp [texts]

theorem texts_perm {l k : List SRef} (h : l.Perm k) : texts l = texts k := by
  ext x; simp [texts, h.mem_iff]

theorem inv_perm {H : Nat → SRef} {d : Nat} {l k : List SRef} (h : l.Perm k) (hk : Inv H d k) :
    Inv H d l :=
  ⟨fun e he => hk.1 e (h.mem_iff.1 he), (h.map _).nodup_iff.2 hk.2⟩

theorem ins_spec (cm : Nat → Nat → Bool) {H : Nat → SRef} {d : Nat} {l : List SRef} {el : SRef}
    (hl : Inv H d l) (he : Ok.good H d el) :
    Inv H d (ins cm l el) ∧ texts (ins cm l el) = texts l ∪ {el.strip} := by
  unfold ins
  by_cases h : isSameMember cm l el = true
  · rw [if_pos h]
    refine ⟨hl, ?_⟩
    have := (isSameMember_iff cm hl.1 he).1 h
    ext x; simp only [Set.mem_union, Set.mem_singleton_iff]
    exact ⟨Or.inl, fun hx => hx.elim id (fun hx => hx ▸ this)⟩
  · rw [if_neg h]
    have hn : el.strip ∉ texts l := fun hm => h ((isSameMember_iff cm hl.1 he).2 hm)
    refine ⟨⟨?_, ?_⟩, by rw [texts_append, texts_single]⟩
    · intro e h'
      rcases List.mem_append.1 h' with h' | h'
      · exact hl.1 e h'
      · rw [List.mem_singleton.1 h']; exact he
    · rw [List.map_append, List.nodup_append]
      refine ⟨hl.2, by simp, ?_⟩
      intro a ha b hb hab
      simp only [List.map_cons, List.map_nil, List.mem_singleton] at hb
      obtain ⟨e, h1, h2⟩ := List.mem_map.1 ha
      exact hn ⟨e, h1, by rw [h2, hab, hb]⟩

theorem foldl_ins_spec (cm : Nat → Nat → Bool) {H : Nat → SRef} {d : Nat} (xs : List SRef) :
    ∀ {l : List SRef}, Inv H d l → (∀ e ∈ xs, Ok.good H d e) →
    Inv H d (xs.foldl (ins cm) l) ∧ texts (xs.foldl (ins cm) l) = texts l ∪ texts xs := by
  induction xs with
  | nil => intro l hl _; exact ⟨hl, by rw [texts_nil, Set.union_empty]; rfl⟩
  | cons x xs ih =>
    intro l hl hx
    obtain ⟨h1, h2⟩ := ins_spec cm hl (hx x (by simp))
    obtain ⟨h3, h4⟩ := ih h1 (fun e he => hx e (by simp [he]))
    refine ⟨h3, ?_⟩
    rw [List.foldl_cons, h4, h2, Set.union_assoc, ← texts_single, ← texts_append]; rfl

theorem inv_filter {H : Nat → SRef} {d : Nat} {l : List SRef} (p : SRef → Bool) (hl : Inv H d l) :
    Inv H d (l.filter p) :=
  ⟨fun e he => hl.1 e (List.mem_filter.1 he).1, hl.2.sublist ((List.filter_sublist).map _)⟩

theorem texts_filter {l : List SRef} (p : SRef → Bool) (q : SRef → Prop)
    (h : ∀ e ∈ l, p e = true ↔ q e.strip) : texts (l.filter p) = {x ∈ texts l | q x} := by
  ext x
  simp only [texts, Set.mem_ofPred_eq, List.mem_filter]
  constructor
  · rintro ⟨e, ⟨h1, h2⟩, rfl⟩; exact ⟨⟨e, h1, rfl⟩, (h e h1).1 h2⟩
  · rintro ⟨⟨e, h1, rfl⟩, h2⟩; exact ⟨e, ⟨h1, (h e h1).2 h2⟩, rfl⟩

theorem eraseP_spec (cm : Nat → Nat → Bool) {H : Nat → SRef} {d : Nat} {l : List SRef} {el : SRef}
    (hl : Inv H d l) (he : Ok.good H d el) :
    Inv H d (l.eraseP (el.realSame cm)) ∧ texts (l.eraseP (el.realSame cm)) = texts l \ {el.strip} := by
  refine ⟨⟨fun e h => hl.1 e (List.mem_of_mem_eraseP h), hl.2.sublist ((List.eraseP_sublist).map _)⟩, ?_⟩
  induction l with
  | nil => simp [texts_nil]
  | cons x l ih =>
    have hx := realSame_iff cm H el x he.1 (hl.1 x (by simp)).1 he.2.1
    have hn := hl.2
    rw [List.map_cons, List.nodup_cons] at hn
    have hsplit : texts (x :: l) = {x.strip} ∪ texts l := by
      rw [← texts_single, ← texts_append]; rfl
    by_cases h : el.realSame cm x = true
    · rw [List.eraseP_cons_of_pos h, hsplit]
      have e := hx.1 h
      ext y
      simp only [Set.mem_diff, Set.mem_union, Set.mem_singleton_iff]
      constructor
      · intro hy
        refine ⟨Or.inr hy, ?_⟩
        rintro rfl
        obtain ⟨z, h1, h2⟩ := hy
        exact hn.1 (List.mem_map.2 ⟨z, h1, h2.trans e⟩)
      · rintro ⟨hy | hy, h2⟩
        · exact absurd (hy.trans e.symm) h2
        · exact hy
    · rw [List.eraseP_cons_of_neg h, hsplit]
      have : texts (x :: l.eraseP (el.realSame cm)) = {x.strip} ∪ texts (l.eraseP (el.realSame cm)) := by
        rw [← texts_single, ← texts_append]; rfl
      rw [this, ih ⟨fun e h' => hl.1 e (by simp [h']), hn.2⟩]
      have hne : x.strip ≠ el.strip := fun e => h (hx.2 e.symm)
      ext y
      simp only [Set.mem_diff, Set.mem_union, Set.mem_singleton_iff]
      constructor
      · rintro (hy | ⟨hy, h2⟩)
        · exact ⟨Or.inl hy, fun e => hne (hy ▸ e)⟩
        · exact ⟨Or.inr hy, h2⟩
      · rintro ⟨hy | hy, h2⟩
        · exact Or.inl hy
        · exact Or.inr ⟨hy, h2⟩

/-- One change. -/
theorem run_spec (cm : Nat → Nat → Bool) (H : Nat → SRef) (op : SetOp) (s : Option SRefSet)
    (hf : FitsO s) (hs : Inv H 25 (elemsOf s)) (hop : op.Ok H 25) :
    ∃ s', op.run cm s = some s' ∧ FitsO s' ∧ Inv H 25 (elemsOf s') ∧
      texts (elemsOf s') = op.spec (texts (elemsOf s)) := by
  cases op with
  | insert el =>
    obtain ⟨s', h1, h2, h3⟩ := insert_spec cm s el hf
    obtain ⟨h4, h5⟩ := ins_spec cm hs hop
    rw [← h2] at h4 h5
    exact ⟨some s', by simp [run, h1], h3, h4, h5⟩
  | delete el =>
    cases s with
    | none => exact ⟨none, rfl, trivial, hs, by simp [spec, elemsOf, texts_nil]⟩
    | some s =>
      obtain ⟨_, h2, h3⟩ := deleteLoop_spec cm s el hf s.elems.length 0 (by omega)
      obtain ⟨h4, h5⟩ := eraseP_spec cm hs hop
      simp only [List.take_zero, List.drop_zero, List.nil_append] at h2
      refine ⟨some (s.delete cm el).2, rfl, h3, ?_, ?_⟩
      · have : elemsOf (some (s.delete cm el).2) = s.elems.eraseP (el.realSame cm) := h2
        rw [this]; exact h4
      · have : elemsOf (some (s.delete cm el).2) = s.elems.eraseP (el.realSame cm) := h2
        rw [this]; exact h5
  | clear =>
    cases s with
    | none => exact ⟨none, rfl, trivial, hs, by simp [spec, elemsOf, texts_nil]⟩
    | some s =>
      refine ⟨some s.clear, rfl, clear_fits s hf, ⟨?_, ?_⟩, ?_⟩
      · simp [elemsOf, SRefSet.clear]
      · simp [elemsOf, SRefSet.clear]
      · simp [elemsOf, SRefSet.clear, spec, texts_nil]
  | union l =>
    obtain ⟨s', h1, h2, h3⟩ := union_spec cm s (some l) hf
    have hl : Inv H 25 l.elems := hop
    refine ⟨s', h1, h2, ?_⟩
    by_cases he : (elemsOf s).isEmpty = true
    · rw [if_pos he] at h3
      rw [h3]
      refine ⟨hl, ?_⟩
      rw [List.isEmpty_iff.1 he, texts_nil]
      simp [spec, elemsOf]
    · rw [if_neg he] at h3
      rw [h3]
      exact foldl_ins_spec cm l.elems hs hl.1
  | unionExcept l ex =>
    obtain ⟨hl, hx, hle, hxe⟩ := hop
    obtain ⟨s', h1, h2, h3⟩ := insertAll_spec cm (l.elems.filter fun el => !(el.same ex)) s hf
    obtain ⟨h4, h5⟩ := foldl_ins_spec cm (l.elems.filter fun el => !(el.same ex)) hs
      (fun e he => hl.1 e (List.mem_filter.1 he).1)
    refine ⟨s', h1, h3, by rw [h2]; exact h4, ?_⟩
    rw [h2, h5, texts_filter _ (fun x => x ≠ ex.strip)]
    · ext x; simp [spec]
    · intro e he
      have := same_iff H e ex (hl.1 e he).1 hx.1 (hle e he) hxe
      rw [Bool.not_eq_true', ← Bool.not_eq_true, this]
  | levelUnion l level =>
    have hl : Inv H 25 l.elems := hop
    obtain ⟨s', h1, h2, h3⟩ := insertAll_spec cm
      (l.elems.filter fun el => decide (el.lexLevel ≤ level)) s hf
    obtain ⟨h4, h5⟩ := foldl_ins_spec cm (l.elems.filter fun el => decide (el.lexLevel ≤ level)) hs
      (fun e he => hl.1 e (List.mem_filter.1 he).1)
    refine ⟨s', h1, h3, by rw [h2]; exact h4, ?_⟩
    rw [h2, h5, texts_filter _ (fun x => x.scope ≤ level)]
    · rfl
    · intro e he
      rw [decide_eq_true_eq, lexLevel_eq e (hl.1 e he).2.2, scope_strip]
  | copyInto l =>
    obtain ⟨s', h1, h2, h3⟩ := copyInto_spec s (some l) hf
    refine ⟨s', h1, h3, ?_, ?_⟩ <;> rw [h2]
    · exact hop
    · rfl
  | levelPrune level =>
    cases s with
    | none => exact ⟨none, rfl, trivial, hs, by simp [spec, elemsOf, texts_nil]⟩
    | some s =>
      obtain ⟨s', h1, h2, h3⟩ := levelPrune_spec s level hf
      refine ⟨some s', by simp [run, h1], h2, ?_, ?_⟩
      · exact inv_perm h3 (inv_filter _ hs)
      · have : texts (elemsOf (some s')) = _ := texts_perm h3
        rw [this, texts_filter _ (fun x => x.scope ≤ level)]
        · rfl
        · intro e he
          rw [decide_eq_true_eq, lexLevel_eq e (hs.1 e he).2.2, scope_strip]
  | clearStatics =>
    cases s with
    | none => exact ⟨none, rfl, trivial, hs, by simp [spec, elemsOf, texts_nil]⟩
    | some s =>
      obtain ⟨h1, h2⟩ := clearStaticsLoop_spec s.elems.length s 0 (by omega) hf
      simp only [List.take_zero, List.drop_zero, List.nil_append] at h1
      have e : elemsOf (some s.clearStatics) = s.elems.filter fun e => !isStatic e := h1
      refine ⟨some s.clearStatics, rfl, h2, ?_, ?_⟩
      · rw [e]; exact inv_filter _ hs
      · rw [e, texts_filter _ (fun x => x.scope ≠ 1)]
        · rfl
        · intro e he
          rw [isStatic_eq e (hs.1 e he).2.2, scope_strip]
          simp

end SetOp

/-- C32, in full: after any history, a reference is a member exactly when its text is in the set
given by set algebra. -/
def C32_full (cm : Nat → Nat → Bool) : Prop :=
  ∀ (H : Nat → SRef) (ops : List SetOp) (el : SRef), (∀ op ∈ ops, op.Ok H 25) → el.InHeap H →
    ∃ s, SetOp.runAll cm none ops = some s ∧
      (isSameMember cm (elemsOf s) el = true ↔ el.strip ∈ ops.foldl SetOp.spec ∅)

/-- After `x` was inserted, every constant is a member. -/
theorem C32_full_is_false (cm : Nat → Nat → Bool) : ¬ C32_full cm := by
  intro h
  obtain ⟨s, h1, h2⟩ := h sampleHeap [.insert (cvar 1 3 0)] (const 2)
    (by
      intro op hop
      simp only [List.mem_singleton] at hop
      subst hop
      exact ⟨by simp [InHeap, sampleHeap, addr], rfl, by decide⟩)
    (by simp [InHeap, sampleHeap, addr])
  have e : SetOp.runAll cm none [.insert (cvar 1 3 0)] = some (some (single (cvar 1 3 0))) := by rfl
  rw [e] at h1
  obtain rfl := Option.some.inj h1
  have h3 := h2.1 rfl
  simp [SetOp.spec, strip] at h3

/-- C32: after any history of insertions, deletions, unions, copies and removals, starting with an
undefined set, for comparable references: nothing outside the array was accessed, a reference is a
member exactly when set algebra says so, and no reference is stored twice. Missing: the other kinds
of references (`C32_full_is_false`), and intersections (`C32_intersect_full_is_false`). -/
theorem C32_history_partial (cm : Nat → Nat → Bool) (H : Nat → SRef) (ops : List SetOp)
    (hops : ∀ op ∈ ops, op.Ok H 25) :
    ∃ s, SetOp.runAll cm none ops = some s ∧ FitsO s ∧ ((elemsOf s).map SRef.strip).Nodup ∧
      (∀ el, el.InHeap H → el.every comparable = true → el.wraps ≤ 25 →
        (isSameMember cm (elemsOf s) el = true ↔ el.strip ∈ ops.foldl SetOp.spec ∅)) := by
  have key : ∀ (ops : List SetOp) (s : Option SRefSet) (A : Set SRef), (∀ op ∈ ops, op.Ok H 25) →
      FitsO s → SetOp.Inv H 25 (elemsOf s) → SetOp.texts (elemsOf s) = A →
      ∃ s', SetOp.runAll cm s ops = some s' ∧ FitsO s' ∧ SetOp.Inv H 25 (elemsOf s') ∧
        SetOp.texts (elemsOf s') = ops.foldl SetOp.spec A := by
    intro ops
    induction ops with
    | nil => intro s A _ h1 h2 h3; exact ⟨s, rfl, h1, h2, h3⟩
    | cons op ops ih =>
      intro s A ho h1 h2 h3
      obtain ⟨s1, a, b, c, e⟩ := SetOp.run_spec cm H op s h1 h2 (ho op (by simp))
      rw [h3] at e
      obtain ⟨s2, a', b', c', e'⟩ := ih s1 _ (fun o h => ho o (by simp [h])) b c e
      exact ⟨s2, by simp [SetOp.runAll, a, a'], b', c', e'⟩
  obtain ⟨s, h1, h2, h3, h4⟩ := key ops none ∅ hops trivial
    ⟨by simp [elemsOf], by simp [elemsOf]⟩ (by simp [elemsOf, SetOp.texts_nil])
  refine ⟨s, h1, h2, h3.2, fun el a b c => ?_⟩
  rw [SetOp.isSameMember_iff cm h3.1 ⟨a, b, c⟩, h4]

/-- A history in one memory, and what is left after it. -/
example : (∀ op ∈ [SetOp.insert (sampleHeap 1), .insert (sampleHeap 9), .insert (sampleHeap 3),
      .delete (sampleHeap 9)], op.Ok sampleHeap 25) ∧
    (SetOp.runAll (fun _ _ => true) none [.insert (sampleHeap 1), .insert (sampleHeap 9),
      .insert (sampleHeap 3), .delete (sampleHeap 9)]).map (fun s => elemsOf s) =
      some [sampleHeap 1, sampleHeap 3] := by
  refine ⟨?_, by decide⟩
  intro op hop
  simp only [List.mem_cons, List.not_mem_nil, or_false] at hop
  rcases hop with rfl | rfl | rfl | rfl <;>
    exact ⟨by simp [InHeap, sampleHeap, addr], rfl, by decide⟩

/-- C32: `sRefSet_deleteBase` removes exactly the references included in the base, keeps the order of
the others, and says whether it removed something. -/
theorem C32_deleteBase (s : SRefSet) (base : SRef) (h : s.Fits) :
    (s.deleteBase base).2.elems = s.elems.filter (fun e => !e.includedBy base) ∧
      ((s.deleteBase base).1 = true ↔ ∃ e ∈ s.elems, e.includedBy base = true) ∧
      (s.deleteBase base).2.Fits := by
  obtain ⟨h1, h2, h3⟩ := deleteBaseLoop_spec base s.elems.length s.elems 0 0 (by omega)
  simp only [List.take_zero, Nat.add_zero, List.drop_zero, List.nil_append, Nat.zero_add] at h1 h2 h3
  refine ⟨h3, ?_, ?_⟩
  · simp only [deleteBase, h2, decide_eq_true_eq, gt_iff_lt, List.countP_pos_iff]
  · unfold Fits at *
    have := List.countP_le_length (p := fun e : SRef => e.includedBy base) (l := s.elems)
    simp only [deleteBase, h2, List.length_take, h1]
    omega

example : ((⟨[cvar 1 3 0, field 9 (cvar 1 3 0) 0, cvar 3 3 1], 1, 4⟩ : SRefSet).deleteBase
    (cvar 1 3 0)).2.elems = [cvar 3 3 1] := by decide +kernel

/-- C32: `sRefSet_levelCopy` copies exactly the references in scope. -/
theorem C32_levelCopy (s : Option SRefSet) (level : Int) (hd : ∀ e ∈ elemsOf s, e.wraps ≤ 25) :
    ∃ s', levelCopy s level = some s' ∧ FitsO s' ∧
      elemsOf s' = (elemsOf s).filter fun e => decide (e.scope ≤ level) := by
  obtain ⟨s', h1, h2, h3⟩ := levelCopy_spec s level
  refine ⟨s', h1, h2, ?_⟩
  rw [h3, List.filter_congr (fun e he => by rw [lexLevel_eq e (hd e he)])]

example : (levelCopy (some ⟨[cvar 1 3 0, cvar 2 1 0], 2, 4⟩) 2).map (fun s => elemsOf s) =
    some [cvar 2 1 0] := by decide +kernel

/-- C32: a new union is the union. -/
theorem C32_newUnion (cm : Nat → Nat → Bool) (H : Nat → SRef) (s1 s2 : Option SRefSet)
    (h1 : SetOp.Inv H 25 (elemsOf s1)) (h2 : SetOp.Inv H 25 (elemsOf s2)) :
    ∃ s, realNewUnion cm s1 s2 = some s ∧ FitsO s ∧ ((elemsOf s).map SRef.strip).Nodup ∧
      SetOp.texts (elemsOf s) = SetOp.texts (elemsOf s1) ∪ SetOp.texts (elemsOf s2) := by
  unfold realNewUnion
  cases s1 with
  | none =>
    refine ⟨newCopy s2, rfl, newCopy_fits s2, ?_, ?_⟩ <;> rw [newCopy_elems]
    · exact h2.2
    · simp [elemsOf, SetOp.texts_nil]
  | some s1 =>
    obtain ⟨s', a, b, c⟩ := insertAll_spec cm (elemsOf s2) (newCopy (some s1)) (newCopy_fits _)
    obtain ⟨e, f⟩ := SetOp.foldl_ins_spec cm (elemsOf s2) h1 h2.1
    rw [newCopy_elems] at b
    refine ⟨s', a, c, ?_, ?_⟩ <;> rw [b]
    · exact e.2
    · exact f

/-- Two elements of one memory. -/
example : SetOp.Inv sampleHeap 25 [sampleHeap 1, sampleHeap 9] := by
  refine ⟨?_, by decide⟩
  intro e he
  simp only [List.mem_cons, List.not_mem_nil, or_false] at he
  rcases he with rfl | rfl <;> exact ⟨by simp [InHeap, sampleHeap, addr], rfl, by decide⟩

/-- C32: two sets are equal to the code exactly if they have the same texts, and `sRefSet_compare`
says so. -/
theorem C32_equal (cm : Nat → Nat → Bool) (H : Nat → SRef) (l1 l2 : List SRef)
    (h1 : SetOp.Inv H 25 l1) (h2 : SetOp.Inv H 25 l2) :
    (equal cm l1 l2 = true ↔ SetOp.texts l1 = SetOp.texts l2) ∧
      (SRefSet.compare cm l1 l2 = 0 ↔ SetOp.texts l1 = SetOp.texts l2) := by
  have sub : ∀ {a b : List SRef}, SetOp.Inv H 25 a → SetOp.Inv H 25 b →
      (a.all (isSameMember cm b) = true ↔ SetOp.texts a ⊆ SetOp.texts b) := by
    intro a b ha hb
    rw [List.all_eq_true]
    constructor
    · rintro h x ⟨e, he, rfl⟩
      exact (SetOp.isSameMember_iff cm hb.1 (ha.1 e he)).1 (h e he)
    · intro h e he
      exact (SetOp.isSameMember_iff cm hb.1 (ha.1 e he)).2 (h ⟨e, he, rfl⟩)
  have e1 := sub h1 h2
  have e2 := sub h2 h1
  constructor
  · unfold equal
    rw [Bool.and_eq_true, e1, e2]
    exact (Set.Subset.antisymm_iff).symm
  · rw [Set.Subset.antisymm_iff, ← e1, ← e2]
    unfold SRefSet.compare
    split <;> rename_i a
    · split <;> rename_i b <;> simp [a, b]
    · simp [a]

/-- C32, for intersections, in full. -/
def C32_intersect_full (cm : Nat → Nat → Bool) : Prop :=
  ∀ (H : Nat → SRef) (s1 s2 : SRefSet), SetOp.Inv H 25 s1.elems → SetOp.Inv H 25 s2.elems →
    ∃ s, intersect cm (some s1) (some s2) = some s ∧
      SetOp.texts (elemsOf s) = SetOp.texts s1.elems ∩ SetOp.texts s2.elems

/-- The intersection of `a[1]` with `*a` is `a[1]`. -/
theorem C32_intersect_full_is_false (cm : Nat → Nat → Bool) : ¬ C32_intersect_full cm := by
  intro h
  obtain ⟨s, h1, h2⟩ := h sampleHeap (single (sampleHeap 4)) (single (sampleHeap 7))
    ⟨by
      intro e he
      simp only [single, List.mem_singleton] at he
      subst he
      exact ⟨by simp [InHeap, sampleHeap, addr], rfl, by decide⟩, by simp [single]⟩
    ⟨by
      intro e he
      simp only [single, List.mem_singleton] at he
      subst he
      exact ⟨by simp [InHeap, sampleHeap, addr], rfl, by decide⟩, by simp [single]⟩
  have hm : member [sampleHeap 7] (sampleHeap 4) = true := by decide +kernel
  have e : intersect cm (some (single (sampleHeap 4))) (some (single (sampleHeap 7))) =
      some (some (single (sampleHeap 4))) := by
    unfold intersect
    have : (elemsOf (some (single (sampleHeap 4)))).filter
        (fun el => member (elemsOf (some (single (sampleHeap 7)))) el) = [sampleHeap 4] := by
      simp only [elemsOf, single, Option.map_some, Option.getD_some]
      rw [List.filter_cons_of_pos (by exact hm)]; rfl
    rw [this]; rfl
  rw [e] at h1
  obtain rfl := Option.some.inj h1
  have : (sampleHeap 4).strip ∈ SetOp.texts (elemsOf (some (single (sampleHeap 4)))) :=
    ⟨sampleHeap 4, by simp [elemsOf, single], rfl⟩
  rw [h2] at this
  obtain ⟨x, hx, hx'⟩ := this.2
  simp only [single, List.mem_singleton] at hx
  subst hx
  revert hx'
  decide

/-- C32: the intersection is contained in the first set, and has everything that is in both. It may
have more: what is only similar to something in the second set. -/
theorem C32_intersect_partial (cm : Nat → Nat → Bool) (H : Nat → SRef) (s1 s2 : SRefSet)
    (h1 : SetOp.Inv H 25 s1.elems) :
    ∃ s, intersect cm (some s1) (some s2) = some s ∧ FitsO s ∧ ((elemsOf s).map SRef.strip).Nodup ∧
      SetOp.texts (elemsOf s) = SetOp.texts (s1.elems.filter fun e => s2.elems.any fun u => e.similar u) := by
  obtain ⟨s, a, b, c⟩ := insertAll_spec cm
    (s1.elems.filter fun e => s2.elems.any fun u => e.similar u) none trivial
  obtain ⟨e, f⟩ := SetOp.foldl_ins_spec cm (H := H) (d := 25)
    (s1.elems.filter fun e => s2.elems.any fun u => e.similar u) (l := [])
    ⟨by simp, by simp⟩ (fun e he => h1.1 e (List.mem_filter.1 he).1)
  refine ⟨s, a, c, ?_, ?_⟩ <;> rw [b]
  · exact e.2
  · rw [show elemsOf none = [] from rfl, f, SetOp.texts_nil, Set.empty_union]

end Splint
