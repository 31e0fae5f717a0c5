import Verif.Spec.AliasTable
import Verif.Props.SRef
import Verif.Props.SRefSet
/-! # Facts of alias tables -/
namespace Splint
open SRef SRefSet SetOp

theorem exact_comparable (s : SRef) (h : s.every exact = true) : s.every comparable = true := by
  have hh : ∀ s : SRef, exact s = true → comparable s = true := by
    intro s; cases s <;> simp [exact, comparable]
  induction s <;>
    simp_all [every] <;> first | exact hh _ (by assumption) | exact hh _ (And.left (by assumption)) | simp_all [exact, comparable]

/-- A list of paths without repetition. -/
def PathSet (H : Nat → SRef) (l : List SRef) : Prop :=
  (∀ e ∈ l, PathRef H e) ∧ (l.map SRef.strip).Nodup

theorem exists_bound (l : List SRef) : ∃ d, ∀ e ∈ l, e.wraps ≤ d := by
  induction l with
  | nil => exact ⟨0, by simp⟩
  | cons x l ih =>
    obtain ⟨d, h⟩ := ih
    refine ⟨max d x.wraps, ?_⟩
    intro e he
    rcases List.mem_cons.1 he with rfl | he
    · exact Nat.le_max_right _ _
    · exact (h e he).trans (Nat.le_max_left _ _)

theorem good_of_path {H : Nat → SRef} {d : Nat} {e : SRef} (h : PathRef H e) (hd : e.wraps ≤ d) :
    Ok.good H d e := ⟨h.1, exact_comparable e h.2.2, hd⟩

theorem mem_ins {cm : Nat → Nat → Bool} {l : List SRef} {el x : SRef} (h : x ∈ ins cm l el) :
    x ∈ l ∨ x = el := by
  unfold ins at h
  split at h
  · exact Or.inl h
  · simpa using h

theorem ins_path (cm : Nat → Nat → Bool) {H : Nat → SRef} {l : List SRef} {el : SRef}
    (hl : PathSet H l) (he : PathRef H el) :
    PathSet H (ins cm l el) ∧ texts (ins cm l el) = texts l ∪ {el.strip} := by
  obtain ⟨d, hd⟩ := exists_bound (el :: l)
  obtain ⟨h1, h2⟩ := ins_spec cm (H := H) (d := d) (l := l) (el := el)
    ⟨fun e h => good_of_path (hl.1 e h) (hd e (by simp [h])), hl.2⟩ (good_of_path he (hd el (by simp)))
  refine ⟨⟨?_, h1.2⟩, h2⟩
  intro e h
  rcases mem_ins h with h | rfl
  · exact hl.1 e h
  · exact he

theorem foldl_ins_path (cm : Nat → Nat → Bool) {H : Nat → SRef} (xs : List SRef) :
    ∀ {l : List SRef}, PathSet H l → (∀ e ∈ xs, PathRef H e) →
    PathSet H (xs.foldl (ins cm) l) ∧ texts (xs.foldl (ins cm) l) = texts l ∪ texts xs := by
  induction xs with
  | nil => intro l hl _; exact ⟨hl, by rw [texts_nil, Set.union_empty]; rfl⟩
  | cons x xs ih =>
    intro l hl hx
    obtain ⟨h1, h2⟩ := ins_path cm hl (hx x (by simp))
    obtain ⟨h3, h4⟩ := ih h1 (fun e he => hx e (by simp [he]))
    refine ⟨h3, ?_⟩
    rw [List.foldl_cons, h4, h2, Set.union_assoc, ← texts_single, ← texts_append]; rfl

/-- A set of paths. -/
def SetOk (H : Nat → SRef) (s : Option SRefSet) : Prop := FitsO s ∧ PathSet H (elemsOf s)

theorem setOk_none (H : Nat → SRef) : SetOk H none := ⟨trivial, by simp [PathSet, elemsOf]⟩

theorem insertAll_path (cm : Nat → Nat → Bool) {H : Nat → SRef} (xs : List SRef) (s : Option SRefSet)
    (hs : SetOk H s) (hx : ∀ e ∈ xs, PathRef H e) :
    ∃ s', insertAll cm s xs = some s' ∧ SetOk H s' ∧
      texts (elemsOf s') = texts (elemsOf s) ∪ texts xs := by
  obtain ⟨s', h1, h2, h3⟩ := insertAll_spec cm xs s hs.1
  obtain ⟨h4, h5⟩ := foldl_ins_path cm xs hs.2 hx
  exact ⟨s', h1, ⟨h3, h2 ▸ h4⟩, h2 ▸ h5⟩

theorem union_path (cm : Nat → Nat → Bool) {H : Nat → SRef} (s1 s2 : Option SRefSet)
    (h1 : SetOk H s1) (h2 : SetOk H s2) :
    ∃ s', SRefSet.union cm s1 s2 = some s' ∧ SetOk H s' ∧
      texts (elemsOf s') = texts (elemsOf s1) ∪ texts (elemsOf s2) := by
  obtain ⟨s', h3, h4, h5⟩ := union_spec cm s1 s2 h1.1
  refine ⟨s', h3, ?_⟩
  by_cases he : (elemsOf s1).isEmpty = true
  · rw [if_pos he] at h5
    refine ⟨⟨h4, h5 ▸ h2.2⟩, ?_⟩
    rw [h5, List.isEmpty_iff.1 he, texts_nil, Set.empty_union]
  · rw [if_neg he] at h5
    obtain ⟨h6, h7⟩ := foldl_ins_path cm (elemsOf s2) h1.2 h2.2.1
    exact ⟨⟨h4, h5 ▸ h6⟩, h5 ▸ h7⟩

theorem unionExcept_path (cm : Nat → Nat → Bool) {H : Nat → SRef} (s1 s2 : Option SRefSet) (ex : SRef)
    (h1 : SetOk H s1) (h2 : SetOk H s2) (hx : PathRef H ex) :
    ∃ s', SRefSet.unionExcept cm s1 s2 ex = some s' ∧ SetOk H s' ∧
      texts (elemsOf s') = texts (elemsOf s1) ∪ (texts (elemsOf s2) \ {ex.strip}) := by
  obtain ⟨s', h3, h4, h5⟩ := insertAll_path cm ((elemsOf s2).filter fun el => !(el.same ex)) s1 h1
    (fun e he => h2.2.1 e (List.mem_filter.1 he).1)
  refine ⟨s', h3, h4, ?_⟩
  rw [h5, texts_filter _ (fun x => x ≠ ex.strip)]
  · ext x; simp
  · intro e he
    have hp := h2.2.1 e he
    rw [Bool.not_eq_true', ← Bool.not_eq_true, same_iff H e ex hp.1 hx.1 hp.2.2 hx.2.2]

theorem newCopy_path {H : Nat → SRef} (s : Option SRefSet) (h : SetOk H s) :
    SetOk H (newCopy s) ∧ texts (elemsOf (newCopy s)) = texts (elemsOf s) := by
  rw [SetOk, newCopy_elems]
  exact ⟨⟨newCopy_fits s, h.2⟩, rfl⟩

namespace AliasTable

/-- The keys are different paths, and the values are sets of paths. -/
def TableOk (H : Nat → SRef) (t : AliasTable) : Prop :=
  (∀ e ∈ t, PathRef H e.key ∧ SetOk H e.value) ∧ (t.map fun e => e.key.strip).Nodup

/-- The texts recorded for a text. -/
def out (t : AliasTable) (k : SRef) : Set SRef := {v | (k, v) ∈ t.facts}

theorem mem_facts {t : AliasTable} {k v : SRef} :
    (k, v) ∈ t.facts ↔ ∃ e ∈ t, e.key.strip = k ∧ v ∈ texts (elemsOf e.value) := Iff.rfl

theorem lookup_none {H : Nat → SRef} {t : AliasTable} {sr : SRef} (ht : TableOk H t)
    (hs : PathRef H sr) (h : lookupRefs t sr = none) : ∀ e ∈ t, e.key.strip ≠ sr.strip := by
  intro e he heq
  rw [lookupRefs, List.findIdx?_eq_none_iff] at h
  have := h e he
  rw [← Bool.not_eq_true, same_iff H sr e.key hs.1 (ht.1 e he).1.1 hs.2.2 (ht.1 e he).1.2.2] at this
  exact this heq.symm

theorem lookup_some {H : Nat → SRef} {t : AliasTable} {sr : SRef} {i : Nat} (ht : TableOk H t)
    (hs : PathRef H sr) (h : lookupRefs t sr = some i) :
    ∃ e, t[i]? = some e ∧ e ∈ t ∧ e.key.strip = sr.strip := by
  rw [lookupRefs, List.findIdx?_eq_some_iff_getElem] at h
  obtain ⟨h1, h2, _⟩ := h
  have hm : t[i] ∈ t := List.getElem_mem h1
  refine ⟨t[i], List.getElem?_eq_getElem h1, hm, ?_⟩
  exact ((same_iff H sr _ hs.1 (ht.1 _ hm).1.1 hs.2.2 (ht.1 _ hm).1.2.2).1 h2).symm

/-- Different entries have different keys. -/
theorem key_unique {H : Nat → SRef} {t : AliasTable} (ht : TableOk H t) {i j : Nat} {e f : AliasEntry}
    (h1 : t[i]? = some e) (h2 : t[j]? = some f) (h : e.key.strip = f.key.strip) : i = j := by
  have a1 : (t.map fun e => e.key.strip)[i]? = some e.key.strip := by rw [List.getElem?_map, h1]; rfl
  have a2 : (t.map fun e => e.key.strip)[j]? = some e.key.strip := by
    rw [List.getElem?_map, h2, Option.map_some, h]
  have hi : i < (t.map fun e => e.key.strip).length := (List.getElem?_eq_some_iff.1 a1).1
  exact (List.getElem?_inj hi ht.2).1 (a1.trans a2.symm)

theorem valueAt_spec {H : Nat → SRef} {t : AliasTable} {sr : SRef} (ht : TableOk H t)
    (hs : PathRef H sr) :
    SetOk H (valueAt t (lookupRefs t sr)) ∧
      texts (elemsOf (valueAt t (lookupRefs t sr))) = t.out sr.strip := by
  cases h : lookupRefs t sr with
  | none =>
    refine ⟨setOk_none H, ?_⟩
    have := lookup_none ht hs h
    ext v
    simp only [valueAt, elemsOf, Option.map_none, Option.getD_none, texts_nil, Set.mem_empty_iff_false,
      false_iff]
    rintro ⟨e, h1, h2, _⟩
    exact this e h1 h2
  | some i =>
    obtain ⟨e, h1, h2, h3⟩ := lookup_some ht hs h
    simp only [valueAt, h1]
    refine ⟨(ht.1 e h2).2, ?_⟩
    ext v
    constructor
    · intro hv; exact ⟨e, h2, h3, hv⟩
    · rintro ⟨f, h4, h5, h6⟩
      obtain ⟨j, hj⟩ := List.getElem?_of_mem h4
      have := key_unique ht h1 hj (h3.trans h5.symm)
      subst this
      rw [h1] at hj
      obtain rfl := Option.some.inj hj
      exact h6

theorem mapSet_spec (cm : Nat → Nat → Bool) {H : Nat → SRef} (f : SRef → Option SRef)
    (s : Option SRefSet) (hs : SetOk H s)
    (hf : ∀ el p, PathRef H el → f el = some p → PathRef H p) :
    ∃ s', mapSet cm f s = some s' ∧ SetOk H s' ∧
      texts (elemsOf s') = {x | ∃ el ∈ elemsOf s, ∃ p, f el = some p ∧ p.strip = x} := by
  obtain ⟨s', h1, h2, h3⟩ := insertAll_path cm ((elemsOf s).filterMap f) none (setOk_none H) (by
    intro e he
    obtain ⟨el, h4, h5⟩ := List.mem_filterMap.1 he
    exact hf el e (hs.2.1 el h4) h5)
  refine ⟨s', h1, h2, ?_⟩
  rw [h3]
  ext x
  simp only [elemsOf, Option.map_none, Option.getD_none, texts_nil, Set.empty_union]
  constructor
  · rintro ⟨e, he, rfl⟩
    obtain ⟨el, h4, h5⟩ := List.mem_filterMap.1 he
    exact ⟨el, h4, e, h5, rfl⟩
  · rintro ⟨el, h4, p, h5, rfl⟩
    exact ⟨p, List.mem_filterMap.2 ⟨el, h4, h5⟩, rfl⟩

/-- What `aliasTable_canAlias` finds for a path, as a relation between texts. -/
inductive CanText (F : Set (SRef × SRef)) : SRef → SRef → Prop
  | fact {k v} : (k, v) ∈ F → CanText F k v
  | ptr {r v} : CanText F r v → CanText F (.ptr 0 r) (.ptr 0 v)
  | field {r v f} : CanText F r v → CanText F (.field 0 r f) (.field 0 v f)
  | fetch {r v i} : CanText F r v → CanText F (.fetch 0 r (some i)) (.fetch 0 v (some i))

theorem canAlias_spec (env : AliasEnv) (cm : Nat → Nat → Bool) {H : Nat → SRef} {t : AliasTable}
    (ht : TableOk H t) (hf : env.Faithful H) : ∀ (sr : SRef) (n : Nat), PathRef H sr →
    ∃ ss, canAliasLimit env cm t n sr = some ss ∧ SetOk H ss ∧
      (∀ v ∈ texts (elemsOf ss), CanText t.facts sr.strip v) ∧
      (0 < n → ∀ v ∈ t.out sr.strip, v ∈ texts (elemsOf ss)) := by
  intro sr
  induction sr with
  | cvar a l i =>
    intro n hs
    cases n with
    | zero => exact ⟨none, rfl, setOk_none H, by simp [elemsOf, texts_nil], by simp⟩
    | succ n =>
      obtain ⟨h1, h2⟩ := valueAt_spec ht hs
      obtain ⟨h3, h4⟩ := newCopy_path _ h1
      refine ⟨_, rfl, h3, ?_, ?_⟩
      · intro v hv; rw [h4, h2] at hv; exact .fact hv
      · intro _ v hv; rw [h4, h2]; exact hv
  | param a l =>
    intro n hs
    cases n with
    | zero => exact ⟨none, rfl, setOk_none H, by simp [elemsOf, texts_nil], by simp⟩
    | succ n =>
      obtain ⟨h1, h2⟩ := valueAt_spec ht hs
      obtain ⟨h3, h4⟩ := newCopy_path _ h1
      refine ⟨_, rfl, h3, ?_, ?_⟩
      · intro v hv; rw [h4, h2] at hv; exact .fact hv
      · intro _ v hv; rw [h4, h2]; exact hv
  | ptr a r ih =>
    intro n hs
    cases n with
    | zero => exact ⟨none, rfl, setOk_none H, by simp [elemsOf, texts_nil], by simp⟩
    | succ n =>
      have hr : PathRef H r := ⟨hs.1.2, hs.2.1, by
        have := hs.2.2; simp only [every, Bool.and_eq_true] at this; exact this.2⟩
      obtain ⟨tmp, h1, h2, h3, _⟩ := ih n hr
      obtain ⟨ret, h4, h5, h6⟩ := mapSet_spec cm env.pointer tmp h2
        (fun el p he hp => (hf.pointer el p he hp).1)
      obtain ⟨v1, v2⟩ := valueAt_spec ht hs
      obtain ⟨u, h7, h8, h9⟩ := union_path cm ret _ h5 v1
      refine ⟨u, by simp [canAliasLimit, h1, h4, h7], h8, ?_, ?_⟩
      · intro v hv
        rw [h9, v2, h6] at hv
        rcases hv with ⟨el, e1, p, e2, rfl⟩ | hv
        · rw [(hf.pointer el p (h2.2.1 el e1) e2).2]
          exact .ptr (h3 _ ⟨el, e1, rfl⟩)
        · exact .fact hv
      · intro _ v hv; rw [h9, v2]; exact Or.inr hv
  | field a r f ih =>
    intro n hs
    cases n with
    | zero => exact ⟨none, rfl, setOk_none H, by simp [elemsOf, texts_nil], by simp⟩
    | succ n =>
      have hr : PathRef H r := ⟨hs.1.2, hs.2.1, by
        have := hs.2.2; simp only [every, Bool.and_eq_true] at this; exact this.2⟩
      obtain ⟨tmp, h1, h2, h3, _⟩ := ih n hr
      obtain ⟨ret, h4, h5, h6⟩ := mapSet_spec cm (fun el => env.field el f) tmp h2
        (fun el p he hp => (hf.field el f p he hp).1)
      obtain ⟨v1, v2⟩ := valueAt_spec ht hs
      obtain ⟨u, h7, h8, h9⟩ := union_path cm ret _ h5 v1
      refine ⟨u, by simp [canAliasLimit, h1, h4, h7], h8, ?_, ?_⟩
      · intro v hv
        rw [h9, v2, h6] at hv
        rcases hv with ⟨el, e1, p, e2, rfl⟩ | hv
        · rw [(hf.field el f p (h2.2.1 el e1) e2).2]
          exact .field (h3 _ ⟨el, e1, rfl⟩)
        · exact .fact hv
      · intro _ v hv; rw [h9, v2]; exact Or.inr hv
  | fetch a r i ih =>
    intro n hs
    cases n with
    | zero => exact ⟨none, rfl, setOk_none H, by simp [elemsOf, texts_nil], by simp⟩
    | succ n =>
      have he := hs.2.2
      simp only [every, Bool.and_eq_true] at he
      cases i with
      | none => simp [exact] at he
      | some i =>
      have hr : PathRef H r := ⟨hs.1.2, hs.2.1, he.2⟩
      obtain ⟨tmp, h1, h2, h3, _⟩ := ih n hr
      obtain ⟨ret, h4, h5, h6⟩ := mapSet_spec cm (fun el => env.fetch el (some i)) tmp h2
        (fun el p he hp => (hf.fetch el i p he hp).1)
      obtain ⟨v1, v2⟩ := valueAt_spec ht hs
      obtain ⟨u, h7, h8, h9⟩ := union_path cm ret _ h5 v1
      refine ⟨u, by simp [canAliasLimit, h1, h4, h7], h8, ?_, ?_⟩
      · intro v hv
        rw [h9, v2, h6] at hv
        rcases hv with ⟨el, e1, p, e2, rfl⟩ | hv
        · rw [(hf.fetch el i p (h2.2.1 el e1) e2).2]
          exact .fetch (h3 _ ⟨el, e1, rfl⟩)
        · exact .fact hv
      · intro _ v hv; rw [h9, v2]; exact Or.inr hv
  | _ => intro n hs; exact absurd hs.2.1 (by simp [isPath])

/-- What adding an alias does to the facts. -/
theorem addMustAlias_spec (env : AliasEnv) (cm : Nat → Nat → Bool) {H : Nat → SRef} {t : AliasTable}
    (ht : TableOk H t) (hf : env.Faithful H) (sr al : SRef) (hs : PathRef H sr) (ha : PathRef H al) :
    ∃ t' ss, addMustAlias env cm t sr al = some t' ∧ TableOk H t' ∧
      canAlias env cm t al = some ss ∧
      t'.facts = t.facts ∪ {p | p.1 = sr.strip ∧
        (p.2 = al.strip ∨ (p.2 ∈ texts (elemsOf ss) ∧ p.2 ≠ sr.strip))} := by
  obtain ⟨ss, h1, h2, _, _⟩ := canAlias_spec env cm ht hf al searchLimit ha
  unfold addMustAlias
  simp only [canAlias, h1, Option.bind_eq_bind, Option.bind_some]
  cases h : lookupRefs t sr with
  | none =>
    have hn := lookup_none ht hs h
    have hsing : SetOk H (some (single al)) := by
      refine ⟨by simp [FitsO, Fits, single, baseSize], ?_⟩
      simp [PathSet, elemsOf, single, ha]
    obtain ⟨v, h3, h4, h5⟩ := unionExcept_path cm (some (single al)) ss sr hsing h2 hs
    refine ⟨t ++ [⟨sr, v⟩], ss, by simp [h3], ⟨?_, ?_⟩, rfl, ?_⟩
    · intro e he
      rcases List.mem_append.1 he with he | he
      · exact ht.1 e he
      · obtain rfl := List.mem_singleton.1 he; exact ⟨hs, h4⟩
    · rw [List.map_append, List.nodup_append]
      refine ⟨ht.2, by simp, ?_⟩
      intro a ha' b hb hab
      obtain ⟨e, h6, rfl⟩ := List.mem_map.1 ha'
      simp only [List.map_cons, List.map_nil, List.mem_singleton] at hb
      exact hn e h6 (hab.trans hb)
    · ext ⟨k, w⟩
      simp only [mem_facts, Set.mem_union, Set.mem_ofPred_eq]
      have h5 : texts (elemsOf v) = {al.strip} ∪ (texts (elemsOf ss) \ {sr.strip}) := by
        rw [h5]; congr 1; exact texts_single al
      constructor
      · rintro ⟨e, he, rfl, hw⟩
        rcases List.mem_append.1 he with he | he
        · exact Or.inl ⟨e, he, rfl, hw⟩
        · obtain rfl := List.mem_singleton.1 he
          rw [h5] at hw
          exact Or.inr ⟨rfl, hw⟩
      · rintro (⟨e, he, rfl, hw⟩ | ⟨rfl, hw⟩)
        · exact ⟨e, by simp [he], rfl, hw⟩
        · exact ⟨⟨sr, v⟩, by simp, rfl, by rw [h5]; exact hw⟩
  | some i =>
    obtain ⟨e, h3, h4, h5⟩ := lookup_some ht hs h
    have hi : i < t.length := (List.getElem?_eq_some_iff.1 h3).1
    obtain ⟨v1, h6, h7, h8⟩ := insert_spec cm e.value al (ht.1 e h4).2.1
    obtain ⟨h9, h10⟩ := ins_path cm (ht.1 e h4).2.2 ha
    obtain ⟨v, h11, h12, h13⟩ := unionExcept_path cm (some v1) ss e.key ⟨h8, show PathSet H v1.elems by rw [h7]; exact h9⟩ h2 (ht.1 e h4).1
    have h14 : texts (elemsOf v) = texts (elemsOf e.value) ∪ {al.strip} ∪
        (texts (elemsOf ss) \ {sr.strip}) := by
      rw [h13, ← h5, ← h10, ← h7]; rfl
    refine ⟨t.set i ⟨e.key, v⟩, ss, by simp [h3, h6, h11], ⟨?_, ?_⟩, rfl, ?_⟩
    · intro e' he'
      rcases List.mem_or_eq_of_mem_set he' with he' | rfl
      · exact ht.1 e' he'
      · exact ⟨(ht.1 e h4).1, h12⟩
    · have : (t.set i ⟨e.key, v⟩).map (fun e => e.key.strip) = t.map (fun e => e.key.strip) := by
        apply List.ext_getElem?
        intro j
        rw [List.getElem?_map, List.getElem?_map]
        by_cases hj : i = j
        · subst hj; rw [List.getElem?_set_self hi, h3]; rfl
        · rw [List.getElem?_set_ne hj]
      rw [this]; exact ht.2
    · ext ⟨k, w⟩
      simp only [mem_facts, Set.mem_union, Set.mem_ofPred_eq]
      constructor
      · rintro ⟨e', he', rfl, hw⟩
        rcases List.mem_or_eq_of_mem_set he' with he' | rfl
        · exact Or.inl ⟨e', he', rfl, hw⟩
        · rw [h14] at hw
          rcases hw with (hw | hw) | hw
          · exact Or.inl ⟨e, h4, rfl, hw⟩
          · exact Or.inr ⟨h5, Or.inl hw⟩
          · exact Or.inr ⟨h5, Or.inr hw⟩
      · have hnew : (⟨e.key, v⟩ : AliasEntry) ∈ t.set i ⟨e.key, v⟩ := List.mem_set hi _
        rintro (⟨e', he', rfl, hw⟩ | ⟨rfl, hw⟩)
        · obtain ⟨j, hj⟩ := List.getElem?_of_mem he'
          by_cases hij : i = j
          · subst hij
            rw [h3] at hj
            obtain rfl := Option.some.inj hj
            exact ⟨_, hnew, rfl, by rw [h14]; exact Or.inl (Or.inl hw)⟩
          · refine ⟨e', ?_, rfl, hw⟩
            refine List.mem_of_getElem? (i := j) ?_
            rw [List.getElem?_set_ne hij]; exact hj
        · refine ⟨_, hnew, h5, ?_⟩
          rw [h14]
          rcases hw with hw | hw
          · exact Or.inl (Or.inr hw)
          · exact Or.inr hw

/-! ## Clearing -/

theorem containers_strip (s : SRef) : s.strip.containers = s.containers.map SRef.strip := by
  induction s <;> simp_all [strip, containers]

theorem isField_strip (s : SRef) : s.strip.isField = s.isField := by cases s <;> rfl

theorem isPtr_strip (s : SRef) : s.strip.isPtr = s.isPtr := by cases s <;> rfl

theorem path_containers {H : Nat → SRef} (s : SRef) (h : PathRef H s) :
    ∀ u ∈ s.containers, PathRef H u := by
  induction s with
  | cvar | param => intro u hu; simp only [containers, List.mem_singleton] at hu; subst hu; exact h
  | fetch a r i ih =>
    intro u hu
    have := h.2.2
    simp only [every, Bool.and_eq_true] at this
    simp only [containers, List.mem_cons] at hu
    rcases hu with rfl | hu
    · exact h
    · exact ih ⟨h.1.2, h.2.1, this.2⟩ u hu
  | field a r f ih =>
    intro u hu
    have := h.2.2
    simp only [every, Bool.and_eq_true] at this
    simp only [containers, List.mem_cons] at hu
    rcases hu with rfl | hu
    · exact h
    · exact ih ⟨h.1.2, h.2.1, this.2⟩ u hu
  | ptr a r ih =>
    intro u hu
    have := h.2.2
    simp only [every, Bool.and_eq_true] at this
    simp only [containers, List.mem_cons] at hu
    rcases hu with rfl | hu
    · exact h
    · exact ih ⟨h.1.2, h.2.1, this.2⟩ u hu
  | _ => exact absurd h.2.1 (by simp [isPath])

theorem includedBy_killed {H : Nat → SRef} (s t : SRef) (hs : PathRef H s) (ht : PathRef H t) :
    includedBy s t = true ↔ killed s.strip t.strip := by
  have hsame : ∀ u ∈ s.containers, (same u t = true ↔ u.strip = t.strip) := fun u hu =>
    same_iff H u t (path_containers s hs u hu).1 ht.1 (path_containers s hs u hu).2.2 ht.2.2
  have hfind : ∀ p : SRef → Bool, (∀ x, p (strip x) = p x) →
      ((s.containers.find? p).any (fun u => same u t) = true ↔
        (s.containers.map strip).find? p = some t.strip) := by
    intro p hp
    rw [List.find?_map, show p ∘ strip = p from funext hp]
    cases h : s.containers.find? p with
    | none => simp
    | some u =>
      simp only [Option.any_some, Option.map_some, Option.some.injEq]
      exact hsame u (List.mem_of_find?_eq_some h)
  unfold killed
  rw [isField_strip, isPtr_strip, containers_strip]
  by_cases hf : t.isField = true
  · rw [if_pos hf, includedBy_field t ht.2.1 ht.1 hf s hs.2.1 hs.1]
    exact hfind _ isField_strip
  · rw [if_neg hf]
    by_cases hp : t.isPtr = true
    · rw [if_pos hp, includedBy_ptr t ht.2.1 ht.1 hp s hs.2.1 hs.1]
      exact hfind _ isPtr_strip
    · rw [if_neg hp, includedBy_any t ht.2.1 ht.1 ⟨by simpa using hf, by simpa using hp⟩ s hs.2.1 hs.1,
        List.any_eq_true, List.mem_map]
      constructor
      · rintro ⟨u, hu, h⟩; exact ⟨u, hu, (hsame u hu).1 h⟩
      · rintro ⟨u, hu, h⟩; exact ⟨u, hu, (hsame u hu).2 h⟩

theorem clearEntry_spec {H : Nat → SRef} (e : AliasEntry) (sr : SRef) (hk : PathRef H e.key)
    (hv : SetOk H e.value) (hs : PathRef H sr) :
    (clearEntry sr e).key = e.key ∧ SetOk H (clearEntry sr e).value ∧
      ∀ v, v ∈ texts (elemsOf (clearEntry sr e).value) ↔
        v ∈ texts (elemsOf e.value) ∧ ¬ killed e.key.strip sr.strip ∧ ¬ killed v sr.strip := by
  have hkill := includedBy_killed e.key sr hk hs
  unfold clearEntry
  by_cases h : e.key.includedBy sr = true
  · rw [if_pos h]
    refine ⟨rfl, ?_⟩
    have hk := hkill.1 h
    cases hval : e.value with
    | none => exact ⟨setOk_none H, by simp [elemsOf, texts_nil]⟩
    | some s =>
      rw [hval] at hv
      refine ⟨⟨clear_fits s hv.1, by simp [PathSet, elemsOf, SRefSet.clear]⟩, ?_⟩
      intro v
      simp [elemsOf, SRefSet.clear, texts_nil, hk]
  · rw [if_neg h]
    refine ⟨rfl, ?_⟩
    have hk : ¬ killed e.key.strip sr.strip := fun hh => h (hkill.2 hh)
    cases hval : e.value with
    | none => exact ⟨setOk_none H, by simp [elemsOf, texts_nil]⟩
    | some s =>
      rw [hval] at hv
      obtain ⟨h1, _, h3⟩ := C32_deleteBase s sr hv.1
      have h1 : elemsOf (some (s.deleteBase sr).2) = s.elems.filter (fun e => !e.includedBy sr) := h1
      simp only [Option.map_some]
      refine ⟨⟨h3, ?_⟩, ?_⟩
      · rw [h1]
        exact ⟨fun x hx => hv.2.1 x (List.mem_filter.1 hx).1,
          hv.2.2.sublist ((List.filter_sublist).map _)⟩
      · intro v
        rw [h1, texts_filter _ (fun x => ¬ killed x sr.strip)]
        · simp only [Set.mem_ofPred_eq, hk, not_false_iff, true_and]; rfl
        · intro x hx
          rw [Bool.not_eq_true', ← Bool.not_eq_true, includedBy_killed x sr (hv.2.1 x hx) hs]

theorem clearAliasesAux_spec {H : Nat → SRef} {t : AliasTable} (ht : TableOk H t) (sr : SRef)
    (hs : PathRef H sr) :
    TableOk H (clearAliasesAux t sr) ∧
      (clearAliasesAux t sr).facts =
        {p ∈ t.facts | ¬ killed p.1 sr.strip ∧ ¬ killed p.2 sr.strip} := by
  have hc := fun e (he : e ∈ t) => clearEntry_spec e sr (ht.1 e he).1 (ht.1 e he).2 hs
  refine ⟨⟨?_, ?_⟩, ?_⟩
  · intro e' he'
    obtain ⟨e, he, rfl⟩ := List.mem_map.1 he'
    exact ⟨(hc e he).1 ▸ (ht.1 e he).1, (hc e he).2.1⟩
  · have : (clearAliasesAux t sr).map (fun e => e.key.strip) = t.map fun e => e.key.strip := by
      rw [clearAliasesAux, List.map_map]
      exact List.map_congr_left (fun e he => by simp [(hc e he).1])
    rw [this]; exact ht.2
  · ext ⟨k, v⟩
    simp only [Set.mem_ofPred_eq, mem_facts]
    constructor
    · rintro ⟨e', he', rfl, hv⟩
      obtain ⟨e, he, rfl⟩ := List.mem_map.1 he'
      obtain ⟨h1, _, h3⟩ := hc e he
      rw [h1]
      obtain ⟨a, b, c⟩ := (h3 v).1 hv
      exact ⟨⟨e, he, rfl, a⟩, b, c⟩
    · rintro ⟨⟨e, he, rfl, a⟩, b, c⟩
      obtain ⟨h1, _, h3⟩ := hc e he
      exact ⟨clearEntry sr e, List.mem_map.2 ⟨e, he, rfl⟩, by rw [h1], (h3 v).2 ⟨a, b, c⟩⟩

theorem rootBaseAux_base : ∀ (n : Nat) (s r : SRef), s.isPath = true →
    rootBaseAux n s = some r → r = s.base := by
  intro n
  induction n with
  | zero => intro s r _ h; simp [rootBaseAux] at h
  | succ n ih =>
    intro s r hp h
    cases s with
    | cvar | param => simp only [rootBaseAux, Option.some.injEq] at h; exact h.symm
    | fetch a q i => exact ih q r hp h
    | field a q f => exact ih q r hp h
    | ptr a q => exact ih q r hp h
    | _ => simp [isPath] at hp

theorem base_isVar (s : SRef) (h : s.isPath = true) : s.base.isVar = true := by
  induction s <;> simp_all [isPath, base, isVar]

theorem base_path {H : Nat → SRef} (s : SRef) (h : PathRef H s) : PathRef H s.base := by
  apply path_containers s h
  induction s with
  | fetch a r i ih =>
    have := h.2.2
    simp only [every, Bool.and_eq_true] at this
    exact List.mem_cons_of_mem _ (ih ⟨h.1.2, h.2.1, this.2⟩)
  | field a r i ih =>
    have := h.2.2
    simp only [every, Bool.and_eq_true] at this
    exact List.mem_cons_of_mem _ (ih ⟨h.1.2, h.2.1, this.2⟩)
  | ptr a r ih =>
    have := h.2.2
    simp only [every, Bool.and_eq_true] at this
    exact List.mem_cons_of_mem _ (ih ⟨h.1.2, h.2.1, this.2⟩)
  | _ => simp [containers, base]

/-- The references cleared when `sr` is: `sr`, and, if it is reached from a local variable, the same
path from a parameter of the same name. -/
def Clears (env : AliasEnv) (H : Nat → SRef) (sr r : SRef) : Prop :=
  r = sr ∨ (sr.isVar = false ∧ ∃ el, isParam el = true ∧ PathRef H el ∧
    env.sameName el sr.base = true ∧ r = env.fixBase sr el)

theorem clearParams_spec (env : AliasEnv) {H : Nat → SRef} (hf : env.Faithful H) (ind : Nat)
    (sr : SRef) (hs : PathRef H sr) (hv : sr.isVar = false) : ∀ (n i : Nat) (t : AliasTable),
    TableOk H t →
    TableOk H (clearParams env ind sr sr.base n i t) ∧
      (clearParams env ind sr sr.base n i t).facts ⊆ t.facts ∧
      ∀ k v, (k, v) ∈ t.facts →
        (∀ r, Clears env H sr r → ¬ killed k r.strip ∧ ¬ killed v r.strip) →
        (k, v) ∈ (clearParams env ind sr sr.base n i t).facts := by
  intro n
  induction n with
  | zero => intro i t ht; exact ⟨ht, fun _ h => h, fun _ _ h _ => h⟩
  | succ n ih =>
    intro i t ht
    unfold clearParams
    cases hel : (elemsOf (valueAt t (some ind)))[i]? with
    | none => exact ⟨ht, fun _ h => h, fun _ _ h _ => h⟩
    | some el =>
      have hpel : PathRef H el := by
        have hm := List.mem_of_getElem? hel
        simp only [valueAt] at hm
        cases he : t[ind]? with
        | none => rw [he] at hm; simp [elemsOf] at hm
        | some e => rw [he] at hm; exact (ht.1 e (List.mem_of_getElem? he)).2.2.1 el hm
      simp only
      by_cases hc : (isParam el && env.sameName el sr.base) = true
      · rw [if_pos hc]
        rw [Bool.and_eq_true] at hc
        have hfb := hf.fixBase sr el hs hpel
        obtain ⟨h1, h2⟩ := clearAliasesAux_spec ht (env.fixBase sr el) hfb
        obtain ⟨h3, h4, h5⟩ := ih (i + 1) _ h1
        refine ⟨h3, fun p hp => (h2 ▸ h4 hp).1, ?_⟩
        intro k v hkv hk
        refine h5 k v ?_ hk
        rw [h2]
        exact ⟨hkv, hk _ (Or.inr ⟨hv, el, hc.1, hpel, hc.2, rfl⟩)⟩
      · rw [if_neg hc]; exact ih (i + 1) t ht

/-- What clearing does to the facts. -/
theorem clearAliases_spec (env : AliasEnv) {H : Nat → SRef} {t : AliasTable} (ht : TableOk H t)
    (hf : env.Faithful H) (sr : SRef) (hs : PathRef H sr) :
    TableOk H (clearAliases env t sr) ∧
      (clearAliases env t sr).facts ⊆
        {p ∈ t.facts | ¬ killed p.1 sr.strip ∧ ¬ killed p.2 sr.strip} ∧
      ∀ k v, (k, v) ∈ t.facts →
        (∀ r, Clears env H sr r → ¬ killed k r.strip ∧ ¬ killed v r.strip) →
        (k, v) ∈ (clearAliases env t sr).facts := by
  have main : ∀ t', TableOk H t' → t'.facts ⊆ t.facts →
      (∀ k v, (k, v) ∈ t.facts → (∀ r, Clears env H sr r → ¬ killed k r.strip ∧ ¬ killed v r.strip) →
        (k, v) ∈ t'.facts) →
      TableOk H (clearAliasesAux t' sr) ∧
      (clearAliasesAux t' sr).facts ⊆
        {p ∈ t.facts | ¬ killed p.1 sr.strip ∧ ¬ killed p.2 sr.strip} ∧
      ∀ k v, (k, v) ∈ t.facts →
        (∀ r, Clears env H sr r → ¬ killed k r.strip ∧ ¬ killed v r.strip) →
        (k, v) ∈ (clearAliasesAux t' sr).facts := by
    intro t' h1 h2 h3
    obtain ⟨h4, h5⟩ := clearAliasesAux_spec h1 sr hs
    refine ⟨h4, ?_, ?_⟩
    · rw [h5]; intro p hp; exact ⟨h2 hp.1, hp.2⟩
    · intro k v hkv hk
      rw [h5]
      exact ⟨h3 k v hkv hk, hk sr (Or.inl rfl)⟩
  unfold clearAliases
  cases hrb : sr.rootBase with
  | none => exact main t ht (fun _ h => h) (fun _ _ h _ => h)
  | some rb =>
    have hb := rootBaseAux_base 26 sr rb hs.2.1 hrb
    simp only
    by_cases hc : (!isCvar sr && isLocalVar rb) = true
    · rw [if_pos hc]
      cases hl : lookupRefs t rb with
      | none => exact main t ht (fun _ h => h) (fun _ _ h _ => h)
      | some ind =>
        have hv : sr.isVar = false := by
          rw [Bool.and_eq_true] at hc
          subst hb
          cases sr <;> simp_all [isCvar, isLocalVar, isVar, base]
        subst hb
        obtain ⟨h1, h2, h3⟩ := clearParams_spec env hf ind sr hs hv
          (elemsOf (valueAt t (some ind))).length 0 t ht
        exact main _ h1 h2 h3
    · rw [if_neg hc]; exact main t ht (fun _ h => h) (fun _ _ h _ => h)

/-- Clearing a variable: exactly the facts about what is reached through it go. -/
theorem clearAliases_var (env : AliasEnv) {H : Nat → SRef} {t : AliasTable} (ht : TableOk H t)
    (hf : env.Faithful H) (sr : SRef) (hs : PathRef H sr) (hv : sr.isVar = true) :
    TableOk H (clearAliases env t sr) ∧
      (clearAliases env t sr).facts =
        {p ∈ t.facts | sr.strip ∉ p.1.containers ∧ sr.strip ∉ p.2.containers} := by
  obtain ⟨h1, h2, h3⟩ := clearAliases_spec env ht hf sr hs
  have hkill : ∀ x, killed x sr.strip ↔ sr.strip ∈ x.containers := by
    intro x
    unfold killed
    rw [isField_strip, isPtr_strip]
    cases sr <;> simp_all [isVar, isField, isPtr]
  refine ⟨h1, Set.Subset.antisymm ?_ ?_⟩
  · intro p hp
    have := h2 hp
    simp only [Set.mem_ofPred_eq, hkill] at this
    exact this
  · rintro ⟨k, v⟩ ⟨h4, h5⟩
    refine h3 k v h4 ?_
    rintro r (rfl | ⟨h, _⟩)
    · rw [hkill, hkill]; exact h5
    · rw [hv] at h; exact absurd h (by decide)

/-! ## Assignments -/

theorem path_canHaveAlias (s : SRef) (h : s.isPath = true) : canHaveAlias s = true := by
  cases s <;> simp_all [isPath, canHaveAlias]

theorem addForce_spec (env : AliasEnv) (cm : Nat → Nat → Bool) {H : Nat → SRef} {t : AliasTable}
    (ht : TableOk H t) (hf : env.Faithful H) (s al : SRef) (hs : PathRef H s) (ha : PathRef H al) :
    ∃ t', addForce env cm t s al = some t' ∧ TableOk H t' ∧ t.facts ⊆ t'.facts ∧
      (s.strip, al.strip) ∈ t'.facts ∧
      (isLocalVar s = true → isLocalVar al = true → (al.strip, s.strip) ∈ t'.facts) ∧
      ∀ (E : SRef → SRef → Prop), (∀ k v, (k, v) ∈ t.facts → E k v) → E s.strip al.strip →
        E al.strip s.strip → (∀ F, (∀ k v, (k, v) ∈ F → E k v) → ∀ k v, CanText F k v → E k v) →
        (∀ a b c, E a b → E b c → E a c) → ∀ k v, (k, v) ∈ t'.facts → E k v := by
  have hcond : (canHaveAlias s && canHaveAlias al && !addressOfParam env al) = true := by
    rw [path_canHaveAlias s hs.2.1, path_canHaveAlias al ha.2.1]
    cases al with
    | adr => exact absurd ha.2.1 (by simp [isPath])
    | _ => rfl
  unfold addForce
  rw [if_pos hcond]
  obtain ⟨t1, ss1, h1, h2, h3, h4⟩ := addMustAlias_spec env cm ht hf s al hs ha
  have sub1 : t.facts ⊆ t1.facts := by rw [h4]; exact Set.subset_union_left
  have new1 : (s.strip, al.strip) ∈ t1.facts := by rw [h4]; exact Or.inr ⟨rfl, Or.inl rfl⟩
  have sound : ∀ (t t1 : AliasTable) (ss : Option SRefSet) (s al : SRef), TableOk H t → PathRef H al →
      canAlias env cm t al = some ss →
      t1.facts = t.facts ∪ {p | p.1 = s.strip ∧
        (p.2 = al.strip ∨ (p.2 ∈ texts (elemsOf ss) ∧ p.2 ≠ s.strip))} →
      ∀ (E : SRef → SRef → Prop), (∀ k v, (k, v) ∈ t.facts → E k v) → E s.strip al.strip →
        (∀ F, (∀ k v, (k, v) ∈ F → E k v) → ∀ k v, CanText F k v → E k v) →
        (∀ a b c, E a b → E b c → E a c) → ∀ k v, (k, v) ∈ t1.facts → E k v := by
    intro t t1 ss s al ht ha h3 h4 E e1 e2 e3 e4 k v hkv
    rw [h4] at hkv
    rcases hkv with hkv | ⟨hk, hv⟩
    · exact e1 k v hkv
    · simp only at hk hv
      subst hk
      rcases hv with hv | ⟨hv, _⟩
      · rw [hv]; exact e2
      · obtain ⟨ss', g1, _, g3, _⟩ := canAlias_spec env cm ht hf al searchLimit ha
        rw [canAlias, g1] at h3
        obtain rfl := Option.some.inj h3
        exact e4 _ _ _ e2 (e3 _ e1 _ _ (g3 v hv))
  simp only [h1, Option.bind_eq_bind, Option.bind_some]
  by_cases hl : (isLocalVar s && isLocalVar al) = true
  · rw [if_pos hl]
    obtain ⟨t2, ss2, k1, k2, k3, k4⟩ := addMustAlias_spec env cm h2 hf al s ha hs
    have sub2 : t1.facts ⊆ t2.facts := by rw [k4]; exact Set.subset_union_left
    refine ⟨t2, k1, k2, fun _ h => sub2 (sub1 h), sub2 new1, ?_, ?_⟩
    · intro _ _; rw [k4]; exact Or.inr ⟨rfl, Or.inl rfl⟩
    · intro E e1 e2 e2' e3 e4
      exact sound t1 t2 ss2 al s h2 hs k3 k4 E
        (sound t t1 ss1 s al ht ha h3 h4 E e1 e2 e3 e4) e2' e3 e4
  · rw [if_neg hl]
    refine ⟨t1, rfl, h2, sub1, new1, ?_, ?_⟩
    · intro a b; rw [a, b] at hl; exact absurd rfl hl
    · intro E e1 e2 _ e3 e4
      exact sound t t1 ss1 s al ht ha h3 h4 E e1 e2 e3 e4

end AliasTable
end Splint
