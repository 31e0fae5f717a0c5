import Verif.Model.IdSet
import Verif.Props.MultiVal
import Mathlib.Data.List.Nodup
/-!
# C20: access sets, and their part of C16
-/
namespace Splint
open Reader

namespace UIdSet

/-- A set as the program keeps it: no element twice, and the allocation holds the elements and the
free cells. -/
def Ok (s : UIdSet) : Prop :=
  ∀ u, s = some u → u.elems.Nodup ∧ 0 ≤ u.nspace ∧ (u.elems.length : Int) + u.nspace = u.cap

/-- Adding at the end what is not there yet. -/
def ins (acc : List Int) (x : Int) : List Int := if x ∈ acc then acc else acc ++ [x]

theorem member_iff (s : UIdSet) (el : Int) : member s el = true ↔ el ∈ elements s := by
  cases s <;> simp [member, elements]

theorem insert_ok (s : UIdSet) (h : Ok s) (el : Int) :
    ∃ u, insert s el = some u ∧ Ok (some u) ∧ u.elems = ins (elements s) el := by
  have hu : Ok (some (s.getD newEmpty)) ∧ (s.getD newEmpty).elems = elements s := by
    cases s with
    | none => simp [Ok, newEmpty, elements]
    | some u => exact ⟨h, rfl⟩
  obtain ⟨u, e⟩ : ∃ u, u = s.getD newEmpty := ⟨_, rfl⟩
  rw [← e] at hu
  obtain ⟨hok, hel⟩ := hu
  obtain ⟨h1, h2, h3⟩ := hok u rfl
  unfold insert ins
  rw [← e, ← hel]
  by_cases hm : el ∈ u.elems
  · rw [if_pos ((member_iff _ _).2 hm), if_pos hm]
    exact ⟨u, rfl, hok, rfl⟩
  · rw [if_neg (by rw [member_iff]; exact hm), if_neg hm]
    have hn : (u.elems ++ [el]).Nodup := by
      rw [List.nodup_append]
      refine ⟨h1, by simp, ?_⟩
      rintro a ha b hb rfl
      rw [List.mem_singleton] at hb
      exact hm (hb ▸ ha)
    by_cases hs : u.nspace ≤ 0
    · simp only [hs, if_true, grow]
      rw [if_pos (by omega)]
      refine ⟨_, rfl, ?_, rfl⟩
      rintro _ ⟨rfl⟩
      simp only [List.length_append, List.length_singleton]
      exact ⟨hn, by omega, by push_cast; omega⟩
    · simp only [hs, if_false]
      rw [if_pos (by omega)]
      refine ⟨_, rfl, ?_, rfl⟩
      rintro _ ⟨rfl⟩
      simp only [List.length_append, List.length_singleton]
      exact ⟨hn, by omega, by push_cast; omega⟩

theorem insertAll_ok (l : List Int) (t : UIdSet) (h : Ok t) :
    ∃ t', insertAll t l = some t' ∧ Ok t' ∧ elements t' = l.foldl ins (elements t) := by
  induction l generalizing t with
  | nil => exact ⟨t, rfl, h, rfl⟩
  | cons x l ih =>
    obtain ⟨u, h1, h2, h3⟩ := insert_ok t h x
    obtain ⟨t', i1, i2, i3⟩ := ih (some u) h2
    refine ⟨t', by simp [insertAll, h1, i1], i2, ?_⟩
    rw [i3, List.foldl_cons, ← h3]; rfl

theorem foldl_ins (l acc : List Int) (h : l.Nodup) :
    l.foldl ins acc = acc ++ l.filter (fun x => !decide (x ∈ acc)) := by
  induction l generalizing acc with
  | nil => simp
  | cons x l ih =>
    rw [List.nodup_cons] at h
    rw [List.foldl_cons, ih _ h.2]
    unfold ins
    split_ifs with hx
    · simp [hx]
    · simp only [hx, decide_false, Bool.not_false, List.filter_cons_of_pos, List.append_assoc,
        List.singleton_append]
      congr 2
      apply List.filter_congr
      intro y hy
      have : y ≠ x := by rintro rfl; exact h.1 hy
      simp [this]

theorem ok_nodup (s : UIdSet) (h : Ok s) : (elements s).Nodup := by
  cases s with
  | none => simp [elements]
  | some u => exact (h u rfl).1

theorem compareLoop_zero (l m : List Int) : compareLoop l m = 0 ↔ l = m := by
  induction l generalizing m with
  | nil => cases m <;> simp [compareLoop]
  | cons x l ih =>
    cases m with
    | nil => simp [compareLoop]
    | cons y m =>
      simp only [compareLoop]
      split_ifs with h1 h2
      · rw [ih]; simp [h1]
      · simp [h1]
      · simp [h1]

theorem compare_zero (s t : UIdSet) : compare s t = 0 ↔ elements s = elements t := by
  rcases s with _ | a <;> rcases t with _ | b
  · simp [compare, elements]
  · simp only [compare]
    split_ifs with h
    · simp [elements] at h ⊢; exact h
    · simp [elements] at h ⊢; exact h
  · simp only [compare]
    split_ifs with h
    · simp [elements] at h ⊢; exact h
    · simp [elements] at h ⊢; exact h
  · exact compareLoop_zero _ _

theorem add_ok (s : UIdSet) (h : Ok s) (el : Int) (hm : el ∉ elements s) :
    ∃ u, add s el = some u ∧ Ok (some u) ∧ u.elems = elements s ++ [el] := by
  cases s with
  | none =>
    refine ⟨single el, rfl, ?_, rfl⟩
    rintro _ ⟨rfl⟩; simp [single]
  | some u =>
    have hc : Ok (some (copy u)) := by
      rintro _ ⟨rfl⟩
      exact ⟨(h u rfl).1, by simp [copy], by simp [copy]⟩
    obtain ⟨v, h1, h2, h3⟩ := insert_ok (some (copy u)) hc el
    refine ⟨v, ?_, h2, ?_⟩
    · simp only [add]
      rw [if_neg (by rw [member_iff]; exact hm)]
      exact h1
    · rw [h3]
      have : el ∉ elements (some (copy u)) := hm
      unfold ins
      rw [if_neg this]; rfl

theorem removeFresh_ok (s : UIdSet) (h : Ok s) (el : Int) :
    ∃ t, removeFresh s el = some t ∧ Ok t ∧
      elements t = (elements s).filter (fun x => decide (x ≠ el)) := by
  cases s with
  | none => exact ⟨none, rfl, h, rfl⟩
  | some u =>
    have hn : Ok (some newEmpty) := by rintro _ ⟨rfl⟩; simp [newEmpty]
    obtain ⟨t, h1, h2, h3⟩ := insertAll_ok (u.elems.filter (fun x => !(el == x))) (some newEmpty) hn
    refine ⟨t, h1, h2, ?_⟩
    rw [h3, foldl_ins _ _ ((h u rfl).1.filter _)]
    have : elements (some newEmpty) = [] := rfl
    rw [this]
    simp only [List.nil_append, List.not_mem_nil, decide_false, Bool.not_false, List.filter_true,
      elements, Option.map_some, Option.getD_some]
    apply List.filter_congr
    intro x _
    by_cases hx : x = el
    · simp [hx]
    · have : ¬ el = x := fun e => hx e.symm
      simp [hx, this]

theorem subtract_ok (s t : UIdSet) (h : Ok s) :
    ∃ r, subtract s t = some r ∧ Ok r ∧
      elements r = (elements s).filter (fun x => decide (x ∉ elements t)) := by
  obtain ⟨r, h1, h2, h3⟩ := insertAll_ok ((elements s).filter (fun x => !member t x)) none
    (by rintro _ ⟨⟩)
  refine ⟨r, h1, h2, ?_⟩
  rw [h3, foldl_ins _ _ ((ok_nodup s h).filter _)]
  have : elements none = [] := rfl
  rw [this]
  simp only [List.nil_append, List.not_mem_nil, decide_false, Bool.not_false, List.filter_true]
  apply List.filter_congr
  intro x _
  have := member_iff t x
  by_cases hx : x ∈ elements t
  · simp [this.2 hx, hx]
  · simp [hx, show member t x = false by simpa [hx] using this]

theorem union_ok (s t : UIdSet) (hs : Ok s) (ht : Ok t) :
    ∃ r, newUnion s t = some r ∧ Ok r ∧
      elements r = elements s ++ (elements t).filter (fun x => decide (x ∉ elements s)) := by
  obtain ⟨r, h1, h2, h3⟩ := insertAll_ok (elements s) none (by rintro _ ⟨⟩)
  obtain ⟨r', i1, i2, i3⟩ := insertAll_ok (elements t) r h2
  refine ⟨r', by simp [newUnion, h1, i1], i2, ?_⟩
  have e : elements none = [] := rfl
  have h4 : elements r = elements s := by
    rw [h3, foldl_ins _ _ (ok_nodup s hs), e]
    simp
  rw [i3, foldl_ins _ _ (ok_nodup t ht), h4]
  congr 1
  apply List.filter_congr
  intro x _
  simp

end UIdSet

open UIdSet

namespace TisTable

/-- A table as the program keeps it. -/
def Ok (t : TisTable) : Prop :=
  0 ≤ t.free ∧ (t.sets.length : Int) + t.free = t.cap ∧ t.sets[0]? = some none ∧
    ∀ s ∈ t.sets, UIdSet.Ok s

theorem addDirect_ok (t : TisTable) (h : t.Ok) (s : UIdSet) (hs : UIdSet.Ok s) :
    ∃ t', t.addDirect s = some t' ∧ t'.Ok ∧ t'.sets = t.sets ++ [s] := by
  obtain ⟨h1, h2, h3, h4⟩ := h
  have hz : (t.sets ++ [s])[0]? = some none := by
    rw [List.getElem?_append_left]
    · exact h3
    · exact (List.getElem?_eq_some_iff.1 h3).1
  have hall : ∀ x ∈ t.sets ++ [s], UIdSet.Ok x := by
    intro x hx
    rcases List.mem_append.1 hx with hx | hx
    · exact h4 x hx
    · rw [List.mem_singleton] at hx; exact hx ▸ hs
  unfold addDirect
  by_cases hf : t.free = 0
  · simp only [hf, if_true]
    rw [if_pos (by omega)]
    exact ⟨_, rfl, ⟨by simp, by simp; omega, hz, hall⟩, rfl⟩
  · simp only [hf, if_false]
    rw [if_pos (by omega)]
    exact ⟨_, rfl, ⟨by simp; omega, by simp; omega, hz, hall⟩, rfl⟩

theorem addEntry_ok (t : TisTable) (h : t.Ok) (s : UIdSet) (hs : UIdSet.Ok s) :
    ∃ t' i u, t.addEntry s = some (t', i) ∧ t'.Ok ∧ (∃ l, t'.sets = t.sets ++ l) ∧
      t'.sets[i]? = some u ∧ elements u = elements s ∧
      ((t.sets.map elements).Nodup → (t'.sets.map elements).Nodup) := by
  unfold addEntry
  cases hf : t.sets.findIdx? (fun u => UIdSet.compare u s == 0) with
  | some i =>
    rw [List.findIdx?_eq_some_iff_getElem] at hf
    obtain ⟨hi, hc, -⟩ := hf
    refine ⟨t, i, t.sets[i], rfl, h, ⟨[], by simp⟩, by simp [hi], ?_, id⟩
    exact (compare_zero _ _).1 (by simpa using hc)
  | none =>
    rw [List.findIdx?_eq_none_iff] at hf
    obtain ⟨t', h1, h2, h3⟩ := addDirect_ok t h s hs
    refine ⟨t', t'.sets.length - 1, s, by simp [h1], h2, ⟨[s], h3⟩, by simp [h3], rfl, ?_⟩
    intro hn
    rw [h3, List.map_append, List.nodup_append]
    refine ⟨hn, by simp, ?_⟩
    intro a ha b hb e
    simp only [List.map_cons, List.map_nil, List.mem_singleton] at hb
    obtain ⟨u, hu, rfl⟩ := List.mem_map.1 ha
    have := hf u hu
    simp only [beq_eq_false_iff_ne, ne_eq] at this
    exact this ((compare_zero u s).2 (by rw [e, hb]))

end TisTable

/-! ## Histories -/

/-- An operation on access sets; the sets made so far are referred to by number. -/
inductive AccOp where
  | single (el : Int)
  | singleOpt (el : Int)
  | insert (i : Nat) (el : Int)
  | remove (i : Nat) (el : Int)
  | subtract (i j : Nat)
  | union (i j : Nat)

namespace AccOp

/-- The operation refers to sets that exist. -/
def wf (n : Nat) : AccOp → Prop
  | single _ => True
  | singleOpt _ => True
  | insert i _ => i < n
  | remove i _ => i < n
  | subtract i j => i < n ∧ j < n
  | union i j => i < n ∧ j < n

/-- Specification: the set the operation describes. -/
def meaning (sets : Nat → Set Int) : AccOp → Set Int
  | single el => {el}
  | singleOpt el => {x | x = el ∧ el ≠ -17}
  | insert i el => {x | x ∈ sets i ∨ x = el}
  | remove i el => {x | x ∈ sets i ∧ x ≠ el}
  | subtract i j => {x | x ∈ sets i ∧ x ∉ sets j}
  | union i j => {x | x ∈ sets i ∨ x ∈ sets j}

/-- Specification: the order in which the members were added. -/
def order (sets : Nat → List Int) : AccOp → List Int
  | single el => [el]
  | singleOpt el => if el = -17 then [] else [el]
  | insert i el => if el ∈ sets i then sets i else sets i ++ [el]
  | remove i el => (sets i).filter (fun x => decide (x ≠ el))
  | subtract i j => (sets i).filter (fun x => decide (x ∉ sets j))
  | union i j => sets i ++ (sets j).filter (fun x => decide (x ∉ sets i))

/-- The program's function for the operation, on the identifiers the sets have. -/
def exec (t : TisTable) (ids : Nat → Nat) : AccOp → Option (TisTable × Nat)
  | single el => t.single el
  | singleOpt el => t.singleOpt el
  | insert i el => t.insert (ids i) el
  | remove i el => t.removeFresh (ids i) el
  | subtract i j => t.subtract (ids i) (ids j)
  | union i j => t.union (ids i) (ids j)

end AccOp

/-- Extends a numbering of `n` things by one more. -/
def snoc {α : Type} (f : Nat → α) (n : Nat) (x : α) : Nat → α := fun k => if k = n then x else f k

/-- A history all of whose references exist. -/
def HistoryWf : Nat → List AccOp → Prop
  | _, [] => True
  | n, o :: os => o.wf n ∧ HistoryWf (n + 1) os

/-- Specification of a history: the sets made, in order. -/
def meanings : Nat → (Nat → Set Int) → List AccOp → Nat → Set Int
  | _, sets, [] => sets
  | n, sets, o :: os => meanings (n + 1) (snoc sets n (o.meaning sets)) os

/-- The same with the order of the members. -/
def orders : Nat → (Nat → List Int) → List AccOp → Nat → List Int
  | _, sets, [] => sets
  | n, sets, o :: os => orders (n + 1) (snoc sets n (o.order sets)) os

/-- Running a history. -/
def runHistory : Nat → TisTable → (Nat → Nat) → List AccOp → Option (TisTable × (Nat → Nat))
  | _, t, ids, [] => some (t, ids)
  | n, t, ids, o :: os => do
    let (t, i) ← o.exec t ids
    runHistory (n + 1) t (snoc ids n i) os

/-- Identifier `ids k` stands for the list `ords k`, for the first `n` numbers. -/
def Stands (t : TisTable) (n : Nat) (ids : Nat → Nat) (ords : Nat → List Int) : Prop :=
  ∀ k, k < n → ∃ u, t.sets[ids k]? = some u ∧ elements u = ords k

theorem exec_ok (t : TisTable) (h : t.Ok) (n : Nat) (ids : Nat → Nat) (ords : Nat → List Int)
    (hs : Stands t n ids ords) (o : AccOp) (ho : o.wf n) :
    ∃ t' i u, o.exec t ids = some (t', i) ∧ t'.Ok ∧ (∃ l, t'.sets = t.sets ++ l) ∧
      t'.sets[i]? = some u ∧ elements u = o.order ords ∧
      ((t.sets.map elements).Nodup → (t'.sets.map elements).Nodup) := by
  have okOf : ∀ i u, t.sets[i]? = some u → UIdSet.Ok u :=
    fun i u hu => h.2.2.2 u (List.mem_of_getElem? hu)
  have zero : ∀ k u, ids k = 0 → t.sets[ids k]? = some u → elements u = [] := by
    intro k u hk hu
    rw [hk, h.2.2.1] at hu
    cases hu; rfl
  have hsingle : ∀ el, UIdSet.Ok (some (UIdSet.single el)) := by
    rintro el _ ⟨rfl⟩; simp [UIdSet.single]
  cases o with
  | single el => exact TisTable.addEntry_ok t h _ (hsingle el)
  | singleOpt el =>
    by_cases he : el = -17
    · refine ⟨t, 0, none, by simp [AccOp.exec, TisTable.singleOpt, he, invalidId], h, ⟨[], by simp⟩,
        h.2.2.1, by simp [AccOp.order, he, elements], id⟩
    · obtain ⟨t', i, u, h1, h2, h3, h4, h5, h6⟩ := TisTable.addEntry_ok t h _ (hsingle el)
      refine ⟨t', i, u, ?_, h2, h3, h4, ?_, h6⟩
      · simp only [AccOp.exec, TisTable.singleOpt, invalidId, ne_eq, he, not_false_eq_true, if_true]
        exact h1
      · rw [h5]; simp [AccOp.order, he, elements, UIdSet.single]
  | insert k el =>
    obtain ⟨u, hu, hel⟩ := hs k ho
    by_cases hm : el ∈ ords k
    · refine ⟨t, ids k, u, ?_, h, ⟨[], by simp⟩, hu, by simp [AccOp.order, hm, hel], id⟩
      simp only [AccOp.exec, TisTable.insert, TisTable.fetch, hu, Option.bind_eq_bind,
        Option.bind_some]
      rw [if_pos ((member_iff _ _).2 (hel ▸ hm))]
    · obtain ⟨v, a1, a2, a3⟩ := add_ok u (okOf _ _ hu) el (hel ▸ hm)
      obtain ⟨t', i, w, h1, h2, h3, h4, h5, h6⟩ := TisTable.addEntry_ok t h _ a2
      refine ⟨t', i, w, ?_, h2, h3, h4, ?_, h6⟩
      · simp only [AccOp.exec, TisTable.insert, TisTable.fetch, hu, Option.bind_eq_bind,
          Option.bind_some]
        rw [if_neg (by rw [member_iff, hel]; exact hm), a1]
        exact h1
      · rw [h5]
        simp only [AccOp.order, hm, if_false, elements, Option.map_some, Option.getD_some, a3]
        simp only [elements] at hel
        rw [hel]
  | remove k el =>
    obtain ⟨u, hu, hel⟩ := hs k ho
    obtain ⟨v, a1, a2, a3⟩ := removeFresh_ok u (okOf _ _ hu) el
    obtain ⟨t', i, w, h1, h2, h3, h4, h5, h6⟩ := TisTable.addEntry_ok t h _ a2
    refine ⟨t', i, w, ?_, h2, h3, h4, ?_, h6⟩
    · simp only [AccOp.exec, TisTable.removeFresh, TisTable.fetch, hu, Option.bind_eq_bind,
        Option.bind_some, a1]
      exact h1
    · rw [h5, a3, hel]; rfl
  | subtract k l =>
    obtain ⟨u, hu, hel⟩ := hs k ho.1
    obtain ⟨v, hv, hev⟩ := hs l ho.2
    by_cases hz : ids l = 0
    · refine ⟨t, ids k, u, by simp [AccOp.exec, TisTable.subtract, hz], h, ⟨[], by simp⟩, hu, ?_, id⟩
      have := zero l v hz hv
      rw [hev] at this
      simp [AccOp.order, this, hel]
    · obtain ⟨r, a1, a2, a3⟩ := subtract_ok u v (okOf _ _ hu)
      obtain ⟨t', i, w, h1, h2, h3, h4, h5, h6⟩ := TisTable.addEntry_ok t h _ a2
      refine ⟨t', i, w, ?_, h2, h3, h4, ?_, h6⟩
      · simp only [AccOp.exec, TisTable.subtract, hz, if_false, TisTable.fetch, hu, hv,
          Option.bind_eq_bind, Option.bind_some, a1]
        exact h1
      · rw [h5, a3, hel, hev]; rfl
  | union k l =>
    obtain ⟨u, hu, hel⟩ := hs k ho.1
    obtain ⟨v, hv, hev⟩ := hs l ho.2
    by_cases hy : ids k = 0
    · refine ⟨t, ids l, v, by simp [AccOp.exec, TisTable.union, hy], h, ⟨[], by simp⟩, hv, ?_, id⟩
      have := zero k u hy hu
      rw [hel] at this
      simp [AccOp.order, this, hev]
    · by_cases hz : ids l = 0
      · refine ⟨t, ids k, u, by simp [AccOp.exec, TisTable.union, hy, hz], h, ⟨[], by simp⟩, hu, ?_,
          id⟩
        have := zero l v hz hv
        rw [hev] at this
        simp [AccOp.order, this, hel]
      · obtain ⟨r, a1, a2, a3⟩ := union_ok u v (okOf _ _ hu) (okOf _ _ hv)
        obtain ⟨t', i, w, h1, h2, h3, h4, h5, h6⟩ := TisTable.addEntry_ok t h _ a2
        refine ⟨t', i, w, ?_, h2, h3, h4, ?_, h6⟩
        · simp only [AccOp.exec, TisTable.union, hy, hz, if_false, TisTable.fetch, hu, hv,
            Option.bind_eq_bind, Option.bind_some, a1]
          exact h1
        · rw [h5, a3, hel, hev]; rfl

theorem history_ok (os : List AccOp) (t : TisTable) (h : t.Ok) (n : Nat) (ids : Nat → Nat)
    (ords : Nat → List Int) (hs : Stands t n ids ords) (hw : HistoryWf n os) :
    ∃ t' ids', runHistory n t ids os = some (t', ids') ∧ t'.Ok ∧
      Stands t' (n + os.length) ids' (orders n ords os) ∧
      ((t.sets.map elements).Nodup → (t'.sets.map elements).Nodup) := by
  induction os generalizing t n ids ords with
  | nil => exact ⟨t, ids, rfl, h, hs, id⟩
  | cons o os ih =>
    obtain ⟨t1, i, u, e1, e2, ⟨l, e3⟩, e4, e5, e6⟩ := exec_ok t h n ids ords hs o hw.1
    have hs' : Stands t1 (n + 1) (snoc ids n i) (snoc ords n (o.order ords)) := by
      intro k hk
      by_cases hkn : k = n
      · exact ⟨u, by simp [snoc, hkn, e4], by simp [snoc, hkn, e5]⟩
      · obtain ⟨v, v1, v2⟩ := hs k (by omega)
        refine ⟨v, ?_, by simp [snoc, hkn, v2]⟩
        simp only [snoc, hkn, if_false, e3]
        rw [List.getElem?_append_left (List.getElem?_eq_some_iff.1 v1).1]
        exact v1
    obtain ⟨t2, ids2, f1, f2, f3, f4⟩ := ih t1 e2 (n + 1) _ _ hs' hw.2
    refine ⟨t2, ids2, by simp [runHistory, e1, f1], f2, ?_, fun hn => f4 (e6 hn)⟩
    rw [show n + (o :: os).length = n + 1 + os.length by simp; omega]
    exact f3

theorem order_mem (sets : Nat → Set Int) (ords : Nat → List Int) (n : Nat)
    (h : ∀ k, k < n → ∀ x, x ∈ ords k ↔ x ∈ sets k) (o : AccOp) (ho : o.wf n) (x : Int) :
    x ∈ o.order ords ↔ x ∈ o.meaning sets := by
  cases o with
  | single el => simp [AccOp.order, AccOp.meaning]
  | singleOpt el =>
    by_cases he : el = -17 <;> simp [AccOp.order, AccOp.meaning, he]
  | insert k el =>
    simp only [AccOp.order, AccOp.meaning, Set.mem_ofPred_eq, ← h k ho]
    split_ifs with hm
    · constructor
      · exact .inl
      · rintro (hx | rfl)
        · exact hx
        · exact hm
    · simp
  | remove k el => simp [AccOp.order, AccOp.meaning, ← h k ho]
  | subtract k l => simp [AccOp.order, AccOp.meaning, ← h k ho.1, ← h l ho.2]
  | union k l =>
    simp only [AccOp.order, AccOp.meaning, Set.mem_ofPred_eq, ← h k ho.1, ← h l ho.2,
      List.mem_append, List.mem_filter, decide_eq_true_eq]
    tauto

theorem orders_mem (os : List AccOp) (n : Nat) (sets : Nat → Set Int) (ords : Nat → List Int)
    (h : ∀ k, k < n → ∀ x, x ∈ ords k ↔ x ∈ sets k) (hw : HistoryWf n os) :
    ∀ k, k < n + os.length → ∀ x, x ∈ orders n ords os k ↔ x ∈ meanings n sets os k := by
  induction os generalizing n sets ords with
  | nil => exact h
  | cons o os ih =>
    have := ih (n + 1) (snoc sets n (o.meaning sets)) (snoc ords n (o.order ords)) (by
      intro k hk x
      by_cases hkn : k = n
      · simp only [snoc, hkn, if_true]; exact order_mem sets ords n h o hw.1 x
      · simp only [snoc, hkn, if_false]; exact h k (by omega) x) hw.2
    intro k hk
    exact this k (by simp at hk; omega)

/-- Running a history from the start of the program; number 0 is the empty set. -/
def runFromStart (os : List AccOp) : Option (TisTable × (Nat → Nat)) :=
  runHistory 1 TisTable.init (fun _ => 0) os

/-- Its specification. -/
def setsFromStart (os : List AccOp) : Nat → Set Int := meanings 1 (fun _ => ∅) os

/-- The order of the members. -/
def ordersFromStart (os : List AccOp) : Nat → List Int := orders 1 (fun _ => []) os

theorem init_ok : TisTable.init.Ok := by
  refine ⟨by decide, by decide, rfl, ?_⟩
  intro s hs
  simp only [TisTable.init, List.mem_singleton] at hs
  subst hs
  rintro _ ⟨⟩

/-- C20, in full: after any history every identifier has the expected members, and sets with the
same members have the same identifier. -/
def C20_full : Prop :=
  ∀ os, HistoryWf 1 os → ∃ t ids, runFromStart os = some (t, ids) ∧
    (∀ k, k ≤ os.length → ∀ x, ∃ b, t.member (ids k) x = some b ∧
      (b = true ↔ x ∈ setsFromStart os k)) ∧
    ∀ j k, j ≤ os.length → k ≤ os.length → (ids j = ids k ↔ setsFromStart os j = setsFromStart os k)

/-- C20, members: no history fails, and afterwards the identifier of every set made in it, early
or late, has exactly the members the operations describe. -/
theorem C20_members (os : List AccOp) (hw : HistoryWf 1 os) :
    ∃ t ids, runFromStart os = some (t, ids) ∧
      ∀ k, k ≤ os.length → ∀ x, ∃ b, t.member (ids k) x = some b ∧
        (b = true ↔ x ∈ setsFromStart os k) := by
  obtain ⟨t, ids, h1, h2, h3, -⟩ := history_ok os TisTable.init init_ok 1 (fun _ => 0) (fun _ => [])
    (by intro k hk; exact ⟨none, rfl, rfl⟩) hw
  refine ⟨t, ids, h1, ?_⟩
  intro k hk x
  obtain ⟨u, hu, hel⟩ := h3 k (by omega)
  refine ⟨UIdSet.member u x, by simp [TisTable.member, TisTable.fetch, hu], ?_⟩
  rw [member_iff, hel]
  exact orders_mem os 1 (fun _ => ∅) (fun _ => []) (by simp) hw k (by omega) x

theorem nodup_inj {t : TisTable} (hn : (t.sets.map elements).Nodup) {i j : Nat} {u v : UIdSet}
    (hu : t.sets[i]? = some u) (hv : t.sets[j]? = some v) : i = j ↔ elements u = elements v := by
  constructor
  · rintro rfl
    rw [hu] at hv; cases hv; rfl
  · intro e
    obtain ⟨hi, hi'⟩ := List.getElem?_eq_some_iff.1 hu
    obtain ⟨hj, hj'⟩ := List.getElem?_eq_some_iff.1 hv
    have := (List.Nodup.getElem_inj_iff hn (i := i) (j := j) (hi := by simpa using hi)
      (hj := by simpa using hj)).1 (by simp [hi', hj', e])
    exact this

/-- C20, identifiers: two sets have the same identifier exactly when their members were added in
the same order. Missing for the full claim: the order should not matter. -/
theorem C20_identifiers_partial (os : List AccOp) (hw : HistoryWf 1 os) :
    ∃ t ids, runFromStart os = some (t, ids) ∧
      ∀ j k, j ≤ os.length → k ≤ os.length →
        (ids j = ids k ↔ ordersFromStart os j = ordersFromStart os k) := by
  obtain ⟨t, ids, h1, h2, h3, h4⟩ := history_ok os TisTable.init init_ok 1 (fun _ => 0)
    (fun _ => []) (by intro k hk; exact ⟨none, rfl, rfl⟩) hw
  refine ⟨t, ids, h1, ?_⟩
  intro j k hj hk
  obtain ⟨u, hu, hel⟩ := h3 j (by omega)
  obtain ⟨v, hv, hev⟩ := h3 k (by omega)
  rw [nodup_inj (h4 (by decide)) hu hv, hel, hev]; rfl

theorem orders_sets (os : List AccOp) (hw : HistoryWf 1 os) (k : Nat) (hk : k ≤ os.length) (x : Int) :
    x ∈ ordersFromStart os k ↔ x ∈ setsFromStart os k :=
  orders_mem os 1 (fun _ => ∅) (fun _ => []) (by simp) hw k (by omega) x

/-- C20: the same identifier never stands for two different sets. -/
theorem C20_same_id_same_members (os : List AccOp) (hw : HistoryWf 1 os) (t : TisTable)
    (ids : Nat → Nat) (hr : runFromStart os = some (t, ids)) (j k : Nat) (hj : j ≤ os.length)
    (hk : k ≤ os.length) (h : ids j = ids k) : setsFromStart os j = setsFromStart os k := by
  obtain ⟨t', ids', h1, h2⟩ := C20_identifiers_partial os hw
  rw [hr] at h1; cases h1
  ext x
  rw [← orders_sets os hw j hj, ← orders_sets os hw k hk, (h2 j k hj hk).1 h]

/-- C20: sets with at most one member are canonical; in particular the empty set always has
identifier 0. -/
theorem C20_small (os : List AccOp) (hw : HistoryWf 1 os) (t : TisTable)
    (ids : Nat → Nat) (hr : runFromStart os = some (t, ids)) (j k : Nat) (hj : j ≤ os.length)
    (hk : k ≤ os.length) (h : setsFromStart os j = setsFromStart os k)
    (hs : ∀ x ∈ setsFromStart os j, ∀ y ∈ setsFromStart os j, x = y) : ids j = ids k := by
  have nd : ∀ i, i ≤ os.length → (ordersFromStart os i).Nodup := by
    obtain ⟨t', ids', h1, h2, h3, h4⟩ := history_ok os TisTable.init init_ok 1 (fun _ => 0)
      (fun _ => []) (by intro k hk; exact ⟨none, rfl, rfl⟩) hw
    intro i hi
    obtain ⟨u, hu, hel⟩ := h3 i (by omega)
    have := ok_nodup u (h2.2.2.2 u (List.mem_of_getElem? hu))
    rw [hel] at this; exact this
  obtain ⟨t', ids', h1, h2⟩ := C20_identifiers_partial os hw
  rw [hr] at h1; cases h1
  rw [h2 j k hj hk]
  have key : ∀ l m : List Int, l.Nodup → m.Nodup → (∀ x, x ∈ l ↔ x ∈ m) →
      (∀ x ∈ l, ∀ y ∈ l, x = y) → l = m := by
    intro l m hl hm he hu
    match l, m with
    | [], [] => rfl
    | [], b :: m => exact absurd ((he b).2 (by simp)) (by simp)
    | a :: l, [] => exact absurd ((he a).1 (by simp)) (by simp)
    | [a], [b] => have := (he a).1 (by simp); simp at this; rw [this]
    | a :: a' :: l, _ =>
      have := hu a (by simp) a' (by simp)
      simp [this] at hl
    | [a], b :: b' :: m =>
      have h1 := (he b).2 (by simp)
      have h2 := (he b').2 (by simp)
      simp at h1 h2
      simp [h1, h2] at hm
  refine key _ _ (nd j hj) (nd k hk) ?_ ?_
  · intro x
    rw [orders_sets os hw j hj, orders_sets os hw k hk, h]
  · intro x hx y hy
    exact hs x ((orders_sets os hw j hj x).1 hx) y ((orders_sets os hw j hj y).1 hy)

/-- Making {1, 2} and {2, 1}. -/
def twoOrders : List AccOp := [.insert 0 1, .insert 1 2, .insert 0 2, .insert 3 1]

/-- Adding 1 and then 2 gives another identifier than adding 2 and then 1. -/
theorem C20_full_is_false : ¬ C20_full := by
  intro h
  have hw : HistoryWf 1 twoOrders := by simp [twoOrders, HistoryWf, AccOp.wf]
  obtain ⟨t, ids, h1, -, h2⟩ := h twoOrders hw
  obtain ⟨t', ids', h3, h4⟩ := C20_identifiers_partial twoOrders hw
  rw [h1] at h3; cases h3
  have e : setsFromStart twoOrders 2 = setsFromStart twoOrders 4 := by
    ext x
    rw [← orders_sets _ hw 2 (by decide), ← orders_sets _ hw 4 (by decide)]
    have e1 : ordersFromStart twoOrders 2 = [1, 2] := by decide
    have e2 : ordersFromStart twoOrders 4 = [2, 1] := by decide
    rw [e1, e2]; simp; tauto
  have := (h4 2 4 (by decide) (by decide)).1 ((h2 2 4 (by decide) (by decide)).2 e)
  exact absurd this (by decide)

example : HistoryWf 1 [.insert 0 5, .union 1 0, .remove 2 5, .subtract 1 3] := by
  simp [HistoryWf, AccOp.wf]
/-- The set that became empty has identifier 0 again, and the two copies of {5} share theirs. -/
example : (runFromStart [.insert 0 5, .union 1 0, .remove 2 5, .subtract 1 3]).map
    (fun p => (p.2 1, p.2 2, p.2 3, p.2 4)) = some (1, 1, 0, 1) := by decide +kernel

/-- C20 when the history starts from a table loaded from a library: every set of the table and
every set made later has exactly the expected members. -/
theorem C20_members_loaded (t0 : TisTable) (h0 : t0.Ok) (os : List AccOp)
    (hw : HistoryWf t0.sets.length os) :
    ∃ t ids, runHistory t0.sets.length t0 id os = some (t, ids) ∧
      ∀ k, k < t0.sets.length + os.length → ∀ x, ∃ b, t.member (ids k) x = some b ∧
        (b = true ↔ x ∈ meanings t0.sets.length (fun k => {x | t0.member k x = some true}) os k) := by
  obtain ⟨t, ids, h1, h2, h3, -⟩ := history_ok os t0 h0 t0.sets.length id
    (fun k => elements ((t0.sets[k]?).getD none)) (by
      intro k hk
      exact ⟨t0.sets[k], by simp [hk], by simp [hk]⟩) hw
  refine ⟨t, ids, h1, ?_⟩
  intro k hk x
  obtain ⟨u, hu, hel⟩ := h3 k hk
  refine ⟨UIdSet.member u x, by simp [TisTable.member, TisTable.fetch, hu], ?_⟩
  rw [member_iff, hel]
  refine orders_mem os _ _ _ ?_ hw k hk x
  intro k hk x
  simp [TisTable.member, TisTable.fetch, hk, member_iff]

theorem compareLoop_opposite (l m : List Int) : compareLoop m l = -compareLoop l m := by
  induction l generalizing m with
  | nil => cases m <;> rfl
  | cons x l ih =>
    cases m with
    | nil => rfl
    | cons y m =>
      simp only [compareLoop]
      rcases Int.lt_trichotomy x y with h | h | h
      · rw [if_neg (by omega), if_pos (by omega), if_neg (by omega), if_neg (by omega)]; rfl
      · rw [if_pos h.symm, if_pos h]; exact ih m
      · rw [if_neg (by omega), if_neg (by omega), if_neg (by omega), if_pos (by omega)]

/-- C18 for access sets: consistent, except between the undefined set and a set with members. -/
theorem C18_sets_partial (s t : UIdSet) :
    Opposite UIdSet.compare s t ↔
      ¬ (s = none ∧ (∃ x, UIdSet.member t x = true) ∨ t = none ∧ ∃ x, UIdSet.member s x = true) := by
  have ex : ∀ u : UIdSet, (∃ x, UIdSet.member u x = true) ↔ elements u ≠ [] := by
    intro u
    simp only [member_iff]
    exact ⟨fun ⟨x, hx⟩ h => by simp [h] at hx, fun h => List.exists_mem_of_ne_nil _ h⟩
  rw [ex, ex]
  rcases s with _ | a <;> rcases t with _ | b
  · simp [Opposite, UIdSet.compare, elements]
  · by_cases h : b.elems = [] <;> simp [Opposite, UIdSet.compare, elements, h]
  · by_cases h : a.elems = [] <;> simp [Opposite, UIdSet.compare, elements, h]
  · simpa [Opposite, UIdSet.compare] using compareLoop_opposite a.elems b.elems

example : UIdSet.compare none (some ⟨[1], 3, 4⟩) = 1 ∧ UIdSet.compare (some ⟨[1], 3, 4⟩) none = 1 :=
  ⟨rfl, rfl⟩

/-! ## Libraries -/

/-- What may follow a set in a library. -/
def EndsSet (r : List Char) : Prop := ∀ c cs, r = c :: cs → c = '@' ∨ c = '#' ∨ c = '\n'

theorem endsSet_stops {r : List Char} (h : EndsSet r) : Stops r := by
  intro c cs e
  rcases h c cs e with rfl | rfl | rfl <;> decide

theorem undumpLoop_end (f : Nat) (r : List Char) (h : EndsSet r) (o : Nat) (t : UIdSet) :
    undumpLoop (f + 1) r o t = some (t, r) := by
  cases r with
  | nil => rfl
  | cons c cs =>
    have : endsSet c = true := by
      rcases h c cs rfl with rfl | rfl | rfl <;> rfl
    simp [undumpLoop, this]

theorem digits_decimal_append (n : Nat) (hn : n < 2 ^ 31) (r : List Char) (hr : Stops r) :
    digits 0 true (decimal n ++ r) = some ((n : Int), true, r) := by
  rw [digits_append _ _ _ _ (decimal_digits n), digits_decimal n (by omega) true]
  simpa using digits_stops _ r hr

theorem undumpLoop_number (f n : Nat) (hn : n < 2 ^ 31) (r : List Char) (hr : Stops r) (o : Nat)
    (ho : (decimal n ++ r).length ≤ o) (t : UIdSet) (ht : UIdSet.Ok t) :
    ∃ u, UIdSet.insert t (n : Int) = some u ∧ UIdSet.Ok (some u) ∧
      u.elems = ins (elements t) (n : Int) ∧
      undumpLoop (f + 1) (decimal n ++ r) o t = undumpLoop f r r.length (some u) := by
  obtain ⟨u, h1, h2, h3⟩ := UIdSet.insert_ok t ht (n : Int)
  refine ⟨u, h1, h2, h3, ?_⟩
  obtain ⟨d, q, e, hd, -⟩ := decimal_cons n
  have key := digits_decimal_append n hn r hr
  rw [e] at key ho ⊢
  simp only [List.cons_append] at key ho ⊢
  have hl : r.length ≠ o := by simp at ho; omega
  have hd' : endsSet (digit d) = false ∧ digit d ≠ ',' := by
    interval_cases d <;> decide
  simp only [undumpLoop, hd'.1, hd'.2, if_false, Bool.false_eq_true, key, Option.bind_eq_bind,
    Option.bind_some, hl, h1]

theorem undumpLoop_join (l : List Nat) (hl : ∀ n ∈ l, n < 2 ^ 31) (r : List Char) (hr : EndsSet r)
    (f o : Nat) (hf : 2 * l.length + 1 ≤ f) (t : UIdSet) (ht : UIdSet.Ok t)
    (ho : (joinIds (l.map (fun (n : Nat) => (n : Int))) ++ r).length ≤ o) :
    ∃ t', undumpLoop f (joinIds (l.map (fun (n : Nat) => (n : Int))) ++ r) o t = some (t', r) ∧
      UIdSet.Ok t' ∧ elements t' = (l.map (fun (n : Nat) => (n : Int))).foldl ins (elements t) := by
  induction l generalizing f o t with
  | nil =>
    obtain ⟨f, rfl⟩ : ∃ g, f = g + 1 := ⟨f - 1, by omega⟩
    exact ⟨t, undumpLoop_end f r hr o t, ht, rfl⟩
  | cons n l ih =>
    have it : intText (n : Int) = decimal n := by simp [intText]
    have hn := hl n (by simp)
    obtain ⟨f, rfl⟩ : ∃ g, f = g + 1 := ⟨f - 1, by omega⟩
    cases l with
    | nil =>
      simp only [List.map_cons, List.map_nil, joinIds, it] at ho ⊢
      obtain ⟨u, h1, h2, h3, h4⟩ := undumpLoop_number f n hn r (endsSet_stops hr) o ho t ht
      obtain ⟨f, rfl⟩ : ∃ g, f = g + 1 := ⟨f - 1, by simp at hf; omega⟩
      refine ⟨some u, by rw [h4, undumpLoop_end _ _ hr], h2, ?_⟩
      simp [elements, h3]
    | cons m l =>
      simp only [List.map_cons, joinIds, it, List.append_assoc, List.cons_append] at ho ih ⊢
      obtain ⟨rest, hrest⟩ : ∃ rest, rest = joinIds ((m : Int) :: l.map (fun (n : Nat) => (n : Int))) ++ r :=
        ⟨_, rfl⟩
      rw [← hrest] at ho ih ⊢
      obtain ⟨u, h1, h2, h3, h4⟩ := undumpLoop_number f n hn (',' :: rest)
        (by intro c cs h; cases h; decide) o ho t ht
      obtain ⟨f, rfl⟩ : ∃ g, f = g + 1 := ⟨f - 1, by simp at hf; omega⟩
      obtain ⟨t', i1, i2, i3⟩ := ih (fun n hn => hl n (by simp [hn])) f (rest.length + 1)
        (by simp at hf ⊢; omega) (some u) h2 (by omega)
      refine ⟨t', ?_, i2, ?_⟩
      · rw [h4]
        simp only [undumpLoop, show endsSet ',' = false by decide, Bool.false_eq_true, if_false,
          if_true, List.length_cons]
        exact i1
      · rw [i3]
        simp only [List.foldl_cons, ← h3]; rfl

theorem joinIds_length (l : List Nat) : l.length ≤ (joinIds (l.map (fun (n : Nat) => (n : Int)))).length := by
  have dl : ∀ n, 1 ≤ (decimal n).length := by
    intro n
    obtain ⟨d, q, e, -⟩ := decimal_cons n
    rw [e]; simp
  induction l with
  | nil => simp [joinIds]
  | cons n l ih =>
    have it : intText (n : Int) = decimal n := by simp [intText]
    cases l with
    | nil => simpa [joinIds, it] using dl n
    | cons m l =>
      simp only [List.map_cons, joinIds, List.length_append, List.length_cons] at ih ⊢
      omega

/-- C16 for access sets: a set written to a library reads back, consuming exactly its text, as the
set of the converted identifiers of its valid members, in the same order. -/
theorem C16_set (conv : Int → Int) (s : UIdSet)
    (hc : ∀ x ∈ elements s, x ≠ -17 → 0 ≤ conv x ∧ conv x < 2 ^ 31) (r : List Char)
    (hr : EndsSet r) :
    ∃ t, UIdSet.undump (UIdSet.dump conv s ++ r) = some (t, r) ∧ UIdSet.Ok t ∧
      (∀ y, UIdSet.member t y = true ↔ ∃ x, UIdSet.member s x = true ∧ x ≠ -17 ∧ conv x = y) ∧
      ((((elements s).filter (fun x => decide (x ≠ -17))).map conv).Nodup →
        elements t = ((elements s).filter (fun x => decide (x ≠ -17))).map conv) := by
  obtain ⟨L, hL⟩ : ∃ L, L = ((elements s).filter (fun x => decide (x ≠ -17))).map conv := ⟨_, rfl⟩
  have hf : (elements s).filter (fun x => !(x == invalidId)) =
      (elements s).filter (fun x => decide (x ≠ -17)) := by
    apply List.filter_congr
    intro x _
    by_cases h : x = -17 <;> simp [invalidId, h]
  have hb : ∀ y ∈ L, 0 ≤ y ∧ y < 2 ^ 31 := by
    intro y hy
    rw [hL] at hy
    obtain ⟨x, hx, rfl⟩ := List.mem_map.1 hy
    rw [List.mem_filter] at hx
    exact hc x hx.1 (by simpa using hx.2)
  obtain ⟨N, hN, hN2⟩ : ∃ N : List Nat, L = N.map (fun (n : Nat) => (n : Int)) ∧ ∀ n ∈ N, n < 2 ^ 31 := by
    refine ⟨L.map Int.toNat, ?_, ?_⟩
    · rw [List.map_map]
      conv_lhs => rw [← List.map_id L]
      apply List.map_congr_left
      intro y hy
      have := hb y hy
      simp; omega
    · intro n hn
      obtain ⟨y, hy, rfl⟩ := List.mem_map.1 hn
      have := hb y hy
      omega
  have hlen := joinIds_length N
  obtain ⟨t, h1, h2, h3⟩ := undumpLoop_join N hN2 r hr
    (2 * (joinIds (N.map (fun (n : Nat) => (n : Int))) ++ r).length + 2)
    (joinIds (N.map (fun (n : Nat) => (n : Int))) ++ r).length
    (by simp only [List.length_append]; omega) none (by rintro _ ⟨⟩) (Nat.le_refl _)
  rw [← hN] at h1 h3
  have hmem : ∀ y, y ∈ L.foldl ins [] ↔ y ∈ L := by
    have : ∀ (l acc : List Int) y, y ∈ l.foldl ins acc ↔ y ∈ acc ∨ y ∈ l := by
      intro l
      induction l with
      | nil => simp
      | cons a l ih =>
        intro acc y
        rw [List.foldl_cons, ih]
        unfold ins
        split_ifs with ha
        · simp only [List.mem_cons]
          constructor
          · rintro (h | h) <;> simp [h]
          · rintro (h | rfl | h)
            · exact .inl h
            · exact .inl ha
            · exact .inr h
        · simp [or_assoc]
    intro y; simpa using this L [] y
  refine ⟨t, ?_, h2, ?_, ?_⟩
  · unfold UIdSet.undump UIdSet.dump
    rw [hf, ← hL]; exact h1
  · intro y
    rw [member_iff, h3]
    have e : elements none = [] := rfl
    rw [e, hmem, hL]
    simp only [List.mem_map, List.mem_filter, decide_eq_true_eq, member_iff]
    constructor
    · rintro ⟨x, ⟨a, b⟩, c⟩; exact ⟨x, a, b, c⟩
    · rintro ⟨x, a, b, c⟩; exact ⟨x, ⟨a, b⟩, c⟩
  · rw [← hL]
    intro hn
    have e : elements none = [] := rfl
    rw [h3, e, foldl_ins _ _ hn]
    simp

theorem loadLines_dump (conv : Int → Int) (sets : List UIdSet)
    (hc : ∀ s ∈ sets, ∀ x ∈ elements s, x ≠ -17 → 0 ≤ conv x ∧ conv x < 2 ^ 31)
    (t : TisTable) (ht : t.Ok) :
    ∃ t' ts, t.loadLines (sets.map (fun s => UIdSet.dump conv s ++ ['\n'])) = some t' ∧ t'.Ok ∧
      t'.sets = t.sets ++ ts ∧ ts.length = sets.length ∧
      ∀ (i : Nat) s, sets[i]? = some s → ∃ u, ts[i]? = some u ∧
        ∀ y, UIdSet.member u y = true ↔ ∃ x, UIdSet.member s x = true ∧ x ≠ -17 ∧ conv x = y := by
  induction sets generalizing t with
  | nil => exact ⟨t, [], rfl, ht, by simp, rfl, by simp⟩
  | cons s sets ih =>
    obtain ⟨u, h1, h2, h3, -⟩ := C16_set conv s (hc s (by simp)) ['\n']
      (by intro c cs e; cases e; simp)
    obtain ⟨t1, a1, a2, a3⟩ := TisTable.addDirect_ok t ht u h2
    obtain ⟨t', ts, i1, i2, i3, i4, i5⟩ := ih (fun s hs => hc s (by simp [hs])) t1 a2
    refine ⟨t', u :: ts, ?_, i2, by rw [i3, a3]; simp, by simp [i4], ?_⟩
    · simp [TisTable.loadLines, h1, a1, i1]
    · intro i s' hs'
      cases i with
      | zero => simp at hs'; subst hs'; exact ⟨u, rfl, h3⟩
      | succ i => simpa using i5 i s' (by simpa using hs')

/-- C16 for the table of access sets: after writing the table and loading it in another run, every
set identifier means the converted set it meant before. -/
theorem C16_table (conv : Int → Int) (t : TisTable) (ht : t.Ok)
    (hc : ∀ s ∈ t.sets, ∀ x ∈ elements s, x ≠ -17 → 0 ≤ conv x ∧ conv x < 2 ^ 31) :
    ∃ t', TisTable.init.loadTable (t.dumpTable conv) = some t' ∧ t'.Ok ∧
      t'.sets.length = t.sets.length ∧
      ∀ i, i < t.sets.length → ∀ y, ∃ b, t'.member i y = some b ∧
        (b = true ↔ ∃ x, t.member i x = some true ∧ x ≠ -17 ∧ conv x = y) := by
  have hne : t.sets = none :: t.sets.drop 1 := by
    have := ht.2.2.1
    cases h : t.sets with
    | nil => simp [h] at this
    | cons a l => rw [h] at this; simp at this; simp [this]
  obtain ⟨t', ts, h1, h2, h3, h4, h5⟩ := loadLines_dump conv (t.sets.drop 1)
    (fun s hs => hc s (List.mem_of_mem_drop hs)) TisTable.init init_ok
  have hlen : t.sets.length = 1 + (t.sets.drop 1).length := by
    conv_lhs => rw [hne]
    simp; omega
  refine ⟨t', by simp only [TisTable.loadTable, TisTable.dumpTable]; exact h1, h2, ?_, ?_⟩
  · rw [h3, List.length_append, h4, hlen]; rfl
  · intro i hi y
    cases i with
    | zero =>
      refine ⟨false, by simp [TisTable.member, TisTable.fetch, h2.2.2.1, UIdSet.member], ?_⟩
      simp [TisTable.member, TisTable.fetch, ht.2.2.1, UIdSet.member]
    | succ i =>
      have hi' : i < (t.sets.drop 1).length := by omega
      obtain ⟨u, hu, hm⟩ := h5 i _ (List.getElem?_eq_getElem hi')
      have e1 : t'.sets[i + 1]? = some u := by
        rw [h3, List.getElem?_append_right (by simp [TisTable.init])]
        simpa [TisTable.init] using hu
      have e2 : t.sets[i + 1]? = some (t.sets.drop 1)[i] := by
        rw [← List.getElem?_eq_getElem hi', List.getElem?_drop, Nat.add_comm]
      refine ⟨UIdSet.member u y, by simp [TisTable.member, TisTable.fetch, e1], ?_⟩
      rw [hm]
      simp only [TisTable.member, TisTable.fetch, e2, Option.bind_eq_bind, Option.bind_some,
        Option.some.injEq]

example : UIdSet.dump (· + 100) (some ⟨[3, -17, 25], 1, 4⟩) = "103,125".toList := by decide +kernel
example : (UIdSet.undump "103,125@7".toList).map (fun p => (elements p.1, p.2)) =
    some ([103, 125], ['@', '7']) := by decide +kernel
example : EndsSet ['@', '7'] := by intro c cs h; cases h; simp

end Splint
