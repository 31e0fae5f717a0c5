import Mathlib.Data.List.Nodup
import Verif.Proofs.Prune
import Verif.Proofs.SRef
/-! # Sets of storage references -/
namespace Splint
namespace SRefSet

/-- The free space is inside the array. -/
def Fits (s : SRefSet) : Prop := s.elems.length + s.nspace ≤ s.cap

/-- The same, for a set that may be undefined. -/
def FitsO : Option SRefSet → Prop
  | none => True
  | some s => s.Fits

theorem newEmpty_fits : newEmpty.Fits := by simp [Fits, newEmpty]

theorem getD_fits {s : Option SRefSet} (h : FitsO s) : (s.getD newEmpty).Fits := by
  cases s with
  | none => exact newEmpty_fits
  | some s => exact h

theorem getD_elems (s : Option SRefSet) : (s.getD newEmpty).elems = elemsOf s := by
  cases s <;> rfl

theorem push_room (s : SRefSet) (el : SRef) (h : s.Fits) :
    ∃ s', push (if s.nspace = 0 then grow s else s) el = some s' ∧ s'.elems = s.elems ++ [el] ∧
      s'.Fits := by
  unfold Fits at *
  by_cases h0 : s.nspace = 0
  · refine ⟨⟨s.elems ++ [el], 3, s.elems.length + 4⟩, ?_, rfl, ?_⟩
    · simp [h0, push, grow, baseSize]
    · simp
  · refine ⟨⟨s.elems ++ [el], s.nspace - 1, s.cap⟩, ?_, rfl, ?_⟩
    · simp only [h0, if_false, push]
      rw [if_pos (by omega)]
    · simp; omega

/-- Insertion in a list. -/
def ins (cm : Nat → Nat → Bool) (l : List SRef) (el : SRef) : List SRef :=
  if isSameMember cm l el then l else l ++ [el]

theorem insert_spec (cm : Nat → Nat → Bool) (s : Option SRefSet) (el : SRef) (h : FitsO s) :
    ∃ s', insert cm s el = some s' ∧ s'.elems = ins cm (elemsOf s) el ∧ s'.Fits := by
  unfold insert ins
  simp only [getD_elems]
  split
  · exact ⟨_, rfl, getD_elems s, getD_fits h⟩
  · obtain ⟨s', h1, h2, h3⟩ := push_room (s.getD newEmpty) el (getD_fits h)
    exact ⟨s', h1, by rw [h2, getD_elems], h3⟩

theorem insertAll_spec (cm : Nat → Nat → Bool) (l : List SRef) : ∀ (s : Option SRefSet), FitsO s →
    ∃ s', insertAll cm s l = some s' ∧ elemsOf s' = l.foldl (ins cm) (elemsOf s) ∧ FitsO s' := by
  induction l with
  | nil => intro s h; exact ⟨s, rfl, rfl, h⟩
  | cons el l ih =>
    intro s h
    obtain ⟨s1, h1, h2, h3⟩ := insert_spec cm s el h
    obtain ⟨s2, h4, h5, h6⟩ := ih (some s1) h3
    refine ⟨s2, ?_, ?_, h6⟩
    · simp [insertAll, h1, h4]
    · rw [h5, List.foldl_cons, ← h2]; rfl

theorem clear_fits (s : SRefSet) (h : s.Fits) : s.clear.Fits := by
  unfold Fits at *; simp [clear]; omega

theorem shiftDown_take (n : Nat) : ∀ (l : List SRef) (j : Nat), j + n + 1 = l.length →
    (shiftDown l j n).take (l.length - 1) = l.take j ++ l.drop (j + 1) := by
  induction n with
  | zero =>
    intro l j h
    rw [List.drop_eq_nil_of_le (by omega), show l.length - 1 = j by omega]
    simp [shiftDown]
  | succ n ih =>
    intro l j h
    have hj : j + 1 < l.length := by omega
    simp only [shiftDown, List.getElem?_eq_getElem hj]
    have := ih (l.set j l[j + 1]) (j + 1) (by simp; omega)
    rw [List.length_set] at this
    rw [this, List.drop_set_of_lt (by omega), List.take_set, List.take_succ_eq_append_getElem (by omega),
      List.set_append_right _ _ (by simp)]
    rw [List.drop_eq_getElem_cons hj]
    simp [show j ≤ l.length by omega]

theorem removeAt_elems (s : SRefSet) (i : Nat) (h : i < s.elems.length) :
    (removeAt s i).elems = s.elems.take i ++ s.elems.drop (i + 1) :=
  shiftDown_take _ _ _ (by omega)

theorem removeAt_fits (s : SRefSet) (i : Nat) (h : i < s.elems.length) (hf : s.Fits) :
    (removeAt s i).Fits := by
  unfold Fits at *
  rw [removeAt_elems s i h]
  simp [removeAt]; omega

theorem clearStaticsLoop_spec (n : Nat) : ∀ (s : SRefSet) (i : Nat), i + n = s.elems.length → s.Fits →
    (clearStaticsLoop n s i).elems =
      s.elems.take i ++ (s.elems.drop i).filter (fun e => !isStatic e) ∧
    (clearStaticsLoop n s i).Fits := by
  induction n with
  | zero =>
    intro s i h hf
    refine ⟨?_, hf⟩
    rw [List.drop_eq_nil_of_le (by omega), List.take_of_length_le (by omega)]
    simp [clearStaticsLoop]
  | succ n ih =>
    intro s i h hf
    have hi : i < s.elems.length := by omega
    simp only [clearStaticsLoop, List.getElem?_eq_getElem hi]
    rw [List.drop_eq_getElem_cons hi, List.filter_cons]
    by_cases hs : isStatic s.elems[i] = true
    · rw [if_pos hs]
      have hr := removeAt_elems s i hi
      obtain ⟨h1, h2⟩ := ih (removeAt s i) i (by rw [hr]; simp; omega) (removeAt_fits s i hi hf)
      refine ⟨?_, h2⟩
      rw [h1, hr, List.take_append_of_le_length (by simp; omega), List.take_take]
      rw [List.drop_append_of_le_length (by simp; omega)]
      simp [hs]
    · rw [if_neg hs]
      obtain ⟨h1, h2⟩ := ih s (i + 1) (by omega) hf
      refine ⟨?_, h2⟩
      rw [h1, List.take_succ_eq_append_getElem hi, if_pos (by simp [hs]), List.append_assoc,
        List.singleton_append]

theorem deleteLoop_spec (cm : Nat → Nat → Bool) (s : SRefSet) (el : SRef) (hf : s.Fits) (n : Nat) :
    ∀ i, i + n = s.elems.length →
    (deleteLoop cm s el n i).1 = (s.elems.drop i).any (el.realSame cm) ∧
    (deleteLoop cm s el n i).2.elems =
      s.elems.take i ++ (s.elems.drop i).eraseP (el.realSame cm) ∧
    (deleteLoop cm s el n i).2.Fits := by
  induction n with
  | zero =>
    intro i h
    rw [List.drop_eq_nil_of_le (by omega), List.take_of_length_le (by omega)]
    simp [deleteLoop, hf]
  | succ n ih =>
    intro i h
    have hi : i < s.elems.length := by omega
    simp only [deleteLoop, List.getElem?_eq_getElem hi]
    rw [List.drop_eq_getElem_cons hi]
    by_cases hs : el.realSame cm s.elems[i] = true
    · rw [if_pos hs]
      refine ⟨by simp only [List.any_cons, hs, Bool.true_or], ?_, removeAt_fits s i hi hf⟩
      simp only
      rw [removeAt_elems s i hi, List.eraseP_cons_of_pos hs]
    · rw [if_neg hs]
      obtain ⟨h1, h2, h3⟩ := ih (i + 1) (by omega)
      refine ⟨?_, ?_, h3⟩
      · rw [h1]; simp only [List.any_cons, hs, Bool.false_or]
      · rw [h2, List.take_succ_eq_append_getElem hi, List.eraseP_cons_of_neg hs,
          List.append_assoc, List.singleton_append]

theorem deleteBaseLoop_spec (base : SRef) (n : Nat) : ∀ (l : List SRef) (i off : Nat),
    i + off + n = l.length →
    let r := deleteBaseLoop base n l i off
    r.1.length = l.length ∧ r.2 = off + (l.drop (i + off)).countP (fun e => e.includedBy base) ∧
    r.1.take (l.length - r.2) =
      l.take i ++ (l.drop (i + off)).filter (fun e => !e.includedBy base) := by
  induction n with
  | zero =>
    intro l i off h
    simp only [deleteBaseLoop]
    rw [List.drop_eq_nil_of_le (by omega), show l.length - off = i by omega]
    simp
  | succ n ih =>
    intro l i off h
    have hi : i + off < l.length := by omega
    simp only [deleteBaseLoop, List.getElem?_eq_getElem hi]
    rw [List.drop_eq_getElem_cons hi]
    by_cases hs : l[i + off].includedBy base = true
    · rw [if_pos hs]
      obtain ⟨h1, h2, h3⟩ := ih l i (off + 1) (by omega)
      refine ⟨h1, ?_, ?_⟩
      · rw [h2, List.countP_cons_of_pos (p := fun e : SRef => e.includedBy base) hs, show i + (off + 1) = i + off + 1 by omega]; omega
      · rw [h3, show i + (off + 1) = i + off + 1 by omega, List.filter_cons_of_neg (by simp [hs])]
    · rw [if_neg hs]
      have key : ∀ l' : List SRef, l'.length = l.length → l'.take (i + 1) = l.take i ++ [l[i + off]] →
          l'.drop (i + off + 1) = l.drop (i + off + 1) →
          let r := deleteBaseLoop base n l' (i + 1) off
          r.1.length = l.length ∧
          r.2 = off + (l[i + off] :: l.drop (i + off + 1)).countP (fun e => e.includedBy base) ∧
          r.1.take (l.length - r.2) = l.take i ++
            (l[i + off] :: l.drop (i + off + 1)).filter (fun e => !e.includedBy base) := by
        intro l' e1 e2 e3
        obtain ⟨h1, h2, h3⟩ := ih l' (i + 1) off (by omega)
        rw [e1] at h1 h3
        rw [show i + 1 + off = i + off + 1 by omega, e3] at h2 h3
        refine ⟨h1, ?_, ?_⟩
        · rw [h2, List.countP_cons_of_neg (p := fun e : SRef => e.includedBy base) hs]
        · rw [h3, e2, List.filter_cons_of_pos (by simp [hs])]; simp
      by_cases h0 : off > 0
      · rw [if_pos h0]
        refine key _ (by simp) ?_ ?_
        · rw [List.take_set, List.take_succ_eq_append_getElem (by omega),
            List.set_append_right _ _ (by simp)]
          simp [show i ≤ l.length by omega]
        · rw [List.drop_set_of_lt (by omega)]
      · have : off = 0 := by omega
        subst this
        rw [if_neg h0]
        refine key l rfl ?_ rfl
        rw [List.take_succ_eq_append_getElem (by omega)]; rfl

theorem copyLoop_spec (l : List SRef) : ∀ s : SRefSet, s.Fits →
    ∃ s', copyLoop s l = some s' ∧ s'.elems = s.elems ++ l ∧ s'.Fits := by
  induction l with
  | nil => intro s h; exact ⟨s, rfl, by simp, h⟩
  | cons el l ih =>
    intro s h
    obtain ⟨s1, h1, h2, h3⟩ := push_room s el h
    obtain ⟨s2, h4, h5, h6⟩ := ih s1 h3
    refine ⟨s2, ?_, ?_, h6⟩
    · simp [copyLoop, h1, h4]
    · rw [h5, h2]; simp

theorem copyInto_spec (s1 s2 : Option SRefSet) (h : FitsO s1) :
    ∃ s', copyInto s1 s2 = some s' ∧ elemsOf s' = elemsOf s2 ∧ FitsO s' := by
  unfold copyInto
  by_cases hc : (s1.isNone && (elemsOf s2).isEmpty) = true
  · rw [if_pos hc]
    simp only [Bool.and_eq_true, Option.isNone_iff_eq_none, List.isEmpty_iff] at hc
    exact ⟨s1, rfl, by rw [hc.1, hc.2]; rfl, h⟩
  · rw [if_neg hc]
    have hf := getD_fits h
    obtain ⟨s', h1, h2, h3⟩ := copyLoop_spec (elemsOf s2)
      ⟨[], (s1.getD newEmpty).elems.length + (s1.getD newEmpty).nspace, (s1.getD newEmpty).cap⟩
      (by unfold Fits at *; simpa using hf)
    exact ⟨some s', by simp only [h1]; rfl, by simpa [elemsOf] using h2, h3⟩

theorem union_spec (cm : Nat → Nat → Bool) (s1 s2 : Option SRefSet) (h : FitsO s1) :
    ∃ s', union cm s1 s2 = some s' ∧ FitsO s' ∧
      elemsOf s' = if (elemsOf s1).isEmpty then elemsOf s2 else (elemsOf s2).foldl (ins cm) (elemsOf s1) := by
  unfold union
  split
  · obtain ⟨s', a, b, c⟩ := copyInto_spec s1 s2 h; exact ⟨s', a, c, b⟩
  · obtain ⟨s', a, b, c⟩ := insertAll_spec cm (elemsOf s2) s1 h; exact ⟨s', a, c, b⟩

theorem newCopy_fits (s : Option SRefSet) : FitsO (newCopy s) := by
  unfold newCopy
  split
  · trivial
  · cases s with
    | none => trivial
    | some s => simp [FitsO, Fits]

theorem newCopy_elems (s : Option SRefSet) : elemsOf (newCopy s) = elemsOf s := by
  unfold newCopy
  split
  · next h => simp only [List.isEmpty_iff] at h; rw [h]; rfl
  · cases s <;> rfl

theorem levelFold_spec (level : Int) (l : List SRef) : ∀ s : SRefSet,
    s.elems.length + l.length ≤ s.cap → s.Fits →
    ∃ s', l.foldl (fun (r : Option SRefSet) el =>
      if el.lexLevel ≤ level then r.bind fun r => push r el else r) (some s) = some s' ∧
      s'.elems = s.elems ++ l.filter (fun el => decide (el.lexLevel ≤ level)) ∧
      (l.length ≤ s.nspace → s'.Fits) := by
  induction l with
  | nil => intro s _ h; exact ⟨s, rfl, by simp, fun _ => h⟩
  | cons el l ih =>
    intro s h1 h2
    simp only [List.length_cons] at h1
    simp only [List.foldl_cons]
    by_cases hl : el.lexLevel ≤ level
    · rw [if_pos hl]
      simp only [Option.bind_some, push]
      rw [if_pos (by omega)]
      unfold Fits at *
      obtain ⟨s', a, b, c⟩ := ih ⟨s.elems ++ [el], s.nspace - 1, s.cap⟩ (by simp; omega)
        (by
          simp only [List.length_append, List.length_singleton]
          rcases Nat.eq_zero_or_pos s.nspace with h0 | h0 <;> omega)
      refine ⟨s', a, ?_, ?_⟩
      · rw [b, List.filter_cons_of_pos (by simpa using hl)]; simp
      · intro hh; exact c (by simp only [List.length_cons] at hh ⊢; omega)
    · rw [if_neg hl]
      obtain ⟨s', a, b, c⟩ := ih s (by omega) h2
      refine ⟨s', a, ?_, fun hh => c (by simp only [List.length_cons] at hh; omega)⟩
      rw [b, List.filter_cons_of_neg (by simpa using hl)]

theorem levelCopy_spec (s : Option SRefSet) (level : Int) :
    ∃ s', levelCopy s level = some s' ∧ FitsO s' ∧
      elemsOf s' = (elemsOf s).filter fun el => decide (el.lexLevel ≤ level) := by
  unfold levelCopy
  split
  · next h => simp only [List.isEmpty_iff] at h; exact ⟨none, rfl, trivial, by rw [h]; rfl⟩
  · obtain ⟨s', a, b, c⟩ := levelFold_spec level (elemsOf s)
      ⟨[], (elemsOf s).length, (elemsOf s).length⟩ (by simp) (by simp [Fits])
    exact ⟨some s', by simp only [a]; rfl, c (Nat.le_refl _), by simpa [elemsOf] using b⟩

theorem levelPrune_spec (s : SRefSet) (level : Int) (h : s.Fits) :
    ∃ s', s.levelPrune level = some s' ∧ s'.Fits ∧
      s'.elems.Perm (s.elems.filter fun el => decide (el.lexLevel ≤ level)) := by
  obtain ⟨st, h1, h2, h3⟩ := PruneSt.outerS_perm (fun el : SRef => decide (el.lexLevel ≤ level))
    s.elems.length [] s.elems [] s.nspace (Nat.le_refl _)
  simp only [List.nil_append, List.append_nil, List.length_nil, Nat.zero_add] at h1 h2 h3
  refine ⟨⟨st.arr.take st.entries, st.nspace, s.cap⟩, ?_, ?_, h2⟩
  · simp [levelPrune, h1]
  · unfold Fits at *
    have := List.length_take_le st.entries st.arr
    simp only
    omega

end SRefSet
end Splint
