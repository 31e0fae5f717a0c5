import Verif.Model.ExportLocal
/-!
# C117: a name is reported as exported without need exactly if all its uses are in the module that defines it
-/
namespace Splint.ExportLocal

theorem snocInd {α : Type} {P : List α → Prop} (nil : P []) (snoc : ∀ us u, P us → P (us ++ [u])) (us : List α) : P us := by
  have h : ∀ l : List α, P l.reverse := by
    intro l
    induction l with
    | nil => exact nil
    | cons a l ih => rw [List.reverse_cons]; exact snoc _ _ ih
  simpa using h us.reverse

theorem sameModule_iff {a b : Loc} : sameModule a b = true ↔ a = b := by
  cases a <;> cases b <;> simp [sameModule]

theorem after_snoc (fl : Flags) (d f : Loc) (sp : Bool) (us : List Use) (u : Use) :
    after fl d f sp (us ++ [u]) = setUsed fl (after fl d f sp us) u := by
  simp [after]

theorem after_fixed (fl : Flags) (d f : Loc) (sp : Bool) (us : List Use) :
    (after fl d f sp us).declared = d ∧ (after fl d f sp us).defined = f ∧ (after fl d f sp us).special = sp
      ∧ ((after fl d f sp us).used = true ↔ us ≠ []) := by
  induction us using snocInd with
  | nil => simp [after]
  | snoc us u ih =>
    rw [after_snoc]
    obtain ⟨h1, h2, h3, _⟩ := ih
    simp [setUsed, h1, h2, h3]

theorem mem_add {s : List Loc} {el x : Loc} : x ∈ add s el ↔ x ∈ s ∨ x = el := by
  unfold add
  cases el with
  | some m => simp
  | none => cases s <;> simp; tauto

/-- everything is recorded for `showuses` -/
theorem uses_show (fl : Flags) (hs : fl.showUses = true) (d f : Loc) (sp : Bool) (us : List Use) :
    ∀ x, x ∈ (after fl d f sp us).uses ↔ ∃ u ∈ us, u.loc = x := by
  induction us using snocInd with
  | nil => simp [after]
  | snoc us u ih =>
    intro x
    rw [after_snoc]
    simp only [setUsed, hs, if_true, mem_add, ih]
    constructor
    · rintro (⟨v, hv, rfl⟩ | rfl)
      · exact ⟨v, by simp [hv], rfl⟩
      · exact ⟨u, by simp, rfl⟩
    · rintro ⟨v, hv, rfl⟩
      simp only [List.mem_append, List.mem_singleton] at hv
      rcases hv with hv | rfl
      · exact Or.inl ⟨v, hv, rfl⟩
      · exact Or.inr rfl

/-- what is recorded otherwise: nothing as long as there are no uses, the module of the declaration if all are there,
and an undefined location if one is not, or is in a macro -/
theorem uses_export (fl : Flags) (hs : fl.showUses = false) (he : fl.exportLocal = true) (d f : Loc) (sp : Bool)
    (us : List Use) :
    (us = [] ∧ (after fl d f sp us).uses = [])
    ∨ (us ≠ [] ∧ (∀ u ∈ us, u.inMacro = false ∧ u.loc = d) ∧ (after fl d f sp us).uses = [d])
    ∨ (us ≠ [] ∧ (d = none ∨ ∃ u ∈ us, u.inMacro = true ∨ u.loc ≠ d) ∧ ∃ l, (after fl d f sp us).uses = none :: l) := by
  induction us using snocInd with
  | nil => simp [after]
  | snoc us u ih =>
    refine Or.inr ?_
    rw [after_snoc]
    have hd := (after_fixed fl d f sp us).1
    simp only [setUsed, hs, he, if_true, hd]
    have hfalse : ¬ (false = true) := by simp
    rw [if_neg hfalse]
    have hne : us ++ [u] ≠ [] := by simp
    rcases ih with ⟨rfl, h2⟩ | ⟨h1, h2, h3⟩ | ⟨h1, h2, l, h3⟩
    · rw [h2]
      by_cases hm : u.inMacro = true
      · rw [if_pos hm]
        exact Or.inr ⟨hne, Or.inr ⟨u, by simp, Or.inl hm⟩, [], rfl⟩
      · rw [if_neg hm]
        simp only [addDifferentFile, hasUndefined, List.length_nil]
        by_cases hl : u.loc = d
        · have : sameModule d u.loc = true := sameModule_iff.2 hl.symm
          left
          refine ⟨hne, ?_, ?_⟩
          · simpa using ⟨by simpa using hm, hl⟩
          · rw [hl] at this; simp only [this, hl]; cases d <;> simp [add]
        · have : sameModule d u.loc = false := by
            rw [Bool.eq_false_iff]; intro h; exact hl (sameModule_iff.1 h).symm
          right
          exact ⟨hne, Or.inr ⟨u, by simp, Or.inr hl⟩, [], by simp [this, addUndefined, add]⟩
    · rw [h3]
      by_cases hdn : d = none
      · subst hdn
        right
        refine ⟨hne, Or.inl rfl, [], ?_⟩
        by_cases hm : u.inMacro = true
        · rw [if_pos hm]; rfl
        · rw [if_neg hm]; rfl
      · obtain ⟨m, rfl⟩ := Option.ne_none_iff_exists'.1 hdn
        by_cases hm : u.inMacro = true
        · rw [if_pos hm]
          exact Or.inr ⟨hne, Or.inr ⟨u, by simp, Or.inl hm⟩, [some m], rfl⟩
        · rw [if_neg hm]
          simp only [addDifferentFile, hasUndefined, List.length_cons, List.length_nil]
          by_cases hl : u.loc = some m
          · have : sameModule (some m) u.loc = true := sameModule_iff.2 hl.symm
            left
            refine ⟨hne, ?_, by simp [this]⟩
            intro v hv
            simp only [List.mem_append, List.mem_singleton] at hv
            rcases hv with hv | rfl
            · exact h2 v hv
            · exact ⟨by simpa using hm, hl⟩
          · have : sameModule (some m) u.loc = false := by
              rw [Bool.eq_false_iff]; intro h; exact hl (sameModule_iff.1 h).symm
            right
            exact ⟨hne, Or.inr ⟨u, by simp, Or.inr hl⟩, [some m], by simp [this, addUndefined, add]⟩
    · rw [h3]
      right
      refine ⟨hne, ?_, l, ?_⟩
      · rcases h2 with h2 | ⟨v, hv, h2⟩
        · exact Or.inl h2
        · exact Or.inr ⟨v, by simp [hv], h2⟩
      · by_cases hm : u.inMacro = true
        · rw [if_pos hm]; rfl
        · rw [if_neg hm]; simp [addDifferentFile, hasUndefined]

end Splint.ExportLocal

namespace Splint
open ExportLocal

/-- It is used, and all uses are in the module that defines it. -/
def UsedOnlyWhereDefined (defined : Loc) (us : List Use) : Prop :=
  us ≠ [] ∧ ∃ m, defined = some m ∧ ∀ u ∈ us, u.loc = some m

def C117_full : Prop :=
  ∀ (fl : Flags) (declared defined : Loc) (us : List Use), fl.exportLocal = true →
    (exportLocal fl (after fl declared defined false us) = true ↔ UsedOnlyWhereDefined defined us)

/-- With the flag `showuses`, the rule holds. -/
theorem C117_showuses (fl : Flags) (hs : fl.showUses = true) (declared defined : Loc) (us : List Use) :
    exportLocal fl (after fl declared defined false us) = true ↔ UsedOnlyWhereDefined defined us := by
  obtain ⟨_, h2, h3, h4⟩ := after_fixed fl declared defined false us
  have hu := uses_show fl hs declared defined false us
  unfold exportLocal UsedOnlyWhereDefined
  rw [h2, h3]
  simp only [Bool.false_and, Bool.false_eq_true, if_false, Bool.and_eq_true, Bool.not_eq_true', Bool.or_eq_false_iff,
    List.any_eq_false, Bool.or_eq_true, not_or, Bool.not_eq_true]
  constructor
  · rintro ⟨h5, h6, h7⟩
    refine ⟨h4.1 h5, ?_⟩
    have hsome : ∀ u ∈ us, u.loc.isSome = true ∧ u.loc = defined := by
      intro u hu'
      obtain ⟨h8, h9⟩ := h7 u.loc ((hu _).2 ⟨u, hu', rfl⟩)
      exact ⟨by simpa using h8, sameModule_iff.1 (by simpa using h9)⟩
    obtain ⟨u, hu'⟩ := List.exists_mem_of_ne_nil _ (h4.1 h5)
    obtain ⟨m, hm⟩ := Option.isSome_iff_exists.1 (hsome u hu').1
    have hdm : defined = some m := (hsome u hu').2.symm.trans hm
    exact ⟨m, hdm, fun v hv => (hsome v hv).2.trans hdm⟩
  · rintro ⟨h5, m, rfl, h6⟩
    obtain ⟨u, hu'⟩ := List.exists_mem_of_ne_nil _ h5
    refine ⟨h4.2 h5, ?_, ?_⟩
    · have := (hu u.loc).2 ⟨u, hu', rfl⟩
      cases hc : (after fl declared (some m) false us).uses with
      | nil => rw [hc] at this; cases this
      | cons a b => rfl
    · intro x hx
      obtain ⟨v, hv, rfl⟩ := (hu x).1 hx
      rw [h6 v hv]
      simp [sameModule]

/-- Without it: no use may be in a macro, and the declaration must be in the module of the definition too. -/
theorem C117_exactly (fl : Flags) (hs : fl.showUses = false) (he : fl.exportLocal = true) (declared defined : Loc)
    (us : List Use) :
    exportLocal fl (after fl declared defined false us) = true
      ↔ UsedOnlyWhereDefined defined us ∧ declared = defined ∧ ∀ u ∈ us, u.inMacro = false := by
  obtain ⟨_, h2, h3, h4⟩ := after_fixed fl declared defined false us
  unfold exportLocal UsedOnlyWhereDefined
  rw [h2, h3]
  simp only [Bool.false_and, Bool.false_eq_true, if_false, Bool.and_eq_true, Bool.not_eq_true', Bool.or_eq_false_iff]
  rcases uses_export fl hs he declared defined false us with ⟨rfl, h6⟩ | ⟨h5, h6, h7⟩ | ⟨h5, h6, l, h7⟩
  · simp [h6]
  · rw [h7]
    have hused := h4.2 h5
    simp only [hused, List.isEmpty_cons, List.any_cons, List.any_nil, Bool.or_false, true_and]
    obtain ⟨u, hu⟩ := List.exists_mem_of_ne_nil _ h5
    constructor
    · intro h
      simp only [Bool.or_eq_false_iff] at h
      have hdd : declared = defined := sameModule_iff.1 (by simpa using h.2)
      obtain ⟨m, hm⟩ := Option.isSome_iff_exists.1 (by simpa using h.1 : declared.isSome = true)
      exact ⟨⟨h5, m, hdd.symm.trans hm, fun v hv => (h6 v hv).2.trans hm⟩, hdd, fun v hv => (h6 v hv).1⟩
    · rintro ⟨⟨_, m, hm, h8⟩, hdd, _⟩
      subst hm
      subst hdd
      simp [sameModule]
  · rw [h7]
    constructor
    · rintro ⟨_, _, h⟩; simp at h
    · rintro ⟨⟨_, m, hm, h8⟩, hdd, h9⟩
      exfalso
      rcases h6 with h6 | ⟨v, hv, h6 | h6⟩
      · rw [hdd, hm] at h6; cases h6
      · rw [h9 v hv] at h6; cases h6
      · exact h6 ((h8 v hv).trans (hdd.trans hm).symm)

/-- used twice in the module 1, declared and defined there -/
example : exportLocal ⟨false, true, false⟩ (after ⟨false, true, false⟩ (some 1) (some 1) false
    [⟨false, some 1⟩, ⟨false, some 1⟩]) = true := by decide

/-- What is reported is right. -/
theorem C117_partial (fl : Flags) (he : fl.exportLocal = true) (declared defined : Loc) (us : List Use)
    (h : exportLocal fl (after fl declared defined false us) = true) : UsedOnlyWhereDefined defined us := by
  by_cases hs : fl.showUses = true
  · exact (C117_showuses fl hs declared defined us).1 h
  · exact ((C117_exactly fl (by simpa using hs) he declared defined us).1 h).1

/-- A function that is declared in `decls.h`, and defined and used in `a.c` only, is not reported. -/
theorem C117_full_is_false : ¬ C117_full := by
  intro h
  have h1 := (h ⟨false, true, false⟩ (some 0) (some 1) [⟨false, some 1⟩] rfl).2
    ⟨by simp, 1, rfl, by simp⟩
  revert h1
  decide

/-- The flag `showuses`, which is to list the uses, changes what is reported. -/
theorem C117_showuses_matters :
    ∃ (declared defined : Loc) (us : List Use),
      exportLocal ⟨true, true, false⟩ (after ⟨true, true, false⟩ declared defined false us)
        ≠ exportLocal ⟨false, true, false⟩ (after ⟨false, true, false⟩ declared defined false us) :=
  ⟨some 0, some 1, [⟨false, some 1⟩], by decide⟩

/-- The order of the uses does not matter. -/
theorem C117_order (fl : Flags) (he : fl.exportLocal = true) (declared defined : Loc) (us vs : List Use)
    (h : ∀ u, u ∈ us ↔ u ∈ vs) :
    exportLocal fl (after fl declared defined false us) = exportLocal fl (after fl declared defined false vs) := by
  have hn : us ≠ [] ↔ vs ≠ [] := by
    constructor <;> intro hne <;> obtain ⟨u, hu⟩ := List.exists_mem_of_ne_nil _ hne
    · exact List.ne_nil_of_mem ((h u).1 hu)
    · exact List.ne_nil_of_mem ((h u).2 hu)
  have hU : UsedOnlyWhereDefined defined us ↔ UsedOnlyWhereDefined defined vs := by
    unfold UsedOnlyWhereDefined
    simp only [hn, h]
  rw [Bool.eq_iff_iff]
  by_cases hs : fl.showUses = true
  · rw [C117_showuses fl hs, C117_showuses fl hs, hU]
  · rw [C117_exactly fl (by simpa using hs) he, C117_exactly fl (by simpa using hs) he, hU]
    simp only [h]

end Splint
