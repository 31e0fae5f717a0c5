import Verif.Spec.AllDefined
/-!
# What is specified or declared and not defined (C166)
-/
namespace Splint.AllDefinedProps
open Splint.AllDefined Splint.AllDefinedSpec

theorem mem_all {F : Flags} {tab : List Entry} {n : Nat} {m : Msg} :
    (n, m) ∈ allDefined F tab ↔ ∃ e ∈ tab, e.name = n ∧ m ∈ check F e := by
  simp only [allDefined, List.mem_flatMap, List.mem_map, Prod.mk.injEq]
  constructor
  · rintro ⟨e, he, m', hm, rfl, rfl⟩; exact ⟨e, he, rfl, hm⟩
  · rintro ⟨e, he, rfl, hm⟩; exact ⟨e, he, m, hm, rfl, rfl⟩

/-- **C166** What is reported as declared and not defined, exactly: what is declared in a file of the program, is not a
tag, and is defined nowhere. -/
theorem C166_declared_exactly (F : Flags) (tab : List Entry) (n : Nat) :
    (n, .declUndef) ∈ allDefined F tab ↔ F.declUndef = true ∧ ∃ e ∈ tab, e.name = n ∧ e.priv = false ∧
      e.kind ≠ .tag ∧ e.defined = none ∧ ∃ l, e.declared = some l ∧ Own l := by
  rw [mem_all]
  have key : ∀ e, .declUndef ∈ check F e ↔ F.declUndef = true ∧ e.priv = false ∧ e.kind ≠ .tag ∧ e.defined = none ∧
      ∃ l, e.declared = some l ∧ Own l := by
    rintro ⟨nm, k, pr, fk, sp, dc, df⟩
    rcases F with ⟨f1, f2, f3⟩
    cases pr <;> cases df <;> cases f1 <;> cases f2 <;> cases fk <;> rcases dc with _ | ⟨dk, dx⟩ <;>
      cases k <;> simp [check, voptgenerror, isLib, isXH, isKind, Own]
    all_goals try split_ifs
    all_goals try simp
    all_goals (cases dk <;> cases dx <;> cases sp <;> simp_all)
  constructor
  · rintro ⟨e, he, hn, hm⟩
    obtain ⟨a, b⟩ := (key e).1 hm
    exact ⟨a, e, he, hn, b⟩
  · rintro ⟨a, e, he, hn, b⟩
    exact ⟨e, he, hn, (key e).2 ⟨a, b⟩⟩

/-- **C166** What is reported as specified and not declared, exactly: wherever it is specified. -/
theorem C166_undeclared_exactly (F : Flags) (tab : List Entry) (n : Nat) :
    (n, .specUndecl) ∈ allDefined F tab ↔ F.specUndecl = true ∧ ∃ e ∈ tab, e.name = n ∧ e.priv = false ∧
      e.fake = false ∧ e.declared = none ∧ ∃ l, e.specified = some l := by
  rw [mem_all]
  have key : ∀ e, .specUndecl ∈ check F e ↔ F.specUndecl = true ∧ e.priv = false ∧ e.fake = false ∧
      e.declared = none ∧ ∃ l, e.specified = some l := by
    rintro ⟨nm, k, pr, fk, sp, dc, df⟩
    rcases F with ⟨f1, f2, f3⟩
    cases pr <;> cases df <;> cases f1 <;> cases f2 <;> cases f3 <;> cases fk <;> cases dc <;> cases sp <;>
      simp [check, voptgenerror]
    all_goals try split_ifs
    all_goals simp
  constructor
  · rintro ⟨e, he, hn, hm⟩
    obtain ⟨a, b⟩ := (key e).1 hm
    exact ⟨a, e, he, hn, b⟩
  · rintro ⟨a, e, he, hn, b⟩
    exact ⟨e, he, hn, (key e).2 ⟨a, b⟩⟩

theorem elsewhere_iff (l : Loc) :
    (!isKind .imp (some l) && !isLib (some l) && !isKind .preproc (some l)) = true ↔ ¬Elsewhere l := by
  rcases l with ⟨k, x⟩
  cases k <;> simp [isKind, isLib, Elsewhere]

theorem lib_none : isLib none = false := rfl

theorem xh_none : isXH none = false := rfl

theorem check_absent (F : Flags) (e : Entry) :
    (.specUndeclUndef ∈ check F e ↔
      F.specUndef = true ∧ Absent e ∧ (e.kind = .variable ∨ e.kind = .function)) ∧
    (.specUndef ∈ check F e ↔ F.specUndef = true ∧ Absent e ∧ ¬(e.kind = .variable ∨ e.kind = .function)) := by
  rcases e with ⟨nm, k, pr, fk, sp, dc, df⟩
  rcases F with ⟨f1, f2, f3⟩
  rcases sp with _ | l
  · cases pr <;> cases df <;> cases dc <;> cases f1 <;> cases f2 <;> simp [check, voptgenerror, Absent, isLib, isXH] <;>
      (try split_ifs) <;> simp
  · have h := elsewhere_iff l
    by_cases hl : Elsewhere l
    · have h' : (!isKind .imp (some l) && !isLib (some l) && !isKind .preproc (some l)) = false := by
        rw [Bool.eq_false_iff]; exact fun hh => (h.1 hh) hl
      cases pr <;> cases df <;> cases dc <;> cases f1 <;> cases f2 <;> cases fk <;>
        simp [check, voptgenerror, Absent, lib_none, xh_none, hl] <;> (try split_ifs) <;> simp_all
    · have h' := h.2 hl
      cases pr <;> cases df <;> cases dc <;> cases f1 <;> cases f2 <;> cases f3 <;> cases fk <;> cases k <;>
        simp [check, voptgenerror, Absent, lib_none, xh_none, hl] <;> (try split_ifs) <;> simp_all

/-- **C166** What is reported as specified and not defined, exactly: what is absent. -/
theorem C166_absent_exactly (F : Flags) (tab : List Entry) (n : Nat) :
    ((n, .specUndeclUndef) ∈ allDefined F tab ∨ (n, .specUndef) ∈ allDefined F tab) ↔
      F.specUndef = true ∧ ∃ e ∈ tab, e.name = n ∧ Absent e := by
  rw [mem_all, mem_all]
  constructor
  · rintro (⟨e, he, hn, hm⟩ | ⟨e, he, hn, hm⟩)
    · obtain ⟨a, b, _⟩ := (check_absent F e).1.1 hm
      exact ⟨a, e, he, hn, b⟩
    · obtain ⟨a, b, _⟩ := (check_absent F e).2.1 hm
      exact ⟨a, e, he, hn, b⟩
  · rintro ⟨a, e, he, hn, b⟩
    by_cases hk : e.kind = .variable ∨ e.kind = .function
    · exact .inl ⟨e, he, hn, (check_absent F e).1.2 ⟨a, b, hk⟩⟩
    · exact .inr ⟨e, he, hn, (check_absent F e).2.2 ⟨a, b, hk⟩⟩

/-- **C166** With which words: that it is not declared either is said of variables and functions. -/
theorem C166_words (F : Flags) (tab : List Entry) (n : Nat) :
    ((n, .specUndeclUndef) ∈ allDefined F tab → ∃ e ∈ tab, e.name = n ∧ (e.kind = .variable ∨ e.kind = .function)) ∧
    ((n, .specUndef) ∈ allDefined F tab → ∃ e ∈ tab, e.name = n ∧ e.kind ≠ .variable ∧ e.kind ≠ .function) := by
  rw [mem_all, mem_all]
  constructor
  · rintro ⟨e, he, hn, hm⟩
    exact ⟨e, he, hn, ((check_absent F e).1.1 hm).2.2⟩
  · rintro ⟨e, he, hn, hm⟩
    exact ⟨e, he, hn, not_or.1 ((check_absent F e).2.1 hm).2.2⟩

def own : Loc := ⟨.normal, false⟩

example : allDefined ⟨false, true, true⟩ [⟨1, .function, false, false, none, some own, none⟩,
      ⟨2, .function, false, false, some ⟨.spec, false⟩, none, none⟩, ⟨3, .tag, false, false, none, some own, none⟩,
      ⟨4, .variable, false, false, some ⟨.lib, false⟩, none, none⟩, ⟨5, .other, false, false, some ⟨.spec, false⟩, none, none⟩]
    = [(1, .declUndef), (2, .specUndeclUndef), (5, .specUndef)] := by decide

/-- The full statement: there is at most one message about an entry, and none about one that is specified elsewhere
only. -/
def C166_full : Prop :=
  ∀ (F : Flags) (e : Entry), (allDefined F [e]).length ≤ 1 ∧
    (∀ l, e.specified = some l → Elsewhere l → e.declared = none → allDefined F [e] = [])

theorem all_one (F : Flags) (e : Entry) : (allDefined F [e]).length = (check F e).length := by simp [allDefined]

/-- **C166** Without the flag for what is specified and not declared there is at most one message about an entry, and
none about those that are specified elsewhere only. Missing: that flag. -/
theorem C166_once_partial (F : Flags) (e : Entry) (hF : F.specUndecl = false) :
    (allDefined F [e]).length ≤ 1 ∧
    (∀ l, e.specified = some l → Elsewhere l → e.declared = none → allDefined F [e] = []) := by
  constructor
  · rw [all_one]
    simp only [check, hF, voptgenerror, Bool.false_and, Bool.false_eq_true, if_false, List.nil_append]
    split_ifs <;> simp
  · intro l hs hl hd
    have h : (!isKind .imp (some l) && !isLib (some l) && !isKind .preproc (some l)) = false := by
      rw [Bool.eq_false_iff]; exact fun hh => ((elsewhere_iff l).1 hh) hl
    have hc : check F e = [] := by
      simp only [check, hF, hs, hd, isXH]
      simp only [isLib.eq_2, Option.isSome_none, Option.isSome_some, Bool.true_and, h, Bool.false_and]
      simp
    simp [allDefined, hc]

/-- **C166** There are two messages about an entry just if it is absent and both flags are set. -/
theorem C166_twice_exactly (F : Flags) (e : Entry) :
    2 ≤ (allDefined F [e]).length ↔ F.specUndecl = true ∧ F.specUndef = true ∧ Absent e := by
  rw [all_one]
  constructor
  · intro h
    have hF : F.specUndecl = true := by
      by_contra hF
      have := (C166_once_partial F e (by simpa using hF)).1
      rw [all_one] at this
      omega
    have hd : e.declared = none := by
      by_contra hd
      have hd' : e.declared.isSome = true := by simpa [Option.isSome_iff_ne_none] using hd
      revert h
      simp only [check, voptgenerror, hd', Bool.not_true, Bool.and_false, Bool.false_eq_true, if_false,
        List.nil_append, if_true]
      split_ifs <;> simp
    have hm : .specUndeclUndef ∈ check F e ∨ .specUndef ∈ check F e := by
      revert h
      simp only [check, voptgenerror, hd, lib_none, xh_none, Option.isSome_none, Bool.or_self, Bool.false_eq_true,
        if_false]
      split_ifs <;> simp
    rcases hm with hm | hm
    · have := (check_absent F e).1.1 hm
      exact ⟨hF, this.1, this.2.1⟩
    · have := (check_absent F e).2.1 hm
      exact ⟨hF, this.1, this.2.1⟩
  · rintro ⟨hF, hu, ha⟩
    have h1 : .specUndecl ∈ check F e := by
      obtain ⟨hp, hf, hd, _, l, hl, _⟩ := ha
      have := (C166_undeclared_exactly F [e] e.name).2 ⟨hF, e, by simp, rfl, hp, hf, hd, l, hl⟩
      obtain ⟨e', he', _, hm⟩ := mem_all.1 this
      rw [List.mem_singleton] at he'
      exact he' ▸ hm
    have h2 : ∃ m ∈ check F e, m ≠ .specUndecl := by
      by_cases hk : e.kind = .variable ∨ e.kind = .function
      · exact ⟨_, (check_absent F e).1.2 ⟨hu, ha, hk⟩, by decide⟩
      · exact ⟨_, (check_absent F e).2.2 ⟨hu, ha, hk⟩, by decide⟩
    obtain ⟨m, hm, hne⟩ := h2
    generalize check F e = l at *
    match l with
    | [] => simp at hm
    | [x] => simp at h1 hm; exact absurd (hm.trans h1.symm) hne
    | _ :: _ :: _ => simp

/-- **C166** With it, all entries that are specified elsewhere only are reported. -/
theorem C166_elsewhere (F : Flags) (e : Entry) (hF : F.specUndecl = true) (hp : e.priv = false) (hf : e.fake = false)
    (hd : e.declared = none) (l : Loc) (hs : e.specified = some l) (_ : Elsewhere l) :
    (e.name, .specUndecl) ∈ allDefined F [e] :=
  (C166_undeclared_exactly F [e] e.name).2 ⟨hF, e, by simp, rfl, hp, hf, hd, l, hs⟩

theorem C166_full_is_false : ¬C166_full := by
  intro h
  exact absurd (h ⟨true, true, true⟩ ⟨1, .function, false, false, some ⟨.spec, false⟩, none, none⟩).1 (by decide)

end Splint.AllDefinedProps
