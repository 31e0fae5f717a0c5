import Verif.Proofs.NameSearch
/-! # The checks on names -/
namespace Splint.NameCheck
open Splint Spec

theorem lit_eq (s : String) : lit s = bytes s := rfl

theorem isupper_iff (c : UInt8) : isupper c = true ↔ Upper c := by
  simp [isupper, Upper, UInt8.le_iff_toNat_le]

theorem islower_iff (c : UInt8) : islower c = true ↔ Lower c := by
  simp [islower, Lower, UInt8.le_iff_toNat_le]

theorem isdigit_iff (c : UInt8) : isdigit c = true ↔ Digit c := by
  simp [isdigit, Digit, UInt8.le_iff_toNat_le]

theorem upper_zero : ¬ Upper 0 := by simp [Upper]
theorem lower_zero : ¬ Lower 0 := by simp [Lower]
theorem digit_zero : ¬ Digit 0 := by simp [Digit]
theorem upper_under : ¬ Upper 95 := by simp [Upper]

/-! ## Reserved names -/

theorem reserved_found {name : Bytes} (h : name ≠ []) :
    ∃ r, bsearch name reservedNames = some r ∧
      (r.isSome = true ↔ ∃ s ∈ reservedList, name = bytes s) := by
  obtain ⟨r, hr, hri⟩ := bsearch_spec h reserved_ordered
  refine ⟨r, hr, ?_⟩
  rw [Option.isSome_iff_exists]
  constructor
  · rintro ⟨i, hi⟩
    have h1 := ((hri i).mp hi).1
    have h2 : some name ∈ reservedNames := List.mem_of_getElem? h1
    rw [reservedNames, List.mem_append] at h2
    rcases h2 with h2 | h2
    · rw [List.mem_map] at h2
      obtain ⟨s, hs, he⟩ := h2
      exact ⟨s, hs, by rw [← lit_eq]; exact (Option.some.inj he).symm⟩
    · simp at h2
  · rintro ⟨s, hs, rfl⟩
    have h2 : some (bytes s) ∈ reservedNames := by
      rw [reservedNames, List.mem_append]
      exact Or.inl (List.mem_map.mpr ⟨s, hs, rfl⟩)
    obtain ⟨i, hi⟩ := List.mem_iff_getElem?.mp h2
    refine ⟨i, (hri i).mpr ⟨hi, ?_⟩⟩
    rintro ⟨h3, -⟩
    have h4 : i = 200 := by
      have : reservedNames.length = 201 := by decide +kernel
      omega
    subst h4
    have h5 : reservedNames[200]? = some none := by decide +kernel
    rw [h5] at hi
    cases hi

theorem not_missed_39 : ¬ Missed 39 := by
  rw [missed_half (by omega), missed_half (by omega), missed_half (by omega)]
  norm_num
  rw [missed_half (by omega)]
  intro h
  cases h

theorem cpp_found {name : Bytes} (h : name ≠ []) :
    ∃ r, bsearch name cppNames = some r ∧
      (r.isSome = true ↔ ∃ s ∈ cppList, name = bytes s) := by
  obtain ⟨r, hr, hri⟩ := bsearch_spec h cpp_ordered
  refine ⟨r, hr, ?_⟩
  rw [Option.isSome_iff_exists]
  have hlen : cppNames.length = 39 := by decide +kernel
  constructor
  · rintro ⟨i, hi⟩
    have h1 := ((hri i).mp hi).1
    have h2 : some name ∈ cppNames := List.mem_of_getElem? h1
    rw [cppNames, List.mem_map] at h2
    obtain ⟨s, hs, he⟩ := h2
    exact ⟨s, hs, by rw [← lit_eq]; exact (Option.some.inj he).symm⟩
  · rintro ⟨s, hs, rfl⟩
    have h2 : some (bytes s) ∈ cppNames := List.mem_map.mpr ⟨s, hs, rfl⟩
    obtain ⟨i, hi⟩ := List.mem_iff_getElem?.mp h2
    refine ⟨i, (hri i).mpr ⟨hi, ?_⟩⟩
    rintro ⟨-, h4⟩
    rw [hlen] at h4
    exact not_missed_39 h4

theorem eq_prefix_last {p name : Bytes} {c : UInt8} (hc : c ≠ 0) :
    (p.isPrefixOf name = true ∧ name.length = p.length + 1 ∧ name.getLastD 0 = c) ↔
      name = p ++ [c] := by
  constructor
  · rintro ⟨h1, h2, h3⟩
    rw [List.isPrefixOf_iff_prefix] at h1
    obtain ⟨r, rfl⟩ := h1
    rw [List.length_append] at h2
    obtain ⟨x, rfl⟩ := List.length_eq_one_iff.mp (show r.length = 1 by omega)
    simp at h3
    rw [h3]
  · rintro rfl
    refine ⟨?_, by simp, by simp⟩
    rw [List.isPrefixOf_iff_prefix]
    exact List.prefix_append _ _

theorem math_aux (name : Bytes) (l : List String) (k : Nat) (hl : ∀ s ∈ l, (bytes s).length = k) :
    ((name.getLastD 0 = ch 'f' ∨ name.getLastD 0 = ch 'l') ∧ name.length = k + 1 ∧
      l.any (equalPrefixLit name) = true) ↔
    ∃ f ∈ l, name = bytes f ++ bytes "f" ∨ name = bytes f ++ bytes "l" := by
  have hf : bytes "f" = [ch 'f'] := rfl
  have hl2 : bytes "l" = [ch 'l'] := rfl
  rw [List.any_eq_true, hf, hl2]
  constructor
  · rintro ⟨hc, hlen, f, hfl, hp⟩
    refine ⟨f, hfl, ?_⟩
    have hk := hl f hfl
    rcases hc with hc | hc
    · exact Or.inl ((eq_prefix_last (by decide)).mp ⟨hp, by omega, hc⟩)
    · exact Or.inr ((eq_prefix_last (by decide)).mp ⟨hp, by omega, hc⟩)
  · rintro ⟨f, hfl, hn⟩
    have hk := hl f hfl
    rcases hn with hn | hn
    · have h := (eq_prefix_last (by decide)).mpr hn
      exact ⟨Or.inl h.2.2, by omega, f, hfl, h.1⟩
    · have h := (eq_prefix_last (by decide)).mpr hn
      exact ⟨Or.inr h.2.2, by omega, f, hfl, h.1⟩

theorem math_iff (name : Bytes) :
    mathTest name = true ↔
      ∃ f ∈ mathFunctions, name = bytes f ++ bytes "f" ∨ name = bytes f ++ bytes "l" := by
  have h3 := math_aux name math3 3 (by decide +kernel)
  have h4 := math_aux name math4 4 (by decide +kernel)
  have h5 := math_aux name math5 5 (by decide +kernel)
  have hmem : ∀ f, f ∈ mathFunctions ↔ f ∈ math3 ∨ f ∈ math4 ∨ f ∈ math5 := by
    intro f
    constructor
    · revert f; decide +kernel
    · have a3 : ∀ f ∈ math3, f ∈ mathFunctions := by decide +kernel
      have a4 : ∀ f ∈ math4, f ∈ mathFunctions := by decide +kernel
      have a5 : ∀ f ∈ math5, f ∈ mathFunctions := by decide +kernel
      rintro (h | h | h)
      · exact a3 f h
      · exact a4 f h
      · exact a5 f h
  have hx : (∃ f ∈ mathFunctions, name = bytes f ++ bytes "f" ∨ name = bytes f ++ bytes "l") ↔
      (∃ f ∈ math3, name = bytes f ++ bytes "f" ∨ name = bytes f ++ bytes "l") ∨
      (∃ f ∈ math4, name = bytes f ++ bytes "f" ∨ name = bytes f ++ bytes "l") ∨
      (∃ f ∈ math5, name = bytes f ++ bytes "f" ∨ name = bytes f ++ bytes "l") := by
    simp only [hmem, or_and_right, exists_or]
  rw [hx, ← h3, ← h4, ← h5]
  simp only [mathTest, Bool.and_eq_true, Bool.or_eq_true, beq_iff_eq]
  generalize (math3.any (equalPrefixLit name) = true) = p3
  generalize (math4.any (equalPrefixLit name) = true) = p4
  generalize (math5.any (equalPrefixLit name) = true) = p5
  generalize (name.getLastD 0 = ch 'f' ∨ name.getLastD 0 = ch 'l') = q
  constructor
  · rintro ⟨hq, (h | h) | h⟩
    · exact Or.inl ⟨hq, h⟩
    · exact Or.inr (Or.inl ⟨hq, h⟩)
    · exact Or.inr (Or.inr ⟨hq, h⟩)
  · rintro (⟨hq, h⟩ | ⟨hq, h⟩ | ⟨hq, h⟩)
    · exact ⟨hq, Or.inl (Or.inl h)⟩
    · exact ⟨hq, Or.inl (Or.inr h)⟩
    · exact ⟨hq, Or.inr h⟩

/-- Names taken apart as far as the tests look. -/
macro "name_cases" n:ident : tactic =>
  `(tactic| rcases $n:ident with _ | ⟨a, _ | ⟨b, _ | ⟨c, _ | ⟨d, _ | ⟨e, rest⟩⟩⟩⟩⟩)

/-- The literals of the tests. -/
macro "name_simp" : tactic =>
  `(tactic| simp [charAt, Then, Begins, bytes, ch, isupper_iff, islower_iff, isdigit_iff,
      upper_zero, lower_zero, digit_zero])

theorem under_iff (name : Bytes) : (charAt name 1 == ch '_') = true ↔ Begins "_" name := by
  name_cases name <;> name_simp

theorem under2_iff (name : Bytes) :
    (charAt name 1 == ch '_' && (charAt name 2 == ch '_' || isupper (charAt name 2))) = true ↔
      Then "_" Upper name ∨ Begins "__" name := by
  name_cases name <;> name_simp <;> tauto

theorem errno_iff (name : Bytes) :
    (charAt name 1 == ch 'E' && (isdigit (charAt name 2) || isupper (charAt name 2))) = true ↔
      Then "E" (fun c => Digit c ∨ Upper c) name := by
  name_cases name <;> name_simp

theorem locale_iff (name : Bytes) :
    (decide (name.length ≥ 4) && (charAt name 1 == ch 'L' && charAt name 2 == ch 'C'
      && charAt name 3 == ch '_') && isupper (charAt name 4)) = true ↔ Then "LC_" Upper name := by
  name_cases name <;> name_simp <;> tauto

theorem signal_iff (name : Bytes) :
    (charAt name 1 == ch 'S' && charAt name 2 == ch 'I' && charAt name 3 == ch 'G'
        && ((charAt name 4 == ch '_' && (decide (name.length ≥ 5) && isupper (charAt name 5)))
            || isupper (charAt name 4))) = true ↔
      Then "SIG" Upper name ∨ Then "SIG_" Upper name := by
  name_cases name <;> name_simp <;> tauto

theorem linux_iff (name : Bytes) :
    (charAt name 1 == ch 'S' && charAt name 2 == ch 'A' && charAt name 3 == ch '_') = true ↔
      Begins "SA_" name := by
  name_cases name <;> name_simp <;> tauto

theorem ctype_iff (name : Bytes) :
    (((charAt name 1 == ch 'i' && charAt name 2 == ch 's')
      || (charAt name 1 == ch 't' && charAt name 2 == ch 'o')) && islower (charAt name 3)) = true ↔
      Then "is" Lower name ∨ Then "to" Lower name := by
  name_cases name <;> name_simp <;> tauto

theorem stdlib_iff (name : Bytes) :
    (charAt name 1 == ch 's' && charAt name 2 == ch 't' && charAt name 3 == ch 'r'
      && islower (charAt name 4)) = true ↔ Then "str" Lower name := by
  name_cases name <;> name_simp <;> tauto

theorem string_iff (name : Bytes) :
    (((charAt name 1 == ch 'm' && charAt name 2 == ch 'e' && charAt name 3 == ch 'm')
      || (charAt name 1 == ch 'w' && charAt name 2 == ch 'c' && charAt name 3 == ch 's'))
      && islower (charAt name 4)) = true ↔ Then "mem" Lower name ∨ Then "wcs" Lower name := by
  name_cases name <;> name_simp <;> tauto

theorem mem_rep (c : Bool) (f g : RFlag) (w v : Why) :
    (g, v) ∈ rep c f w ↔ c = true ∧ g = f ∧ v = w := by
  cases c <;> simp [rep]

theorem ansi_exactly (d : RDecl) {name : Bytes} (h : name ≠ []) (hd : d.system = false) :
    ∃ rs, checkAnsiName d name = some rs ∧
      ∀ f w, (f, w) ∈ rs ↔ Grounds d name w ∧ Under d w f := by
  obtain ⟨r, hr, hri⟩ := reserved_found h
  have hlen : name.length ≠ 0 := by simpa using h
  unfold checkAnsiName
  simp only [hd, hr, Bool.false_eq_true, if_false, hlen]
  have e1 : ∀ f w, (f, w) ∈ (if (d.fileStatic || d.visible || d.tag || d.localFlag) = true then
          rep (charAt name 1 == ch '_') .isoReserved .implAny
        else rep (charAt name 1 == ch '_' && (charAt name 2 == ch '_' || isupper (charAt name 2)))
          .isoReserved .implTwo) ↔ f = .isoReserved ∧
          ((w = .implAny ∧ Grounds d name .implAny) ∨ (w = .implTwo ∧ Grounds d name .implTwo)) := by
    intro f w
    have hcond : (d.fileStatic || d.visible || d.tag || d.localFlag) = true ↔
        (d.fileStatic = true ∨ d.visible = true ∨ d.tag = true ∨ d.localFlag = true) := by
      simp only [Bool.or_eq_true]; tauto
    by_cases hc : (d.fileStatic || d.visible || d.tag || d.localFlag) = true
    · rw [if_pos hc, mem_rep, under_iff]
      rw [hcond] at hc
      simp only [Grounds, hc, true_and, not_true, false_and, and_false, or_false]
      tauto
    · rw [if_neg hc, mem_rep, under2_iff]
      rw [hcond] at hc
      simp only [Grounds, hc, true_and, not_false_eq_true, false_and, and_false, false_or]
      tauto
  have hvis : (d.visible && !d.tag) = true ↔ External d := by
    simp [External]
  have hE : ((d.visible && !d.tag) || d.localFlag) = true ↔ (External d ∨ d.localFlag = true) := by
    simp [External]
  by_cases hx : ((d.visible && !d.tag) || d.localFlag) = true
  · rw [if_pos hx]
    refine ⟨_, rfl, ?_⟩
    intro f w
    simp only [List.mem_append, e1]
    simp only [mem_rep, hri, errno_iff, locale_iff, signal_iff, linux_iff, ctype_iff, stdlib_iff,
      string_iff, math_iff]
    rw [hE] at hx
    by_cases hv : External d
    · have hv2 := hvis.mpr hv
      have hv3 : d.visible = true ∧ d.tag = false := hv
      rw [if_pos hv2]
      cases w <;> simp [Grounds, Under, hx, hv3, hv] <;> tauto
    · have hv2 : ¬ (d.visible && !d.tag) = true := fun hh => hv (hvis.mp hh)
      have hv3 : ¬ (d.visible = true ∧ d.tag = false) := hv
      rw [if_neg hv2]
      have hl : d.localFlag = true := by tauto
      cases w <;> simp [Grounds, Under, hl, hv3] <;> tauto
  · rw [if_neg hx]
    refine ⟨_, rfl, ?_⟩
    intro f w
    simp only [List.mem_append, e1]
    simp only [mem_rep, hri, errno_iff, locale_iff, signal_iff, linux_iff]
    rw [hE] at hx
    cases w <;> simp [Grounds, Under, hx] <;> tauto

end Splint.NameCheck
