import Verif.Spec.GlobQual
/-!
# The qualifiers of a global in the list of a function (C165)
-/
namespace Splint.GlobQualProps
open Splint.GlobQual Splint.GlobQualSpec

theorem written_cons (ok : Bool) (s : SState) (q : Qual) (qs : List Qual) :
    globIdListExpr ok s (q :: qs) = step ok (globIdListExpr ok s qs) q := by
  simp [globIdListExpr, reflect, optGlobQuals, List.foldl_append]

theorem written_nil (ok : Bool) (s : SState) : globIdListExpr ok s [] = (s, []) := rfl

/-- The full statement: the qualifiers `undef` and `killed` of a global hold for it just if they are written, whatever
others are. -/
def C165_full : Prop :=
  ∀ (ok : Bool) (qs : List Qual), (Killed (globIdListExpr ok .before qs).1 ↔ .killed ∈ qs) ∧
    (Undef (globIdListExpr ok .before qs).1 ↔ .undef ∈ qs)

/-- **C165** What holds is written. -/
theorem C165_sound (ok : Bool) (qs : List Qual) :
    (Killed (globIdListExpr ok .before qs).1 → .killed ∈ qs) ∧
    (Undef (globIdListExpr ok .before qs).1 → .undef ∈ qs) := by
  induction qs with
  | nil => simp [written_nil, Killed, Undef]
  | cons q qs ih =>
    rw [written_cons]
    generalize globIdListExpr ok .before qs = r at *
    rcases r with ⟨st, l⟩
    cases q <;> cases st <;> simp_all [step, fromQual, Qual.isGlobal, Killed, Undef]

/-- **C165** If only `undef` and `killed` are written, each at most once, both hold in any order. Missing: the other
qualifiers, and the same one more than once. -/
theorem C165_once_partial (ok : Bool) (qs : List Qual) (hn : qs.Nodup) (hg : ∀ q ∈ qs, q = .undef ∨ q = .killed) :
    (Killed (globIdListExpr ok .before qs).1 ↔ .killed ∈ qs) ∧
    (Undef (globIdListExpr ok .before qs).1 ↔ .undef ∈ qs) ∧ (globIdListExpr ok .before qs).2 = [] := by
  match qs, hn, hg with
  | [], _, _ => simp [written_nil, Killed, Undef]
  | [a], _, hg =>
    rcases hg a (by simp) with rfl | rfl <;>
      simp [written_cons, written_nil, step, fromQual, Qual.isGlobal, Killed, Undef]
  | [a, b], hn, hg =>
    rcases hg a (by simp) with rfl | rfl <;> rcases hg b (by simp) with rfl | rfl <;>
      simp_all [written_cons, written_nil, step, fromQual, Qual.isGlobal, Killed, Undef]
  | a :: b :: c :: qs, hn, hg =>
    exfalso
    rcases hg a (by simp) with rfl | rfl <;> rcases hg b (by simp) with rfl | rfl <;>
      rcases hg c (by simp) with rfl | rfl <;> simp at hn

example : globIdListExpr true .before [.undef, .killed] = (.undefKilled, []) ∧
    globIdListExpr true .before [.killed, .undef] = (.undefKilled, []) := by decide

theorem turns_state (ok : Bool) (qs : List Qual) :
    (globIdListExpr ok .before qs).1 =
      match qs with
      | [] => .before
      | q :: _ => if q.isGlobal && turns qs % 2 == 0 then .undefKilled else fromQual q := by
  induction qs with
  | nil => rfl
  | cons q qs ih =>
    rw [written_cons]
    generalize globIdListExpr ok .before qs = r at *
    rcases r with ⟨st, l⟩
    simp only at ih
    subst ih
    cases qs with
    | nil => cases q <;> simp [step, fromQual, Qual.isGlobal, turns]
    | cons p ps =>
      rcases Nat.mod_two_eq_zero_or_one (turns (p :: ps)) with h | h <;>
        cases q <;> cases p <;> simp_all [step, fromQual, Qual.isGlobal, turns, Nat.add_mod]

/-- **C165** The state, exactly: that of the qualifier written first; and if that is `undef` or `killed`, both just if
the number of these that follow each other by turns from there is even. -/
theorem C165_exactly (ok : Bool) (q : Qual) (qs : List Qual) (m : SState) (hm : Means q m) :
    (globIdListExpr ok .before (q :: qs)).1 =
      if (q = .undef ∨ q = .killed) ∧ Even (turns (q :: qs)) then .undefKilled else m := by
  rw [turns_state]
  cases hm <;> simp [Qual.isGlobal, Nat.even_iff, fromQual]

example : (globIdListExpr true .before [.undef, .killed, .undef, .out]).1 = .undefGlob ∧
    turns [.undef, .killed, .undef, .out] = 3 := by decide

/-- **C165** If another qualifier is written first, neither `undef` nor `killed` holds, whatever follows; and for a
pointer nothing is reported, for any qualifiers. -/
theorem C165_lost (s : SState) (q : Qual) (qs : List Qual) (hq : q = .out ∨ q = .inn ∨ q = .part) (ok : Bool) :
    isKilledGlob (globIdListExpr ok s (q :: qs)).1 = false ∧ ¬Undef (globIdListExpr ok s (q :: qs)).1 := by
  rw [written_cons]
  rcases hq with rfl | rfl | rfl <;> simp [step, fromQual, Qual.isGlobal, isKilledGlob, Undef]

/-- **C165** What is reported: for a type that is not a pointer, array, struct or union, each of the other qualifiers,
the last one first; else nothing. -/
theorem C165_reports (ok : Bool) (s : SState) (qs : List Qual) :
    (globIdListExpr ok s qs).2 = if ok then [] else (qs.filter fun q => q ≠ .undef ∧ q ≠ .killed).reverse := by
  induction qs with
  | nil => cases ok <;> rfl
  | cons q qs ih =>
    rw [written_cons]
    cases ok <;> cases q <;> simp_all [step, Qual.isGlobal]

example : (globIdListExpr false .before [.out, .killed, .part]).2 = [.part, .out] := by decide

/-- The order makes a difference that is not reported. -/
theorem C165_order : (∀ qs, (globIdListExpr true .before qs).2 = []) ∧
    isKilledGlob (globIdListExpr true .before [.killed, .out]).1 = true ∧
    isKilledGlob (globIdListExpr true .before [.out, .killed]).1 = false :=
  ⟨fun qs => by rw [C165_reports]; rfl, by decide, by decide⟩

theorem C165_full_is_false : ¬C165_full := by
  intro h
  have := (h true [.out, .killed]).1.2 (by simp)
  rcases this with h | h <;> exact absurd h (by decide)

/-- **C165** What the check at return asks for is that it is killed. -/
theorem C165_asked (s : SState) : isKilledGlob s = true ↔ Killed s := by
  cases s <;> simp [isKilledGlob, Killed]

end Splint.GlobQualProps
