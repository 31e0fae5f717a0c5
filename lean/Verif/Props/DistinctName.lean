import Verif.Proofs.DistinctName
/-!
# C112: names that are not distinguishable are reported
-/
namespace Splint
open Distinct Distinct.Spec

/-- The number of characters of `uname` that count: a tag has a marker in front of its name. -/
def counting (n : Nat) (e : Ent) : Nat := if n ≠ 0 ∧ e.tag = true then n + 1 else n

/-- The full statement: the declaration of a name is reported exactly if another name known at that point is
not distinguishable from it. -/
def C112_full : Prop :=
  (∀ (n : Nat) (ci la : Bool) (scopes : List (List Ent)) (e : Ent),
    (checkInternal n ci la (fun _ => true) scopes e).isSome = true ↔
      ∃ oe ∈ scopes.flatten, oe.addr ≠ e.addr ∧ oe.raw ≠ e.raw ∧
        Indistinct (counting n e) ci la e.raw oe.raw) ∧
  (∀ (n : Nat) (ci : Bool) (glob : List Ent) (e : Ent),
    (checkExternal n ci (fun _ => true) glob e).1.isSome = true ↔
      ∃ oe ∈ glob, oe.addr ≠ e.addr ∧ Indistinct (counting n e) ci false e.raw oe.raw)

theorem generic_self (s : List Char) (n : Nat) (ci la : Bool) : genericEqual s s n ci la = .same := by
  have h : genericEqual s s n ci la ≠ .distinct :=
    (generic_iff n ci la s s).2 ⟨indistinct_of_eq rfl, fun ⟨_, h1, h2⟩ => by omega⟩
  rw [generic_verdict h]
  have hz : ∀ p ∈ (sig n s).zip (sig n s), p.2 = p.1 := by
    generalize sig n s = l
    induction l with
    | nil => simp
    | cons a l ih =>
      intro p hp
      rw [List.zip_cons_cons, List.mem_cons] at hp
      rcases hp with rfl | hp
      · rfl
      · exact ih p hp
  have h1 : ((sig n s).zip (sig n s)).any (caseDiff ci) = false := by
    rw [List.any_eq_false]; intro p hp; simp [caseDiff, hz p hp]
  have h2 : ((sig n s).zip (sig n s)).any (lookDiff ci la) = false := by
    rw [List.any_eq_false]; intro p hp; simp [lookDiff, hz p hp]
  rw [h1, h2]; rfl

/-- **The comparison**: exact but for a first name with exactly the significant number of characters and a
longer second one. -/
theorem C112_compare_exactly (s t : List Char) (n : Nat) (ci la : Bool) :
    genericEqual s t n ci la ≠ .distinct ↔
      Indistinct n ci la s t ∧ ¬ (0 < n ∧ s.length = n ∧ n < t.length) := generic_iff n ci la s t

example : genericEqual c!"fooBarXY" c!"foobar1" 6 true false = .case_ := by decide +kernel
example : genericEqual c!"foobar" c!"foobar1" 6 true false = .distinct := by decide +kernel
example : genericEqual c!"foobar1" c!"foobar" 6 true false = .same := by decide +kernel

/-- So in one of the two orders names that are not distinguishable are always found. -/
theorem C112_some_order (s t : List Char) (n : Nat) (ci la : Bool) (h : Indistinct n ci la s t) :
    genericEqual s t n ci la ≠ .distinct ∨ genericEqual t s n ci la ≠ .distinct := by
  rw [C112_compare_exactly, C112_compare_exactly, ← indistinct_symm (s := s) (t := t)]
  by_cases h1 : 0 < n ∧ s.length = n ∧ n < t.length
  · exact Or.inr ⟨h, by omega⟩
  · exact Or.inl ⟨h, h1⟩

/-- What the answer is: `same` if the significant characters are. -/
theorem C112_same (s t : List Char) (n : Nat) (ci la : Bool) (h : genericEqual s t n ci la ≠ .distinct) :
    genericEqual s t n ci la = .same ↔ sig n s = sig n t := by
  have hI := ((generic_iff n ci la s t).1 h).1
  rw [generic_verdict h]
  unfold Indistinct at hI
  generalize sig n s = l at hI ⊢
  generalize sig n t = l' at hI ⊢
  have key : verdict ((l.zip l').any (caseDiff ci)) ((l.zip l').any (lookDiff ci la)) = .same ↔
      (l.zip l').any (caseDiff ci) = false ∧ (l.zip l').any (lookDiff ci la) = false := by
    cases (l.zip l').any (caseDiff ci) <;> cases (l.zip l').any (lookDiff ci la) <;> decide
  rw [key]
  clear key h
  induction hI with
  | nil => simp
  | @cons a b l l' hab _ ih =>
    simp only [List.zip_cons_cons, List.any_cons, Bool.or_eq_false_iff, List.cons.injEq]
    have : (caseDiff ci (a, b) = false ∧ lookDiff ci la (a, b) = false) ↔ a = b := by
      constructor
      · rintro ⟨h1, h2⟩
        by_contra hne
        rcases hab with hab | ⟨hc, hab⟩ | ⟨hl, hab⟩
        · exact hne hab
        · have := (upper_iff a b).2 hab
          have hne' : ¬ b = a := fun h => hne h.symm
          simp [caseDiff, hc, this, hne'] at h1
        · have := (look_iff a b).2 hab
          have hne' : ¬ b = a := fun h => hne h.symm
          simp [lookDiff, hl, h1, this, hne'] at h2
      · rintro rfl
        simp [caseDiff, lookDiff]
    refine Iff.trans ?_ (and_congr this ih)
    tauto

/-- `case_` if some significant characters differ in case (and case is ignored). -/
theorem C112_case (s t : List Char) (n : Nat) (ci la : Bool) (h : genericEqual s t n ci la ≠ .distinct) :
    genericEqual s t n ci la = .case_ ↔
      ci = true ∧ ∃ p ∈ (sig n s).zip (sig n t), p.1 ≠ p.2 ∧ SameLetter p.1 p.2 := by
  rw [generic_verdict h]
  have key : ∀ x y, verdict x y = .case_ ↔ x = true := by decide
  rw [key, List.any_eq_true]
  constructor
  · rintro ⟨p, hp, hd⟩
    simp only [caseDiff, Bool.and_eq_true, decide_eq_true_eq] at hd
    exact ⟨hd.1.1, p, hp, fun h => hd.1.2 h.symm, (upper_iff _ _).1 hd.2.symm⟩
  · rintro ⟨hc, p, hp, hne, hs⟩
    refine ⟨p, hp, ?_⟩
    simp only [caseDiff, Bool.and_eq_true, decide_eq_true_eq]
    exact ⟨⟨hc, fun h => hne h.symm⟩, ((upper_iff _ _).2 hs).symm⟩

theorem intMatch_some (n : Nat) (ci la : Bool) (e oe : Ent) :
    (intMatch n ci la e oe).isSome = true ↔
      oe.raw ≠ e.raw ∧ Indistinct n ci la e.raw oe.raw ∧ ¬ (0 < n ∧ e.raw.length = n ∧ n < oe.raw.length) := by
  rw [← C112_compare_exactly]
  by_cases hr : e.raw = oe.raw
  · simp [intMatch, hr, generic_self]
  · have hr' : oe.raw ≠ e.raw := fun h => hr h.symm
    unfold intMatch
    cases hg : genericEqual e.raw oe.raw n ci la <;> simp [hr, hr'] <;> split_ifs <;> rfl

theorem extMatch_some (n : Nat) (ci : Bool) (e oe : Ent) :
    (extMatch n ci e oe).isSome = true ↔
      Indistinct n (ci || decide (n = 0)) false e.raw oe.raw ∧
        ¬ (ci = true ∧ 0 < n ∧ oe.raw.length = n ∧ n < e.raw.length) := by
  unfold extMatch
  by_cases hn : n = 0
  · subst hn
    have := C112_compare_exactly oe.raw e.raw 0 true false
    rw [indistinct_symm] at this
    simp only [if_true, equalCI, decide_eq_true_eq, decide_true, Bool.or_true]
    by_cases hg : genericEqual oe.raw e.raw 0 true false ≠ .distinct
    · simp [hg, (this.1 hg).1]
    · simp only [hg, if_false, Option.isSome_none, Bool.false_eq_true, false_iff]
      rintro ⟨h, _⟩
      exact hg (this.2 ⟨h, by omega⟩)
  · have hs := strncmp_iff n oe.raw e.raw
    cases ci with
    | true =>
      have := C112_compare_exactly oe.raw e.raw n true false
      rw [indistinct_symm] at this
      simp only [hn, if_false, if_true, equalLenCI, decide_eq_true_eq, Bool.true_or, true_and]
      rw [← this]
      split_ifs <;> simp_all
    | false =>
      have hI := indistinct_plain n e.raw oe.raw
      have hsig : ∀ l, sig n l = l.take n := fun l => by simp [sig, hn]
      rw [hsig, hsig] at hI
      simp only [hn, if_false, decide_false, Bool.or_false, Bool.false_eq_true, false_and, not_false_eq_true, and_true]
      rw [hI, eq_comm (a := List.take n e.raw), ← hs]
      split_ifs with h <;> simp [h]

theorem find_some {m : Ent → Option DMsg} {shown : Ent → Bool} {e : Ent} (l : List Ent) :
    (l.findSome? (fun oe => if oe.addr = e.addr then none else
      if shown oe then (m oe).map (fun k => (oe, k)) else none)).isSome = true ↔
      ∃ oe ∈ l, oe.addr ≠ e.addr ∧ shown oe = true ∧ (m oe).isSome = true := by
  rw [List.findSome?_isSome_iff]
  refine exists_congr fun oe => and_congr_right fun _ => ?_
  split_ifs with h1 h2 <;> simp [*]

/-- **Internal names**: a message is shown exactly if one for some entry of some scope would be, with another
name, not distinguishable, and not longer than this one if this one has just the significant length. -/
theorem C112_internal_exactly (n : Nat) (ci la : Bool) (shown : Ent → Bool) (scopes : List (List Ent)) (e : Ent) :
    (checkInternal n ci la shown scopes e).isSome = true ↔
      ∃ oe ∈ scopes.flatten, oe.addr ≠ e.addr ∧ shown oe = true ∧ oe.raw ≠ e.raw ∧
        Indistinct (counting n e) ci la e.raw oe.raw ∧
        ¬ (0 < counting n e ∧ e.raw.length = counting n e ∧ counting n e < oe.raw.length) := by
  rw [checkInternal, intScopes_eq, intLoop_eq, find_some]
  exact exists_congr fun oe => and_congr_right fun _ => and_congr_right fun _ => and_congr_right fun _ =>
    intMatch_some (limit n e) ci la e oe

/-- **External names**: a limit of 0 makes case insignificant whatever the option says; if case is ignored,
a shorter name of just the significant length that was there before is missed. -/
theorem C112_external_exactly (n : Nat) (ci : Bool) (shown : Ent → Bool) (glob : List Ent) (e : Ent) :
    (checkExternal n ci shown glob e).1.isSome = true ↔
      ∃ oe ∈ glob, oe.addr ≠ e.addr ∧ shown oe = true ∧
        Indistinct (counting n e) (ci || decide (counting n e = 0)) false e.raw oe.raw ∧
        ¬ (ci = true ∧ 0 < counting n e ∧ oe.raw.length = counting n e ∧ counting n e < e.raw.length) := by
  rw [checkExternal, extLoop_none, find_some]
  exact exists_congr fun oe => and_congr_right fun _ => and_congr_right fun _ => and_congr_right fun _ =>
    extMatch_some (limit n e) ci e oe

/-- What the texts say about two names; `la`: characters that look alike match as well. -/
def Says (la : Bool) (s t : List Char) : DMsg → Prop
  | .firstChars m => m ≠ 0 ∧ s ≠ t ∧ s.take m = t.take m
  | .ignoringCase => s ≠ t ∧ List.Forall₂ (Match true la) s t
  | .firstCharsIgnoringCase m => m < s.length ∧ s.take m ≠ t.take m ∧ List.Forall₂ (Match true la) (s.take m) (t.take m)
  | .lookalikes => s ≠ t ∧ List.Forall₂ LookAlike s t
  | .firstCharsLookalikes m =>
    m < s.length ∧ s.take m ≠ t.take m ∧ List.Forall₂ LookAlike (s.take m) (t.take m)

theorem all_look {la : Bool} {l l' : List Char} {ci : Bool} (h : List.Forall₂ (Match ci la) l l')
    (hn : ¬ (ci = true ∧ ∃ p ∈ l.zip l', p.1 ≠ p.2 ∧ SameLetter p.1 p.2)) : List.Forall₂ LookAlike l l' := by
  induction h with
  | nil => exact .nil
  | @cons a b l l' hab _ ih =>
    refine .cons ?_ (ih ?_)
    · rcases hab with rfl | ⟨hc, hab⟩ | ⟨_, hab⟩
      · exact Or.inl rfl
      · by_cases he : a = b
        · exact Or.inl he
        · exact absurd ⟨hc, (a, b), by simp, he, hab⟩ hn
      · exact hab
    · rintro ⟨hc, p, hp, h⟩
      exact hn ⟨hc, p, by rw [List.zip_cons_cons]; exact List.mem_cons_of_mem _ hp, h⟩

/-- Names that are not distinguishable, one of them not longer than the limit: all of the characters. -/
theorem whole {n : Nat} {ci la : Bool} {s t : List Char} (h : Indistinct n ci la s t)
    (hE : ¬ (0 < n ∧ s.length = n ∧ n < t.length)) (hl : n = 0 ∨ s.length ≤ n) : sig n s = s ∧ sig n t = t := by
  unfold sig
  by_cases hn : n = 0
  · simp [hn]
  · have hs : s.length ≤ n := by omega
    have hlen := h.length_eq
    simp only [sig, hn, if_false, List.length_take] at hlen
    simp only [hn, if_false]
    exact ⟨List.take_of_length_le hs, List.take_of_length_le (by omega)⟩

theorem intMatch_says {n : Nat} {ci la : Bool} {e oe : Ent} {k : DMsg} (h : intMatch n ci la e oe = some k) :
    Says la e.raw oe.raw k := by
  obtain ⟨hne, hI, hE⟩ := (intMatch_some n ci la e oe).1 (by rw [h]; rfl)
  have hd := (C112_compare_exactly e.raw oe.raw n ci la).2 ⟨hI, hE⟩
  have hsame := C112_same _ _ _ _ _ hd
  have hcase := C112_case _ _ _ _ _ hd
  have hmono : ∀ l l', ci = true → List.Forall₂ (Match ci la) l l' → List.Forall₂ (Match true la) l l' := by
    intro l l' hc h; rw [← hc]; exact h
  have hne' : e.raw ≠ oe.raw := fun h => hne h.symm
  unfold intMatch at h
  cases hg : genericEqual e.raw oe.raw n ci la with
  | distinct => exact absurd hg hd
  | same =>
    rw [hg] at h
    simp only [hne', if_false, Option.some.injEq] at h
    subst h
    have h1 := hsame.1 hg
    have hn : n ≠ 0 := by
      rintro rfl
      simp [sig] at h1
      exact hne' h1
    simp only [sig, hn, if_false] at h1
    exact ⟨hn, hne', h1⟩
  | case_ =>
    rw [hg] at h
    have hc := (hcase.1 hg).1
    have hs : sig n e.raw ≠ sig n oe.raw := fun h => by rw [hsame.2 h] at hg; simp at hg
    simp only at h
    split_ifs at h with hl
    · cases h
      have hw := whole hI hE hl
      unfold Indistinct at hI
      rw [hw.1, hw.2] at hI
      exact ⟨hne', hmono _ _ hc hI⟩
    · cases h
      have hn : n ≠ 0 := by omega
      unfold Indistinct at hI
      simp only [sig, hn, if_false] at hI hs
      exact ⟨by omega, hs, hmono _ _ hc hI⟩
  | lookalike =>
    rw [hg] at h
    have hnc := hcase.not.1 (by rw [hg]; simp)
    have hs : sig n e.raw ≠ sig n oe.raw := fun h => by rw [hsame.2 h] at hg; simp at hg
    have hall := all_look hI hnc
    simp only at h
    split_ifs at h with hl
    · cases h
      have hw := whole hI hE hl
      rw [hw.1, hw.2] at hall
      exact ⟨hne', hall⟩
    · cases h
      have hn : n ≠ 0 := by omega
      simp only [sig, hn, if_false] at hall hs
      exact ⟨by omega, hs, hall⟩

/-- **The text about an internal name** is right, but for lookalike characters it does not mention when it
speaks of case. -/
theorem C112_internal_text {n : Nat} {ci la : Bool} {shown : Ent → Bool} {scopes : List (List Ent)} {e oe : Ent}
    {k : DMsg} (h : checkInternal n ci la shown scopes e = some (oe, k)) :
    oe ∈ scopes.flatten ∧ Says la e.raw oe.raw k := by
  rw [checkInternal, intScopes_eq, intLoop_eq] at h
  obtain ⟨x, hx, hx'⟩ := List.exists_of_findSome?_eq_some h
  split_ifs at hx' with h1 h2
  rw [Option.map_eq_some_iff] at hx'
  obtain ⟨k', hk, he⟩ := hx'
  cases he
  exact ⟨hx, intMatch_says hk⟩

example : checkInternal 4 true true (fun _ => true) [[⟨1, c!"fooll", false⟩], [⟨3, c!"Foo1", false⟩]] ⟨2, c!"foo1x", false⟩ =
    some (⟨1, c!"fooll", false⟩, .firstCharsLookalikes 4) := by decide +kernel

/-- The same for external names; a message about the first characters may be about equal names. -/
theorem C112_external_text {n : Nat} {ci : Bool} {shown : Ent → Bool} {glob : List Ent} {e oe : Ent} {k : DMsg}
    (h : (checkExternal n ci shown glob e).1 = some (oe, k)) :
    oe ∈ glob ∧
    match k with
    | .firstChars m => m = counting n e ∧ m ≠ 0 ∧ e.raw.take m = oe.raw.take m
    | .ignoringCase => n = 0 ∧ List.Forall₂ SameLetter e.raw oe.raw
    | .firstCharsIgnoringCase m =>
      m = counting n e ∧ ci = true ∧ e.raw.take m ≠ oe.raw.take m ∧ List.Forall₂ SameLetter (e.raw.take m) (oe.raw.take m)
    | _ => False := by
  rw [checkExternal, extLoop_none] at h
  obtain ⟨x, hx, hx'⟩ := List.exists_of_findSome?_eq_some h
  split_ifs at hx' with h1 h2
  rw [Option.map_eq_some_iff] at hx'
  obtain ⟨k', hk, he⟩ := hx'
  cases he
  refine ⟨hx, ?_⟩
  have hI := ((extMatch_some _ _ _ _).1 (by rw [hk]; rfl)).1
  have hlet : ∀ b l l', List.Forall₂ (Match b false) l l' → List.Forall₂ SameLetter l l' := by
    intro b l l' h
    refine h.imp ?_
    rintro a c (h | ⟨_, h⟩ | ⟨h, _⟩)
    · exact Or.inl h
    · exact h
    · simp at h
  have hlim : limit n e = counting n e := rfl
  rw [hlim] at hk hI
  have hI' := hlet _ _ _ hI
  have hs := strncmp_iff (counting n e) oe.raw e.raw
  unfold extMatch at hk
  split_ifs at hk with a1 a2 a3 a4 a5 a6
  · cases hk
    have : n = 0 := by unfold counting at a1; split_ifs at a1; exact a1
    simp only [a1, sig, if_true] at hI'
    exact ⟨this, hI'⟩
  · cases hk; exact ⟨rfl, a1, (hs.1 a5).symm⟩
  · cases hk
    simp only [a1, sig, if_false] at hI'
    exact ⟨rfl, a3, fun h => a5 (hs.2 h.symm), hI'⟩
  · cases hk; exact ⟨rfl, a1, (hs.1 a6).symm⟩

example : (checkExternal 4 true (fun _ => true) [⟨1, c!"FOOlx", false⟩] ⟨2, c!"foolx", false⟩).1 =
    some (⟨1, c!"FOOlx", false⟩, .firstCharsIgnoringCase 4) := by decide +kernel

/-- **No wrong message about an internal name**, and none is missed if no name in scope has just the
significant number of characters. -/
theorem C112_internal_partial (n : Nat) (ci la : Bool) (scopes : List (List Ent)) (e : Ent) :
    ((checkInternal n ci la (fun _ => true) scopes e).isSome = true →
      ∃ oe ∈ scopes.flatten, oe.addr ≠ e.addr ∧ oe.raw ≠ e.raw ∧ Indistinct (counting n e) ci la e.raw oe.raw) ∧
    (e.raw.length ≠ counting n e →
      ((checkInternal n ci la (fun _ => true) scopes e).isSome = true ↔
        ∃ oe ∈ scopes.flatten, oe.addr ≠ e.addr ∧ oe.raw ≠ e.raw ∧
          Indistinct (counting n e) ci la e.raw oe.raw)) := by
  rw [C112_internal_exactly]
  constructor
  · rintro ⟨oe, h1, h2, _, h4, h5, _⟩
    exact ⟨oe, h1, h2, h4, h5⟩
  · intro hl
    refine exists_congr fun oe => and_congr_right fun _ => and_congr_right fun _ => ?_
    constructor
    · rintro ⟨_, h4, h5, _⟩; exact ⟨h4, h5⟩
    · rintro ⟨h4, h5⟩; exact ⟨rfl, h4, h5, fun h => hl h.2.1⟩

/-- **External names** with a limit, if case is significant. -/
theorem C112_external_partial (n : Nat) (hn : n ≠ 0) (glob : List Ent) (e : Ent) :
    (checkExternal n false (fun _ => true) glob e).1.isSome = true ↔
      ∃ oe ∈ glob, oe.addr ≠ e.addr ∧ Indistinct (counting n e) false false e.raw oe.raw := by
  rw [C112_external_exactly]
  have h0 : counting n e ≠ 0 := by unfold counting; split_ifs <;> omega
  simp [h0]

/-- **Which one is reported**: one message at most, for the first entry; further ones are mentioned exactly
if there is another entry behind it. -/
theorem C112_extras (n : Nat) (ci : Bool) (shown : Ent → Bool) (glob : List Ent) (e : Ent) :
    (checkExternal n ci shown glob e).2 = true ↔
      ∃ l oe l', glob = l ++ oe :: l' ∧ oe.addr ≠ e.addr ∧ shown oe = true ∧
        (extMatch (counting n e) ci e oe).isSome = true ∧
        ∃ oe' ∈ l', oe'.addr ≠ e.addr ∧ (extMatch (counting n e) ci e oe').isSome = true := by
  change (extLoop (extMatch (counting n e) ci e) shown e glob none).2 = true ↔ _
  generalize extMatch (counting n e) ci e = m
  induction glob with
  | nil => simp [extLoop]
  | cons a glob ih =>
    have skip : ¬ (a.addr ≠ e.addr ∧ shown a = true ∧ (m a).isSome = true) →
        ((∃ l oe l', a :: glob = l ++ oe :: l' ∧ oe.addr ≠ e.addr ∧ shown oe = true ∧ (m oe).isSome = true ∧
          ∃ oe' ∈ l', oe'.addr ≠ e.addr ∧ (m oe').isSome = true) ↔
         (∃ l oe l', glob = l ++ oe :: l' ∧ oe.addr ≠ e.addr ∧ shown oe = true ∧ (m oe).isSome = true ∧
          ∃ oe' ∈ l', oe'.addr ≠ e.addr ∧ (m oe').isSome = true)) := by
      intro hno
      constructor
      · rintro ⟨l, oe, l', he, h1, h2, h3, h4⟩
        cases l with
        | nil =>
          rw [List.nil_append, List.cons.injEq] at he
          rw [he.1] at hno
          exact absurd ⟨h1, h2, h3⟩ hno
        | cons b l =>
          rw [List.cons_append, List.cons.injEq] at he
          exact ⟨l, oe, l', he.2, h1, h2, h3, h4⟩
      · rintro ⟨l, oe, l', he, h⟩
        exact ⟨a :: l, oe, l', by rw [he]; rfl, h⟩
    simp only [extLoop]
    by_cases h : a.addr = e.addr
    · rw [if_pos h, ih, skip (fun hh => hh.1 h)]
    · rw [if_neg h]
      cases hm : m a with
      | none => simp only []; rw [ih, skip (by simp [hm])]
      | some k =>
        by_cases hs : shown a = true
        · simp only [Option.isSome_none, Bool.false_eq_true, if_false, hs, if_true, extLoop_some]
          constructor
          · intro hx
            rw [List.any_eq_true] at hx
            obtain ⟨oe', h1, h2⟩ := hx
            simp only [ne_eq, Bool.and_eq_true, decide_eq_true_eq] at h2
            exact ⟨[], a, glob, rfl, h, hs, by simp [hm], oe', h1, h2.1, h2.2⟩
          · rintro ⟨l, oe, l', he, _, _, _, oe', h1, h2, h3⟩
            rw [List.any_eq_true]
            refine ⟨oe', ?_, by simp [h2, h3]⟩
            cases l with
            | nil => rw [List.nil_append, List.cons.injEq] at he; rw [he.2]; exact h1
            | cons b l => rw [List.cons_append, List.cons.injEq] at he; rw [he.2]; simp [h1]
        · simp only [Option.isSome_none, Bool.false_eq_true, if_false, hs]
          rw [ih, skip (fun hh => hs hh.2.1)]

private def short : Ent := ⟨1, c!"foobar", false⟩
private def long : Ent := ⟨2, c!"foobarbaz", false⟩
private def longer : Ent := ⟨4, c!"foobarbazz", false⟩

example : (checkExternal 6 false (fun _ => true) [short, long] longer) =
    (some (short, .firstChars 6), true) := by decide +kernel

/-- **Depends on the order**: the longer name is reported if it comes after the shorter one, and not if it
comes before; for external names with case ignored it is the other way round. -/
theorem C112_order :
    (checkInternal 6 false false (fun _ => true) [[short]] long).isSome = true ∧
    (checkInternal 6 false false (fun _ => true) [[long]] short).isSome = false ∧
    (checkExternal 6 true (fun _ => true) [short] long).1.isSome = false ∧
    (checkExternal 6 true (fun _ => true) [long] short).1.isSome = true := by decide +kernel

/-- **In general**: a name of just the significant length is never reported because of a longer one. -/
theorem C112_missed (n : Nat) (ci la : Bool) (shown : Ent → Bool) (scopes : List (List Ent)) (e : Ent)
    (hn : n ≠ 0) (hl : e.raw.length = counting n e) (h : ∀ oe ∈ scopes.flatten, e.raw.length < oe.raw.length) :
    checkInternal n ci la shown scopes e = none := by
  rw [← Option.not_isSome_iff_eq_none, C112_internal_exactly]
  rintro ⟨oe, h1, _, _, _, _, h2⟩
  have := h oe h1
  have h0 : counting n e ≠ 0 := by unfold counting; split_ifs <;> omega
  exact h2 ⟨by omega, hl, by omega⟩

example : checkInternal 6 true true (fun _ => true) [[long], [longer]] short = none :=
  C112_missed 6 true true _ [[long], [longer]] short (by decide) (by decide) (by decide)

/-- **A limit of 0 ignores case**, also if the option says that case is significant. -/
theorem C112_zero_ignores_case :
    (checkExternal 0 false (fun _ => true) [⟨1, c!"Foo", false⟩] ⟨2, c!"foo", false⟩).1 =
      some (⟨1, c!"Foo", false⟩, .ignoringCase) ∧
    ¬ Indistinct 0 false false c!"foo" c!"Foo" := by
  refine ⟨by decide +kernel, ?_⟩
  rw [indistinct_plain]
  decide

/-- **Not what it says**: names that differ in a lookalike character also are said to differ in case only. -/
theorem C112_wrong_reason :
    checkInternal 0 true true (fun _ => true) [[⟨1, c!"Al", false⟩]] ⟨2, c!"a1", false⟩ =
      some (⟨1, c!"Al", false⟩, .ignoringCase) ∧
    ¬ Indistinct 0 true false c!"a1" c!"Al" := by
  refine ⟨by decide +kernel, ?_⟩
  have : genericEqual c!"a1" c!"Al" 0 true false = .distinct := by decide +kernel
  intro h
  exact (C112_compare_exactly _ _ _ _ _).2 ⟨h, by decide⟩ this

/-- **Not transitive**: of three names each is not distinguishable from the next, the first is from the last. -/
theorem C112_not_transitive :
    Indistinct 0 true true c!"x1" c!"xI" ∧ Indistinct 0 true true c!"xI" c!"xi" ∧
    ¬ Indistinct 0 true true c!"x1" c!"xi" := by
  have key : ∀ s t, Indistinct 0 true true s t ↔ genericEqual s t 0 true true ≠ .distinct := by
    intro s t
    rw [C112_compare_exactly]
    exact ⟨fun h => ⟨h, by omega⟩, fun h => h.1⟩
  rw [key, key, key]
  decide +kernel

/-- **Names reported as external are not looked at again**, and every name that is checked is reported once at
most. -/
theorem C112_once (o : Opts) (se si : Ent → Bool) (scopes : List (List Ent)) (glob : List Ent) (g : Bool) (e : Ent) :
    let r := checkDistinct o se si scopes glob g e
    (r.1 = none ∨ r.2 = none) ∧ (g = false → r.1 = none) ∧
    (o.external = false → o.internal_ = false → r = (none, none)) := by
  unfold checkDistinct
  refine ⟨?_, ?_, ?_⟩
  · simp only []
    cases h : (if (g && o.external) = true then (checkExternal o.extLen o.extCI se glob e).1 else none) <;> simp
  · rintro rfl; simp
  · intro h1 h2; simp [h1, h2]

theorem C112_full_is_false : ¬ C112_full := by
  intro h
  have h1 := (h.1 6 false false [[long]] short).2
    ⟨long, by decide, by decide, by decide, by
      apply indistinct_of_eq; decide⟩
  rw [C112_order.2.1] at h1
  exact absurd h1 (by decide)

/-- The other half of the statement is false too. -/
theorem C112_external_is_false : ¬ ∀ (n : Nat) (ci : Bool) (glob : List Ent) (e : Ent),
    (checkExternal n ci (fun _ => true) glob e).1.isSome = true ↔
      ∃ oe ∈ glob, oe.addr ≠ e.addr ∧ Indistinct (counting n e) ci false e.raw oe.raw := by
  intro h
  have h1 := (h 6 true [short] long).2 ⟨short, by decide, by decide, by apply indistinct_of_eq; decide⟩
  rw [C112_order.2.2.1] at h1
  exact absurd h1 (by decide)

end Splint
