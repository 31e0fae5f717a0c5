import Verif.Proofs.TypeTable
/-!
C134: the types made from a type.  C135: the alternatives of a combined type.
-/
namespace Splint.TypeTable
open Splint.TypeTable.Spec

/-! ## C134 -/

/-- The type has this description. -/
def Desc (st : St) (p : Nat) (ct : Ct) : Prop := ∃ e, st.tab[p]? = some e ∧ e.ct = ct

/-- Making a type is repeatable: whatever is done in between, the same operation leads to the same number
and leaves the table as it is. -/
def Repeatable (nm : Names) (st : St) (op : Op) : Prop :=
  ∀ st' p, step nm st op = some (st', p) → ∀ st'', Later nm st' st'' → step nm st'' op = some (st'', p)

/-- **C134** at full strength: every pointer and array type made from a type is made once, and leads
back to it. -/
def C134_full : Prop :=
  ∀ nm st, Reachable nm st → ∀ op, (∃ c, op = .pointer c) ∨ (∃ c, op = .array c) ∨ (∃ c n, op = .fixedArray c n)
    ∨ (∃ u, op = .user u) → Repeatable nm st op

/-- No operation changes what a number stands for, and what its base is. -/
theorem C134_kept {nm : Names} {st st' : St} (hr : Reachable nm st) (hl : Later nm st st') {p : Nat} {ct : Ct}
    (h : Desc st p ct) : Desc st' p ct ∧ baseOf st' p = baseOf st p := by
  obtain ⟨e, h1, h2⟩ := h
  obtain ⟨e', g1, g2, g3⟩ := (inv_later (inv_reachable hr) hl).2 p e h1
  refine ⟨⟨e', g1, g2.trans h2⟩, ?_⟩
  simp [baseOf, h1, g1, g3]

/-- Every type has a pointer type, and its base is the type. -/
theorem C134_pointer {nm : Names} {st : St} (hr : Reachable nm st) {c : Nat} (hc : c < st.tab.length) :
    ∃ st' p, step nm st (.pointer c) = some (st', p) ∧ Desc st' p (.ptr c) ∧ baseOf st' p = some c := by
  have h := inv_reachable hr
  obtain ⟨e, he⟩ := get_of_lt hc
  show ∃ st' p, makePointer st c = some (st', p) ∧ _
  rw [makePointer_eq h.tab, he]
  cases hp : e.ptr with
  | some p =>
    obtain ⟨e', g1, g2, g3⟩ := h.tab.ptr1 c e p he hp
    exact ⟨st, p, by simp [hp], ⟨e', g1, g2⟩, by simp [baseOf, g1, g3]⟩
  | none =>
    have g : (st.tab.set c { e with ptr := some st.tab.length } ++ [⟨.ptr c, some c, none, none⟩])[st.tab.length]?
        = some ⟨.ptr c, some c, none, none⟩ := (get_set_push hc).2 (Or.inr (Or.inr ⟨rfl, rfl⟩))
    refine ⟨{ st with tab := st.tab.set c { e with ptr := some st.tab.length }
      ++ [⟨.ptr c, some c, none, none⟩] }, st.tab.length, by simp [hp, push], ⟨_, g, rfl⟩, ?_⟩
    unfold baseOf
    dsimp only
    rw [g]
    rfl

theorem C134_array {nm : Names} {st : St} (hr : Reachable nm st) {c : Nat} (hc : c < st.tab.length) :
    ∃ st' p, step nm st (.array c) = some (st', p) ∧ Desc st' p (.array c) ∧ baseOf st' p = some c := by
  have h := inv_reachable hr
  obtain ⟨e, he⟩ := get_of_lt hc
  show ∃ st' p, makeArray st c = some (st', p) ∧ _
  unfold makeArray
  rw [he]
  cases hp : e.array with
  | some p =>
    obtain ⟨e', g1, g2, g3⟩ := h.tab.arr1 c e p he hp
    exact ⟨st, p, by simp [hp], ⟨e', g1, g2⟩, by simp [baseOf, g1, g3]⟩
  | none =>
    have g : (st.tab.set c { e with array := some st.tab.length }
        ++ [⟨.array c, some c, none, none⟩])[st.tab.length]?
        = some ⟨.array c, some c, none, none⟩ := (get_set_push hc).2 (Or.inr (Or.inr ⟨rfl, rfl⟩))
    refine ⟨{ st with tab := st.tab.set c { e with array := some st.tab.length }
      ++ [⟨.array c, some c, none, none⟩] }, st.tab.length, by simp [hp, push], ⟨_, g, rfl⟩, ?_⟩
    unfold baseOf
    dsimp only
    rw [g]
    rfl

/-- Arrays with a size lead back to the type as well. -/
theorem C134_fixed_base {nm : Names} {st : St} {c n : Nat} (hc : c < st.tab.length) :
    ∃ st' p, step nm st (.fixedArray c n) = some (st', p) ∧ Desc st' p (.farray c n)
      ∧ baseOf st' p = some c := by
  obtain ⟨e, he⟩ := get_of_lt hc
  have g : (st.tab ++ [⟨.farray c n, some c, none, none⟩])[st.tab.length]?
      = some ⟨.farray c n, some c, none, none⟩ := get_push.2 (Or.inr ⟨rfl, rfl⟩)
  refine ⟨{ st with tab := st.tab ++ [⟨.farray c n, some c, none, none⟩] }, st.tab.length, ?_, ⟨_, g, rfl⟩, ?_⟩
  · show makeFixedArray st c n = _
    simp [makeFixedArray, he, push]
  · unfold baseOf
    dsimp only
    rw [g]
    rfl

/-- There is at most one pointer type and one array type to a type, and one number for a type name. -/
theorem C134_unique {nm : Names} {st : St} (hr : Reachable nm st) {p q : Nat} {ct : Ct}
    (hct : (∃ c, ct = .ptr c) ∨ (∃ c, ct = .array c) ∨ ∃ u, ct = .user u) (h1 : Desc st p ct) (h2 : Desc st q ct) :
    p = q := by
  have h := (inv_reachable hr).tab
  obtain ⟨e, h1, g1⟩ := h1
  obtain ⟨e', h2, g2⟩ := h2
  rcases hct with ⟨c, rfl⟩ | ⟨c, rfl⟩ | ⟨u, rfl⟩
  · obtain ⟨e1, k1, k2⟩ := h.ptr2 p e c h1 g1
    obtain ⟨e2, k3, k4⟩ := h.ptr2 q e' c h2 g2
    rw [k1] at k3
    cases k3
    rw [k2] at k4
    exact Option.some.inj k4
  · obtain ⟨e1, k1, k2⟩ := h.arr2 p e c h1 g1
    obtain ⟨e2, k3, k4⟩ := h.arr2 q e' c h2 g2
    rw [k1] at k3
    cases k3
    rw [k2] at k4
    exact Option.some.inj k4
  · exact h.user p e q e' u h1 g1 h2 g2

/-- What is there already is not made again. -/
theorem pointer_there {nm : Names} {st : St} (hr : Reachable nm st) {c p : Nat} (h : Desc st p (.ptr c)) :
    step nm st (.pointer c) = some (st, p) := by
  have hi := (inv_reachable hr).tab
  obtain ⟨e, h1, h2⟩ := h
  obtain ⟨e1, k1, k2⟩ := hi.ptr2 p e c h1 h2
  show makePointer st c = _
  rw [makePointer_eq hi, k1, Option.map_some, k2]

theorem array_there {nm : Names} {st : St} (hr : Reachable nm st) {c p : Nat} (h : Desc st p (.array c)) :
    step nm st (.array c) = some (st, p) := by
  have hi := (inv_reachable hr).tab
  obtain ⟨e, h1, h2⟩ := h
  obtain ⟨e1, k1, k2⟩ := hi.arr2 p e c h1 h2
  show makeArray st c = _
  unfold makeArray
  rw [k1, Option.map_some, k2]

theorem user_there {nm : Names} {st : St} (hr : Reachable nm st) {u p : Nat} (h : Desc st p (.user u)) :
    step nm st (.user u) = some (st, p) := by
  have hi := (inv_reachable hr).tab
  have h' := h
  obtain ⟨e, h1, h2⟩ := h
  show some (createUser st u) = _
  unfold createUser
  split
  next i hf =>
    have := (findBack_spec hf).1
    obtain ⟨e', k1, k2⟩ := get_ct (by simpa using this)
    rw [C134_unique hr (Or.inr (Or.inr ⟨u, rfl⟩)) ⟨e', k1, k2⟩ h']
  next hf =>
    have := findBack_none hf (Nat.zero_le p) (lt_of_get h1)
    simp [h1, h2] at this

theorem later_trans {nm : Names} {a b c : St} (h : Later nm a b) (h' : Later nm b c) : Later nm a c := by
  induction h' with
  | refl => exact h
  | step _ hs ih => exact .step ih hs

/-- Pointer types, array types and type names that are made twice are the same type, whatever happens in
between. -/
theorem C134_again_partial {nm : Names} {st : St} (hr : Reachable nm st) {op : Op}
    (hop : (∃ c, op = .pointer c) ∨ (∃ c, op = .array c) ∨ ∃ u, op = .user u) : Repeatable nm st op := by
  intro st' p hs st'' hl
  have hr' : Reachable nm st' := .step hr hs
  have hr'' : Reachable nm st'' := later_trans hr' hl
  have hv : ∀ c : Nat, st.tab[c]? = none → ¬ c < st.tab.length := by
    intro c hn
    simpa using hn
  rcases hop with ⟨c, rfl⟩ | ⟨c, rfl⟩ | ⟨u, rfl⟩
  · have hc : c < st.tab.length := by
      by_contra hc
      have hs' : makePointer st c = some (st', p) := hs
      rw [makePointer_eq (inv_reachable hr).tab, List.getElem?_eq_none (by omega)] at hs'
      cases hs'
    obtain ⟨_, _, k1, k2, _⟩ := C134_pointer (nm := nm) hr hc
    rw [hs] at k1
    cases k1
    exact pointer_there hr'' (C134_kept hr' hl k2).1
  · have hc : c < st.tab.length := by
      by_contra hc
      have hs' : makeArray st c = some (st', p) := hs
      unfold makeArray at hs'
      rw [List.getElem?_eq_none (by omega)] at hs'
      cases hs'
    obtain ⟨_, _, k1, k2, _⟩ := C134_array (nm := nm) hr hc
    rw [hs] at k1
    cases k1
    exact array_there hr'' (C134_kept hr' hl k2).1
  · have hd : Desc st' p (.user u) := by
      have hs' : some (createUser st u) = some (st', p) := hs
      unfold createUser at hs'
      split at hs'
      next i hf =>
        cases hs'
        have := (findBack_spec hf).1
        obtain ⟨e', k1, k2⟩ := get_ct (by simpa using this)
        exact ⟨e', k1, k2⟩
      next hf =>
        simp only [push, Option.some.injEq, Prod.mk.injEq] at hs'
        obtain ⟨rfl, rfl⟩ := hs'
        exact ⟨_, get_push.2 (Or.inr ⟨rfl, rfl⟩), rfl⟩
    exact user_there hr'' (C134_kept hr' hl hd).1

/-- An array with a size is a new type each time, and `ctype_compare` tells the two apart. -/
theorem C134_fixed {nm : Names} {st st' st'' : St} {c n p q : Nat} (hr : Reachable nm st)
    (h1 : step nm st (.fixedArray c n) = some (st', p)) (h2 : step nm st' (.fixedArray c n) = some (st'', q)) :
    Desc st'' p (.farray c n) ∧ Desc st'' q (.farray c n) ∧ p ≠ q
      ∧ same st''.tab (st''.tab.length + 1) p q = false := by
  have hr' : Reachable nm st' := .step hr h1
  have hlen := (inv_reachable hr).tab.len
  have hc : c < st.tab.length := by
    by_contra hc
    have hs' : makeFixedArray st c n = some (st', p) := h1
    unfold makeFixedArray at hs'
    rw [List.getElem?_eq_none (by omega)] at hs'
    cases hs'
  have hp : p = st.tab.length ∧ st'.tab = st.tab ++ [⟨.farray c n, some c, none, none⟩] := by
    have hs' : makeFixedArray st c n = some (st', p) := h1
    unfold makeFixedArray at hs'
    obtain ⟨e, he⟩ := get_of_lt hc
    rw [he] at hs'
    simp only [Option.map_some, push, Option.some.injEq, Prod.mk.injEq] at hs'
    exact ⟨hs'.2.symm, by rw [← hs'.1]⟩
  have hq : q = st'.tab.length ∧ st''.tab = st'.tab ++ [⟨.farray c n, some c, none, none⟩] := by
    have hs' : makeFixedArray st' c n = some (st'', q) := h2
    unfold makeFixedArray at hs'
    obtain ⟨e, he⟩ := get_of_lt (t := st'.tab) (i := c) (by rw [hp.2]; simp; omega)
    rw [he] at hs'
    simp only [Option.map_some, push, Option.some.injEq, Prod.mk.injEq] at hs'
    exact ⟨hs'.2.symm, by rw [← hs'.1]⟩
  have g1 : st''.tab[p]? = some ⟨.farray c n, some c, none, none⟩ := by
    rw [hq.2]
    exact get_push.2 (Or.inl (by rw [hp.2]; exact get_push.2 (Or.inr ⟨hp.1, rfl⟩)))
  have g2 : st''.tab[q]? = some ⟨.farray c n, some c, none, none⟩ := by
    rw [hq.2]
    exact get_push.2 (Or.inr ⟨hq.1, rfl⟩)
  have hlt : p < q := by
    have := lt_of_get (t := st'.tab) (i := p) (by rw [hp.2]; exact get_push.2 (Or.inr ⟨hp.1, rfl⟩))
    omega
  refine ⟨⟨_, g1, rfl⟩, ⟨_, g2, rfl⟩, by omega, ?_⟩
  rw [same]
  rw [if_neg (show ¬ p = unknown by have : (0 : Nat) ≤ lastPredefined := by decide
                                    show ¬ p = 0
                                    omega)]
  rw [if_neg (show ¬ q = unknown by show ¬ q = 0
                                    omega)]
  rw [g1, g2]
  simp
  omega

/-- names that stand for nothing special -/
def noNames : Names := ⟨fun _ => false, fun _ => false⟩

theorem C134_full_is_false : ¬ C134_full := by
  intro h
  obtain ⟨st', p, h1, _⟩ := C134_fixed_base (nm := noNames) (st := init) (c := int) (n := 3) (by decide)
  have := h noNames init (.refl _) (.fixedArray int 3) (Or.inr (Or.inr (Or.inl ⟨_, _, rfl⟩))) st' p h1 st' (.refl _)
  exact (C134_fixed (.refl _) h1 this).2.2.1 rfl

/-! ## C135 -/

/-- the alternatives of a combined type are those of both, where a type that is not known adds nothing -/
def C135_full : Prop :=
  ∀ nm st, Reachable nm st → ∀ c1 c2 st' n, step nm st (.conj c1 c2) = some (st', n) →
    ∃ d1 d2, Stands nm st.tab c1 d1 ∧ Stands nm st.tab c2 d2
      ∧ (c1 = unknown → n = c2) ∧ (c2 = unknown → n = c1)
      ∧ (c1 ≠ unknown → c2 ≠ unknown → ∀ l, Alt st'.tab n l ↔ Alt st.tab d1 l ∨ Alt st.tab d2 l)

/-- The alternatives of two types that are known are those of both. -/
theorem C135_alts_partial {nm : Names} {st st' : St} (hr : Reachable nm st) {c1 c2 n : Nat}
    (hs : step nm st (.conj c1 c2) = some (st', n)) (k1 : c1 ≠ unknown) (k2 : c2 ≠ unknown) :
    ∃ d1 d2, Stands nm st.tab c1 d1 ∧ Stands nm st.tab c2 d2
      ∧ ∀ l, Alt st'.tab n l ↔ Alt st.tab d1 l ∨ Alt st.tab d2 l := by
  have h := inv_reachable hr
  rw [step] at hs
  split at hs
  next hv =>
    have m := makeConj_made (nm := nm) h hv.1 hv.2 k1 k2
    rw [Option.some.inj hs] at m
    exact ⟨_, _, norm_stands h.tab hv.1, norm_stands h.tab hv.2, m.alt⟩
  next => cases hs

/-- Combining with a type that is not known loses the other one. -/
theorem C135_unknown {nm : Names} {st st' : St} (hr : Reachable nm st) {c1 c2 n : Nat}
    (hs : step nm st (.conj c1 c2) = some (st', n)) (hu : c1 = unknown ∨ c2 = unknown) :
    st' = st ∧ n = unknown := by
  rw [step] at hs
  split at hs
  · rw [makeConj_unknown (inv_reachable hr) _ _ hu] at hs
    cases hs
    exact ⟨rfl, rfl⟩
  · cases hs

/-- There is no type that matches every other: it is the type that is not known. -/
theorem C135_anytype {nm : Names} {st : St} (hr : Reachable nm st) :
    step nm st .anytype = some (st, unknown) ∧ ∀ c, isAnytype st c = true ↔ c = unknown := by
  have h := inv_reachable hr
  refine ⟨by rw [step, makeAnytype_eq h], ?_⟩
  intro c
  unfold isAnytype
  rw [h.var.cany]
  simp

/-- Alternatives given in an annotation are kept as they are. -/
theorem C135_explicit {nm : Names} {st st' : St} (hr : Reachable nm st) {c1 c2 n : Nat}
    (hs : step nm st (.explicitConj c1 c2) = some (st', n)) :
    if c1 = unknown ∨ c2 = unknown then st' = st ∧ n = unknown
    else ∀ l, Alt st'.tab n l ↔ Alt st.tab c1 l ∨ Alt st.tab c2 l := by
  have h := inv_reachable hr
  rw [step] at hs
  split at hs
  next hv =>
    unfold makeExplicitConj isAnytype at hs
    rw [h.var.cany] at hs
    by_cases hu : c1 = unknown ∨ c2 = unknown
    · rw [if_pos hu]
      rw [if_pos (by simpa using hu), makeAnytype_eq h] at hs
      cases hs
      exact ⟨rfl, rfl⟩
    · rw [if_neg hu]
      rw [if_neg (by simpa using hu)] at hs
      have m := addConj_made h true hv.1 hv.2
      rw [Option.some.inj hs] at m
      exact m.alt
  next => cases hs

theorem C135_full_is_false : ¬ C135_full := by
  intro h
  obtain ⟨_, _, _, _, h3, _⟩ := h noNames init (.refl _) unknown int init unknown (by decide)
  exact absurd (h3 rfl) (by decide)

/-- Two types that are combined twice in a row give the same type. -/
theorem C135_again {nm : Names} {st st' : St} (hr : Reachable nm st) {c1 c2 n : Nat}
    (hs : step nm st (.conj c1 c2) = some (st', n)) : step nm st' (.conj c1 c2) = some (st', n) := by
  have h := inv_reachable hr
  have hr' : Reachable nm st' := .step hr hs
  have h' := inv_reachable hr'
  have hE := (inv_step h hs).2
  rw [step] at hs
  split at hs
  next hv =>
    have len : ∀ c, c < st.tab.length → c < st'.tab.length := by
      intro c hc
      obtain ⟨e, he⟩ := get_of_lt hc
      obtain ⟨_, g, _⟩ := hE c e he
      exact lt_of_get g
    rw [step, if_pos ⟨len _ hv.1, len _ hv.2⟩]
    by_cases hu : c1 = unknown ∨ c2 = unknown
    · rw [makeConj_unknown h _ _ hu] at hs
      cases hs
      rw [makeConj_unknown h _ _ hu]
    · push Not at hu
      have hs' := Option.some.inj hs
      rw [makeConj_known h hu.1 hu.2] at hs'
      have s1 := (norm_stands (nm := nm) h.tab hv.1).valid h.tab hv.1
      have s2 := (norm_stands (nm := nm) h.tab hv.2).valid h.tab hv.2
      rw [makeConj_known h' hu.1 hu.2, norm_ext hE h.tab hv.1, norm_ext hE h.tab hv.2]
      have := conjKnown_again h s1.1 s2.1
      rw [hs'] at this
      rw [this]
  next => cases hs

/-- a sequence of operations -/
def run (nm : Names) (st : St) : List Op → Option (St × List Nat)
  | [] => some (st, [])
  | op :: ops => (step nm st op).bind fun r => (run nm r.1 ops).map fun q => (q.1, r.2 :: q.2)

theorem run_later {nm : Names} {st st' : St} {ops : List Op} {ns : List Nat}
    (h : run nm st ops = some (st', ns)) : Later nm st st' := by
  induction ops generalizing st ns with
  | nil => cases h; exact .refl _
  | cons op ops ih =>
    unfold run at h
    obtain ⟨r, h1, h2⟩ := Option.bind_eq_some_iff.1 h
    obtain ⟨q, h3, h4⟩ := Option.map_eq_some_iff.1 h2
    cases h4
    exact later_trans (.step (.refl _) (by rw [h1])) (ih h3)

/-- But after sixteen further types they are combined anew. -/
theorem C135_forgotten :
    (run noNames init (.conj int string :: List.replicate 16 (.other 0) ++ [.conj int string])).map Prod.snd
      = some (58 :: (List.range 16).map (· + 59) ++ [75])
    ∧ (run noNames init (.conj int string :: List.replicate 15 (.other 0) ++ [.conj int string])).map Prod.snd
      = some (58 :: (List.range 15).map (· + 59) ++ [58]) := by
  decide +kernel

/-! ## Cases -/

/-- `char *` and `int **`, and an array of them -/
example : (run noNames init [.pointer char, .pointer int, .pointer 24, .array 58, .pointer 24, .user 7,
    .array 58, .user 7, .fixedArray int 3, .fixedArray int 3]).map Prod.snd
    = some [23, 24, 58, 59, 58, 60, 59, 60, 61, 62] := by decide +kernel

/-- `int | char`, `int | bool | float`, with a name for the boolean type -/
example : (run ⟨(· == 7), fun _ => false⟩ init [.user 7, .conj int char, .conj int 58, .conj 60 float,
    .conj int bool, .conj 60 float, .explicitConj int char, .conj unknown int]).map Prod.snd
    = some [58, 59, 60, 61, 60, 61, 62, 0] := by decide +kernel

example : ∃ st, Reachable noNames st ∧ Desc st 58 (.ptr 24) ∧ baseOf st 58 = some 24 := by
  have h : (run noNames init [.pointer 24]).isSome = true := by decide +kernel
  obtain ⟨⟨st, ns⟩, h⟩ := Option.isSome_iff_exists.1 h
  obtain ⟨st', p, h1, h2, h3⟩ := C134_pointer (nm := noNames) (.refl init) (c := 24) (by decide)
  have hp : (step noNames init (.pointer 24)).map Prod.snd = some 58 := by decide +kernel
  rw [h1] at hp
  cases hp
  exact ⟨st', .step (.refl _) h1, h2, h3⟩

example : ∃ st' n, step noNames init (.conj int char) = some (st', n)
    ∧ ∀ l, Alt st'.tab n l ↔ l = .num int ∨ l = .num char := by
  have h : (step noNames init (.conj int char)).isSome = true := by decide +kernel
  obtain ⟨⟨st', n⟩, h⟩ := Option.isSome_iff_exists.1 h
  obtain ⟨d1, d2, h1, h2, h3⟩ := C135_alts_partial (.refl init) h (by decide) (by decide)
  have e1 : d1 = int := by
    rcases h1 with ⟨_, e, u, g, g', _⟩ | ⟨_, e, u, g, g', _⟩ | ⟨g, _⟩
    · cases g; cases g'
    · cases g; cases g'
    · exact g
  have e2 : d2 = char := by
    rcases h2 with ⟨_, e, u, g, g', _⟩ | ⟨_, e, u, g, g', _⟩ | ⟨g, _⟩
    · cases g; cases g'
    · cases g; cases g'
    · exact g
  subst e1 e2
  refine ⟨st', n, h, fun l => ?_⟩
  rw [h3, tabInv_init.alt_pre (by decide), tabInv_init.alt_pre (by decide)]

end Splint.TypeTable
