import Verif.Model.Intern
import Mathlib.Data.List.Forall2
/-!
C136: a number for each name.  C137: synonyms.
-/
namespace Splint.Intern

/-! ## Strings in memory -/

theorem cstr_iff {l : List (Option Nat)} {n : Name} :
    cstr l = some n ↔ (∀ c ∈ n, c ≠ 0) ∧ ∃ r, l = n.map some ++ some 0 :: r := by
  induction l generalizing n with
  | nil => simp [cstr]
  | cons x l ih =>
    match x with
    | none =>
      simp only [cstr]
      constructor
      · intro h; cases h
      · rintro ⟨_, r, h⟩
        cases n <;> simp at h
    | some 0 =>
      simp only [cstr]
      constructor
      · intro h
        cases h
        exact ⟨by simp, l, rfl⟩
      · rintro ⟨h, r, h'⟩
        cases n with
        | nil => rfl
        | cons c n =>
          simp at h'
          exact absurd h'.1.symm (h c (by simp))
    | some (c + 1) =>
      simp only [cstr, Option.map_eq_some_iff]
      constructor
      · rintro ⟨m, h1, rfl⟩
        obtain ⟨h2, r, h3⟩ := ih.1 h1
        refine ⟨?_, r, by simp [h3]⟩
        intro d hd
        rcases List.mem_cons.1 hd with rfl | hd
        · omega
        · exact h2 d hd
      · rintro ⟨h, r, h'⟩
        cases n with
        | nil => simp at h'
        | cons d n =>
          simp at h'
          refine ⟨n, ih.2 ⟨fun c hc => h c (by simp [hc]), r, h'.2⟩, by rw [h'.1]⟩

/-- A string is not changed by what happens behind it. -/
theorem cstr_keep {l l' : List (Option Nat)} {n : Name} {i f : Nat} (h : cstr (l.drop i) = some n)
    (hi : i + n.length + 1 ≤ f) (hl : l'.take f = l.take f) : cstr (l'.drop i) = some n := by
  obtain ⟨h1, r, h2⟩ := cstr_iff.1 h
  refine cstr_iff.2 ⟨h1, ?_⟩
  have key : (l'.drop i).take (n.length + 1) = (l.drop i).take (n.length + 1) := by
    rw [List.take_drop, List.take_drop]
    have e : ∀ m : List (Option Nat), m.take (i + (n.length + 1)) = (m.take f).take (i + (n.length + 1)) := by
      intro m
      rw [List.take_take, Nat.min_eq_left (by omega)]
    rw [e l', e l, hl]
  rw [h2] at key
  have k2 : (List.map some n ++ some 0 :: r).take (n.length + 1) = n.map some ++ [some 0] := by
    rw [List.take_append]
    simp
    rw [List.take_of_length_le (by simp)]
  rw [k2] at key
  refine ⟨(l'.drop i).drop (n.length + 1), ?_⟩
  conv => lhs; rw [← List.take_append_drop (n.length + 1) (l'.drop i), key]
  simp

/-! ## The table stands for a list of names -/

/-- the last name below `k` with this hash value, counted from 1; 0 if there is none -/
def prev (names : List Name) (h : Nat) : Nat → Nat
  | 0 => 0
  | k + 1 => if names[k]?.map hashOf = some h then k + 1 else prev names h k

theorem prev_zero {names : List Name} {h n : Nat} (hp : prev names h n = 0) {k : Nat} (hk : k < n) :
    names[k]?.map hashOf ≠ some h := by
  induction n with
  | zero => omega
  | succ n ih =>
    unfold prev at hp
    by_cases hn : names[n]?.map hashOf = some h
    · rw [if_pos hn] at hp; cases hp
    · rw [if_neg hn] at hp
      by_cases e : k = n
      · subst e; exact hn
      · exact ih hp (by omega)

theorem prev_succ {names : List Name} {h n m : Nat} (hp : prev names h n = m + 1) :
    m < n ∧ names[m]?.map hashOf = some h ∧ ∀ k, m < k → k < n → names[k]?.map hashOf ≠ some h := by
  induction n with
  | zero => simp [prev] at hp
  | succ n ih =>
    unfold prev at hp
    by_cases hn : names[n]?.map hashOf = some h
    · rw [if_pos hn] at hp
      cases hp
      exact ⟨by omega, hn, fun k h1 h2 => by omega⟩
    · rw [if_neg hn] at hp
      obtain ⟨h1, h2, h3⟩ := ih hp
      refine ⟨by omega, h2, fun k k1 k2 => ?_⟩
      by_cases e : k = n
      · subst e; exact hn
      · exact h3 k k1 (by omega)

theorem prev_append {names : List Name} {x : Name} {h k : Nat} (hk : k ≤ names.length) :
    prev (names ++ [x]) h k = prev names h k := by
  induction k with
  | zero => rfl
  | succ k ih =>
    unfold prev
    rw [List.getElem?_append_left (by omega), ih (by omega)]

/-- The table holds these names, in this order. -/
structure Rep (st : St) (names : List Name) : Prop where
  hash : ∀ h, st.hash h = prev names h names.length
  ents : ∀ (k : Nat) (n : Name), names[k]? = some n → ∃ e : Ent, st.ents[k + 1]? = some e
    ∧ e.next = prev names (hashOf n) k ∧ e.i + n.length + 1 ≤ st.freeChar
    ∧ cstr (st.chars.drop e.i) = some n
  count : (st.ents = [] ∧ names = [] ∧ st.maxEntry = 0) ∨
    (st.ents.length = names.length + 1 ∧ st.ents.length ≤ st.maxEntry)
  room : st.freeChar ≤ st.chars.length
  chars : st.chars.length = 0 ∨ initChars ≤ st.chars.length
  nodup : names.Nodup
  nul : ∀ n ∈ names, ∀ c ∈ n, c ≠ 0

theorem rep_init : Rep init [] :=
  ⟨fun _ => rfl, by simp, Or.inl ⟨rfl, rfl, rfl⟩, Nat.le_refl _, Or.inl rfl, List.nodup_nil, by simp⟩

theorem find_spec {st : St} {names : List Name} (hr : Rep st names) {n : Name} (fuel : Nat) :
    ∀ k, k ≤ fuel → k ≤ names.length → prev names (hashOf n) k ≠ 0 →
      (∃ j, j < k ∧ names[j]? = some n ∧ find st n fuel (prev names (hashOf n) k) = some (some (j + 1)))
      ∨ ((∀ j, j < k → names[j]? ≠ some n) ∧ find st n fuel (prev names (hashOf n) k) = some none) := by
  induction fuel with
  | zero =>
    intro k hk _ hp
    have : k = 0 := by omega
    subst this
    exact absurd rfl hp
  | succ fuel ih =>
    intro k hk hl hp
    obtain ⟨m, hm⟩ := Nat.exists_eq_succ_of_ne_zero hp
    rw [Nat.succ_eq_add_one] at hm
    rw [hm]
    obtain ⟨h1, h2, h3⟩ := prev_succ hm
    obtain ⟨x, hx⟩ : ∃ x, names[m]? = some x := ⟨_, List.getElem?_eq_getElem (by omega)⟩
    obtain ⟨e, g1, g2, _, g4⟩ := hr.ents m x hx
    have hhx : hashOf x = hashOf n := by simpa [hx] using h2
    rw [find, g1]
    dsimp only [Option.bind_some]
    rw [g4]
    dsimp only [Option.bind_some]
    by_cases hxn : x = n
    · subst hxn
      rw [if_pos rfl]
      exact Or.inl ⟨m, h1, hx, rfl⟩
    · rw [if_neg hxn]
      have notHere : ∀ j, m ≤ j → j < k → names[j]? ≠ some n := by
        intro j j1 j2 hj
        by_cases e1 : j = m
        · subst e1
          rw [hx] at hj
          exact hxn (Option.some.inj hj)
        · refine h3 j (by omega) j2 ?_
          rw [hj]
          rfl
      rw [g2, hhx]
      by_cases hz : prev names (hashOf n) m = 0
      · rw [if_pos hz]
        refine Or.inr ⟨fun j hj hc => ?_, rfl⟩
        by_cases hjm : j < m
        · refine prev_zero hz hjm ?_
          rw [hc]
          rfl
        · exact notHere j (by omega) hj hc
      · rw [if_neg hz]
        rcases ih m (by omega) (by omega) hz with ⟨j, j1, j2, j3⟩ | ⟨j1, j2⟩
        · exact Or.inl ⟨j, by omega, j2, j3⟩
        · refine Or.inr ⟨fun j hj hc => ?_, j2⟩
          by_cases hjm : j < m
          · exact j1 j hjm hc
          · exact notHere j (by omega) hj hc

/-- the number of characters there is room for -/
def roomFor (st : St) (n : Name) : Nat :=
  if st.freeChar + n.length + 1 > st.chars.length then
    (if st.chars.length = 0 then initChars else deltaChars * st.chars.length)
  else st.chars.length

theorem allocChar_spec {st : St} (hr : st.freeChar ≤ st.chars.length) {n : Name} (hn : ∀ c ∈ n, c ≠ 0) :
    (st.freeChar + n.length + 1 ≤ roomFor st n →
      ∃ chars', allocChar st n
          = some ({ st with chars := chars', freeChar := st.freeChar + n.length + 1 }, st.freeChar)
        ∧ chars'.length = roomFor st n ∧ chars'.take st.freeChar = st.chars.take st.freeChar
        ∧ cstr (chars'.drop st.freeChar) = some n)
    ∧ (¬ st.freeChar + n.length + 1 ≤ roomFor st n → allocChar st n = none) := by
  unfold allocChar roomFor
  dsimp only
  generalize hch : (if st.freeChar + n.length + 1 > st.chars.length then
      st.chars ++ List.replicate ((if st.chars.length = 0 then initChars else deltaChars * st.chars.length)
        - st.chars.length) none
    else st.chars) = chars
  have hlen : chars.length = (if st.freeChar + n.length + 1 > st.chars.length then
      (if st.chars.length = 0 then initChars else deltaChars * st.chars.length)
    else st.chars.length) := by
    rw [← hch]
    by_cases h1 : st.freeChar + n.length + 1 > st.chars.length
    · rw [if_pos h1, if_pos h1]
      by_cases h2 : st.chars.length = 0
      · rw [if_pos h2]
        simp
        omega
      · rw [if_neg h2]
        simp
        have : deltaChars * st.chars.length = 2 * st.chars.length := rfl
        omega
    · rw [if_neg h1, if_neg h1]
  have htake : chars.take st.freeChar = st.chars.take st.freeChar := by
    rw [← hch]
    split
    · rw [List.take_append_of_le_length hr]
    · rfl
  rw [← hlen]
  constructor
  · intro h
    rw [if_pos h]
    have hl : (chars.take st.freeChar).length = st.freeChar := by simp; omega
    refine ⟨_, rfl, ?_, ?_, ?_⟩
    · simp
      omega
    · rw [List.append_assoc, List.take_append_of_le_length (by omega), List.take_of_length_le (by omega), htake]
    · rw [List.append_assoc, List.drop_append, hl, List.drop_of_length_le (by omega)]
      refine cstr_iff.2 ⟨hn, chars.drop (st.freeChar + n.length + 1), ?_⟩
      simp
  · intro h
    rw [if_neg h]

theorem alloc_spec {st : St} {names : List Name} (hr : Rep st names) {n : Name} (hn : ∀ c ∈ n, c ≠ 0)
    (hnew : n ∉ names) :
    (st.freeChar + n.length + 1 ≤ roomFor st n →
      ∃ st', allocEntry st n (hashOf n) = some (st', names.length + 1) ∧ Rep st' (names ++ [n]))
    ∧ (¬ st.freeChar + n.length + 1 ≤ roomFor st n → allocEntry st n (hashOf n) = none) := by
  unfold allocEntry
  dsimp only
  generalize hst1 : (if st.ents.length = st.maxEntry then
      { st with
        ents := if st.maxEntry = 0 then [⟨0, 0⟩] else st.ents
        maxEntry := if st.maxEntry = 0 then 1024 else 2 * st.maxEntry }
    else st) = st1
  have hs : st1.hash = st.hash ∧ st1.chars = st.chars ∧ st1.freeChar = st.freeChar := by
    rw [← hst1]
    split <;> exact ⟨rfl, rfl, rfl⟩
  have hents : st1.ents.length = names.length + 1 ∧ st1.ents.length < st1.maxEntry
      ∧ ∀ k, k < names.length → st1.ents[k + 1]? = st.ents[k + 1]? := by
    rw [← hst1]
    rcases hr.count with ⟨h1, h2, h3⟩ | ⟨h1, h2⟩
    · rw [if_pos (by rw [h1, h3]; rfl)]
      simp [h2, h3]
    · by_cases h3 : st.ents.length = st.maxEntry
      · rw [if_pos h3]
        have : st.maxEntry ≠ 0 := by omega
        simp only [if_neg this]
        exact ⟨h1, by omega, fun _ _ => by trivial⟩
      · rw [if_neg h3]
        exact ⟨h1, by omega, fun _ _ => rfl⟩
  obtain ⟨e1, e2, e3⟩ := hents
  rw [if_pos e2]
  have ha := allocChar_spec (st := { st1 with hash := fun k => if k = hashOf n then st1.ents.length else st1.hash k })
    (n := n) (by dsimp only; rw [hs.2.1, hs.2.2]; exact hr.room) hn
  have hroom : roomFor { st1 with hash := fun k => if k = hashOf n then st1.ents.length else st1.hash k } n
      = roomFor st n := by
    unfold roomFor
    dsimp only
    rw [hs.2.1, hs.2.2]
  rw [hroom] at ha
  dsimp only at ha
  rw [hs.2.2] at ha ⊢
  constructor
  · intro h
    obtain ⟨chars', c1, c2, c3, c4⟩ := ha.1 h
    rw [hs.2.1] at c3
    rw [c1, e1]
    refine ⟨_, rfl, ?_⟩
    constructor
    · intro h'
      dsimp only
      rw [List.length_append]
      show _ = prev (names ++ [n]) h' (names.length + 1)
      unfold prev
      rw [List.getElem?_append_right (Nat.le_refl _), prev_append (Nat.le_refl _)]
      simp only [Nat.sub_self, List.getElem?_cons_zero, Option.map_some, Option.some.injEq]
      by_cases hh : h' = hashOf n
      · rw [if_pos hh, if_pos hh.symm]
      · rw [if_neg hh, if_neg (fun hc => hh hc.symm), hs.1, hr.hash]
    · intro k m hk
      dsimp only
      by_cases hkl : k < names.length
      · rw [List.getElem?_append_left hkl] at hk
        obtain ⟨e, g1, g2, g3, g4⟩ := hr.ents k m hk
        refine ⟨e, ?_, ?_, by omega, ?_⟩
        · rw [List.getElem?_append_left (by omega), e3 k hkl, g1]
        · rw [g2, prev_append (by omega)]
        · exact cstr_keep g4 (f := st.freeChar) (by omega) c3
      · rw [List.getElem?_append_right (by omega)] at hk
        have hk0 : k = names.length := by
          by_contra hc
          rw [List.getElem?_eq_none (by simp; omega)] at hk
          cases hk
        subst hk0
        simp at hk
        subst hk
        refine ⟨⟨st1.hash (hashOf n), st.freeChar⟩, ?_, ?_, ?_, c4⟩
        · rw [List.getElem?_append_right (by omega), e1]
          simp
        · rw [hs.1, hr.hash, prev_append (Nat.le_refl _)]
        · exact Nat.le_refl _
    · right
      dsimp only
      simp only [List.length_append, List.length_singleton]
      omega
    · dsimp only
      rw [c2]
      exact h
    · right
      dsimp only
      rw [c2]
      unfold roomFor
      rcases hr.chars with hc | hc
      · rw [if_pos (by omega), if_pos hc]
      · have : deltaChars * st.chars.length = 2 * st.chars.length := rfl
        split
        · split
          · exact Nat.le_refl _
          · omega
        · exact hc
    · rw [List.nodup_append]
      refine ⟨hr.nodup, by simp, ?_⟩
      intro a hma b hb hab
      rw [List.mem_singleton] at hb
      rw [hab, hb] at hma
      exact hnew hma
    · intro m hm
      rcases List.mem_append.1 hm with hm | hm
      · exact hr.nul m hm
      · simp at hm
        subst hm
        exact hn
  · intro h
    rw [ha.2 h]
    rfl

theorem fromChars_spec {st : St} {names : List Name} (hr : Rep st names) {n : Name} (hn : ∀ c ∈ n, c ≠ 0) :
    (∀ k, names[k]? = some n → fromChars st n = some (st, k + 1))
    ∧ (n ∉ names → st.freeChar + n.length + 1 ≤ roomFor st n →
      ∃ st', fromChars st n = some (st', names.length + 1) ∧ Rep st' (names ++ [n]))
    ∧ (n ∉ names → ¬ st.freeChar + n.length + 1 ≤ roomFor st n → fromChars st n = none) := by
  have hnone : n ∉ names → fromChars st n = allocEntry st n (hashOf n) := by
    intro hnew
    unfold fromChars
    by_cases h0 : st.hash (hashOf n) = 0
    · rw [if_pos h0]
    · rw [if_neg h0]
      rw [hr.hash] at h0 ⊢
      have hlen : names.length ≤ st.ents.length + 1 := by
        rcases hr.count with ⟨_, h2, _⟩ | ⟨h1, _⟩
        · rw [h2]; simp
        · omega
      rcases find_spec hr (st.ents.length + 1) names.length hlen (Nat.le_refl _) h0
        with ⟨j, _, j2, _⟩ | ⟨_, j2⟩
      · exact absurd (List.mem_of_getElem? j2) hnew
      · rw [j2]
        rfl
  refine ⟨?_, ?_, ?_⟩
  · intro k hk
    have hkl : k < names.length := (List.getElem?_eq_some_iff.1 hk).1
    unfold fromChars
    have h0 : st.hash (hashOf n) ≠ 0 := by
      rw [hr.hash]
      intro hz
      refine prev_zero hz hkl ?_
      rw [hk]
      rfl
    rw [if_neg h0]
    rw [hr.hash] at h0 ⊢
    have hlen : names.length ≤ st.ents.length + 1 := by
      rcases hr.count with ⟨_, h2, _⟩ | ⟨h1, _⟩
      · rw [h2]; simp
      · omega
    rcases find_spec hr (st.ents.length + 1) names.length hlen (Nat.le_refl _) h0
      with ⟨j, j0, j2, j3⟩ | ⟨j1, _⟩
    · rw [j3]
      have : j = k := by
        have := hr.nodup
        exact (List.getElem?_inj j0 this).1 (by rw [j2, hk])
      subst this
      rfl
    · exact absurd hk (j1 k hkl)
  · intro hnew hroom
    rw [hnone hnew]
    exact (alloc_spec hr hn hnew).1 hroom
  · intro hnew hroom
    rw [hnone hnew]
    exact (alloc_spec hr hn hnew).2 hroom


/-! ## C136 -/

/-- every symbol stands for its name, at the end as well, and different names have different symbols -/
def Interned (st : St) (ns : List Name) (rs : List Nat) : Prop :=
  List.Forall₂ (fun n r => r ≠ 0 ∧ toChars st r = some n) ns rs
  ∧ ∀ (i j : Nat) (a b : Name) (x y : Nat), ns[i]? = some a → ns[j]? = some b → rs[i]? = some x →
    rs[j]? = some y → (x = y ↔ a = b)

/-- **C136** at full strength: a symbol for every name. -/
def C136_full : Prop :=
  ∀ ns : List Name, (∀ n ∈ ns, ∀ c ∈ n, c ≠ 0) → ∃ st rs, calls init ns = some (st, rs) ∧ Interned st ns rs

theorem toChars_rep {st : St} {names : List Name} (hr : Rep st names) (k : Nat) :
    toChars st (k + 1) = names[k]? := by
  unfold toChars
  rw [if_neg (by omega)]
  cases hk : names[k]? with
  | some n =>
    obtain ⟨e, g1, _, _, g4⟩ := hr.ents k n hk
    rw [g1]
    exact g4
  | none =>
    have hk' : names.length ≤ k := by simpa using hk
    have : st.ents[k + 1]? = none := by
      rcases hr.count with ⟨h1, _, _⟩ | ⟨h1, _⟩
      · rw [h1]; rfl
      · rw [List.getElem?_eq_none]
        omega
    rw [this]
    rfl

theorem calls_rep {st : St} {names : List Name} (hr : Rep st names) {ns : List Name}
    (hn : ∀ n ∈ ns, ∀ c ∈ n, c ≠ 0) {st' : St} {rs : List Nat} (h : calls st ns = some (st', rs)) :
    ∃ names', Rep st' names' ∧ names <+: names'
      ∧ List.Forall₂ (fun n r => ∃ k, r = k + 1 ∧ names'[k]? = some n) ns rs := by
  induction ns generalizing st names rs with
  | nil =>
    cases h
    exact ⟨names, hr, List.prefix_rfl, .nil⟩
  | cons n ns ih =>
    unfold calls at h
    obtain ⟨r, h1, h2⟩ := Option.bind_eq_some_iff.1 h
    obtain ⟨q, h3, h4⟩ := Option.map_eq_some_iff.1 h2
    cases h4
    have sp := fromChars_spec hr (hn n (by simp))
    have hn' : ∀ m ∈ ns, ∀ c ∈ m, c ≠ 0 := fun m hm => hn m (by simp [hm])
    have keep : ∀ {l l' : List Name} {k : Nat}, l <+: l' → l[k]? = some n → l'[k]? = some n := by
      rintro l _ k ⟨t, rfl⟩ hk
      rw [List.getElem?_append_left (List.getElem?_eq_some_iff.1 hk).1, hk]
    by_cases hm : n ∈ names
    · obtain ⟨k, hk⟩ := List.mem_iff_getElem?.1 hm
      rw [sp.1 k hk] at h1
      cases h1
      obtain ⟨names', g1, g2, g3⟩ := ih hr hn' h3
      exact ⟨names', g1, g2, .cons ⟨k, rfl, keep g2 hk⟩ g3⟩
    · by_cases hroom : st.freeChar + n.length + 1 ≤ roomFor st n
      · obtain ⟨st1, k1, k2⟩ := sp.2.1 hm hroom
        rw [k1] at h1
        cases h1
        obtain ⟨names', g1, g2, g3⟩ := ih k2 hn' h3
        refine ⟨names', g1, (List.prefix_append names [n]).trans g2, .cons ⟨names.length, rfl, ?_⟩ g3⟩
        exact keep g2 (by rw [List.getElem?_append_right (Nat.le_refl _)]; simp)
      · rw [sp.2.2 hm hroom] at h1
        cases h1

/-- A table after any names have been looked up. -/
def Reached (st : St) : Prop :=
  ∃ (ns : List Name) (rs : List Nat), (∀ n ∈ ns, ∀ c ∈ n, c ≠ 0) ∧ calls init ns = some (st, rs)

/-- As long as memory is not overrun, the symbols are right. -/
theorem C136_partial {ns : List Name} (hn : ∀ n ∈ ns, ∀ c ∈ n, c ≠ 0) {st : St} {rs : List Nat}
    (h : calls init ns = some (st, rs)) : Interned st ns rs := by
  obtain ⟨names, h1, _, h3⟩ := calls_rep rep_init hn h
  constructor
  · refine h3.imp ?_
    rintro n r ⟨k, rfl, hk⟩
    exact ⟨by omega, by rw [toChars_rep h1, hk]⟩
  · intro i j a b x y ha hb hx hy
    have get : ∀ (i : Nat) (a : Name) (x : Nat), ns[i]? = some a → rs[i]? = some x →
        ∃ k, x = k + 1 ∧ names[k]? = some a := by
      intro i a x ha hx
      obtain ⟨l1, rfl⟩ := List.getElem?_eq_some_iff.1 ha
      obtain ⟨l2, rfl⟩ := List.getElem?_eq_some_iff.1 hx
      exact h3.get l1 l2
    obtain ⟨k, rfl, hk⟩ := get i a x ha hx
    obtain ⟨m, rfl, hm⟩ := get j b y hb hy
    constructor
    · intro he
      have : k = m := by omega
      subst this
      rw [hk] at hm
      exact Option.some.inj hm
    · rintro rfl
      have := (List.getElem?_inj (List.getElem?_eq_some_iff.1 hk).1 h1.nodup).1 (hk.trans hm.symm)
      omega

/-- A symbol keeps its name, and the name its symbol, whatever names are looked up later. -/
theorem C136_later {st st' : St} {n : Name} {ns : List Name} {rs : List Nat} {r : Nat} (h0 : Reached st)
    (hn : ∀ c ∈ n, c ≠ 0) (hns : ∀ n ∈ ns, ∀ c ∈ n, c ≠ 0) (h : calls st (n :: ns) = some (st', r :: rs)) :
    fromChars st' n = some (st', r) ∧ toChars st' r = some n := by
  obtain ⟨ns0, rs0, h1, h2⟩ := h0
  obtain ⟨names0, k1, _, _⟩ := calls_rep rep_init h1 h2
  have hall : ∀ m ∈ n :: ns, ∀ c ∈ m, c ≠ 0 := by
    intro m hm
    rcases List.mem_cons.1 hm with rfl | hm
    · exact hn
    · exact hns m hm
  obtain ⟨names, g1, _, g3⟩ := calls_rep k1 hall h
  cases g3 with
  | cons h _ =>
    obtain ⟨k, rfl, hk⟩ := h
    exact ⟨(fromChars_spec g1 hn).1 k hk, by rw [toChars_rep g1, hk]⟩

/-- Memory is overrun exactly by new names for which doubling the memory once is not enough. -/
theorem C136_exactly {st : St} (h0 : Reached st) {n : Name} (hn : ∀ c ∈ n, c ≠ 0) :
    fromChars st n = none ↔
      (∀ r, toChars st r ≠ some n) ∧ st.chars.length < st.freeChar + n.length + 1
        ∧ (if st.chars.length = 0 then 8192 else 2 * st.chars.length) < st.freeChar + n.length + 1 := by
  obtain ⟨ns0, rs0, h1, h2⟩ := h0
  obtain ⟨names, hr, _, _⟩ := calls_rep rep_init h1 h2
  have sp := fromChars_spec hr hn
  have hmem : (∀ r, toChars st r ≠ some n) ↔ n ∉ names := by
    constructor
    · intro h hm
      obtain ⟨k, hk⟩ := List.mem_iff_getElem?.1 hm
      exact h (k + 1) (by rw [toChars_rep hr, hk])
    · intro h r hc
      cases r with
      | zero => simp [toChars] at hc
      | succ k =>
        rw [toChars_rep hr] at hc
        exact h (List.mem_of_getElem? hc)
  have hroom : (¬ st.freeChar + n.length + 1 ≤ roomFor st n) ↔ st.chars.length < st.freeChar + n.length + 1
        ∧ (if st.chars.length = 0 then 8192 else 2 * st.chars.length) < st.freeChar + n.length + 1 := by
    unfold roomFor
    by_cases h : st.freeChar + n.length + 1 > st.chars.length
    · rw [if_pos h]
      have : (if st.chars.length = 0 then initChars else deltaChars * st.chars.length)
          = (if st.chars.length = 0 then 8192 else 2 * st.chars.length) := rfl
      rw [this]
      constructor
      · intro hc; exact ⟨h, by omega⟩
      · rintro ⟨_, hc⟩; omega
    · rw [if_neg h]
      constructor
      · intro hc; omega
      · rintro ⟨hc, _⟩; omega
  rw [hmem, ← hroom]
  constructor
  · intro h
    by_cases hm : n ∈ names
    · obtain ⟨k, hk⟩ := List.mem_iff_getElem?.1 hm
      rw [sp.1 k hk] at h
      cases h
    · refine ⟨hm, fun hc => ?_⟩
      obtain ⟨st', k1, _⟩ := sp.2.1 hm hc
      rw [k1] at h
      cases h
  · rintro ⟨hm, hc⟩
    exact sp.2.2 hm hc

/-- So names of less than 8192 characters never do. -/
theorem C136_short {ns : List Name} (hn : ∀ n ∈ ns, ∀ c ∈ n, c ≠ 0) (hlen : ∀ n ∈ ns, n.length < 8192) :
    ∃ st rs, calls init ns = some (st, rs) ∧ Interned st ns rs := by
  have key : ∀ (ns : List Name) (st : St) (names : List Name), Rep st names → (∀ n ∈ ns, ∀ c ∈ n, c ≠ 0) →
      (∀ n ∈ ns, n.length < 8192) → ∃ q, calls st ns = some q := by
    intro ns
    induction ns with
    | nil => exact fun st _ _ _ _ => ⟨_, rfl⟩
    | cons n ns ih =>
      intro st names hr hn hlen
      have sp := fromChars_spec hr (hn n (by simp))
      have hn' : ∀ m ∈ ns, ∀ c ∈ m, c ≠ 0 := fun m hm => hn m (by simp [hm])
      have hl' : ∀ m ∈ ns, m.length < 8192 := fun m hm => hlen m (by simp [hm])
      have hl := hlen n (by simp)
      have step : ∃ r names', fromChars st n = some r ∧ Rep r.1 names' := by
        by_cases hm : n ∈ names
        · obtain ⟨k, hk⟩ := List.mem_iff_getElem?.1 hm
          exact ⟨_, names, sp.1 k hk, hr⟩
        · have hroom : st.freeChar + n.length + 1 ≤ roomFor st n := by
            unfold roomFor
            have e1 : initChars = 8192 := rfl
            have e2 : deltaChars * st.chars.length = 2 * st.chars.length := rfl
            have h1 := hr.room
            have h2 := hr.chars
            split
            · split <;> omega
            · omega
          obtain ⟨st', k1, k2⟩ := sp.2.1 hm hroom
          exact ⟨_, _, k1, k2⟩
      obtain ⟨r, names', k1, k2⟩ := step
      obtain ⟨q, hq⟩ := ih r.1 names' k2 hn' hl'
      unfold calls
      rw [k1]
      dsimp only [Option.bind_some]
      rw [hq]
      exact ⟨_, rfl⟩
  obtain ⟨⟨st, rs⟩, h⟩ := key ns init [] rep_init hn hlen
  exact ⟨st, rs, h, C136_partial hn h⟩

/-- A first name of 8192 characters or more overruns the memory for names. -/
theorem C136_overrun {n : Name} (hn : ∀ c ∈ n, c ≠ 0) (hl : 8192 ≤ n.length) : fromChars init n = none := by
  refine (C136_exactly ⟨[], [], by simp, rfl⟩ hn).2 ⟨?_, ?_, ?_⟩
  · intro r
    unfold toChars
    split <;> simp [init]
  · simp [init]
  · simp [init]
    omega

theorem C136_full_is_false : ¬ C136_full := by
  intro h
  obtain ⟨n, n1, n2⟩ : ∃ n : Name, (∀ c ∈ n, c ≠ 0) ∧ 8192 ≤ n.length :=
    ⟨List.replicate 8192 1, fun c hc => by rw [(List.mem_replicate.1 hc).2]; decide,
      Nat.le_of_eq List.length_replicate.symm⟩
  have hn : ∀ m ∈ [n], ∀ c ∈ m, c ≠ 0 := by
    intro m hm
    rw [List.mem_singleton] at hm
    rw [hm]
    exact n1
  obtain ⟨st, rs, h1, _⟩ := h [n] hn
  unfold calls at h1
  rw [C136_overrun n1 n2] at h1
  cases h1

/-- `ab`, `bA`, `ab`: the first two are in the same chain. -/
example : (calls init [[97, 98], [98, 96], [97, 98], [200], []]).map Prod.snd = some [1, 2, 1, 3, 4]
    ∧ hashOf [97, 98] = hashOf [98, 96] ∧ hashOf [200] = 968 := by decide +kernel

/-! ## C137 -/

/-- The table has a token for the symbol. -/
def HasTok (t : Tabs) (sym : Nat) (k : Tok) : Prop := t.toks[sym]? = some (some k)

/-- what adding a synonym `ntok` for `otok` is to do: from then on it leads to the token of `otok`, which
is marked; nothing else is a synonym for something else than before -/
def Added (t t' : Tabs) (ntok otok : Nat) (k : Tok) : Prop :=
  isSyn t' ntok = true
  ∧ getTokenForSyn t' ntok = .ok (some { k with hasSyn := true })
  ∧ (∀ s, s ≠ ntok → isSyn t' s = isSyn t s)
  ∧ (∀ s, s ≠ ntok → isSyn t s = true → t'.syn[s]? = t.syn[s]?)
  ∧ (∀ s, s ≠ otok → t'.toks[s]? = t.toks[s]?)

/-- **C137** at full strength: a symbol that is not yet a synonym can be made one of any other token. -/
def C137_full (add : Tabs → Nat → Nat → Except Err Tabs) : Prop :=
  ∀ t ntok otok k, otok ≠ 0 → HasTok t otok k → isSyn t ntok = false →
    ∃ t', add t ntok otok = .ok t' ∧ Added t t' ntok otok k

theorem enlarge_get {α : Type} (l : List α) (size : Nat) (d : α) (i : Nat) :
    (enlarge l size d)[i]? = if i < l.length then l[i]? else if i < size then some d else none := by
  unfold enlarge
  by_cases h : i < l.length
  · rw [if_pos h, List.getElem?_append_left h]
  · rw [if_neg h, List.getElem?_append_right (by omega), List.getElem?_replicate]
    by_cases h2 : i < size
    · rw [if_pos h2, if_pos (by omega)]
    · rw [if_neg h2, if_neg (by omega)]

theorem enlarge_length {α : Type} (l : List α) (size : Nat) (d : α) :
    (enlarge l size d).length = max l.length size := by
  unfold enlarge
  simp
  omega

theorem enough_spec (sym fuel size : Nat) (h : sym < size + fuel) :
    sym < enough sym fuel size ∧ size ≤ enough sym fuel size := by
  induction fuel generalizing size with
  | zero => exact ⟨by unfold enough; omega, Nat.le_refl _⟩
  | succ fuel ih =>
    unfold enough
    by_cases hs : sym < size
    · rw [if_pos hs]
      exact ⟨hs, Nat.le_refl _⟩
    · rw [if_neg hs]
      by_cases h0 : size = 0
      · rw [if_pos h0]
        have := ih 1024 (by omega)
        exact ⟨this.1, by omega⟩
      · rw [if_neg h0]
        have := ih (2 * size) (by omega)
        exact ⟨this.1, by omega⟩

/-- A token that is asked for is there afterwards, with the symbol asked for if it is new, and no other
token is changed. -/
theorem C137_insert (t : Tabs) (code sym raw : Nat) (defined : Bool) :
    (∀ k, HasTok t sym k → (insertToken t code sym raw defined).2 = k)
    ∧ ((∀ k, ¬ HasTok t sym k) → (insertToken t code sym raw defined).2 = ⟨code, sym, raw, defined, false⟩)
    ∧ HasTok (insertToken t code sym raw defined).1 sym (insertToken t code sym raw defined).2
    ∧ (∀ s k, s ≠ sym → (HasTok (insertToken t code sym raw defined).1 s k ↔ HasTok t s k))
    ∧ (insertToken t code sym raw defined).1.syn = t.syn := by
  have hen := (enough_spec sym (sym + 1) t.toks.length (by omega)).1
  have get := enlarge_get t.toks (enough sym (sym + 1) t.toks.length) none
  have hsym : ∀ k, (enlarge t.toks (enough sym (sym + 1) t.toks.length) none)[sym]? = some (some k)
      ↔ HasTok t sym k := by
    intro k
    rw [get]
    unfold HasTok
    by_cases h : sym < t.toks.length
    · rw [if_pos h]
    · rw [if_neg h, if_pos hen, List.getElem?_eq_none (by omega)]
      simp
  have oth : ∀ s k, (enlarge t.toks (enough sym (sym + 1) t.toks.length) none)[s]? = some (some k)
      ↔ HasTok t s k := by
    intro s k
    rw [get]
    unfold HasTok
    by_cases h : s < t.toks.length
    · rw [if_pos h]
    · rw [if_neg h, List.getElem?_eq_none (by omega)]
      split <;> simp
  have hlen : sym < (enlarge t.toks (enough sym (sym + 1) t.toks.length) none).length := by
    rw [enlarge_length]
    omega
  by_cases hk : ∃ k, HasTok t sym k
  · obtain ⟨k, hk⟩ := hk
    have e : insertToken t code sym raw defined
        = ({ t with toks := enlarge t.toks (enough sym (sym + 1) t.toks.length) none }, k) := by
      unfold insertToken
      dsimp only
      rw [(hsym k).2 hk]
    rw [e]
    refine ⟨?_, fun h => absurd hk (h k), (hsym k).2 hk, fun s k' _ => oth s k', rfl⟩
    intro k' hk'
    unfold HasTok at hk hk'
    rw [hk] at hk'
    exact Option.some.inj (Option.some.inj hk')
  · push Not at hk
    have e : insertToken t code sym raw defined
        = (⟨(enlarge t.toks (enough sym (sym + 1) t.toks.length) none).set sym
              (some ⟨code, sym, raw, defined, false⟩), t.syn⟩, ⟨code, sym, raw, defined, false⟩) := by
      unfold insertToken
      dsimp only
      split
      next k hc => exact absurd ((hsym k).1 hc) (hk k)
      next => rfl
    rw [e]
    refine ⟨fun k h => absurd h (hk k), fun _ => rfl, ?_, ?_, rfl⟩
    · unfold HasTok
      dsimp only
      rw [List.getElem?_set_self hlen]
    · intro s k hs
      unfold HasTok
      dsimp only
      rw [List.getElem?_set_ne (fun h => hs h.symm)]
      exact oth s k

theorem fill_spec {t : Tabs} {ntok otok : Nat} {k : Tok} (ho : otok ≠ 0) (hk : HasTok t otok k)
    (hz : t.syn[ntok]? = some 0) : ∃ t', fillSyn t ntok otok = .ok t' ∧ Added t t' ntok otok k := by
  unfold HasTok at hk
  have hn : ntok < t.syn.length := (List.getElem?_eq_some_iff.1 hz).1
  have hol : otok < t.toks.length := (List.getElem?_eq_some_iff.1 hk).1
  refine ⟨{ t with syn := t.syn.set ntok otok, toks := t.toks.set otok (some { k with hasSyn := true }) }, ?_, ?_⟩
  · unfold fillSyn
    rw [hz]
    unfold setHasSyn
    rw [hk]
    rfl
  · refine ⟨?_, ?_, ?_, ?_, ?_⟩
    · unfold isSyn
      dsimp only
      rw [List.getElem?_set_self hn]
      simpa using ho
    · unfold getTokenForSyn
      dsimp only
      rw [List.getElem?_set_self hn]
      dsimp only
      unfold getToken
      dsimp only
      rw [List.getElem?_set_self hol]
    · intro s hs
      unfold isSyn
      dsimp only
      rw [List.getElem?_set_ne (fun h => hs h.symm)]
    · intro s hs _
      dsimp only
      rw [List.getElem?_set_ne (fun h => hs h.symm)]
    · intro s hs
      dsimp only
      rw [List.getElem?_set_ne (fun h => hs h.symm)]

theorem fill_outside {t : Tabs} {ntok otok : Nat} (h : t.syn.length ≤ ntok) :
    fillSyn t ntok otok = .error .outside := by
  unfold fillSyn
  rw [List.getElem?_eq_none h]

theorem enlarged_spec {t : Tabs} {ntok otok size : Nat} {k : Tok} (ho : otok ≠ 0) (hk : HasTok t otok k)
    (hs : isSyn t ntok = false) :
    (ntok < max t.syn.length size → ∃ t', fillSyn { t with syn := enlarge t.syn size 0 } ntok otok = .ok t'
      ∧ Added t t' ntok otok k)
    ∧ (¬ ntok < max t.syn.length size →
      fillSyn { t with syn := enlarge t.syn size 0 } ntok otok = .error .outside) := by
  have get := enlarge_get t.syn size 0
  constructor
  · intro h
    have hz : (enlarge t.syn size 0)[ntok]? = some 0 := by
      rw [get]
      by_cases hl : ntok < t.syn.length
      · rw [if_pos hl]
        unfold isSyn at hs
        rw [List.getElem?_eq_getElem hl] at hs ⊢
        simpa using hs
      · rw [if_neg hl, if_pos (by omega)]
    obtain ⟨t', h1, h2⟩ := fill_spec (t := { t with syn := enlarge t.syn size 0 }) ho hk hz
    refine ⟨t', h1, h2.1, h2.2.1, ?_, ?_, h2.2.2.2.2⟩
    · intro s hs'
      rw [h2.2.2.1 s hs']
      unfold isSyn
      dsimp only
      rw [get]
      by_cases hl : s < t.syn.length
      · rw [if_pos hl]
      · rw [if_neg hl, List.getElem?_eq_none (by omega)]
        by_cases h3 : s < size
        · rw [if_pos h3]; rfl
        · rw [if_neg h3]
    · intro s hs' hsy
      have hl : s < t.syn.length := by
        by_contra hl
        unfold isSyn at hsy
        rw [List.getElem?_eq_none (by omega)] at hsy
        cases hsy
      rw [h2.2.2.2.1 s hs' ?_]
      · show (enlarge t.syn size 0)[s]? = _
        rw [get, if_pos hl]
      · unfold isSyn at hsy ⊢
        dsimp only
        rw [get, if_pos hl]
        exact hsy
  · intro h
    exact fill_outside (by dsimp only; rw [enlarge_length]; omega)

/-- The LSL table: what is in bounds. -/
theorem C137_lsl_exactly {t : Tabs} {ntok otok : Nat} {k : Tok} (ho : otok ≠ 0) (hk : HasTok t otok k)
    (hs : isSyn t ntok = false) :
    if ntok < t.syn.length ∨ (t.syn.length < otok ∧ ntok < max otok (t.syn.length + 256)) then
      ∃ t', lslAddSyn t ntok otok = .ok t' ∧ Added t t' ntok otok k
    else lslAddSyn t ntok otok = .error .outside := by
  unfold lslAddSyn
  by_cases h1 : t.syn.length ≤ ntok
  · rw [if_pos h1]
    by_cases h2 : otok ≤ t.syn.length
    · rw [if_neg (by omega)]
      have : synGrow t.syn otok = t.syn := by unfold synGrow; rw [if_pos h2]
      rw [this]
      exact fill_outside h1
    · have : synGrow t.syn otok = enlarge t.syn (max otok (t.syn.length + 256)) 0 := by
        unfold synGrow
        rw [if_neg h2]
        congr 1
        split <;> omega
      rw [this]
      have sp := enlarged_spec (size := max otok (t.syn.length + 256)) ho hk hs
      by_cases h3 : ntok < max otok (t.syn.length + 256)
      · rw [if_pos (Or.inr ⟨by omega, h3⟩)]
        exact sp.1 (by omega)
      · rw [if_neg (by omega)]
        exact sp.2 (by omega)
  · rw [if_neg h1, if_pos (Or.inl (by omega))]
    refine fill_spec ho hk ?_
    have hl : ntok < t.syn.length := by omega
    unfold isSyn at hs
    rw [List.getElem?_eq_getElem hl] at hs ⊢
    simpa using hs

/-- The LCL table: what is in bounds. -/
theorem C137_lcl_exactly {t : Tabs} {ntok otok : Nat} {k : Tok} (ho : otok ≠ 0) (hk : HasTok t otok k)
    (hs : isSyn t ntok = false) :
    if ntok < enough otok (otok + 1) t.syn.length then
      ∃ t', lclAddSyn t ntok otok = .ok t' ∧ Added t t' ntok otok k
    else lclAddSyn t ntok otok = .error .outside := by
  have sp := enlarged_spec (size := enough otok (otok + 1) t.syn.length) ho hk hs
  have hen := enough_spec otok (otok + 1) t.syn.length (by omega)
  unfold lclAddSyn
  split
  next h => exact sp.1 (by omega)
  next h => exact sp.2 (by omega)

/-- Synonyms for later symbols are safe in both tables. -/
theorem C137_partial {t : Tabs} {ntok otok : Nat} {k : Tok} (ho : otok ≠ 0) (hk : HasTok t otok k)
    (hs : isSyn t ntok = false) (hlt : ntok < otok) :
    (∃ t', lclAddSyn t ntok otok = .ok t' ∧ Added t t' ntok otok k)
    ∧ ∃ t', lslAddSyn t ntok otok = .ok t' ∧ Added t t' ntok otok k := by
  have hen := enough_spec otok (otok + 1) t.syn.length (by omega)
  constructor
  · have := C137_lcl_exactly ho hk hs
    rwa [if_pos (by omega)] at this
  · have := C137_lsl_exactly ho hk hs
    rwa [if_pos (by omega)] at this

/-- A synonym whose symbol is not in the table, for an old token, is written outside of it. -/
theorem C137_outside {t : Tabs} {ntok otok : Nat} (h1 : t.syn.length ≤ ntok) :
    (otok ≤ t.syn.length → lslAddSyn t ntok otok = .error .outside)
    ∧ (otok < t.syn.length → lclAddSyn t ntok otok = .error .outside) := by
  constructor
  · intro h
    unfold lslAddSyn
    rw [if_pos h1]
    have : synGrow t.syn otok = t.syn := by unfold synGrow; rw [if_pos h]
    rw [this]
    exact fill_outside h1
  · intro h
    unfold lclAddSyn
    have : enough otok (otok + 1) t.syn.length = t.syn.length := by
      rw [enough, if_pos h]
    rw [this]
    refine fill_outside ?_
    dsimp only
    rw [enlarge_length]
    omega

/-- a token for symbol 5 -/
def five : Tabs := (insertToken lslInit 0 5 0 true).1

theorem C137_full_is_false : ¬ C137_full lslAddSyn ∧ ¬ C137_full lclAddSyn := by
  have hk : HasTok five 5 ⟨0, 5, 0, true, false⟩ := (C137_insert lslInit 0 5 0 true).2.2.1
  have hsyn : five.syn = List.replicate 256 0 := (C137_insert lslInit 0 5 0 true).2.2.2.2
  have hs : isSyn five 300 = false := by
    unfold isSyn
    rw [hsyn, List.getElem?_replicate]
    rfl
  have out := C137_outside (t := five) (ntok := 300) (otok := 5) (by rw [hsyn, List.length_replicate]; decide)
  constructor <;> intro h <;> obtain ⟨t', h1, _⟩ := h five 300 5 _ (by decide) hk hs
  · rw [out.1 (by rw [hsyn, List.length_replicate]; decide)] at h1
    cases h1
  · rw [out.2 (by rw [hsyn, List.length_replicate]; decide)] at h1
    cases h1

example : ∃ t', lslAddSyn five 7 5 = .ok t' ∧ Added five t' 7 5 ⟨0, 5, 0, true, false⟩ := by
  have hk : HasTok five 5 ⟨0, 5, 0, true, false⟩ := (C137_insert lslInit 0 5 0 true).2.2.1
  have hsyn : five.syn = List.replicate 256 0 := (C137_insert lslInit 0 5 0 true).2.2.2.2
  generalize five = t at hk hsyn
  have hs : isSyn t 7 = false := by
    unfold isSyn
    rw [hsyn, List.getElem?_replicate]
    rfl
  have := C137_lsl_exactly (by decide) hk hs
  rwa [if_pos (Or.inl (by rw [hsyn, List.length_replicate]; decide))] at this

end Splint.Intern
