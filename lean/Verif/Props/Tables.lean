import Verif.Model.Tables
import Verif.Proofs.CString
import Mathlib.Data.List.Nodup
/-!
# C13, C14: keyed tables
-/
namespace Splint.Tables

theorem equal_iff (a b : Key) : cstring_equal a b = true ↔ chars a = chars b := by
  rcases a with _ | a <;> rcases b with _ | b
  · simp [cstring_equal, cstring_isEmpty, chars]
  · simp only [cstring_equal, cstring_isEmpty, chars, Option.getD_none, Option.getD_some]
    rw [eq_comm (a := ([] : Bytes))]; simp
  · simp [cstring_equal, cstring_isEmpty, chars]
  · simp [cstring_equal, chars, strcmp_eq_zero]

/-! ## C14: hashing -/

/-- C14, in full: every key can be hashed, reading only inside the random table, and the bucket is
inside the table. -/
def C14_full : Prop :=
  ∀ rnd : List Nat, rnd.length = 256 → ∀ (V : Type) (t : Table V), t.buckets ≠ [] → ∀ k : Key,
    ∃ i, bucketOf (hashKey rnd) t k = some i ∧ i < t.buckets.length

theorem hashLoop_isSome (rnd : List Nat) (hr : rnd.length = 256) (s : Bytes) (h : Nat) :
    (∃ n, hashLoop rnd h s = some n) ↔ ∀ c ∈ s, c.toNat < 128 := by
  induction s generalizing h with
  | nil => simp [hashLoop]
  | cons c cs ih =>
    simp only [hashLoop, List.mem_cons, forall_eq_or_imp]
    have hc := c.toNat_lt
    by_cases hlt : c.toNat < 128
    · have hi : charIndex c = (c.toNat : Int) := by
        simp only [charIndex, hlt, if_true]
        exact Int.tmod_eq_of_lt (by omega) (by omega)
      have hg : c.toNat < rnd.length := by omega
      simp only [readRandom, hi, Int.natCast_nonneg, if_true, Int.toNat_natCast,
        List.getElem?_eq_getElem hg, Option.bind_eq_bind, Option.bind_some]
      rw [ih]
      simp [hlt]
    · have hi : charIndex c < 0 := by
        simp only [charIndex, hlt, if_false]
        rw [show (c.toNat : Int) - 256 = -((256 - c.toNat : Nat) : Int) by omega, Int.neg_tmod,
          Int.tmod_eq_of_lt (by omega) (by omega)]
        omega
      simp only [readRandom, show ¬ 0 ≤ charIndex c by omega, if_false, Option.bind_eq_bind,
        Option.bind_none, reduceCtorEq, exists_false, false_iff]
      exact fun hh => hlt hh.1

/-- C14: a key is hashed inside the random table exactly when none of its characters has the sign
bit set, and then its bucket is inside the table. Missing for the full claim: the other keys, for
which the index is negative. -/
theorem C14_hash_partial (rnd : List Nat) (hr : rnd.length = 256) {V : Type} (t : Table V)
    (ht : t.buckets ≠ []) (k : Key) :
    (∃ i, bucketOf (hashKey rnd) t k = some i ∧ i < t.buckets.length) ↔
      ∀ c ∈ k.getD [], c.toNat < 128 := by
  rw [← hashLoop_isSome rnd hr (k.getD []) 0]
  have hl : 0 < t.buckets.length := List.length_pos_iff.2 ht
  unfold bucketOf hashKey chars
  cases hashLoop rnd 0 (k.getD []) with
  | none => simp
  | some n => simp [Nat.pos_iff_ne_zero.1 hl, Nat.mod_lt _ hl]

/-- C14 in full does not hold: the one-byte name é (Latin-1) reads outside the table. -/
theorem C14_full_is_false : ¬ C14_full := by
  intro h
  have := (C14_hash_partial (List.replicate 256 7) List.length_replicate (V := Int) ⟨[none], 0⟩ (by simp)
    (some [0xe9])).1 (h _ List.length_replicate _ _ (by simp) _) 0xe9 (by simp)
  exact absurd this (by decide)

example : ∀ c ∈ (some [97, 98] : Key).getD [], c.toNat < 128 := by decide
example : bucketOf (hashKey (List.replicate 256 7)) (create 5 : Table Int) (some [97, 98]) =
    some 4 := by rfl

/-! ## C13: histories -/

/-- The specification: what each key stands for. -/
abbrev Map (V : Type) := Bytes → Option V

/-- Changing a map at one key. -/
def Map.put {V : Type} (m : Map V) (k : Bytes) (v : Option V) : Map V :=
  fun k' => if k' = k then v else m k'

variable {V : Type}

/-- A bucket's entries. -/
def ents (b : Option (Bucket V)) : List (Entry V) := (b.map (·.entries)).getD []

/-- Invariant of bucket number `i` of a table with `n` buckets. -/
structure BInv (hash : Bytes → Option Nat) (dne : V) (n i : Nat) (m : Map V)
    (b : Option (Bucket V)) : Prop where
  alloc : ∀ c, b = some c → 0 ≤ c.nspace ∧ (c.entries.length : Int) + c.nspace ≤ c.cap
  keys : ((ents b).map (fun e => chars e.key)).Nodup
  rep : ∀ k v, (∃ e ∈ ents b, chars e.key = k ∧ e.val = v) ↔
    (∃ h, hash k = some h ∧ h % n = i) ∧ m k = some v
  val : ∀ e ∈ ents b, e.val ≠ dne

/-- The table represents the map. -/
structure Inv (hash : Bytes → Option Nat) (dne : V) (t : Table V) (m : Map V) : Prop where
  pos : 0 < t.buckets.length
  bkt : ∀ i b, t.buckets[i]? = some b → BInv hash dne t.buckets.length i m b
  hashed : ∀ k v, m k = some v → ∃ h, hash k = some h

variable {hash : Bytes → Option Nat} {dne : V} {t : Table V} {m : Map V}

theorem bucketOf_some {h : Nat} (hp : 0 < t.buckets.length) {k : Key} (hk : hash (chars k) = some h) :
    bucketOf hash t k = some (h % t.buckets.length) := by
  simp [bucketOf, hk, Nat.pos_iff_ne_zero.1 hp]

/-- Looking a key up in its bucket. -/
theorem lookupIn_spec {n i : Nat} {b : Option (Bucket V)} (hb : BInv hash dne n i m b) (k : Key)
    (hk : ∃ h, hash (chars k) = some h ∧ h % n = i) : lookupIn dne b k = (m (chars k)).getD dne := by
  have find : ∀ l : List (Entry V), (match l.find? (fun e => cstring_equal e.key k) with
      | none => dne | some e => e.val) = lookupIn dne b k → l = ents b →
      lookupIn dne b k = (m (chars k)).getD dne := by
    intro l hl hl2
    rw [← hl]
    cases hf : l.find? (fun e => cstring_equal e.key k) with
    | none =>
      rw [List.find?_eq_none] at hf
      have : m (chars k) = none := by
        cases hm : m (chars k) with
        | none => rfl
        | some v =>
          obtain ⟨e, he, he1, -⟩ := (hb.rep (chars k) v).2 ⟨hk, hm⟩
          exact absurd ((equal_iff _ _).2 he1) (hf e (hl2 ▸ he))
      simp [this]
    | some e =>
      have h1 := List.find?_some hf
      have h2 := List.mem_of_find?_eq_some hf
      have := ((hb.rep (chars k) e.val).1 ⟨e, hl2 ▸ h2, (equal_iff _ _).1 h1, rfl⟩).2
      simp [this]
  cases b with
  | none => exact find [] (by simp [lookupIn]) rfl
  | some c => exact find c.entries rfl rfl

/-- C13, the answer of a lookup in a table that represents a map. -/
theorem lookup_spec (hi : Inv hash dne t m) (k : Key) (hk : ∃ h, hash (chars k) = some h) :
    lookup hash dne t k = some ((m (chars k)).getD dne) := by
  obtain ⟨h, hk⟩ := hk
  have hlt : h % t.buckets.length < t.buckets.length := Nat.mod_lt _ hi.pos
  have hg := List.getElem?_eq_getElem hlt
  simp only [lookup, bucketOf_some hi.pos hk, Option.bind_eq_bind, Option.bind_some, hg]
  rw [lookupIn_spec (hi.bkt _ _ hg) k ⟨h, hk, rfl⟩]

/-- Replacing the bucket of a key by one that represents the changed map. -/
theorem set_bucket (hi : Inv hash dne t m) (k : Bytes) (h : Nat) (hk : hash k = some h)
    (w : Option V) (b' : Bucket V) (nent : Nat)
    (hb : BInv hash dne t.buckets.length (h % t.buckets.length) (m.put k w) (some b')) :
    Inv hash dne ⟨t.buckets.set (h % t.buckets.length) (some b'), nent⟩ (m.put k w) := by
  refine ⟨by simpa using hi.pos, ?_, ?_⟩
  · intro i b hb'
    simp only [List.length_set]
    rw [List.getElem?_set] at hb'
    by_cases hik : h % t.buckets.length = i
    · subst hik
      have hlt : h % t.buckets.length < t.buckets.length := Nat.mod_lt _ hi.pos
      simp only [if_true, hlt] at hb'
      cases hb'
      exact hb
    · rw [if_neg hik] at hb'
      have old := hi.bkt i b hb'
      refine ⟨old.alloc, old.keys, ?_, old.val⟩
      intro k' v
      rw [old.rep]
      constructor
      · rintro ⟨⟨h', e1, e2⟩, e3⟩
        refine ⟨⟨h', e1, e2⟩, ?_⟩
        have : k' ≠ k := by
          rintro rfl
          rw [hk] at e1; cases e1; exact hik e2
        simp [Map.put, this, e3]
      · rintro ⟨⟨h', e1, e2⟩, e3⟩
        refine ⟨⟨h', e1, e2⟩, ?_⟩
        have : k' ≠ k := by
          rintro rfl
          rw [hk] at e1; cases e1; exact hik e2
        simpa [Map.put, this] using e3
  · intro k' v hv
    by_cases hkk : k' = k
    · exact ⟨h, hkk ▸ hk⟩
    · exact hi.hashed k' v (by simpa [Map.put, hkk] using hv)

variable [DecidableEq V]

/-- Adding an entry whose key is new. -/
theorem addTo_spec {n i h : Nat} {b : Option (Bucket V)} (hb : BInv hash dne n i m b)
    (e : Entry V) (hk : hash (chars e.key) = some h) (hi : h % n = i)
    (hm : m (chars e.key) = none) (hv : e.val ≠ dne) :
    ∃ b', addTo dne b e = some b' ∧
      BInv hash dne n i (m.put (chars e.key) (some e.val)) (some b') := by
  have hl : lookupIn dne b e.key = dne := by
    rw [lookupIn_spec hb e.key ⟨h, hk, hi⟩, hm]; rfl
  obtain ⟨b', h1, h2, h3⟩ : ∃ b', addTo dne b e = some b' ∧ b'.entries = ents b ++ [e] ∧
      0 ≤ b'.nspace ∧ (b'.entries.length : Int) + b'.nspace ≤ b'.cap := by
    cases b with
    | none => exact ⟨Bucket.single e, rfl, rfl, by simp [Bucket.single], by simp [Bucket.single]⟩
    | some c =>
      obtain ⟨a1, a2⟩ := hb.alloc c rfl
      simp only [addTo, Bucket.add, hl, ne_eq, not_true_eq_false, if_false]
      by_cases hs : c.nspace = 0
      · simp only [hs, if_true, Bucket.grow]
        rw [if_pos (by omega)]
        exact ⟨_, rfl, rfl, by simp, by simp; omega⟩
      · simp only [hs, if_false]
        rw [if_pos (by omega)]
        exact ⟨_, rfl, rfl, by simp; omega, by simp; omega⟩
  have he : ents (some b') = ents b ++ [e] := h2
  refine ⟨b', h1, ⟨by rintro _ ⟨rfl⟩; exact h3, ?_, ?_, ?_⟩⟩
  · rw [he, List.map_append, List.nodup_append]
    refine ⟨hb.keys, by simp, ?_⟩
    intro a ha a' ha' hEq
    simp only [List.map_cons, List.map_nil, List.mem_singleton] at ha'
    obtain ⟨x, hx, rfl⟩ := List.mem_map.1 ha
    have := ((hb.rep (chars x.key) x.val).1 ⟨x, hx, rfl, rfl⟩).2
    rw [hEq, ha', hm] at this
    cases this
  · intro k v
    rw [he]
    simp only [List.mem_append, List.mem_singleton, or_and_right, exists_or, exists_eq_left]
    rw [hb.rep]
    by_cases hkk : k = chars e.key
    · subst hkk
      simp only [hm, reduceCtorEq, and_false, true_and, false_or, Map.put, if_true,
        Option.some.injEq]
      constructor
      · exact fun hv => ⟨⟨h, hk, hi⟩, hv⟩
      · exact fun hv => hv.2
    · simp [Map.put, hkk, Ne.symm hkk]
  · intro x hx
    rw [he] at hx
    rcases List.mem_append.1 hx with hx | hx
    · exact hb.val x hx
    · rw [List.mem_singleton] at hx; exact hx ▸ hv

/-- Adding an entry whose key is there fails. -/
theorem addTo_dup {n i h : Nat} {b : Option (Bucket V)} (hb : BInv hash dne n i m b)
    (e : Entry V) (hk : hash (chars e.key) = some h) (hi : h % n = i) {v : V}
    (hm : m (chars e.key) = some v) : addTo dne b e = none := by
  have hl : lookupIn dne b e.key = v := by
    rw [lookupIn_spec hb e.key ⟨h, hk, hi⟩, hm]; rfl
  obtain ⟨x, hx, -, hxv⟩ := (hb.rep (chars e.key) v).2 ⟨⟨h, hk, hi⟩, hm⟩
  have hv : v ≠ dne := hxv ▸ hb.val x hx
  cases b with
  | none => simp [ents] at hx
  | some c => simp [addTo, Bucket.add, hl, hv]

theorem addEntry_spec (hi : Inv hash dne t m) (e : Entry V) (hk : ∃ h, hash (chars e.key) = some h)
    (hm : m (chars e.key) = none) (hv : e.val ≠ dne) :
    ∃ t', addEntry hash dne t e = some t' ∧ t'.buckets.length = t.buckets.length ∧
      Inv hash dne t' (m.put (chars e.key) (some e.val)) := by
  obtain ⟨h, hk⟩ := hk
  have hlt : h % t.buckets.length < t.buckets.length := Nat.mod_lt _ hi.pos
  have hg := List.getElem?_eq_getElem hlt
  obtain ⟨b', h1, h2⟩ := addTo_spec (hi.bkt _ _ hg) e hk rfl hm hv
  refine ⟨_, ?_, ?_, set_bucket hi (chars e.key) h hk (some e.val) b' (t.nentries + 1) h2⟩
  · simp only [addEntry, bucketOf_some hi.pos hk, Option.bind_eq_bind, Option.bind_some, hg, h1]
  · simp

theorem addAll_spec (l : List (Entry V)) (t : Table V) (m : Map V) (hi : Inv hash dne t m)
    (hl : ∀ e ∈ l, (∃ h, hash (chars e.key) = some h) ∧ m (chars e.key) = none ∧ e.val ≠ dne)
    (hn : (l.map (fun e => chars e.key)).Nodup) :
    ∃ t' m', addAll hash dne t l = some t' ∧ Inv hash dne t' m' ∧
      ∀ k v, m' k = some v ↔ m k = some v ∨ ∃ e ∈ l, chars e.key = k ∧ e.val = v := by
  induction l generalizing t m with
  | nil => exact ⟨t, m, rfl, hi, by simp⟩
  | cons e l ih =>
    obtain ⟨g1, g2, g3⟩ := hl e (by simp)
    obtain ⟨t1, a1, -, a2⟩ := addEntry_spec hi e g1 g2 g3
    rw [List.map_cons, List.nodup_cons] at hn
    obtain ⟨t', m', i1, i2, i3⟩ := ih t1 _ a2 (by
      intro x hx
      obtain ⟨x1, x2, x3⟩ := hl x (by simp [hx])
      refine ⟨x1, ?_, x3⟩
      have : chars x.key ≠ chars e.key := by
        intro h
        exact hn.1 (List.mem_map.2 ⟨x, hx, h⟩)
      simp [Map.put, this, x2]) hn.2
    refine ⟨t', m', by simp [addAll, a1, i1], i2, ?_⟩
    intro k v
    rw [i3]
    by_cases hk : k = chars e.key
    · subst hk
      simp [Map.put, g2]
    · simp [Map.put, hk, Ne.symm hk]

theorem replicate_inv (n : Nat) (hn : 0 < n) (c : Nat) :
    Inv hash dne (⟨List.replicate n none, c⟩ : Table V) (fun _ => none) := by
  refine ⟨by simpa using hn, ?_, by simp⟩
  intro i b hb
  have : b = none := by
    have := List.mem_of_getElem? hb
    exact List.eq_of_mem_replicate this
  subst this
  refine ⟨?_, ?_, ?_, ?_⟩ <;> simp [ents]

theorem rehash_spec (hi : Inv hash dne t m) :
    ∃ t', rehash hash dne t = some t' ∧ Inv hash dne t' m := by
  have hall : ∀ k v, (∃ e ∈ allEntries t, chars e.key = k ∧ e.val = v) ↔ m k = some v := by
    intro k v
    constructor
    · rintro ⟨e, he, h1, h2⟩
      obtain ⟨b, hb, heb⟩ := List.mem_flatMap.1 he
      obtain ⟨i, hib⟩ := List.getElem?_of_mem hb
      exact (((hi.bkt i b hib).rep k v).1 ⟨e, heb, h1, h2⟩).2
    · intro hm
      obtain ⟨h, hh⟩ := hi.hashed k v hm
      have hlt : h % t.buckets.length < t.buckets.length := Nat.mod_lt _ hi.pos
      have hg := List.getElem?_eq_getElem hlt
      obtain ⟨e, he, h1, h2⟩ := ((hi.bkt _ _ hg).rep k v).2 ⟨⟨h, hh, rfl⟩, hm⟩
      exact ⟨e, List.mem_flatMap.2 ⟨_, List.mem_of_getElem? hg, he⟩, h1, h2⟩
  have hnd : ((allEntries t).map (fun e => chars e.key)).Nodup := by
    unfold allEntries
    rw [List.map_flatMap]
    unfold List.Nodup
    rw [List.pairwise_flatMap]
    constructor
    · intro b hb
      obtain ⟨i, hib⟩ := List.getElem?_of_mem hb
      exact (hi.bkt i b hib).keys
    · rw [List.pairwise_iff_getElem]
      intro i j h1 h2 hij x hx y hy
      obtain ⟨e, he, rfl⟩ := List.mem_map.1 hx
      obtain ⟨e', he', rfl⟩ := List.mem_map.1 hy
      obtain ⟨⟨h, a1, a2⟩, -⟩ := ((hi.bkt i _ (List.getElem?_eq_getElem h1)).rep _ _).1 ⟨e, he, rfl, rfl⟩
      obtain ⟨⟨h', b1, b2⟩, -⟩ :=
        ((hi.bkt j _ (List.getElem?_eq_getElem h2)).rep _ _).1 ⟨e', he', rfl, rfl⟩
      intro hEq
      rw [hEq, b1] at a1
      cases a1
      omega
  obtain ⟨t', m', h1, h2, h3⟩ := addAll_spec (hash := hash) (dne := dne) (allEntries t)
    ⟨List.replicate (1 + t.buckets.length * 26244 / 10000) none, 0⟩ (fun _ => none)
    (replicate_inv _ (by omega) 0) (by
      intro e he
      obtain ⟨b, hb, heb⟩ := List.mem_flatMap.1 he
      obtain ⟨i, hib⟩ := List.getElem?_of_mem hb
      refine ⟨?_, rfl, (hi.bkt i b hib).val e heb⟩
      exact hi.hashed _ _ ((hall _ _).1 ⟨e, he, rfl, rfl⟩)) hnd
  refine ⟨t', h1, ?_⟩
  have : m' = m := by
    funext k
    have key : ∀ v, m' k = some v ↔ m k = some v := by
      intro v
      rw [h3, ← hall]
      simp
    cases hm : m k with
    | some v => exact (key v).2 hm
    | none =>
      cases hm' : m' k with
      | none => rfl
      | some v => rw [(key v).1 hm'] at hm; cases hm
  exact this ▸ h2


theorem store_eq (t : Table V) (e : Entry V) :
    store hash dne t e = (addEntry hash dne t e).map (fun t' => { t' with nentries := t.nentries }) := by
  unfold store addEntry
  cases bucketOf hash t e.key with
  | none => rfl
  | some i =>
    cases hb : t.buckets[i]? with
    | none => simp [hb]
    | some b => cases ha : addTo dne b e <;> simp [hb, ha]

theorem addEntry_dup (hi : Inv hash dne t m) (e : Entry V) (hk : ∃ h, hash (chars e.key) = some h)
    {v : V} (hm : m (chars e.key) = some v) : addEntry hash dne t e = none := by
  obtain ⟨h, hk⟩ := hk
  have hlt : h % t.buckets.length < t.buckets.length := Nat.mod_lt _ hi.pos
  have hg := List.getElem?_eq_getElem hlt
  simp only [addEntry, bucketOf_some hi.pos hk, Option.bind_eq_bind, Option.bind_some, hg,
    addTo_dup (hi.bkt _ _ hg) e hk rfl hm, Option.bind_none]

theorem Inv.nent (hi : Inv hash dne t m) (n : Nat) : Inv hash dne { t with nentries := n } m :=
  ⟨hi.pos, hi.bkt, hi.hashed⟩

theorem store_spec (hi : Inv hash dne t m) (k : Key) (v : V) (hk : ∃ h, hash (chars k) = some h)
    (hv : v ≠ dne) :
    match m (chars k) with
    | some _ => store hash dne t ⟨k, v⟩ = none
    | none => ∃ t', store hash dne t ⟨k, v⟩ = some t' ∧ Inv hash dne t' (m.put (chars k) (some v)) := by
  split
  · rename_i hm
    rw [store_eq, addEntry_dup hi ⟨k, v⟩ hk hm]; rfl
  · rename_i hm
    obtain ⟨t', h1, -, h2⟩ := addEntry_spec hi ⟨k, v⟩ hk hm hv
    exact ⟨_, by rw [store_eq, h1]; rfl, h2.nent _⟩

/-! ### Changing and removing -/

theorem changeFirst_none (f : Entry V → Entry V) (k : Key) (l : List (Entry V)) :
    changeFirst f k l = none ↔ ∀ e ∈ l, chars e.key ≠ chars k := by
  induction l with
  | nil => simp [changeFirst]
  | cons e l ih =>
    simp only [changeFirst, List.mem_cons, forall_eq_or_imp]
    by_cases h : cstring_equal e.key k = true
    · simp [h, (equal_iff _ _).1 h]
    · have : chars e.key ≠ chars k := fun hh => h ((equal_iff _ _).2 hh)
      simp [h, this, ih]

/-- With distinct keys, changing the first entry with the key changes all of them. -/
theorem changeFirst_some (f : Entry V → Entry V) (k : Key) (l l' : List (Entry V))
    (hn : (l.map (fun e => chars e.key)).Nodup) (h : changeFirst f k l = some l') :
    l' = l.map (fun e => if chars e.key = chars k then f e else e) := by
  induction l generalizing l' with
  | nil => simp [changeFirst] at h
  | cons e l ih =>
    rw [List.map_cons, List.nodup_cons] at hn
    simp only [changeFirst] at h
    by_cases hk : cstring_equal e.key k = true
    · rw [if_pos hk] at h
      cases h
      have hk' := (equal_iff _ _).1 hk
      simp only [List.map_cons, hk', if_true, List.cons.injEq, true_and]
      conv_lhs => rw [← List.map_id l]
      apply List.map_congr_left
      intro x hx
      have : chars x.key ≠ chars k := by
        intro hh
        exact hn.1 (List.mem_map.2 ⟨x, hx, by rw [hh, hk']⟩)
      simp [this]
    · rw [if_neg hk] at h
      obtain ⟨l1, h1, rfl⟩ := Option.map_eq_some_iff.1 h
      have : chars e.key ≠ chars k := fun hh => hk ((equal_iff _ _).2 hh)
      simp [this, ih l1 hn.2 h1]

/-- The bucket with every entry of the key changed, when the key stays and its value becomes `v`. -/
theorem change_bucket {n i h : Nat} {c : Bucket V} (hb : BInv hash dne n i m (some c)) (k : Key)
    (hk : hash (chars k) = some h) (hi : h % n = i) (f : Entry V → Entry V) (v : V) (hv : v ≠ dne)
    (hin : ∃ e ∈ c.entries, chars e.key = chars k)
    (hf : ∀ e ∈ c.entries, chars e.key = chars k → chars (f e).key = chars k ∧ (f e).val = v) :
    BInv hash dne n i (m.put (chars k) (some v))
      (some { c with entries := c.entries.map (fun e => if chars e.key = chars k then f e else e) }) := by
  have hkey : ∀ e ∈ c.entries, chars (if chars e.key = chars k then f e else e).key = chars e.key := by
    intro e he
    by_cases h : chars e.key = chars k
    · simp [h, (hf e he h).1]
    · simp [h]
  refine ⟨?_, ?_, ?_, ?_⟩
  · rintro _ ⟨rfl⟩
    simpa using hb.alloc c rfl
  · have hks := hb.keys
    simp only [ents, Option.map_some, Option.getD_some, List.map_map] at hks ⊢
    rw [show List.map ((fun e => chars e.key) ∘ fun e => if chars e.key = chars k then f e else e)
      c.entries = c.entries.map (fun e => chars e.key) from
      List.map_congr_left (fun e he => hkey e he)]
    exact hks
  · intro k' v'
    have hrep := hb.rep k' v'
    simp only [ents, Option.map_some, Option.getD_some] at hrep ⊢
    by_cases hkk : k' = chars k
    · subst hkk
      simp only [Map.put, if_true, Option.some.injEq]
      constructor
      · rintro ⟨x, hx, h1, h2⟩
        obtain ⟨e, he, rfl⟩ := List.mem_map.1 hx
        rw [hkey e he] at h1
        rw [if_pos h1] at h2
        exact ⟨⟨h, hk, hi⟩, by rw [← h2, (hf e he h1).2]⟩
      · rintro ⟨-, rfl⟩
        obtain ⟨e, he, h1⟩ := hin
        exact ⟨f e, List.mem_map.2 ⟨e, he, by simp [h1]⟩, hf e he h1⟩
    · simp only [Map.put, hkk, if_false]
      rw [← hrep]
      constructor
      · rintro ⟨x, hx, h1, h2⟩
        obtain ⟨e, he, rfl⟩ := List.mem_map.1 hx
        rw [hkey e he] at h1
        have hne : chars e.key ≠ chars k := by rw [h1]; exact hkk
        rw [if_neg hne] at h2
        exact ⟨e, he, h1, h2⟩
      · rintro ⟨e, he, h1, h2⟩
        have hne : chars e.key ≠ chars k := by rw [h1]; exact hkk
        exact ⟨e, List.mem_map.2 ⟨e, he, by simp [hne]⟩, h1, h2⟩
  · intro x hx
    simp only [ents, Option.map_some, Option.getD_some] at hx
    obtain ⟨e, he, rfl⟩ := List.mem_map.1 hx
    by_cases h : chars e.key = chars k
    · rw [if_pos h, (hf e he h).2]; exact hv
    · rw [if_neg h]; exact hb.val e he

theorem change_spec (hi : Inv hash dne t m) (k : Key) (hk : ∃ h, hash (chars k) = some h)
    (f : Entry V → Entry V) :
    match m (chars k) with
    | none => change hash f t k = none
    | some u => ∀ v, v ≠ dne →
        (∀ e : Entry V, chars e.key = chars k → e.val = u → chars (f e).key = chars k ∧ (f e).val = v) →
        ∃ t', change hash f t k = some t' ∧ Inv hash dne t' (m.put (chars k) (some v)) := by
  obtain ⟨h, hk⟩ := hk
  have hlt : h % t.buckets.length < t.buckets.length := Nat.mod_lt _ hi.pos
  have hg := List.getElem?_eq_getElem hlt
  have hb := hi.bkt _ _ hg
  split
  · rename_i hm
    simp only [change, bucketOf_some hi.pos hk, Option.bind_eq_bind, Option.bind_some, hg]
    cases hc : t.buckets[h % t.buckets.length] with
    | none => rfl
    | some c =>
      rw [hc] at hb
      have : changeFirst f k c.entries = none := by
        rw [changeFirst_none]
        intro e he heq
        have := ((hb.rep (chars k) e.val).1 ⟨e, he, heq, rfl⟩).2
        rw [hm] at this; cases this
      simp [this]
  · rename_i u hm
    intro v hv hf
    obtain ⟨e, he, h1, h2⟩ := (hb.rep (chars k) u).2 ⟨⟨h, hk, rfl⟩, hm⟩
    cases hc : t.buckets[h % t.buckets.length] with
    | none => rw [hc] at he; simp [ents] at he
    | some c =>
      rw [hc] at hb he
      have hu : ∀ e ∈ c.entries, chars e.key = chars k → e.val = u := by
        intro x hx hxk
        have := ((hb.rep (chars k) x.val).1 ⟨x, hx, hxk, rfl⟩).2
        rw [hm] at this; cases this; rfl
      cases hcf : changeFirst f k c.entries with
      | none => exact absurd h1 ((changeFirst_none f k _).1 hcf e he)
      | some l =>
        have hl := changeFirst_some f k c.entries l hb.keys hcf
        subst hl
        refine ⟨_, ?_, set_bucket hi (chars k) h hk (some v) _ t.nentries
          (change_bucket hb k hk rfl f v hv ⟨e, he, h1⟩ (fun x hx hxk => hf x hxk (hu x hx hxk)))⟩
        simp only [change, bucketOf_some hi.pos hk, Option.bind_eq_bind, Option.bind_some, hg, hc, hcf]

theorem removeFirst_none (k : Key) (l : List (Entry V)) :
    removeFirst k l = none ↔ ∀ e ∈ l, chars e.key ≠ chars k := by
  unfold removeFirst
  cases hf : l.findIdx? (fun e => cstring_equal e.key k) with
  | none =>
    rw [List.findIdx?_eq_none_iff] at hf
    simp only [Option.bind_eq_bind, Option.bind_none, true_iff]
    intro e he hh
    simpa [(equal_iff _ _).2 hh] using hf e he
  | some i =>
    rw [List.findIdx?_eq_some_iff_getElem] at hf
    obtain ⟨h1, h2, -⟩ := hf
    have hlast : l.length - 1 < l.length := by omega
    simp only [Option.bind_eq_bind, Option.bind_some, List.getElem?_eq_getElem hlast]
    constructor
    · intro h; split at h <;> cases h
    · intro h
      exact absurd ((equal_iff _ _).1 h2) (h _ (List.getElem_mem h1))

/-- Removal is a permutation of dropping the entries with the key. -/
theorem removeFirst_some (k : Key) (l l' : List (Entry V)) (h : removeFirst k l = some l') :
    ∃ e, chars e.key = chars k ∧ List.Perm l (e :: l') := by
  unfold removeFirst at h
  cases hf : l.findIdx? (fun e => cstring_equal e.key k) with
  | none => simp [hf] at h
  | some i =>
    rw [hf] at h
    rw [List.findIdx?_eq_some_iff_getElem] at hf
    obtain ⟨h1, h2, -⟩ := hf
    have hlast : l.length - 1 < l.length := by omega
    simp only [Option.bind_eq_bind, Option.bind_some, List.getElem?_eq_getElem hlast] at h
    refine ⟨l[i], (equal_iff _ _).1 h2, ?_⟩
    have hne : l ≠ [] := by intro h; simp [h] at h1
    obtain ⟨a, x, rfl⟩ : ∃ a x, l = a ++ [x] :=
      ⟨l.dropLast, l.getLast hne, (List.dropLast_append_getLast hne).symm⟩
    simp only [List.length_append, List.length_cons, List.length_nil, Nat.zero_add,
      Nat.add_sub_cancel] at h h1 hlast
    by_cases hia : i < a.length
    · simp only [hia, if_true, Option.some.injEq] at h
      rw [List.set_append_left _ _ hia, List.take_append_of_le_length (by simp)] at h
      simp only [List.getElem_append_right (Nat.le_refl a.length), Nat.sub_self,
        List.getElem_cons_zero] at h
      rw [List.take_of_length_le (by simp)] at h
      subst h
      rw [List.getElem_append_left hia]
      have e1 : a = a.take i ++ a[i] :: a.drop (i + 1) := by
        simp
      have e2 : a.set i x = a.take i ++ x :: a.drop (i + 1) := by
        rw [List.set_eq_take_append_cons_drop, if_pos hia]
      rw [e2]
      conv_lhs => rw [e1]
      rw [List.append_assoc]
      refine (List.perm_middle).trans (List.Perm.cons _ ?_)
      refine List.Perm.append_left _ ?_
      exact List.perm_append_comm
    · have : i = a.length := by omega
      subst this
      simp only [Nat.lt_irrefl, if_false, Option.some.injEq] at h
      rw [List.take_append_of_le_length (Nat.le_refl _), List.take_length] at h
      subst h
      simp only [List.getElem_append_right (Nat.le_refl a.length), Nat.sub_self,
        List.getElem_cons_zero]
      exact List.perm_append_comm

theorem remove_spec (hi : Inv hash dne t m) (k : Key) (hk : ∃ h, hash (chars k) = some h) :
    match m (chars k) with
    | none => remove hash t k = none
    | some _ => ∃ t', remove hash t k = some t' ∧ Inv hash dne t' (m.put (chars k) none) := by
  obtain ⟨h, hk⟩ := hk
  have hlt : h % t.buckets.length < t.buckets.length := Nat.mod_lt _ hi.pos
  have hg := List.getElem?_eq_getElem hlt
  have hb := hi.bkt _ _ hg
  split
  · rename_i hm
    simp only [remove, bucketOf_some hi.pos hk, Option.bind_eq_bind, Option.bind_some, hg]
    cases hc : t.buckets[h % t.buckets.length] with
    | none => rfl
    | some c =>
      rw [hc] at hb
      have : removeFirst k c.entries = none := by
        rw [removeFirst_none]
        intro e he heq
        have := ((hb.rep (chars k) e.val).1 ⟨e, he, heq, rfl⟩).2
        rw [hm] at this; cases this
      simp [this]
  · rename_i u hm
    obtain ⟨e, he, h1, h2⟩ := (hb.rep (chars k) u).2 ⟨⟨h, hk, rfl⟩, hm⟩
    cases hc : t.buckets[h % t.buckets.length] with
    | none => rw [hc] at he; simp [ents] at he
    | some c =>
      rw [hc] at hb he
      cases hcf : removeFirst k c.entries with
      | none => exact absurd h1 ((removeFirst_none k _).1 hcf e he)
      | some l =>
        obtain ⟨x, hx, hp⟩ := removeFirst_some k _ l hcf
        have hkeys : ((x :: l).map (fun e => chars e.key)).Nodup :=
          ((hp.map _).nodup_iff).1 hb.keys
        rw [List.map_cons, List.nodup_cons] at hkeys
        refine ⟨_, ?_, set_bucket hi (chars k) h hk none { c with entries := l } t.nentries
          ⟨?_, hkeys.2, ?_, ?_⟩⟩
        · simp only [remove, bucketOf_some hi.pos hk, Option.bind_eq_bind, Option.bind_some, hg, hc,
            hcf]
        · rintro _ ⟨rfl⟩
          obtain ⟨a1, a2⟩ := hb.alloc c rfl
          have := hp.length_eq
          simp only [List.length_cons] at this
          refine ⟨a1, ?_⟩
          show (l.length : Int) + c.nspace ≤ c.cap
          omega
        · intro k' v
          have hrep := hb.rep k' v
          simp only [ents, Option.map_some, Option.getD_some] at hrep ⊢
          by_cases hkk : k' = chars k
          · subst hkk
            simp only [Map.put, if_true, reduceCtorEq, and_false, iff_false]
            rintro ⟨y, hy, hy1, -⟩
            exact hkeys.1 (List.mem_map.2 ⟨y, hy, by rw [hy1, hx]⟩)
          · simp only [Map.put, hkk, if_false]
            rw [← hrep]
            constructor
            · rintro ⟨y, hy, hy1⟩
              exact ⟨y, hp.mem_iff.2 (by simp [hy]), hy1⟩
            · rintro ⟨y, hy, hy1⟩
              rcases List.mem_cons.1 (hp.mem_iff.1 hy) with rfl | hy'
              · exact absurd (by rw [← hy1.1, hx]) hkk
              · exact ⟨y, hy', hy1⟩
        · intro y hy
          exact hb.val y (hp.mem_iff.2 (by
            simp only [ents, Option.map_some, Option.getD_some] at hy
            simp [hy]))

/-! ### Histories -/

/-- The specification of the operations. A key can be inserted when it is absent, and changed,
renamed (to the same characters) or removed when it is present; values are not `dne`. Everything
else is refused. -/
def specStep (dne : V) (m : Map V) : Op V → Option (Map V)
  | .insert k v => if m (k.getD []) = none ∧ v ≠ dne then some (m.put (k.getD []) (some v)) else none
  | .update k v => if m (k.getD []) ≠ none ∧ v ≠ dne then some (m.put (k.getD []) (some v)) else none
  | .replaceKey k k' => if k.getD [] = k'.getD [] ∧ m (k.getD []) ≠ none then some m else none
  | .remove k => if m (k.getD []) ≠ none then some (m.put (k.getD []) none) else none

/-- The keys an operation mentions can be hashed. -/
def Op.hashed (hash : Bytes → Option Nat) : Op V → Prop
  | .insert k _ | .update k _ | .replaceKey k _ | .remove k => ∃ h, hash (k.getD []) = some h

/-- No update to the value that means "not found". -/
def Op.proper (dne : V) : Op V → Prop
  | .update _ v => v ≠ dne
  | _ => True

/-- An operation a `genericTable` has. -/
def Op.generic : Op V → Prop
  | .replaceKey _ _ => False
  | _ => True

/-- The outcome agrees with the specification. -/
def Agrees (hash : Bytes → Option Nat) (dne : V) (r : Option (Table V)) (s : Option (Map V)) : Prop :=
  match s with
  | none => r = none
  | some m => ∃ t, r = some t ∧ Inv hash dne t m

theorem put_same (m : Map V) (k : Bytes) {v : V} (h : m k = some v) : m.put k (some v) = m := by
  funext k'
  by_cases hk : k' = k
  · simp [Map.put, hk, h]
  · simp [Map.put, hk]

theorem insert_agrees (hi : Inv hash dne t m) (k : Key) (v : V)
    (hk : ∃ h, hash (chars k) = some h) :
    Agrees hash dne (insertC hash dne t k v) (specStep dne m (.insert k v)) ∧
    Agrees hash dne (insertG hash dne t k v) (specStep dne m (.insert k v)) := by
  have core : ∀ t1, Inv hash dne t1 m →
      Agrees hash dne (if v = dne then none else store hash dne t1 ⟨k, v⟩)
        (specStep dne m (.insert k v)) := by
    intro t1 h1
    by_cases hv : v = dne
    · simp [hv, Agrees, specStep]
    · have := store_spec h1 k v hk hv
      simp only [hv, if_false, specStep, ne_eq, not_false_eq_true, and_true]
      unfold chars at this
      cases hm : m (k.getD []) with
      | none => rw [hm] at this; simpa [Agrees] using this
      | some w => rw [hm] at this; simpa [Agrees] using this
  constructor
  · unfold insertC
    simp only [Option.bind_eq_bind]
    split
    · obtain ⟨t1, h1, h2⟩ := rehash_spec (hi.nent (t.nentries + 1))
      rw [h1]
      exact core _ h2
    · exact core _ (hi.nent (t.nentries + 1))
  · unfold insertG
    simp only [Option.bind_eq_bind]
    split
    · obtain ⟨t1, h1, h2⟩ := rehash_spec hi
      rw [h1]
      exact core _ (h2.nent _)
    · exact core _ (hi.nent _)

theorem update_agrees (hi : Inv hash dne t m) (k : Key) (v : V) (hv : v ≠ dne)
    (hk : ∃ h, hash (chars k) = some h) :
    Agrees hash dne (update hash t k v) (specStep dne m (.update k v)) := by
  have := change_spec hi k hk (fun e => { e with val := v })
  unfold chars at this
  simp only [specStep, update, hv, ne_eq, not_false_eq_true, and_true]
  cases hm : m (k.getD []) with
  | none => rw [hm] at this; simpa [Agrees] using this
  | some w =>
    rw [hm] at this
    simpa [Agrees] using this v hv (fun e h1 _ => ⟨h1, rfl⟩)

theorem value_ne (hi : Inv hash dne t m) {k : Bytes} {u : V} (hm : m k = some u) : u ≠ dne := by
  obtain ⟨h, hh⟩ := hi.hashed k u hm
  have hlt : h % t.buckets.length < t.buckets.length := Nat.mod_lt _ hi.pos
  have hg := List.getElem?_eq_getElem hlt
  obtain ⟨e, he, -, rfl⟩ := ((hi.bkt _ _ hg).rep k u).2 ⟨⟨h, hh, rfl⟩, hm⟩
  exact (hi.bkt _ _ hg).val e he

theorem replaceKey_agrees (hi : Inv hash dne t m) (k k' : Key)
    (hk : ∃ h, hash (chars k) = some h) :
    Agrees hash dne (replaceKey hash t k k') (specStep dne m (.replaceKey k k')) := by
  have hc := change_spec hi k hk (fun e => { e with key := k' })
  simp only [specStep, replaceKey]
  by_cases hkk : k.getD [] = k'.getD []
  · rw [if_pos ((equal_iff _ _).2 hkk)]
    cases hm : m (k.getD []) with
    | none =>
      unfold chars at hc
      rw [hm] at hc
      simpa [Agrees] using hc
    | some w =>
      have hput := put_same m _ hm
      unfold chars at hc
      rw [hm] at hc
      have := hc w (value_ne hi hm) (fun e h1 h2 => ⟨hkk.symm, h2⟩)
      rw [hput] at this
      simpa [Agrees, hkk] using this
  · have : cstring_equal k k' = false := by
      rw [← Bool.not_eq_true]
      exact fun hh => hkk ((equal_iff _ _).1 hh)
    simp [this, hkk, Agrees]

theorem remove_agrees (hi : Inv hash dne t m) (k : Key) (hk : ∃ h, hash (chars k) = some h) :
    Agrees hash dne (remove hash t k) (specStep dne m (.remove k)) := by
  have hc := remove_spec hi k hk
  unfold chars at hc
  simp only [specStep]
  cases hm : m (k.getD []) with
  | none => rw [hm] at hc; simpa [Agrees] using hc
  | some w => rw [hm] at hc; simpa [Agrees] using hc

theorem stepC_agrees (hi : Inv hash dne t m) (o : Op V) (h : o.hashed hash) (hp : o.proper dne) :
    Agrees hash dne (stepC hash dne t o) (specStep dne m o) := by
  cases o with
  | insert k v => exact (insert_agrees hi k v h).1
  | update k v => exact update_agrees hi k v hp h
  | replaceKey k k' => exact replaceKey_agrees hi k k' h
  | remove k => exact remove_agrees hi k h

theorem stepG_agrees (hi : Inv hash dne t m) (o : Op V) (h : o.hashed hash) (hg : o.generic) :
    Agrees hash dne (stepG hash dne t o) (specStep dne m o) := by
  cases o with
  | insert k v => exact (insert_agrees hi k v h).2
  | update k v =>
    by_cases hv : v = dne
    · simp [stepG, updateG, hv, specStep, Agrees]
    · simpa [stepG, updateG, hv] using update_agrees hi k v hv h
  | replaceKey k k' => exact hg.elim
  | remove k => exact remove_agrees hi k h

theorem run_agrees (step : Table V → Op V → Option (Table V)) (P : Op V → Prop)
    (hs : ∀ t m o, Inv hash dne t m → P o → Agrees hash dne (step t o) (specStep dne m o))
    (os : List (Op V)) (hos : ∀ o ∈ os, P o) (t : Table V) (m : Map V) (hi : Inv hash dne t m) :
    Agrees hash dne (run step t os) (run (specStep dne) m os) := by
  induction os generalizing t m with
  | nil => exact ⟨t, rfl, hi⟩
  | cons o os ih =>
    have h := hs t m o hi (hos o (by simp))
    simp only [run]
    cases hm : specStep dne m o with
    | none =>
      rw [hm] at h
      have h : step t o = none := h
      rw [h]
      exact rfl
    | some m1 =>
      rw [hm] at h
      obtain ⟨t1, h1, h2⟩ := h
      rw [h1]
      exact ih (fun o ho => hos o (by simp [ho])) t1 m1 h2

/-- What an observer sees agrees with the map: a refused history fails; otherwise the history
succeeds and every hashable key is looked up as in the map. -/
def Observes (hash : Bytes → Option Nat) (dne : V) (r : Option (Table V)) (s : Option (Map V)) : Prop :=
  match s with
  | none => r = none
  | some m => ∃ t, r = some t ∧ ∀ k : Key, (∃ h, hash (k.getD []) = some h) →
      lookup hash dne t k = some ((m (k.getD [])).getD dne)

theorem Agrees.observes {r : Option (Table V)} {s : Option (Map V)} (h : Agrees hash dne r s) :
    Observes hash dne r s := by
  cases s with
  | none => exact h
  | some m =>
    obtain ⟨t, h1, h2⟩ := h
    exact ⟨t, h1, fun k hk => lookup_spec h2 k hk⟩

/-- C13 for the table from strings to pointers: every history of operations is refused, or behaves,
as on a finite map, whatever the hash function, the first size, and the rehashing in between. -/
theorem C13_generic (hash : Bytes → Option Nat) (dne : V) (size : Nat) (hs : 0 < size)
    (os : List (Op V)) (ho : ∀ o ∈ os, o.hashed hash ∧ o.generic) :
    Observes hash dne (run (stepG hash dne) (create size) os)
      (run (specStep dne) (fun _ => none) os) :=
  (run_agrees (stepG hash dne) (fun o => o.hashed hash ∧ o.generic)
    (fun _ _ o hi h => stepG_agrees hi o h.1 h.2) os ho _ _ (replicate_inv size hs 0)).observes

/-- C13 for the table from strings to numbers, for histories that do not update a key to the value
that means "not found". -/
theorem C13_cstring_partial (hash : Bytes → Option Nat) (dne : V) (size : Nat) (hs : 0 < size)
    (os : List (Op V)) (ho : ∀ o ∈ os, o.hashed hash ∧ o.proper dne) :
    Observes hash dne (run (stepC hash dne) (create size) os)
      (run (specStep dne) (fun _ => none) os) :=
  (run_agrees (stepC hash dne) (fun o => o.hashed hash ∧ o.proper dne)
    (fun _ _ o hi h => stepC_agrees hi o h.1 h.2) os ho _ _ (replicate_inv size hs 0)).observes

/-- C13 for the table from strings to numbers, in full. -/
def C13_cstring_full : Prop :=
  ∀ (hash : Bytes → Option Nat) (dne : Int) (size : Nat), 0 < size → ∀ os : List (Op Int),
    (∀ o ∈ os, o.hashed hash) →
    Observes hash dne (run (stepC hash dne) (create size) os) (run (specStep dne) (fun _ => none) os)

/-- An update to -23 is accepted. -/
theorem C13_cstring_full_is_false : ¬ C13_cstring_full := by
  intro h
  have := h (fun _ => some 0) (-23) 1 (by decide)
    [.insert (some [97]) 1, .update (some [97]) (-23)] (by
      intro o ho
      cases o <;> exact ⟨0, rfl⟩)
  have h2 : (run (stepC (fun _ => some 0) (-23)) (create 1 : Table Int)
    [.insert (some [97]) 1, .update (some [97]) (-23)]).isSome = true := by rfl
  have h3 : (run (specStep (-23)) (fun _ => none : Map Int)
    [.insert (some [97]) 1, .update (some [97]) (-23)]) = none := by rfl
  rw [h3] at this
  have this : run (stepC (fun _ => some 0) (-23)) (create 1 : Table Int)
    [.insert (some [97]) 1, .update (some [97]) (-23)] = none := this
  rw [this] at h2
  cases h2

/-- A history with collisions, rehashing, removal from the middle of a bucket and re-insertion. -/
example : ((run (stepC (fun s => some s.length) (-23)) (create 1)
    [.insert (some [97]) 1, .insert (some [98]) 2, .insert (some [99]) 3, .insert none 4,
     .remove (some [97]), .insert (some [97]) 5, .update (some [98]) 6,
     .replaceKey none (some [])]).bind
    (fun t => lookup (fun s => some s.length) (-23) t (some [98]))) = some 6 := by decide +kernel

example : ∀ o ∈ ([.insert (some [97]) 1, .update (some [97]) 7, .remove (some [97])] : List (Op Int)),
    o.hashed (fun s => some s.length) ∧ o.generic ∧ o.proper (-23) := by
  intro o ho
  simp only [List.mem_cons, List.not_mem_nil, or_false] at ho
  rcases ho with rfl | rfl | rfl <;> exact ⟨⟨1, rfl⟩, trivial, by simp [Op.proper]⟩

end Splint.Tables
