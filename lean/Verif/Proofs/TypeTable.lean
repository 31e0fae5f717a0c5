import Verif.Spec.TypeTable
/-! Proofs for C134 and C135. -/
namespace Splint.TypeTable
open Spec

/-- Entries keep what they are. -/
def Ext (t t' : List Entry) : Prop :=
  ∀ (i : Nat) (e : Entry), t[i]? = some e → ∃ e' : Entry, t'[i]? = some e' ∧ e'.ct = e.ct ∧ e'.base = e.base

theorem Ext.refl (t : List Entry) : Ext t t := fun _ e h => ⟨e, h, rfl, rfl⟩

theorem Ext.trans {a b c : List Entry} (h : Ext a b) (h' : Ext b c) : Ext a c := by
  intro i e he
  obtain ⟨e1, h1, h2, h3⟩ := h i e he
  obtain ⟨e2, h4, h5, h6⟩ := h' i e1 h1
  exact ⟨e2, h4, h5.trans h2, h6.trans h3⟩

theorem Ext.append (t s : List Entry) : Ext t (t ++ s) := by
  intro i e h
  refine ⟨e, ?_, rfl, rfl⟩
  have := (List.getElem?_eq_some_iff.1 h).1
  rw [List.getElem?_append_left this, h]

/-- The alternatives are made of types with smaller numbers. -/
def Low (t : List Entry) : Prop :=
  ∀ (i : Nat) (e : Entry) (a b : Nat) (x : Bool), t[i]? = some e → e.ct = .conj a b x → a < i ∧ b < i

theorem lt_of_get {t : List Entry} {i : Nat} {e : Entry} (h : t[i]? = some e) : i < t.length :=
  (List.getElem?_eq_some_iff.1 h).1

theorem _root_.Splint.TypeTable.Spec.Alt.valid {t : List Entry} {i : Nat} {l : Leaf} (h : Alt t i l) : i < t.length := by
  cases h with
  | num h _ _ => exact lt_of_get h
  | cls h _ => exact lt_of_get h
  | left h _ _ => exact lt_of_get h
  | right h _ _ => exact lt_of_get h

theorem _root_.Splint.TypeTable.Spec.Alt.ext {t t' : List Entry} (hE : Ext t t') {i : Nat} {l : Leaf} (h : Alt t i l) : Alt t' i l := by
  induction h with
  | num h hc ho =>
    obtain ⟨e', h1, h2, _⟩ := hE _ _ h
    exact .num h1 (by rw [h2]; exact hc) (by rw [h2]; exact ho)
  | cls h hk =>
    obtain ⟨e', h1, h2, _⟩ := hE _ _ h
    exact .cls h1 (by rw [h2]; exact hk)
  | left h hk _ ih =>
    obtain ⟨e', h1, h2, _⟩ := hE _ _ h
    exact .left h1 (by rw [h2]; exact hk) ih
  | right h hk _ ih =>
    obtain ⟨e', h1, h2, _⟩ := hE _ _ h
    exact .right h1 (by rw [h2]; exact hk) ih

theorem _root_.Splint.TypeTable.Spec.Alt.unext {t t' : List Entry} (hE : Ext t t') (hl : Low t) {i : Nat} {l : Leaf} (h : Alt t' i l)
    (hi : i < t.length) : Alt t i l := by
  induction h with
  | num h hc ho =>
    obtain ⟨e', h1, h2, _⟩ := hE _ _ (List.getElem?_eq_getElem hi)
    rw [h] at h1
    cases h1
    exact .num (List.getElem?_eq_getElem hi) (by rw [← h2]; exact hc) (by rw [← h2]; exact ho)
  | cls h hk =>
    obtain ⟨e', h1, h2, _⟩ := hE _ _ (List.getElem?_eq_getElem hi)
    rw [h] at h1
    cases h1
    exact .cls (List.getElem?_eq_getElem hi) (by rw [← h2]; exact hk)
  | left h hk _ ih =>
    obtain ⟨e', h1, h2, _⟩ := hE _ _ (List.getElem?_eq_getElem hi)
    rw [h] at h1
    cases h1
    have hk' := h2.symm.trans hk
    have := hl _ _ _ _ _ (List.getElem?_eq_getElem hi) hk'
    exact .left (List.getElem?_eq_getElem hi) hk' (ih (by omega))
  | right h hk _ ih =>
    obtain ⟨e', h1, h2, _⟩ := hE _ _ (List.getElem?_eq_getElem hi)
    rw [h] at h1
    cases h1
    have hk' := h2.symm.trans hk
    have := hl _ _ _ _ _ (List.getElem?_eq_getElem hi) hk'
    exact .right (List.getElem?_eq_getElem hi) hk' (ih (by omega))

theorem alt_ext_iff {t t' : List Entry} (hE : Ext t t') (hl : Low t) {i : Nat} {l : Leaf}
    (hi : i < t.length) : Alt t' i l ↔ Alt t i l :=
  ⟨fun h => h.unext hE hl hi, fun h => h.ext hE⟩

theorem alt_conj {t : List Entry} {i a b : Nat} {x : Bool} {e : Entry} {l : Leaf} (h : t[i]? = some e)
    (hk : e.ct = .conj a b x) : Alt t i l ↔ Alt t a l ∨ Alt t b l := by
  constructor
  · intro ha
    cases ha with
    | num h1 hc ho => rw [h] at h1; cases h1; exact absurd hk (hc _ _ _)
    | cls h1 hk1 => rw [h] at h1; cases h1; rw [hk] at hk1; cases hk1
    | left h1 hk1 ha => rw [h] at h1; cases h1; rw [hk] at hk1; cases hk1; exact Or.inl ha
    | right h1 hk1 ha => rw [h] at h1; cases h1; rw [hk] at hk1; cases hk1; exact Or.inr ha
  · rintro (ha | ha)
    · exact .left h hk ha
    · exact .right h hk ha

theorem alt_num {t : List Entry} {i : Nat} {e : Entry} {l : Leaf} (h : t[i]? = some e)
    (hc : ∀ a b x, e.ct ≠ .conj a b x) (ho : ∀ k, e.ct ≠ .other k) : Alt t i l ↔ l = .num i := by
  constructor
  · intro ha
    cases ha with
    | num _ _ _ => rfl
    | cls h1 hk1 => rw [h] at h1; cases h1; exact absurd hk1 (ho _)
    | left h1 hk1 ha => rw [h] at h1; cases h1; exact absurd hk1 (hc _ _ _)
    | right h1 hk1 ha => rw [h] at h1; cases h1; exact absurd hk1 (hc _ _ _)
  · rintro rfl
    exact .num h hc ho

theorem alt_cls {t : List Entry} {i k : Nat} {e : Entry} {l : Leaf} (h : t[i]? = some e)
    (hk : e.ct = .other k) : Alt t i l ↔ l = .cls k := by
  constructor
  · intro ha
    cases ha with
    | num h1 hc ho => rw [h] at h1; cases h1; exact absurd hk (ho _)
    | cls h1 hk1 => rw [h] at h1; cases h1; rw [hk] at hk1; cases hk1; rfl
    | left h1 hk1 ha => rw [h] at h1; cases h1; rw [hk] at hk1; cases hk1
    | right h1 hk1 ha => rw [h] at h1; cases h1; rw [hk] at hk1; cases hk1
  · rintro rfl
    exact .cls h hk

theorem get_ct {t : List Entry} {i : Nat} {c : Ct} (h : t[i]?.map Entry.ct = some c) :
    ∃ e, t[i]? = some e ∧ e.ct = c := by
  cases he : t[i]? with
  | none => rw [he] at h; cases h
  | some e => rw [he] at h; exact ⟨e, rfl, by simpa using h⟩

/-- Types that compare as equal have the same alternatives. -/
theorem same_alt {t : List Entry} {n a b : Nat} (h : same t n a b = true) (l : Leaf) :
    Alt t a l ↔ Alt t b l := by
  induction n generalizing a b with
  | zero => simp [same] at h
  | succ n ih =>
    simp only [same] at h
    by_cases ha : a = unknown
    · rw [if_pos ha] at h
      rw [ha, show b = unknown by simpa using h]
    rw [if_neg ha] at h
    by_cases hb : b = unknown
    · rw [if_pos hb] at h
      cases h
    rw [if_neg hb] at h
    split at h
    next a1 b1 x a2 b2 y h1 h2 =>
      simp only [Bool.and_eq_true] at h
      obtain ⟨e1, g1, k1⟩ := get_ct h1
      obtain ⟨e2, g2, k2⟩ := get_ct h2
      rw [alt_conj g1 k1, alt_conj g2 k2, ih h.1, ih h.2.1]
    next k l h1 h2 =>
      obtain ⟨e1, g1, k1⟩ := get_ct h1
      obtain ⟨e2, g2, k2⟩ := get_ct h2
      have : k = l := by simpa using h
      subst this
      rw [alt_cls g1 k1, alt_cls g2 k2]
    all_goals first
      | cases h
      | (have : a = b := by simpa using h
         rw [this])

theorem same_refl {t : List Entry} (hl : Low t) {n a : Nat} (hn : a < n) :
    same t n a a = true := by
  induction n generalizing a with
  | zero => omega
  | succ n ih =>
    simp only [same]
    by_cases ha : a = unknown
    · rw [if_pos ha]; simp [ha]
    rw [if_neg ha, if_neg ha]
    cases hc : t[a]?.map Entry.ct with
    | none => simp
    | some c =>
      cases c with
      | conj a1 b1 x =>
        obtain ⟨e1, g1, k1⟩ := get_ct hc
        have := hl _ _ _ _ _ g1 k1
        simp [ih (a := a1) (by omega), ih (a := b1) (by omega)]
      | _ => simp

theorem findBack_spec {p : Nat → Bool} {stop n i : Nat} (h : findBack p stop n = some i) :
    p i = true ∧ stop ≤ i ∧ i < n := by
  induction n with
  | zero => simp [findBack] at h
  | succ n ih =>
    simp only [findBack] at h
    split_ifs at h with h1 h2
    · cases h
      exact ⟨h2, by omega, by omega⟩
    · obtain ⟨h3, h4, h5⟩ := ih h
      exact ⟨h3, h4, by omega⟩

theorem equiv_alt {t : List Entry} {a b i : Nat} {x : Bool} (h : equiv t a b x i = true) (l : Leaf) :
    Alt t i l ↔ Alt t a l ∨ Alt t b l := by
  unfold equiv at h
  split at h
  next a' b' y h1 =>
    simp only [Bool.and_eq_true] at h
    obtain ⟨e1, g1, k1⟩ := get_ct h1
    rw [alt_conj g1 k1, same_alt h.1, same_alt h.2.1]
  next => cases h

/-- what holds of the table at all times -/
structure TabInv (t : List Entry) : Prop where
  ext : Ext init.tab t
  low : Low t
  ptr1 : ∀ (i : Nat) (e : Entry) (p : Nat), t[i]? = some e → e.ptr = some p →
    ∃ e' : Entry, t[p]? = some e' ∧ e'.ct = .ptr i ∧ e'.base = some i
  ptr2 : ∀ (p : Nat) (e' : Entry) (i : Nat), t[p]? = some e' → e'.ct = .ptr i →
    ∃ e : Entry, t[i]? = some e ∧ e.ptr = some p
  arr1 : ∀ (i : Nat) (e : Entry) (p : Nat), t[i]? = some e → e.array = some p →
    ∃ e' : Entry, t[p]? = some e' ∧ e'.ct = .array i ∧ e'.base = some i
  arr2 : ∀ (p : Nat) (e' : Entry) (i : Nat), t[p]? = some e' → e'.ct = .array i →
    ∃ e : Entry, t[i]? = some e ∧ e.array = some p
  prim : ∀ (i : Nat) (e : Entry) (j : Nat), t[i]? = some e → e.ct = .prim j → i = j
  user : ∀ (i : Nat) (e : Entry) (j : Nat) (e' : Entry) (u : Nat), t[i]? = some e → e.ct = .user u →
    t[j]? = some e' → e'.ct = .user u → i = j

theorem tabInv_init : TabInv init.tab := by
  have len : init.tab.length = 58 := by decide
  have b : ∀ {i : Nat} {e : Entry}, init.tab[i]? = some e → i < 58 := fun h => len ▸ lt_of_get h
  refine ⟨Ext.refl _, ?_, ?_, ?_, ?_, ?_, ?_, ?_⟩
  · intro i e a b' x h hc
    have key : ∀ i < 58, (init.tab[i]?.all fun e => match e.ct with | .conj .. => false | _ => true) = true := by
      decide
    have := key i (b h)
    rw [h] at this
    simp [hc] at this
  · intro i e p h hp
    have key : ∀ i < 58, (init.tab[i]?.all fun e => e.ptr.all fun p =>
        init.tab[p]?.any fun e' => e'.ct == .ptr i && e'.base == some i) = true := by decide
    have := key i (b h)
    rw [h] at this
    simp only [Option.all_some, hp] at this
    rw [Option.any_eq_true] at this
    obtain ⟨e', h1, h2⟩ := this
    simp at h2
    exact ⟨e', h1, h2⟩
  · intro p e' i h hc
    have key : ∀ p < 58, (init.tab[p]?.all fun e' => match e'.ct with
        | .ptr i => init.tab[i]?.any fun e => e.ptr == some p
        | _ => true) = true := by decide
    have := key p (b h)
    rw [h] at this
    simp only [Option.all_some, hc] at this
    rw [Option.any_eq_true] at this
    obtain ⟨e, h1, h2⟩ := this
    exact ⟨e, h1, by simpa using h2⟩
  · intro i e p h hp
    have key : ∀ i < 58, (init.tab[i]?.all fun e => e.array.all fun p =>
        init.tab[p]?.any fun e' => e'.ct == .array i && e'.base == some i) = true := by decide
    have := key i (b h)
    rw [h] at this
    simp only [Option.all_some, hp] at this
    rw [Option.any_eq_true] at this
    obtain ⟨e', h1, h2⟩ := this
    simp at h2
    exact ⟨e', h1, h2⟩
  · intro p e' i h hc
    have key : ∀ p < 58, (init.tab[p]?.all fun e' => match e'.ct with
        | .array i => init.tab[i]?.any fun e => e.array == some p
        | _ => true) = true := by decide
    have := key p (b h)
    rw [h] at this
    simp only [Option.all_some, hc] at this
    rw [Option.any_eq_true] at this
    obtain ⟨e, h1, h2⟩ := this
    exact ⟨e, h1, by simpa using h2⟩
  · intro i e j h hc
    have key : ∀ i < 58, (init.tab[i]?.all fun e => match e.ct with | .prim j => i == j | _ => true) = true := by
      decide
    have := key i (b h)
    rw [h] at this
    simpa [hc] using this
  · intro i e j e' u h hc
    have key : ∀ i < 58, (init.tab[i]?.all fun e => match e.ct with | .user _ => false | _ => true) = true := by
      decide
    have := key i (b h)
    rw [h] at this
    simp [hc] at this

theorem get_push {t : List Entry} {n : Entry} {i : Nat} {e : Entry} :
    (t ++ [n])[i]? = some e ↔ t[i]? = some e ∨ (i = t.length ∧ e = n) := by
  rcases Nat.lt_trichotomy i t.length with h | h | h
  · rw [List.getElem?_append_left h]
    constructor
    · exact Or.inl
    · rintro (h1 | ⟨h1, _⟩)
      · exact h1
      · omega
  · subst h
    simp
    exact eq_comm
  · rw [List.getElem?_eq_none (by simp; omega), List.getElem?_eq_none (by omega)]
    simp
    omega

theorem TabInv.push {t : List Entry} (h : TabInv t) {n : Entry} (h1 : n.ptr = none) (h2 : n.array = none)
    (h3 : ∀ b, n.ct ≠ .ptr b) (h4 : ∀ b, n.ct ≠ .array b)
    (h5 : ∀ a b x, n.ct = .conj a b x → a < t.length ∧ b < t.length) (h6 : ∀ j, n.ct ≠ .prim j)
    (h7 : ∀ (u i : Nat) (e : Entry), n.ct = .user u → t[i]? = some e → e.ct ≠ .user u) :
    TabInv (t ++ [n]) := by
  have up : ∀ {i : Nat} {e : Entry}, t[i]? = some e → (t ++ [n])[i]? = some e := fun h => get_push.2 (Or.inl h)
  refine ⟨h.ext.trans (Ext.append _ _), ?_, ?_, ?_, ?_, ?_, ?_, ?_⟩
  · intro i e a b x hi hc
    rcases get_push.1 hi with hi | ⟨rfl, rfl⟩
    · exact h.low i e a b x hi hc
    · exact h5 a b x hc
  · intro i e p hi hp
    rcases get_push.1 hi with hi | ⟨rfl, rfl⟩
    · obtain ⟨e', g1, g2⟩ := h.ptr1 i e p hi hp
      exact ⟨e', up g1, g2⟩
    · rw [h1] at hp; cases hp
  · intro p e' i hi hc
    rcases get_push.1 hi with hi | ⟨rfl, rfl⟩
    · obtain ⟨e, g1, g2⟩ := h.ptr2 p e' i hi hc
      exact ⟨e, up g1, g2⟩
    · exact absurd hc (h3 _)
  · intro i e p hi hp
    rcases get_push.1 hi with hi | ⟨rfl, rfl⟩
    · obtain ⟨e', g1, g2⟩ := h.arr1 i e p hi hp
      exact ⟨e', up g1, g2⟩
    · rw [h2] at hp; cases hp
  · intro p e' i hi hc
    rcases get_push.1 hi with hi | ⟨rfl, rfl⟩
    · obtain ⟨e, g1, g2⟩ := h.arr2 p e' i hi hc
      exact ⟨e, up g1, g2⟩
    · exact absurd hc (h4 _)
  · intro i e j hi hc
    rcases get_push.1 hi with hi | ⟨rfl, rfl⟩
    · exact h.prim i e j hi hc
    · exact absurd hc (h6 _)
  · intro i e j e' u hi hc hj hd
    rcases get_push.1 hi with g | ⟨g, g'⟩ <;> rcases get_push.1 hj with k | ⟨k, k'⟩
    · exact h.user i e j e' u g hc k hd
    · rw [k'] at hd
      exact absurd hc (h7 _ _ _ hd g)
    · rw [g'] at hc
      exact absurd hd (h7 _ _ _ hc k)
    · rw [g, k]

theorem get_set_push {t : List Entry} {n e0 : Entry} {c i : Nat} {e : Entry} (hc : c < t.length) :
    (t.set c e0 ++ [n])[i]? = some e ↔
      (i ≠ c ∧ t[i]? = some e) ∨ (i = c ∧ e = e0) ∨ (i = t.length ∧ e = n) := by
  rw [get_push, List.length_set, List.getElem?_set]
  by_cases hi : c = i
  · subst hi
    simp [hc, eq_comm]
  · rw [if_neg hi]
    have : i ≠ c := fun h => hi h.symm
    simp [this]

theorem ext_set_push {t : List Entry} {n e e0 : Entry} {c : Nat} (hc : t[c]? = some e)
    (h1 : e0.ct = e.ct) (h2 : e0.base = e.base) : Ext t (t.set c e0 ++ [n]) := by
  intro i e1 hi
  by_cases h : i = c
  · subst h
    rw [hc] at hi
    cases hi
    exact ⟨e0, (get_set_push (lt_of_get hc)).2 (Or.inr (Or.inl ⟨rfl, rfl⟩)), h1, h2⟩
  · exact ⟨e1, (get_set_push (lt_of_get hc)).2 (Or.inl ⟨h, hi⟩), rfl, rfl⟩

theorem prim_set_push {t : List Entry} (h : TabInv t) {n e e0 : Entry} {c : Nat} (hc : t[c]? = some e)
    (h1 : e0.ct = e.ct) (hn : ∀ j, n.ct ≠ .prim j) :
    ∀ (i : Nat) (e1 : Entry) (j : Nat), (t.set c e0 ++ [n])[i]? = some e1 → e1.ct = .prim j → i = j := by
  intro i e1 j hi hx
  rcases (get_set_push (lt_of_get hc)).1 hi with ⟨_, hi⟩ | ⟨rfl, rfl⟩ | ⟨rfl, rfl⟩
  · exact h.prim i e1 j hi hx
  · exact h.prim _ e j hc (h1.symm.trans hx)
  · exact absurd hx (hn _)

theorem user_set_push {t : List Entry} (h : TabInv t) {n e e0 : Entry} {c : Nat} (hc : t[c]? = some e)
    (h1 : e0.ct = e.ct) (hn : ∀ j, n.ct ≠ .user j) :
    ∀ (i : Nat) (e1 : Entry) (j : Nat) (e2 : Entry) (u : Nat), (t.set c e0 ++ [n])[i]? = some e1 →
      e1.ct = .user u → (t.set c e0 ++ [n])[j]? = some e2 → e2.ct = .user u → i = j := by
  have old : ∀ {i : Nat} {e1 : Entry} {u : Nat}, (t.set c e0 ++ [n])[i]? = some e1 → e1.ct = .user u →
      ∃ e2, t[i]? = some e2 ∧ e2.ct = .user u := by
    intro i e1 u hi hx
    rcases (get_set_push (lt_of_get hc)).1 hi with ⟨_, hi⟩ | ⟨rfl, rfl⟩ | ⟨rfl, rfl⟩
    · exact ⟨e1, hi, hx⟩
    · exact ⟨e, hc, h1.symm.trans hx⟩
    · exact absurd hx (hn _)
  intro i e1 j e2 u hi hx hj hy
  obtain ⟨_, g1, g2⟩ := old hi hx
  obtain ⟨_, g3, g4⟩ := old hj hy
  exact h.user _ _ _ _ u g1 g2 g3 g4

theorem TabInv.newPtr {t : List Entry} (h : TabInv t) {c : Nat} {e : Entry} (he : t[c]? = some e)
    (hp : e.ptr = none) :
    TabInv (t.set c { e with ptr := some t.length } ++ [⟨.ptr c, some c, none, none⟩]) := by
  have hc := lt_of_get he
  have hE := ext_set_push (n := ⟨.ptr c, some c, none, none⟩) (e0 := { e with ptr := some t.length }) he rfl rfl
  have hl : ∀ {i : Nat} {e1 : Entry}, t[i]? = some e1 → i ≠ t.length := fun h => Nat.ne_of_lt (lt_of_get h)
  refine ⟨h.ext.trans hE, ?_, ?_, ?_, ?_, ?_, prim_set_push h he rfl (by simp),
    user_set_push h he rfl (by simp)⟩
  · intro i e1 a b x hi hx
    rcases (get_set_push hc).1 hi with ⟨_, hi⟩ | ⟨rfl, rfl⟩ | ⟨rfl, rfl⟩
    · exact h.low i e1 a b x hi hx
    · exact h.low _ e a b x he hx
    · cases hx
  · intro i e1 p hi hx
    rcases (get_set_push hc).1 hi with ⟨_, hi⟩ | ⟨rfl, rfl⟩ | ⟨rfl, rfl⟩
    · obtain ⟨e', g1, g2, g3⟩ := h.ptr1 i e1 p hi hx
      obtain ⟨e'', g4, g5, g6⟩ := hE p e' g1
      exact ⟨e'', g4, g5.trans g2, g6.trans g3⟩
    · cases hx
      exact ⟨_, (get_set_push hc).2 (Or.inr (Or.inr ⟨rfl, rfl⟩)), rfl, rfl⟩
    · cases hx
  · intro p e1 i hi hx
    have old : t[p]? = some e1 ∨ (p = c ∧ e1.ct = e.ct) →
        ∃ e2 : Entry, (t.set c { e with ptr := some t.length } ++ [⟨.ptr c, some c, none, none⟩])[i]? = some e2
          ∧ e2.ptr = some p := by
      intro ho
      have : ∃ e3, t[i]? = some e3 ∧ e3.ptr = some p := by
        rcases ho with ho | ⟨rfl, ho⟩
        · exact h.ptr2 p e1 i ho hx
        · exact h.ptr2 p e i he (ho.symm.trans hx)
      obtain ⟨e3, g1, g2⟩ := this
      by_cases hic : i = c
      · subst hic
        rw [he] at g1
        cases g1
        rw [hp] at g2
        cases g2
      · exact ⟨e3, (get_set_push hc).2 (Or.inl ⟨hic, g1⟩), g2⟩
    rcases (get_set_push hc).1 hi with ⟨_, hi⟩ | ⟨rfl, rfl⟩ | ⟨rfl, rfl⟩
    · exact old (Or.inl hi)
    · exact old (Or.inr ⟨rfl, rfl⟩)
    · cases hx
      exact ⟨_, (get_set_push hc).2 (Or.inr (Or.inl ⟨rfl, rfl⟩)), rfl⟩
  · intro i e1 p hi hx
    have : ∃ e', t[p]? = some e' ∧ e'.ct = .array i ∧ e'.base = some i := by
      rcases (get_set_push hc).1 hi with ⟨_, hi⟩ | ⟨rfl, rfl⟩ | ⟨rfl, rfl⟩
      · exact h.arr1 i e1 p hi hx
      · exact h.arr1 _ e p he hx
      · cases hx
    obtain ⟨e', g1, g2, g3⟩ := this
    obtain ⟨e'', g4, g5, g6⟩ := hE p e' g1
    exact ⟨e'', g4, g5.trans g2, g6.trans g3⟩
  · intro p e1 i hi hx
    have : ∃ e3, t[i]? = some e3 ∧ e3.array = some p := by
      rcases (get_set_push hc).1 hi with ⟨_, hi⟩ | ⟨rfl, rfl⟩ | ⟨rfl, rfl⟩
      · exact h.arr2 p e1 i hi hx
      · exact h.arr2 _ e i he hx
      · cases hx
    obtain ⟨e3, g1, g2⟩ := this
    by_cases hic : i = c
    · subst hic
      rw [he] at g1
      cases g1
      exact ⟨_, (get_set_push hc).2 (Or.inr (Or.inl ⟨rfl, rfl⟩)), g2⟩
    · exact ⟨e3, (get_set_push hc).2 (Or.inl ⟨hic, g1⟩), g2⟩

theorem TabInv.newArray {t : List Entry} (h : TabInv t) {c : Nat} {e : Entry} (he : t[c]? = some e)
    (hp : e.array = none) :
    TabInv (t.set c { e with array := some t.length } ++ [⟨.array c, some c, none, none⟩]) := by
  have hc := lt_of_get he
  have hE := ext_set_push (n := ⟨.array c, some c, none, none⟩) (e0 := { e with array := some t.length }) he rfl rfl
  refine ⟨h.ext.trans hE, ?_, ?_, ?_, ?_, ?_, prim_set_push h he rfl (by simp),
    user_set_push h he rfl (by simp)⟩
  · intro i e1 a b x hi hx
    rcases (get_set_push hc).1 hi with ⟨_, hi⟩ | ⟨rfl, rfl⟩ | ⟨rfl, rfl⟩
    · exact h.low i e1 a b x hi hx
    · exact h.low _ e a b x he hx
    · cases hx
  · intro i e1 p hi hx
    have : ∃ e', t[p]? = some e' ∧ e'.ct = .ptr i ∧ e'.base = some i := by
      rcases (get_set_push hc).1 hi with ⟨_, hi⟩ | ⟨rfl, rfl⟩ | ⟨rfl, rfl⟩
      · exact h.ptr1 i e1 p hi hx
      · exact h.ptr1 _ e p he hx
      · cases hx
    obtain ⟨e', g1, g2, g3⟩ := this
    obtain ⟨e'', g4, g5, g6⟩ := hE p e' g1
    exact ⟨e'', g4, g5.trans g2, g6.trans g3⟩
  · intro p e1 i hi hx
    have : ∃ e3, t[i]? = some e3 ∧ e3.ptr = some p := by
      rcases (get_set_push hc).1 hi with ⟨_, hi⟩ | ⟨rfl, rfl⟩ | ⟨rfl, rfl⟩
      · exact h.ptr2 p e1 i hi hx
      · exact h.ptr2 _ e i he hx
      · cases hx
    obtain ⟨e3, g1, g2⟩ := this
    by_cases hic : i = c
    · subst hic
      rw [he] at g1
      cases g1
      exact ⟨_, (get_set_push hc).2 (Or.inr (Or.inl ⟨rfl, rfl⟩)), g2⟩
    · exact ⟨e3, (get_set_push hc).2 (Or.inl ⟨hic, g1⟩), g2⟩
  · intro i e1 p hi hx
    rcases (get_set_push hc).1 hi with ⟨_, hi⟩ | ⟨rfl, rfl⟩ | ⟨rfl, rfl⟩
    · obtain ⟨e', g1, g2, g3⟩ := h.arr1 i e1 p hi hx
      obtain ⟨e'', g4, g5, g6⟩ := hE p e' g1
      exact ⟨e'', g4, g5.trans g2, g6.trans g3⟩
    · cases hx
      exact ⟨_, (get_set_push hc).2 (Or.inr (Or.inr ⟨rfl, rfl⟩)), rfl, rfl⟩
    · cases hx
  · intro p e1 i hi hx
    have old : t[p]? = some e1 ∨ (p = c ∧ e1.ct = e.ct) →
        ∃ e2 : Entry, (t.set c { e with array := some t.length }
            ++ [⟨.array c, some c, none, none⟩])[i]? = some e2 ∧ e2.array = some p := by
      intro ho
      have : ∃ e3, t[i]? = some e3 ∧ e3.array = some p := by
        rcases ho with ho | ⟨rfl, ho⟩
        · exact h.arr2 p e1 i ho hx
        · exact h.arr2 p e i he (ho.symm.trans hx)
      obtain ⟨e3, g1, g2⟩ := this
      by_cases hic : i = c
      · subst hic
        rw [he] at g1
        cases g1
        rw [hp] at g2
        cases g2
      · exact ⟨e3, (get_set_push hc).2 (Or.inl ⟨hic, g1⟩), g2⟩
    rcases (get_set_push hc).1 hi with ⟨_, hi⟩ | ⟨rfl, rfl⟩ | ⟨rfl, rfl⟩
    · exact old (Or.inl hi)
    · exact old (Or.inr ⟨rfl, rfl⟩)
    · cases hx
      exact ⟨_, (get_set_push hc).2 (Or.inr (Or.inl ⟨rfl, rfl⟩)), rfl⟩

/-- A variable, if it is set, has these alternatives. -/
def Is (t : List Entry) (s : Nat) (ls : List Leaf) : Prop := s ≠ unknown → ∀ l, Alt t s l ↔ l ∈ ls

theorem Is.ext {t t' : List Entry} (hE : Ext t t') (hl : Low t) {s : Nat} {ls : List Leaf} (hne : ls ≠ [])
    (h : Is t s ls) : Is t' s ls := by
  intro hs l
  have hv : s < t.length := by
    cases ls with
    | nil => exact absurd rfl hne
    | cons a as => exact ((h hs a).2 (by simp)).valid
  rw [alt_ext_iff hE hl hv]
  exact h hs l

/-- what holds of the variables -/
structure VarInv (t : List Entry) (st : St) : Prop where
  ic : Is t st.ic [.num int, .num char]
  ib : Is t st.ib [.num int, .num bool]
  ifl : Is t st.ifl [.num int, .num float]
  ibf : Is t st.ibf [.num int, .num bool, .num float]
  ibc : Is t st.ibc [.num int, .num bool, .num char]
  iv : Is t st.iv [.num int, .num voidPtr]
  ivf : Is t st.ivf [.num int, .num voidPtr, .num float]
  ivb : Is t st.ivb [.num int, .num voidPtr, .num bool]
  ivbf : Is t st.ivbf [.num int, .num voidPtr, .num bool, .num float]
  cuc : Is t st.cuc [.num char, .num uchar]
  cany : st.cany = unknown

theorem VarInv.ext {t t' : List Entry} (hE : Ext t t') (hl : Low t) {st : St} (h : VarInv t st) :
    VarInv t' st :=
  ⟨h.ic.ext hE hl (by simp), h.ib.ext hE hl (by simp), h.ifl.ext hE hl (by simp), h.ibf.ext hE hl (by simp),
    h.ibc.ext hE hl (by simp), h.iv.ext hE hl (by simp), h.ivf.ext hE hl (by simp),
    h.ivb.ext hE hl (by simp), h.ivbf.ext hE hl (by simp), h.cuc.ext hE hl (by simp), h.cany⟩

structure Inv (st : St) : Prop where
  tab : TabInv st.tab
  var : VarInv st.tab st

theorem inv_init : Inv init :=
  ⟨tabInv_init, ⟨fun h => absurd rfl h, fun h => absurd rfl h, fun h => absurd rfl h, fun h => absurd rfl h,
    fun h => absurd rfl h, fun h => absurd rfl h, fun h => absurd rfl h, fun h => absurd rfl h,
    fun h => absurd rfl h, fun h => absurd rfl h, rfl⟩⟩

theorem Inv.withTab {st : St} (h : Inv st) {t : List Entry} (ht : TabInv t) (hE : Ext st.tab t) :
    Inv { st with tab := t } := by
  refine ⟨ht, ?_⟩
  have := h.var.ext hE h.tab.low
  exact ⟨this.ic, this.ib, this.ifl, this.ibf, this.ibc, this.iv, this.ivf, this.ivb, this.ivbf, this.cuc,
    this.cany⟩

theorem get_of_lt {t : List Entry} {i : Nat} (h : i < t.length) : ∃ e : Entry, t[i]? = some e :=
  ⟨_, List.getElem?_eq_getElem h⟩

theorem TabInv.len {t : List Entry} (h : TabInv t) : lastPredefined < t.length := by
  obtain ⟨e, h1⟩ : ∃ e : Entry, init.tab[57]? = some e := get_of_lt (by decide)
  obtain ⟨e', h2, _⟩ := h.ext 57 e h1
  exact lt_of_get h2

/-- The predefined types have no alternatives. -/
theorem TabInv.alt_pre {t : List Entry} (h : TabInv t) {i : Nat} (hi : i ≤ lastPredefined) (l : Leaf) :
    Alt t i l ↔ l = .num i := by
  have key : ∀ i < 58, (init.tab[i]?.any fun e => match e.ct with
      | .conj .. => false | .other _ => false | _ => true) = true := by decide
  have := key i (Nat.lt_succ_of_le hi)
  rw [Option.any_eq_true] at this
  obtain ⟨e, h1, h2⟩ := this
  obtain ⟨e', h3, h4, _⟩ := h.ext i e h1
  refine alt_num h3 ?_ ?_
  · intro a b x hx
    rw [h4] at hx
    simp [hx] at h2
  · intro k hx
    rw [h4] at hx
    simp [hx] at h2

/-- what an operation does: the types that are there stay, and the result has these alternatives -/
structure Made (st : St) (r : St × Nat) (A : Leaf → Prop) : Prop where
  inv : Inv r.1
  ext : Ext st.tab r.1.tab
  alt : ∀ l, Alt r.1.tab r.2 l ↔ A l

theorem addConj_var (st : St) (a b : Nat) (x : Bool) :
    (addConj st a b x).1 = { st with tab := (addConj st a b x).1.tab } := by
  unfold addConj
  split <;> rfl

theorem addConj_made {st : St} (h : Inv st) {a b : Nat} (x : Bool) (ha : a < st.tab.length)
    (hb : b < st.tab.length) : Made st (addConj st a b x) fun l => Alt st.tab a l ∨ Alt st.tab b l := by
  unfold addConj
  split
  next i hi =>
    exact ⟨h, Ext.refl _, equiv_alt (findBack_spec hi).1⟩
  next hi =>
    have ht : TabInv (st.tab ++ [⟨.conj a b x, none, none, none⟩]) := by
      refine h.tab.push rfl rfl (by simp) (by simp) ?_ (by simp) (by simp)
      intro a' b' x' hx
      cases hx
      exact ⟨ha, hb⟩
    have hE := Ext.append st.tab [⟨.conj a b x, none, none, none⟩]
    refine ⟨h.withTab ht hE, hE, ?_⟩
    intro l
    show Alt (st.tab ++ [⟨.conj a b x, none, none, none⟩]) st.tab.length l ↔ _
    rw [alt_conj (get_push.2 (Or.inr ⟨rfl, rfl⟩)) rfl, alt_ext_iff hE h.tab.low ha,
      alt_ext_iff hE h.tab.low hb]

theorem cached_made {st : St} (h : Inv st) {get : St → Nat} {set : St → Nat → St} {a b : Nat} (ls : List Leaf)
    (ha : a < st.tab.length) (hb : b < st.tab.length)
    (hs : ∀ s n, (set s n).tab = s.tab)
    (hv : ∀ t s n, VarInv t s → Is t n ls → VarInv t (set s n))
    (hg : Is st.tab (get st) ls) (hab : ∀ l, Alt st.tab a l ∨ Alt st.tab b l ↔ l ∈ ls) :
    Made st (cached st get set a b) fun l => Alt st.tab a l ∨ Alt st.tab b l := by
  unfold cached
  split
  next =>
    have m := addConj_made h false ha hb
    dsimp only
    refine ⟨⟨?_, ?_⟩, ?_, ?_⟩
    · rw [hs]; exact m.inv.tab
    · rw [hs]
      exact hv _ _ _ m.inv.var fun _ l => (m.alt l).trans (hab l)
    · rw [hs]; exact m.ext
    · intro l
      dsimp only
      rw [hs]
      exact m.alt l
  next hn =>
    exact ⟨h, Ext.refl _, fun l => (hg hn l).trans (hab l).symm⟩

theorem VarInv.setVar {t : List Entry} {st : St} (h : VarInv t st) {n : Nat} :
    (Is t n [.num int, .num char] → VarInv t { st with ic := n })
    ∧ (Is t n [.num int, .num bool] → VarInv t { st with ib := n })
    ∧ (Is t n [.num int, .num float] → VarInv t { st with ifl := n })
    ∧ (Is t n [.num int, .num bool, .num float] → VarInv t { st with ibf := n })
    ∧ (Is t n [.num int, .num bool, .num char] → VarInv t { st with ibc := n })
    ∧ (Is t n [.num int, .num voidPtr] → VarInv t { st with iv := n })
    ∧ (Is t n [.num int, .num voidPtr, .num float] → VarInv t { st with ivf := n })
    ∧ (Is t n [.num int, .num voidPtr, .num bool] → VarInv t { st with ivb := n })
    ∧ (Is t n [.num int, .num voidPtr, .num bool, .num float] → VarInv t { st with ivbf := n })
    ∧ (Is t n [.num char, .num uchar] → VarInv t { st with cuc := n }) := by
  obtain ⟨h1, h2, h3, h4, h5, h6, h7, h8, h9, h10, h11⟩ := h
  refine ⟨?_, ?_, ?_, ?_, ?_, ?_, ?_, ?_, ?_, ?_⟩ <;> intro g <;> constructor <;> assumption

theorem conjKnown_made {st : St} (h : Inv st) {c1 c2 : Nat} (h1 : c1 < st.tab.length)
    (h2 : c2 < st.tab.length) (hk : c1 ≠ unknown) :
    Made st (conjKnown st c1 c2) fun l => Alt st.tab c1 l ∨ Alt st.tab c2 l := by
  have len := h.tab.len
  have vi := h.var
  have pre := @TabInv.alt_pre st.tab h.tab
  unfold conjKnown
  by_cases a1 : c1 = int
  · rw [if_pos a1]
    subst a1
    by_cases b1 : c2 = char
    · rw [if_pos b1]
      subst b1
      refine cached_made h _ h1 h2 (fun _ _ => rfl) (fun t s n q => q.setVar.1) vi.ic ?_
      intro l
      rw [pre (by decide), pre (by decide)]
      simp
    rw [if_neg b1]
    by_cases b2 : c2 = bool
    · rw [if_pos b2]
      subst b2
      refine cached_made h _ h1 h2 (fun _ _ => rfl) (fun t s n q => q.setVar.2.1) vi.ib ?_
      intro l
      rw [pre (by decide), pre (by decide)]
      simp
    rw [if_neg b2]
    by_cases b3 : c2 = float
    · rw [if_pos b3]
      subst b3
      refine cached_made h _ h1 h2 (fun _ _ => rfl) (fun t s n q => q.setVar.2.2.1) vi.ifl ?_
      intro l
      rw [pre (by decide), pre (by decide)]
      simp
    rw [if_neg b3]
    by_cases b4 : c2 = voidPtr
    · rw [if_pos b4]
      subst b4
      refine cached_made h _ h1 h2 (fun _ _ => rfl) (fun t s n q => q.setVar.2.2.2.2.2.1) vi.iv ?_
      intro l
      rw [pre (by decide), pre (by decide)]
      simp
    rw [if_neg b4]
    exact addConj_made h false h1 h2
  rw [if_neg a1]
  by_cases a2 : c1 = st.ib ∧ st.ib ≠ unknown
  · rw [if_pos a2]
    obtain ⟨a2, _⟩ := a2
    rw [← a2]
    have e1 := vi.ib (a2 ▸ hk)
    rw [← a2] at e1
    by_cases b1 : c2 = float
    · rw [if_pos b1]
      subst b1
      refine cached_made h _ h1 h2 (fun _ _ => rfl) (fun t s n q => q.setVar.2.2.2.1) vi.ibf ?_
      intro l
      rw [e1, pre (by decide)]
      simp [or_assoc]
    rw [if_neg b1]
    by_cases b2 : c2 = char
    · rw [if_pos b2]
      subst b2
      refine cached_made h _ h1 h2 (fun _ _ => rfl) (fun t s n q => q.setVar.2.2.2.2.1) vi.ibc ?_
      intro l
      rw [e1, pre (by decide)]
      simp [or_assoc]
    rw [if_neg b2]
    exact addConj_made h false h1 h2
  rw [if_neg a2]
  by_cases a3 : c1 = st.iv
  · rw [if_pos a3]
    have e1 := vi.iv (a3 ▸ hk)
    rw [← a3] at e1
    by_cases b1 : c2 = bool
    · rw [if_pos b1]
      subst b1
      refine cached_made h _ h1 h2 (fun _ _ => rfl) (fun t s n q => q.setVar.2.2.2.2.2.2.2.1) vi.ivb ?_
      intro l
      rw [e1, pre (by decide)]
      simp [or_assoc]
    rw [if_neg b1]
    by_cases b2 : c2 = float
    · rw [if_pos b2]
      subst b2
      refine cached_made h _ h1 h2 (fun _ _ => rfl) (fun t s n q => q.setVar.2.2.2.2.2.2.1) vi.ivf ?_
      intro l
      rw [e1, pre (by decide)]
      simp [or_assoc]
    rw [if_neg b2]
    exact addConj_made h false h1 h2
  rw [if_neg a3]
  by_cases a4 : c1 = st.ivf
  · rw [if_pos a4]
    have e1 := vi.ivf (a4 ▸ hk)
    rw [← a4] at e1
    by_cases b1 : c2 = bool
    · rw [if_pos b1]
      subst b1
      refine cached_made h _ h1 h2 (fun _ _ => rfl) (fun t s n q => q.setVar.2.2.2.2.2.2.2.2.1) vi.ivbf ?_
      intro l
      rw [e1, pre (by decide)]
      simp
      tauto
    rw [if_neg b1]
    exact addConj_made h false h1 h2
  rw [if_neg a4]
  by_cases a5 : c1 = st.ivb
  · rw [if_pos a5]
    have e1 := vi.ivb (a5 ▸ hk)
    rw [← a5] at e1
    by_cases b1 : c2 = float
    · rw [if_pos b1]
      subst b1
      refine cached_made h _ h1 h2 (fun _ _ => rfl) (fun t s n q => q.setVar.2.2.2.2.2.2.2.2.1) vi.ivbf ?_
      intro l
      rw [e1, pre (by decide)]
      simp [or_assoc]
    rw [if_neg b1]
    exact addConj_made h false h1 h2
  rw [if_neg a5]
  by_cases a6 : c1 = char
  · rw [if_pos a6]
    subst a6
    by_cases b1 : c2 = uchar
    · rw [if_pos b1]
      subst b1
      refine cached_made h _ h1 h2 (fun _ _ => rfl) (fun t s n q => q.setVar.2.2.2.2.2.2.2.2.2) vi.cuc ?_
      intro l
      rw [pre (by decide), pre (by decide)]
      simp
    rw [if_neg b1]
    exact addConj_made h false h1 h2
  rw [if_neg a6]
  exact addConj_made h false h1 h2

theorem norm_stands {nm : Names} {st : St} (h : TabInv st.tab) {c : Nat} (hc : c < st.tab.length) :
    Stands nm st.tab c (norm nm st c) := by
  obtain ⟨e, he⟩ := get_of_lt hc
  have vp : ∃ e' : Entry, st.tab[void]? = some e' ∧ e'.ptr = some voidPtr := by
    obtain ⟨e1, g1⟩ : ∃ e : Entry, init.tab[voidPtr]? = some e ∧ e.ct = .ptr void :=
      ⟨_, rfl, rfl⟩
    obtain ⟨e2, g3, g4, _⟩ := h.ext _ _ g1.1
    exact h.ptr2 voidPtr e2 void g3 (g4.trans g1.2)
  have bl : ∃ e' : Entry, st.tab[bool]? = some e' ∧ e'.ct = .prim bool := by
    obtain ⟨e1, g1⟩ : ∃ e : Entry, init.tab[bool]? = some e ∧ e.ct = .prim bool :=
      ⟨_, rfl, rfl⟩
    obtain ⟨e2, g3, g4, _⟩ := h.ext _ _ g1.1
    exact ⟨e2, g3, g4.trans g1.2⟩
  obtain ⟨eb, hb1, hb2⟩ := bl
  have other : (∀ u, e.ct ≠ .user u) → ∀ (e1 : Entry) u, st.tab[c]? = some e1 → e1.ct = .user u →
      nm.isBool u = false ∧ nm.isVoidPtr u = false := by
    intro ho e1 u g1 g2
    rw [he] at g1
    cases g1
    exact absurd g2 (ho u)
  unfold norm
  rw [he]
  cases hct : e.ct with
  | prim j =>
    have hj := h.prim c e j he hct
    subst hj
    have : (match st.tab[c]?.map Entry.ct with
        | some (.ptr b) => if b = void then voidPtr else c
        | some (.user u) => if nm.isVoidPtr u then voidPtr else c
        | _ => c) = c := by
      rw [he]
      simp [hct]
    by_cases hb : c = bool
    · subst hb
      simp only [Option.map_some, hct, if_true, he]
      exact Or.inr (Or.inr ⟨rfl, other (by simp [hct])⟩)
    · simp only [Option.map_some, hct, if_neg hb, he]
      exact Or.inr (Or.inr ⟨rfl, other (by simp [hct])⟩)
  | user u =>
    by_cases hb : nm.isBool u = true
    · simp only [Option.map_some, hct, hb, if_true, hb1, hb2]
      exact Or.inl ⟨rfl, e, u, he, hct, hb⟩
    · simp only [Option.map_some, hct, if_neg hb, he]
      have hb' : nm.isBool u = false := by simpa using hb
      by_cases hv : nm.isVoidPtr u = true
      · rw [if_pos hv]
        exact Or.inr (Or.inl ⟨rfl, e, u, he, hct, hb', hv⟩)
      · rw [if_neg hv]
        refine Or.inr (Or.inr ⟨rfl, ?_⟩)
        intro e1 u1 g1 g2
        rw [he] at g1
        cases g1
        rw [hct] at g2
        cases g2
        exact ⟨hb', by simpa using hv⟩
  | ptr b =>
    simp only [Option.map_some, hct, he]
    by_cases hb : b = void
    · rw [if_pos hb]
      subst hb
      obtain ⟨e1, g1, g2⟩ := vp
      obtain ⟨e2, g3, g4⟩ := h.ptr2 c e void he hct
      rw [g1] at g3
      cases g3
      rw [g2] at g4
      cases g4
      exact Or.inr (Or.inr ⟨rfl, other (by simp [hct])⟩)
    · rw [if_neg hb]
      exact Or.inr (Or.inr ⟨rfl, other (by simp [hct])⟩)
  | undef => simp only [Option.map_some, hct, he]; exact Or.inr (Or.inr ⟨rfl, other (by simp [hct])⟩)
  | array b => simp only [Option.map_some, hct, he]; exact Or.inr (Or.inr ⟨rfl, other (by simp [hct])⟩)
  | farray b n => simp only [Option.map_some, hct, he]; exact Or.inr (Or.inr ⟨rfl, other (by simp [hct])⟩)
  | conj a b x => simp only [Option.map_some, hct, he]; exact Or.inr (Or.inr ⟨rfl, other (by simp [hct])⟩)
  | other k => simp only [Option.map_some, hct, he]; exact Or.inr (Or.inr ⟨rfl, other (by simp [hct])⟩)

theorem _root_.Splint.TypeTable.Spec.Stands.valid {nm : Names} {t : List Entry} (h : TabInv t) {c d : Nat}
    (hc : c < t.length) (hs : Stands nm t c d) : d < t.length ∧ (c ≠ unknown → d ≠ unknown) := by
  have := h.len
  rcases hs with ⟨rfl, _⟩ | ⟨rfl, _⟩ | ⟨rfl, _⟩
  · exact ⟨Nat.lt_trans (by decide) this, fun _ => by decide⟩
  · exact ⟨Nat.lt_trans (by decide) this, fun _ => by decide⟩
  · exact ⟨hc, id⟩

theorem makeConj_unknown {nm : Names} {st : St} (h : Inv st) (c1 c2 : Nat) (hu : c1 = unknown ∨ c2 = unknown) :
    makeConj nm st c1 c2 = (st, unknown) := by
  unfold makeConj isAnytype
  rw [h.var.cany]
  by_cases h1 : c1 = unknown
  · simp [h1]
  · have h2 := hu.resolve_left h1
    simp [h1, h2]

theorem makeConj_known {nm : Names} {st : St} (h : Inv st) {c1 c2 : Nat} (h1 : c1 ≠ unknown)
    (h2 : c2 ≠ unknown) : makeConj nm st c1 c2 = conjKnown st (norm nm st c1) (norm nm st c2) := by
  unfold makeConj isAnytype
  rw [h.var.cany]
  simp [h1, h2]

theorem makeAnytype_eq {nm : Names} {st : St} (h : Inv st) : makeAnytype nm st = (st, unknown) := by
  unfold makeAnytype
  rw [if_pos h.var.cany, makeConj_unknown h _ _ (Or.inl rfl)]
  dsimp only
  congr 1
  have := h.var.cany
  cases st
  simp_all

theorem makeConj_made {nm : Names} {st : St} (h : Inv st) {c1 c2 : Nat} (h1 : c1 < st.tab.length)
    (h2 : c2 < st.tab.length) (k1 : c1 ≠ unknown) (k2 : c2 ≠ unknown) :
    Made st (makeConj nm st c1 c2) fun l => Alt st.tab (norm nm st c1) l ∨ Alt st.tab (norm nm st c2) l := by
  rw [makeConj_known h k1 k2]
  have s1 := (norm_stands (nm := nm) h.tab h1).valid h.tab h1
  have s2 := (norm_stands (nm := nm) h.tab h2).valid h.tab h2
  exact conjKnown_made h s1.1 s2.1 (s1.2 k1)

theorem makePointer_eq {st : St} (h : TabInv st.tab) (c : Nat) :
    makePointer st c = st.tab[c]?.map fun e =>
      match e.ptr with
      | some p => (st, p)
      | none =>
        push { st with tab := st.tab.set c { e with ptr := some st.tab.length } }
          ⟨.ptr c, some c, none, none⟩ := by
  have key : ∀ c p : Nat, (∃ e : Entry, init.tab[p]? = some e ∧ e.ct = .ptr c) →
      ∃ e : Entry, st.tab[c]? = some e ∧ e.ptr = some p := by
    rintro c p ⟨e1, g1, g2⟩
    obtain ⟨e2, g3, g4, _⟩ := h.ext _ _ g1
    exact h.ptr2 p e2 c g3 (g4.trans g2)
  unfold makePointer
  by_cases h1 : c = char
  · rw [if_pos h1]
    subst h1
    obtain ⟨e, g1, g2⟩ := key char string ⟨_, rfl, rfl⟩
    rw [g1, Option.map_some, g2]
  · rw [if_neg h1]
    by_cases h2 : c = void
    · rw [if_pos h2]
      subst h2
      obtain ⟨e, g1, g2⟩ := key void voidPtr ⟨_, rfl, rfl⟩
      rw [g1, Option.map_some, g2]
    · rw [if_neg h2]
      rfl

theorem findBack_none {p : Nat → Bool} {stop n i : Nat} (h : findBack p stop n = none) (h1 : stop ≤ i)
    (h2 : i < n) : p i = false := by
  induction n with
  | zero => omega
  | succ n ih =>
    unfold findBack at h
    rw [if_neg (by omega)] at h
    by_cases hp : p n = true
    · rw [if_pos hp] at h; cases h
    · rw [if_neg hp] at h
      by_cases hi : i = n
      · subst hi; simpa using hp
      · exact ih h (by omega)

theorem inv_step {nm : Names} {st st' : St} {op : Op} {n : Nat} (h : Inv st)
    (hs : step nm st op = some (st', n)) : Inv st' ∧ Ext st.tab st'.tab := by
  cases op with
  | pointer c =>
    rw [step] at hs
    rw [makePointer_eq h.tab] at hs
    cases he : st.tab[c]? with
    | none => rw [he] at hs; cases hs
    | some e =>
      rw [he] at hs
      cases hp : e.ptr with
      | some p =>
        simp [hp] at hs
        rw [← hs.1]
        exact ⟨h, Ext.refl _⟩
      | none =>
        simp only [Option.map_some, hp, Option.some.injEq, push, Prod.mk.injEq] at hs
        rw [← hs.1]
        have hE := ext_set_push (n := ⟨.ptr c, some c, none, none⟩)
          (e0 := { e with ptr := some st.tab.length }) he rfl rfl
        exact ⟨h.withTab (h.tab.newPtr he hp) hE, hE⟩
  | array c =>
    rw [step] at hs
    unfold makeArray at hs
    cases he : st.tab[c]? with
    | none => rw [he] at hs; cases hs
    | some e =>
      rw [he] at hs
      cases hp : e.array with
      | some p =>
        simp [hp] at hs
        rw [← hs.1]
        exact ⟨h, Ext.refl _⟩
      | none =>
        simp only [Option.map_some, hp, Option.some.injEq, push, Prod.mk.injEq] at hs
        rw [← hs.1]
        have hE := ext_set_push (n := ⟨.array c, some c, none, none⟩)
          (e0 := { e with array := some st.tab.length }) he rfl rfl
        exact ⟨h.withTab (h.tab.newArray he hp) hE, hE⟩
  | fixedArray c k =>
    rw [step] at hs
    unfold makeFixedArray at hs
    cases he : st.tab[c]? with
    | none => rw [he] at hs; cases hs
    | some e =>
      rw [he] at hs
      simp only [Option.map_some, Option.some.injEq, push, Prod.mk.injEq] at hs
      rw [← hs.1]
      exact ⟨h.withTab (h.tab.push rfl rfl (by simp) (by simp) (by simp) (by simp) (by simp))
        (Ext.append _ _), Ext.append _ _⟩
  | user u =>
    rw [step] at hs
    unfold createUser at hs
    split at hs
    · simp at hs
      rw [← hs.1]
      exact ⟨h, Ext.refl _⟩
    next hn =>
      simp only [Option.some.injEq, push, Prod.mk.injEq] at hs
      rw [← hs.1]
      refine ⟨h.withTab (h.tab.push rfl rfl (by simp) (by simp) (by simp) (by simp) ?_)
        (Ext.append _ _), Ext.append _ _⟩
      intro u' i e hu hi hc
      cases hu
      have := findBack_none hn (Nat.zero_le i) (lt_of_get hi)
      simp [hi, hc] at this
  | other k =>
    rw [step] at hs
    unfold addOther at hs
    simp only [Option.some.injEq, push, Prod.mk.injEq] at hs
    rw [← hs.1]
    exact ⟨h.withTab (h.tab.push rfl rfl (by simp) (by simp) (by simp) (by simp) (by simp))
      (Ext.append _ _), Ext.append _ _⟩
  | conj c1 c2 =>
    rw [step] at hs
    split at hs
    next hv =>
      by_cases hu : c1 = unknown ∨ c2 = unknown
      · rw [makeConj_unknown h _ _ hu] at hs
        cases hs
        exact ⟨h, Ext.refl _⟩
      · push Not at hu
        have m := makeConj_made (nm := nm) h hv.1 hv.2 hu.1 hu.2
        simp only [Option.some.injEq] at hs
        rw [hs] at m
        exact ⟨m.inv, m.ext⟩
    next => cases hs
  | explicitConj c1 c2 =>
    rw [step] at hs
    split at hs
    next hv =>
      simp only [Option.some.injEq] at hs
      unfold makeExplicitConj at hs
      split at hs
      · rw [makeAnytype_eq h] at hs
        cases hs
        exact ⟨h, Ext.refl _⟩
      · have m := addConj_made h true hv.1 hv.2
        rw [hs] at m
        exact ⟨m.inv, m.ext⟩
    next => cases hs
  | anytype =>
    rw [step] at hs
    rw [makeAnytype_eq h] at hs
    cases hs
    exact ⟨h, Ext.refl _⟩

theorem inv_later {nm : Names} {st st' : St} (h : Inv st) (hl : Later nm st st') :
    Inv st' ∧ Ext st.tab st'.tab := by
  induction hl with
  | refl => exact ⟨h, Ext.refl _⟩
  | step _ hs ih =>
    obtain ⟨g1, g2⟩ := inv_step ih.1 hs
    exact ⟨g1, ih.2.trans g2⟩

theorem inv_reachable {nm : Names} {st : St} (h : Reachable nm st) : Inv st := (inv_later inv_init h).1

/-- The same alternatives are found again. -/
theorem addConj_again {st st' : St} (h : TabInv st.tab) {a b : Nat} {x : Bool} (ha : a < st.tab.length)
    (hb : b < st.tab.length) (ht : st'.tab = (addConj st a b x).1.tab) :
    addConj st' a b x = (st', (addConj st a b x).2) := by
  cases hf : findBack (equiv st.tab a b x) (max (st.tab.length - 1 - 15) lastPredefined) st.tab.length with
  | some i =>
    have hr : addConj st a b x = (st, i) := by rw [addConj, hf]
    rw [hr] at ht ⊢
    rw [addConj, ht, hf]
  | none =>
    have hr : addConj st a b x = push st ⟨.conj a b x, none, none, none⟩ := by rw [addConj, hf]
    rw [hr] at ht ⊢
    have ht' : st'.tab = st.tab ++ [⟨.conj a b x, none, none, none⟩] := ht
    have hlow : Low st'.tab := by
      rw [ht']
      intro i e a' b' x' hi hc
      rcases get_push.1 hi with hi | ⟨rfl, rfl⟩
      · exact h.low i e a' b' x' hi hc
      · cases hc
        exact ⟨ha, hb⟩
    have hlen : st'.tab.length = st.tab.length + 1 := by rw [ht']; simp
    have hg : st'.tab[st.tab.length]? = some ⟨.conj a b x, none, none, none⟩ := by
      rw [ht']
      exact get_push.2 (Or.inr ⟨rfl, rfl⟩)
    have he : equiv st'.tab a b x st.tab.length = true := by
      unfold equiv
      rw [hg]
      simp only [Option.map_some]
      rw [same_refl hlow (by omega), same_refl hlow (by omega)]
      simp
    have hl := h.len
    rw [addConj, hlen, findBack, if_neg (by omega), if_pos he]
    rfl

theorem addConj_ne {st : St} (h : TabInv st.tab) {a b : Nat} {x : Bool} : (addConj st a b x).2 ≠ unknown := by
  have hl := h.len
  have e1 : unknown = 0 := rfl
  have e2 : lastPredefined = 57 := rfl
  unfold addConj
  split
  next i hi =>
    have := (findBack_spec hi).2.1
    show i ≠ unknown
    omega
  next =>
    show st.tab.length ≠ unknown
    omega

theorem cached_again {st : St} (h : TabInv st.tab) {get : St → Nat} {set : St → Nat → St} {a b : Nat}
    (hg : ∀ s n, get (set s n) = n) {get' : St → Nat} (hgg : get' = get) (a' b' : Nat) :
    cached (cached st get set a b).1 get' set a' b' = cached st get set a b := by
  subst hgg
  unfold cached
  by_cases hn : get' st = unknown
  · simp only [if_pos hn]
    rw [if_neg (by rw [hg]; exact addConj_ne h)]
    rw [hg]
  · simp only [if_neg hn]

/-- The variables that are not concerned stay. -/
theorem cached_keep {st : St} {get : St → Nat} {set : St → Nat → St} {a b : Nat} (f : St → Nat)
    (h1 : ∀ s n, f (set s n) = f s) (h2 : ∀ t, f { st with tab := t } = f st) :
    f (cached st get set a b).1 = f st := by
  unfold cached
  split
  · dsimp only
    rw [h1, addConj_var, h2]
  · rfl

theorem conjKnown_again {st : St} (h : Inv st) {c1 c2 : Nat} (h1 : c1 < st.tab.length)
    (h2 : c2 < st.tab.length) :
    conjKnown (conjKnown st c1 c2).1 c1 c2 = conjKnown st c1 c2 := by
  have ht := h.tab
  have plain : ∀ s : St, s = (addConj st c1 c2 false).1 → addConj s c1 c2 false = addConj st c1 c2 false := by
    rintro s rfl
    rw [addConj_again ht h1 h2 rfl]
  have kib : (addConj st c1 c2 false).1.ib = st.ib := by rw [addConj_var]
  have kiv : (addConj st c1 c2 false).1.iv = st.iv := by rw [addConj_var]
  have kivf : (addConj st c1 c2 false).1.ivf = st.ivf := by rw [addConj_var]
  have kivb : (addConj st c1 c2 false).1.ivb = st.ivb := by rw [addConj_var]
  by_cases a1 : c1 = int
  · have e : ∀ s, conjKnown s c1 c2 =
        if c2 = char then cached s St.ic (fun s n => { s with ic := n }) int char
        else if c2 = bool then cached s St.ib (fun s n => { s with ib := n }) int bool
        else if c2 = float then cached s St.ifl (fun s n => { s with ifl := n }) int float
        else if c2 = voidPtr then cached s St.iv (fun s n => { s with iv := n }) int voidPtr
        else addConj s c1 c2 false := by
      intro s
      unfold conjKnown
      rw [if_pos a1]
    rw [e, e]
    by_cases b1 : c2 = char
    · simp only [if_pos b1]
      exact cached_again ht (fun _ _ => rfl) rfl _ _
    simp only [if_neg b1]
    by_cases b2 : c2 = bool
    · simp only [if_pos b2]
      exact cached_again ht (fun _ _ => rfl) rfl _ _
    simp only [if_neg b2]
    by_cases b3 : c2 = float
    · simp only [if_pos b3]
      exact cached_again ht (fun _ _ => rfl) rfl _ _
    simp only [if_neg b3]
    by_cases b4 : c2 = voidPtr
    · simp only [if_pos b4]
      exact cached_again ht (fun _ _ => rfl) rfl _ _
    simp only [if_neg b4]
    exact plain _ rfl
  by_cases a2 : c1 = st.ib ∧ st.ib ≠ unknown
  · have e : ∀ s : St, s.ib = st.ib → conjKnown s c1 c2 =
        if c2 = float then cached s St.ibf (fun s n => { s with ibf := n }) s.ib float
        else if c2 = char then cached s St.ibc (fun s n => { s with ibc := n }) s.ib char
        else addConj s c1 c2 false := by
      intro s hs
      unfold conjKnown
      rw [if_neg a1, if_pos (by rw [hs]; exact a2)]
    rw [e st rfl]
    by_cases b1 : c2 = float
    · simp only [if_pos b1]
      rw [e, if_pos b1]
      · exact cached_again ht (fun _ _ => rfl) rfl _ _
      all_goals
        first
        | exact cached_keep St.ib (fun _ _ => rfl) (fun _ => rfl)
        | exact cached_keep St.iv (fun _ _ => rfl) (fun _ => rfl)
        | exact cached_keep St.ivf (fun _ _ => rfl) (fun _ => rfl)
        | exact cached_keep St.ivb (fun _ _ => rfl) (fun _ => rfl)
    simp only [if_neg b1]
    by_cases b2 : c2 = char
    · simp only [if_pos b2]
      rw [e, if_neg b1, if_pos b2]
      · exact cached_again ht (fun _ _ => rfl) rfl _ _
      all_goals
        first
        | exact cached_keep St.ib (fun _ _ => rfl) (fun _ => rfl)
        | exact cached_keep St.iv (fun _ _ => rfl) (fun _ => rfl)
        | exact cached_keep St.ivf (fun _ _ => rfl) (fun _ => rfl)
        | exact cached_keep St.ivb (fun _ _ => rfl) (fun _ => rfl)
    simp only [if_neg b2]
    rw [e _ kib, if_neg b1, if_neg b2]
    exact plain _ rfl
  by_cases a3 : c1 = st.iv
  · have e : ∀ s : St, s.ib = st.ib → s.iv = st.iv → conjKnown s c1 c2 =
        if c2 = bool then cached s St.ivb (fun s n => { s with ivb := n }) c1 c2
        else if c2 = float then cached s St.ivf (fun s n => { s with ivf := n }) c1 c2
        else addConj s c1 c2 false := by
      intro s hs hs'
      unfold conjKnown
      rw [if_neg a1, if_neg (by rw [hs]; exact a2), if_pos (by rw [hs']; exact a3)]
    rw [e st rfl rfl]
    by_cases b1 : c2 = bool
    · simp only [if_pos b1]
      rw [e, if_pos b1]
      · exact cached_again ht (fun _ _ => rfl) rfl _ _
      all_goals
        first
        | exact cached_keep St.ib (fun _ _ => rfl) (fun _ => rfl)
        | exact cached_keep St.iv (fun _ _ => rfl) (fun _ => rfl)
        | exact cached_keep St.ivf (fun _ _ => rfl) (fun _ => rfl)
        | exact cached_keep St.ivb (fun _ _ => rfl) (fun _ => rfl)
    simp only [if_neg b1]
    by_cases b2 : c2 = float
    · simp only [if_pos b2]
      rw [e, if_neg b1, if_pos b2]
      · exact cached_again ht (fun _ _ => rfl) rfl _ _
      all_goals
        first
        | exact cached_keep St.ib (fun _ _ => rfl) (fun _ => rfl)
        | exact cached_keep St.iv (fun _ _ => rfl) (fun _ => rfl)
        | exact cached_keep St.ivf (fun _ _ => rfl) (fun _ => rfl)
        | exact cached_keep St.ivb (fun _ _ => rfl) (fun _ => rfl)
    simp only [if_neg b2]
    rw [e _ kib kiv, if_neg b1, if_neg b2]
    exact plain _ rfl
  by_cases a4 : c1 = st.ivf
  · have e : ∀ s : St, s.ib = st.ib → s.iv = st.iv → s.ivf = st.ivf → conjKnown s c1 c2 =
        if c2 = bool then cached s St.ivbf (fun s n => { s with ivbf := n }) c1 c2
        else addConj s c1 c2 false := by
      intro s hs hs' hs''
      unfold conjKnown
      rw [if_neg a1, if_neg (by rw [hs]; exact a2), if_neg (by rw [hs']; exact a3),
        if_pos (by rw [hs'']; exact a4)]
    rw [e st rfl rfl rfl]
    by_cases b1 : c2 = bool
    · simp only [if_pos b1]
      rw [e, if_pos b1]
      · exact cached_again ht (fun _ _ => rfl) rfl _ _
      all_goals
        first
        | exact cached_keep St.ib (fun _ _ => rfl) (fun _ => rfl)
        | exact cached_keep St.iv (fun _ _ => rfl) (fun _ => rfl)
        | exact cached_keep St.ivf (fun _ _ => rfl) (fun _ => rfl)
        | exact cached_keep St.ivb (fun _ _ => rfl) (fun _ => rfl)
    simp only [if_neg b1]
    rw [e _ kib kiv kivf, if_neg b1]
    exact plain _ rfl
  by_cases a5 : c1 = st.ivb
  · have e : ∀ s : St, s.ib = st.ib → s.iv = st.iv → s.ivf = st.ivf → s.ivb = st.ivb → conjKnown s c1 c2 =
        if c2 = float then cached s St.ivbf (fun s n => { s with ivbf := n }) c1 c2
        else addConj s c1 c2 false := by
      intro s hs hs' hs'' hs3
      unfold conjKnown
      rw [if_neg a1, if_neg (by rw [hs]; exact a2), if_neg (by rw [hs']; exact a3),
        if_neg (by rw [hs'']; exact a4), if_pos (by rw [hs3]; exact a5)]
    rw [e st rfl rfl rfl rfl]
    by_cases b1 : c2 = float
    · simp only [if_pos b1]
      rw [e, if_pos b1]
      · exact cached_again ht (fun _ _ => rfl) rfl _ _
      all_goals
        first
        | exact cached_keep St.ib (fun _ _ => rfl) (fun _ => rfl)
        | exact cached_keep St.iv (fun _ _ => rfl) (fun _ => rfl)
        | exact cached_keep St.ivf (fun _ _ => rfl) (fun _ => rfl)
        | exact cached_keep St.ivb (fun _ _ => rfl) (fun _ => rfl)
    simp only [if_neg b1]
    rw [e _ kib kiv kivf kivb, if_neg b1]
    exact plain _ rfl
  have e : ∀ s : St, s.ib = st.ib → s.iv = st.iv → s.ivf = st.ivf → s.ivb = st.ivb → conjKnown s c1 c2 =
      if c1 = char then
        if c2 = uchar then cached s St.cuc (fun s n => { s with cuc := n }) c1 c2
        else addConj s c1 c2 false
      else addConj s c1 c2 false := by
    intro s hs hs' hs'' hs3
    unfold conjKnown
    rw [if_neg a1, if_neg (by rw [hs]; exact a2), if_neg (by rw [hs']; exact a3),
      if_neg (by rw [hs'']; exact a4), if_neg (by rw [hs3]; exact a5)]
  rw [e st rfl rfl rfl rfl]
  by_cases a6 : c1 = char
  · simp only [if_pos a6]
    by_cases b1 : c2 = uchar
    · simp only [if_pos b1]
      rw [e, if_pos a6, if_pos b1]
      · exact cached_again ht (fun _ _ => rfl) rfl _ _
      all_goals
        first
        | exact cached_keep St.ib (fun _ _ => rfl) (fun _ => rfl)
        | exact cached_keep St.iv (fun _ _ => rfl) (fun _ => rfl)
        | exact cached_keep St.ivf (fun _ _ => rfl) (fun _ => rfl)
        | exact cached_keep St.ivb (fun _ _ => rfl) (fun _ => rfl)
    simp only [if_neg b1]
    rw [e _ kib kiv kivf kivb, if_pos a6, if_neg b1]
    exact plain _ rfl
  · simp only [if_neg a6]
    rw [e _ kib kiv kivf kivb, if_neg a6]
    exact plain _ rfl

/-- What a type stands for does not change. -/
theorem norm_ext {nm : Names} {st st' : St} (hE : Ext st.tab st'.tab) (h : TabInv st.tab) {c : Nat}
    (hc : c < st.tab.length) : norm nm st' c = norm nm st c := by
  have ct : ∀ i, i < st.tab.length → st'.tab[i]?.map Entry.ct = st.tab[i]?.map Entry.ct := by
    intro i hi
    obtain ⟨e, he⟩ := get_of_lt hi
    obtain ⟨e', g1, g2, _⟩ := hE i e he
    rw [he, g1]
    simp [g2]
  have hb : bool < st.tab.length := Nat.lt_trans (by decide) h.len
  have c1 := ct c hc
  have c2 := ct bool hb
  unfold norm
  dsimp only
  rw [c1]
  cases hx : st.tab[c]?.map Entry.ct with
  | none => rw [hx] at c1; simp only [c1, hx]
  | some x =>
    rw [hx] at c1
    cases x with
    | prim j => by_cases hj : j = bool <;> simp only [hj, if_true, if_false, c1, c2, hx]
    | user u => by_cases hj : nm.isBool u = true <;> simp [hj, c1, c2, hx]
    | _ => simp only [c1, hx]

end Splint.TypeTable
