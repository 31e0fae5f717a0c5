import Verif.Spec.CppHash
import Mathlib.Data.List.Nodup
import Mathlib.Data.List.Perm.Subperm
namespace Splint.CppHash

local notation "Addr" => Nat

theorem update_same {α β : Type} [DecidableEq α] (f : α → β) (a : α) (b : β) : update f a b a = b := if_pos rfl
theorem update_ne {α β : Type} [DecidableEq α] (f : α → β) {a x : α} (b : β) (h : x ≠ a) : update f a b x = f x := if_neg h

/-- A segment of a doubly linked list: from `c`, before which is `p`, through the nodes of `L` to `e`,
before which is `l`. -/
def Seg (heap : Addr → Option Node) (h : Bool × Nat) : Option Addr → Option Addr → List Addr → Option Addr → Option Addr → Prop
  | p, c, [], l, e => l = p ∧ c = e
  | p, c, a :: L, l, e => c = some a ∧ ∃ n, heap a = some n ∧ n.prev = p ∧ n.hdr = h ∧ Seg heap h (some a) n.next L l e

theorem seg_append {heap h} {L2 : List Addr} {l e} : ∀ {L1 : List Addr} {p c},
    Seg heap h p c (L1 ++ L2) l e ↔ ∃ m q, Seg heap h p c L1 m q ∧ Seg heap h m q L2 l e := by
  intro L1
  induction L1 with
  | nil =>
    intro p c
    simp only [List.nil_append, Seg]
    constructor
    · intro h; exact ⟨p, c, ⟨rfl, rfl⟩, h⟩
    · rintro ⟨m, q, ⟨rfl, rfl⟩, h⟩; exact h
  | cons a L1 ih =>
    intro p c
    simp only [List.cons_append, Seg]
    constructor
    · rintro ⟨rfl, n, h1, h2, h3, h4⟩
      obtain ⟨m, q, h5, h6⟩ := ih.1 h4
      exact ⟨m, q, ⟨rfl, n, h1, h2, h3, h5⟩, h6⟩
    · rintro ⟨m, q, ⟨rfl, n, h1, h2, h3, h5⟩, h6⟩
      exact ⟨rfl, n, h1, h2, h3, ih.2 ⟨m, q, h5, h6⟩⟩

theorem seg_frame {heap heap' h} : ∀ {L : List Addr} {p c l e}, (∀ a ∈ L, heap' a = heap a) →
    Seg heap h p c L l e → Seg heap' h p c L l e := by
  intro L
  induction L with
  | nil => intro p c l e _ h; exact h
  | cons a L ih =>
    intro p c l e hh h
    obtain ⟨h1, n, h2, h3, h4, h5⟩ := h
    exact ⟨h1, n, by rw [hh a (by simp), h2], h3, h4, ih (fun a ha => hh a (by simp [ha])) h5⟩

theorem seg_mem {heap h} : ∀ {L : List Addr} {p c l e}, Seg heap h p c L l e → ∀ a ∈ L, ∃ n, heap a = some n ∧ n.hdr = h := by
  intro L
  induction L with
  | nil => intro p c l e _ a ha; simp at ha
  | cons b L ih =>
    intro p c l e h a ha
    obtain ⟨h1, n, h2, h3, h4, h5⟩ := h
    rcases List.mem_cons.1 ha with rfl | ha
    · exact ⟨n, h2, h4⟩
    · exact ih h5 a ha

/-- The last node of a segment. -/
theorem seg_last {heap h} {x : Addr} : ∀ {L : List Addr} {p c l e}, Seg heap h p c L l e → L ≠ [] → l = some x → x ∈ L := by
  intro L
  induction L with
  | nil => intro p c l e _ h; simp at h
  | cons a L ih =>
    intro p c l e h _ hl
    obtain ⟨h1, n, h2, h3, h4, h5⟩ := h
    cases L with
    | nil =>
      simp only [Seg] at h5
      rw [h5.1] at hl
      simp only [Option.some.injEq] at hl
      simp [hl]
    | cons b L => exact List.mem_cons_of_mem _ (ih h5 (by simp) hl)

theorem seg_last_some {heap h} : ∀ {L : List Addr} {p c l e}, Seg heap h p c L l e → L ≠ [] → ∃ x, l = some x := by
  intro L
  induction L with
  | nil => intro p c l e _ h; simp at h
  | cons a L ih =>
    intro p c l e h _
    obtain ⟨h1, n, h2, h3, h4, h5⟩ := h
    cases L with
    | nil => exact ⟨a, h5.1⟩
    | cons b L => exact ih h5 (by simp)

/-- Writing the link at the end. -/
theorem seg_setNext {heap h} {x : Addr} {e' : Option Addr} : ∀ {L : List Addr} {p c l e}, Seg heap h p c L l e → L ≠ [] →
    l = some x → L.Nodup → ∃ n, heap x = some n ∧
      Seg (update heap x (some { n with next := e' })) h p c L l e' := by
  intro L
  induction L with
  | nil => intro p c l e _ h; simp at h
  | cons a L ih =>
    intro p c l e h _ hl hnd
    obtain ⟨h1, n, h2, h3, h4, h5⟩ := h
    cases L with
    | nil =>
      simp only [Seg] at h5
      obtain ⟨h6, h7⟩ := h5
      rw [h6] at hl
      simp only [Option.some.injEq] at hl
      subst hl
      exact ⟨n, h2, h1, _, update_same .., h3, h4, h6, rfl⟩
    | cons b L =>
      simp only [List.nodup_cons] at hnd
      obtain ⟨m, k1, k2⟩ := ih h5 (by simp) hl (by simp [hnd.2])
      have hne : a ≠ x := by
        rintro rfl
        exact hnd.1 (seg_last h5 (by simp) hl)
      exact ⟨m, k1, h1, n, by rw [update_ne _ _ hne, h2], h3, h4, k2⟩

/-- Writing the link at the beginning. -/
theorem seg_setPrev {heap h} {b : Addr} {L : List Addr} {p p' c l e} (hs : Seg heap h p c (b :: L) l e) (hnd : (b :: L).Nodup) :
    ∃ n, heap b = some n ∧ Seg (update heap b (some { n with prev := p' })) h p' c (b :: L) l e := by
  obtain ⟨h1, n, h2, h3, h4, h5⟩ := hs
  refine ⟨n, h2, h1, _, update_same .., rfl, h4, ?_⟩
  refine seg_frame (fun a ha => update_ne _ _ ?_) h5
  rintro rfl
  exact (List.nodup_cons.1 hnd).1 ha

/-- What a node says apart from its links. -/
def info (heap : Addr → Option Node) (a : Addr) : Option (Nat × Text × Value) :=
  (heap a).map fun n => (n.length, n.name, n.value)

/-- The values of a name in a bucket. -/
def valsOf (heap : Addr → Option Node) (L : List Addr) (nm : Text) : List Value :=
  L.filterMap fun a => (info heap a).bind fun x => if x.2.1 = nm then some x.2.2 else none

theorem valsOf_congr {heap heap' : Addr → Option Node} {L : List Addr} (h : ∀ a ∈ L, info heap' a = info heap a) (nm : Text) :
    valsOf heap' L nm = valsOf heap L nm := by
  unfold valsOf
  refine List.filterMap_congr ?_
  intro a ha
  rw [h a ha]

theorem info_next {heap : Addr → Option Node} {x : Addr} {n : Node} (h : heap x = some n) (y : Option Addr) (a : Addr) :
    info (update heap x (some { n with next := y })) a = info heap a := by
  unfold info
  by_cases ha : a = x
  · subst ha; rw [update_same, h]; rfl
  · rw [update_ne _ _ ha]

theorem info_prev {heap : Addr → Option Node} {x : Addr} {n : Node} (h : heap x = some n) (y : Option Addr) (a : Addr) :
    info (update heap x (some { n with prev := y })) a = info heap a := by
  unfold info
  by_cases ha : a = x
  · subst ha; rw [update_same, h]; rfl
  · rw [update_ne _ _ ha]

theorem info_ne {heap : Addr → Option Node} {x a : Addr} {n : Option Node} (h : a ≠ x) :
    info (update heap x n) a = info heap a := by
  unfold info; rw [update_ne _ _ h]

/-- The buckets are the lists `L`. -/
structure Inv (s : State) (L : Bool × Nat → List Addr) : Prop where
  chain : ∀ b, ∃ l, Seg s.heap b none (s.tab b) (L b) l none
  nodup : ∀ b, (L b).Nodup
  bound : ∀ b, ∀ a ∈ L b, a < s.fresh
  good : ∀ b, ∀ a ∈ L b, ∀ x, info s.heap a = some x → x.1 = x.2.1.length ∧ hashCode x.2.1 = b.2

theorem Inv.disjoint {s : State} {L : Bool × Nat → List Addr} (h : Inv s L) {b b' : Bool × Nat} {a : Addr}
    (h1 : a ∈ L b) (h2 : a ∈ L b') : b = b' := by
  obtain ⟨l, hl⟩ := h.chain b
  obtain ⟨l', hl'⟩ := h.chain b'
  obtain ⟨n, k1, k2⟩ := seg_mem hl a h1
  obtain ⟨n', k3, k4⟩ := seg_mem hl' a h2
  rw [k1, Option.some.injEq] at k3
  subst k3
  rw [← k2, k4]

theorem Inv.info {s : State} {L : Bool × Nat → List Addr} (h : Inv s L) {b : Bool × Nat} {a : Addr} (ha : a ∈ L b) :
    ∃ n, s.heap a = some n ∧ n.hdr = b ∧ n.length = n.name.length ∧ hashCode n.name = b.2 := by
  obtain ⟨l, hl⟩ := h.chain b
  obtain ⟨n, k1, k2⟩ := seg_mem hl a ha
  have := h.good b a ha (n.length, n.name, n.value) (by simp [CppHash.info, k1])
  exact ⟨n, k1, k2, this⟩

theorem length_le_of_nodup_lt : ∀ (n : Nat) (L : List Nat), L.Nodup → (∀ a ∈ L, a < n) → L.length ≤ n := by
  intro n L h1 h2
  have : L ⊆ List.range n := fun a ha => List.mem_range.2 (h2 a ha)
  have := (List.subperm_of_subset h1 this).length_le
  simpa using this

theorem Inv.length {s : State} {L : Bool × Nat → List Addr} (h : Inv s L) (b : Bool × Nat) : (L b).length ≤ s.fresh :=
  length_le_of_nodup_lt _ _ (h.nodup b) (h.bound b)

/-! ### Names -/

theorem strncmpEq_iff : ∀ (name text : Text), strncmpEq name.length name text = true ↔ name = text.take name.length := by
  intro name
  induction name with
  | nil => intro text; simp [strncmpEq]
  | cons a as ih =>
    intro text
    cases text with
    | nil => simp [strncmpEq]
    | cons b bs =>
      simp only [List.length_cons, strncmpEq, Bool.and_eq_true, beq_iff_eq, List.take_succ_cons, List.cons.injEq, ih]

theorem take_lenOf (text : Text) (len : Option Nat) : text.take (lenOf text len) = nameOf text len := by
  cases len with
  | some n => rfl
  | none =>
    simp only [lenOf, nameOf]
    have : text.takeWhile isIdent <+: text := List.takeWhile_prefix _
    exact (List.prefix_iff_eq_take.1 this).symm

theorem lenOf_nameOf {text : Text} {len : Option Nat} (h : WellFormed text len) : lenOf text len = (nameOf text len).length := by
  cases len with
  | some n =>
    have := h n rfl
    simp only [lenOf, nameOf, List.length_take]
    omega
  | none => rfl

/-- Does the node have the name? -/
def named (heap : Addr → Option Node) (nm : Text) (a : Addr) : Bool :=
  match heap a with
  | none => false
  | some n => decide (n.name = nm)

theorem lookupLoop_find {heap h} {text : Text} {len : Option Nat} (hw : WellFormed text len) :
    ∀ (L : List Addr) (fuel : Nat) {p c l}, Seg heap h p c L l none → L.length ≤ fuel →
    (∀ a ∈ L, ∀ n, heap a = some n → n.length = n.name.length) →
    lookupLoop heap text (lenOf text len) fuel c = some (L.find? (named heap (nameOf text len))) := by
  intro L
  induction L with
  | nil =>
    intro fuel p c l hs _ _
    obtain ⟨_, rfl⟩ := hs
    cases fuel <;> rfl
  | cons a L ih =>
    intro fuel p c l hs hf hg
    obtain ⟨rfl, n, h1, h2, h3, h4⟩ := hs
    cases fuel with
    | zero => simp at hf
    | succ fuel =>
      simp only [List.length_cons] at hf
      have hl := hg a (by simp) n h1
      have hn : (n.length = lenOf text len ∧ strncmpEq (lenOf text len) n.name text = true) ↔ n.name = nameOf text len := by
        rw [lenOf_nameOf hw, hl]
        constructor
        · rintro ⟨k1, k2⟩
          rw [← k1, strncmpEq_iff, k1, ← lenOf_nameOf hw, take_lenOf] at k2
          exact k2
        · intro k
          refine ⟨by rw [k], ?_⟩
          rw [← k, strncmpEq_iff, k, ← lenOf_nameOf hw, take_lenOf]
      simp only [lookupLoop, h1, List.find?_cons, named]
      by_cases hk : n.name = nameOf text len
      · rw [if_pos (hn.2 hk)]; simp [hk]
      · rw [if_neg (fun h => hk (hn.1 h))]
        simp only [hk, decide_false]
        exact ih fuel h4 (by omega) (fun a ha => hg a (by simp [ha]))

theorem lookup_find {s : State} {L : Bool × Nat → List Addr} (hi : Inv s L) {text : Text} {len : Option Nat}
    (hw : WellFormed text len) : lookup s text len =
      some ((L (true, hashCode (nameOf text len))).find? (named s.heap (nameOf text len))) := by
  unfold lookup
  rw [take_lenOf]
  obtain ⟨l, hl⟩ := hi.chain (true, hashCode (nameOf text len))
  refine lookupLoop_find hw _ _ hl (by have := hi.length (true, hashCode (nameOf text len)); omega) ?_
  intro a ha n hn
  obtain ⟨m, k1, _, k2, _⟩ := hi.info ha
  rw [hn, Option.some.injEq] at k1
  rw [k1]; exact k2

/-- The first node of a name carries the first value. -/
theorem valsOf_find (heap : Addr → Option Node) (nm : Text) : ∀ L : List Addr,
    (L.find? (named heap nm) = none → valsOf heap L nm = []) ∧
    (∀ a, L.find? (named heap nm) = some a → ∃ n L1 L2, heap a = some n ∧ n.name = nm ∧ L = L1 ++ a :: L2 ∧
      valsOf heap L1 nm = [] ∧ valsOf heap L nm = n.value :: valsOf heap L2 nm) := by
  intro L
  induction L with
  | nil => simp [valsOf]
  | cons b L ih =>
    simp only [List.find?_cons]
    cases hb : named heap nm b with
    | true =>
      simp only [reduceCtorEq, false_imp_iff, Option.some.injEq, forall_eq', true_and]
      unfold named at hb
      cases hn : heap b with
      | none => rw [hn] at hb; simp at hb
      | some n =>
        rw [hn] at hb
        simp only [decide_eq_true_eq] at hb
        refine ⟨n, [], L, rfl, hb, rfl, rfl, ?_⟩
        simp [valsOf, info, hn, hb]
    | false =>
      have hv : valsOf heap (b :: L) nm = valsOf heap L nm := by
        unfold named at hb
        unfold valsOf info
        cases hn : heap b with
        | none => simp [hn]
        | some n =>
          rw [hn] at hb
          simp only [decide_eq_false_iff_not] at hb
          simp [hn, hb]
      have hv1 : ∀ L1, valsOf heap (b :: L1) nm = valsOf heap L1 nm := by
        intro L1
        unfold named at hb
        unfold valsOf info
        cases hn : heap b with
        | none => simp [hn]
        | some n =>
          rw [hn] at hb
          simp only [decide_eq_false_iff_not] at hb
          simp [hn, hb]
      rw [hv]
      refine ⟨ih.1, fun a ha => ?_⟩
      obtain ⟨n, L1, L2, k1, k2, k3, k4, k5⟩ := ih.2 a ha
      exact ⟨n, b :: L1, L2, k1, k2, by rw [k3]; rfl, by rw [hv1]; exact k4, k5⟩

/-- The state stands for definitions. -/
def Rel (s : State) (e : Env × Env) : Prop :=
  ∃ L, Inv s L ∧ (∀ nm, valsOf s.heap (L (true, hashCode nm)) nm = e.1 nm) ∧
    (∀ nm, valsOf s.heap (L (false, hashCode nm)) nm = e.2 nm)

theorem valueOf_rel {s : State} {e : Env × Env} (h : Rel s e) {text : Text} {len : Option Nat} (hw : WellFormed text len) :
    valueOf s text len = some ((e.1 (nameOf text len)).head?) := by
  obtain ⟨L, hi, h1, h2⟩ := h
  unfold valueOf
  rw [lookup_find hi hw]
  obtain ⟨k1, k2⟩ := valsOf_find s.heap (nameOf text len) (L (true, hashCode (nameOf text len)))
  rw [← h1]
  cases hf : (L (true, hashCode (nameOf text len))).find? (named s.heap (nameOf text len)) with
  | none => rw [k1 hf]; rfl
  | some a =>
    obtain ⟨n, L1, L2, m1, m2, m3, m4, m5⟩ := k2 a hf
    simp only [m5, m1, Option.map_some, List.head?_cons]

/-! ### Installing -/

theorem install_inv {s : State} {L : Bool × Nat → List Addr} (hi : Inv s L) {text : Text} {len : Option Nat}
    (hw : WellFormed text len) (v : Value) :
    ∃ s', install s text len v = some (s', s.fresh) ∧ s'.fresh = s.fresh + 1 ∧
      Inv s' (update L (true, hashCode (nameOf text len)) (s.fresh :: L (true, hashCode (nameOf text len)))) ∧
      (∀ a, a ≠ s.fresh → info s'.heap a = info s.heap a) ∧
      info s'.heap s.fresh = some ((nameOf text len).length, nameOf text len, v) := by
  have hname := take_lenOf text len
  have hlen := lenOf_nameOf hw
  generalize hb : (true, hashCode (nameOf text len)) = b
  obtain ⟨l, hl⟩ := hi.chain b
  -- the heap after the link of the old head is written
  have key : ∃ h1, (match s.tab b with
      | none => h1 = s.heap
      | some q => ∃ m, s.heap q = some m ∧ h1 = update s.heap q (some { m with prev := some s.fresh })) ∧
      (∀ a, info h1 a = info s.heap a) ∧ (∃ l', Seg h1 b (some s.fresh) (s.tab b) (L b) l' none) ∧
      (∀ a, a ∉ L b → h1 a = s.heap a) := by
    cases hL : L b with
    | nil =>
      rw [hL] at hl
      obtain ⟨_, h⟩ := hl
      rw [h]
      exact ⟨s.heap, rfl, fun _ => rfl, ⟨_, rfl, rfl⟩, fun _ _ => rfl⟩
    | cons q M =>
      rw [hL] at hl
      have hnd := hi.nodup b
      rw [hL] at hnd
      obtain ⟨m, k1, k2⟩ := seg_setPrev (p' := some s.fresh) hl hnd
      rw [hl.1]
      refine ⟨_, ⟨m, k1, rfl⟩, info_prev k1 _, ⟨l, ?_⟩, ?_⟩
      · rw [hl.1] at k2; exact k2
      · intro a ha
        exact update_ne _ _ (fun h => ha (by simp [h]))
  obtain ⟨h1, hk, hinfo, ⟨l', hseg⟩, hframe⟩ := key
  have hnf : ∀ b', s.fresh ∉ L b' := fun b' h => Nat.lt_irrefl _ (hi.bound b' _ h)
  refine ⟨⟨update h1 s.fresh (some ⟨s.tab b, none, b, (nameOf text len).length, nameOf text len, v⟩),
    update s.tab b (some s.fresh), s.fresh + 1⟩, ?_, rfl, ?_, ?_, ?_⟩
  · unfold install
    simp only [hname, hb]
    rw [hlen]
    cases ht : s.tab b with
    | none => rw [ht] at hk; simp only at hk; rw [hk]
    | some q =>
      rw [ht] at hk
      obtain ⟨m, k1, k2⟩ := hk
      simp only [k1]
      rw [k2]
  · constructor
    · intro b'
      by_cases hbb : b' = b
      · subst hbb
        rw [update_same]
        refine ⟨l', ?_⟩
        simp only [update_same]
        refine ⟨rfl, _, update_same .., rfl, rfl, ?_⟩
        refine seg_frame (fun a ha => update_ne _ _ ?_) hseg
        rintro rfl
        exact hnf _ ha
      · rw [update_ne _ _ hbb]
        simp only [update_ne _ _ hbb]
        obtain ⟨l2, hl2⟩ := hi.chain b'
        refine ⟨l2, seg_frame (fun a ha => ?_) hl2⟩
        rw [update_ne]
        · exact hframe a (fun h => hbb (hi.disjoint ha h))
        · rintro rfl; exact hnf _ ha
    · intro b'
      by_cases hbb : b' = b
      · subst hbb; rw [update_same]; exact List.nodup_cons.2 ⟨hnf _, hi.nodup _⟩
      · rw [update_ne _ _ hbb]; exact hi.nodup _
    · intro b' a ha
      by_cases hbb : b' = b
      · subst hbb
        rw [update_same] at ha
        rcases List.mem_cons.1 ha with rfl | ha
        · exact Nat.lt_succ_self _
        · exact Nat.lt_succ_of_lt (hi.bound _ a ha)
      · rw [update_ne _ _ hbb] at ha; exact Nat.lt_succ_of_lt (hi.bound _ a ha)
    · intro b' a ha x hx
      by_cases haf : a = s.fresh
      · subst haf
        have hbb : b' = b := by
          by_contra hbb
          rw [update_ne _ _ hbb] at ha
          exact hnf _ ha
        subst hbb
        simp only [info, update_same, Option.map_some, Option.some.injEq] at hx
        subst hx
        simp [← hb]
      · rw [info_ne haf, hinfo] at hx
        by_cases hbb : b' = b
        · subst hbb
          rw [update_same] at ha
          rcases List.mem_cons.1 ha with rfl | ha
          · exact absurd rfl haf
          · exact hi.good _ a ha x hx
        · rw [update_ne _ _ hbb] at ha; exact hi.good _ a ha x hx
  · intro a ha
    simp only
    rw [info_ne ha, hinfo]
  · simp [info, update_same]

/-! ### Deleting -/

theorem delete_inv {s : State} {L : Bool × Nat → List Addr} (hi : Inv s L) {b : Bool × Nat} {a : Addr} {L1 L2 : List Addr}
    (hL : L b = L1 ++ a :: L2) :
    ∃ s', delete s a = some s' ∧ s'.fresh = s.fresh ∧ Inv s' (update L b (L1 ++ L2)) ∧
      (∀ a', a' ≠ a → info s'.heap a' = info s.heap a') := by
  obtain ⟨l, hl⟩ := hi.chain b
  have hnd := hi.nodup b
  rw [hL] at hl hnd
  obtain ⟨m, q, h1, h2⟩ := seg_append.1 hl
  obtain ⟨hq, n, h3, h4, h5, h6⟩ := h2
  subst hq
  have hnd' := List.nodup_append.1 hnd
  have hnda := List.nodup_cons.1 hnd'.2.1
  have ha1 : a ∉ L1 := fun h => hnd'.2.2 a h a (by simp) rfl
  -- first link
  have key1 : ∃ H, setNext s.heap n.prev n.next = some H ∧ (∀ x, info H x = info s.heap x) ∧
      Seg H b none (s.tab b) L1 m (if L1 = [] then some a else n.next) ∧ (∀ x, x ∉ L1 → H x = s.heap x) := by
    cases hL1 : L1 with
    | nil =>
      subst hL1
      obtain ⟨k1, k2⟩ := h1
      rw [h4, k1]
      exact ⟨s.heap, rfl, fun _ => rfl, ⟨rfl, by simpa using k2⟩, fun _ _ => rfl⟩
    | cons c M =>
      obtain ⟨x, hx⟩ := seg_last_some h1 (by simp [hL1])
      obtain ⟨nx, k1, k2⟩ := seg_setNext (x := x) (e' := n.next) h1 (by simp [hL1]) hx hnd'.1
      rw [h4, hx]
      refine ⟨_, by simp only [setNext, k1, Option.map_some]; rfl, info_next k1 _, ?_, ?_⟩
      · rw [← hL1, if_neg (by simp [hL1])]
        rw [hx] at k2
        exact k2
      · intro y hy
        refine update_ne _ _ ?_
        rintro rfl
        exact hy (hL1 ▸ seg_last h1 (by simp [hL1]) hx)
  obtain ⟨H, hH, hHi, hHs, hHf⟩ := key1
  have hdis : ∀ x ∈ L2, x ∉ L1 := fun x hx h => hnd'.2.2 x h x (by simp [hx]) rfl
  have h6' : Seg H b (some a) n.next L2 l none := seg_frame (fun x hx => hHf x (hdis x hx)) h6
  have key2 : ∃ K l', setPrev H n.next n.prev = some K ∧ (∀ x, info K x = info H x) ∧
      Seg K b m n.next L2 l' none ∧ (∀ x, x ∉ L2 → K x = H x) := by
    cases hL2 : L2 with
    | nil =>
      subst hL2
      obtain ⟨k1, k2⟩ := h6'
      rw [k2]
      exact ⟨H, m, rfl, fun _ => rfl, ⟨rfl, rfl⟩, fun _ _ => rfl⟩
    | cons c M =>
      rw [hL2] at h6'
      obtain ⟨nx, k1, k2⟩ := seg_setPrev (p' := m) h6' (hL2 ▸ hnda.2)
      have hc := h6'.1
      rw [h4, hc]
      rw [hc] at k2
      refine ⟨_, l, by simp only [setPrev, k1, Option.map_some], info_prev k1 _, k2, ?_⟩
      intro y hy
      exact update_ne _ _ (fun h => hy (by simp [h]))
  obtain ⟨K, l', hK, hKi, hKs, hKf⟩ := key2
  have hmem : a ∈ L b := by rw [hL]; simp
  refine ⟨⟨update K a none, if s.tab n.hdr = some a then update s.tab n.hdr n.next else s.tab, s.fresh⟩, ?_, rfl, ?_, ?_⟩
  · unfold delete
    simp only [h3, hH, hK, Option.bind_some, Option.map_some]
  · have htab : ∀ b', b' ≠ b → (if s.tab n.hdr = some a then update s.tab n.hdr n.next else s.tab) b' = s.tab b' := by
      intro b' hb'
      rw [h5]
      split
      · exact update_ne _ _ hb'
      · rfl
    have htabb : (if s.tab n.hdr = some a then update s.tab n.hdr n.next else s.tab) b =
        if L1 = [] then n.next else s.tab b := by
      rw [h5]
      cases hL1 : L1 with
      | nil =>
        subst hL1
        rw [if_pos h1.2, update_same]; simp
      | cons c M =>
        rw [hL1] at h1
        have : s.tab b ≠ some a := by
          rw [h1.1]
          intro h
          simp only [Option.some.injEq] at h
          exact ha1 (by rw [hL1, h]; simp)
        rw [if_neg this]; simp
    constructor
    · intro b'
      by_cases hbb : b' = b
      · subst hbb
        rw [update_same]
        simp only [htabb]
        refine ⟨l', seg_frame (heap := K) ?_ ?_⟩
        · intro x hx
          refine update_ne _ _ ?_
          rintro rfl
          rcases List.mem_append.1 hx with h | h
          · exact ha1 h
          · exact hnda.1 h
        · refine seg_append.2 ⟨m, n.next, ?_, hKs⟩
          have hs1 : Seg K b' none (s.tab b') L1 m (if L1 = [] then some a else n.next) :=
            seg_frame (fun x hx => hKf x (fun h => hdis x h hx)) hHs
          cases hL1 : L1 with
          | nil =>
            subst hL1
            exact ⟨hs1.1, rfl⟩
          | cons c M =>
            rw [hL1] at hs1
            simpa using hs1
      · rw [update_ne _ _ hbb]
        simp only [htab b' hbb]
        obtain ⟨l2, hl2⟩ := hi.chain b'
        refine ⟨l2, seg_frame (fun x hx => ?_) hl2⟩
        have hxb : x ∉ L b := fun h => hbb (hi.disjoint hx h)
        rw [hL] at hxb
        simp only [List.mem_append, List.mem_cons, not_or] at hxb
        rw [update_ne _ _ hxb.2.1, hKf x hxb.2.2, hHf x hxb.1]
    · intro b'
      by_cases hbb : b' = b
      · subst hbb
        rw [update_same]
        exact List.nodup_append.2 ⟨hnd'.1, hnda.2, fun x hx y hy => hnd'.2.2 x hx y (by simp [hy])⟩
      · rw [update_ne _ _ hbb]; exact hi.nodup _
    · intro b' x hx
      by_cases hbb : b' = b
      · subst hbb
        rw [update_same] at hx
        refine hi.bound b' x ?_
        rw [hL]
        rcases List.mem_append.1 hx with h | h <;> simp [h]
      · rw [update_ne _ _ hbb] at hx; exact hi.bound _ x hx
    · intro b' x hx y hy
      have hxa : x ≠ a := by
        rintro rfl
        simp [info, update_same] at hy
      simp only [info_ne hxa, hKi, hHi] at hy
      by_cases hbb : b' = b
      · subst hbb
        rw [update_same] at hx
        refine hi.good b' x ?_ y hy
        rw [hL]
        rcases List.mem_append.1 hx with h | h <;> simp [h]
      · rw [update_ne _ _ hbb] at hx; exact hi.good _ x hx y hy
  · intro x hx
    simp only [info_ne hx, hKi, hHi]

end Splint.CppHash
