import Verif.Model.StateTable
import Mathlib.Data.List.Nodup
/-! Tables as functions from pairs of states. -/
namespace Splint.States

/-- The table holds the entries of `f`. -/
structure Rep (t : Table) (n : Nat) (f : Nat → Nat → Entry) : Prop where
  size : t.size = n
  get : ∀ i j, i < n → j < n + 1 → (t.rows[i]?).bind (fun row => row[j]?) = some (f i j)

/-- Replacing one entry. -/
def upd (f : Nat → Nat → Entry) (i j : Nat) (e : Entry) : Nat → Nat → Entry :=
  fun a b => if a = i ∧ b = j then e else f a b

variable {t : Table} {n : Nat} {f : Nat → Nat → Entry}

theorem rep_create (n : Nat) : Rep (create n) n fun i _ => ⟨i, none⟩ := by
  refine ⟨rfl, ?_⟩
  intro i j hi hj
  simp [create, hi, List.getElem?_replicate, hj]

theorem Rep.getEntry (h : Rep t n f) {i j : Nat} (hi : i < n) (hj : j < n + 1) :
    t.getEntry i j = some (f i j) := by
  unfold Table.getEntry
  rw [if_pos (by rw [h.size]; omega)]
  simpa using h.get i j hi hj

theorem Rep.put (h : Rep t n f) {i j : Nat} (hi : i < n) (hj : j < n + 1) (e : Entry) :
    Rep (t.put i j e) n (upd f i j e) := by
  refine ⟨h.size, ?_⟩
  intro a b ha hb
  have h1 := h.get a b ha hb
  simp only [Table.put, Int.toNat_natCast, List.getElem?_modify, upd]
  by_cases hai : i = a
  · subst hai
    simp only [if_true, true_and]
    cases hr : t.rows[i]? with
    | none => rw [hr] at h1; simp at h1
    | some row =>
      rw [hr] at h1
      simp only [Option.bind_some, Option.map_some] at h1 ⊢
      by_cases hbj : j = b
      · subst hbj
        have : j < row.length := by
          by_contra hlt
          rw [List.getElem?_eq_none (by omega)] at h1
          simp at h1
        simp [this]
      · simp only [Option.map_eq_map, Option.map_some, Option.bind_some]
        rw [List.getElem?_set_ne hbj, h1, if_neg (by omega)]
  · rw [if_neg (by omega : ¬ (a = i ∧ b = j))]
    simpa [hai] using h1

theorem Rep.set (h : Rep t n f) {i j : Nat} (hi : i < n) (hj : j < n + 1) (e : Entry) :
    if (f i j).msg = none then ∃ t', t.set i j e = some t' ∧ Rep t' n (upd f i j e)
    else t.set i j e = none := by
  unfold Table.set
  rw [h.getEntry hi hj]
  cases hm : (f i j).msg with
  | none => simpa [hm] using h.put hi hj e
  | some m => simp [hm]

theorem Rep.update (h : Rep t n f) {i j : Nat} (hi : i < n) (hj : j < n + 1) (e : Entry) :
    ∃ t', t.update i j e = some t' ∧ Rep t' n (upd f i j e) := by
  refine ⟨t.put i j e, ?_, h.put hi hj e⟩
  simp [Table.update, h.getEntry hi hj]

theorem Rep.lookup (h : Rep t n f) {i j : Nat} (hi : i < n) (hj : j < n + 1) :
    t.lookup i j = some (f i j) := by
  unfold Table.lookup
  rw [if_pos (by omega), h.getEntry hi hj]

theorem index_lt {vals : List String} {name : String} {i : Nat} (h : index vals name = some i) :
    i < vals.length := by
  induction vals generalizing i with
  | nil => simp [index] at h
  | cons v vs ih =>
    simp only [index] at h
    split_ifs at h
    · cases h; simp
    · obtain ⟨k, hk, rfl⟩ := Option.map_eq_some_iff.1 h
      simpa using ih hk

theorem mem_pairs {l1 h1 l2 h2 a b : Int} :
    (a, b) ∈ pairs l1 h1 l2 h2 ↔ l1 ≤ a ∧ a ≤ h1 ∧ l2 ≤ b ∧ b ≤ h2 := by
  simp only [pairs, List.mem_flatMap, List.mem_range, List.mem_map, Prod.mk.injEq]
  constructor
  · rintro ⟨i, hi, j, hj, rfl, rfl⟩
    omega
  · rintro ⟨h1', h2', h3, h4⟩
    exact ⟨(a - l1).toNat, by omega, (b - l2).toNat, by omega, by omega, by omega⟩

/-- The first loop of a merge clause. -/
theorem direct_loop (e : Entry) (ps : List (Int × Int)) (h : Rep t n f)
    (hp : ∀ p ∈ ps, 0 ≤ p.1 ∧ p.1 < n ∧ 0 ≤ p.2 ∧ p.2 < n) :
    ∃ t', ps.foldlM (fun t p => t.update p.1 p.2 e) t = some t' ∧
      Rep t' n fun a b => if ((a : Int), (b : Int)) ∈ ps then e else f a b := by
  induction ps generalizing t f with
  | nil => exact ⟨t, rfl, by simpa using h⟩
  | cons p ps ih =>
    obtain ⟨p1, p2⟩ := p
    obtain ⟨b1, b2, b3, b4⟩ := hp (p1, p2) (by simp)
    simp only at b1 b2 b3 b4
    lift p1 to ℕ using b1
    lift p2 to ℕ using b3
    obtain ⟨t1, e1, r1⟩ := h.update (i := p1) (j := p2) (by omega) (by omega) e
    obtain ⟨t2, e2, r2⟩ := ih r1 fun p hm => hp p (by simp [hm])
    refine ⟨t2, by simp [List.foldlM_cons, e1, e2], ?_⟩
    refine ⟨r2.size, fun i j hi hj => ?_⟩
    rw [r2.get i j hi hj]
    simp only [upd, List.mem_cons, Prod.mk.injEq, Nat.cast_inj]
    split_ifs <;> simp_all

/-- Is this the entry for pairs no clause mentions? -/
def isDefault (e : Entry) : Prop := e.value = -1 ∧ e.msg = some defaultMessage

instance (e : Entry) : Decidable (isDefault e) := inferInstanceAs (Decidable (_ ∧ _))

/-- The second loop of a merge clause. -/
theorem symmetric_loop (e : Entry) (ps : List (Int × Int)) (h : Rep t n f)
    (hp : ∀ p ∈ ps, 0 ≤ p.1 ∧ p.1 < n ∧ 0 ≤ p.2 ∧ p.2 < n) :
    ∃ t', ps.foldlM (symmetric e) t = some t' ∧
      Rep t' n fun a b =>
        if ((b : Int), (a : Int)) ∈ ps ∧ isDefault (f a b) then e else f a b := by
  induction ps generalizing t f with
  | nil => exact ⟨t, rfl, by simpa using h⟩
  | cons p ps ih =>
    obtain ⟨p1, p2⟩ := p
    obtain ⟨b1, b2, b3, b4⟩ := hp (p1, p2) (by simp)
    simp only at b1 b2 b3 b4
    lift p1 to ℕ using b1
    lift p2 to ℕ using b3
    have hl := h.lookup (i := p2) (j := p1) (by omega) (by omega)
    have hp' : ∀ p ∈ ps, 0 ≤ p.1 ∧ p.1 < n ∧ 0 ≤ p.2 ∧ p.2 < n := fun p hm => hp p (by simp [hm])
    by_cases hd : isDefault (f p2 p1)
    · obtain ⟨t1, e1, r1⟩ := h.update (i := p2) (j := p1) (by omega) (by omega) e
      obtain ⟨t2, e2, r2⟩ := ih r1 hp'
      have hd' := hd
      unfold isDefault at hd'
      refine ⟨t2, by simp [List.foldlM_cons, symmetric, hl, hd', e1, e2], ?_⟩
      refine ⟨r2.size, fun i j hi hj => ?_⟩
      rw [r2.get i j hi hj]
      simp only [upd, List.mem_cons, Prod.mk.injEq, Nat.cast_inj]
      by_cases hij : i = p2 ∧ j = p1
      · obtain ⟨rfl, rfl⟩ := hij
        simp [hd]
      · have hij' : ¬ (j = p1 ∧ i = p2) := fun hh => hij ⟨hh.2, hh.1⟩
        simp only [hij, hij', if_false, false_or]
    · obtain ⟨t2, e2, r2⟩ := ih h hp'
      have hd' := hd
      unfold isDefault at hd'
      refine ⟨t2, by simp [List.foldlM_cons, symmetric, hl, hd', e2], ?_⟩
      refine ⟨r2.size, fun i j hi hj => ?_⟩
      rw [r2.get i j hi hj]
      simp only [List.mem_cons, Prod.mk.injEq, Nat.cast_inj]
      by_cases hij : i = p2 ∧ j = p1
      · obtain ⟨rfl, rfl⟩ := hij
        simp [hd]
      · have hij' : ¬ (j = p1 ∧ i = p2) := fun hh => hij ⟨hh.2, hh.1⟩
        simp only [hij', false_or]

/-- The default merge table. -/
theorem initialMerge_rep (n : Nat) : ∃ t, initialMerge n = some t ∧
    Rep t n fun a b => if a ≠ b ∧ b < n then ⟨-1, some defaultMessage⟩ else ⟨a, none⟩ := by
  have key : ∀ (ps : List (Int × Int)) (t : Table) (f : Nat → Nat → Entry), Rep t n f →
      ps.Nodup → (∀ p ∈ ps, 0 ≤ p.1 ∧ p.1 < n ∧ 0 ≤ p.2 ∧ p.2 < n) →
      (∀ a b : Nat, ((a : Int), (b : Int)) ∈ ps → (f a b).msg = none) →
      ∃ t', (ps.foldlM (init := t) fun t p =>
        if p.1 ≠ p.2 then t.set p.1 p.2 ⟨-1, some defaultMessage⟩ else some t) = some t' ∧
        Rep t' n fun a b => if a ≠ b ∧ ((a : Int), (b : Int)) ∈ ps then
          ⟨-1, some defaultMessage⟩ else f a b := by
    intro ps
    induction ps with
    | nil => intro t f h _ _ _; exact ⟨t, rfl, by simpa using h⟩
    | cons p ps ih =>
      intro t f h hnd hp hm
      obtain ⟨p1, p2⟩ := p
      obtain ⟨b1, b2, b3, b4⟩ := hp (p1, p2) (by simp)
      simp only at b1 b2 b3 b4
      lift p1 to ℕ using b1
      lift p2 to ℕ using b3
      have hp' : ∀ p ∈ ps, 0 ≤ p.1 ∧ p.1 < n ∧ 0 ≤ p.2 ∧ p.2 < n := fun p hm => hp p (by simp [hm])
      obtain ⟨hnot, hnd'⟩ := List.nodup_cons.1 hnd
      by_cases hne : p1 = p2
      · subst hne
        obtain ⟨t2, e2, r2⟩ := ih t f h hnd' hp' fun a b hab => hm a b (by simp [hab])
        refine ⟨t2, by simpa [List.foldlM_cons] using e2, r2.size, fun i j hi hj => ?_⟩
        rw [r2.get i j hi hj]
        simp only [List.mem_cons, Prod.mk.injEq, Nat.cast_inj]
        by_cases hij : i = j
        · simp [hij]
        · have : ¬ (i = p1 ∧ j = p1) := by omega
          simp [this]
      · have hs := h.set (i := p1) (j := p2) (by omega) (by omega) ⟨-1, some defaultMessage⟩
        rw [if_pos (hm p1 p2 (by simp))] at hs
        obtain ⟨t1, e1, r1⟩ := hs
        obtain ⟨t2, e2, r2⟩ := ih t1 _ r1 hnd' hp' (by
          intro a b hab
          simp only [upd]
          rw [if_neg]
          · exact hm a b (by simp [hab])
          · rintro ⟨rfl, rfl⟩; exact hnot hab)
        refine ⟨t2, ?_, r2.size, fun i j hi hj => ?_⟩
        · have hne' : ((p1 : Int) ≠ p2) := by omega
          simp only [List.foldlM_cons, if_pos hne', e1]
          exact e2
        · rw [r2.get i j hi hj]
          simp only [upd, List.mem_cons, Prod.mk.injEq, Nat.cast_inj]
          by_cases hij : i = p1 ∧ j = p2
          · obtain ⟨rfl, rfl⟩ := hij
            simp [hne]
          · simp [hij]
  have hnd : (pairs 0 ((n : Int) - 1) 0 ((n : Int) - 1)).Nodup := by
    unfold pairs
    rw [List.nodup_flatMap]
    refine ⟨?_, ?_⟩
    · intro i _
      refine (List.nodup_range).map ?_
      intro a b hab
      simpa using hab
    · refine List.nodup_range.imp ?_
      intro a b hab
      simp only [List.disjoint_left, List.mem_map, not_exists, not_and]
      rintro ⟨x, y⟩ ⟨k, _, hk⟩ k' _ hk'
      simp only [Prod.mk.injEq] at hk hk'
      omega
  obtain ⟨t, e, r⟩ := key _ (create n) _ (rep_create n) hnd
    (fun p hp => by obtain ⟨a, b⟩ := p; rw [mem_pairs] at hp; simp only; omega)
    (fun _ _ _ => rfl)
  refine ⟨t, e, r.size, fun i j hi hj => ?_⟩
  rw [r.get i j hi hj]
  have : ((i : Int), (j : Int)) ∈ pairs 0 ((n : Int) - 1) 0 ((n : Int) - 1) ↔ j < n := by
    rw [mem_pairs]; omega
  simp only [this]

end Splint.States
