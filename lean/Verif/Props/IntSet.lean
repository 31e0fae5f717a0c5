import Verif.Model.IntSet
/-!
# C19: integer sets
-/
namespace Splint
open IntSet

/-- The allocation holds the elements and the free space. -/
def IntSet.ok (s : IntSet) : Prop := 0 ≤ s.nspace ∧ (s.entries : Int) + s.nspace = s.mem.length

namespace IntSet

theorem new_ok (g : Nat → Int) : (new g).ok ∧ (new g).elems = [] := by
  simp [ok, new, fresh, baseSize, elems]

theorem scan_spec (el : Int) (l : List Int) :
    (∀ x ∈ l.take (scan el l), x < el) ∧ (∀ x, l[scan el l]? = some x → el ≤ x) ∧
    scan el l ≤ l.length := by
  induction l with
  | nil => simp [scan]
  | cons a l ih =>
    by_cases h : a ≥ el
    · simp [scan, h]
    · simp only [scan, h, if_false]
      refine ⟨?_, ?_, ?_⟩
      · intro x hx
        rcases List.mem_cons.1 hx with rfl | hx
        · omega
        · exact ih.1 x hx
      · simpa using ih.2.1
      · simpa using ih.2.2

theorem store_ok (g : Nat → Int) (s : IntSet) (h : s.ok) (i : Nat) (el : Int) :
    ∃ s', s.store g i el = some s' ∧ s'.ok ∧
      s'.elems = if (i : Int) = s.entries - 1 then s.elems ++ [el]
        else s.elems.take i ++ el :: s.elems.drop i := by
  obtain ⟨t, ht⟩ : ∃ t : IntSet, t = if s.nspace ≤ 0 then s.grow g else s := ⟨_, rfl⟩
  have hlen : s.entries ≤ s.mem.length := by have := h.1; have := h.2; omega
  have key : t.ok ∧ 0 < t.nspace ∧ t.entries = s.entries ∧ t.mem.take t.entries = s.elems := by
    subst ht
    split_ifs with hn
    · refine ⟨⟨?_, ?_⟩, ?_, rfl, ?_⟩ <;> simp [grow, baseSize, fresh, elems, hlen]
    · exact ⟨h, by omega, rfl, rfl⟩
  obtain ⟨hok, hpos, hent, hel⟩ := key
  have hlt : t.entries < t.mem.length := by have := hok.2; omega
  have hl : s.elems.length = s.entries := by simp [elems, hlen]
  have hu : s.store g i el = some ⟨if (i : Int) = t.entries - 1 then
      s.elems ++ el :: t.mem.drop (t.entries + 1)
      else s.elems.take i ++ el :: (s.elems.drop i ++ t.mem.drop (t.entries + 1)),
      t.entries + 1, t.nspace - 1⟩ := by
    rw [← hel, ht]
    rw [ht] at hlt
    simp only [store]
    rw [if_pos hlt]
  refine ⟨_, hu, ⟨by simp; omega, ?_⟩, ?_⟩
  · simp only
    have := hok.2
    split_ifs <;> simp [hl, hent] <;> omega
  · simp only [elems, hent]
    split_ifs with hi
    · rw [show s.mem.take s.entries = s.elems from rfl, show s.elems ++ el :: List.drop (s.entries + 1) t.mem =
        (s.elems ++ [el]) ++ List.drop (s.entries + 1) t.mem by simp,
        List.take_append_of_le_length (by simp [hl])]
      exact List.take_of_length_le (by simp [hl])
    · rw [show s.mem.take s.entries = s.elems from rfl]
      rw [show s.elems.take i ++ el :: (s.elems.drop i ++ t.mem.drop (s.entries + 1)) =
        (s.elems.take i ++ el :: s.elems.drop i) ++ t.mem.drop (s.entries + 1) by simp]
      rw [List.take_append_of_le_length (by simp [hl]; omega)]
      apply List.take_of_length_le
      simp [hl]; omega

end IntSet

/-- C19, contents: whatever the order and the garbage, a successful insertion that answers TRUE adds
exactly the element, one that answers FALSE changes nothing, the size counts the elements, and no
write is outside the allocation. -/
theorem C19_insert_contents (g : Nat → Int) (s s' : IntSet) (h : s.ok) (el : Int) (b : Bool)
    (hi : s.insert g el = some (b, s')) :
    s'.ok ∧ s'.size = s'.elems.length ∧
    if b then s'.elems.Perm (el :: s.elems) else s' = s := by
  have hsize : ∀ t : IntSet, t.ok → t.size = t.elems.length := fun t ht => by
    have := ht.1; have := ht.2
    simp [IntSet.size, elems]; omega
  obtain ⟨t, ht, hok, hel⟩ := store_ok g s h (scan el s.elems) el
  have hperm : t.elems.Perm (el :: s.elems) := by
    rw [hel]
    split_ifs
    · exact List.perm_append_singleton _ _
    · refine List.perm_middle.trans ?_
      rw [List.take_append_drop]
  have hfin : (b = false ∧ s' = s) ∨ (b = true ∧ s' = t) := by
    unfold IntSet.insert at hi
    simp only [ht, Option.map_some] at hi
    split_ifs at hi
    · split at hi
      · cases hi
      · split_ifs at hi <;> cases hi <;> simp
    · cases hi; simp
  rcases hfin with ⟨rfl, rfl⟩ | ⟨rfl, rfl⟩
  · exact ⟨h, hsize _ h, by simp⟩
  · exact ⟨hok, hsize _ hok, by simpa using hperm⟩

example : ((new (fun _ => 7)).insert (fun _ => 7) 3).map (·.1) = some true := by decide

/-- C19: what an insertion into a strictly increasing set does, in every case.  Cases 1, 2 and the
first half of 5 are right.  In case 3 the order is lost; in case 4 the answer depends on memory
behind the elements, or on memory outside the allocation. -/
theorem C19_insert_exactly (g : Nat → Int) (s : IntSet) (h : s.ok)
    (hs : s.elems.Pairwise (· < ·)) (el : Int) :
    -- 1: present
    (el ∈ s.elems → s.insert g el = some (false, s)) ∧
    -- 2: absent, below an element that is not the last
    (el ∉ s.elems → (∃ y ∈ s.elems.dropLast, el < y) →
      ∃ s', s.insert g el = some (true, s') ∧ s'.ok ∧ s'.elems.Pairwise (· < ·) ∧
        s'.elems.Perm (el :: s.elems)) ∧
    -- 3: between the last two elements
    (∀ l y, s.elems = l ++ [y] → (∀ x ∈ l, x < el) → el < y →
      ∃ s', s.insert g el = some (true, s') ∧ s'.ok ∧ s'.elems = l ++ [y, el]) ∧
    -- 4: above all elements
    (s.elems ≠ [] → (∀ x ∈ s.elems, x < el) →
      if s.nspace = 0 then s.insert g el = none
      else if s.mem[s.entries]? = some el then s.insert g el = some (false, s)
      else ∃ s', s.insert g el = some (true, s') ∧ s'.ok ∧ s'.elems = s.elems ++ [el]) ∧
    -- 5: the first element
    (s.elems = [] → ∃ s', s.insert g el = some (true, s') ∧ s'.ok ∧ s'.elems = [el]) := by
  have hlen : s.entries ≤ s.mem.length := by have := h.1; have := h.2; omega
  have hl : s.elems.length = s.entries := by simp [elems, hlen]
  obtain ⟨t, ht, hok, hel⟩ := store_ok g s h (scan el s.elems) el
  obtain ⟨hb, ha, hle⟩ := scan_spec el s.elems
  have hins : ∀ v, 0 < s.entries → s.mem[scan el s.elems]? = some v → v ≠ el →
      s.insert g el = some (true, t) := by
    intro v h0 hv hne
    simp [IntSet.insert, h0, hv, hne, ht]
  have hget : ∀ i, i < s.entries → s.mem[i]? = s.elems[i]? := by
    intro i hi
    simp [elems, List.getElem?_take, hi]
  -- position of an element not below `el`
  have hpos : ∀ (j : Nat) (y : Int), s.elems[j]? = some y → el ≤ y → scan el s.elems ≤ j := by
    intro j y hj hy
    by_contra hlt
    have : y ∈ s.elems.take (scan el s.elems) := by
      rw [List.mem_take_iff_getElem]
      obtain ⟨hj', e⟩ := List.getElem?_eq_some_iff.1 hj
      exact ⟨j, by omega, by simpa using e⟩
    have := hb y this
    omega
  refine ⟨?_, ?_, ?_, ?_, ?_⟩
  · intro hm
    obtain ⟨j, hj, e⟩ := List.getElem_of_mem hm
    have hj' : s.elems[j]? = some el := by rw [List.getElem?_eq_getElem hj, e]
    have h1 := hpos j el hj' (le_refl _)
    have hv : s.elems[scan el s.elems]? = some s.elems[scan el s.elems] :=
      List.getElem?_eq_getElem (by omega)
    have hge := ha _ hv
    have heq : scan el s.elems = j := by
      by_contra hne
      have := List.pairwise_iff_getElem.1 hs (scan el s.elems) j (by omega) hj (by omega)
      omega
    have hent : 0 < s.entries := by omega
    simp only [IntSet.insert]
    rw [if_pos hent, hget (scan el s.elems) (by omega), heq, hj']
    simp
  · intro hn ⟨y, hy, hyl⟩
    obtain ⟨j, hj, e⟩ := List.getElem_of_mem hy
    rw [List.length_dropLast] at hj
    have hj' : s.elems[j]? = some y := by
      rw [List.getElem?_eq_getElem (by omega), ← e]; simp
    have h1 := hpos j y hj' (by omega)
    have hlt : scan el s.elems < s.elems.length := by omega
    have hv : s.elems[scan el s.elems]? = some s.elems[scan el s.elems] :=
      List.getElem?_eq_getElem hlt
    have hne : s.elems[scan el s.elems] ≠ el := fun e => hn (e ▸ List.getElem_mem hlt)
    refine ⟨t, hins _ (by omega) (by rw [hget _ (by omega)]; exact hv) hne, hok, ?_, ?_⟩
    · rw [hel, if_neg (by omega)]
      have hs' := hs
      rw [← List.take_append_drop (scan el s.elems) s.elems, List.pairwise_append] at hs'
      obtain ⟨p1, p2, p3⟩ := hs'
      rw [List.pairwise_append]
      have hd : ∀ x ∈ s.elems.drop (scan el s.elems), el < x := by
        intro x hx
        have hge := ha _ hv
        rw [List.drop_eq_getElem_cons hlt] at hx p2
        rcases List.mem_cons.1 hx with rfl | hx
        · omega
        · have := (List.pairwise_cons.1 p2).1 x hx
          omega
      refine ⟨p1, List.pairwise_cons.2 ⟨hd, p2⟩, ?_⟩
      intro a ha b hb'
      rcases List.mem_cons.1 hb' with rfl | hb'
      · exact hb a ha
      · exact p3 a ha b hb'
    · rw [hel, if_neg (by omega)]
      refine List.perm_middle.trans ?_
      rw [List.take_append_drop]
  · intro l y he hx hy
    have hll : s.elems.length = l.length + 1 := by simp [he]
    have hscan : scan el s.elems = l.length := by
      have h1 := hpos l.length y (by simp [he]) (by omega)
      by_contra hne
      have hlt : scan el s.elems < l.length := by omega
      have hv : s.elems[scan el s.elems]? = some l[scan el s.elems] := by
        have e : s.elems[scan el s.elems]? = (l ++ [y])[scan el s.elems]? := by
          conv_lhs => rw [he]
          rw [← he]
        rw [e, List.getElem?_append_left hlt, List.getElem?_eq_getElem hlt]
      have := ha _ hv
      have := hx _ (List.getElem_mem hlt)
      omega
    refine ⟨t, hins y (by omega) (by rw [hget _ (by omega), hscan]; simp [he]) (by omega), hok, ?_⟩
    rw [hel, if_pos (by omega), he]
    simp
  · intro hne hx
    have h0 : 0 < s.entries := by
      have := List.length_pos_iff.2 hne
      omega
    have hscan : scan el s.elems = s.entries := by
      by_contra hne
      have hlt : scan el s.elems < s.elems.length := by omega
      have := ha _ (List.getElem?_eq_getElem hlt)
      have := hx _ (List.getElem_mem hlt)
      omega
    have hnil : s.nspace = 0 ↔ s.mem[s.entries]? = none := by
      rw [List.getElem?_eq_none_iff]
      have := h.1; have := h.2
      omega
    split_ifs with h1 h2
    · rw [hnil] at h1
      simp [IntSet.insert, h0, hscan, h1]
    · simp [IntSet.insert, h0, hscan, h2]
    · obtain ⟨v, hv⟩ : ∃ v, s.mem[s.entries]? = some v := by
        cases hm : s.mem[s.entries]? with
        | none => exact absurd (hnil.2 hm) h1
        | some v => exact ⟨v, rfl⟩
      refine ⟨t, hins v h0 (by rw [hscan]; exact hv) (fun e => h2 (e ▸ hv)), hok, ?_⟩
      rw [hel, if_neg (by omega), hscan, ← hl]
      simp
  · intro he
    have h0 : s.entries = 0 := by rw [← hl, he]; rfl
    refine ⟨t, by simp [IntSet.insert, h0, ht], hok, ?_⟩
    rw [hel, he]
    simp

example : (⟨[2, 4, 6, 9], 3, 1⟩ : IntSet).ok ∧
    (⟨[2, 4, 6, 9], 3, 1⟩ : IntSet).elems.Pairwise (· < ·) ∧
    ((⟨[2, 4, 6, 9], 3, 1⟩ : IntSet).insert (fun _ => 0) 3).map (·.2.elems) = some [2, 3, 4, 6] ∧
    ((⟨[2, 4, 6, 9], 3, 1⟩ : IntSet).insert (fun _ => 0) 5).map (·.2.elems) = some [2, 4, 6, 5] ∧
    ((⟨[2, 4, 6, 9], 3, 1⟩ : IntSet).insert (fun _ => 0) 9).map (·.1) = some false := by
  refine ⟨⟨by decide, by decide⟩, by decide, by decide, by decide, by decide⟩

/-- C19, membership: on a strictly increasing set only the smallest element is found. -/
theorem C19_member_exactly (s : IntSet) (hs : s.elems.Pairwise (· < ·)) (el : Int) :
    s.member el = true ↔ s.elems.head? = some el := by
  unfold member
  cases he : s.elems with
  | nil => simp [memberLoop]
  | cons x xs =>
    rw [he] at hs
    simp only [memberLoop, List.head?_cons, Option.some.injEq]
    have hlow : ∀ l : List Int, (∀ y ∈ l, el < y) → memberLoop el l = false := by
      intro l
      induction l with
      | nil => simp [memberLoop]
      | cons a l ih =>
        intro h
        have := h a (by simp)
        rw [memberLoop, if_neg (by omega), if_neg (by omega)]
        exact ih fun y hy => h y (by simp [hy])
    split_ifs with h1 h2
    · simp [h1]
    · simp [Ne.symm h1]
    · have := (List.pairwise_cons.1 hs).1
      have h3 : el < x := by omega
      rw [hlow xs (fun y hy => by have := this y hy; omega)]
      simp [Ne.symm h1]

/-- A member that is found is there, whatever the order. -/
theorem C19_member_sound (s : IntSet) (el : Int) (h : s.member el = true) : el ∈ s.elems := by
  unfold member at h
  generalize s.elems = m at h ⊢
  induction m with
  | nil => simp [memberLoop] at h
  | cons x xs ih =>
    simp only [memberLoop] at h
    split_ifs at h with h1 h2
    · simp [h1]
    · exact List.mem_cons_of_mem _ (ih h)

example : (⟨[2, 4, 6, 9], 3, 1⟩ : IntSet).member 2 = true ∧
    (⟨[2, 4, 6, 9], 3, 1⟩ : IntSet).member 4 = false := by decide

/-- C19 as wished, for every content of fresh memory. -/
def C19_full : Prop := ∀ (g : Nat → Int) (l : List Int), ∃ s, insertAll g l (new g) = some s ∧
  (∀ x, s.member x = true ↔ x ∈ l) ∧ s.size = l.eraseDups.length

/-- Inserting 5, 3, 3 gives three elements. -/
theorem C19_duplicate (g : Nat → Int) :
    (insertAll g [5, 3, 3] (new g)).map (fun s => (s.elems, s.size)) = some ([3, 5, 3], 3) := by
  simp [insertAll, IntSet.insert, new, fresh, baseSize, elems, scan, store, List.range_succ, size]

/-- An element can be lost because of what happened to be in memory. -/
theorem C19_lost : (insertAll (fun _ => 2) [1, 2] (new fun _ => 2)).map elems = some [1] := by
  decide

theorem C19_full_is_false : ¬ C19_full := by
  intro h
  obtain ⟨s, hs, -, hz⟩ := h (fun _ => 0) [5, 3, 3]
  have := C19_duplicate (fun _ => 0)
  rw [hs] at this
  simp at this
  rw [this.2] at hz
  revert hz
  decide

/-- C19, proved part: the list of flags a mode overrides is gathered in increasing order; if fresh
memory holds none of these numbers, up to four are stored correctly and the fifth makes
`intSet_insert` read outside its allocation. -/
theorem C19_increasing_partial (g : Nat → Int) (l : List Int) (hl : l.Pairwise (· < ·))
    (hg : ∀ i, g i ∉ l) :
    if l.length ≤ 4 then ∃ s, insertAll g l (new g) = some s ∧ s.elems = l ∧ s.size = l.length
    else insertAll g l (new g) = none := by
  have main : ∀ (r : List Int) (s : IntSet), s.ok → s.mem.length = 4 →
      (s.elems ++ r).Pairwise (· < ·) → (∀ i, g i ∉ r) →
      (∀ i, s.entries ≤ i → i < 4 → s.mem[i]? = some (g i)) →
      if s.entries + r.length ≤ 4 then
        ∃ s', insertAll g r s = some s' ∧ s'.elems = s.elems ++ r ∧ s'.size = s.entries + r.length
      else insertAll g r s = none := by
    intro r
    induction r with
    | nil =>
      intro s hok hm _ _ _
      have := hok.1; have := hok.2
      rw [if_pos (by simp; omega)]
      exact ⟨s, rfl, by simp, rfl⟩
    | cons x r ih =>
      intro s hok hm hp hg hmem
      have h1 := hok.1
      have h2 := hok.2
      have hlen : s.elems.length = s.entries := by simp [elems]; omega
      have hx : ∀ y ∈ s.elems, y < x := by
        rw [List.pairwise_append] at hp
        exact fun y hy => hp.2.2 y hy x (by simp)
      have hs := (List.pairwise_append.1 hp).1
      have hscan : scan x s.elems = s.entries := by
        obtain ⟨hb, ha, hle⟩ := scan_spec x s.elems
        by_contra hne
        have hlt : scan x s.elems < s.elems.length := by omega
        have := ha _ (List.getElem?_eq_getElem hlt)
        have := hx _ (List.getElem_mem hlt)
        omega
      by_cases hfull : s.entries = 4
      · rw [if_neg (by simp; omega)]
        have hE := (C19_insert_exactly g s hok hs x).2.2.2.1
          (fun e => by rw [e] at hlen; simp at hlen; omega) hx
        rw [if_pos (by omega)] at hE
        simp [insertAll, hE]
      · have hlt : s.entries < 4 := by omega
        have hst : s.store g s.entries x = some
            ⟨s.elems ++ x :: s.mem.drop (s.entries + 1), s.entries + 1, s.nspace - 1⟩ := by
          simp only [store]
          rw [if_neg (by omega : ¬ s.nspace ≤ 0), if_pos (by omega), if_neg (by omega)]
          rw [show s.mem.take s.entries = s.elems from rfl, List.take_of_length_le (by omega),
            List.drop_of_length_le (by omega)]
          simp
        have hins : s.insert g x = some (true,
            ⟨s.elems ++ x :: s.mem.drop (s.entries + 1), s.entries + 1, s.nspace - 1⟩) := by
          simp only [IntSet.insert, hscan]
          split_ifs with h0
          · rw [hmem _ (le_refl _) hlt]
            simp only
            rw [if_neg (fun e => hg s.entries (by simp [e])), hst]
            rfl
          · rw [hst]; rfl
        have hel : (⟨s.elems ++ x :: s.mem.drop (s.entries + 1), s.entries + 1,
            s.nspace - 1⟩ : IntSet).elems = s.elems ++ [x] := by
          simp only [elems]
          rw [show s.mem.take s.entries = s.elems from rfl,
            show s.elems ++ x :: List.drop (s.entries + 1) s.mem =
              (s.elems ++ [x]) ++ List.drop (s.entries + 1) s.mem by simp,
            List.take_append_of_le_length (by simp [hlen])]
          exact List.take_of_length_le (by simp [hlen])
        have := ih ⟨s.elems ++ x :: s.mem.drop (s.entries + 1), s.entries + 1, s.nspace - 1⟩
          ⟨by simp; omega, by simp [hlen]; omega⟩ (by simp [hlen]; omega)
          (by rw [hel]; simpa using hp) (fun i hi => hg i (by simp [hi]))
          (by
            intro i hi hi4
            simp only at hi
            have h3 := hmem i (by omega) hi4
            simp only
            rw [List.getElem?_append_right (by omega), hlen]
            obtain ⟨k, hk⟩ : ∃ k, i = s.entries + 1 + k := ⟨i - (s.entries + 1), by omega⟩
            rw [hk, show s.entries + 1 + k - s.entries = k + 1 by omega, List.getElem?_cons_succ,
              List.getElem?_drop, ← hk, h3])
        rw [hel] at this
        simp only [insertAll, hins, Option.bind_some, List.length_cons]
        simp only at this
        rw [show s.entries + (r.length + 1) = s.entries + 1 + r.length by omega]
        simpa using this
  have := main l (new g) (new_ok g).1 (by simp [new, fresh, baseSize]) (by simpa [(new_ok g).2] using hl)
    hg (by
      intro i _ hi
      simp [new, fresh, baseSize, hi])
  simpa [(new_ok g).2, show (new g).entries = 0 from rfl] using this

example : ([3, 5, 8, 9, 12] : List Int).Pairwise (· < ·) ∧
    insertAll (fun _ => -1) [3, 5, 8, 9, 12] (new fun _ => -1) = none := by decide

/-- The text of a list of numbers: `1, 2 or 3`. -/
def orTail : List Int → String
  | [] => ""
  | [x] => " or " ++ toString x
  | x :: xs => ", " ++ toString x ++ orTail xs

/-- See `orTail`. -/
def orList : List Int → String
  | [] => ""
  | x :: xs => toString x ++ orTail xs

theorem IntSet.textLoop_eq (last : Nat) (l : List Int) (i : Nat) (st : String) (hi : 0 < i)
    (h : i + l.length = last + 1) : textLoop last i l st = st ++ orTail l := by
  induction l generalizing i st with
  | nil => simp [textLoop, orTail]
  | cons x l ih =>
    rw [textLoop, if_neg (by omega)]
    rw [ih _ _ (by omega) (by simp at h; omega)]
    cases l with
    | nil =>
      rw [if_pos (by simp at h; omega)]
      simp [orTail, String.append_assoc]
    | cons y l =>
      rw [if_neg (by simp at h; omega)]
      simp [orTail, String.append_assoc]

/-- C19: the possible arities printed in a message are the elements, in order, separated by commas
and `or`. -/
theorem C19_unparseText (s : IntSet) (h : s.ok) : s.unparseText = orList s.elems := by
  have hl : s.elems.length = s.entries := by
    have := h.1; have := h.2
    simp [elems]; omega
  unfold unparseText
  cases he : s.elems with
  | nil => rfl
  | cons x l =>
    rw [he] at hl
    rw [textLoop, if_pos rfl, orList,
      show ((s.entries : Int) - 1) = ((s.entries - 1 : Nat) : Int) by simp at hl; omega]
    exact textLoop_eq _ _ _ _ (by omega) (by simp at hl; omega)

example : (⟨[2, 4, 6, 9], 3, 1⟩ : IntSet).unparseText = "2, 4 or 6" := by decide

/-- C19: the message about flags overridden by a mode lists all of up to six flags, otherwise the
first five and the number of the others. -/
theorem C19_mode_message (s : IntSet) (h : s.ok) :
    s.listed 0 s.elems =
      if s.elems.length ≤ 6 then (s.elems, none)
      else (s.elems.take 5, some (s.elems.length - 5)) := by
  have hl : s.elems.length = s.entries := by
    have := h.1; have := h.2
    simp [elems]; omega
  have small : ∀ (l : List Int) n, s.entries ≤ 6 → s.listed n l = (l, none) := by
    intro l
    induction l with
    | nil => intros; rfl
    | cons x l ih =>
      intro n hn
      simp only [listed, size, ih _ hn]
      rw [if_neg (by simp; omega)]
  split_ifs with h6
  · exact small _ _ (by omega)
  · rcases he : s.elems with _ | ⟨a, _ | ⟨b, _ | ⟨c, _ | ⟨d, _ | ⟨e, l⟩⟩⟩⟩⟩ <;> rw [he] at hl h6
    all_goals first
      | (simp at h6; done)
      | (have h7 : 6 < s.entries := by omega
         simp [listed, size, h7]; simp at hl; omega)

example : (⟨[1, 2, 3, 4, 5, 6, 7], 7, 0⟩ : IntSet).listed 0 [1, 2, 3, 4, 5, 6, 7] =
    ([1, 2, 3, 4, 5], some 2) := by decide

end Splint
