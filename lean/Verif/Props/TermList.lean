import Verif.Spec.TermList
/-!
# Lists that grow at both ends (C169)
-/
namespace Splint.TermListProps
open Splint.TermList Splint.TermListSpec
variable {V : Type}

/-- the array is free cells, the elements, and free cells, as many as are counted -/
def Inv (s : L V) (l : List V) : Prop :=
  ∃ a b : List (Option V), s.cells = a ++ l.map some ++ b ∧ a.length = s.nspacelow ∧ s.elements = s.nspacelow ∧
    b.length = s.nspacehigh ∧ s.nelements = l.length

theorem new_inv : Inv (new : L V) [] :=
  ⟨List.replicate growLow none, List.replicate growHi none, by simp [new, growLow, growHi, List.replicate], by simp [new],
    rfl, by simp [new], rfl⟩

theorem grow_inv {s : L V} {l : List V} (h : Inv s l) :
    ∃ s', grow s = .ok s' ∧ Inv s' l ∧ s'.nspacelow = 4 ∧ s'.nspacehigh = 4 ∧ s'.current = s.current := by
  obtain ⟨a, b, hc, ha, he, hb, hn⟩ := h
  have hle : s.elements + s.nelements ≤ s.cells.length := by
    rw [hc, he, hn, ← ha]; simp
  have hsl : (s.cells.drop s.elements).take s.nelements = l.map some := by
    rw [hc, he, ← ha, hn, List.append_assoc, List.drop_left, List.take_left' (by simp)]
  refine ⟨{ s with
      nspacelow := growLow, nspacehigh := growHi, elements := growLow,
      cells := List.replicate growLow none ++ (s.cells.drop s.elements).take s.nelements ++ List.replicate growHi none },
    by simp only [grow, if_pos hle], ⟨List.replicate growLow none, List.replicate growHi none, ?_, ?_, rfl, ?_, hn⟩,
    rfl, rfl, rfl⟩
  · simp only [hsl]
  · simp
  · simp

theorem addh_room {s : L V} {l : List V} (h : Inv s l) (hr : s.nspacehigh ≠ 0) (v : V) :
    ∃ s', (do let s := { s with nspacehigh := s.nspacehigh - 1 }
              let s ← write s s.nelements v
              .ok { s with nelements := s.nelements + 1 } : Except Err (L V)) = .ok s' ∧ Inv s' (l ++ [v]) ∧
      s'.current = s.current := by
  obtain ⟨a, b, hc, ha, he, hb, hn⟩ := h
  cases b with
  | nil => exact absurd hb.symm hr
  | cons x b =>
    have hlt : s.elements + s.nelements < s.cells.length := by
      rw [hc, he, hn, ← ha]; simp
    refine ⟨{ s with
        nspacehigh := s.nspacehigh - 1, nelements := s.nelements + 1,
        cells := s.cells.set (s.elements + s.nelements) (some v) },
      by simp only [write, if_pos hlt]; rfl, ⟨a, b, ?_, ha, he, ?_, ?_⟩, rfl⟩
    · simp only [hc]
      rw [List.set_append_right _ _ (by simp; omega)]
      have : s.elements + s.nelements - (a ++ l.map some).length = 0 := by simp; omega
      rw [this]; simp
    · simp at hb ⊢; omega
    · simp [hn]

theorem addh_inv {s : L V} {l : List V} (h : Inv s l) (v : V) :
    ∃ s', addh s v = .ok s' ∧ Inv s' (l ++ [v]) ∧ s'.current = s.current := by
  by_cases hz : s.nspacehigh = 0
  · obtain ⟨s1, h1, i1, _, e1, c1⟩ := grow_inv h
    obtain ⟨s2, h2, i2, c2⟩ := addh_room i1 (by omega) v
    exact ⟨s2, by simp only [addh, if_pos hz, h1]; exact h2, i2, by rw [c2, c1]⟩
  · obtain ⟨s2, h2, i2, c2⟩ := addh_room h hz v
    exact ⟨s2, by simp only [addh, if_neg hz]; exact h2, i2, c2⟩

theorem addl_room {s : L V} {l : List V} (h : Inv s l) (hr : s.nspacelow ≠ 0) (v : V) :
    ∃ s', (do let s := { s with nspacelow := s.nspacelow - 1 }
              let s ← if s.elements = 0 then .error .wild else .ok { s with elements := s.elements - 1 }
              let s ← write s 0 v
              .ok { s with current := s.current + 1, nelements := s.nelements + 1 } : Except Err (L V)) = .ok s' ∧
      Inv s' (v :: l) ∧ s'.current = s.current + 1 := by
  obtain ⟨a, b, hc, ha, he, hb, hn⟩ := h
  rcases List.eq_nil_or_concat a with rfl | ⟨a, x, rfl⟩
  · exact absurd ha.symm hr
  · have ha' : s.nspacelow = a.length + 1 := by rw [← ha]; simp
    have hz : s.elements ≠ 0 := by omega
    have hlt : s.elements - 1 + 0 < s.cells.length := by rw [hc]; simp; omega
    refine ⟨{ s with
        nspacelow := s.nspacelow - 1, elements := s.elements - 1, current := s.current + 1,
        nelements := s.nelements + 1, cells := s.cells.set (s.elements - 1 + 0) (some v) },
      by simp only [if_neg hz]; simp only [bind, Except.bind, write, if_pos hlt],
      ⟨a, b, ?_, ?_, ?_, hb, ?_⟩, rfl⟩
    · have : s.elements - 1 + 0 = a.length := by omega
      simp only [hc, this]
      simp [List.concat_eq_append]
    · simp [ha']
    · simp [he]
    · simp [hn]

theorem addl_inv {s : L V} {l : List V} (h : Inv s l) (v : V) :
    ∃ s', addl s v = .ok s' ∧ Inv s' (v :: l) ∧ s'.current = s.current + 1 := by
  by_cases hz : s.nspacelow = 0
  · obtain ⟨s1, h1, i1, e1, _, c1⟩ := grow_inv h
    obtain ⟨s2, h2, i2, c2⟩ := addl_room i1 (by omega) v
    exact ⟨s2, by simp only [addl, if_pos hz, h1]; exact h2, i2, by rw [c2, c1]⟩
  · obtain ⟨s2, h2, i2, c2⟩ := addl_room h hz v
    exact ⟨s2, by simp only [addl, if_neg hz]; exact h2, i2, c2⟩

theorem read_inv {s : L V} {l : List V} (h : Inv s l) (i : Nat) (hi : i < l.length) : read s i = .ok l[i] := by
  obtain ⟨a, b, hc, ha, he, hb, hn⟩ := h
  have h1 : ((s.elements : Int) + i).toNat = a.length + i := by omega
  have h0 : (0 : Int) ≤ (s.elements : Int) + i := by omega
  have h2 : s.cells[a.length + i]? = some (some l[i]) := by
    rw [hc, List.append_assoc, List.getElem?_append_right (by omega), Nat.add_sub_cancel_left,
      List.getElem?_append_left (by simpa using hi)]
    simp [hi]
  unfold TermList.read
  simp only [if_pos h0, h1, h2]

theorem run_inv (os : List (Op V)) : ∀ {s : L V} {l : List V}, Inv s l →
    run s os = .error .assertion ∨ ∃ s', run s os = .ok s' ∧ Inv s' (content l os) := by
  induction os with
  | nil => intro s l h; exact .inr ⟨s, rfl, h⟩
  | cons o os ih =>
    intro s l h
    cases o with
    | addh v =>
      obtain ⟨s1, h1, i1, _⟩ := addh_inv h v
      simp only [run, step, h1]
      exact ih i1
    | addl v =>
      obtain ⟨s1, h1, i1, _⟩ := addl_inv h v
      simp only [run, step, h1]
      exact ih i1
    | reset => exact ih (s := reset s) h
    | finish => exact ih (s := finish s) h
    | advance =>
      simp only [run, step, advance]
      split_ifs
      · exact ih (s := { s with current := s.current + 1 }) h
      · exact .inl rfl

theorem run_nonneg (os : List (Op V)) : ∀ {s s' : L V} {l : List V}, Inv s l → 0 ≤ s.current → NoEmptyFinish l os →
    run s os = .ok s' → 0 ≤ s'.current := by
  induction os with
  | nil => intro s s' l _ h0 _ hr; cases hr; exact h0
  | cons o os ih =>
    intro s s' l h h0 hf hr
    cases o with
    | addh v =>
      obtain ⟨s1, h1, i1, c1⟩ := addh_inv h v
      simp only [run, step, h1] at hr
      exact ih i1 (by omega) hf hr
    | addl v =>
      obtain ⟨s1, h1, i1, c1⟩ := addl_inv h v
      simp only [run, step, h1] at hr
      exact ih i1 (by omega) hf hr
    | reset => exact ih (s := reset s) h (le_refl _) hf hr
    | finish =>
      refine ih (s := finish s) h ?_ hf.2 hr
      obtain ⟨_, _, _, _, _, _, hn⟩ := h
      have := List.length_pos_iff.2 hf.1
      simp only [finish]
      omega
    | advance =>
      simp only [run, step, advance] at hr
      split_ifs at hr
      exact ih (s := { s with current := s.current + 1 }) h (by simp only; omega) hf hr

/-- **C169** After any calls, the list holds what was put at its ends, and no call has accessed anything outside of the
array. -/
theorem C169_content (os : List (Op V)) :
    run new os = .error .assertion ∨
    ∃ s, run new os = .ok s ∧ s.nelements = (content [] os).length ∧
      (∀ n : Nat, (h : n < (content [] os).length) → getN s n = .ok (content [] os)[n]) ∧
      (∀ n : Int, n < 0 ∨ (content [] os).length ≤ n → getN s n = .error .assertion) ∧
      (∀ v, (content [] os).head? = some v → TermList.head s = .ok v) := by
  rcases run_inv os new_inv with h | ⟨s, h, hi⟩
  · exact .inl h
  · have hn := hi
    obtain ⟨_, _, _, _, _, _, hn⟩ := hn
    refine .inr ⟨s, h, hn, ?_, ?_, ?_⟩
    · intro n hlt
      rw [getN, if_pos (by omega), read_inv hi n hlt]
    · intro n hlt
      rw [getN, if_neg (by omega)]
    · intro v hv
      have hpos : 0 < (content [] os).length := by
        cases hc : content [] os with
        | nil => simp [hc] at hv
        | cons x xs => simp
      rw [TermList.head, if_pos (by omega)]
      have := read_inv hi 0 hpos
      simp only [Nat.cast_zero] at this
      rw [this]
      rw [List.head?_eq_getElem?, List.getElem?_eq_getElem hpos] at hv
      cases hv; rfl

/-- twelve elements, with growth at both ends -/
example : (match run new ((List.range 6).flatMap fun n => [Op.addh n, .addl (10 + n)]) with
    | .ok s => (List.range 12).map fun n : Nat => (getN s (n : Int)).toOption
    | .error _ => []) = [15, 14, 13, 12, 11, 10, 0, 1, 2, 3, 4, 5].map some := by decide

theorem run_position (os : List (Op V)) : ∀ {s : L V} {l : List V}, Inv s l →
    (position l s.current os = none → run s os = .error .assertion) ∧
    ∀ p, position l s.current os = some p → ∃ s', run s os = .ok s' ∧ s'.current = p := by
  induction os with
  | nil =>
    intro s l _
    exact ⟨fun h => by simp [position] at h, fun p h => ⟨s, rfl, by simpa [position] using h⟩⟩
  | cons o os ih =>
    intro s l h
    have hn := h
    obtain ⟨_, _, _, _, _, _, hn⟩ := hn
    cases o with
    | addh v =>
      obtain ⟨s1, h1, i1, c1⟩ := addh_inv h v
      simp only [run, step, h1, position, ← c1]
      exact ih i1
    | addl v =>
      obtain ⟨s1, h1, i1, c1⟩ := addl_inv h v
      simp only [run, step, h1, position, ← c1]
      exact ih i1
    | reset => exact ih (s := reset s) h
    | finish =>
      have := ih (s := finish s) h
      simp only [finish, hn] at this
      simp only [run, step, finish, position, hn]
      exact this
    | advance =>
      simp only [run, step, advance, position, hn]
      by_cases hc : s.current + 1 < (l.length : Int)
      · simp only [if_pos hc]
        have := ih (s := { s with current := s.current + 1 }) h
        simp only [hn] at this
        exact this
      · simp only [if_neg hc]
        exact ⟨fun _ => trivial, fun p hp => by simp at hp⟩

/-- **C169** The assertion fails just for an advance beyond the end; else the current element is where it should be. -/
theorem C169_position (os : List (Op V)) :
    (position [] 0 os = none → run new os = .error .assertion) ∧
    ∀ p, position [] 0 os = some p → ∃ s, run new os = .ok s ∧ s.current = p :=
  run_position os (s := new) new_inv

example : position [] 0 [Op.addh 5, .addh 6, .finish, .addl 7] = some 2 ∧
    position [] 0 [Op.addh 5, .advance] = none := by decide

/-- The full statement: reading the current element is never wild. -/
def C169_full : Prop := ∀ (os : List (Op Nat)) (s : L Nat), run new os = .ok s → getCurrent s ≠ .error .wild

/-- **C169** It is not, if `finish` is not called for an empty list: there is an element of the list, or the assertion
fails. Missing: `finish` for an empty list. -/
theorem C169_current_partial (os : List (Op V)) (s : L V) (h : run new os = .ok s) (hf : NoEmptyFinish [] os) :
    getCurrent s = .error .assertion ∨ ∃ n : Nat, s.current = n ∧ ∃ h : n < (content [] os).length,
      getCurrent s = .ok (content [] os)[n] := by
  rcases run_inv os new_inv with h' | ⟨s', h', hi⟩
  · rw [h] at h'; cases h'
  · rw [h] at h'
    cases h'
    have h0 := run_nonneg os new_inv (le_refl _) hf h
    have hn := hi
    obtain ⟨_, _, _, _, _, _, hn⟩ := hn
    by_cases hc : s.current ≥ s.nelements
    · exact .inl (by rw [getCurrent, if_pos hc])
    · have hcn : s.current = (s.current.toNat : Int) := by omega
      have hlt : s.current.toNat < (content [] os).length := by omega
      exact .inr ⟨s.current.toNat, hcn, hlt, by
        have hr := read_inv hi _ hlt
        rw [← hcn] at hr
        rw [getCurrent, if_neg hc, hr]⟩

example : (match run new [Op.addh 5, .addh 6, .finish, .addl 7] with
    | .ok s => getCurrent s
    | .error e => .error e) = .ok 6 := by decide

theorem C169_full_is_false : ¬C169_full := by
  intro h
  exact h [.finish] (finish new) rfl (by decide)

end Splint.TermListProps
