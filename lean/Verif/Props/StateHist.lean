import Verif.Spec.StateHist
import Mathlib.Data.List.Perm.Subperm
/-!
# Proofs about the history of a state (C145, C146)
-/
namespace Splint
namespace StateHist

/-! ### What sorting does to the list -/

/-- Values are moved on by one as long as each is before the next; the last one moved has no place.  The list, the value
without a place, and the rest of the list behind. -/
def shift (v : Change) : List Change → List Change × Change × List Change
  | [] => ([], v, [])
  | y :: r => if before v y then (v :: (shift y r).1, (shift y r).2.1, (shift y r).2.2) else (y :: r, v, y :: r)

/-- what is shown, and what is stored afterwards -/
def sortL : List Change → List Change × List Change
  | [] => ([], [])
  | [x] => ([x], [x])
  | x :: y :: l =>
    let r := (sortL (y :: l)).1
    match r with
    | [] => ([], [])
    | z :: _ =>
      if before x z then ((shift x r).1, (shift x r).2.1 :: (shift x r).2.2) else (x :: r, x :: r)

theorem set_same (h : Heap) (a : Nat) (c : Cell) : h.set a c a = c := by simp [Heap.set]

theorem set_other {h : Heap} {a x : Nat} (c : Cell) (hx : x ≠ a) : h.set a c x = h x := by simp [Heap.set, hx]

theorem Stored.congr {h h' : Heap} {p : Option Nat} {is : List Nat} {l : List Change} (hs : Stored h p is l)
    (he : ∀ i ∈ is, h' i = h i) : Stored h' p is l := by
  induction hs with
  | nil => exact .nil
  | @cons a is l _ hn ih =>
    have ha := he a (List.mem_cons_self ..)
    rw [← ha]
    refine .cons ?_ hn
    rw [ha]
    exact ih fun i hi => he i (List.mem_cons_of_mem _ hi)

theorem Stored.nodup {h : Heap} {p : Option Nat} {is : List Nat} {l : List Change} (hs : Stored h p is l) : is.Nodup := by
  induction hs with
  | nil => exact List.nodup_nil
  | cons _ hn ih => exact List.nodup_cons.2 ⟨hn, ih⟩

/-- The loop, from a state in which `st` points to the rest. -/
theorem swapLoop_spec {st : Nat} : ∀ (is : List Nat) (l : List Change) (h : Heap) (p : Option Nat) (fuel : Nat), Stored h p is l →
    st ∉ is → is.length ≤ fuel → (h st).previous = p →
    ∃ h' is', swapLoop st fuel h p = some h' ∧ Stored h' p is (shift (h st).val l).1 ∧
      Stored h' (some st) (st :: is') ((shift (h st).val l).2.1 :: (shift (h st).val l).2.2) ∧
      (∀ x ∈ is', x ∈ is) ∧ ∀ x, x ≠ st → x ∉ is → h' x = h x := by
  intro is
  induction is with
  | nil =>
    intro l h p fuel hs hst hf hp
    cases hs
    refine ⟨h, [], ?_, .nil, ?_, by simp, fun _ _ _ => rfl⟩
    · cases fuel <;> rfl
    · exact .cons (by rw [hp]; exact .nil) (by simp)
  | cons n is ih =>
    intro l h p fuel hs hst hf hp
    cases hs with
    | @cons _ _ l hs hn =>
      cases fuel with
      | zero => simp at hf
      | succ fuel =>
        have hne : n ≠ st := fun q => hst (q ▸ List.mem_cons_self ..)
        have hsti : st ∉ is := fun q => hst (List.mem_cons_of_mem _ q)
        rw [swapLoop, shift]
        by_cases hb : before (h st).val (h n).val = true
        · rw [if_pos hb, if_pos hb]
          dsimp only
          generalize hh1 : h.set n ⟨(h st).val, (h n).previous⟩ = h1
          generalize hh2 : h1.set st ⟨(h n).val, (h1 n).previous⟩ = h2
          have e1 : h1 n = ⟨(h st).val, (h n).previous⟩ := by rw [← hh1, set_same]
          have e2 : h2 n = ⟨(h st).val, (h n).previous⟩ := by rw [← hh2, set_other _ hne, e1]
          have e3 : h2 st = ⟨(h n).val, (h n).previous⟩ := by rw [← hh2, set_same, e1]
          have e4 : ∀ x, x ≠ st → x ≠ n → h2 x = h x := by
            intro x hx hxn
            rw [← hh2, set_other _ hx, ← hh1, set_other _ hxn]
          have hs2 : Stored h2 (h2 n).previous is l := by
            rw [e2]
            exact hs.congr fun i hi => e4 i (fun q => hsti (q ▸ hi)) (fun q => hn (q ▸ hi))
          obtain ⟨h', is', g1, g2, g3, g4, g5⟩ := ih l h2 (h2 n).previous fuel hs2 hsti (by simpa using hf) (by rw [e3, e2])
          rw [e3] at g2 g3
          refine ⟨h', is', g1, ?_, g3, fun x hx => List.mem_cons_of_mem _ (g4 x hx), ?_⟩
          · have e5 : h' n = ⟨(h st).val, (h n).previous⟩ := by rw [g5 n hne hn, e2]
            have : Stored h' (some n) (n :: is) ((h' n).val :: (shift (h n).val l).1) := by
              refine .cons ?_ hn
              rw [e5]
              rw [e2] at g2
              exact g2
            rw [e5] at this
            exact this
          · intro x hx hxi
            have hxn : x ≠ n := fun q => hxi (q ▸ List.mem_cons_self ..)
            rw [g5 x hx (fun q => hxi (List.mem_cons_of_mem _ q)), e4 x hx hxn]
        · rw [if_neg hb, if_neg hb]
          refine ⟨h, n :: is, rfl, .cons hs hn, ?_, fun x hx => hx, fun _ _ _ => rfl⟩
          refine .cons ?_ hst
          rw [hp]
          exact .cons hs hn

/-- `stateInfo_sort` on a stored history. -/
theorem sort_spec : ∀ (is : List Nat) (l : List Change) (h : Heap) (p : Option Nat) (fuel : Nat), Stored h p is l → is.length ≤ fuel →
    ∃ h' q is1 is2, sort fuel h p = some (h', q) ∧ Stored h' q is1 (sortL l).1 ∧ Stored h' p is2 (sortL l).2 ∧
      (∀ x ∈ is1, x ∈ is) ∧ (∀ x ∈ is2, x ∈ is) ∧ (∀ x, x ∉ is → h' x = h x) ∧ (q = none ↔ p = none) := by
  intro is
  induction is with
  | nil =>
    intro l h p fuel hs hf
    cases hs
    refine ⟨h, none, [], [], ?_, .nil, .nil, by simp, by simp, fun _ _ => rfl, by simp⟩
    cases fuel <;> rfl
  | cons st is ih =>
    intro l h p fuel hs hf
    cases hs with
    | @cons _ _ l hs hn =>
      cases fuel with
      | zero => simp at hf
      | succ fuel =>
        rw [sort]
        cases hprev : (h st).previous with
        | none =>
          rw [hprev] at hs
          cases hs
          have hst : Stored h (some st) [st] [(h st).val] := .cons (by rw [hprev]; exact .nil) (by simp)
          exact ⟨h, some st, [st], [st], rfl, hst, hst, fun x hx => hx, fun x hx => hx, fun _ _ => rfl, by simp⟩
        | some b =>
          rw [hprev] at hs
          dsimp only
          obtain ⟨h', q, is1, is2, g1, g2, g3, g4, g5, g6, g7⟩ := ih l h (some b) fuel hs (by simpa using hf)
          have hst' : h' st = h st := g6 st hn
          cases q with
          | none => exact absurd (g7.1 rfl) (by simp)
          | some n =>
            rw [g1]
            dsimp only
            have hl : ∃ y l', l = y :: l' := by
              cases hs; exact ⟨_, _, rfl⟩
            obtain ⟨y, l', rfl⟩ := hl
            have hst1 : st ∉ is1 := fun q => hn (g4 st q)
            have hr : sortL ((h st).val :: y :: l') = match (sortL (y :: l')).1 with
                | [] => ([], [])
                | z :: _ => if before (h st).val z then ((shift (h st).val (sortL (y :: l')).1).1,
                    (shift (h st).val (sortL (y :: l')).1).2.1 :: (shift (h st).val (sortL (y :: l')).1).2.2)
                  else ((h st).val :: (sortL (y :: l')).1, (h st).val :: (sortL (y :: l')).1) := by
              rw [sortL]
            rw [hr]
            generalize hR : (sortL (y :: l')).1 = R at g2 ⊢
            cases g2 with
            | @cons _ is1 R g2 hn1 =>
              dsimp only
              rw [← hst']
              have hne : n ≠ st := fun q => hst1 (q ▸ List.mem_cons_self ..)
              have hst1' : st ∉ is1 := fun q => hst1 (List.mem_cons_of_mem _ q)
              by_cases hb : before (h' st).val (h' n).val = true
              · rw [if_pos hb, hb]
                simp only [Bool.not_true, Bool.false_eq_true, if_false]
                rw [swapLoop, if_pos hb]
                dsimp only
                generalize hh1 : h'.set n ⟨(h' st).val, (h' n).previous⟩ = h1
                generalize hh2 : h1.set st ⟨(h' n).val, (h1 n).previous⟩ = h2
                have e1 : h1 n = ⟨(h' st).val, (h' n).previous⟩ := by rw [← hh1, set_same]
                have e2 : h2 n = ⟨(h' st).val, (h' n).previous⟩ := by rw [← hh2, set_other _ hne, e1]
                have e3 : h2 st = ⟨(h' n).val, (h' n).previous⟩ := by rw [← hh2, set_same, e1]
                have e4 : ∀ x, x ≠ st → x ≠ n → h2 x = h' x := by
                  intro x hx hxn
                  rw [← hh2, set_other _ hx, ← hh1, set_other _ hxn]
                have hs2 : Stored h2 (h2 n).previous is1 R := by
                  rw [e2]
                  exact g2.congr fun i hi => e4 i (fun q => hst1' (q ▸ hi)) (fun q => hn1 (q ▸ hi))
                have hlen : is1.length ≤ fuel := by
                  have hnd : (n :: is1).Nodup := List.nodup_cons.2 ⟨hn1, g2.nodup⟩
                  have := (List.subperm_of_subset hnd g4).length_le
                  simp at this hf
                  omega
                obtain ⟨h3, is', k1, k2, k3, k4, k5⟩ := swapLoop_spec is1 R h2 (h2 n).previous fuel hs2 hst1' hlen (by rw [e3, e2])
                rw [e3] at k2 k3
                rw [k1]
                have e5 : h3 n = ⟨(h' st).val, (h' n).previous⟩ := by rw [k5 n hne hn1, e2]
                have hshift : shift (h' st).val ((h' n).val :: R) =
                    ((h' st).val :: (shift (h' n).val R).1, (shift (h' n).val R).2.1, (shift (h' n).val R).2.2) := by
                  rw [shift, if_pos hb]
                rw [hshift]
                refine ⟨h3, some n, n :: is1, st :: is', rfl, ?_, k3, fun x hx => List.mem_cons_of_mem _ (g4 x hx), ?_, ?_, by simp⟩
                · have : Stored h3 (some n) (n :: is1) ((h3 n).val :: (shift (h' n).val R).1) := by
                    refine .cons ?_ hn1
                    rw [e5]
                    rw [e2] at k2
                    exact k2
                  rw [e5] at this
                  exact this
                · intro x hx
                  rcases List.mem_cons.1 hx with rfl | hx
                  · exact List.mem_cons_self ..
                  · exact List.mem_cons_of_mem _ (g4 x (List.mem_cons_of_mem _ (k4 x hx)))
                · intro x hx
                  have hx1 : x ≠ st := fun q => hx (q ▸ List.mem_cons_self ..)
                  have hx2 : x ∉ is := fun q => hx (List.mem_cons_of_mem _ q)
                  rw [k5 x hx1 (fun q => hx2 (g4 x (List.mem_cons_of_mem _ q))),
                    e4 x hx1 (fun q => hx2 (q ▸ g4 n (List.mem_cons_self ..))), g6 x hx2]
              · rw [if_neg hb]
                have hb' : before (h' st).val (h' n).val = false := by simpa using hb
                rw [hb']
                simp only [Bool.not_false, if_true]
                generalize hh1 : h'.set st ⟨(h' st).val, some n⟩ = h1
                have e1 : h1 st = ⟨(h' st).val, some n⟩ := by rw [← hh1, set_same]
                have e2 : ∀ x, x ≠ st → h1 x = h' x := by intro x hx; rw [← hh1, set_other _ hx]
                have hs1 : Stored h1 (some n) (n :: is1) ((h' n).val :: R) := by
                  refine (Stored.cons g2 hn1).congr fun i hi => e2 i ?_
                  rintro rfl; exact hst1 hi
                have hs2 : Stored h1 (some st) (st :: n :: is1) ((h' st).val :: (h' n).val :: R) := by
                  have : Stored h1 (some st) (st :: n :: is1) ((h1 st).val :: (h' n).val :: R) :=
                    .cons (by rw [e1]; exact hs1) hst1
                  rw [e1] at this
                  exact this
                have hsub : ∀ x ∈ st :: n :: is1, x ∈ st :: is := by
                  intro x hx
                  rcases List.mem_cons.1 hx with rfl | hx
                  · exact List.mem_cons_self ..
                  · exact List.mem_cons_of_mem _ (g4 x hx)
                refine ⟨h1, some st, _, _, rfl, hs2, hs2, hsub, hsub, ?_, by simp⟩
                intro x hx
                rw [e2 x (fun q => hx (q ▸ List.mem_cons_self ..)), g6 x (fun q => hx (List.mem_cons_of_mem _ q))]

theorem showLoop_spec (deep : Bool) : ∀ (is : List Nat) (l : List Change) (h : Heap) (p : Option Nat) (fuel : Nat), Stored h p is l →
    is.length ≤ fuel → showLoop deep fuel h p = some (if deep then l else l.take 1) := by
  intro is
  induction is with
  | nil => intro l h p fuel hs _; cases hs; cases fuel <;> cases deep <;> rfl
  | cons a is ih =>
    intro l h p fuel hs hf
    cases hs with
    | @cons _ _ l hs hn =>
      cases fuel with
      | zero => simp at hf
      | succ fuel =>
        rw [showLoop]
        cases deep with
        | false => simp
        | true =>
          rw [ih l h _ fuel hs (by simpa using hf)]
          simp

/-- Showing a history always ends; what is shown and what is stored afterwards depends on the changes
only, as given by `sortL`; no cells outside of the history are changed. -/
theorem display_spec {h : Heap} {p : Option Nat} {is : List Nat} {l : List Change} (hs : Stored h p is l) (deep : Bool) {fuel : Nat}
    (hf : is.length ≤ fuel) :
    ∃ h' is', display deep fuel h p = some (h', if deep then (sortL l).1 else (sortL l).1.take 1) ∧
      Stored h' p is' (sortL l).2 ∧ (∀ x, x ∉ is → h' x = h x) := by
  obtain ⟨h', q, is1, is2, g1, g2, g3, g4, g5, g6, _⟩ := sort_spec is l h p fuel hs hf
  refine ⟨h', is2, ?_, g3, g6⟩
  unfold display
  rw [g1]
  dsimp only
  rw [showLoop_spec deep is1 _ h' q fuel g2 ?_]
  · rfl
  · exact le_trans (List.subperm_of_subset g2.nodup g4).length_le hf

/-! ### C145: what that means -/

theorem sortL_cons (x y : Change) (l : List Change) :
    sortL (x :: y :: l) = match (sortL (y :: l)).1 with
      | [] => ([], [])
      | z :: _ => if before x z then ((shift x (sortL (y :: l)).1).1,
          (shift x (sortL (y :: l)).1).2.1 :: (shift x (sortL (y :: l)).1).2.2)
        else (x :: (sortL (y :: l)).1, x :: (sortL (y :: l)).1) := by
  rw [sortL]

/-- The last change recorded is always the first one shown. -/
theorem sortL_head : ∀ (l : List Change), (sortL l).1.head? = l.head? := by
  intro l
  match l with
  | [] => rfl
  | [x] => rfl
  | x :: y :: l =>
    have ih := sortL_head (y :: l)
    rw [sortL_cons]
    cases hr : (sortL (y :: l)).1 with
    | nil => rw [hr] at ih; cases ih
    | cons z r =>
      dsimp only
      by_cases hb : before x z = true
      · rw [if_pos hb, shift, if_pos hb]; rfl
      · rw [if_neg hb]; rfl

theorem shift_sublist : ∀ (r : List Change) (v : Change), (shift v r).1.Sublist (v :: r) ∧
    (∀ y r', r = y :: r' → before v y = true → (shift v r).1.length = r.length) := by
  intro r
  induction r with
  | nil => intro v; exact ⟨by simp [shift], fun y r' h => by cases h⟩
  | cons y r ih =>
    intro v
    rw [shift]
    by_cases hb : before v y = true
    · rw [if_pos hb]
      refine ⟨(ih y).1.cons_cons v, ?_⟩
      intro y' r' h _
      have h1 := (List.cons.inj h).1; have h2 := (List.cons.inj h).2
      subst h1; subst h2
      cases r with
      | nil => rfl
      | cons z r =>
        by_cases hz : before y z = true
        · have := (ih y).2 z r rfl hz
          simp [this]
        · rw [shift, if_neg hz]; simp
    · rw [if_neg hb]
      refine ⟨List.sublist_cons_self _ _, ?_⟩
      intro _ _ _ _
      rfl

/-- What is shown is a part of the recorded changes in the order in which they were
recorded, starting with the last one: "sorting" leaves out changes, but never moves one. -/
theorem sortL_sublist : ∀ (l : List Change), (sortL l).1.Sublist l ∧ (sortL l).1.head? = l.head? := by
  intro l
  refine ⟨?_, sortL_head l⟩
  match l with
  | [] => exact List.Sublist.refl _
  | [x] => exact List.Sublist.refl _
  | x :: y :: l =>
    have ih := (sortL_sublist (y :: l)).1
    have ihh := sortL_head (y :: l)
    rw [sortL_cons]
    cases hr : (sortL (y :: l)).1 with
    | nil => rw [hr] at ihh; cases ihh
    | cons z r =>
      rw [hr] at ih
      dsimp only
      by_cases hb : before x z = true
      · rw [if_pos hb]
        exact (shift_sublist (z :: r) x).1.trans (ih.cons_cons x)
      · rw [if_neg hb]
        exact ih.cons_cons x

theorem inOrder_sortL : ∀ (l : List Change), InOrder l → sortL l = (l, l) := by
  intro l
  match l with
  | [] => intro _; rfl
  | [x] => intro _; rfl
  | x :: y :: l =>
    intro h
    rw [sortL_cons, inOrder_sortL (y :: l) h.2]
    dsimp only
    rw [if_neg (by rw [h.1]; simp)]

/-- All changes are shown exactly if they were recorded in the order of their locations; then
the history stays as it is. -/
theorem sortL_all (l : List Change) : (sortL l).1 = l ↔ InOrder l := by
  constructor
  · match l with
    | [] => intro _; trivial
    | [x] => intro _; trivial
    | x :: y :: l =>
      intro h
      rw [sortL_cons] at h
      cases hr : (sortL (y :: l)).1 with
      | nil => rw [hr] at h; cases h
      | cons z r =>
        rw [hr] at h
        dsimp only at h
        by_cases hb : before x z = true
        · rw [if_pos hb] at h
          have h1 := (shift_sublist (z :: r) x).2 z r rfl hb
          rw [h] at h1
          have h2 := (sortL_sublist (y :: l)).1.length_le
          rw [hr] at h2
          simp at h1 h2
          omega
        · rw [if_neg hb] at h
          have h1 := (List.cons.inj h).2
          rw [h1] at hr
          refine ⟨?_, (sortL_all (y :: l)).1 hr⟩
          rw [(List.cons.inj h1).1] at hb
          simpa using hb
  · intro h; rw [inOrder_sortL l h]

theorem sortL_same (l : List Change) (h : InOrder l) : (sortL l).2 = l := by rw [inOrder_sortL l h]

/-- If a change is recorded whose location is before that of the change shown
first up to now, showing the history replaces it: the stored history has a different first change. -/
theorem sortL_replaced (x y : Change) (l : List Change) (hb : before x y = true) :
    (sortL (x :: y :: l)).1.length < (x :: y :: l).length ∧ x ∉ (sortL (x :: y :: l)).2.take 1 := by
  have ihh := sortL_head (y :: l)
  rw [sortL_cons]
  cases hr : (sortL (y :: l)).1 with
  | nil => rw [hr] at ihh; cases ihh
  | cons z r =>
    rw [hr] at ihh
    have hz : z = y := Option.some.inj ihh
    subst hz
    dsimp only
    rw [if_pos hb]
    constructor
    · have h1 := (shift_sublist (z :: r) x).2 z r rfl hb
      have h2 := (sortL_sublist (z :: l)).1.length_le
      rw [hr] at h2
      dsimp only
      simp at h1 h2 ⊢
      omega
    · have key : ∀ (r : List Change) (v : Change), x.loc.lt v.loc = true → x.loc.lt (shift v r).2.1.loc = true := by
        intro r
        induction r with
        | nil => intro v h; exact h
        | cons y r ih =>
          intro v h
          rw [shift]
          by_cases hq : before v y = true
          · rw [if_pos hq]
            refine ih y ?_
            unfold before at hq
            simp only [Loc.lt, Bool.or_eq_true, Bool.and_eq_true, decide_eq_true_eq, beq_iff_eq] at h hq ⊢
            omega
          · rw [if_neg hq]; exact h
      have h3 : x.loc.lt (shift x (z :: r)).2.1.loc = true := by
        rw [shift, if_pos hb]
        exact key r z hb
      dsimp only [List.take_succ_cons]
      simp only [List.take_zero, List.mem_singleton]
      intro hq
      rw [← hq] at h3
      simp [Loc.lt] at h3

/-! ### C145 -/

variable {h : Heap} {p : Option Nat} {is : List Nat} {l : List Change}

/-- **C145 (ends).**  Showing a history always ends, keeps to the cells of the history, and leaves a
history. -/
theorem C145_ends (hs : Stored h p is l) (deep : Bool) {fuel : Nat} (hf : is.length ≤ fuel) :
    ∃ h' shown is' l', display deep fuel h p = some (h', shown) ∧ Stored h' p is' l' ∧ (∀ x, x ∉ is → h' x = h x) := by
  obtain ⟨h', is', h1, h2, h3⟩ := display_spec hs deep hf
  exact ⟨h', _, is', _, h1, h2, h3⟩

/-- **C145 (nothing is moved).**  What is shown is a part of the recorded changes in the order in which they were
recorded, starting with the last one: "sorting" leaves out changes, but never moves one. -/
theorem C145_shown_partial (hs : Stored h p is l) {deep : Bool} {fuel : Nat} (hf : is.length ≤ fuel) {h' : Heap} {shown : List Change}
    (hd : display deep fuel h p = some (h', shown)) : shown.Sublist l ∧ shown.head? = l.head? := by
  obtain ⟨h2, is', h1, _⟩ := display_spec hs deep hf
  have he := Option.some.inj (h1.symm.trans hd)
  have he : (if deep then (sortL l).1 else (sortL l).1.take 1) = shown := congrArg Prod.snd he
  have hsub := sortL_sublist l
  cases deep with
  | true => rw [← he]; exact hsub
  | false =>
    rw [← he]
    refine ⟨(List.take_sublist _ _).trans hsub.1, ?_⟩
    rw [← hsub.2]
    cases (sortL l).1 <;> rfl

/-- **C145 (without showdeephistory).**  Exactly the last change recorded is shown. -/
theorem C145_last (hs : Stored h p is l) {fuel : Nat} (hf : is.length ≤ fuel) {h' : Heap} {shown : List Change}
    (hd : display false fuel h p = some (h', shown)) : shown = l.take 1 := by
  obtain ⟨h2, is', h1, _⟩ := display_spec hs false hf
  have he : (sortL l).1.take 1 = shown := congrArg Prod.snd (Option.some.inj (h1.symm.trans hd))
  have hh := sortL_head l
  rw [← he]
  cases hr : (sortL l).1 with
  | nil => rw [hr] at hh; cases l with
    | nil => rfl
    | cons a l => cases hh
  | cons a r => rw [hr] at hh; cases l with
    | nil => cases hh
    | cons b l => cases hh; rfl

/-- **C145 (exactly).**  All changes are shown exactly if they were recorded in the order of their locations; then they are the
history afterwards, too. -/
theorem C145_all_exactly (hs : Stored h p is l) {fuel : Nat} (hf : is.length ≤ fuel) {h' : Heap} {shown : List Change}
    (hd : display true fuel h p = some (h', shown)) :
    (shown = l ↔ InOrder l) ∧ (InOrder l → ∃ is', Stored h' p is' l) := by
  obtain ⟨h2, is', h1, h3, _⟩ := display_spec hs true hf
  have he := Option.some.inj (h1.symm.trans hd)
  have he1 : (sortL l).1 = shown := congrArg Prod.snd he
  have he2 : h2 = h' := congrArg Prod.fst he
  subst he2
  rw [← he1]
  refine ⟨sortL_all l, fun ho => ⟨is', ?_⟩⟩
  rw [sortL_same l ho] at h3
  exact h3

/-- **C145 (changes out of order).**  If the last change is located before the one recorded before it, not all changes are
shown, and the last change is replaced in the history by another one. -/
theorem C145_replaced {x y : Change} (hs : Stored h p is (x :: y :: l)) (hb : before x y = true) {deep : Bool} {fuel : Nat}
    (hf : is.length ≤ fuel) {h' : Heap} {shown : List Change} (hd : display deep fuel h p = some (h', shown)) :
    shown.length < (x :: y :: l).length ∧ ∃ is' x' l', Stored h' p is' (x' :: l') ∧ x' ≠ x := by
  obtain ⟨h2, is', h1, h3, _⟩ := display_spec hs deep hf
  have he := Option.some.inj (h1.symm.trans hd)
  have he1 : (if deep then (sortL (x :: y :: l)).1 else (sortL (x :: y :: l)).1.take 1) = shown := congrArg Prod.snd he
  have he2 : h2 = h' := congrArg Prod.fst he
  subst he2
  have hr := sortL_replaced x y l hb
  constructor
  · rw [← he1]
    cases deep with
    | true => exact hr.1
    | false => exact lt_of_le_of_lt (by simp) hr.1
  · cases hq : (sortL (x :: y :: l)).2 with
    | nil =>
      rw [hq] at h3
      cases hs
      cases h3
    | cons x' l' =>
      rw [hq] at h3 hr
      refine ⟨is', x', l', h3, ?_⟩
      rintro rfl
      exact hr.2 (by simp)

/-- A change at line 5, then one at line 3: only the latter is shown, and then only the former is left. -/
theorem C145_full_is_false : ¬ C145_full := by
  intro h
  let a : Change := ⟨⟨1, 3, 1⟩, 0, none⟩
  let b : Change := ⟨⟨1, 5, 1⟩, 0, none⟩
  let hp : Heap := fun x => if x = 0 then ⟨a, some 1⟩ else ⟨b, none⟩
  have hs : Stored hp (some 0) [0, 1] [a, b] :=
    Stored.cons (a := 0) (Stored.cons (a := 1) .nil (by simp)) (by simp)
  obtain ⟨h', is', h1, _⟩ := display_spec hs true (fuel := 2) (by simp)
  obtain ⟨⟨s, hp1, _, hp3⟩, _⟩ := h hp (some 0) [0, 1] [a, b] hs true 2 h' _ h1
  have := hp1.length_eq
  rw [show (if true then s else s.take 1) = s from rfl] at hp3
  rw [← hp3] at this
  revert this
  decide

/-! ### C146: recording -/

/-- **C146 (recording).**  A change is recorded in front, unless the last one has the same location and action; a change
through an alias is the same only if it is through the same alias. -/
theorem C146_record (old : List Change) (act : Nat) (loc : Loc) :
    (∃ c, (record old act loc).head? = some c ∧ c.loc = loc ∧ c.action = act) ∧
    (record old act loc = old ∨ record old act loc = ⟨loc, act, none⟩ :: old) := by
  cases old with
  | nil => exact ⟨⟨_, rfl, rfl, rfl⟩, Or.inr rfl⟩
  | cons c l =>
    unfold record
    by_cases h : c.loc = loc ∧ c.action = act
    · dsimp only; rw [if_pos h]; exact ⟨⟨c, rfl, h⟩, Or.inl rfl⟩
    · dsimp only; rw [if_neg h]; exact ⟨⟨_, rfl, rfl, rfl⟩, Or.inr rfl⟩

theorem C146_recordRef (old : List Change) (r : Option Nat) (act : Nat) (loc : Loc) :
    (recordRef old r act loc).head? = some ⟨loc, act, r⟩ ∧
    (recordRef old r act loc = old ∨ recordRef old r act loc = ⟨loc, act, r⟩ :: old) := by
  cases old with
  | nil => exact ⟨rfl, Or.inr rfl⟩
  | cons c l =>
    unfold recordRef
    by_cases h : c.loc = loc ∧ c.action = act ∧ c.ref = r
    · dsimp only; rw [if_pos h]
      refine ⟨?_, Or.inl rfl⟩
      obtain ⟨h1, h2, h3⟩ := h
      obtain ⟨a, b, c⟩ := c
      simp at h1 h2 h3 ⊢
      exact ⟨h1, h2, h3⟩
    · dsimp only; rw [if_neg h]; exact ⟨rfl, Or.inr rfl⟩

/-- **C146 (update).**  Updating gives the last change of the new history, and behind it the old one: it is the new history
exactly if the old one is empty, the new one is empty, or the new one is the old one, perhaps with one change more. -/
theorem C146_update_exactly (old new : List Change) :
    ((update old new).head? = new.head?) ∧
    (update old new = new ↔ old = [] ∨ new = [] ∨ new = old ∨ ∃ c, new = c :: old ∧ old.head? ≠ some c) := by
  cases old with
  | nil => simp [update]
  | cons o os =>
    cases new with
    | nil => simp [update]
    | cons n ns =>
      unfold update
      dsimp only
      by_cases h : o.loc = n.loc ∧ o.action = n.action ∧ o.ref = n.ref
      · rw [if_pos h]
        have hon : o = n := by
          obtain ⟨h1, h2, h3⟩ := h
          obtain ⟨a, b, c⟩ := o; obtain ⟨a', b', c'⟩ := n
          simp at h1 h2 h3 ⊢
          exact ⟨h1, h2, h3⟩
        subst hon
        refine ⟨rfl, ?_⟩
        simp only [List.cons.injEq, true_and, reduceCtorEq, false_or, List.head?_cons, ne_eq, Option.some.injEq]
        constructor
        · intro hq; exact Or.inl hq.symm
        · rintro (hq | ⟨c, ⟨rfl, _⟩, hne⟩)
          · exact hq.symm
          · exact absurd rfl hne
      · rw [if_neg h]
        have hon : o ≠ n := by rintro rfl; exact h ⟨rfl, rfl, rfl⟩
        refine ⟨rfl, ?_⟩
        simp only [List.cons.injEq, true_and, reduceCtorEq, false_or, List.head?_cons, ne_eq, Option.some.injEq]
        constructor
        · intro hq; exact Or.inr ⟨n, ⟨rfl, hq.symm⟩, hon⟩
        · rintro (⟨hq, _⟩ | ⟨c, ⟨_, hq⟩, _⟩)
          · exact absurd hq.symm hon
          · exact hq.symm

theorem C146_full_is_false : ¬ C146_full := by
  intro h
  have := h [⟨⟨1, 1, 1⟩, 0, none⟩] [⟨⟨1, 2, 1⟩, 0, none⟩]
  revert this
  decide

/-! ### Examples -/

/-- in order: everything is shown, and nothing is changed -/
example : InOrder [⟨⟨1, 5, 1⟩, 2, none⟩, ⟨⟨1, 5, 1⟩, 1, some 4⟩, ⟨⟨1, 2, 7⟩, 0, none⟩] ∧
    sortL [⟨⟨1, 5, 1⟩, 2, none⟩, ⟨⟨1, 5, 1⟩, 1, some 4⟩, ⟨⟨1, 2, 7⟩, 0, none⟩] =
      ([⟨⟨1, 5, 1⟩, 2, none⟩, ⟨⟨1, 5, 1⟩, 1, some 4⟩, ⟨⟨1, 2, 7⟩, 0, none⟩],
       [⟨⟨1, 5, 1⟩, 2, none⟩, ⟨⟨1, 5, 1⟩, 1, some 4⟩, ⟨⟨1, 2, 7⟩, 0, none⟩]) := by
  refine ⟨⟨by decide, by decide, trivial⟩, by decide⟩

/-- a change in a loop, recorded last at line 3: line 5 is not shown, and then line 3 is forgotten -/
example : sortL [⟨⟨1, 3, 1⟩, 2, none⟩, ⟨⟨1, 5, 1⟩, 1, none⟩, ⟨⟨1, 2, 1⟩, 0, none⟩] =
    ([⟨⟨1, 3, 1⟩, 2, none⟩, ⟨⟨1, 2, 1⟩, 0, none⟩], [⟨⟨1, 5, 1⟩, 1, none⟩, ⟨⟨1, 2, 1⟩, 0, none⟩]) := by decide

/-- two changes stored in cells 7 and 2, shown with and without `showdeephistory` -/
example : Stored (fun x => if x = 7 then ⟨⟨⟨1, 5, 1⟩, 1, none⟩, some 2⟩ else ⟨⟨⟨1, 2, 1⟩, 0, none⟩, none⟩) (some 7) [7, 2]
      [⟨⟨1, 5, 1⟩, 1, none⟩, ⟨⟨1, 2, 1⟩, 0, none⟩] :=
  Stored.cons (a := 7) (Stored.cons (a := 2) .nil (by simp)) (by simp)

example : (display true 2 (fun x => if x = 7 then ⟨⟨⟨1, 5, 1⟩, 1, none⟩, some 2⟩ else ⟨⟨⟨1, 2, 1⟩, 0, none⟩, none⟩) (some 7)).map
      Prod.snd = some [⟨⟨1, 5, 1⟩, 1, none⟩, ⟨⟨1, 2, 1⟩, 0, none⟩] ∧
    (display false 2 (fun x => if x = 7 then ⟨⟨⟨1, 5, 1⟩, 1, none⟩, some 2⟩ else ⟨⟨⟨1, 2, 1⟩, 0, none⟩, none⟩) (some 7)).map
      Prod.snd = some [⟨⟨1, 5, 1⟩, 1, none⟩] := by decide

/-- the same place and action is recorded once; through an alias, again -/
example : record [⟨⟨1, 5, 1⟩, 1, some 3⟩] 1 ⟨1, 5, 1⟩ = [⟨⟨1, 5, 1⟩, 1, some 3⟩] ∧
    recordRef [⟨⟨1, 5, 1⟩, 1, some 3⟩] (some 4) 1 ⟨1, 5, 1⟩ = [⟨⟨1, 5, 1⟩, 1, some 4⟩, ⟨⟨1, 5, 1⟩, 1, some 3⟩] := by decide

/-- the changes of the new history before its last one are dropped, those of the old one kept -/
example : update [⟨⟨1, 2, 1⟩, 0, none⟩] [⟨⟨1, 9, 1⟩, 2, none⟩, ⟨⟨1, 8, 1⟩, 1, none⟩] =
    [⟨⟨1, 9, 1⟩, 2, none⟩, ⟨⟨1, 2, 1⟩, 0, none⟩] := by decide

end StateHist
end Splint
