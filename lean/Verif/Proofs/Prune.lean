import Mathlib.Data.List.Induction
import Verif.Model.SRefSet
import Verif.Tactics
/-! # The compaction loops -/
namespace Splint
namespace PruneSt
variable {α : Type}

/-- The last good element of a list, with what is before it and after it. -/
theorem split_good (good : α → Bool) (M : List α) :
    (∀ z ∈ M, good z = false) ∨
      ∃ M' y Z, M = M' ++ y :: Z ∧ good y = true ∧ ∀ z ∈ Z, good z = false := by
  induction M using List.reverseRecOn with
  | nil => left; simp
  | append_singleton M y ih =>
    cases hy : good y with
    | true => right; exact ⟨M, y, [], by simp, hy, by simp⟩
    | false =>
      rcases ih with h | ⟨M', u, Z, rfl, hu, hZ⟩
      · left; intro z hz
        rcases List.mem_append.1 hz with hz | hz
        · exact h z hz
        · rw [List.mem_singleton.1 hz]; exact hy
      · right; refine ⟨M', u, Z ++ [y], by simp, hu, ?_⟩
        intro z hz
        rcases List.mem_append.1 hz with hz | hz
        · exact hZ z hz
        · rw [List.mem_singleton.1 hz]; exact hy

theorem innerS_bad (good : α → Bool) (P : List α) (x : α) (M J : List α) (e b sp : Nat)
    (h : ∀ z ∈ M, good z = false) :
    innerS good P.length M.length ⟨P ++ x :: (M ++ J), e + M.length, b + M.length, sp⟩ =
      some ⟨P ++ x :: (M ++ J), e, b, sp + M.length⟩ := by
  induction M using List.reverseRecOn generalizing J sp with
  | nil => simp [innerS]
  | append_singleton M y ih =>
    have hy : (P ++ x :: (M ++ ([y] ++ J)))[P.length + M.length + 1]? = some y := by
      rw [List.getElem?_append_right (by omega)]
      rw [show P.length + M.length + 1 - P.length = M.length + 1 by omega]
      simp
    have hg : good y = false := h y (by simp)
    have := ih (y :: J) (sp + 1) (fun z hz => h z (by simp [hz]))
    simp only [List.length_append, List.length_singleton, List.append_assoc, innerS, hy, hg,
      Bool.false_eq_true, if_false, Nat.add_sub_cancel, ← Nat.add_assoc]
    simp only [List.singleton_append]
    rw [this]
    simp only [Option.some.injEq, mk.injEq, true_and]
    omega

theorem innerS_good (good : α → Bool) (P : List α) (x y : α) (M' Z J : List α) (e b sp : Nat)
    (hy : good y = true) (h : ∀ z ∈ Z, good z = false) :
    innerS good P.length (M' ++ y :: Z).length
        ⟨P ++ x :: ((M' ++ y :: Z) ++ J), e + Z.length + 1, b + Z.length + 1, sp⟩ =
      some ⟨P ++ y :: ((M' ++ y :: Z) ++ J), if b - 1 = P.length then e + 1 else e, b,
        sp + Z.length + 1⟩ := by
  induction Z using List.reverseRecOn generalizing J sp with
  | nil =>
    have hy' : (P ++ x :: (M' ++ ([y] ++ J)))[P.length + M'.length + 1]? = some y := by
      rw [List.getElem?_append_right (by omega)]
      rw [show P.length + M'.length + 1 - P.length = M'.length + 1 by omega]
      simp
    have hset : (P ++ x :: (M' ++ ([y] ++ J))).set P.length y = P ++ y :: (M' ++ ([y] ++ J)) := by
      simp [List.set_append_right]
    simp only [List.length_append, List.length_singleton, List.append_assoc, innerS, hy', hy,
      if_true, List.length_nil, Nat.add_zero, Nat.add_sub_cancel, hset]
  | append_singleton Z u ih =>
    have hu : (P ++ x :: (M' ++ y :: (Z ++ ([u] ++ J))))[P.length + (M'.length + (Z.length + 1)) + 1]?
        = some u := by
      rw [List.getElem?_append_right (by omega)]
      rw [show P.length + (M'.length + (Z.length + 1)) + 1 - P.length = M'.length + Z.length + 1 + 1 by omega]
      rw [List.getElem?_cons_succ, List.getElem?_append_right (by omega),
        show M'.length + Z.length + 1 - M'.length = Z.length + 1 by omega, List.getElem?_cons_succ,
        List.getElem?_append_right (by omega)]
      simp
    have hg : good u = false := h u (by simp)
    have := ih (u :: J) (sp + 1) (fun z hz => h z (by simp [hz]))
    simp only [List.length_append, List.length_cons, List.length_nil, List.append_assoc, innerS,
      hu, hg, Bool.false_eq_true, if_false, ← Nat.add_assoc, Nat.add_sub_cancel,
      List.cons_append, List.nil_append, Nat.zero_add] at this hu ⊢
    rw [hu]
    simp only [hg, Bool.false_eq_true, if_false]
    rw [this]
    simp only [Option.some.injEq, mk.injEq, true_and]
    omega

/-- `sRefSet_levelPrune` keeps exactly the good elements. -/
theorem outerS_perm (good : α → Bool) : ∀ (fuel : Nat) (P rest J : List α) (sp : Nat),
    rest.length ≤ fuel →
    ∃ st, outerS good fuel P.length
        ⟨P ++ (rest ++ J), P.length + rest.length, P.length + rest.length, sp⟩ = some st ∧
      (st.arr.take st.entries).Perm (P ++ rest.filter good) ∧
      st.entries + st.nspace ≤ P.length + rest.length + sp := by
  intro fuel
  induction fuel with
  | zero =>
    intro P rest J sp hf
    have : rest = [] := List.eq_nil_of_length_eq_zero (by omega)
    subst this
    exact ⟨_, rfl, by simp, by simp⟩
  | succ fuel ih =>
    intro P rest J sp hf
    cases rest with
    | nil =>
      exact ⟨⟨P ++ J, P.length, P.length, sp⟩, by simp [outerS], by simp, by simp⟩
    | cons x M =>
      simp only [List.length_cons] at hf
      have hx : (P ++ (x :: M ++ J))[P.length]? = some x := by
        rw [List.getElem?_append_right (Nat.le_refl _)]; simp
      simp only [outerS, hx, List.length_cons]
      rw [if_pos (by omega)]
      cases hg : good x with
      | true =>
        obtain ⟨st, h1, h2, h3⟩ := ih (P ++ [x]) M J sp (by omega)
        simp only [if_true]
        refine ⟨st, ?_, ?_, ?_⟩
        · rw [← h1]; simp [Nat.add_assoc, Nat.add_comm 1]
        · refine h2.trans ?_
          simp [List.filter_cons, hg]
        · simp only [List.length_append, List.length_singleton] at h3; omega
      | false =>
        simp only [Bool.false_eq_true, if_false]
        rcases split_good good M with hb | ⟨M', y, Z, rfl, hy, hZ⟩
        · have := innerS_bad good P x M J (P.length + 1) (P.length + 1) sp hb
          rw [show P.length + 1 + M.length = P.length + (M.length + 1) by omega] at this
          simp only [List.cons_append,
            show P.length + (M.length + 1) - 1 - P.length = M.length by omega, this]
          simp only [Nat.add_sub_cancel, if_true]
          have hstop : outerS good fuel (P.length + 1)
              ⟨P ++ x :: (M ++ J), P.length, P.length + 1, sp + M.length⟩ =
              some ⟨P ++ x :: (M ++ J), P.length, P.length + 1, sp + M.length⟩ := by
            cases fuel <;> simp [outerS]
          refine ⟨_, hstop, ?_, ?_⟩
          · have : M.filter good = [] := by
              rw [List.filter_eq_nil_iff]; intro z hz; simp [hb z hz]
            simp [List.filter_cons, hg, this]
          · simp only; omega
        · have := innerS_good good P x y M' Z J (P.length + 1 + M'.length) (P.length + 1 + M'.length)
            sp hy hZ
          rw [show P.length + 1 + M'.length + Z.length + 1 =
            P.length + ((M' ++ y :: Z).length + 1) by simp; omega] at this
          simp only [List.cons_append,
            show P.length + ((M' ++ y :: Z).length + 1) - 1 - P.length = (M' ++ y :: Z).length by
              omega, this]
          have hlen : (M' ++ y :: Z).length = M'.length + Z.length + 1 := by simp; omega
          obtain ⟨st, h1, h2, h3⟩ := ih (P ++ [y]) M' (y :: Z ++ J) (sp + Z.length + 1)
            (by rw [hlen] at hf; omega)
          have hfz : Z.filter good = [] := by
            rw [List.filter_eq_nil_iff]; intro z hz; simp [hZ z hz]
          refine ⟨st, ?_, ?_, ?_⟩
          · rw [← h1]
            have hif : (if P.length + 1 + M'.length - 1 = P.length then
                  ({ arr := P ++ y :: ((M' ++ y :: Z) ++ J),
                     entries := (if P.length + 1 + M'.length - 1 = P.length then
                        P.length + 1 + M'.length + 1 else P.length + 1 + M'.length) - 1,
                     back1 := P.length + 1 + M'.length, nspace := sp + Z.length + 1 } : PruneSt α)
                else ⟨P ++ y :: ((M' ++ y :: Z) ++ J),
                     if P.length + 1 + M'.length - 1 = P.length then
                        P.length + 1 + M'.length + 1 else P.length + 1 + M'.length,
                     P.length + 1 + M'.length, sp + Z.length + 1⟩) =
                ⟨P ++ y :: ((M' ++ y :: Z) ++ J), P.length + 1 + M'.length, P.length + 1 + M'.length,
                  sp + Z.length + 1⟩ := by
              split <;> simp_all
            simp only [List.append_assoc] at hif ⊢
            rw [hif]
            simp
          · refine h2.trans ?_
            simp only [List.filter_cons, hg, List.filter_append, hy, hfz, Bool.false_eq_true,
              if_false, if_true, List.append_assoc, List.singleton_append]
            refine List.Perm.append_left _ ?_
            exact (List.perm_append_comm (l₁ := M'.filter good) (l₂ := [y])).symm
          · simp only [List.length_append, List.length_singleton, List.length_cons, List.length_nil] at h3 ⊢
            omega

theorem innerA_bad (good : α → Bool) (move : α → α) (P : List α) (x : α) (M J : List α)
    (e b sp : Nat) (h : ∀ z ∈ M, good z = false) :
    innerA good move P.length M.length ⟨P ++ x :: (M ++ J), e + M.length, b + M.length, sp⟩ =
      some ⟨P ++ x :: (M ++ J), e, b, sp + M.length⟩ := by
  induction M using List.reverseRecOn generalizing J sp with
  | nil => simp [innerA]
  | append_singleton M y ih =>
    have hy : (P ++ x :: (M ++ ([y] ++ J)))[P.length + M.length + 1]? = some y := by
      rw [List.getElem?_append_right (by omega)]
      rw [show P.length + M.length + 1 - P.length = M.length + 1 by omega]
      simp
    have hg : good y = false := h y (by simp)
    have := ih (y :: J) (sp + 1) (fun z hz => h z (by simp [hz]))
    simp only [List.length_append, List.length_singleton, List.append_assoc, innerA, hy, hg,
      Bool.false_eq_true, if_false, Nat.add_sub_cancel, ← Nat.add_assoc]
    simp only [List.singleton_append]
    rw [this]
    simp only [Option.some.injEq, mk.injEq, true_and]
    omega

theorem innerA_good (good : α → Bool) (move : α → α) (P : List α) (x y : α) (M' Z J : List α)
    (e b sp : Nat) (hy : good y = true) (h : ∀ z ∈ Z, good z = false) :
    innerA good move P.length (M' ++ y :: Z).length
        ⟨P ++ x :: ((M' ++ y :: Z) ++ J), e + Z.length + 1, b + Z.length + 1, sp⟩ =
      some ⟨P ++ move y :: ((M' ++ y :: Z) ++ J), e, b, sp + Z.length + 1⟩ := by
  induction Z using List.reverseRecOn generalizing J sp with
  | nil =>
    have hy' : (P ++ x :: (M' ++ ([y] ++ J)))[P.length + M'.length + 1]? = some y := by
      rw [List.getElem?_append_right (by omega)]
      rw [show P.length + M'.length + 1 - P.length = M'.length + 1 by omega]
      simp
    have hset : (P ++ x :: (M' ++ ([y] ++ J))).set P.length (move y) =
        P ++ move y :: (M' ++ ([y] ++ J)) := by
      simp [List.set_append_right]
    simp only [List.length_append, List.length_singleton, List.append_assoc, innerA, hy', hy,
      if_true, List.length_nil, Nat.add_zero, Nat.add_sub_cancel, hset]
  | append_singleton Z u ih =>
    have hu : (P ++ x :: (M' ++ y :: (Z ++ ([u] ++ J))))[P.length + (M'.length + (Z.length + 1)) + 1]?
        = some u := by
      rw [List.getElem?_append_right (by omega)]
      rw [show P.length + (M'.length + (Z.length + 1)) + 1 - P.length = M'.length + Z.length + 1 + 1 by omega]
      rw [List.getElem?_cons_succ, List.getElem?_append_right (by omega),
        show M'.length + Z.length + 1 - M'.length = Z.length + 1 by omega, List.getElem?_cons_succ,
        List.getElem?_append_right (by omega)]
      simp
    have hg : good u = false := h u (by simp)
    have := ih (u :: J) (sp + 1) (fun z hz => h z (by simp [hz]))
    simp only [List.length_append, List.length_cons, List.length_nil, List.append_assoc, innerA,
      hu, hg, Bool.false_eq_true, if_false, ← Nat.add_assoc, Nat.add_sub_cancel,
      List.cons_append, List.nil_append, Nat.zero_add] at this hu ⊢
    rw [hu]
    simp only [hg, Bool.false_eq_true, if_false]
    rw [this]
    simp only [Option.some.injEq, mk.injEq, true_and]
    omega

/-- The entry that `aliasTable_levelPrune` loses: with `g` good entries, the one behind the first
`g`, when it is good and the one before it is not. -/
def lostEntry (good : α → Bool) (rest : List α) : Option α :=
  let g := (rest.filter good).length
  match g with
  | 0 => none
  | k + 1 =>
    match rest[k]?, rest[k + 1]? with
    | some a, some b => if !good a && good b then some b else none
    | _, _ => none

theorem lostEntry_nil (good : α → Bool) (rest : List α) (h : rest.filter good = []) :
    lostEntry good rest = none := by
  simp [lostEntry, h]

theorem lostEntry_good (good : α → Bool) (x : α) (M : List α) (hx : good x = true) :
    lostEntry good (x :: M) = lostEntry good M := by
  unfold lostEntry
  simp only [List.filter_cons, hx, if_true, List.length_cons]
  cases h : (M.filter good).length with
  | zero =>
    simp only [List.getElem?_cons_zero, hx]
    cases (x :: M)[0 + 1]? <;> simp [hx]
  | succ k => simp

theorem lostEntry_pair (good : α → Bool) (x y : α) (Z : List α) (hx : good x = false)
    (hy : good y = true) (hZ : ∀ z ∈ Z, good z = false) :
    lostEntry good (x :: y :: Z) = some y := by
  have hfz : Z.filter good = [] := by
    rw [List.filter_eq_nil_iff]; intro z hz; simp [hZ z hz]
  simp [lostEntry, List.filter_cons, hx, hy, hfz]

theorem lostEntry_bad (good : α → Bool) (x y : α) (M' Z : List α) (hx : good x = false)
    (hy : good y = true) (hZ : ∀ z ∈ Z, good z = false) (hM : M' ≠ []) :
    lostEntry good (x :: (M' ++ y :: Z)) = lostEntry good M' := by
  have hfz : Z.filter good = [] := by
    rw [List.filter_eq_nil_iff]; intro z hz; simp [hZ z hz]
  have hle : (M'.filter good).length ≤ M'.length := List.length_filter_le _ _
  unfold lostEntry
  simp only [List.filter_cons, hx, Bool.false_eq_true, if_false, List.filter_append, hy, if_true,
    hfz, List.length_append, List.length_singleton, List.length_cons, List.length_nil, Nat.zero_add]
  rcases Nat.lt_or_ge (M'.filter good).length M'.length with hlt | hge
  · cases h : (M'.filter good).length with
    | zero =>
      have h0 : M'.filter good = [] := List.eq_nil_of_length_eq_zero h
      cases M' with
      | nil => exact absurd rfl hM
      | cons m M'' =>
        have : good m = false := by
          have := List.filter_eq_nil_iff.1 h0 m (by simp)
          simpa using this
        simp [hx, this]
    | succ k =>
      rw [h] at hlt
      have e1 : (M' ++ y :: Z)[k]? = M'[k]? := List.getElem?_append_left (by omega)
      have e2 : (M' ++ y :: Z)[k + 1]? = M'[k + 1]? := List.getElem?_append_left (by omega)
      simp only [List.getElem?_cons_succ, e1, e2]
  · have hall : ∀ z ∈ M', good z = true := by
      have : (M'.filter good).length = M'.length := by omega
      exact List.length_filter_eq_length_iff.1 this
    have hlen : (M'.filter good).length = M'.length := by omega
    rw [hlen]
    cases hl : M'.length with
    | zero => exact absurd (List.eq_nil_of_length_eq_zero hl) hM
    | succ k =>
      have hk : k < M'.length := by omega
      have e1 : (M' ++ y :: Z)[k]? = some M'[k] := by
        rw [List.getElem?_append_left hk]; exact List.getElem?_eq_getElem hk
      have e2 : M'[k + 1]? = none := List.getElem?_eq_none (by omega)
      have e3 : (M' ++ y :: Z)[k + 1]? = some y := by
        rw [List.getElem?_append_right (by omega), hl]; simp
      have hg : good M'[k] = true := hall _ (List.getElem_mem _)
      simp only [List.getElem?_cons_succ, e1, e2, e3, hg]
      cases M'[k]? <;> simp

/-- `aliasTable_levelPrune` keeps the good entries, but for the lost one. -/
theorem outerA_perm (good : α → Bool) (move : α → α) : ∀ (fuel : Nat) (P rest J : List α) (sp : Nat),
    rest.length ≤ fuel →
    ∃ st, outerA good move fuel P.length
        ⟨P ++ (rest ++ J), P.length + rest.length, P.length + rest.length, sp⟩ = some st ∧
      ((lostEntry good rest).toList.map move ++ st.arr.take st.entries).Perm
        (P ++ (rest.filter good).map move) ∧
      st.entries + st.nspace ≤ P.length + rest.length + sp := by
  intro fuel
  induction fuel with
  | zero =>
    intro P rest J sp hf
    have : rest = [] := List.eq_nil_of_length_eq_zero (by omega)
    subst this
    exact ⟨_, rfl, by simp [lostEntry], by simp⟩
  | succ fuel ih =>
    intro P rest J sp hf
    cases rest with
    | nil =>
      exact ⟨⟨P ++ J, P.length, P.length, sp⟩, by simp [outerA], by simp [lostEntry], by simp⟩
    | cons x M =>
      simp only [List.length_cons] at hf
      have hx : (P ++ (x :: M ++ J))[P.length]? = some x := by
        rw [List.getElem?_append_right (Nat.le_refl _)]; simp
      simp only [outerA, hx, List.length_cons]
      rw [if_pos (by omega)]
      cases hg : good x with
      | true =>
        obtain ⟨st, h1, h2, h3⟩ := ih (P ++ [move x]) M J sp (by omega)
        simp only [if_true]
        refine ⟨st, ?_, ?_, ?_⟩
        · rw [← h1]; simp [Nat.add_assoc, Nat.add_comm 1, List.set_append_right]
        · rw [lostEntry_good _ _ _ hg]
          refine h2.trans ?_
          simp [List.filter_cons, hg]
        · simp only [List.length_append, List.length_singleton] at h3; omega
      | false =>
        simp only [Bool.false_eq_true, if_false]
        have hstop : ∀ (A : List α) (e s : Nat), outerA good move fuel (P.length + 1)
            ⟨A, e, P.length + 1, s⟩ = some ⟨A, e, P.length + 1, s⟩ := by
          intro A e s; cases fuel <;> simp [outerA]
        rcases split_good good M with hb | ⟨M', y, Z, rfl, hy, hZ⟩
        · have := innerA_bad good move P x M J (P.length + 1) (P.length + 1) sp hb
          rw [show P.length + 1 + M.length = P.length + (M.length + 1) by omega] at this
          simp only [List.cons_append,
            show P.length + (M.length + 1) - 1 - P.length = M.length by omega, this]
          simp only [Nat.add_sub_cancel, if_true]
          have hf0 : M.filter good = [] := by
            rw [List.filter_eq_nil_iff]; intro z hz; simp [hb z hz]
          refine ⟨_, hstop _ _ _, ?_, ?_⟩
          · rw [lostEntry_nil _ _ (by simp [List.filter_cons, hg, hf0])]
            simp [List.filter_cons, hg, hf0]
          · simp only; omega
        · have := innerA_good good move P x y M' Z J (P.length + 1 + M'.length)
            (P.length + 1 + M'.length) sp hy hZ
          rw [show P.length + 1 + M'.length + Z.length + 1 =
            P.length + ((M' ++ y :: Z).length + 1) by simp; omega] at this
          simp only [List.cons_append,
            show P.length + ((M' ++ y :: Z).length + 1) - 1 - P.length = (M' ++ y :: Z).length by
              omega, this]
          have hlen : (M' ++ y :: Z).length = M'.length + Z.length + 1 := by simp; omega
          have hfz : Z.filter good = [] := by
            rw [List.filter_eq_nil_iff]; intro z hz; simp [hZ z hz]
          cases M' with
          | nil =>
            simp only [List.length_nil, Nat.add_zero, Nat.add_sub_cancel, if_true]
            refine ⟨_, hstop _ _ _, ?_, ?_⟩
            · simp only [List.nil_append, lostEntry_pair _ _ _ _ hg hy hZ]
              simp only [List.filter_cons, hg, hy, hfz, Bool.false_eq_true, if_false, if_true,
                Option.toList, List.map_cons, List.map_nil, List.take_left]
              exact List.perm_append_comm
            · simp only [List.nil_append, List.length_cons]; omega
          | cons m M'' =>
            rw [if_neg (by simp; omega)]
            obtain ⟨st, h1, h2, h3⟩ := ih (P ++ [move y]) (m :: M'') (y :: Z ++ J)
              (sp + Z.length + 1) (by rw [hlen] at hf; omega)
            refine ⟨st, ?_, ?_, ?_⟩
            · rw [← h1]; simp [Nat.add_assoc, Nat.add_comm 1]
            · rw [lostEntry_bad good x y (m :: M'') Z hg hy hZ (by simp)]
              refine h2.trans ?_
              rw [List.filter_cons (x := x)]
              simp only [hg, List.filter_append, Bool.false_eq_true, if_false]
              rw [List.filter_cons (x := y)]
              simp only [hy, hfz, if_true, List.append_assoc, List.singleton_append, List.map_append,
                List.map_cons, List.map_nil]
              refine List.Perm.append_left _ ?_
              exact (List.perm_append_comm (l₁ := ((m :: M'').filter good).map move)
                (l₂ := [move y])).symm
            · simp only [List.length_append, List.length_singleton, List.length_cons,
                List.length_nil] at h3 ⊢
              omega

end PruneSt
end Splint
