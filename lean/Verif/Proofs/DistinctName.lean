import Verif.Model.DistinctName
import Verif.Spec.DistinctName
import Mathlib.Data.List.Forall2
/-!
# Names that are not distinguishable: proofs
-/
namespace Splint.Distinct
open Spec

theorem upper_iff (a b : Char) : upper a = upper b ↔ SameLetter a b := by
  have hab : a = b ↔ a.toNat = b.toNat := ⟨fun h => by rw [h], fun h => Char.toNat_inj.1 h⟩
  unfold upper SameLetter
  rw [hab]
  constructor
  · intro h
    split_ifs at h with h1 h2 h2
    · left; omega
    · right
      exact ⟨a.toNat - 97, by omega, Or.inr ⟨by omega, by omega⟩⟩
    · right
      exact ⟨b.toNat - 97, by omega, Or.inl ⟨by omega, by omega⟩⟩
    · left; exact h
  · rintro (h | ⟨k, hk, h | h⟩)
    · rw [h]
    · rw [h.1, h.2]; split_ifs <;> omega
    · rw [h.1, h.2]; split_ifs <;> omega

theorem look_iff (a b : Char) : lookLike a = lookLike b ↔ LookAlike a b := by
  unfold LookAlike classes
  constructor
  · intro h
    by_cases hab : a = b
    · exact Or.inl hab
    · right
      unfold lookLike at h
      split_ifs at h with h1 h2 h3 h4 h5 h6 h7 h8 h9 h10 h11 h12 h13 h14 h15 h16 h17 h18 h19 h20 <;>
        first
        | exact absurd h hab
        | (exfalso; revert h; decide)
        | (subst_vars; simp_all)
        | skip
  · rintro (rfl | ⟨k, hk, ha, hb⟩)
    · rfl
    · simp only [List.mem_cons, List.not_mem_nil, or_false] at hk
      rcases hk with rfl | rfl | rfl | rfl <;>
        simp only [List.mem_cons, List.not_mem_nil, or_false] at ha hb <;>
        rcases ha with rfl | rfl | rfl <;> rcases hb with rfl | rfl | rfl <;> decide

/-- The significant characters behind the first `i`. -/
def sigFrom (n i : Nat) (s : List Char) : List Char := if n = 0 then s else s.take (n - i)

def caseDiff (ci : Bool) (p : Char × Char) : Bool :=
  ci && decide (p.2 ≠ p.1) && decide (upper p.2 = upper p.1)

def lookDiff (ci la : Bool) (p : Char × Char) : Bool :=
  la && decide (p.2 ≠ p.1) && !caseDiff ci p && decide (lookLike p.2 = lookLike p.1)

theorem verdict_ne (dc dl : Bool) : verdict dc dl ≠ .distinct := by
  cases dc <;> cases dl <;> decide

/-- The case that is answered wrongly: the first name has exactly the significant number of characters, the
second one has more. -/
def Edge (n i : Nat) (s t : List Char) : Prop := 0 < n ∧ s.length = n - i ∧ n - i < t.length

theorem match_symm {ci la : Bool} {a b : Char} : Match ci la a b ↔ Match ci la b a := by
  have key : ∀ a b, Match ci la a b → Match ci la b a := by
    rintro a b (rfl | ⟨h, h'⟩ | ⟨h, h'⟩)
    · exact Or.inl rfl
    · exact Or.inr (Or.inl ⟨h, by rw [← upper_iff] at *; exact h'.symm⟩)
    · exact Or.inr (Or.inr ⟨h, by rw [← look_iff] at *; exact h'.symm⟩)
  exact ⟨key a b, key b a⟩

theorem loop_iff (n : Nat) (ci la : Bool) (s : List Char) : ∀ t i dc dl, (0 < n → i ≤ n) →
    (cmpLoop n ci la s t i dc dl ≠ .distinct ↔
      List.Forall₂ (Match ci la) (sigFrom n i s) (sigFrom n i t) ∧ ¬ Edge n i s t) := by
  induction s with
  | nil =>
    intro t i dc dl hi
    cases t with
    | nil =>
      have h : sigFrom n i [] = [] := by unfold sigFrom; split_ifs <;> simp
      simp only [cmpLoop, ne_eq, h, List.Forall₂.nil, true_and, Edge, List.length_nil]
      refine ⟨fun _ => by omega, fun _ => verdict_ne dc dl⟩
    | cons d t =>
      simp only [cmpLoop, ne_eq, not_true_eq_false, false_iff, not_and, Classical.not_not]
      intro h
      unfold sigFrom at h
      by_cases hn : n = 0
      · simp [hn] at h
      · simp only [hn, if_false, List.take_nil] at h
        have hl := h.length_eq
        simp only [List.length_nil, List.length_take, List.length_cons] at hl
        refine ⟨by omega, ?_, ?_⟩ <;> simp only [List.length_nil, List.length_cons] <;> omega
  | cons c s ih =>
    intro t i dc dl hi
    by_cases hb : 0 < n ∧ n ≤ i
    · have hz : n - i = 0 := by omega
      have hn : n ≠ 0 := by omega
      simp [cmpLoop, hb, sigFrom, hn, hz, Edge, verdict_ne]
    · have hi' : 0 < n → i + 1 ≤ n := by intro h0; omega
      have hcons : ∀ c s, sigFrom n i (c :: s) = c :: sigFrom n (i + 1) s := by
        intro c s
        unfold sigFrom
        split_ifs with hn
        · rfl
        · have : n - i = (n - (i + 1)) + 1 := by omega
          rw [this, List.take_succ_cons]
      cases t with
      | nil =>
        have h : sigFrom n i [] = [] := by unfold sigFrom; split_ifs <;> simp
        simp [cmpLoop, hb, hcons, h]
      | cons d t =>
        have hE : Edge n i (c :: s) (d :: t) ↔ Edge n (i + 1) s t := by
          unfold Edge; simp only [List.length_cons]; constructor <;> (rintro ⟨h1, h2, h3⟩; exact ⟨h1, by omega, by omega⟩)
        rw [hcons, hcons, List.forall₂_cons, hE]
        simp only [cmpLoop, hb, if_false]
        split_ifs with h1 h2 h3
        · rw [ih t (i + 1) dc dl hi']
          subst h1
          simp [Match]
        · rw [ih t (i + 1) true dl hi']
          have : Match ci la c d := Or.inr (Or.inl ⟨h2.1, (upper_iff _ _).1 h2.2.symm⟩)
          simp [this]
        · rw [ih t (i + 1) dc true hi']
          have : Match ci la c d := Or.inr (Or.inr ⟨h3.1, (look_iff _ _).1 h3.2.symm⟩)
          simp [this]
        · have : ¬ Match ci la c d := by
            rintro (rfl | ⟨h, h'⟩ | ⟨h, h'⟩)
            · exact h1 rfl
            · exact h2 ⟨h, ((upper_iff _ _).2 h').symm⟩
            · exact h3 ⟨h, ((look_iff _ _).2 h').symm⟩
          simp [this]

theorem sigFrom_zero (n : Nat) (s : List Char) : sigFrom n 0 s = sig n s := by
  simp [sigFrom, sig]

theorem generic_iff (n : Nat) (ci la : Bool) (s t : List Char) :
    genericEqual s t n ci la ≠ .distinct ↔ Indistinct n ci la s t ∧ ¬ Edge n 0 s t := by
  unfold genericEqual Indistinct
  rw [loop_iff n ci la s t 0 false false (fun _ => Nat.zero_le _), sigFrom_zero, sigFrom_zero]

theorem loop_verdict (n : Nat) (ci la : Bool) (s : List Char) : ∀ t i dc dl,
    cmpLoop n ci la s t i dc dl ≠ .distinct →
    cmpLoop n ci la s t i dc dl = verdict (dc || ((sigFrom n i s).zip (sigFrom n i t)).any (caseDiff ci))
      (dl || ((sigFrom n i s).zip (sigFrom n i t)).any (lookDiff ci la)) := by
  induction s with
  | nil =>
    intro t i dc dl h
    cases t with
    | nil =>
      have h : sigFrom n i [] = [] := by unfold sigFrom; split_ifs <;> simp
      simp [cmpLoop, h]
    | cons d t => simp [cmpLoop] at h
  | cons c s ih =>
    intro t i dc dl
    by_cases hb : 0 < n ∧ n ≤ i
    · have hz : n - i = 0 := by omega
      have hn : n ≠ 0 := by omega
      simp [cmpLoop, hb, sigFrom, hn, hz]
    · have hcons : ∀ c s, sigFrom n i (c :: s) = c :: sigFrom n (i + 1) s := by
        intro c s
        unfold sigFrom
        split_ifs with hn
        · rfl
        · have : n - i = (n - (i + 1)) + 1 := by omega
          rw [this, List.take_succ_cons]
      cases t with
      | nil => simp [cmpLoop, hb]
      | cons d t =>
        rw [hcons, hcons, List.zip_cons_cons, List.any_cons, List.any_cons]
        simp only [cmpLoop, hb, if_false]
        split_ifs with h1 h2 h3
        · intro h; rw [ih _ _ _ _ h]; simp [caseDiff, lookDiff, h1]
        · intro h; rw [ih _ _ _ _ h]; simp [caseDiff, lookDiff, h1, h2.1, h2.2]
        · intro h; rw [ih _ _ _ _ h]
          have : caseDiff ci (c, d) = false := by
            cases hci : ci
            · simp [caseDiff]
            · have : ¬ upper d = upper c := fun h => h2 ⟨hci, h⟩
              simp [caseDiff, this]
          simp [lookDiff, this, h1, h3.1, h3.2]
        · simp

theorem generic_verdict {n : Nat} {ci la : Bool} {s t : List Char} (h : genericEqual s t n ci la ≠ .distinct) :
    genericEqual s t n ci la = verdict (((sig n s).zip (sig n t)).any (caseDiff ci))
      (((sig n s).zip (sig n t)).any (lookDiff ci la)) := by
  have := loop_verdict n ci la s t 0 false false h
  rw [sigFrom_zero, sigFrom_zero, Bool.false_or, Bool.false_or] at this
  exact this

theorem strncmp_iff (n : Nat) : ∀ s t, strncmpEq s t n = true ↔ s.take n = t.take n := by
  induction n with
  | zero => intro s t; cases s <;> cases t <;> simp [strncmpEq]
  | succ n ih =>
    intro s t
    cases s <;> cases t <;> simp [strncmpEq, ih]

theorem indistinct_plain (n : Nat) (s t : List Char) : Indistinct n false false s t ↔ sig n s = sig n t := by
  unfold Indistinct
  have : (Match false false) = (fun a b => a = b) := by
    funext a b; simp [Match]
  rw [this, List.forall₂_eq_eq_eq]

theorem indistinct_of_eq {n : Nat} {ci la : Bool} {s t : List Char} (h : sig n s = sig n t) :
    Indistinct n ci la s t := by
  unfold Indistinct
  rw [h]
  exact List.forall₂_same.2 (fun a _ => Or.inl rfl)

theorem indistinct_symm {n : Nat} {ci la : Bool} {s t : List Char} :
    Indistinct n ci la s t ↔ Indistinct n ci la t s := by
  have key : ∀ l l', List.Forall₂ (Match ci la) l l' → List.Forall₂ (Match ci la) l' l := by
    intro l l' h
    induction h with
    | nil => exact .nil
    | cons h _ ih => exact .cons (match_symm.1 h) ih
  exact ⟨key _ _, key _ _⟩

/-! ## The loops over entries -/

theorem extLoop_some (m : Ent → Option DMsg) (shown : Ent → Bool) (e : Ent) (l : List Ent) (x : Ent × DMsg) :
    extLoop m shown e l (some x) = (some x, l.any fun oe => decide (oe.addr ≠ e.addr) && (m oe).isSome) := by
  induction l with
  | nil => rfl
  | cons oe l ih =>
    simp only [extLoop, List.any_cons]
    by_cases h : oe.addr = e.addr
    · simp [h, ih]
    · cases hm : m oe <;> simp [h, hm, ih]

/-- The loop over the global entries: the first entry that matches and whose message is shown. -/
theorem extLoop_none (m : Ent → Option DMsg) (shown : Ent → Bool) (e : Ent) (l : List Ent) :
    (extLoop m shown e l none).1 =
      l.findSome? (fun oe => if oe.addr = e.addr then none else if shown oe then (m oe).map (fun k => (oe, k)) else none) := by
  induction l with
  | nil => rfl
  | cons oe l ih =>
    simp only [extLoop, List.findSome?_cons]
    by_cases h : oe.addr = e.addr
    · simp [h, ih]
    · cases hm : m oe with
      | none => simp [h, ih]
      | some k =>
        by_cases hs : shown oe = true
        · simp [h, hs, extLoop_some]
        · simp [h, hs, ih]

theorem intLoop_eq (m : Ent → Option DMsg) (shown : Ent → Bool) (e : Ent) (l : List Ent) :
    intLoop m shown e l =
      l.findSome? (fun oe => if oe.addr = e.addr then none else if shown oe then (m oe).map (fun k => (oe, k)) else none) := by
  induction l with
  | nil => rfl
  | cons oe l ih =>
    simp only [intLoop, List.findSome?_cons]
    by_cases h : oe.addr = e.addr
    · simp [h, ih]
    · cases hm : m oe with
      | none => simp [h, ih]
      | some k => by_cases hs : shown oe = true <;> simp [h, hs, ih]

theorem intScopes_eq (m : Ent → Option DMsg) (shown : Ent → Bool) (e : Ent) (ls : List (List Ent)) :
    intScopes m shown e ls = intLoop m shown e ls.flatten := by
  induction ls with
  | nil => rfl
  | cons l ls ih =>
    rw [intScopes, ih, List.flatten_cons, intLoop_eq, intLoop_eq, intLoop_eq, List.findSome?_append]
    cases List.findSome? _ l <;> rfl

end Splint.Distinct
