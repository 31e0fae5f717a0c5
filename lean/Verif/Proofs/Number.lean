import Verif.Spec.Number
/-! Proofs about the scanner for constants. -/
namespace Splint.Scan
open Spec

theorem best_mem {α : Type} {l : List (Option (α × List Char))} {p : α × List Char}
    (h : best l = some p) : some p ∈ l := by
  induction l generalizing p with
  | nil => cases h
  | cons o l ih =>
    cases o with
    | none => exact List.mem_cons_of_mem _ (ih h)
    | some q =>
      rw [best] at h
      split at h
      · cases h; simp
      · next r hr =>
        split at h
        · cases h; exact List.mem_cons_of_mem _ (ih hr)
        · cases h; simp

theorem best_some {α : Type} {l : List (Option (α × List Char))} {q : α × List Char}
    (hq : some q ∈ l) : ∃ p, best l = some p := by
  cases h : best l with
  | some p => exact ⟨p, rfl⟩
  | none =>
    exfalso
    induction l with
    | nil => cases hq
    | cons o l ih =>
      cases o with
      | none =>
        rcases List.mem_cons.1 hq with hq | hq
        · cases hq
        · exact ih hq h
      | some =>
        rw [best] at h
        split at h
        · cases h
        · split at h <;> cases h

theorem best_le {α : Type} {l : List (Option (α × List Char))} {p q : α × List Char}
    (h : best l = some p) (hq : some q ∈ l) : p.2.length ≤ q.2.length := by
  induction l generalizing p with
  | nil => cases hq
  | cons o l ih =>
    cases o with
    | none =>
      rcases List.mem_cons.1 hq with hq | hq
      · cases hq
      · exact ih h hq
    | some q' =>
      rw [best] at h
      rcases List.mem_cons.1 hq with hq | hq
      · cases hq
        split at h
        · cases h; exact Nat.le_refl _
        · split at h
          · next hlt => cases h; exact Nat.le_of_lt hlt
          · cases h; exact Nat.le_refl _
      · split at h
        · next hn =>
          obtain ⟨_, hx⟩ := best_some hq
          rw [hn] at hx; cases hx
        · next r hr =>
          have := ih hr hq
          split at h
          · cases h; exact this
          · cases h; omega

/-- The only longest match is found. -/
theorem best_only {α : Type} {l : List (Option (α × List Char))} {p : α × List Char} (hp : some p ∈ l)
    (hu : ∀ q, some q ∈ l → q.2.length ≤ p.2.length → q = p) : best l = some p := by
  obtain ⟨q, hq⟩ := best_some hp
  rw [hq, hu q (best_mem hq) (best_le hq hp)]

/-- Of the longest matches the first is found. -/
theorem best_first {α : Type} {l m : List (Option (α × List Char))} {p : α × List Char}
    (h : best l = some p) (hm : ∀ q, some q ∈ m → p.2.length ≤ q.2.length) :
    best (l ++ m) = some p := by
  induction l generalizing p with
  | nil => cases h
  | cons o l ih =>
    cases o with
    | none => exact ih h hm
    | some q =>
      rw [List.cons_append, best]
      rw [best] at h
      split at h
      · next hn =>
        cases h
        split
        · rfl
        · next r hr =>
          rcases List.mem_append.1 (best_mem hr) with h | h
          · obtain ⟨_, hx⟩ := best_some h
            rw [hn] at hx; cases hx
          · rw [if_neg (by have := hm _ h; omega)]
      · next r hr =>
        split at h
        · next hlt =>
          cases h
          rw [ih hr hm]
          simp [hlt]
        · next hlt =>
          cases h
          split
          · rfl
          · next r' hr' =>
            have : p.2.length ≤ r'.2.length := by
              rcases List.mem_append.1 (best_mem hr') with h | h
              · have := best_le hr h; omega
              · exact hm _ h
            rw [if_neg (by omega)]

/-! Characters -/

/-- what cannot belong to a constant -/
structure Other (c : Char) : Prop where
  u : isU c = false
  l : isL c = false
  dig : ∀ b : Base, b.digit c = none
  isd : isDigit c = false
  dot : c ≠ '.'
  x : c ≠ 'x' ∧ c ≠ 'X'
  b : c ≠ 'b' ∧ c ≠ 'B'
  e : c ≠ 'e' ∧ c ≠ 'E'
  f : c ≠ 'f' ∧ c ≠ 'F'

theorem alnum_of {c : Char} (h : ¬ c.isAlphanum = true) :
    ¬ (48 ≤ c.toNat ∧ c.toNat ≤ 57) ∧ ¬ (65 ≤ c.toNat ∧ c.toNat ≤ 90) ∧ ¬ (97 ≤ c.toNat ∧ c.toNat ≤ 122) := by
  simp only [Char.isAlphanum, Char.isAlpha, Char.isUpper, Char.isLower, Char.isDigit, Bool.or_eq_true,
    Bool.and_eq_true, decide_eq_true_eq, not_or] at h
  simp only [UInt32.le_iff_toNat_le, GE.ge, not_and] at h
  have e : c.toNat = c.val.toNat := rfl
  have h1 : '0'.val.toNat = 48 := rfl
  have h2 : '9'.val.toNat = 57 := rfl
  have h3 : 'A'.val.toNat = 65 := rfl
  have h4 : 'Z'.val.toNat = 90 := rfl
  have h5 : 'a'.val.toNat = 97 := rfl
  have h6 : 'z'.val.toNat = 122 := rfl
  rw [h1, h2, h3, h4, h5, h6, ← e] at h
  omega

theorem other_of {c : Char} (h : ¬ c.isAlphanum = true) (hd : c ≠ '.') : Other c := by
  have hn := alnum_of h
  have ne : ∀ d : Char, d.isAlphanum = true → c ≠ d := fun d hd hc => h (hc ▸ hd)
  have i : isDigit c = false := by
    simp only [isDigit, Bool.and_eq_false_iff, decide_eq_false_iff_not]; omega
  refine ⟨?_, ?_, ?_, i, hd, ⟨ne _ rfl, ne _ rfl⟩, ⟨ne _ rfl, ne _ rfl⟩, ⟨ne _ rfl, ne _ rfl⟩,
    ⟨ne _ rfl, ne _ rfl⟩⟩
  · simp [isU, ne 'u' rfl, ne 'U' rfl]
  · simp [isL, ne 'l' rfl, ne 'L' rfl]
  · intro b
    cases b <;> simp only [Base.digit, i, Bool.and_eq_true, decide_eq_true_eq] <;> split_ifs <;>
      first | rfl | omega

theorem ends_cases {s : List Char} (h : Ends s) : s = [] ∨ ∃ c w, s = c :: w ∧ Other c := by
  cases s with
  | nil => exact .inl rfl
  | cons c w =>
    obtain ⟨h1, -, h3⟩ := h c rfl
    exact .inr ⟨c, w, rfl, other_of h1 h3⟩

theorem digit_allowed {b : Base} {c : Char} (h : c ∈ allowed b) : b.digit c = some (digitValue c) := by
  revert c
  cases b <;> decide

theorem isDigit_of {c : Char} (h : c ∈ digits) : isDigit c = true := by
  revert c
  decide

theorem isDigit_some {c : Char} : isDigit c = (Base.dec.digit c).isSome := by
  simp only [Base.digit]
  split <;> simp_all

theorem allowed_digits {b : Base} (hb : b ≠ .hex) {c : Char} (h : c ∈ allowed b) : c ∈ digits := by
  revert c
  cases b
  · exact absurd rfl hb
  all_goals decide

theorem takeWhile_all {p : Char → Bool} {l w : List Char} (hl : ∀ c ∈ l, p c = true)
    (hw : ∀ c, w.head? = some c → p c = false) :
    (l ++ w).takeWhile p = l ∧ (l ++ w).dropWhile p = w := by
  induction l with
  | nil =>
    cases w with
    | nil => exact ⟨rfl, rfl⟩
    | cons c w => simp [hw c rfl]
  | cons a l ih =>
    obtain ⟨h1, h2⟩ := ih fun c hc => hl c (by simp [hc])
    have := hl a (by simp)
    simp [this, h1, h2]

/-! Values -/

theorem number_mono (r : Nat) (ds : List Char) (n : Nat) (hr : 0 < r) :
    n ≤ ds.foldl (fun n c => n * r + digitValue c) n := by
  induction ds generalizing n with
  | nil => exact Nat.le_refl _
  | cons c s ih =>
    refine Nat.le_trans ?_ (ih _)
    have := Nat.le_mul_of_pos_right n hr
    exact Nat.le_trans this (Nat.le_add_right _ _)

theorem value_go {b : Base} {ds : List Char} (hd : ∀ c ∈ ds, c ∈ allowed b) (n : Nat)
    (hn : (n : Int) ≤ longMax) :
    value b n ds =
      if ((ds.foldl (fun n c => n * b.radix + digitValue c) n : Nat) : Int) ≤ longMax
      then some ((ds.foldl (fun n c => n * b.radix + digitValue c) n : Nat) : Int) else none := by
  induction ds generalizing n with
  | nil => simp [value, hn]
  | cons c s ih =>
    rw [value, digit_allowed (hd c (by simp))]
    simp only [List.foldl_cons]
    have e : (n : Int) * b.radix + digitValue c = ((n * b.radix + digitValue c : Nat) : Int) := by
      push_cast; ring
    rw [e]
    split
    · next h => exact ih (fun c hc => hd c (by simp [hc])) _ h
    · next h =>
      symm
      apply if_neg
      have := number_mono b.radix s (n * b.radix + digitValue c) (by cases b <;> decide)
      omega

theorem value_number {b : Base} {ds : List Char} (hd : ∀ c ∈ ds, c ∈ allowed b) :
    value b 0 ds = if (number b.radix ds : Int) ≤ longMax then some (number b.radix ds : Int) else none :=
  value_go hd 0 (by decide)

/-! Suffixes -/

theorem cut_self {x : Suffix} {X : List Char} (hx : Letters x X) (rest : List Char) :
    x.cut (X ++ rest) = some rest := by
  cases hx with
  | no => rfl
  | u h => simp only [List.mem_cons, List.not_mem_nil, or_false] at h; rcases h with rfl | rfl <;> rfl
  | l h => simp only [List.mem_cons, List.not_mem_nil, or_false] at h; rcases h with rfl | rfl <;> rfl
  | ll h => simp only [List.mem_cons, List.not_mem_nil, or_false] at h; rcases h with rfl | rfl <;> rfl
  | ul h k =>
    simp only [List.mem_cons, List.not_mem_nil, or_false] at h k
    rcases h with rfl | rfl <;> rcases k with rfl | rfl <;> rfl
  | lu h k =>
    simp only [List.mem_cons, List.not_mem_nil, or_false] at h k
    rcases h with rfl | rfl <;> rcases k with rfl | rfl <;> rfl
  | ull h k =>
    simp only [List.mem_cons, List.not_mem_nil, or_false] at h k
    rcases h with rfl | rfl <;> rcases k with rfl | rfl <;> rfl
  | llu h k =>
    simp only [List.mem_cons, List.not_mem_nil, or_false] at h k
    rcases h with rfl | rfl <;> rcases k with rfl | rfl <;> rfl

theorem cut_other {x : Suffix} {c : Char} {w r : List Char} (hu : isU c = false) (hl : isL c = false)
    (h : x.cut (c :: w) = some r) : x = .no ∧ r = c :: w := by
  cases x with
  | no => cases h; exact ⟨rfl, rfl⟩
  | u => simp [Suffix.cut, hu] at h
  | l => simp [Suffix.cut, hl] at h
  | ll => cases w <;> simp [Suffix.cut, hl] at h
  | ul => cases w <;> simp [Suffix.cut, hu, hl] at h
  | ull => rcases w with _ | ⟨_, _ | _⟩ <;> simp [Suffix.cut, hu] at h
  | llu => rcases w with _ | ⟨_, _ | _⟩ <;> simp [Suffix.cut, hl] at h

theorem isU_mem {c : Char} (h : c ∈ ['u', 'U']) : isU c = true ∧ isL c = false := by
  revert c; decide

theorem isL_mem {c : Char} (h : c ∈ ['l', 'L']) : isL c = true ∧ isU c = false := by
  revert c; decide

theorem cut_le {x y : Suffix} {X rest r : List Char} (hx : Letters x X) (he : Ends rest)
    (h : y.cut (X ++ rest) = some r) :
    rest.length ≤ r.length ∧ (r.length = rest.length → y = x) := by
  have hr := ends_cases he
  cases hx with
  | no =>
    rcases hr with rfl | ⟨c, w, rfl, o⟩
    · cases y <;> simp [Suffix.cut] at h
      simp
    · obtain ⟨rfl, rfl⟩ := cut_other o.u o.l h
      simp
  | u a =>
    obtain ⟨a1, a2⟩ := isU_mem a
    rcases hr with rfl | ⟨c, w, rfl, o⟩
    · cases y <;> simp [Suffix.cut, a1, a2] at h <;> subst h <;> simp
    · cases y <;> rcases w with _ | ⟨d, w⟩ <;> simp [Suffix.cut, a1, a2, o.u, o.l] at h <;> subst h <;> simp
  | l a =>
    obtain ⟨a1, a2⟩ := isL_mem a
    rcases hr with rfl | ⟨c, w, rfl, o⟩
    · cases y <;> simp [Suffix.cut, a1, a2] at h <;> subst h <;> simp
    · cases y <;> rcases w with _ | ⟨d, w⟩ <;> simp [Suffix.cut, a1, a2, o.u, o.l] at h <;> subst h <;> simp
  | ll a =>
    obtain ⟨a1, a2⟩ := isL_mem a
    rcases hr with rfl | ⟨c, w, rfl, o⟩
    · cases y <;> simp [Suffix.cut, a1, a2] at h <;> subst h <;> simp
    · cases y <;> simp [Suffix.cut, a1, a2, o.u, o.l] at h <;> subst h <;> simp <;> omega
  | ul a b =>
    obtain ⟨a1, a2⟩ := isU_mem a
    obtain ⟨b1, b2⟩ := isL_mem b
    rcases hr with rfl | ⟨c, w, rfl, o⟩
    · cases y <;> simp [Suffix.cut, a1, a2, b1, b2] at h <;> subst h <;> simp
    · cases y <;> simp [Suffix.cut, a1, a2, b1, b2, o.u, o.l] at h <;> subst h <;> simp <;> omega
  | lu a b =>
    obtain ⟨a1, a2⟩ := isU_mem a
    obtain ⟨b1, b2⟩ := isL_mem b
    rcases hr with rfl | ⟨c, w, rfl, o⟩
    · cases y <;> simp [Suffix.cut, a1, a2, b1, b2] at h <;> subst h <;> simp
    · cases y <;> simp [Suffix.cut, a1, a2, b1, b2, o.u, o.l] at h <;> subst h <;> simp <;> omega
  | ull a b =>
    obtain ⟨a1, a2⟩ := isU_mem a
    obtain ⟨b1, b2⟩ := isL_mem b
    cases y <;> simp [Suffix.cut, a1, a2, b1, b2] at h <;> subst h <;> simp <;> omega
  | llu a b =>
    obtain ⟨a1, a2⟩ := isU_mem a
    obtain ⟨b1, b2⟩ := isL_mem b
    cases y <;> simp [Suffix.cut, a1, a2, b1, b2] at h <;> subst h <;> simp <;> omega

/-- after the digits -/
theorem suffix_head {x : Suffix} {X rest : List Char} (hx : Letters x X) (he : Ends rest) {c : Char}
    (h : (X ++ rest).head? = some c) :
    (∀ b : Base, b.digit c = none) ∧ isDigit c = false ∧ c ≠ '.' ∧ (c ≠ 'x' ∧ c ≠ 'X')
    ∧ (c ≠ 'b' ∧ c ≠ 'B') ∧ (c ≠ 'e' ∧ c ≠ 'E') := by
  have key : ∀ c, c ∈ ['u', 'U', 'l', 'L'] → (∀ b : Base, b.digit c = none) ∧ isDigit c = false ∧ c ≠ '.'
      ∧ (c ≠ 'x' ∧ c ≠ 'X') ∧ (c ≠ 'b' ∧ c ≠ 'B') ∧ (c ≠ 'e' ∧ c ≠ 'E') := by
    intro c hc
    refine ⟨?_, ?_⟩
    · intro b
      revert c
      cases b <;> decide
    · revert c
      decide
  have hu : ∀ a, a ∈ ['u', 'U'] → a ∈ ['u', 'U', 'l', 'L'] := by decide
  have hl : ∀ a, a ∈ ['l', 'L'] → a ∈ ['u', 'U', 'l', 'L'] := by decide
  cases hx with
  | no =>
    rcases ends_cases he with rfl | ⟨d, w, rfl, o⟩
    · cases h
    · cases h
      exact ⟨o.dig, o.isd, o.dot, o.x, o.b, o.e⟩
  | u a => cases h; exact key _ (hu _ a)
  | l a => cases h; exact key _ (hl _ a)
  | ll a => cases h; exact key _ (hl _ a)
  | ul a b => cases h; exact key _ (hu _ a)
  | lu a b => cases h; exact key _ (hl _ b)
  | ull a b => cases h; exact key _ (hu _ a)
  | llu a b => cases h; exact key _ (hl _ b)

/-! Integer constants -/

theorem intRule_self {b : Base} {x : Suffix} {ds T X rest : List Char} (hc : Constant b ds T)
    (hx : Letters x X) (he : Ends rest) :
    intRule b x (T ++ (X ++ rest)) = some (.num x.type (value b 0 ds), rest) := by
  have key : ∀ b ds t, ds ≠ [] → (∀ c ∈ ds, c ∈ allowed b) → b.start t = some (ds ++ (X ++ rest)) →
      intRule b x t = some (.num x.type (value b 0 ds), rest) := by
    intro b ds t hne hd ht
    obtain ⟨h1, h2⟩ := takeWhile_all (p := fun c => (b.digit c).isSome) (l := ds) (w := X ++ rest)
      (fun c hc => by rw [digit_allowed (hd c hc)]; rfl)
      (fun c hc => by rw [(suffix_head hx he hc).1 b]; rfl)
    simp only [intRule, ht, h1, h2, cut_self hx]
    cases ds with
    | nil => exact absurd rfl hne
    | cons => rfl
  cases hc with
  | hex h hne hd =>
    refine key .hex _ _ hne hd ?_
    simp only [List.mem_cons, List.not_mem_nil, or_false] at h
    rcases h with rfl | rfl <;> rfl
  | oct hne hd => exact key .oct _ _ hne hd rfl
  | bin h hne hd =>
    refine key .bin _ _ hne hd ?_
    simp only [List.mem_cons, List.not_mem_nil, or_false] at h
    rcases h with rfl | rfl <;> rfl
  | dec hz hd => exact key .dec _ _ (by simp) hd rfl
  | zero => exact key .dec _ _ (by simp) (by decide) rfl

theorem intRule_inv {b : Base} {x : Suffix} {s : List Char} {q : Token × List Char}
    (h : intRule b x s = some q) :
    ∃ t r, b.start s = some t ∧ t.takeWhile (fun c => (b.digit c).isSome) ≠ []
      ∧ x.cut (t.dropWhile fun c => (b.digit c).isSome) = some r
      ∧ q = (.num x.type (value b 0 (t.takeWhile fun c => (b.digit c).isSome)), r) := by
  unfold intRule at h
  split at h
  · cases h
  · next t ht =>
    simp only at h
    split at h
    · cases h
    · next hne =>
      split at h
      · cases h
      · next r hr =>
        cases h
        exact ⟨t, r, ht, fun h => hne (by simp [h]), hr, rfl⟩

theorem intRule_le {b c : Base} {x y : Suffix} {ds T X rest : List Char} (hc : Constant b ds T)
    (hx : Letters x X) (he : Ends rest) {q : Token × List Char}
    (h : intRule c y (T ++ (X ++ rest)) = some q) :
    rest.length ≤ q.2.length
    ∧ (q.2.length ≤ rest.length → y = x ∧ (c = b ∨ c = .dec ∧ b = .oct)) := by
  obtain ⟨t, r, ht, hne, hr, rfl⟩ := intRule_inv h
  clear h
  have hhead := fun d h => suffix_head hx he (c := d) h
  -- the digits are those of the constant
  have key : ∀ ds, (∀ d ∈ ds, (c.digit d).isSome = true) → t = ds ++ (X ++ rest) →
      rest.length ≤ r.length ∧ (r.length ≤ rest.length → y = x) := by
    intro ds hd ht
    subst ht
    rw [(takeWhile_all hd fun d h => by rw [(hhead d h).1 c]; rfl).2] at hr
    obtain ⟨h1, h2⟩ := cut_le hx he hr
    exact ⟨h1, fun h => h2 (by omega)⟩
  -- the digits stop before a letter
  have stop : ∀ a d w, t = a :: d :: w → c.digit a ≠ none → c.digit d = none → isU d = false →
      isL d = false → rest.length < w.length + 1 → rest.length < r.length := by
    intro a d w ht ha hd hu hl hw
    subst ht
    rw [List.dropWhile_cons_of_pos (by simpa using Option.isSome_iff_ne_none.2 ha),
      List.dropWhile_cons_of_neg (by simp [hd])] at hr
    obtain ⟨-, rfl⟩ := cut_other hu hl hr
    simpa using hw
  have first : ∀ d w, t = d :: w → (c.digit d).isSome = false → False := by
    intro d w ht hd
    subst ht
    simp [hd] at hne
  cases hc with
  | hex hm hne' hd =>
    next z =>
    have hz : Base.dec.digit z = none ∧ Base.oct.digit z = none ∧ isU z = false ∧ isL z = false
        ∧ ¬ (z = 'b' ∨ z = 'B') := by
      clear key stop first ht hr hne; revert z; decide
    cases c with
    | hex =>
      have : t = ds ++ (X ++ rest) := by
        simp only [List.mem_cons, List.not_mem_nil, or_false] at hm
        rcases hm with rfl | rfl <;> (cases ht; rfl)
      obtain ⟨h1, h2⟩ := key ds (fun d h => by rw [digit_allowed (hd d h)]; rfl) this
      exact ⟨h1, fun h => ⟨h2 h, .inl rfl⟩⟩
    | oct =>
      cases ht
      exact (first _ _ rfl (by simp [hz.2.1])).elim
    | bin => simp [Base.start, hz.2.2.2.2] at ht
    | dec =>
      cases ht
      have := stop '0' z _ rfl (by decide) hz.1 hz.2.2.1 hz.2.2.2.1 (by simp; omega)
      exact ⟨Nat.le_of_lt this, fun h => absurd h (Nat.not_le_of_lt this)⟩
  | bin hm hne' hd =>
    next z =>
    have hz : Base.dec.digit z = none ∧ Base.oct.digit z = none ∧ isU z = false ∧ isL z = false
        ∧ ¬ (z = 'x' ∨ z = 'X') := by
      clear key stop first ht hr hne; revert z; decide
    cases c with
    | bin =>
      have : t = ds ++ (X ++ rest) := by
        simp only [List.mem_cons, List.not_mem_nil, or_false] at hm
        rcases hm with rfl | rfl <;> (cases ht; rfl)
      obtain ⟨h1, h2⟩ := key ds (fun d h => by rw [digit_allowed (hd d h)]; rfl) this
      exact ⟨h1, fun h => ⟨h2 h, .inl rfl⟩⟩
    | oct =>
      cases ht
      exact (first _ _ rfl (by simp [hz.2.1])).elim
    | hex => simp [Base.start, hz.2.2.2.2] at ht
    | dec =>
      cases ht
      have := stop '0' z _ rfl (by decide) hz.1 hz.2.2.1 hz.2.2.2.1 (by simp; omega)
      exact ⟨Nat.le_of_lt this, fun h => absurd h (Nat.not_le_of_lt this)⟩
  | oct hne' hd =>
    obtain ⟨d, ds, rfl⟩ := List.exists_cons_of_ne_nil hne'
    have hz : ¬ (d = 'x' ∨ d = 'X') ∧ ¬ (d = 'b' ∨ d = 'B') := by
      have := hd d (by simp)
      clear key stop first ht hr hne hd hne'
      revert d; decide
    cases c with
    | hex => simp [Base.start, hz.1] at ht
    | bin => simp [Base.start, hz.2] at ht
    | oct =>
      cases ht
      obtain ⟨h1, h2⟩ := key (d :: ds) (fun d h => by rw [digit_allowed (hd d h)]; rfl) rfl
      exact ⟨h1, fun h => ⟨h2 h, .inl rfl⟩⟩
    | dec =>
      cases ht
      obtain ⟨h1, h2⟩ := key ('0' :: d :: ds) (fun a h => by
        rcases List.mem_cons.1 h with rfl | h
        · rfl
        · rw [digit_allowed (b := .dec) (allowed_digits (by decide) (hd a h))]; rfl) rfl
      exact ⟨h1, fun h => ⟨h2 h, .inr ⟨rfl, rfl⟩⟩⟩
  | dec hz hd =>
    next d ds =>
    cases c with
    | dec =>
      cases ht
      obtain ⟨h1, h2⟩ := key (d :: ds) (fun d h => by rw [digit_allowed (hd d h)]; rfl) rfl
      exact ⟨h1, fun h => ⟨h2 h, .inl rfl⟩⟩
    | hex =>
      exfalso
      rw [List.cons_append] at ht
      unfold Base.start at ht
      split at ht <;> simp_all
    | oct =>
      exfalso
      rw [List.cons_append] at ht
      unfold Base.start at ht
      split at ht <;> simp_all
    | bin =>
      exfalso
      rw [List.cons_append] at ht
      unfold Base.start at ht
      split at ht <;> simp_all
  | zero =>
    cases c with
    | dec =>
      cases ht
      obtain ⟨h1, h2⟩ := key ['0'] (by decide) rfl
      exact ⟨h1, fun h => ⟨h2 h, .inl rfl⟩⟩
    | oct =>
      cases ht
      exfalso
      cases hw : X ++ rest with
      | nil => rw [hw] at hne; exact hne rfl
      | cons a w =>
        exact first a w (by rw [← hw]; rfl) (by rw [(hhead a (by rw [hw]; rfl)).1]; rfl)
    | hex =>
      exfalso
      cases hw : X ++ rest with
      | nil => rw [hw] at ht; simp [Base.start] at ht
      | cons a w =>
        obtain ⟨-, -, -, h4, -⟩ := hhead a (by rw [hw]; rfl)
        rw [hw] at ht
        simp [Base.start, h4] at ht
    | bin =>
      exfalso
      cases hw : X ++ rest with
      | nil => rw [hw] at ht; simp [Base.start] at ht
      | cons a w =>
        obtain ⟨-, -, -, -, h5, -⟩ := hhead a (by rw [hw]; rfl)
        rw [hw] at ht
        simp [Base.start, h5] at ht

/-- An integer constant is no floating constant. -/
theorem realForms_none {b : Base} {x : Suffix} {ds T X rest : List Char} (hc : Constant b ds T)
    (hx : Letters x X) (he : Ends rest) {f : List Char → Option (List Char)} (hf : f ∈ realForms) :
    f (T ++ (X ++ rest)) = none := by
  have hhead := fun d h => suffix_head hx he (c := d) h
  have key : ∀ s : List Char, (∀ c, (s.dropWhile isDigit).head? = some c →
      c ≠ '.' ∧ c ≠ 'e' ∧ c ≠ 'E') → f s = none := by
    intro s hs
    simp only [realForms, List.mem_cons, List.not_mem_nil, or_false] at hf
    have h2 : ∀ t, s.dropWhile isDigit = '.' :: t → False := by
      intro t ht
      exact (hs '.' (by rw [ht]; rfl)).1 rfl
    have h1 : expo (s.dropWhile isDigit) = none := by
      cases ht : s.dropWhile isDigit with
      | nil => rfl
      | cons c w =>
        obtain ⟨-, h2, h3⟩ := hs c (by rw [ht]; rfl)
        simp [expo, h2, h3]
    rcases hf with rfl | rfl | rfl
    · simp [h1]
    · simp [h2]
    · simp [h2]
  have all : ∀ ds, (∀ d ∈ ds, isDigit d = true) → T = ds → f (T ++ (X ++ rest)) = none := by
    intro ds hd ht
    subst ht
    refine key _ fun c h => ?_
    rw [(takeWhile_all hd fun d h => (hhead d h).2.1).2] at h
    obtain ⟨-, -, h1, -, -, h2⟩ := hhead c h
    exact ⟨h1, h2⟩
  cases hc with
  | hex hm hne hd =>
    refine key _ fun c h => ?_
    simp only [List.mem_cons, List.not_mem_nil, or_false] at hm
    rcases hm with rfl | rfl <;> (simp [isDigit] at h; subst h; decide)
  | bin hm hne hd =>
    refine key _ fun c h => ?_
    simp only [List.mem_cons, List.not_mem_nil, or_false] at hm
    rcases hm with rfl | rfl <;> (simp [isDigit] at h; subst h; decide)
  | oct hne hd =>
    refine all _ (fun d h => ?_) rfl
    rcases List.mem_cons.1 h with rfl | h
    · rfl
    · exact isDigit_of (allowed_digits (by decide) (hd d h))
  | dec hz hd => exact all _ (fun d h => isDigit_of (hd d h)) rfl
  | zero => exact all _ (by decide) rfl

theorem constant_head {b : Base} {ds T : List Char} (hc : Constant b ds T) :
    ∃ d w, T = d :: w ∧ d ∈ digits := by
  cases hc with
  | hex => exact ⟨_, _, rfl, by decide⟩
  | oct => exact ⟨_, _, rfl, by decide⟩
  | bin => exact ⟨_, _, rfl, by decide⟩
  | dec hz hd => exact ⟨_, _, rfl, hd _ (by simp)⟩
  | zero => exact ⟨_, _, rfl, by decide⟩

theorem charRule_none {w : Bool} {c : Char} {s : List Char} (h1 : c ≠ '\'') (h2 : c ≠ 'L') :
    charRule w (c :: s) = none := by
  unfold charRule
  cases w <;> simp [h1, h2]

/-- the rules for integers whose base comes before decimal -/
def early : List (List Char → Option (Token × List Char)) :=
  [Suffix.no, .l, .ll, .u, .ul, .ull, .llu].map (intRule .hex)
  ++ [Suffix.no, .u, .l, .ll, .ul, .ull, .llu].map (intRule .oct)
  ++ [Suffix.no, .u, .l, .ll, .ul, .ull, .llu].map (intRule .bin)

def late : List (List Char → Option (Token × List Char)) :=
  [Suffix.no, .u, .l, .ll, .ul, .ull, .llu].map (intRule .dec)
  ++ [charRule false, charRule true]
  ++ realForms.flatMap fun f => realSuffix.map (realRule f)

theorem rules_eq : rules = early ++ late := by simp [rules, early, late]

theorem early_mem {g : List Char → Option (Token × List Char)} :
    g ∈ early ↔ ∃ b x, b ≠ .dec ∧ g = intRule b x := by
  constructor
  · intro h
    simp only [early, List.map_cons, List.map_nil, List.mem_append, List.mem_cons, List.not_mem_nil,
      or_false] at h
    rcases h with (h | h) | h <;>
      rcases h with h | h | h | h | h | h | h <;> exact ⟨_, _, by decide, h⟩
  · rintro ⟨b, x, hb, rfl⟩
    cases b <;> first | exact absurd rfl hb | (cases x <;> simp [early])

theorem late_cases {g : List Char → Option (Token × List Char)} (h : g ∈ late) :
    (∃ x, g = intRule .dec x) ∨ (∃ w, g = charRule w)
    ∨ ∃ f ∈ realForms, ∃ x ∈ realSuffix, g = realRule f x := by
  simp only [late, List.mem_append, List.mem_flatMap] at h
  rcases h with (h | h) | ⟨f, hf, h⟩
  · simp only [List.map_cons, List.map_nil, List.mem_cons, List.not_mem_nil, or_false] at h
    rcases h with h | h | h | h | h | h | h <;> exact .inl ⟨_, h⟩
  · simp only [List.mem_cons, List.not_mem_nil, or_false] at h
    rcases h with h | h <;> exact .inr (.inl ⟨_, h⟩)
  · obtain ⟨x, hx, rfl⟩ := List.mem_map.1 h
    exact .inr (.inr ⟨f, hf, x, hx, rfl⟩)

theorem dec_mem_late (x : Suffix) : intRule .dec x ∈ late := by
  cases x <;> simp [late]

/-- An integer constant is scanned as one. -/
theorem scan_int {b : Base} {x : Suffix} {ds T X rest : List Char} (hc : Constant b ds T)
    (hx : Letters x X) (he : Ends rest) :
    scan (T ++ (X ++ rest)) = some (.num x.type (value b 0 ds), rest) := by
  have hself := intRule_self hc hx he
  -- what the later rules find
  have hlate : ∀ q, some q ∈ late.map (· (T ++ (X ++ rest))) →
      ∃ y, intRule .dec y (T ++ (X ++ rest)) = some q := by
    intro q hq
    obtain ⟨g, hg, hq⟩ := List.mem_map.1 hq
    rcases late_cases hg with ⟨y, rfl⟩ | ⟨w, rfl⟩ | ⟨f, hf, y, -, rfl⟩
    · exact ⟨y, hq⟩
    · obtain ⟨d, w', rfl, hd⟩ := constant_head hc
      rw [List.cons_append, charRule_none] at hq
      · cases hq
      · rintro rfl; revert hd; decide
      · rintro rfl; revert hd; decide
    · simp only [realRule, realForms_none hc hx he hf] at hq
      cases hq
  have hearly : ∀ q, some q ∈ early.map (· (T ++ (X ++ rest))) →
      ∃ c y, c ≠ .dec ∧ intRule c y (T ++ (X ++ rest)) = some q := by
    intro q hq
    obtain ⟨g, hg, hq⟩ := List.mem_map.1 hq
    obtain ⟨c, y, hc, rfl⟩ := early_mem.1 hg
    exact ⟨c, y, hc, hq⟩
  have same : ∀ c y q, intRule c y (T ++ (X ++ rest)) = some q → q.2.length ≤ rest.length →
      c = b → q = (.num x.type (value b 0 ds), rest) := by
    intro c y q hq hle hcb
    subst hcb
    obtain ⟨rfl, -⟩ := (intRule_le hc hx he hq).2 hle
    rw [hself] at hq
    exact (Option.some.inj hq).symm
  unfold scan
  rw [rules_eq, List.map_append]
  by_cases hb : b = .dec
  · apply best_only
    · refine List.mem_append_right _ (List.mem_map.2 ⟨_, dec_mem_late x, ?_⟩)
      rw [← hb]; exact hself
    · intro q hq hle
      rcases List.mem_append.1 hq with hq | hq
      · obtain ⟨c, y, hcd, hq⟩ := hearly q hq
        obtain ⟨rfl, h | h⟩ := (intRule_le hc hx he hq).2 hle
        · exact absurd (h.trans hb) hcd
        · exact absurd h.1 hcd
      · obtain ⟨y, hq⟩ := hlate q hq
        exact same _ _ _ hq hle hb.symm
  · apply best_first
    · apply best_only
      · exact List.mem_map.2 ⟨_, early_mem.2 ⟨b, x, hb, rfl⟩, hself⟩
      · intro q hq hle
        obtain ⟨c, y, hcd, hq⟩ := hearly q hq
        obtain ⟨rfl, h | h⟩ := (intRule_le hc hx he hq).2 hle
        · exact same _ _ _ hq hle h
        · exact absurd h.1 hcd
    · intro q hq
      obtain ⟨y, hq⟩ := hlate q hq
      exact (intRule_le hc hx he hq).1

/-! Character constants -/

theorem charBody_plain {l rest : List Char} (h : ∀ c ∈ l, c ≠ '\'' ∧ c ≠ '\\') :
    charBody (l ++ '\'' :: rest) = some (l, rest) := by
  induction l with
  | nil => rfl
  | cons c s ih =>
    obtain ⟨h1, h2⟩ := h c (by simp)
    rw [List.cons_append, charBody.eq_def]
    simp [h1, h2, ih fun c hc => h c (by simp [hc])]

theorem escape_shape {e : List Char} {n : Nat} (h : Escape e n) :
    ∃ c w, e = c :: w ∧ c ≠ '\n' ∧ ∀ d ∈ w, d ≠ '\'' ∧ d ≠ '\\' := by
  have key : ∀ b : Base, ∀ d ∈ allowed b, d ≠ '\n' ∧ d ≠ '\'' ∧ d ≠ '\\' := by
    intro b; cases b <;> decide
  cases h with
  | @simple c n h =>
    refine ⟨_, _, rfl, ?_, by simp⟩
    rintro rfl
    simp at h
  | oct hne _ hd =>
    obtain ⟨c, w, rfl⟩ := List.exists_cons_of_ne_nil hne
    exact ⟨_, _, rfl, (key _ _ (hd c (by simp))).1, fun d h => (key _ _ (hd d (by simp [h]))).2⟩
  | hex hne hd => exact ⟨_, _, rfl, by decide, fun d h => (key _ _ (hd d h)).2⟩

theorem charBody_one {e : List Char} {n : Nat} (h : OneChar e n) (rest : List Char) :
    charBody (e ++ '\'' :: rest) = some (e, rest) := by
  cases h with
  | plain h1 h2 h3 => exact charBody_plain (by simp [h1, h2])
  | escape he =>
    obtain ⟨c, w, rfl, h1, h2⟩ := escape_shape he
    simp [charBody, h1, charBody_plain h2]

theorem OneChar_ne {e : List Char} {n : Nat} (h : OneChar e n) : e ≠ [] := by
  cases h <;> simp

/-- No other rule matches where an apostrophe is, with or without an `L`. -/
theorem other_rules {s : List Char} (hs : ∃ w, s = '\'' :: w ∨ s = 'L' :: w)
    {g : List Char → Option (Token × List Char)} (hg : g ∈ rules) (hn : ∀ w, g ≠ charRule w) :
    g s = none := by
  have hint : ∀ b x, intRule b x s = none := by
    intro b x
    obtain ⟨w, rfl | rfl⟩ := hs
    · cases b <;> simp [intRule, Base.start, Base.digit, isDigit]
    · cases b <;> simp [intRule, Base.start, Base.digit, isDigit]
  rw [rules_eq, List.mem_append] at hg
  rcases hg with hg | hg
  · obtain ⟨b, x, -, rfl⟩ := early_mem.1 hg
    exact hint b x
  · rcases late_cases hg with ⟨y, rfl⟩ | ⟨w, rfl⟩ | ⟨f, hf, y, -, rfl⟩
    · exact hint _ _
    · exact absurd rfl (hn w)
    · have : f s = none := by
        simp only [realForms, List.mem_cons, List.not_mem_nil, or_false] at hf
        obtain ⟨w, rfl | rfl⟩ := hs <;> rcases hf with rfl | rfl | rfl <;> simp [isDigit]
      simp [realRule, this]

theorem charRule_mem (w : Bool) : charRule w ∈ rules := by
  rw [rules_eq, List.mem_append]
  cases w <;> simp [late]

theorem scan_chr {s rest : List Char} {c : Char} {w : Bool} (hs : ∃ w, s = '\'' :: w ∨ s = 'L' :: w)
    (h1 : charRule w s = some (.chr c, rest)) (h2 : charRule (!w) s = none) :
    scan s = some (.chr c, rest) := by
  apply best_only
  · exact List.mem_map.2 ⟨_, charRule_mem w, h1⟩
  · intro q hq _
    obtain ⟨g, hg, hq⟩ := List.mem_map.1 hq
    by_cases hn : ∃ v, g = charRule v
    · obtain ⟨v, rfl⟩ := hn
      by_cases hv : v = w
      · subst hv
        rw [h1] at hq
        exact (Option.some.inj hq).symm
      · have : v = !w := by cases v <;> cases w <;> simp_all
        subst this
        rw [h2] at hq; cases hq
    · rw [other_rules hs hg fun w h => hn ⟨w, h⟩] at hq
      cases hq

/-- A character constant is scanned as one. -/
theorem scan_char {e : List Char} {n : Nat} (h : OneChar e n) (rest : List Char) :
    scan ('\'' :: (e ++ '\'' :: rest)) = some (.chr (processChar ('\'' :: (e ++ ['\'']))), rest) := by
  apply scan_chr (w := false) ⟨_, .inl rfl⟩
  · have := OneChar_ne h
    simp [charRule, charBody_one h, this]
  · rfl

theorem scan_wide {e : List Char} {n : Nat} (h : OneChar e n) (rest : List Char) :
    scan ('L' :: '\'' :: (e ++ '\'' :: rest)) = some (.chr '\'', rest) := by
  apply scan_chr (w := true) ⟨_, .inr rfl⟩
  · have := OneChar_ne h
    simp [charRule, charBody_one h, this, processChar]
  · rfl

/-! Floating constants -/

theorem dropWhile_stop {p : Char → Bool} {u v : List Char} {z : Char} (hz : p z = false) :
    ∃ u', (u ++ z :: v).dropWhile p = u' ++ z :: v ∧ ∀ c ∈ u', c ∈ u := by
  induction u with
  | nil => exact ⟨[], by simp [hz], by simp⟩
  | cons a u ih =>
    by_cases ha : p a = true
    · obtain ⟨u', h1, h2⟩ := ih
      exact ⟨u', by simp [ha, h1], fun c hc => by simp [h2 c hc]⟩
    · exact ⟨a :: u, by simp [ha], fun _ h => h⟩

theorem digits_not {c : Char} (h : c ∈ digits ∨ c ∈ ['.', 'e', 'E']) :
    isU c = false ∧ isL c = false ∧ ¬ (c = 'x' ∨ c = 'X') ∧ ¬ (c = 'b' ∨ c = 'B')
    ∧ c ≠ '\'' ∧ c ≠ 'L' := by
  have : c ∈ digits ++ ['.', 'e', 'E'] := by simpa using h
  clear h
  revert c
  decide

theorem intRule_real {b : Base} {y : Suffix} {a v : List Char} {z : Char} (ha : ∀ c ∈ a, c ∈ digits)
    (hz : z ∈ ['.', 'e', 'E']) {q : Token × List Char} (h : intRule b y (a ++ z :: v) = some q) :
    v.length < q.2.length := by
  obtain ⟨t, r, ht, hne, hr, rfl⟩ := intRule_inv h
  clear h
  have zz : z ≠ '0' ∧ Base.oct.digit z = none ∧ Base.dec.digit z = none := by
    clear hr hne ht; revert z; decide
  have fin : ∀ u, (∀ c ∈ u, c ∈ digits) → (b.digit z).isSome = false → t = u ++ z :: v →
      v.length < r.length := by
    intro u hu hbz hu'
    obtain ⟨u', h1, h2⟩ := dropWhile_stop (p := fun c => (b.digit c).isSome) (u := u) (v := v) hbz
    rw [hu', h1] at hr
    cases u' with
    | nil =>
      obtain ⟨h3, h4, -⟩ := digits_not (.inr hz)
      obtain ⟨-, rfl⟩ := cut_other h3 h4 hr
      simp
    | cons d u' =>
      obtain ⟨h3, h4, -⟩ := digits_not (.inl (hu d (h2 d (by simp))))
      obtain ⟨-, rfl⟩ := cut_other h3 h4 hr
      simp; omega
  cases b with
  | dec => exact fin a ha (by simp [zz.2.2]) (by cases ht; rfl)
  | oct =>
    cases a with
    | nil => simp only [List.nil_append] at ht; unfold Base.start at ht; split at ht <;> simp_all
    | cons d a =>
      by_cases hd : d = '0'
      · subst hd
        exact fin a (fun c hc => ha c (by simp [hc])) (by simp [zz.2.1]) (by cases ht; rfl)
      · rw [List.cons_append] at ht; unfold Base.start at ht; split at ht <;> simp_all
  | hex =>
    exfalso
    rcases a with _ | ⟨d, _ | ⟨d', a⟩⟩
    · simp only [List.nil_append] at ht; unfold Base.start at ht; split at ht <;> simp_all
    · have := (digits_not (.inr hz)).2.2.1
      simp only [List.cons_append, List.nil_append] at ht
      by_cases hd : d = '0'
      · subst hd; simp [Base.start, this] at ht
      · unfold Base.start at ht; split at ht <;> simp_all
    · have := (digits_not (.inl (ha d' (by simp)))).2.2.1
      clear ha hz fin zz
      simp only [List.cons_append] at ht
      by_cases hd : d = '0'
      · subst hd; simp [Base.start, this] at ht
      · unfold Base.start at ht; split at ht <;> simp_all
  | bin =>
    exfalso
    rcases a with _ | ⟨d, _ | ⟨d', a⟩⟩
    · simp only [List.nil_append] at ht; unfold Base.start at ht; split at ht <;> simp_all
    · have := (digits_not (.inr hz)).2.2.2.1
      simp only [List.cons_append, List.nil_append] at ht
      by_cases hd : d = '0'
      · subst hd; simp [Base.start, this] at ht
      · unfold Base.start at ht; split at ht <;> simp_all
    · have := (digits_not (.inl (ha d' (by simp)))).2.2.2.1
      clear ha hz fin zz
      simp only [List.cons_append] at ht
      by_cases hd : d = '0'
      · subst hd; simp [Base.start, this] at ht
      · unfold Base.start at ht; split at ht <;> simp_all

theorem realLetters_head {t : CType} {X rest : List Char} (hx : RealLetters t X) (he : Ends rest)
    {c : Char} (h : (X ++ rest).head? = some c) :
    isDigit c = false ∧ c ≠ '.' ∧ c ≠ 'e' ∧ c ≠ 'E' := by
  cases hx with
  | no =>
    rcases ends_cases he with rfl | ⟨d, w, rfl, o⟩
    · cases h
    · cases h
      exact ⟨o.isd, o.dot, o.e⟩
  | f ha => cases h; clear he; revert c; decide
  | l ha => cases h; clear he; revert c; decide

theorem expo_self {x Y : List Char} (hx : Exponent x)
    (hY : ∀ c, Y.head? = some c → isDigit c = false) : expo (x ++ Y) = some Y := by
  obtain ⟨he, hs, hne, hd⟩ := hx
  next e sg ds =>
  obtain ⟨h1, h2⟩ := takeWhile_all (p := isDigit) (l := ds) (w := Y) (fun c h => isDigit_of (hd c h)) hY
  obtain ⟨d, ds, rfl⟩ := List.exists_cons_of_ne_nil hne
  have hd' : d ≠ '+' ∧ d ≠ '-' := by
    have := hd d (by simp)
    clear hd h1 h2 hne
    revert d; decide
  have he' : e = 'e' ∨ e = 'E' := by simpa using he
  simp only [List.mem_cons, List.not_mem_nil, or_false] at hs
  simp only [List.cons_append] at h1 h2
  rcases hs with rfl | rfl | rfl <;> simp [expo, he', hd', h1, h2]

theorem expo_none {Y : List Char} (hY : ∀ c, Y.head? = some c → c ≠ 'e' ∧ c ≠ 'E') : expo Y = none := by
  cases Y with
  | nil => rfl
  | cons c w => simp [expo, hY c rfl]

theorem exponent_head {x Y : List Char} (hx : Exponent x) :
    ∃ e w, x ++ Y = e :: w ∧ e ∈ ['.', 'e', 'E'] ∧ e ≠ '.' ∧ isDigit e = false ∧ Y.length ≤ w.length := by
  obtain ⟨he, hs, hne, hd⟩ := hx
  next e sg ds =>
  refine ⟨e, sg ++ ds ++ Y, by simp, ?_, ?_, ?_, by simp; omega⟩
  all_goals (clear hd hne hs; revert e; decide)

/-- The forms match the constant, or do not match. -/
theorem forms_real {R Y : List Char} (hR : Real R)
    (hY : ∀ c, Y.head? = some c → isDigit c = false ∧ c ≠ '.' ∧ c ≠ 'e' ∧ c ≠ 'E') :
    (∀ f ∈ realForms, f (R ++ Y) = none ∨ f (R ++ Y) = some Y)
    ∧ (∃ f ∈ realForms, f (R ++ Y) = some Y)
    ∧ ∃ a z v, R ++ Y = a ++ z :: v ∧ (∀ c ∈ a, c ∈ digits) ∧ z ∈ ['.', 'e', 'E']
        ∧ Y.length ≤ v.length := by
  cases hR with
  | @point a b x ha hb hab hx =>
    have hxY : ∀ c, (x ++ Y).head? = some c → isDigit c = false := by
      intro c hc
      rcases hx with rfl | hx
      · exact (hY c hc).1
      · obtain ⟨e, w, h1, -, -, h2, -⟩ := exponent_head (Y := Y) hx
        rw [h1] at hc; cases hc; exact h2
    have hopt : optExpo (x ++ Y) = Y := by
      rcases hx with rfl | hx
      · simp only [List.nil_append, optExpo]
        rw [expo_none fun c h => (hY c h).2.2]
        rfl
      · rw [optExpo, expo_self hx fun c h => (hY c h).1]
        rfl
    have e : a ++ '.' :: b ++ x ++ Y = a ++ '.' :: (b ++ (x ++ Y)) := by simp
    obtain ⟨h1, h2⟩ := takeWhile_all (p := isDigit) (l := a) (w := '.' :: (b ++ (x ++ Y)))
      (fun c h => isDigit_of (ha c h)) (fun c h => by cases h; rfl)
    obtain ⟨h3, h4⟩ := takeWhile_all (p := isDigit) (l := b) (w := x ++ Y)
      (fun c h => isDigit_of (hb c h)) hxY
    rw [e]
    refine ⟨?_, ?_, a, '.', _, rfl, ha, by decide, by simp; omega⟩
    · intro f hf
      simp only [realForms, List.mem_cons, List.not_mem_nil, or_false] at hf
      rcases hf with rfl | rfl | rfl
      · left
        simp only [h1, h2]
        simp [expo]
      · simp only [h2, h3, h4, hopt]
        by_cases hb' : b = [] <;> simp [hb']
      · simp only [h1, h2, h4, hopt]
        by_cases ha' : a = [] <;> simp [ha']
    · rcases hab with h | h
      · refine ⟨_, List.mem_cons_of_mem _ (List.mem_cons_of_mem _ (List.mem_singleton.2 rfl)), ?_⟩
        simp only [h1, h2, h4, hopt]
        simp [h]
      · refine ⟨_, List.mem_cons_of_mem _ (List.mem_cons_self ..), ?_⟩
        simp only [h2, h3, h4, hopt]
        simp [h]
  | @expo a x hne ha hx =>
    obtain ⟨z, v, hv, hz, hdot, hdig, hlen⟩ := exponent_head (Y := Y) hx
    obtain ⟨h1, h2⟩ := takeWhile_all (p := isDigit) (l := a) (w := x ++ Y)
      (fun c h => isDigit_of (ha c h)) (fun c h => by rw [hv] at h; cases h; exact hdig)
    have hself := expo_self (Y := Y) hx fun c h => (hY c h).1
    rw [List.append_assoc]
    refine ⟨?_, ?_, a, z, v, by rw [hv], ha, hz, hlen⟩
    · intro f hf
      simp only [realForms, List.mem_cons, List.not_mem_nil, or_false] at hf
      rcases hf with rfl | rfl | rfl
      · right
        simp only [h1, h2, hself]
        simp [hne]
      · left
        rw [hv] at h2
        simp only [h2, hv]
        split
        · next h => cases h; exact absurd rfl hdot
        · rfl
      · left
        rw [hv] at h1 h2
        simp only [h1, h2, hv]
        split
        · rfl
        · split
          · next h => cases h; exact absurd rfl hdot
          · rfl
    · refine ⟨_, List.mem_cons_self .., ?_⟩
      simp only [h1, h2, hself]
      simp [hne]

theorem realSuffix_le {t : CType} {X rest r : List Char} (hx : RealLetters t X) (he : Ends rest)
    {y : CType × (List Char → Option (List Char))} (hy : y ∈ realSuffix) (h : y.2 (X ++ rest) = some r) :
    r.length ≤ rest.length → y.1 = t ∧ r = rest := by
  intro hle
  simp only [realSuffix, List.mem_cons, List.not_mem_nil, or_false] at hy
  have hr := ends_cases he
  cases hx with
  | no =>
    rcases hr with rfl | ⟨c, w, rfl, o⟩
    · rcases hy with rfl | rfl | rfl <;> simp at h
      exact ⟨rfl, h⟩
    · rcases hy with rfl | rfl | rfl <;> simp [o.f, o.l] at h
      exact ⟨rfl, h.symm⟩
  | @f a ha =>
    have : (a = 'f' ∨ a = 'F') ∧ isL a = false := by clear h; revert a; decide
    rcases hy with rfl | rfl | rfl <;> simp [this] at h
    · exact ⟨rfl, h.symm⟩
    · subst h; simp at hle
  | @l a ha =>
    have : ¬ (a = 'f' ∨ a = 'F') ∧ isL a = true := by clear h; revert a; decide
    rcases hy with rfl | rfl | rfl <;> simp [this] at h
    · exact ⟨rfl, h.symm⟩
    · subst h; simp at hle

theorem realSuffix_self {t : CType} {X : List Char} (hx : RealLetters t X) (rest : List Char) :
    ∃ y ∈ realSuffix, y.1 = t ∧ y.2 (X ++ rest) = some rest := by
  cases hx with
  | no => exact ⟨_, List.mem_cons_of_mem _ (List.mem_cons_of_mem _ (List.mem_singleton.2 rfl)), rfl, rfl⟩
  | @f a ha =>
    have : a = 'f' ∨ a = 'F' := by simpa using ha
    exact ⟨_, List.mem_cons_self .., rfl, by simp [this]⟩
  | @l a ha =>
    exact ⟨_, List.mem_cons_of_mem _ (List.mem_cons_self ..), rfl, by simp [(isL_mem ha).1]⟩

theorem real_mem {f : List Char → Option (List Char)} (hf : f ∈ realForms)
    {y : CType × (List Char → Option (List Char))} (hy : y ∈ realSuffix) : realRule f y ∈ rules := by
  rw [rules_eq, late]
  exact List.mem_append_right _ (List.mem_append_right _
    (List.mem_flatMap.2 ⟨f, hf, List.mem_map.2 ⟨y, hy, rfl⟩⟩))

/-- A floating constant is scanned as one. -/
theorem scan_real {t : CType} {R X rest : List Char} (hR : Real R) (hx : RealLetters t X)
    (he : Ends rest) :
    scan (R ++ (X ++ rest)) = some (.real t (R ++ X), rest) := by
  obtain ⟨h1, ⟨f, hf, h2⟩, a, z, v, h3, ha, hz, hlen⟩ :=
    forms_real hR fun c h => realLetters_head hx he (c := c) h
  obtain ⟨y, hy, hyt, hyr⟩ := realSuffix_self hx rest
  have htake : (R ++ (X ++ rest)).take ((R ++ (X ++ rest)).length - rest.length) = R ++ X := by
    have : (R ++ (X ++ rest)).length - rest.length = (R ++ X).length := by simp; omega
    rw [this, ← List.append_assoc, List.take_left']
    rfl
  apply best_only
  · refine List.mem_map.2 ⟨_, real_mem hf hy, ?_⟩
    simp only [realRule, h2, hyr, hyt, htake]
  · intro q hq hle
    obtain ⟨g, hg, hq⟩ := List.mem_map.1 hq
    have hrest : rest.length ≤ v.length := by
      have := List.length_append (as := X) (bs := rest)
      omega
    have hint : ∀ b x, intRule b x (R ++ (X ++ rest)) = some q → False := by
      intro b x h
      rw [h3] at h
      have := intRule_real ha hz h
      simp only at hle
      omega
    rw [rules_eq, List.mem_append] at hg
    rcases hg with hg | hg
    · obtain ⟨b, x, -, rfl⟩ := early_mem.1 hg
      exact (hint b x hq).elim
    · rcases late_cases hg with ⟨y, rfl⟩ | ⟨w, rfl⟩ | ⟨f', hf', y', hy', rfl⟩
      · exact (hint _ _ hq).elim
      · rw [h3] at hq
        cases a with
        | nil =>
          obtain ⟨-, -, -, -, h4, h5⟩ := digits_not (.inr hz)
          rw [List.nil_append, charRule_none h4 h5] at hq
          cases hq
        | cons d a =>
          obtain ⟨-, -, -, -, h4, h5⟩ := digits_not (.inl (ha d (by simp)))
          rw [List.cons_append, charRule_none h4 h5] at hq
          cases hq
      · rcases h1 f' hf' with h | h
        · simp only [realRule, h] at hq
          cases hq
        · simp only [realRule, h] at hq
          split at hq
          · cases hq
          · next r hr =>
            cases hq
            obtain ⟨h5, rfl⟩ := realSuffix_le hx he hy' hr hle
            rw [h5, htake]

end Splint.Scan
