import Verif.Spec.Format
/-! Proofs about format strings. -/
namespace Splint.Format
open Spec TypeSpec

/-- With enough fuel the loop gives this. -/
def Runs (args : List Bool) (i : Nat) (s : List Char) (r : List Event) : Prop :=
  ∀ f, s.length < f → printfGo args f i s = some r

theorem runs_nil (args : List Bool) (i : Nat) :
    Runs args i [] (if i < args.length then [.extra i args.length] else []) := by
  intro f hf
  obtain ⟨f, rfl⟩ : ∃ k, f = k + 1 := ⟨f - 1, by simp at hf; omega⟩
  rfl

theorem runs_char {args : List Bool} {i : Nat} {c : Char} {s : List Char} {r : List Event} (hc : c ≠ '%')
    (h : Runs args i s r) : Runs args i (c :: s) r := by
  intro f hf
  have := h f (by simp at hf; omega)
  obtain ⟨f, rfl⟩ : ∃ k, f = k + 1 := ⟨f - 1, by omega⟩
  rw [← this, printfGo, printfGo, List.dropWhile_cons_of_pos (by simpa using hc)]

theorem runs_chars {args : List Bool} {i : Nat} {cs s : List Char} {r : List Event} (hc : '%' ∉ cs)
    (h : Runs args i s r) : Runs args i (cs ++ s) r := by
  induction cs with
  | nil => exact h
  | cons c cs ih =>
    simp only [List.mem_cons, not_or] at hc
    exact runs_char (fun e => hc.1 e.symm) (ih hc.2)

/-- One turn of the loop. -/
theorem runs_conv {args : List Bool} {i : Nat} {s s5 : List Char} {key : Char} {m : Ty} {l : Option Char}
    {r : List Event} (hm : (afterFlags s).head? ≠ some 'm')
    (hmod : modifier (afterPrecision (afterFlags s)) = (m, l, key :: s5)) (hlen : s5.length < s.length)
    (h : ∀ f, s.length < f →
      (if key = '%' then printfGo args f i s5
          else if args.length ≤ i then (printfGo args f (i + 1) s5).map (.missing i :: ·)
          else if args.getD i true then printfGo args f (i + 1) s5
          else if key = '*' then (printfGo args f (i + 1) ('%' :: s5)).map (.arg i (.val .int) :: ·)
          else if key = '[' then
            match skipSet s5 with
            | .past => none
            | .bad => some [.badSet]
            | .ok t => (printfGo args f (i + 1) t).map (.arg i .string :: ·)
          else if key = 'm' then none
          else match printfType key m with
            | some (e, ev) => (printfGo args f (i + 1) s5).map (ev ++ .arg i e :: ·)
            | none => (printfGo args f (i + 1) s5).map ([.unrecognised, .arg i .unknown] ++ ·)) = some r) :
    Runs args i ('%' :: s) r := by
  intro f hf
  obtain ⟨f, rfl⟩ : ∃ k, f = k + 1 := ⟨f - 1, by omega⟩
  rw [← h f (by simp at hf; omega)]
  rw [printfGo, List.dropWhile_cons_of_neg (by simp)]
  simp only [if_neg hm, hmod]
  rfl

/-! The text of a conversion -/

theorem dropWhile_all {p : Char → Bool} {l w : List Char} (hl : ∀ c ∈ l, p c = true)
    (hw : ∀ c, w.head? = some c → p c = false) : (l ++ w).dropWhile p = w := by
  induction l with
  | nil =>
    cases w with
    | nil => rfl
    | cons c w => simp [hw c rfl]
  | cons a l ih =>
    have := hl a (by simp)
    simp [this, ih fun c hc => hl c (by simp [hc])]

/-- Flags, zeros and digits of the width, and what follows. -/
theorem after_width {a z ds w : List Char} (ha : ∀ x ∈ a, isFlagKey x = true) (hz : ∀ x ∈ z, x = '0')
    (hds : ∀ x ∈ ds, x ∈ digits)
    (hw : ∃ c w', w = c :: w' ∧ isFlagKey c = false ∧ isDigit c = false ∧ c ≠ 'm') :
    (afterFlags (a ++ z ++ ds ++ w)).head? ≠ some 'm'
    ∧ (afterFlags (a ++ z ++ ds ++ w)).dropWhile isDigit = w := by
  obtain ⟨c, w', rfl, hc1, hc2, hc3⟩ := hw
  have hd : ∀ x ∈ z ++ ds, x ∈ digits := by
    intro x hx
    rcases List.mem_append.1 hx with h | h
    · rw [hz x h]; decide
    · exact hds x h
  have key : ∀ x ∈ digits, isFlagKey x = false ∧ isDigit x = true ∧ x ≠ 'm' := by decide
  have head : ∀ x, ((z ++ ds) ++ c :: w').head? = some x → isFlagKey x = false ∧ x ≠ 'm' := by
    intro x hx
    cases hl : z ++ ds with
    | nil => rw [hl] at hx; cases hx; exact ⟨hc1, hc3⟩
    | cons b l =>
      rw [hl] at hx; cases hx
      have := key x (hd x (by rw [hl]; simp))
      exact ⟨this.1, this.2.2⟩
  have e : afterFlags (a ++ z ++ ds ++ c :: w') = (z ++ ds) ++ c :: w' := by
    rw [afterFlags, List.append_assoc a, List.append_assoc a]
    exact dropWhile_all ha fun x hx => (head x hx).1
  rw [e]
  refine ⟨fun h => (head _ h).2 rfl, ?_⟩
  exact dropWhile_all (fun x hx => (key x (hd x hx)).2.1) (by intro x hx; cases hx; exact hc2)

/-- the type of a length -/
def lenTy : Len → Ty
  | .hh => .char | .h => .sint | .l => .lint | .ll => .llint | .L => .lint | _ => .int

def lenLetter : Len → Option Char
  | .l => some 'l' | .ll => some 'l' | .L => some 'L' | _ => none

/-- the lengths that the code reads -/
def lenRead (n : Len) : Prop := n ∉ [Len.j, .z, .t]

theorem modifier_len {n : Len} {c : Char} {s : List Char} (hn : lenRead n) (hh : c ≠ 'h') (hl : c ≠ 'l')
    (hL : c ≠ 'L') : modifier (n.text ++ c :: s) = (lenTy n, lenLetter n, c :: s) := by
  cases n <;> simp [lenRead] at hn <;> simp [Len.text, modifier, lenTy, lenLetter, hh, hl, hL]
  all_goals (first | rfl | skip)
  all_goals (split <;> simp_all)

theorem len_head {n : Len} {c : Char} (hn : lenRead n) {s : List Char}
    (hc : isFlagKey c = false ∧ isDigit c = false ∧ c ≠ 'm' ∧ c ≠ '.') :
    ∃ d w, n.text ++ c :: s = d :: w ∧ isFlagKey d = false ∧ isDigit d = false ∧ d ≠ 'm' ∧ d ≠ '.' := by
  cases n <;> simp [lenRead] at hn
  · exact ⟨c, s, rfl, hc⟩
  all_goals exact ⟨_, _, rfl, by decide, by decide, by decide, by decide⟩

/-- A letter of a conversion. -/
def Plain (c : Char) : Prop :=
  isFlagKey c = false ∧ isDigit c = false ∧ c ≠ 'm' ∧ c ≠ '.' ∧ c ≠ 'h' ∧ c ≠ 'l' ∧ c ≠ 'L' ∧ c ≠ '*'

/-- The text up to the length. -/
theorem after_precision {a z ds pr rest : List Char} (ha : ∀ x ∈ a, isFlagKey x = true)
    (hz : ∀ x ∈ z, x = '0') (hds : ∀ x ∈ ds, x ∈ digits)
    (hp : pr = [] ∨ ∃ ps, pr = '.' :: ps ∧ ∀ x ∈ ps, x ∈ digits)
    (hr : ∃ d w, rest = d :: w ∧ isFlagKey d = false ∧ isDigit d = false ∧ d ≠ 'm' ∧ d ≠ '.' ∧ d ≠ '*') :
    (afterFlags (a ++ z ++ ds ++ (pr ++ rest))).head? ≠ some 'm'
    ∧ afterPrecision (afterFlags (a ++ z ++ ds ++ (pr ++ rest))) = rest := by
  obtain ⟨d, w, rfl, h1, h2, h3, h4, h5⟩ := hr
  have key : ∀ x ∈ digits, isDigit x = true ∧ x ≠ '*' := by decide
  rcases hp with rfl | ⟨ps, rfl, hps⟩
  · obtain ⟨g1, g2⟩ := after_width (w := d :: w) ha hz hds ⟨d, w, rfl, h1, h2, h3⟩
    refine ⟨g1, ?_⟩
    rw [List.nil_append, afterPrecision, g2]
    split
    · next h => cases h; exact absurd rfl h4
    · rfl
  · obtain ⟨g1, g2⟩ := after_width (w := '.' :: (ps ++ d :: w)) ha hz hds
      ⟨'.', _, rfl, by decide, by decide, by decide⟩
    refine ⟨g1, ?_⟩
    rw [List.cons_append, afterPrecision, g2]
    have hs : (ps ++ d :: w).head? ≠ some '*' := by
      cases ps with
      | nil => simpa using h5
      | cons b ps => simpa using (key b (hps b (by simp))).2
    simp only [if_neg hs]
    exact dropWhile_all (fun x hx => (key x (hps x hx)).1) (by intro x hx; cases hx; exact h2)

end Splint.Format

namespace Splint.Format
open Spec TypeSpec

theorem plain_of_wants {n : Len} {c : Char} (h : printfKnown n c) : Plain c ∧ lenRead n ∧ c ≠ '%' ∧ c ≠ '[' := by
  have hc : ∀ c ∈ ['d', 'i', 'o', 'u', 'x', 'X', 'f', 'e', 'E', 'g', 'G', 'n', 'c', 's', 'p'],
      isFlagKey c = false ∧ isDigit c = false ∧ c ≠ 'm' ∧ c ≠ '.' ∧ c ≠ 'h' ∧ c ≠ 'l' ∧ c ≠ 'L' ∧ c ≠ '*'
        ∧ c ≠ '%' ∧ c ≠ '[' := by decide
  have hm : c ∈ ['d', 'i', 'o', 'u', 'x', 'X', 'f', 'e', 'E', 'g', 'G', 'n', 'c', 's', 'p'] ∧ lenRead n := by
    rcases h with ⟨h, hn⟩ | ⟨h, hn⟩ | ⟨h, hn⟩
    · constructor
      · simp only [signedConv, unsignedConv, List.cons_append, List.nil_append, List.mem_cons, List.not_mem_nil,
          or_false] at h
        rcases h with rfl | rfl | rfl | rfl | rfl | rfl <;> decide
      · simp only [List.mem_cons, List.not_mem_nil, or_false] at hn
        rcases hn with rfl | rfl | rfl | rfl <;> simp [lenRead]
    · constructor
      · simp only [List.mem_cons, List.not_mem_nil, or_false] at h
        rcases h with rfl | rfl | rfl | rfl | rfl <;> decide
      · simp only [List.mem_cons, List.not_mem_nil, or_false] at hn
        rcases hn with rfl | rfl <;> simp [lenRead]
    · constructor
      · simp only [List.mem_cons, List.not_mem_nil, or_false] at h
        rcases h with rfl | rfl | rfl | rfl <;> decide
      · subst hn; simp [lenRead]
  have := hc c hm.1
  exact ⟨⟨this.1, this.2.1, this.2.2.1, this.2.2.2.1, this.2.2.2.2.1, this.2.2.2.2.2.1, this.2.2.2.2.2.2.1,
    this.2.2.2.2.2.2.2.1⟩, hm.2, this.2.2.2.2.2.2.2.2⟩

/-- all letters of conversions -/
def letters : List Char :=
  ['d', 'i', 'o', 'u', 'x', 'X', 'f', 'F', 'e', 'E', 'g', 'G', 'a', 'A', 'n', 'c', 's', 'p']

def lens : List Len := [.no, .hh, .h, .l, .ll, .L, .j, .z, .t]

theorem mem_lens (n : Len) : n ∈ lens := by cases n <;> decide

theorem mem_letters {n : Len} {c : Char} (h : (printfWants n c).isSome ∨ (scanfWants n c).isSome) :
    c ∈ letters := by
  by_contra hc
  simp only [letters, List.mem_cons, List.not_mem_nil, or_false, not_or] at hc
  obtain ⟨_, _, _, _, _, _, _, _, _, _, _, _, _, _, _, _, _, _⟩ := hc
  simp_all [printfWants, scanfWants, signedConv, unsignedConv, floatConv]

theorem known_type {n : Len} {c : Char} (h : printfKnown n c) :
    ∃ e, printfWants n c = some e ∧ printfType c (lenTy n) = some (e, []) := by
  have key : ∀ c ∈ letters, ∀ n ∈ lens, printfKnown n c →
      (printfWants n c).isSome = true ∧ printfType c (lenTy n) = (printfWants n c).map (·, []) := by
    decide +kernel
  have hc : c ∈ letters := by
    rcases h with ⟨h, -⟩ | ⟨h, -⟩ | ⟨h, -⟩
    · simp only [signedConv, unsignedConv, List.cons_append, List.nil_append] at h
      exact (by decide : ∀ c ∈ ['d', 'i', 'o', 'u', 'x', 'X'], c ∈ letters) c h
    · exact (by decide : ∀ c ∈ ['f', 'e', 'E', 'g', 'G'], c ∈ letters) c h
    · exact (by decide : ∀ c ∈ ['n', 'c', 's', 'p'], c ∈ letters) c h
  obtain ⟨h1, h2⟩ := key c hc n (mem_lens n) h
  obtain ⟨e, he⟩ := Option.isSome_iff_exists.1 h1
  exact ⟨e, he, by rw [h2, he]; rfl⟩

/-- the event of one argument -/
def ev (n i : Nat) (e : Exp) : Event := if i < n then .arg i e else .missing i

def evs (n : Nat) : Nat → List Exp → List Event
  | _, [] => []
  | i, e :: es => ev n i e :: evs n (i + 1) es

theorem evs_append (n : Nat) (xs ys : List Exp) : ∀ i, evs n i (xs ++ ys) = evs n i xs ++ evs n (i + xs.length) ys := by
  induction xs with
  | nil => intro i; simp [evs]
  | cons x xs ih => intro i; simp [evs, ih, show i + 1 + xs.length = i + (xs.length + 1) by omega]

@[simp] theorem good_length (n : Nat) : (good n).length = n := by simp [good]

theorem good_get {n i : Nat} (h : i < n) : (good n).getD i true = false := by
  simp [good, List.getD, h]

/-- the middle of a conversion: flags and zeros -/
structure Flags (fl : List Char) where
  a : List Char
  z : List Char
  eq : fl = a ++ z
  ha : ∀ x ∈ a, isFlagKey x = true
  hz : ∀ x ∈ z, x = '0'

theorem flags_of {fl : List Char} (h1 : ∀ x ∈ fl, x ∈ ['-', '+', ' ', '#', '0'])
    (h2 : ∃ a z, fl = a ++ z ∧ (∀ x ∈ a, x ≠ '0') ∧ ∀ x ∈ z, x = '0') : Nonempty (Flags fl) := by
  obtain ⟨a, z, rfl, ha, hz⟩ := h2
  refine ⟨⟨a, z, rfl, fun x hx => ?_, hz⟩⟩
  have := h1 x (by simp [hx])
  have h0 := ha x hx
  revert h0
  exact (by decide : ∀ x ∈ ['-', '+', ' ', '#', '0'], x ≠ '0' → isFlagKey x = true) x this

def precText : Option Num → List Char
  | some p => '.' :: p.text
  | none => []

def precArgs : Option Num → List Exp
  | some p => p.args
  | none => []

/-- A conversion without asterisks. -/
theorem runs_direct {n i : Nat} {fl ds s : List Char} {p : Option Num} {len : Len} {c : Char} {r : List Event}
    {e : Exp} (F : Flags fl) (hds : ∀ x ∈ ds, x ∈ digits) (hp : ∀ p', p = some p' → p'.ok ∧ p' ≠ .star)
    (hk : printfKnown len c) (he : printfWants len c = some e) (h : Runs (good n) (i + 1) s r) :
    Runs (good n) i ('%' :: (fl ++ ds ++ (precText p ++ (len.text ++ c :: s)))) (ev n i e :: r) := by
  obtain ⟨hc, hn, hpc, hbr⟩ := plain_of_wants hk
  obtain ⟨c1, c2, c3, c4, c5, c6, c7, c8⟩ := hc
  obtain ⟨e', he', ht⟩ := known_type hk
  rw [he] at he'; cases he'
  have hp' : precText p = [] ∨ ∃ ps, precText p = '.' :: ps ∧ ∀ x ∈ ps, x ∈ digits := by
    cases p with
    | none => exact .inl rfl
    | some q =>
      obtain ⟨q1, q2⟩ := hp q rfl
      cases q with
      | star => exact absurd rfl q2
      | digits ps => exact .inr ⟨ps, rfl, q1⟩
  obtain ⟨d, w, hd, d1, d2, d3, d4⟩ := len_head (s := s) hn ⟨c1, c2, c3, c4⟩
  have d5 : d ≠ '*' := by
    rintro rfl
    cases len <;> simp [Len.text] at hd
    exact c8 hd.1
  obtain ⟨g1, g2⟩ := after_precision F.ha F.hz hds hp' ⟨d, w, rfl, d1, d2, d3, d4, d5⟩
  rw [← hd, ← F.eq] at g1 g2
  refine runs_conv (s5 := s) (key := c) (m := lenTy len) (l := lenLetter len) g1
    (by rw [g2]; exact modifier_len hn c5 c6 c7) (by simp; omega) ?_
  intro f hf
  rw [if_neg hpc]
  have hr := h f (by simp at hf; omega)
  by_cases hi : i < n
  · rw [if_neg (by simpa using hi), good_get hi]
    simp [c8, hbr, c3, ht, hr, ev, hi]
  · rw [if_pos (by simpa using hi)]
    simp [hr, ev, hi]

/-- An asterisk, as the width or as the precision: the rest is read as a new conversion if there is an
argument for it. -/
theorem runs_star {n i : Nat} {fl ds s : List Char} {b : Bool} {r : List Event}
    (F : Flags fl) (hds : ∀ x ∈ ds, x ∈ digits)
    (h : if i < n then Runs (good n) (i + 1) ('%' :: s) r else Runs (good n) (i + 1) s r) :
    Runs (good n) i ('%' :: (fl ++ ds ++ ((if b then ['.'] else []) ++ '*' :: s))) (ev n i (.val .int) :: r) := by
  have hmod : modifier ('*' :: s) = (.int, none, '*' :: s) := by simp [modifier]
  have g : (afterFlags (fl ++ ds ++ ((if b then ['.'] else []) ++ '*' :: s))).head? ≠ some 'm'
      ∧ afterPrecision (afterFlags (fl ++ ds ++ ((if b then ['.'] else []) ++ '*' :: s))) = '*' :: s := by
    cases b with
    | false =>
      obtain ⟨g1, g2⟩ := after_width (w := '*' :: s) F.ha F.hz hds ⟨'*', s, rfl, by decide, by decide, by decide⟩
      rw [← F.eq] at g1 g2
      refine ⟨g1, ?_⟩
      simp only [Bool.false_eq_true, if_false, List.nil_append]
      rw [afterPrecision, g2]
      rfl
    | true =>
      obtain ⟨g1, g2⟩ := after_width (w := '.' :: '*' :: s) F.ha F.hz hds
        ⟨'.', _, rfl, by decide, by decide, by decide⟩
      rw [← F.eq] at g1 g2
      refine ⟨g1, ?_⟩
      simp only [if_true, List.cons_append, List.nil_append]
      rw [afterPrecision, g2]
      rfl
  have hl : s.length + 1 ≤ (fl ++ ds ++ ((if b then ['.'] else []) ++ '*' :: s)).length := by
    simp only [List.length_append, List.length_cons]; omega
  refine runs_conv (s5 := s) (key := '*') (m := .int) (l := none) g.1 (by rw [g.2]; exact hmod) (by omega) ?_
  intro f hf
  rw [if_neg (by decide)]
  by_cases hi : i < n
  · rw [if_pos hi] at h
    have hr := h f (by simp only [List.length_cons]; omega)
    rw [if_neg (by simpa using hi), good_get hi]
    simp [hr, ev, hi]
  · rw [if_neg hi] at h
    have hr := h f (by omega)
    rw [if_pos (by simpa using hi)]
    simp [hr, ev, hi]

def flags_nil : Flags [] := ⟨[], [], rfl, by simp, by simp⟩

/-- A part, if there are enough arguments or no asterisks. -/
theorem runs_part {n i : Nat} {s : List Char} {r : List Event} (p : Part) (hok : p.ok) (hk : p.known)
    (hn : i + p.wants.length ≤ n ∨ p.starless) (h : Runs (good n) (i + p.wants.length) s r) :
    Runs (good n) i (p.text ++ s) (evs n i p.wants ++ r) := by
  cases p with
  | char c => exact runs_char hok h
  | percent =>
    refine runs_conv (s5 := s) (key := '%') (m := .int) (l := none) (by simp [afterFlags, isFlagKey])
      (by simp [afterFlags, isFlagKey, afterPrecision, isDigit, modifier]) (by simp) ?_
    intro f hf
    exact h f (by simp at hf; omega)
  | conv fl w p len c =>
    obtain ⟨h1, h2, h3, h4, h5⟩ := hok
    obtain ⟨k1, k2⟩ := hk
    obtain ⟨F⟩ := flags_of h1 k1
    obtain ⟨e, he, -⟩ := known_type k2
    have et : ∀ s, (Part.conv fl w p len c).text ++ s
        = '%' :: (fl ++ w.text ++ (precText p ++ (len.text ++ c :: s))) := by
      intro s
      cases p <;> simp [Part.text, precText]
    rw [et]
    have ew : (Part.conv fl w p len c).wants
        = w.args ++ precArgs p ++ [e] := by
      cases p <;> simp [Part.wants, he, precArgs]
    rw [ew] at hn h ⊢
    -- from the precision on
    have prec : ∀ {fl ds : List Char} {i : Nat}, Nonempty (Flags fl) → (∀ x ∈ ds, x ∈ digits) →
        (i + (precArgs p).length < n ∨ p ≠ some .star) →
        Runs (good n) (i + (precArgs p).length + 1) s r →
        Runs (good n) i ('%' :: (fl ++ ds ++ (precText p ++ (len.text ++ c :: s))))
          (evs n i (precArgs p ++ [e]) ++ r) := by
      intro fl ds i ⟨F⟩ hds hn hr
      by_cases hp : p = some .star
      · subst hp
        have hi : i + 1 < n := by
          rcases hn with h | h
          · simpa [Num.args, precArgs] using h
          · exact absurd rfl h
        refine runs_star (b := true) F hds ?_
        rw [if_pos (by omega)]
        exact runs_direct (fl := []) (ds := []) (p := none) flags_nil (by simp) (by simp) k2 he hr
      · have e0 : precArgs p = [] := by
          cases p with
          | none => rfl
          | some q => cases q with
            | star => exact absurd rfl hp
            | digits => rfl
        rw [e0] at hr ⊢
        exact runs_direct F hds (fun p' hp' => ⟨h4 p' hp', fun hs => hp (hs ▸ hp')⟩) k2 he hr
    cases w with
    | digits ds =>
      refine prec ⟨F⟩ h2 ?_ (by simpa [Num.args, Nat.add_assoc] using h)
      rcases hn with h | h
      · left; simp [Num.args] at h; omega
      · exact .inr h.2
    | star =>
      have hi : i + (precArgs p).length + 2 ≤ n := by
        rcases hn with h | h
        · simp [Num.args] at h; omega
        · exact absurd rfl h.1
      have h1 := prec (fl := []) (ds := []) (i := i + 1) ⟨flags_nil⟩ (by simp) (.inl (by omega)) (by
        have e1 : i + 1 + (precArgs p).length + 1 = i + (Num.star.args ++ precArgs p ++ [e]).length := by
          simp [Num.args]; omega
        rw [e1]; exact h)
      have h0 := runs_star (b := false) (ds := []) (s := precText p ++ (len.text ++ c :: s)) (n := n) (i := i)
        F (by simp) (by rw [if_pos (by omega)]; exact h1)
      simpa [Num.text, Num.args, evs] using h0

/-- All parts. -/
theorem runs_parts {n : Nat} (ps : List Part) (hok : ∀ p ∈ ps, p.ok ∧ p.known) :
    ∀ i, (i + (wants ps).length ≤ n ∨ ∀ p ∈ ps, p.starless) →
      Runs (good n) i (text ps) (evs n i (wants ps)
        ++ if i + (wants ps).length < n then [.extra (i + (wants ps).length) n] else []) := by
  induction ps with
  | nil =>
    intro i _
    have := runs_nil (good n) i
    simpa [text, wants, evs] using this
  | cons p ps ih =>
    intro i hn
    have ew : wants (p :: ps) = p.wants ++ wants ps := by simp [wants]
    have et : text (p :: ps) = p.text ++ text ps := by simp [text]
    have h := ih (fun q hq => hok q (by simp [hq])) (i + p.wants.length) (by
      rcases hn with h | h
      · left; rw [ew, List.length_append] at h; omega
      · exact .inr fun q hq => h q (by simp [hq]))
    rw [ew, et, evs_append, List.append_assoc, List.length_append, ← Nat.add_assoc]
    refine runs_part p (hok p (by simp)).1 (hok p (by simp)).2 ?_ h
    rcases hn with h | h
    · left; rw [ew, List.length_append] at h; omega
    · exact .inr (h p (by simp))

theorem evs_expected (n : Nat) (ws : List Exp) :
    evs n 0 ws ++ (if ws.length < n then [.extra ws.length n] else []) = expected n ws := by
  have key : ∀ ws i, evs n i ws = checks i (ws.take (n - i)) ++ (List.range' (max n i) (i + ws.length - max n i)).map .missing := by
    intro ws
    induction ws with
    | nil => intro i; simp [evs, checks, show i - max n i = 0 by omega]
    | cons w ws ih =>
      intro i
      by_cases hi : i < n
      · obtain ⟨k, hk⟩ : ∃ k, n - i = k + 1 := ⟨n - i - 1, by omega⟩
        rw [evs, ih, ev, if_pos hi, hk, List.take_succ_cons, checks, show n - (i + 1) = k by omega]
        simp only [List.cons_append, List.length_cons, show max n (i + 1) = max n i by omega,
          show i + 1 + ws.length = i + (ws.length + 1) by omega]
      · rw [evs, ih, ev, if_neg hi, show n - i = 0 by omega, show n - (i + 1) = 0 by omega,
          show max n (i + 1) = i + 1 by omega, show max n i = i by omega]
        simp only [List.take_zero, checks, List.nil_append, List.length_cons]
        rw [show i + 1 + ws.length - (i + 1) = ws.length by omega,
          show i + (ws.length + 1) - i = ws.length + 1 by omega, List.range'_succ]
        rfl
  rw [key, expected]
  simp

theorem printf_eq {n : Nat} (ps : List Part) (hok : ∀ p ∈ ps, p.ok ∧ p.known)
    (hn : (wants ps).length ≤ n ∨ ∀ p ∈ ps, p.starless) :
    printf (good n) (text ps) = some (expected n (wants ps)) := by
  have := runs_parts (n := n) ps hok 0 (by simpa using hn) ((text ps).length + 1) (by omega)
  rw [printf, this, ← evs_expected]
  simp

/-! Too few arguments, with asterisks -/

theorem text_plain {p : Option Num} {len : Len} {c : Char} (h : ∀ p', p = some p' → p'.ok) (hc : c ≠ '%') :
    '%' ∉ precText p ++ (len.text ++ [c]) := by
  have hd : '%' ∉ digits := by decide
  have h1 : '%' ∉ len.text := by cases len <;> decide
  have h2 : '%' ∉ precText p := by
    cases p with
    | none => simp [precText]
    | some q => cases q with
      | star => simp [precText, Num.text]
      | digits ds =>
        simp only [precText, Num.text, List.mem_cons, not_or]
        exact ⟨by decide, fun hm => hd (h _ rfl _ hm)⟩
  simp only [List.mem_append, List.mem_singleton, not_or]
  exact ⟨h2, h1, fun e => hc e.symm⟩

/-- A part for which there are not enough arguments: those that there are are checked, and the first
that is missing is reported. -/
theorem runs_missing {n i : Nat} {s : List Char} (p : Part) (hok : p.ok) (hk : p.known) (hi : i ≤ n)
    (hn : n < i + p.wants.length) (h : ∃ r, Runs (good n) (n + 1) s r) :
    ∃ r, Runs (good n) i (p.text ++ s) (checks i (p.wants.take (n - i)) ++ .missing n :: r) := by
  obtain ⟨r, h⟩ := h
  cases p with
  | char c => simp [Part.wants] at hn; omega
  | percent => simp [Part.wants] at hn; omega
  | conv fl w p len c =>
    obtain ⟨h1, h2, h3, h4, h5⟩ := hok
    obtain ⟨k1, k2⟩ := hk
    obtain ⟨F⟩ := flags_of h1 k1
    obtain ⟨e, he, -⟩ := known_type k2
    have hpc := (plain_of_wants k2).2.2.1
    have et : ∀ s, (Part.conv fl w p len c).text ++ s
        = '%' :: (fl ++ w.text ++ (precText p ++ (len.text ++ c :: s))) := by
      intro s
      cases p <;> simp [Part.text, precText]
    rw [et]
    have ew : (Part.conv fl w p len c).wants = w.args ++ precArgs p ++ [e] := by
      cases p <;> simp [Part.wants, he, precArgs]
    rw [ew] at hn ⊢
    have prec : ∀ {fl ds : List Char} {i : Nat}, Nonempty (Flags fl) → (∀ x ∈ ds, x ∈ digits) → i ≤ n →
        n < i + (precArgs p ++ [e]).length →
        Runs (good n) i ('%' :: (fl ++ ds ++ (precText p ++ (len.text ++ c :: s))))
          (checks i ((precArgs p ++ [e]).take (n - i)) ++ .missing n :: r) := by
      intro fl ds i ⟨F⟩ hds hi hn
      by_cases hp : p = some .star
      · subst hp
        have hl : n < i + 2 := by simpa [precArgs, Num.args] using hn
        by_cases e0 : i = n
        · subst e0
          have h0 := runs_star (b := true) (s := len.text ++ c :: s) (r := r) (n := i) (i := i) F hds (by
            rw [if_neg (by omega), show len.text ++ c :: s = (len.text ++ [c]) ++ s by simp]
            exact runs_chars (text_plain (p := none) (by simp) hpc) h)
          simpa [ev, checks, precText, Num.text] using h0
        · have e1 : n = i + 1 := by omega
          subst e1
          have h1 := runs_direct (n := i + 1) (i := i + 1) (fl := []) (ds := []) (p := none) flags_nil (by simp) (by simp) k2 he h
          have h0 := runs_star (b := true) (s := len.text ++ c :: s) (n := i + 1) (i := i) F hds (by
            rw [if_pos (by omega)]; exact h1)
          simpa [ev, checks, precText, Num.text, precArgs, Num.args] using h0
      · have e0 : precArgs p = [] := by
          cases p with
          | none => rfl
          | some q => cases q with
            | star => exact absurd rfl hp
            | digits => rfl
        rw [e0] at hn ⊢
        have e1 : i = n := by simp at hn; omega
        subst e1
        have h1 := runs_direct (n := i) (i := i) (p := p) F hds (fun p' hp' => ⟨h4 p' hp', fun hs => hp (hs ▸ hp')⟩) k2 he h
        simpa [ev, checks] using h1
    cases w with
    | digits ds => exact ⟨r, prec ⟨F⟩ h2 hi (by simpa [Num.args] using hn)⟩
    | star =>
      refine ⟨r, ?_⟩
      by_cases e0 : i = n
      · subst e0
        have h0 := runs_star (b := false) (ds := []) (s := precText p ++ (len.text ++ c :: s)) (r := r) (n := i) (i := i) F (by simp) (by
            rw [if_neg (by omega), show precText p ++ (len.text ++ c :: s) = (precText p ++ (len.text ++ [c])) ++ s by simp]
            exact runs_chars (text_plain h4 hpc) h)
        simpa [ev, checks, Num.text] using h0
      · obtain ⟨k, hk⟩ : ∃ k, n - i = k + 1 := ⟨n - i - 1, by omega⟩
        have h1 := prec (fl := []) (ds := []) (i := i + 1) ⟨flags_nil⟩ (by simp) (by omega)
          (by simp [Num.args] at hn ⊢; omega)
        have h0 := runs_star (b := false) (ds := []) (s := precText p ++ (len.text ++ c :: s)) (n := n) (i := i) F (by simp) (by
          rw [if_pos (by omega)]; exact h1)
        have e2 : checks i ((Num.star.args ++ precArgs p ++ [e]).take (n - i))
            = .arg i (.val .int) :: checks (i + 1) ((precArgs p ++ [e]).take (n - (i + 1))) := by
          rw [hk, show n - (i + 1) = k by omega]; rfl
        rw [e2]
        simpa [ev, Num.text, show i < n by omega] using h0

/-- The loop always comes to an end on such formats. -/
theorem runs_some {n : Nat} (ps : List Part) (hok : ∀ p ∈ ps, p.ok ∧ p.known) :
    ∀ i, ∃ r, Runs (good n) i (text ps) r := by
  induction ps with
  | nil => exact fun i => ⟨_, runs_nil _ i⟩
  | cons p ps ih =>
    intro i
    have et : text (p :: ps) = p.text ++ text ps := by simp [text]
    obtain ⟨ho, hk⟩ := hok p (by simp)
    have ih := ih fun q hq => hok q (by simp [hq])
    rw [et]
    by_cases h1 : i + p.wants.length ≤ n
    · obtain ⟨r, h⟩ := ih (i + p.wants.length)
      exact ⟨_, runs_part p ho hk (.inl h1) h⟩
    · by_cases h2 : i ≤ n
      · obtain ⟨r, h⟩ := runs_missing (i := i) (n := n) p ho hk h2 (by omega) (ih (n + 1))
        exact ⟨_, h⟩
      · -- all arguments have been used
        cases p with
        | char c =>
          obtain ⟨r, h⟩ := ih i
          exact ⟨_, runs_part (.char c) ho hk (.inr trivial) h⟩
        | percent =>
          obtain ⟨r, h⟩ := ih i
          exact ⟨_, runs_part .percent ho hk (.inr trivial) h⟩
        | conv fl w p len c =>
          obtain ⟨r, h⟩ := ih (i + 1)
          obtain ⟨g1, g2, g3, g4, g5⟩ := ho
          obtain ⟨k1, k2⟩ := hk
          obtain ⟨F⟩ := flags_of g1 k1
          obtain ⟨e, he, -⟩ := known_type k2
          have hpc := (plain_of_wants k2).2.2.1
          have et : ∀ s, (Part.conv fl w p len c).text ++ s
              = '%' :: (fl ++ w.text ++ (precText p ++ (len.text ++ c :: s))) := by
            intro s
            cases p <;> simp [Part.text, precText]
          rw [et]
          cases w with
          | star =>
            have h0 := runs_star (b := false) (ds := []) (s := precText p ++ (len.text ++ c :: text ps)) (r := r) (n := n) (i := i) F (by simp) (by
              rw [if_neg (by omega), show precText p ++ (len.text ++ c :: text ps) = (precText p ++ (len.text ++ [c])) ++ text ps by simp]
              exact runs_chars (text_plain g4 hpc) h)
            exact ⟨_, by simpa [Num.text] using h0⟩
          | digits ds =>
            by_cases hp : p = some .star
            · subst hp
              have h0 := runs_star (b := true) (s := len.text ++ c :: text ps) (r := r) (n := n) (i := i) F g2 (by
                rw [if_neg (by omega), show len.text ++ c :: text ps = (len.text ++ [c]) ++ text ps by simp]
                exact runs_chars (text_plain (p := none) (by simp) hpc) h)
              exact ⟨_, by simpa [precText, Num.text] using h0⟩
            · exact ⟨_, runs_direct F g2 (fun p' hp' => ⟨g4 p' hp', fun hs => hp (hs ▸ hp')⟩) k2 he h⟩

theorem checks_append (xs ys : List Exp) : ∀ i, checks i (xs ++ ys) = checks i xs ++ checks (i + xs.length) ys := by
  induction xs with
  | nil => intro i; simp [checks]
  | cons x xs ih => intro i; simp [checks, ih, show i + 1 + xs.length = i + (xs.length + 1) by omega]

theorem evs_checks {n : Nat} (ws : List Exp) : ∀ {i}, i + ws.length ≤ n → evs n i ws = checks i ws := by
  induction ws with
  | nil => intro i _; rfl
  | cons w ws ih =>
    intro i h
    rw [List.length_cons] at h
    rw [evs, checks, ih (by omega), ev, if_pos (by omega)]

theorem runs_too_few {n : Nat} (ps : List Part) (hok : ∀ p ∈ ps, p.ok ∧ p.known) :
    ∀ i, i ≤ n → n < i + (wants ps).length →
      ∃ r, Runs (good n) i (text ps) (checks i ((wants ps).take (n - i)) ++ .missing n :: r) := by
  induction ps with
  | nil => intro i h1 h2; simp [wants] at h2; omega
  | cons p ps ih =>
    intro i h1 h2
    have ew : wants (p :: ps) = p.wants ++ wants ps := by simp [wants]
    have et : text (p :: ps) = p.text ++ text ps := by simp [text]
    obtain ⟨ho, hk⟩ := hok p (by simp)
    have hok' := fun q (hq : q ∈ ps) => hok q (by simp [hq])
    rw [ew, List.length_append] at h2
    rw [et, ew]
    by_cases h3 : i + p.wants.length ≤ n
    · obtain ⟨r, h⟩ := ih hok' (i + p.wants.length) h3 (by omega)
      refine ⟨r, ?_⟩
      have := runs_part p ho hk (.inl h3) h
      rw [evs_checks _ h3, ← List.append_assoc, ← checks_append] at this
      rw [List.take_append, List.take_of_length_le (by omega)]
      rw [show n - i - p.wants.length = n - (i + p.wants.length) by omega]
      exact this
    · obtain ⟨r, h⟩ := runs_missing (i := i) (n := n) p ho hk h1 (by omega) (runs_some ps hok' (n + 1))
      refine ⟨r, ?_⟩
      rw [List.take_append, show n - i - p.wants.length = 0 by omega]
      simpa using h

theorem printf_too_few {n : Nat} (ps : List Part) (hok : ∀ p ∈ ps, p.ok ∧ p.known)
    (hn : n < (wants ps).length) :
    ∃ r, printf (good n) (text ps) = some (checks 0 ((wants ps).take n) ++ .missing n :: r) := by
  obtain ⟨r, h⟩ := runs_too_few (n := n) ps hok 0 (by omega) (by omega)
  exact ⟨r, h _ (by omega)⟩

/-! ## scanf -/

def SRuns (args : List Bool) (i : Nat) (s : List Char) (r : List Event) : Prop :=
  ∀ f, s.length < f → scanfGo args f i s = some r

theorem sruns_nil (args : List Bool) (i : Nat) :
    SRuns args i [] (if i < args.length then [.extra i args.length] else []) := by
  intro f hf
  obtain ⟨f, rfl⟩ : ∃ k, f = k + 1 := ⟨f - 1, by simp at hf; omega⟩
  rfl

theorem sruns_char {args : List Bool} {i : Nat} {c : Char} {s : List Char} {r : List Event} (hc : c ≠ '%')
    (h : SRuns args i s r) : SRuns args i (c :: s) r := by
  intro f hf
  have := h f (by simp at hf; omega)
  obtain ⟨f, rfl⟩ : ∃ k, f = k + 1 := ⟨f - 1, by omega⟩
  rw [← this, scanfGo, scanfGo, List.dropWhile_cons_of_pos (by simpa using hc)]

theorem sruns_chars {args : List Bool} {i : Nat} {cs s : List Char} {r : List Event} (hc : '%' ∉ cs)
    (h : SRuns args i s r) : SRuns args i (cs ++ s) r := by
  induction cs with
  | nil => exact h
  | cons c cs ih =>
    simp only [List.mem_cons, not_or] at hc
    exact sruns_char (fun e => hc.1 e.symm) (ih hc.2)

/-- One turn of the loop. -/
theorem sruns_conv {args : List Bool} {i : Nat} {s w s5 : List Char} {star : Bool} {key : Char} {m : Ty}
    {l : Option Char} {r : List Event} (hw : ∀ x ∈ w, x ∈ digits)
    (hs : ∃ d t, s = d :: t ∧ isDigit d = false ∧ d ≠ '*')
    (hmod : modifier s = (m, l, key :: s5)) (hlen : s5.length < s.length)
    (h : ∀ f, s.length < f →
      (if key = '%' then scanfGo args f i s5
        else if star then scanfGo args f i s5
        else if args.length ≤ i then (scanfGo args f (i + 1) s5).map (.missing i :: ·)
        else if args.getD i true then scanfGo args f (i + 1) s5
        else if key = '*' then (scanfGo args f (i + 1) ('%' :: s5)).map (.arg i (.ptr .int) :: ·)
        else if key = '[' then
          match skipSet s5 with
          | .past => none
          | .bad => some [.badSet]
          | .ok t => (scanfGo args f (i + 1) t).map (.arg i .string :: ·)
        else match scanfType key m l with
          | some (e, ev) => (scanfGo args f (i + 1) s5).map (ev ++ .arg i e :: ·)
          | none => (scanfGo args f (i + 1) s5).map ([.unrecognised, .arg i .unknown] ++ ·)) = some r) :
    SRuns args i ('%' :: ((if star then ['*'] else []) ++ (w ++ s))) r := by
  intro f hf
  obtain ⟨f, rfl⟩ : ∃ k, f = k + 1 := ⟨f - 1, by omega⟩
  rw [← h f (by simp at hf; omega)]
  obtain ⟨d, t, rfl, d1, d2⟩ := hs
  have key : ∀ x ∈ digits, isDigit x = true ∧ x ≠ '*' := by decide
  have e1 : (w ++ d :: t).dropWhile isDigit = d :: t :=
    dropWhile_all (fun x hx => (key x (hw x hx)).1) (by intro x hx; cases hx; exact d1)
  have e2 : (w ++ d :: t).head? ≠ some '*' := by
    cases w with
    | nil => simpa using d2
    | cons b w => simpa using (key b (hw b (by simp))).2
  rw [scanfGo, List.dropWhile_cons_of_neg (by simp)]
  cases star with
  | true =>
    simp only [if_true, List.cons_append, List.nil_append, List.head?_cons, List.tail_cons, e1, hmod]
  | false =>
    simp only [Bool.false_eq_true, if_false, List.nil_append, if_neg e2, e1, hmod]
    rfl

theorem sknown_plain {n : Len} {c : Char} (h : scanfKnown n c) :
    ∃ e, scanfWants n c = some e ∧ scanfType c (lenTy n) (lenLetter n) = some (e, []) ∧ lenRead n := by
  have key : ∀ c ∈ letters, ∀ n ∈ lens, scanfKnown n c →
      (scanfWants n c).isSome = true
      ∧ scanfType c (lenTy n) (lenLetter n) = (scanfWants n c).map (·, []) ∧ n ∉ [Len.j, .z, .t] := by
    decide +kernel
  have hc : c ∈ letters := by
    rcases h with ⟨h, -⟩ | ⟨h, -⟩ | ⟨h, -⟩
    · simp only [signedConv, unsignedConv, List.cons_append, List.nil_append] at h
      exact (by decide : ∀ c ∈ ['d', 'i', 'o', 'u', 'x', 'X'], c ∈ letters) c h
    · exact (by decide : ∀ c ∈ ['f', 'e', 'E', 'g', 'G'], c ∈ letters) c h
    · exact (by decide : ∀ c ∈ ['n', 'c', 's'], c ∈ letters) c h
  obtain ⟨h1, h2, h3⟩ := key c hc n (mem_lens n) h
  obtain ⟨e, he⟩ := Option.isSome_iff_exists.1 h1
  exact ⟨e, he, by rw [h2, he]; rfl, h3⟩

theorem letters_plain {c : Char} (h : c ∈ letters) : isDigit c = false ∧ c ≠ '*' ∧ c ≠ 'h' ∧ c ≠ 'l' ∧ c ≠ 'L'
    ∧ c ≠ '%' ∧ c ≠ '[' :=
  (by decide : ∀ c ∈ letters, isDigit c = false ∧ c ≠ '*' ∧ c ≠ 'h' ∧ c ≠ 'l' ∧ c ≠ 'L' ∧ c ≠ '%' ∧ c ≠ '[') c h

theorem slen_head {n : Len} {c : Char} {s : List Char} (hc : isDigit c = false ∧ c ≠ '*') :
    ∃ d w, n.text ++ c :: s = d :: w ∧ isDigit d = false ∧ d ≠ '*' := by
  cases n
  · exact ⟨c, s, rfl, hc⟩
  all_goals exact ⟨_, _, rfl, by decide, by decide⟩

/-- A set of characters that the code skips as it should. -/
theorem skip_ok {neg close : Bool} {cs s : List Char} (h1 : ']' ∉ cs) (h2 : close = true ∨ cs ≠ [])
    (h3 : '%' ∉ cs) : ∃ u, '%' ∉ u
      ∧ skipSet ((if neg then ['^'] else []) ++ ((if close then [']'] else []) ++ (cs ++ ']' :: s))) = .ok (u ++ s)
      ∧ u.length ≤ cs.length + 2 := by
  have drop : ∀ cs : List Char, ']' ∉ cs → (cs ++ ']' :: s).dropWhile (· ≠ ']') = ']' :: s := by
    intro cs h
    apply dropWhile_all
    · intro c hc; simp; rintro rfl; exact h hc
    · intro c hc; cases hc; decide
  have d1 := drop cs h1
  cases neg <;> cases close
  · rcases h2 with h | h
    · cases h
    · cases cs with
      | nil => exact absurd rfl h
      | cons c cs =>
        have d2 := drop cs fun hm => h1 (by simp [hm])
        refine ⟨[']'], by decide, ?_, by simp⟩
        simp only [Bool.false_eq_true, if_false, List.nil_append, List.cons_append, skipSet, d2]
  · refine ⟨[']'], by decide, ?_, by simp⟩
    simp only [Bool.false_eq_true, if_false, if_true, List.nil_append, List.cons_append, skipSet, d1]
  · refine ⟨[']'], by decide, ?_, by simp⟩
    simp only [Bool.false_eq_true, if_false, if_true, List.nil_append, List.cons_append, skipSet, d1]
  · refine ⟨']' :: cs ++ [']'], ?_, ?_, by simp⟩
    · simp only [List.mem_append, List.mem_cons, List.not_mem_nil, or_false, not_or]
      exact ⟨⟨by decide, h3⟩, by decide⟩
    · simp [skipSet]

theorem sruns_part {n i : Nat} {s : List Char} {r : List Event} (p : SPart) (hok : p.ok) (hk : p.known)
    (h : SRuns (good n) (i + p.wants.length) s r) :
    SRuns (good n) i (p.text ++ s) (evs n i p.wants ++ r) := by
  cases p with
  | char c => exact sruns_char hok h
  | percent =>
    refine sruns_conv (star := false) (w := []) (s := '%' :: s) (s5 := s) (key := '%') (m := .int) (l := none)
      (by simp) ⟨'%', s, rfl, by decide, by decide⟩ (by simp [modifier]) (by simp) ?_
    intro f hf
    exact h f (by simp at hf; omega)
  | conv star w len c =>
    obtain ⟨h1, h2⟩ := hok
    have hc := mem_letters (n := len) (c := c) (.inr h2)
    obtain ⟨c1, c2, c3, c4, c5, c6, c7⟩ := letters_plain hc
    have et : (SPart.conv star w len c).text ++ s
        = '%' :: ((if star then ['*'] else []) ++ (w ++ (len.text ++ c :: s))) := by
      simp [SPart.text]
    rw [et]
    cases star with
    | true =>
      have h0 : SRuns (good n) i s r := h
      by_cases hl : lenRead len
      · refine sruns_conv (star := true) (s5 := s) h1 (slen_head ⟨c1, c2⟩) (modifier_len hl c3 c4 c5)
          (by simp; omega) ?_
        intro f hf
        rw [if_neg c6, if_pos rfl]
        exact h0 f (by simp at hf; omega)
      · obtain ⟨d, hd, d1⟩ : ∃ d, len.text = [d] ∧ isDigit d = false ∧ d ≠ '*' ∧ d ≠ '%' ∧
            ∀ s, modifier (d :: s) = (.int, none, d :: s) := by
          cases len <;> simp [lenRead] at hl
          all_goals exact ⟨_, rfl, by decide, by decide, by decide, by intro s; simp [modifier]⟩
        obtain ⟨d2, d3, d4, d5⟩ := d1
        rw [hd]
        refine sruns_conv (star := true) (s := d :: c :: s) (s5 := c :: s) h1 ⟨d, _, rfl, d2, d3⟩ (d5 _)
          (by simp) ?_
        intro f hf
        rw [if_neg d4, if_pos rfl]
        exact sruns_char c6 h0 f (by simp at hf ⊢; omega)
    | false =>
      obtain ⟨e, he, ht, hl⟩ := sknown_plain (hk rfl)
      have ew : (SPart.conv false w len c).wants = [e] := by simp [SPart.wants, he]
      rw [ew] at h ⊢
      refine sruns_conv (star := false) (s5 := s) h1 (slen_head ⟨c1, c2⟩) (modifier_len hl c3 c4 c5)
          (by simp; omega) ?_
      intro f hf
      have hr := h f (by simp at hf; omega)
      simp only [List.length_singleton] at hr
      rw [if_neg c6, if_neg (by decide)]
      by_cases hi : i < n
      · rw [if_neg (by simpa using hi), good_get hi]
        simp [c2, c7, ht, hr, ev, evs, hi]
      · rw [if_pos (by simpa using hi)]
        simp [hr, ev, evs, hi]
  | set star w neg close cs =>
    obtain ⟨h1, h2, h3, h4⟩ := hok
    have hp : '%' ∉ cs := hk
    have et : (SPart.set star w neg close cs).text ++ s
        = '%' :: ((if star then ['*'] else []) ++ (w ++ ('[' :: ((if neg then ['^'] else [])
          ++ ((if close then [']'] else []) ++ (cs ++ ']' :: s)))))) := by
      simp [SPart.text]
    rw [et]
    have ep : ∀ r i, SRuns (good n) i s r → SRuns (good n) i ((if neg then ['^'] else [])
          ++ ((if close then [']'] else []) ++ (cs ++ ']' :: s))) r := by
      intro r i h
      refine sruns_chars (by cases neg <;> decide) (sruns_chars (by cases close <;> decide) (sruns_chars hp
        (sruns_char (by decide) h)))
    have emod : ∀ s : List Char, modifier ('[' :: s) = (.int, none, '[' :: s) := by intro s; simp [modifier]
    refine sruns_conv (star := star) h1 ⟨'[', _, rfl, by decide, by decide⟩ (emod _) (by simp) ?_
    intro f hf
    rw [if_neg (by decide)]
    cases star with
    | true =>
      rw [if_pos rfl]
      exact ep r i h f (by simp at hf ⊢; omega)
    | false =>
      rw [if_neg (by decide)]
      have ew : (SPart.set false w neg close cs).wants = [.string] := by simp [SPart.wants]
      rw [ew] at h ⊢
      by_cases hi : i < n
      · rw [if_neg (by simpa using hi), good_get hi]
        obtain ⟨u, u1, u2, u3⟩ := skip_ok (neg := neg) (close := close) (s := s) h2 h3 hp
        have hr := sruns_chars u1 h f (by simp at hf ⊢; omega)
        simp only [List.length_singleton] at hr
        simp [u2, hr, ev, evs, hi]
      · rw [if_pos (by simpa using hi)]
        have hr := ep r (i + 1) h f (by simp at hf ⊢; omega)
        simp [hr, ev, evs, hi]

theorem sruns_parts {n : Nat} (ps : List SPart) (hok : ∀ p ∈ ps, p.ok ∧ p.known) :
    ∀ i, SRuns (good n) i (stext ps) (evs n i (swants ps)
        ++ if i + (swants ps).length < n then [.extra (i + (swants ps).length) n] else []) := by
  induction ps with
  | nil =>
    intro i
    have := sruns_nil (good n) i
    simpa [stext, swants, evs] using this
  | cons p ps ih =>
    intro i
    have ew : swants (p :: ps) = p.wants ++ swants ps := by simp [swants]
    have et : stext (p :: ps) = p.text ++ stext ps := by simp [stext]
    have h := ih (fun q hq => hok q (by simp [hq])) (i + p.wants.length)
    rw [ew, et, evs_append, List.append_assoc, List.length_append, ← Nat.add_assoc]
    exact sruns_part p (hok p (by simp)).1 (hok p (by simp)).2 h

theorem scanf_eq {n : Nat} (ps : List SPart) (hok : ∀ p ∈ ps, p.ok ∧ p.known) :
    scanf (good n) (stext ps) = some (expected n (swants ps)) := by
  have := sruns_parts (n := n) ps hok 0 ((stext ps).length + 1) (by omega)
  rw [scanf, this, ← evs_expected]
  simp

/-! ## The fuel suffices -/

theorem dropWhile_length (p : Char → Bool) (s : List Char) : (s.dropWhile p).length ≤ s.length :=
  (List.dropWhile_suffix p).length_le

theorem afterPrecision_length (s : List Char) : (afterPrecision s).length ≤ s.length := by
  have h := dropWhile_length isDigit s
  unfold afterPrecision
  split
  · next t ht =>
    rw [ht] at h
    have := dropWhile_length isDigit t
    simp only [List.length_cons] at h
    split <;> omega
  · exact h

theorem modifier_length (s : List Char) : (modifier s).2.2.length ≤ s.length := by
  unfold modifier
  split
  · simp; omega
  · simp
  · split
    · split
      · split <;> simp; omega
      · simp
    · simp
  · simp

theorem skipSet_length {s t : List Char} (h : skipSet s = .ok t) : t.length ≤ s.length := by
  cases s with
  | nil => simp [skipSet] at h
  | cons c s =>
    have := dropWhile_length (· ≠ ']') s
    rw [skipSet] at h
    split at h
    · cases h
    · cases h; simp only [List.length_cons]; omega

theorem printfGo_fuel (args : List Bool) : ∀ (f g i : Nat) (s : List Char), s.length < f → s.length < g →
    printfGo args f i s = printfGo args g i s := by
  intro f
  induction f with
  | zero => intro g i s h; omega
  | succ f ih =>
    intro g i s hf hg
    obtain ⟨g, rfl⟩ : ∃ k, g = k + 1 := ⟨g - 1, by omega⟩
    rw [printfGo, printfGo]
    cases hs : s.dropWhile (· ≠ '%') with
    | nil => rfl
    | cons c t =>
      have h0 := dropWhile_length (· ≠ '%') s
      rw [hs, List.length_cons] at h0
      have h1 : (afterFlags t).length ≤ t.length := dropWhile_length _ t
      have h2 := afterPrecision_length (afterFlags t)
      have h3 := modifier_length (afterPrecision (afterFlags t))
      simp only
      split
      · exact ih _ _ _ (by omega) (by omega)
      · split
        · rfl
        · next key s5 hk =>
          rw [hk, List.length_cons] at h3
          have e1 : ∀ i, printfGo args f i s5 = printfGo args g i s5 := fun i => ih _ _ _ (by omega) (by omega)
          have e2 : ∀ i, printfGo args f i ('%' :: s5) = printfGo args g i ('%' :: s5) := fun i =>
            ih _ _ _ (by simp only [List.length_cons]; omega) (by simp only [List.length_cons]; omega)
          rw [e1, e1, e2]
          have e3 : ∀ i t, skipSet s5 = .ok t → printfGo args f i t = printfGo args g i t := fun i t ht => by
            have := skipSet_length ht
            exact ih _ _ _ (by omega) (by omega)
          cases hset : skipSet s5 with
          | past => rfl
          | bad => rfl
          | ok t => simp only [e3 _ t hset]

theorem scanfGo_fuel (args : List Bool) : ∀ (f g i : Nat) (s : List Char), s.length < f → s.length < g →
    scanfGo args f i s = scanfGo args g i s := by
  intro f
  induction f with
  | zero => intro g i s h; omega
  | succ f ih =>
    intro g i s hf hg
    obtain ⟨g, rfl⟩ : ∃ k, g = k + 1 := ⟨g - 1, by omega⟩
    rw [scanfGo, scanfGo]
    cases hs : s.dropWhile (· ≠ '%') with
    | nil => rfl
    | cons c t =>
      have h0 := dropWhile_length (· ≠ '%') s
      rw [hs, List.length_cons] at h0
      have h1 : ((if t.head? = some '*' then t.tail else t).dropWhile isDigit).length ≤ t.length := by
        refine (dropWhile_length _ _).trans ?_
        split <;> simp
      have h3 := modifier_length ((if t.head? = some '*' then t.tail else t).dropWhile isDigit)
      simp only
      split
      · rfl
      · next key s5 hk =>
        rw [hk, List.length_cons] at h3
        have e1 : ∀ i, scanfGo args f i s5 = scanfGo args g i s5 := fun i => ih _ _ _ (by omega) (by omega)
        have e2 : ∀ i, scanfGo args f i ('%' :: s5) = scanfGo args g i ('%' :: s5) := fun i =>
          ih _ _ _ (by simp only [List.length_cons]; omega) (by simp only [List.length_cons]; omega)
        rw [e1, e1, e2]
        have e3 : ∀ i t, skipSet s5 = .ok t → scanfGo args f i t = scanfGo args g i t := fun i t ht => by
          have := skipSet_length ht
          exact ih _ _ _ (by omega) (by omega)
        cases hset : skipSet s5 with
        | past => rfl
        | bad => rfl
        | ok t => simp only [e3 _ t hset]

end Splint.Format
