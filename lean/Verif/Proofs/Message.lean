import Verif.Spec.Message
import Mathlib.Data.List.Forall2
/-!
# Lemmas on messages
-/
namespace Splint.Message
open Spec

theorem isDigit_iff (c : Char) : isDigit c = true ↔ Digit c := by
  constructor
  · intro h
    unfold isDigit at h
    simp only [Bool.and_eq_true, decide_eq_true_eq] at h
    have h1 : 48 ≤ c.toNat := h.1
    have h2 : c.toNat ≤ 57 := h.2
    have hc : c = Char.ofNat c.toNat := (Char.ofNat_toNat c).symm
    rw [hc]
    generalize c.toNat = n at h1 h2
    interval_cases n <;> (unfold Digit; decide)
  · intro h
    unfold Digit at h
    simp only [List.mem_cons, List.not_mem_nil, or_false] at h
    rcases h with h | h | h | h | h | h | h | h | h | h <;> rw [h] <;> decide

theorem isDigit_false (c : Char) : isDigit c = false ↔ ¬ Digit c := by
  rw [← isDigit_iff]; simp

theorem dropDigits_dir {ds : List Char} {k : Char} (hd : ∀ d ∈ ds, Digit d) (hk : ¬ Digit k) (l : List Char) :
    dropDigits (ds ++ k :: l) = k :: l := by
  induction ds with
  | nil => simp [dropDigits, (isDigit_false k).2 hk]
  | cons d ds ih =>
    have h1 := (isDigit_iff d).2 (hd d (by simp))
    simp only [List.cons_append, dropDigits, h1, if_true]
    exact ih fun x hx => hd x (by simp [hx])

theorem dropDigits_all {ds : List Char} (hd : ∀ d ∈ ds, Digit d) : dropDigits ds = [] := by
  induction ds with
  | nil => rfl
  | cons d ds ih =>
    have h1 := (isDigit_iff d).2 (hd d (by simp))
    simp only [dropDigits, h1, if_true]
    exact ih fun x hx => hd x (by simp [hx])

/-- the number written by digits, from `n` on -/
def numberFrom (n : Nat) (ds : List Char) : Nat := ds.foldl (fun n d => n * 10 + (d.toNat - '0'.toNat)) n

theorem number_eq (ds : List Char) : number ds = numberFrom 0 ds := rfl

theorem le_numberFrom (ds : List Char) : ∀ n, n ≤ numberFrom n ds := by
  induction ds with
  | nil => intro n; exact le_refl _
  | cons d ds ih =>
    intro n
    have := ih (n * 10 + (d.toNat - '0'.toNat))
    unfold numberFrom at this ⊢
    rw [List.foldl_cons]
    omega

theorem readDigits_dir {ds : List Char} {k : Char} (hk : ¬ Digit k) (l : List Char) :
    ∀ n, (∀ d ∈ ds, Digit d) → n < 2147483648 → readDigits n (ds ++ k :: l) =
      if numberFrom n ds < 2147483648 then some (numberFrom n ds, k :: l) else none := by
  induction ds with
  | nil => intro n _ hn; simp [readDigits, (isDigit_false k).2 hk, numberFrom, hn]
  | cons d ds ih =>
    intro n hd hn
    have h1 := (isDigit_iff d).2 (hd d (by simp))
    simp only [List.cons_append, readDigits, h1, if_true]
    have hv : digitVal d = d.toNat - '0'.toNat := rfl
    have hf : numberFrom n (d :: ds) = numberFrom (n * 10 + digitVal d) ds := rfl
    rw [hf]
    split_ifs with h2 h3 h3
    · rw [ih _ (fun x hx => hd x (by simp [hx])) h2, if_pos h3]
    · rw [ih _ (fun x hx => hd x (by simp [hx])) h2, if_neg h3]
    · have := le_numberFrom ds (n * 10 + digitVal d)
      omega
    · rfl

theorem readDigits_all {ds : List Char} : ∀ n, (∀ d ∈ ds, Digit d) → readDigits n ds = none ∨ ∃ m, readDigits n ds = some (m, []) := by
  induction ds with
  | nil => intro n _; exact Or.inr ⟨n, rfl⟩
  | cons d ds ih =>
    intro n hd
    have h1 := (isDigit_iff d).2 (hd d (by simp))
    simp only [readDigits, h1, if_true]
    split_ifs with h2
    · exact ih _ fun x hx => hd x (by simp [hx])
    · exact Or.inl rfl

def Blank (k : Char) : Prop := k = '\n' ∨ k = ' ' ∨ k = '\t'

theorem identify_dir {ds : List Char} {k : Char} (hd : ∀ d ∈ ds, Digit d) (hk : ¬ Digit k) (hb : ¬ Blank k)
    (l : List Char) : identify (ds ++ k :: l) =
      if number ds < 2147483648 then some (codeOf k, number ds, l) else none := by
  cases ds with
  | nil => simp [identify, (isDigit_false k).2 hk, number]
  | cons d ds =>
    have h1 := (isDigit_iff d).2 (hd d (by simp))
    have h2 := readDigits_dir (ds := d :: ds) hk l 0 hd (by omega)
    have h3 : skipBlanks (k :: l) = k :: l := by
      unfold Blank at hb
      simp [skipBlanks, hb]
    simp only [List.cons_append] at h2 ⊢
    simp only [identify, h1, if_true, h2, number_eq]
    split_ifs with h4 <;> simp [h3, h4]

/-- A format that ends within a directive with a number is read behind its end. -/
theorem identify_end {ds : List Char} (hd : ∀ d ∈ ds, Digit d) (hne : ds ≠ []) : identify ds = none := by
  cases ds with
  | nil => exact absurd rfl hne
  | cons d ds =>
    have h1 := (isDigit_iff d).2 (hd d (by simp))
    simp only [identify, h1, if_true]
    rcases readDigits_all (ds := d :: ds) 0 hd with h | ⟨m, h⟩ <;> rw [h] <;> rfl

theorem text_cons (p : Piece) (ps : List Piece) : text (p :: ps) = p.text ++ text ps := by simp [text]

/-- Every format is a list of pieces, perhaps with a directive at its end that has no code. -/
theorem pieces (fmt : List Char) : (∃ ps, WF ps ∧ fmt = text ps)
    ∨ ∃ ps ds, WF ps ∧ (∀ d ∈ ds, Digit d) ∧ fmt = text ps ++ '%' :: ds := by
  have key : ∀ n (fmt : List Char), fmt.length ≤ n → (∃ ps, WF ps ∧ fmt = text ps)
      ∨ ∃ ps ds, WF ps ∧ (∀ d ∈ ds, Digit d) ∧ fmt = text ps ++ '%' :: ds := by
    intro n
    induction n with
    | zero =>
      intro fmt h
      have : fmt = [] := List.length_eq_zero_iff.1 (by omega)
      exact Or.inl ⟨[], by simp [WF], by simp [this, text]⟩
    | succ n ih =>
      intro fmt h
      cases fmt with
      | nil => exact Or.inl ⟨[], by simp [WF], rfl⟩
      | cons c l =>
        by_cases hc : c = '%'
        · subst hc
          -- the digits
          have hsplit : ∀ l : List Char, ∃ ds r, l = ds ++ r ∧ (∀ d ∈ ds, Digit d) ∧ (r = [] ∨ ∃ k r', r = k :: r' ∧ ¬ Digit k) := by
            intro l
            induction l with
            | nil => exact ⟨[], [], rfl, by simp, Or.inl rfl⟩
            | cons a l ih =>
              by_cases ha : Digit a
              · obtain ⟨ds, r, h1, h2, h3⟩ := ih
                exact ⟨a :: ds, r, by simp [h1], by simpa [ha] using h2, h3⟩
              · exact ⟨[], a :: l, rfl, by simp, Or.inr ⟨a, l, rfl, ha⟩⟩
          obtain ⟨ds, r, h1, h2, h3⟩ := hsplit l
          rcases h3 with rfl | ⟨k, r', rfl, hk⟩
          · exact Or.inr ⟨[], ds, by simp [WF], h2, by simp [h1, text]⟩
          · have hlen : r'.length ≤ n := by rw [h1] at h; simp at h; omega
            have hw : ∀ ps, WF ps → WF (.dir ds k :: ps) := fun ps hps p hp => by
              rcases List.mem_cons.1 hp with rfl | hp
              · exact ⟨h2, hk⟩
              · exact hps p hp
            rcases ih r' hlen with ⟨ps, hps, rfl⟩ | ⟨ps, ds', hps, hds, rfl⟩
            · exact Or.inl ⟨.dir ds k :: ps, hw ps hps, by simp [h1, text_cons, Piece.text]⟩
            · exact Or.inr ⟨.dir ds k :: ps, ds', hw ps hps, hds, by simp [h1, text_cons, Piece.text]⟩
        · have hw : ∀ ps, WF ps → WF (.lit c :: ps) := fun ps hps p hp => by
            rcases List.mem_cons.1 hp with rfl | hp
            · exact hc
            · exact hps p hp
          rcases ih l (by simpa using h) with ⟨ps, hps, rfl⟩ | ⟨ps, ds', hps, hds, rfl⟩
          · exact Or.inl ⟨.lit c :: ps, hw ps hps, by simp [text_cons, Piece.text]⟩
          · exact Or.inr ⟨.lit c :: ps, ds', hw ps hps, hds, by simp [text_cons, Piece.text]⟩
  exact key _ fmt (le_refl _)

/-! ### The check -/

variable {T : Type} {ok : Expect → T → Bool}

theorem expectOf_codes {k : Char} {e : Expect} (hp : k ≠ '&') :
    expectOf k = some e ↔ ∃ q, (k, e, q) ∈ codes := by
  constructor
  · intro h
    by_cases hm : k ∈ ['c', 'h', 's', 'q', 'x', 'd', 'u', 'w', 'f', 'b', 't', 'p', 'l', 'r']
    · simp only [List.mem_cons, List.not_mem_nil, or_false] at hm
      rcases hm with rfl | rfl | rfl | rfl | rfl | rfl | rfl | rfl | rfl | rfl | rfl | rfl | rfl | rfl <;>
        cases e <;> first
          | exact absurd h (by decide)
          | exact ⟨.int, by decide⟩
          | exact ⟨.str, by decide⟩
          | exact ⟨.ulong, by decide⟩
          | exact ⟨.dbl, by decide⟩
          | exact ⟨.ptr, by decide⟩
          | exact ⟨.loc, by decide⟩
    · simp only [List.mem_cons, List.not_mem_nil, or_false, not_or] at hm
      unfold expectOf at h
      simp [hm, hp] at h
  · rintro ⟨q, h⟩
    unfold codes at h
    simp only [List.mem_cons, Prod.mk.injEq, List.not_mem_nil, or_false] at h
    rcases h with h | h | h | h | h | h | h | h | h | h | h | h | h | h <;> obtain ⟨rfl, rfl, rfl⟩ := h <;> decide

theorem codes_not {k : Char} {e : Expect} {q : Pass} (h : (k, e, q) ∈ codes) : k ≠ '%' ∧ k ≠ '&' ∧ ¬ Blank k := by
  unfold codes at h
  simp only [List.mem_cons, Prod.mk.injEq, List.not_mem_nil, or_false] at h
  unfold Blank
  rcases h with h | h | h | h | h | h | h | h | h | h | h | h | h | h <;> obtain ⟨rfl, rfl, rfl⟩ := h <;> decide

theorem checkArg_nil {k : Char} {a : T} (hp : k ≠ '&') :
    checkArg ok k a = [] ↔ ∃ e q, (k, e, q) ∈ codes ∧ ok e a = true := by
  unfold checkArg
  cases h : expectOf k with
  | none =>
    simp only [List.cons_ne_self, false_iff, reduceCtorEq]
    rintro ⟨e, q, hm, -⟩
    have := (expectOf_codes hp).2 ⟨q, hm⟩
    rw [h] at this
    cases this
  | some e =>
    obtain ⟨q, hq⟩ := (expectOf_codes hp).1 h
    simp only
    split_ifs with h1
    · simp only [true_iff]; exact ⟨e, q, hq, h1⟩
    · simp only [List.cons_ne_self, false_iff, reduceCtorEq]
      rintro ⟨e', q', hm, h2⟩
      have := (expectOf_codes hp).2 ⟨q', hm⟩
      rw [h] at this
      cases this
      exact h1 h2

theorem checkArg_plural {a : T} : checkArg ok '&' a = [] ↔ ok .int a = true := by
  have : expectOf '&' = some .int := by decide
  unfold checkArg
  rw [this]
  simp only
  split_ifs with h <;> simp [h]

theorem append_some_nil {x : List CMsg} {y : Option (List CMsg)} :
    y.map (x ++ ·) = some [] ↔ x = [] ∧ y = some [] := by
  cases y with
  | none => simp
  | some y => simp

theorem check_exact {ps : List Piece} (hw : WF ps) : ∀ (n : Nat) (a : T) (args : List T), (text ps).length < n →
    (check ok n (text ps) a args = some [] ↔ Fits ok a ps args) := by
  induction ps with
  | nil =>
    intro n a args hn
    cases n with
    | zero => omega
    | succ n =>
      change check ok (n + 1) [] a args = some [] ↔ _
      cases args with
      | nil => simp [check]; exact .nil
      | cons b args =>
        simp only [check, List.isEmpty_cons, Bool.false_eq_true, if_false, Option.some.injEq, List.cons_ne_self,
          false_iff, reduceCtorEq]
        intro h; cases h
  | cons p ps ih =>
    intro n a args hn
    have hwp := hw p (by simp)
    have ih := ih fun x hx => hw x (by simp [hx])
    cases n with
    | zero => omega
    | succ n =>
      rw [text_cons] at hn ⊢
      cases p with
      | lit c =>
        have hc : ¬ (c = '%') := hwp
        simp only [Piece.text, List.cons_append, List.nil_append, check, hc, if_false] at hn ⊢
        rw [ih n a args (by simp at hn; omega)]
        constructor
        · intro h; exact .lit h
        · intro h; cases h with | lit h => exact h
      | dir ds k =>
        obtain ⟨hd, hk⟩ := hwp
        have hlen : (text ps).length < n := by
          simp [Piece.text] at hn; omega
        have htext : Piece.text (.dir ds k) ++ text ps = '%' :: (ds ++ k :: text ps) := by simp [Piece.text]
        rw [htext]
        simp only [check, if_true, dropDigits_dir hd hk]
        by_cases h1 : k = '%'
        · subst h1
          simp only [if_true]
          rw [ih n a args hlen]
          constructor
          · intro h; exact .percent h
          · intro h
            cases h with
            | percent h => exact h
            | code hm _ _ => exact absurd rfl (codes_not hm).1
        · rw [if_neg h1]
          by_cases h2 : k = '&'
          · subst h2
            rw [if_pos rfl, append_some_nil, checkArg_plural, ih n a args hlen]
            constructor
            · rintro ⟨h, h'⟩; exact .plural h h'
            · intro h
              cases h with
              | plural h h' => exact ⟨h, h'⟩
              | code hm _ _ => exact absurd rfl (codes_not hm).2.1
          · rw [if_neg h2]
            cases args with
            | nil =>
              simp only
              constructor
              · intro h
                cases hc : check ok n (text ps) a [] with
                | none => rw [hc] at h; simp at h
                | some x => rw [hc] at h; simp at h
              · intro h
                cases h with
                | percent _ => exact absurd rfl h1
                | plural _ _ => exact absurd rfl h2
            | cons b args =>
              simp only
              rw [append_some_nil, checkArg_nil h2, ih n b args hlen]
              constructor
              · rintro ⟨⟨e, q, hm, ho⟩, h'⟩; exact .code hm ho h'
              · intro h
                cases h with
                | percent _ => exact absurd rfl h1
                | plural _ _ => exact absurd rfl h2
                | code hm ho h' => exact ⟨⟨_, _, hm, ho⟩, h'⟩

/-- A `%` at the end of the format, perhaps with digits: the check reads behind the end. -/
theorem check_end {ps : List Piece} (hw : WF ps) {ds : List Char} (hds : ∀ d ∈ ds, Digit d) :
    ∀ (n : Nat) (a : T) (args : List T), check ok n (text ps ++ '%' :: ds) a args = none := by
  induction ps with
  | nil =>
    intro n a args
    cases n with
    | zero => rfl
    | succ n => simp [text, check, dropDigits_all hds]
  | cons p ps ih =>
    intro n a args
    have hwp := hw p (by simp)
    have ih := ih fun x hx => hw x (by simp [hx])
    cases n with
    | zero => rfl
    | succ n =>
      rw [text_cons]
      cases p with
      | lit c =>
        have hc : ¬ (c = '%') := hwp
        simp only [Piece.text, List.cons_append, List.nil_append, check, hc, if_false]
        exact ih n a args
      | dir ds' k =>
        obtain ⟨hd, hk⟩ := hwp
        have htext : Piece.text (.dir ds' k) ++ text ps ++ '%' :: ds = '%' :: (ds' ++ k :: (text ps ++ '%' :: ds)) := by
          simp [Piece.text]
        rw [htext]
        simp only [check, if_true, dropDigits_dir hd hk]
        split_ifs
        · exact ih n a args
        · rw [ih n a args]; rfl
        · cases args with
          | nil => simp only; rw [ih n a []]; rfl
          | cons b args => simp only; rw [ih n b args]; rfl

/-! ### The message -/

theorem fill_field {n : Nat} (hn : n ≠ 0) (s : Option (List Char)) : field n s (fill s n) := by
  unfold field fill
  rw [if_neg hn]
  dsimp only
  split_ifs with h
  · refine ⟨by rw [List.length_take]; omega, [], by simp, Or.inr ⟨rfl, (s.getD []).drop n, (List.take_append_drop _ _).symm⟩⟩
  · refine ⟨by rw [List.length_append, List.length_replicate]; omega, List.replicate (n - (s.getD []).length) ' ',
      fun c hc => (List.mem_replicate.1 hc).2, Or.inl rfl⟩

theorem decimal_toString (z : Int) : decimal z = (toString z).toList := by
  unfold decimal
  cases z with
  | ofNat n =>
    have h : ¬ (Int.ofNat n < 0) := by simp
    rw [if_neg h]
    change _ = (Nat.repr n).toList
    simp [Nat.repr]
  | negSucc n =>
    have h : Int.negSucc n < 0 := Int.negSucc_lt_zero n
    rw [if_pos h]
    change _ = (("-" : String) ++ Nat.repr (n + 1)).toList
    simp [Nat.repr]

theorem decimal_short {z : Int} (h : -2147483648 ≤ z ∧ z < 2147483648) : (decimal z).length ≤ 63 := by
  have h1 : (Nat.toDigits 10 z.natAbs).length ≤ 10 := by
    rw [Nat.length_toDigits_le_iff (by omega) (by omega)]
    omega
  unfold decimal
  split_ifs <;> simp <;> omega

theorem charText_spec (z : Int) : CharText z (charText z) := by
  refine ⟨(z % 256).toNat, ?_, ?_, ?_⟩
  · omega
  · omega
  · unfold charText
    dsimp only
    split_ifs with h
    · exact Or.inl ⟨h, rfl⟩
    · exact Or.inr ⟨h, rfl⟩

end Splint.Message
