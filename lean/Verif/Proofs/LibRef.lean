import Verif.Spec.LibRef
import Verif.Props.ReadBack
namespace Splint.Lib
open Reader Spec

theorem getInt_num {n : Int} (h : Num n) {r : List Char} (hr : Stops r) :
    getInt (intText n ++ r) = some (n, r.dropWhile isBlank) :=
  (C15_int_partial n h.1 h.2.1 r hr).1.2 h.2.2

theorem Spec.Num.nat {n : Int} (h : 0 ≤ n) (h2 : n < 2 ^ 31) : Num n := ⟨by omega, h2, .inl h⟩

namespace Ref

def depth : Ref → Nat
  | fetch _ _ r | field _ _ r | ptr _ r | adr _ r => r.depth + 1
  | conj _ a b => max a.depth b.depth + 1
  | _ => 1

theorem depth_le (r : Ref) : r.depth ≤ r.dump.length := by
  induction r with
  | fetch v i r ih =>
    cases i <;> simp only [dump, depth, List.cons_append, List.length_cons, List.length_append] <;>
      omega
  | conj v a b iha ihb =>
    simp only [dump, depth, List.cons_append, List.length_cons, List.length_append]; omega
  | _ =>
    simp only [dump, depth, List.cons_append, List.length_cons, List.length_append]; omega

/-- The rest of the text: what follows, possibly without leading blanks. -/
def Rest (s t : List Char) : Prop := t = s ∨ t = s.dropWhile isBlank

theorem Rest.of_solid {c : Char} {s t : List Char} (h : Rest (c :: s) t) (hc : isBlank c = false) :
    t = c :: s := by
  rcases h with h | h
  · exact h
  · rw [h, List.dropWhile_cons_of_neg (by simp [hc])]

/-- No value follows. -/
def NoVal (s : List Char) : Prop := ∀ c cs, s.dropWhile isBlank = c :: cs → c ≠ '='

theorem NoVal.rest {s t : List Char} (h : NoVal s) (ht : Rest s t) :
    ∀ c cs, t = c :: cs → c ≠ '=' := by
  intro c cs e
  rcases ht with rfl | rfl
  · rintro rfl
    subst e
    exact h '=' cs (List.dropWhile_cons_of_neg (by decide)) rfl
  · exact h c cs e

/-- Reading the value behind the body `r` of `q`. -/
theorem readVal_text {r q : Ref} {v : Option Int} (hv : ∀ x, v = some x → Num x) {s t : List Char}
    (hs : v = none → NoVal s) (ht : Rest (valText v ++ s) t)
    (hq : ∀ x, v = some x → r.setVal x = some q) (hn : v = none → r = q) :
    ∃ t', readVal r t = some (q, t') ∧ Rest s t' ∧ (v ≠ none → t' = s) := by
  cases v with
  | none =>
    have ht' : Rest s t := by simpa [valText] using ht
    refine ⟨t, ?_, ht', fun h => absurd rfl h⟩
    have hne := (hs rfl).rest ht'
    unfold readVal
    cases t with
    | nil => simp [optCheckChar, hn rfl]
    | cons c cs => simp [optCheckChar, hne c cs rfl, hn rfl]
  | some x =>
    have ht' : t = valText (some x) ++ s := by
      simp only [valText, List.cons_append] at ht ⊢
      exact ht.of_solid (by decide)
    subst ht'
    refine ⟨s, ?_, .inl rfl, fun _ => rfl⟩
    have hg : getInt (intText x ++ '=' :: s) = some (x, '=' :: s) := by
      rw [getInt_num (hv x rfl) (by intro c cs h; cases h; decide)]
      rw [List.dropWhile_cons_of_neg (by decide)]
    simp [readVal, valText, optCheckChar, hg, hq x rfl, checkChar]

theorem stops_val (v : Option Int) {s : List Char} (hs : Stops s) : Stops (valText v ++ s) := by
  cases v with
  | none => exact hs
  | some x => intro c cs h; simp [valText] at h; rw [← h.1]; decide

theorem noVal_val {v w : Option Int} {s : List Char} (hw : ∀ x, v = some x → w ≠ none)
    (hs : v = none → NoVal s) : w = none → NoVal (valText v ++ s) := by
  intro h
  cases v with
  | none => exact hs rfl
  | some x => exact absurd h (hw x rfl)

theorem _root_.Splint.Lib.Spec.Value.num {v w} (h : Value v w) : ∀ x, v = some x → Num x :=
  fun x e => (h x e).1

theorem _root_.Splint.Lib.Spec.Value.part {v w} (h : Value v (some w)) :
    ∀ x, v = some x → w ≠ none := fun x e e' => (h x e).2 (by rw [e'])

theorem typeText_nat {ct : Int} (h : 0 ≤ ct) : typeText ct = intText ct := by
  simp [typeText, show ¬ ct < 0 by omega]

theorem num_lt {k : Int} (h : 0 ≤ k) (h2 : k ≤ 3) : Num k := ⟨by omega, by omega, .inl h⟩

/-- The text of a reference begins with a letter. -/
theorem dump_head {eqv : Ref → Ref → Bool} {r : Ref} (h : Good eqv r) :
    ∃ c cs, r.dump = c :: cs ∧ isDig c = false ∧ c ≠ '-' ∧ isBlank c = false := by
  cases h with
  | @fetch v i r h1 h2 h3 => cases i <;> exact ⟨_, _, rfl, by decide, by decide, by decide⟩
  | _ => exact ⟨_, _, rfl, by decide, by decide, by decide⟩

theorem read_dump {eqv : Ref → Ref → Bool} {r : Ref} (h : Good eqv r) :
    ∀ (k : Nat), r.depth ≤ k → ∀ s, Stops s → (r.val = none → NoVal s) →
      ∃ t, readN eqv k (r.dump ++ s) = some (r, t) ∧ Rest s t ∧ (r.val ≠ none → t = s) := by
  induction h with
  | @param v n hv hn h1 =>
    intro k hk s hs hN
    obtain ⟨k, rfl⟩ : ∃ k', k = k' + 1 := ⟨k - 1, by simp [depth] at hk; omega⟩
    obtain ⟨t, h2, h3, h4⟩ := readVal_text (r := .param none n) (q := .param v n) hv.num hN
      (.inr rfl) (by rintro x rfl; rfl) (by rintro rfl; rfl)
    refine ⟨t, ?_, h3, h4⟩
    simp [readN, dump, getInt_num hn (stops_val v hs), mkParam, h1, h2]
  | @glob v n hv h0 h1 =>
    intro k hk s hs hN
    obtain ⟨k, rfl⟩ : ∃ k', k = k' + 1 := ⟨k - 1, by simp [depth] at hk; omega⟩
    obtain ⟨t, h2, h3, h4⟩ := readVal_text (r := .glob none n) (q := .glob v n) hv.num hN
      (.inr rfl) (by rintro x rfl; rfl) (by rintro rfl; rfl)
    refine ⟨t, ?_, h3, h4⟩
    simp [readN, dump, getInt_num (Num.nat h0 h1) (stops_val v hs), h2]
  | @object v n hv h0 h1 =>
    intro k hk s hs hN
    obtain ⟨k, rfl⟩ : ∃ k', k = k' + 1 := ⟨k - 1, by simp [depth] at hk; omega⟩
    obtain ⟨t, h2, h3, h4⟩ := readVal_text (r := .object none n) (q := .object v n) hv.num hN
      (.inr rfl) (by rintro x rfl; rfl) (by rintro rfl; rfl)
    refine ⟨t, ?_, h3, h4⟩
    simp [readN, dump, typeText_nat h0, getInt_num (Num.nat h0 h1) (stops_val v hs), h2]
  | @result v n hv h0 h1 =>
    intro k hk s hs hN
    obtain ⟨k, rfl⟩ : ∃ k', k = k' + 1 := ⟨k - 1, by simp [depth] at hk; omega⟩
    obtain ⟨t, h2, h3, h4⟩ := readVal_text (r := .result none n) (q := .result v n) hv.num hN
      (.inr rfl) (by rintro x rfl; rfl) (by rintro rfl; rfl)
    refine ⟨t, ?_, h3, h4⟩
    simp [readN, dump, typeText_nat h0, getInt_num (Num.nat h0 h1) (stops_val v hs), h2]
  | @special v n hv h0 h1 =>
    intro k hk s hs hN
    obtain ⟨k, rfl⟩ : ∃ k', k = k' + 1 := ⟨k - 1, by simp [depth] at hk; omega⟩
    obtain ⟨t, h2, h3, h4⟩ := readVal_text (r := .special none n) (q := .special v n) hv.num hN
      (.inr rfl) (by rintro x rfl; rfl) (by rintro rfl; rfl)
    refine ⟨t, ?_, h3, h4⟩
    simp [readN, dump, getInt_num (num_lt h0 h1) (stops_val v hs), mkSpecial, h0, h1, h2]
  | @unknown v hv =>
    intro k hk s hs hN
    obtain ⟨k, rfl⟩ : ∃ k', k = k' + 1 := ⟨k - 1, by simp [depth] at hk; omega⟩
    obtain ⟨t, h2, h3, h4⟩ := readVal_text (r := .unknown none) (q := .unknown v) hv.num hN
      (.inl rfl) (by rintro x rfl; rfl) (by rintro rfl; rfl)
    refine ⟨t, ?_, h3, h4⟩
    simp [readN, dump, h2]
  | @ptr v r hv hr hna ih =>
    intro k hk s hs hN
    obtain ⟨k, rfl⟩ : ∃ k', k = k' + 1 := ⟨k - 1, by simp [depth] at hk; omega⟩
    obtain ⟨t0, i1, i2, i3⟩ := ih k (by simp [depth] at hk; omega) _ (stops_val v hs)
      (noVal_val hv.part hN)
    obtain ⟨t, h2, h3, h4⟩ := readVal_text (r := .ptr none r) (q := .ptr v r) hv.num hN
      i2 (by rintro x rfl; rfl) (by rintro rfl; rfl)
    refine ⟨t, ?_, h3, h4⟩
    have hm : mkPtr r = .ptr none r := by
      cases hr <;> first | rfl | exact absurd rfl (hna _ _)
    simp [readN, dump, i1, hm, h2]
  | @adr v r hv hr hnp hnf ih =>
    intro k hk s hs hN
    obtain ⟨k, rfl⟩ : ∃ k', k = k' + 1 := ⟨k - 1, by simp [depth] at hk; omega⟩
    obtain ⟨t0, i1, i2, i3⟩ := ih k (by simp [depth] at hk; omega) _ (stops_val v hs)
      (noVal_val hv.part hN)
    obtain ⟨t, h2, h3, h4⟩ := readVal_text (r := .adr none r) (q := .adr v r) hv.num hN
      i2 (by rintro x rfl; rfl) (by rintro rfl; rfl)
    refine ⟨t, ?_, h3, h4⟩
    have hm : mkAdr r = .adr none r := by
      unfold mkAdr
      split
      · cases hr
      · exact absurd rfl (hnp _ _)
      · exact absurd rfl (hnf _ _)
      · rfl
    simp [readN, dump, i1, hm, h2]
  | @field v f r hv hf hf' hr ih =>
    intro k hk s hs hN
    obtain ⟨k, rfl⟩ : ∃ k', k = k' + 1 := ⟨k - 1, by simp [depth] at hk; omega⟩
    obtain ⟨t0, i1, i2, i3⟩ := ih k (by simp [depth] at hk; omega) _ (stops_val v hs)
      (noVal_val hv.part hN)
    obtain ⟨t, h2, h3, h4⟩ := readVal_text (r := .field none f r) (q := .field v f r) hv.num hN
      i2 (by rintro x rfl; rfl) (by rintro rfl; rfl)
    refine ⟨t, ?_, h3, h4⟩
    have hm : mkField f r = .field none f r := by cases hr <;> rfl
    have hp : ∀ c ∈ f, decide (c ≠ '.') = true := by
      intro c hc
      simp only [ne_eq, decide_eq_true_eq]
      rintro rfl
      exact hf hc
    have e1 : (f ++ '.' :: (r.dump ++ (valText v ++ s))).dropWhile (fun c => decide (c ≠ '.'))
        = '.' :: (r.dump ++ (valText v ++ s)) := by
      rw [List.dropWhile_append_of_pos hp, List.dropWhile_cons_of_neg (by simp)]
    have e2 : (f ++ '.' :: (r.dump ++ (valText v ++ s))).takeWhile (fun c => decide (c ≠ '.'))
        = f := by
      rw [List.takeWhile_append_of_pos hp, List.takeWhile_cons_of_neg (by simp), List.append_nil]
    simp only [readN, dump, List.cons_append, List.append_assoc, e1, e2]
    simp [checkChar, i1, hm, h2]
  | @fetch v i r hv hi hr ih =>
    intro k hk s hs hN
    obtain ⟨k, rfl⟩ : ∃ k', k = k' + 1 := ⟨k - 1, by simp [depth] at hk; omega⟩
    obtain ⟨t0, i1, i2, i3⟩ := ih k (by simp [depth] at hk; omega) _ (stops_val v hs)
      (noVal_val hv.part hN)
    obtain ⟨t, h2, h3, h4⟩ := readVal_text (r := .fetch none i r) (q := .fetch v i r) hv.num hN
      i2 (by rintro x rfl; rfl) (by rintro rfl; rfl)
    refine ⟨t, ?_, h3, h4⟩
    have hm : mkFetch i r = .fetch none i r := by cases hr <;> rfl
    obtain ⟨c, cs, e, hc1, hc2, hc3⟩ := dump_head hr
    cases i with
    | none =>
      have hx : isIndex (r.dump ++ (valText v ++ s)) = false := by
        rw [e]; simp [isIndex, hc1, hc2]
      simp [readN, dump, i1, hm, h2, hx]
    | some x =>
      have hx : isIndex (intText x ++ (r.dump ++ (valText v ++ s))) = true := by
        unfold intText
        split
        · obtain ⟨d, t, e, hd, -⟩ := decimal_cons x.toNat
          rw [e]
          simp [isIndex, (digit_spec d hd).1]
        · simp [isIndex]
      have hg := getInt_num (hi x rfl) (r := r.dump ++ (valText v ++ s))
        (by rw [e]; intro c' cs' h; cases h; exact hc1)
      have hb : (r.dump ++ (valText v ++ s)).dropWhile isBlank = r.dump ++ (valText v ++ s) := by
        rw [e, List.cons_append, List.dropWhile_cons_of_neg (by simp [hc3])]
      simp [readN, dump, i1, hm, h2, hx, hg, hb]
  | @conj v a b hv ha hb he iha ihb =>
    intro k hk s hs hN
    obtain ⟨k, rfl⟩ : ∃ k', k = k' + 1 := ⟨k - 1, by simp [depth] at hk; omega⟩
    obtain ⟨t0, i1, i2, i3⟩ := ihb k (by simp [depth] at hk; omega) _ (stops_val v hs)
      (noVal_val hv.part hN)
    obtain ⟨t1, j1, j2, -⟩ := iha k (by simp [depth] at hk; omega)
      ('.' :: (b.dump ++ (valText v ++ s))) (by intro c cs h; cases h; decide)
      (by
        intro _ c cs h
        rw [List.dropWhile_cons_of_neg (by decide)] at h
        cases h; decide)
    have := j2.of_solid (by decide)
    subst this
    obtain ⟨t, h2, h3, h4⟩ := readVal_text (r := .conj none a b) (q := .conj v a b) hv.num hN
      i2 (by rintro x rfl; rfl) (by rintro rfl; rfl)
    refine ⟨t, ?_, h3, h4⟩
    have hm : mkConj eqv a b = some (.conj none a b) := by
      have h1 : a ≠ undef := by rintro rfl; cases ha
      have h2 : b ≠ undef := by rintro rfl; cases hb
      simp [mkConj, h1, h2, he]
    simp [readN, dump, i1, j1, hm, h2]

/-- More nesting allowed, same result. -/
theorem undump_dump {eqv : Ref → Ref → Bool} {r : Ref} (h : Good eqv r) {s : List Char}
    (hs : Follows s) : ∃ t, undump eqv (r.dump ++ s) = some (r, t) ∧ Rest s t :=  by
  obtain ⟨t, h1, h2, -⟩ := read_dump h ((r.dump ++ s).length + 1)
    (by have := depth_le r; rw [List.length_append]; omega) s hs.1 (fun _ => hs.2)
  exact ⟨t, h1, h2⟩

theorem follows_solid {c : Char} {s : List Char} (h1 : isDig c = false) (h2 : c ≠ '=')
    (h3 : isBlank c = false) : Follows (c :: s) := by
  refine ⟨fun d cs h => by cases h; exact h1, fun d cs h => ?_⟩
  rw [List.dropWhile_cons_of_neg (by simp [h3])] at h
  cases h
  exact h2

theorem readList_dump {eqv : Ref → Ref → Bool} {e : Char} (he : isEnd e = true) (s : List Char) :
    ∀ (l : List Ref), (∀ r ∈ l, Good eqv r) → ∀ k, l.length < k →
      readListN eqv k (dumpList l ++ e :: s) = some (l, e :: s) := by
  have hel : ∀ r, Good eqv r → ∃ c cs, r.dump = c :: cs ∧ isEnd c = false := by
    intro r h
    cases h with
    | @fetch v i r h1 h2 h3 => cases i <;> exact ⟨_, _, rfl, by decide⟩
    | _ => exact ⟨_, _, rfl, by decide⟩
  have hf : Follows (e :: s) := by
    have : e = '#' ∨ e = '@' ∨ e = '$' ∨ e = '&' := by
      simpa [isEnd, or_assoc] using he
    rcases this with rfl | rfl | rfl | rfl <;>
      exact follows_solid (by decide) (by decide) (by decide)
  have hsol : isBlank e = false := by
    have : e = '#' ∨ e = '@' ∨ e = '$' ∨ e = '&' := by
      simpa [isEnd, or_assoc] using he
    rcases this with rfl | rfl | rfl | rfl <;> decide
  have hcom : e ≠ ',' := by rintro rfl; revert he; decide
  have one : ∀ (r : Ref), Good eqv r → ∀ t, Follows t → ∀ k,
      readListN eqv (k + 1) (r.dump ++ t) =
        (do let (r, s) ← undump eqv (r.dump ++ t)
            let (rs, s) ← readListN eqv k (optCheckChar ',' s).2
            some (r :: rs, s)) := by
    intro r hr t _ k
    obtain ⟨c, cs, e1, e2⟩ := hel r hr
    rw [e1]
    simp [readListN, e2]
  intro l
  induction l with
  | nil =>
    intro _ k hk
    obtain ⟨k, rfl⟩ : ∃ k', k = k' + 1 := ⟨k - 1, by simp at hk; omega⟩
    simp [readListN, dumpList, he]
  | cons r rs ih =>
    intro hl k hk
    obtain ⟨k, rfl⟩ : ∃ k', k = k' + 1 := ⟨k - 1, by simp at hk; omega⟩
    have hr := hl r (by simp)
    have ih := ih (fun q hq => hl q (by simp [hq])) k (by simp at hk; omega)
    cases rs with
    | nil =>
      obtain ⟨t, h1, h2⟩ := undump_dump hr hf
      have := h2.of_solid hsol
      subst this
      simp only [dumpList] at ih ⊢
      rw [one r hr _ hf, h1]
      simp only [List.nil_append] at ih
      simp [optCheckChar, hcom, ih]
    | cons q qs =>
      have hf' : Follows (',' :: (dumpList (q :: qs) ++ e :: s)) :=
        follows_solid (by decide) (by decide) (by decide)
      obtain ⟨t, h1, h2⟩ := undump_dump hr hf'
      have := h2.of_solid (by decide)
      subst this
      simp only [dumpList, List.append_assoc, List.cons_append] at h1 ⊢
      have e0 := one r hr _ hf' k
      simp only [dumpList, List.append_assoc, List.cons_append] at e0 ih
      rw [e0, h1]
      simp [optCheckChar, dumpList, ih]

theorem length_dumpList (l : List Ref) : l.length ≤ (dumpList l).length := by
  induction l with
  | nil => simp
  | cons r rs ih =>
    have := depth_le r
    have h1 : 1 ≤ r.depth := by cases r <;> simp [depth]
    cases rs with
    | nil => simp [dumpList]; omega
    | cons q qs => simp only [dumpList, List.length_append, List.length_cons] at ih ⊢; omega

theorem undumpList_dump {eqv : Ref → Ref → Bool} {e : Char} (he : isEnd e = true) (s : List Char)
    {l : List Ref} (hl : ∀ r ∈ l, Good eqv r) :
    undumpList eqv (dumpList l ++ e :: s) = some (l, e :: s) :=
  readList_dump he s l hl _ (by
    have := length_dumpList l
    simp only [List.length_append, List.length_cons]; omega)

end Ref
end Splint.Lib
