import Verif.Spec.NameCheck
import Verif.Proofs.CString
import Verif.Tactics
/-! # The search in a table of names -/
namespace Splint.NameCheck
open Splint Spec

theorem strcmp_lt (s t : Bytes) : strcmp s t < 0 ↔ s < t := by
  induction s generalizing t with
  | nil => cases t <;> simp [strcmp]
  | cons a s ih =>
    cases t with
    | nil => simp [strcmp]
    | cons b t =>
      rw [strcmp, List.cons_lt_cons_iff]
      by_cases hab : a < b
      · simp [hab]
      · by_cases hba : b < a
        · have : a ≠ b := by rintro rfl; exact hab hba
          simp [hab, hba, this]
        · have : a = b := UInt8.le_antisymm (UInt8.not_lt.mp hba) (UInt8.not_lt.mp hab)
          subst this
          simp [UInt8.lt_irrefl, ih]

theorem compare_zero {key : Bytes} (hk : key ≠ []) (e : Option Bytes) :
    cstring_compare (some key) e = 0 ↔ e = some key := by
  cases e with
  | none => simp [cstring_compare, cstring_isEmpty, hk]
  | some t => simp only [cstring_compare, strcmp_eq_zero, Option.some.injEq]; exact eq_comm

theorem compare_neg {key : Bytes} (hk : key ≠ []) (e : Option Bytes) :
    cstring_compare (some key) e < 0 ↔ Before (some key) e := by
  cases e with
  | none => simp [cstring_compare, cstring_isEmpty, hk, Before]
  | some t => simp [cstring_compare, strcmp_lt, Before]

theorem compare_pos {key : Bytes} (hk : key ≠ []) (e : Option Bytes) :
    cstring_compare (some key) e > 0 ↔ Before e (some key) := by
  cases e with
  | none => simp [cstring_compare, cstring_isEmpty, hk, Before]
  | some t =>
    simp only [cstring_compare, Before, ← strcmp_lt]
    rw [strcmp_antisymm key t]
    omega

theorem before_trans {a b c : Option Bytes} (h1 : Before a b) (h2 : Before b c) : Before a c := by
  cases a <;> cases b <;> cases c <;> simp_all [Before]
  exact List.lt_trans h1 h2

theorem before_irrefl (a : Option Bytes) : ¬ Before a a := by
  cases a <;> simp [Before]

theorem missed_half {d : Nat} (h : 2 ≤ d) : Missed d ↔ Missed (d / 2 - 1) := by
  constructor
  · intro hm
    cases hm with
    | one => omega
    | even n hn => have : (2 * n + 2) / 2 - 1 = n := by omega
                   rw [this]; exact hn
    | odd n hn => have : (2 * n + 3) / 2 - 1 = n := by omega
                  rw [this]; exact hn
  · intro hm
    rcases Nat.even_or_odd' d with ⟨k, rfl | rfl⟩
    · have : 2 * k / 2 - 1 = k - 1 := by omega
      rw [this] at hm
      have h2 := Missed.even _ hm
      have : 2 * (k - 1) + 2 = 2 * k := by omega
      rwa [this] at h2
    · have : (2 * k + 1) / 2 - 1 = k - 1 := by omega
      rw [this] at hm
      have h2 := Missed.odd _ hm
      have : 2 * (k - 1) + 3 = 2 * k + 1 := by omega
      rwa [this] at h2

/-- A table in order. -/
def Ordered (t : List (Option Bytes)) : Prop :=
  ∀ (i j : Nat) a b, i < j → t[i]? = some a → t[j]? = some b → Before a b

theorem loop_spec {key : Bytes} {t : List (Option Bytes)} (hk : key ≠ []) (hs : Ordered t) :
    ∀ (m : Nat) (low high last : Int), (high + 1 - low).toNat = m →
      0 ≤ low → low ≤ high + 1 → high ≤ t.length → low ≤ t.length → (last < low ∨ high < last) →
      (∀ (i : Nat) e, (i : Int) < low → t[i]? = some e → Before e (some key)) →
      (∀ (i : Nat) e, high < (i : Int) → t[i]? = some e → Before (some key) e) →
      ∃ r, bsearchLoop key t low high last = some r ∧
        ∀ i, r = some i ↔ t[i]? = some (some key) ∧
          ¬ (i + 1 = t.length ∧ high = t.length ∧ Missed ((t.length : Int) - low).toNat) := by
  intro m
  induction m using Nat.strong_induction_on with
  | _ m ih =>
    intro low high last hm h0 hlh hhn hln hlast hL hH
    rw [bsearchLoop]
    simp only
    generalize hmid : (high + low + 1) / 2 = mid
    by_cases hc : low ≤ high ∧ mid < (t.length : Int)
    · rw [if_pos hc]
      obtain ⟨hc1, hc2⟩ := hc
      have hm1 : low ≤ mid := by omega
      have hm2 : mid ≤ high := by omega
      rw [if_neg (by omega), if_neg (by omega)]
      have hlt : mid.toNat < t.length := by omega
      rw [List.getElem?_eq_getElem hlt]
      simp only
      have hget : t[mid.toNat]? = some t[mid.toNat] := List.getElem?_eq_getElem hlt
      generalize t[mid.toNat] = e at hget
      by_cases hz : cstring_compare (some key) e = 0
      · rw [if_pos hz]
        rw [compare_zero hk] at hz
        subst hz
        refine ⟨some mid.toNat, ?_, ?_⟩
        · rw [bsearchLoop.finish]
          split_ifs with hf
          · have hp : (mid - 1).toNat < t.length := by omega
            have hq : (mid + 1).toNat < t.length := by omega
            rw [List.getElem?_eq_getElem hp, List.getElem?_eq_getElem hq]
            simp only
            rw [if_pos]
            refine ⟨(compare_pos hk _).mpr ?_, (compare_neg hk _).mpr ?_⟩
            · exact hs (mid - 1).toNat mid.toNat _ _ (by omega) (List.getElem?_eq_getElem hp) hget
            · exact hs mid.toNat (mid + 1).toNat _ _ (by omega) hget (List.getElem?_eq_getElem hq)
          · rfl
        · intro i
          constructor
          · intro hi
            simp only [Option.some.injEq] at hi
            subst hi
            refine ⟨hget, ?_⟩
            rintro ⟨h1, h2, h3⟩
            have hd : 2 ≤ ((t.length : Int) - low).toNat := by omega
            rw [missed_half hd] at h3
            have : ((t.length : Int) - low).toNat / 2 - 1 = 0 := by omega
            rw [this] at h3
            cases h3
          · rintro ⟨hi, -⟩
            rcases Nat.lt_trichotomy i mid.toNat with h | h | h
            · exact absurd (hs _ _ _ _ h hi hget) (before_irrefl _)
            · rw [h]
            · exact absurd (hs _ _ _ _ h hget hi) (before_irrefl _)
      · rw [if_neg hz]
        by_cases hneg : cstring_compare (some key) e < 0
        · rw [if_pos hneg]
          rw [compare_neg hk] at hneg
          obtain ⟨r, hr, hri⟩ := ih (mid - 1 + 1 - low).toNat (by omega) low (mid - 1) mid rfl h0
            (by omega) (by omega) hln (by omega) hL (by
              intro i e' hi he'
              rcases Nat.lt_trichotomy mid.toNat i with h | h | h
              · exact before_trans hneg (hs _ _ _ _ h hget he')
              · subst h; rw [hget] at he'; cases he'; exact hneg
              · omega)
          refine ⟨r, hr, ?_⟩
          intro i
          rw [hri]
          constructor
          · rintro ⟨h1, -⟩
            refine ⟨h1, ?_⟩
            rintro ⟨h2, -, -⟩
            rcases Nat.lt_trichotomy mid.toNat i with h | h | h
            · exact absurd (before_trans hneg (hs _ _ _ _ h hget h1)) (before_irrefl _)
            · subst h; rw [hget] at h1; cases h1; exact absurd hneg (before_irrefl _)
            · omega
          · rintro ⟨h1, -⟩
            exact ⟨h1, by omega⟩
        · rw [if_neg hneg]
          have hpos : Before e (some key) := (compare_pos hk e).mp (by omega)
          obtain ⟨r, hr, hri⟩ := ih (high + 1 - (mid + 1)).toNat (by omega) (mid + 1) high mid rfl
            (by omega) (by omega) hhn (by omega) (by omega) (by
              intro i e' hi he'
              rcases Nat.lt_trichotomy i mid.toNat with h | h | h
              · exact before_trans (hs _ _ _ _ h he' hget) hpos
              · subst h; rw [hget] at he'; cases he'; exact hpos
              · omega) hH
          refine ⟨r, hr, ?_⟩
          intro i
          rw [hri]
          by_cases hh : high = t.length
          · have hd : 2 ≤ ((t.length : Int) - low).toNat := by omega
            have : ((t.length : Int) - (mid + 1)).toNat = ((t.length : Int) - low).toNat / 2 - 1 := by
              omega
            rw [this, ← missed_half hd]
          · simp [hh]
    · rw [if_neg hc]
      refine ⟨none, ?_, ?_⟩
      · rw [bsearchLoop.finish]
        split_ifs with hf
        · have hlo : mid = low ∧ low = high + 1 := by omega
          have hp : (mid - 1).toNat < t.length := by omega
          have hq : (mid + 1).toNat < t.length := by omega
          rw [List.getElem?_eq_getElem hp, List.getElem?_eq_getElem hq]
          simp only
          rw [if_pos]
          refine ⟨(compare_pos hk _).mpr ?_, (compare_neg hk _).mpr ?_⟩
          · exact hL _ _ (by omega) (List.getElem?_eq_getElem hp)
          · exact hH _ _ (by omega) (List.getElem?_eq_getElem hq)
        · rfl
      · intro i
        constructor
        · intro h; cases h
        · rintro ⟨hi, hno⟩
          have hil : i < t.length := by
            by_contra hge
            rw [List.getElem?_eq_none (by omega)] at hi
            cases hi
          by_cases h1 : (i : Int) < low
          · exact absurd (hL i _ h1 hi) (before_irrefl _)
          · by_cases h2 : high < (i : Int)
            · exact absurd (hH i _ h2 hi) (before_irrefl _)
            · exfalso
              apply hno
              have : ((t.length : Int) - low).toNat = 1 := by omega
              rw [this]
              exact ⟨by omega, by omega, Missed.one⟩

theorem bsearch_spec {key : Bytes} {t : List (Option Bytes)} (hk : key ≠ []) (hs : Ordered t) :
    ∃ r, bsearch key t = some r ∧
      ∀ i, r = some i ↔ t[i]? = some (some key) ∧ ¬ (i + 1 = t.length ∧ Missed t.length) := by
  obtain ⟨r, hr, hri⟩ := loop_spec hk hs _ 0 t.length (-1) rfl (by omega) (by omega) (by omega)
    (by omega) (by omega) (by intro i e h; omega) (by
      intro i e h he
      rw [List.getElem?_eq_none (by omega)] at he
      cases he)
  refine ⟨r, hr, ?_⟩
  intro i
  rw [hri]
  simp

theorem ordered_of_pairwise {t : List (Option Bytes)}
    (h : t.Pairwise fun a b => Before a b) : Ordered t := by
  intro i j a b hij hi hj
  rw [List.getElem?_eq_some_iff] at hi hj
  obtain ⟨hi1, rfl⟩ := hi
  obtain ⟨hj1, rfl⟩ := hj
  exact List.pairwise_iff_getElem.mp h i j hi1 hj1 hij

instance : DecidableRel Before := fun a b =>
  match a, b with
  | some a, some b => inferInstanceAs (Decidable (a < b))
  | some _, none => isTrue trivial
  | none, _ => isFalse (fun h => by cases h)

theorem reserved_ordered : Ordered reservedNames :=
  ordered_of_pairwise (by decide +kernel)

theorem cpp_ordered : Ordered cppNames :=
  ordered_of_pairwise (by decide +kernel)

end Splint.NameCheck
