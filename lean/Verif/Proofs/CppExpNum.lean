import Verif.Proofs.CppExpVal
namespace Splint.CppExp

theorem idxOf_mem {α : Type} [DecidableEq α] {l : List α} {a : α} {n : Nat} (h : l.idxOf? a = some n) : a ∈ l := by
  by_contra hn
  have : l.idxOf? a = none := by simpa using hn
  rw [this] at h
  simp at h

theorem digitValue_mem {base : Nat} {c : Char} {d : Nat} (h : digitValue base c = some d) :
    c ∈ "0123456789abcdefABCDEF".toList := by
  unfold digitValue at h
  cases h1 : ("0123456789abcdef".toList.take base).idxOf? c with
  | some d' =>
    have := List.mem_of_mem_take (idxOf_mem h1)
    simp at this ⊢
    tauto
  | none =>
    rw [h1] at h
    have := List.mem_of_mem_take (idxOf_mem (by simpa using h))
    simp at this ⊢
    tauto

theorem digitOf_digitValue {base : Nat} (hb : base = 8 ∨ base = 10 ∨ base = 16) {c : Char} {d : Nat}
    (h : digitValue base c = some d) : digitOf base c = some d := by
  have hm := digitValue_mem h
  have key : ∀ c ∈ "0123456789abcdefABCDEF".toList, ∀ base ∈ [8, 10, 16], digitValue base c = none ∨
      digitOf base c = digitValue base c := by decide +kernel
  rcases key c hm base (by rcases hb with rfl | rfl | rfl <;> simp) with h1 | h1
  · rw [h1] at h; simp at h
  · rw [h1, h]

theorem digitValue_ne {base : Nat} {c : Char} {d : Nat} (h : digitValue base c = some d) :
    c ≠ '.' ∧ c ≠ 'x' ∧ c ≠ 'X' := by
  have hm := digitValue_mem h
  have key : ∀ c ∈ "0123456789abcdefABCDEF".toList, c ≠ '.' ∧ c ≠ 'x' ∧ c ≠ 'X' := by decide +kernel
  exact key c hm

theorem numeral_dot {base : Nat} : ∀ (cs : List Char) (n m : Nat), numeral base cs n = some m → '.' ∉ cs := by
  intro cs
  induction cs with
  | nil => simp
  | cons c cs ih =>
    intro n m h
    simp only [numeral] at h
    cases hd : digitValue base c with
    | none => rw [hd] at h; simp at h
    | some d =>
      rw [hd] at h
      simp only [Option.bind_some] at h
      have h1 := (digitValue_ne hd).1
      have h2 := ih _ _ h
      simp only [List.mem_cons, not_or]
      exact ⟨fun h => h1 h.symm, h2⟩

/-- What the suffix leaves. -/
theorem digitsLoop_suffix {base : Nat} (hb : base = 8 ∨ base = 10 ∨ base = 16) (n : Int) :
    ∀ p ∈ numberSuffixes, digitsLoop base p.1.toList n = some (n, 0, p.2) := by
  intro p hp
  simp only [numberSuffixes, List.mem_cons, List.not_mem_nil, or_false] at hp
  rcases hb with rfl | rfl | rfl <;>
    rcases hp with rfl | rfl | rfl | rfl | rfl | rfl | rfl | rfl | rfl | rfl | rfl | rfl | rfl <;> rfl

theorem digitsLoop_numeral {base : Nat} (hb : base = 8 ∨ base = 10 ∨ base = 16) {p : String × Bool}
    (hp : p ∈ numberSuffixes) : ∀ (cs : List Char) (n m : Nat), numeral base cs n = some m →
    digitsLoop base (cs ++ p.1.toList) (toLong n) = some (toLong m, 0, p.2) := by
  intro cs
  induction cs with
  | nil =>
    intro n m h
    simp only [numeral, Option.some.injEq] at h
    subst h
    exact digitsLoop_suffix hb _ p hp
  | cons c cs ih =>
    intro n m h
    simp only [numeral] at h
    cases hd : digitValue base c with
    | none => rw [hd] at h; simp at h
    | some d =>
      rw [hd] at h
      simp only [Option.bind_some] at h
      have := ih _ _ h
      simp only [List.cons_append, digitsLoop, digitOf_digitValue hb hd]
      have e : toLong (toLong n * base + d) = toLong ((n * base + d : Nat) : Int) := by
        refine toLong_congr ?_
        rw [Int.add_emod, Int.mul_emod, toLong_emod, ← Int.mul_emod, ← Int.add_emod]
        push_cast
        rfl
      rw [e]
      exact this

theorem toLong_neg {m : Nat} (h : m < 2 ^ 64) : toLong m < 0 ↔ 2 ^ 63 ≤ m := by
  have : ((m : Int) < 2 ^ 64) := by exact_mod_cast h
  simp only [toLong, Int.bmod]
  norm_num at *
  split <;> omega

theorem suffix_dot : ∀ p ∈ numberSuffixes, '.' ∉ p.1.toList := by decide +kernel

end Splint.CppExp
