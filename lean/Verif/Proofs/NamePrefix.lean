import Verif.Proofs.NameCheck
/-! # Namespace prefixes -/
namespace Splint.NameCheck
open Splint Spec

theorem idchar_not {nc : UInt8} (h : IdChar nc) {pc : UInt8}
    (hp : pc = code '^' ∨ pc = code '&' ∨ pc = code '%' ∨ pc = code '~' ∨ pc = code '$' ∨
      pc = code '/' ∨ pc = code '?' ∨ pc = code '#') : nc ≠ pc := by
  rintro rfl
  revert h
  rcases hp with h | h | h | h | h | h | h | h <;> subst h <;>
    simp [IdChar, Upper, Lower, Digit, code]

theorem char_iff {nc : UInt8} (h : IdChar nc) (pc : UInt8) :
    matchPrefixChar nc pc = true ↔ InClass pc nc := by
  have hn := fun hp => idchar_not h (pc := pc) hp
  unfold matchPrefixChar InClass
  simp only [show ch '^' = code '^' from rfl, show ch '&' = code '&' from rfl,
    show ch '?' = code '?' from rfl, show ch '#' = code '#' from rfl,
    show ch '%' = code '%' from rfl, show ch '~' = code '~' from rfl,
    show ch '$' = code '$' from rfl, show ch '/' = code '/' from rfl, beq_iff_eq]
  by_cases h1 : pc = code '^'
  · have := hn (by tauto)
    subst h1; simp [this, isupper_iff]
  by_cases h2 : pc = code '&'
  · have := hn (by tauto)
    subst h2; simp [this, islower_iff, show ¬ code '&' = code '^' by decide]
  by_cases h3 : pc = code '%'
  · have := hn (by tauto)
    subst h3
    simp [this, ← isupper_iff, show ¬ code '%' = code '^' by decide,
      show ¬ code '%' = code '&' by decide, show ¬ code '%' = code '?' by decide,
      show ¬ code '%' = code '#' by decide]
  by_cases h4 : pc = code '~'
  · have := hn (by tauto)
    subst h4
    simp [this, ← islower_iff, show ¬ code '~' = code '^' by decide,
      show ¬ code '~' = code '&' by decide, show ¬ code '~' = code '?' by decide,
      show ¬ code '~' = code '#' by decide, show ¬ code '~' = code '%' by decide]
  by_cases h5 : pc = code '$'
  · have := hn (by tauto)
    subst h5
    simp [this, ← islower_iff, ← isupper_iff, isalpha, show ¬ code '$' = code '^' by decide,
      show ¬ code '$' = code '&' by decide, show ¬ code '$' = code '?' by decide,
      show ¬ code '$' = code '#' by decide, show ¬ code '$' = code '%' by decide,
      show ¬ code '$' = code '~' by decide]
  by_cases h6 : pc = code '/'
  · have := hn (by tauto)
    subst h6
    simp [this, ← islower_iff, ← isupper_iff, ← isdigit_iff, isalpha,
      show ¬ code '/' = code '^' by decide,
      show ¬ code '/' = code '&' by decide, show ¬ code '/' = code '?' by decide,
      show ¬ code '/' = code '#' by decide, show ¬ code '/' = code '%' by decide,
      show ¬ code '/' = code '~' by decide, show ¬ code '/' = code '$' by decide]
    tauto
  by_cases h7 : pc = code '?'
  · have := hn (by tauto)
    subst h7
    simp [this, show ¬ code '?' = code '^' by decide, show ¬ code '?' = code '&' by decide,
      show ¬ code '?' = code '%' by decide, show ¬ code '?' = code '~' by decide,
      show ¬ code '?' = code '$' by decide, show ¬ code '?' = code '/' by decide]
  by_cases h8 : pc = code '#'
  · have := hn (by tauto)
    subst h8
    simp [this, ← isdigit_iff, show ¬ code '#' = code '^' by decide,
      show ¬ code '#' = code '&' by decide, show ¬ code '#' = code '?' by decide,
      show ¬ code '#' = code '%' by decide, show ¬ code '#' = code '~' by decide,
      show ¬ code '#' = code '$' by decide, show ¬ code '#' = code '/' by decide]
  simp [h1, h2, h3, h4, h5, h6, h7, h8]

theorem charAt_drop (l : Bytes) (k : Nat) (h : k < l.length) :
    l.drop k = charAt l (k + 1) :: l.drop (k + 1) := by
  rw [List.drop_eq_getElem_cons h]
  simp [charAt, List.getD_eq_getElem?_getD, List.getElem?_eq_getElem h]

theorem charAt_plain {pre : Bytes} (hp : Plain pre) (n : Nat) :
    (charAt pre n == ch '*') = false := by
  rw [beq_eq_false_iff_ne]
  unfold charAt
  rw [List.getD_eq_getElem?_getD]
  cases h : pre[n - 1]? with
  | none => decide
  | some c => exact hp c (List.mem_of_getElem? h)

theorem plain_loop {name pre : Bytes} (hn : ∀ x ∈ name, IdChar x) (hp : Plain pre) :
    ∀ (rest : Bytes) (k : Nat) (last : UInt8), Plain rest → k ≤ name.length →
      (matchLoop name pre rest (k + 1) last = true ↔ Fits rest (name.drop k)) := by
  intro rest
  induction rest with
  | nil => intro k last _ _; simp [matchLoop, Fits]
  | cons c rest ih =>
    intro k last hr hk
    rw [matchLoop]
    have hc : (c == ch '*') = false := by
      rw [beq_eq_false_iff_ne]; exact hr c (List.mem_cons_self ..)
    rw [hc]
    simp only [Bool.false_eq_true, if_false]
    by_cases hlen : k + 1 > name.length
    · rw [if_pos hlen, charAt_plain hp]
      have : name.drop k = [] := List.drop_eq_nil_of_le (by omega)
      rw [this]
      simp [Fits]
    · rw [if_neg hlen, charAt_drop name k (by omega), Fits]
      have hid : IdChar (charAt name (k + 1)) := by
        apply hn
        apply List.mem_of_mem_drop (i := k)
        rw [charAt_drop name k (by omega)]
        exact List.mem_cons_self ..
      rw [← char_iff hid]
      by_cases hm : matchPrefixChar (charAt name (k + 1)) c = true
      · simp only [hm, Bool.not_true, Bool.false_eq_true, if_false, true_and]
        exact ih (k + 1) c (fun x hx => hr x (List.mem_cons_of_mem _ hx)) (by omega)
      · simp [hm]

theorem star_loop {name : Bytes} (p : Bytes) (c : UInt8) (hn : ∀ x ∈ name, IdChar x)
    (hp : Plain p) (hc : c ≠ code '*') :
    ∀ (todo done : Bytes) (last : UInt8), p = done ++ todo → done.length ≤ name.length →
      (matchLoop name (p ++ [c, code '*']) (todo ++ [c, code '*']) (done.length + 1) last = true ↔
        (name.length > 1 ∧ name.length = p.length ∧ Fits todo (name.drop done.length)) ∨
        (Fits (todo ++ [c]) (name.drop done.length) ∧
          ∀ x ∈ name.drop (p.length + 2), InClass c x)) := by
  intro todo
  induction todo with
  | nil =>
    intro done last hd hlen
    have hpl : p = done := by simpa using hd
    subst hpl
    simp only [List.nil_append]
    rw [matchLoop]
    have hc2 : (c == ch '*') = false := by
      rw [beq_eq_false_iff_ne]; exact hc
    rw [hc2]
    simp only [Bool.false_eq_true, if_false]
    by_cases hl : p.length + 1 > name.length
    · rw [if_pos hl]
      have h1 : name.drop p.length = [] := List.drop_eq_nil_of_le (by omega)
      have h2 : charAt (p ++ [c, code '*']) (p.length + 1 + 1) = code '*' := by
        simp [charAt, List.getD_eq_getElem?_getD]
      rw [h1, h2]
      simp [Fits, show (code '*' == ch '*') = true from by decide]
      intro _; omega
    · rw [if_neg hl, charAt_drop name p.length (by omega)]
      simp only [Fits, and_true]
      have hid : IdChar (charAt name (p.length + 1)) := by
        apply hn
        apply List.mem_of_mem_drop (i := p.length)
        rw [charAt_drop name p.length (by omega)]
        exact List.mem_cons_self ..
      rw [← char_iff hid]
      by_cases hm : matchPrefixChar (charAt name (p.length + 1)) c = true
      · simp only [hm, Bool.not_true, Bool.false_eq_true, if_false, true_and]
        rw [matchLoop]
        simp only [show (code '*' == ch '*') = true from by decide, if_true, List.all_eq_true]
        constructor
        · intro h
          right
          intro x hx
          exact (char_iff (hn x (List.mem_of_mem_drop hx)) c).mp (h x hx)
        · rintro (⟨-, h⟩ | h)
          · omega
          · intro x hx
            exact (char_iff (hn x (List.mem_of_mem_drop hx)) c).mpr (h x hx)
      · simp only [hm, Bool.not_false, if_true, Bool.false_eq_true, false_and, or_false, false_iff]
        rintro ⟨-, h⟩
        omega
  | cons t todo ih =>
    intro done last hd hlen
    rw [List.cons_append, matchLoop]
    have ht : (t == ch '*') = false := by
      rw [beq_eq_false_iff_ne]
      exact hp t (by rw [hd]; simp)
    rw [ht]
    simp only [Bool.false_eq_true, if_false]
    have hpl : p.length = done.length + todo.length + 1 := by rw [hd]; simp; omega
    by_cases hl : done.length + 1 > name.length
    · rw [if_pos hl]
      have h1 : name.drop done.length = [] := List.drop_eq_nil_of_le (by omega)
      have h2 : (charAt (p ++ [c, code '*']) (done.length + 1 + 1) == ch '*') = false := by
        rw [beq_eq_false_iff_ne]
        have : charAt (p ++ [c, code '*']) (done.length + 1 + 1) ∈ todo ++ [c] := by
          have hx : p ++ [c, code '*'] = (done ++ [t]) ++ (todo ++ [c] ++ [code '*']) := by
            rw [hd]; simp
          rw [hx]
          unfold charAt
          rw [List.getD_eq_getElem?_getD, List.getElem?_append_right (by simp)]
          simp only [List.length_append, List.length_cons, List.length_nil]
          rw [show done.length + 1 + 1 - 1 - (done.length + (0 + 1)) = 0 by omega]
          cases todo <;> simp
        rcases List.mem_append.mp this with h | h
        · have hsub : ∀ x ∈ todo, x ∈ p := by intro x hx; rw [hd]; simp [hx]
          exact hp _ (hsub _ h)
        · rw [List.mem_singleton] at h
          rw [h]; exact hc
      rw [h2, h1]
      simp only [Bool.and_false, Bool.false_eq_true, List.cons_append, Fits, and_false, false_and,
        or_self]
    · rw [if_neg hl, charAt_drop name done.length (by omega), List.cons_append, Fits, Fits]
      have hid : IdChar (charAt name (done.length + 1)) := by
        apply hn
        apply List.mem_of_mem_drop (i := done.length)
        rw [charAt_drop name done.length (by omega)]
        exact List.mem_cons_self ..
      rw [← char_iff hid]
      by_cases hm : matchPrefixChar (charAt name (done.length + 1)) t = true
      · simp only [hm, Bool.not_true, Bool.false_eq_true, if_false, true_and]
        have := ih (done ++ [t]) t (by rw [hd]; simp) (by simp; omega)
        simpa using this
      · simp [hm]

theorem plain_exactly {name p : Bytes} (hn : ∀ x ∈ name, IdChar x) (hp : Plain p) :
    matchPrefix (some name) (some p) = true ↔ Fits p name := by
  have := plain_loop hn hp p 0 0 hp (by omega)
  simpa [matchPrefix] using this

theorem star_exactly {name p : Bytes} {c : UInt8} (hn : ∀ x ∈ name, IdChar x) (hp : Plain p)
    (hc : c ≠ code '*') :
    matchPrefix (some name) (some (p ++ [c, code '*'])) = true ↔
      (name.length > 1 ∧ name.length = p.length ∧ Fits p name) ∨
      (Fits (p ++ [c]) name ∧ ∀ x ∈ name.drop (p.length + 2), InClass c x) := by
  have := star_loop p c hn hp hc p [] 0 rfl (by simp)
  simpa [matchPrefix] using this

theorem fits_append (p : Bytes) (c : UInt8) (name : Bytes) :
    Fits (p ++ [c]) name ↔ Fits p name ∧ ∃ x, name[p.length]? = some x ∧ InClass c x := by
  induction p generalizing name with
  | nil => cases name <;> simp [Fits]
  | cons a p ih =>
    cases name with
    | nil => simp [Fits]
    | cons x name => simp [Fits, ih, and_assoc]

theorem fits_length {p name : Bytes} (h : Fits p name) : p.length ≤ name.length := by
  induction p generalizing name with
  | nil => simp
  | cons a p ih =>
    cases name with
    | nil => simp [Fits] at h
    | cons x name =>
      have := ih h.2
      simpa using this

/-- The prefix with `*` does what the manual says but for a name of one character, and for the
character two places after the part before the repeated one. -/
theorem star_agrees {name p : Bytes} {c : UInt8} (hn : ∀ x ∈ name, IdChar x) (hp : Plain p)
    (hc : c ≠ code '*') (hne : name ≠ []) :
    (matchPrefix (some name) (some (p ++ [c, code '*'])) = true ↔ FitsStar p c name) ↔
      ¬ (name.length = 1 ∧ p.length = 1 ∧ Fits p name) ∧
      ¬ (Fits (p ++ [c]) name ∧ (∀ x ∈ name.drop (p.length + 2), InClass c x) ∧
          ∃ x, name[p.length + 1]? = some x ∧ ¬ InClass c x) := by
  rw [star_exactly hn hp hc]
  unfold FitsStar
  by_cases hf : Fits p name
  · have hlen := fits_length hf
    rcases Nat.eq_or_lt_of_le hlen with he | hlt
    · have h1 : name[p.length]? = none := List.getElem?_eq_none (by omega)
      have h2 : name.drop p.length = [] := List.drop_eq_nil_of_le (by omega)
      have h3 : name.length ≠ 0 := by simpa using hne
      simp only [fits_append, hf, h1, h2]
      simp
      omega
    · have h3 : name[p.length]? = some name[p.length] := List.getElem?_eq_getElem hlt
      have h4 : name.drop p.length = name[p.length] :: name.drop (p.length + 1) :=
        List.drop_eq_getElem_cons hlt
      generalize name[p.length] = y at h3 h4
      simp only [fits_append, hf, h3, h4, Option.some.injEq, exists_eq_left', true_and, and_true,
        List.mem_cons, forall_eq_or_imp]
      rcases Nat.lt_or_ge (p.length + 1) name.length with h5 | h5
      · have h6 : name[p.length + 1]? = some name[p.length + 1] := List.getElem?_eq_getElem h5
        have h7 : name.drop (p.length + 1) = name[p.length + 1] :: name.drop (p.length + 2) :=
          List.drop_eq_getElem_cons h5
        generalize name[p.length + 1] = z at h6 h7
        simp only [h6, h7, List.mem_cons, forall_eq_or_imp, Option.some.injEq, exists_eq_left']
        have e1 : ¬ (name.length > 1 ∧ name.length = p.length) := by omega
        have e2 : ¬ (name.length = 1 ∧ p.length = 1) := by omega
        tauto
      · have h6 : name[p.length + 1]? = none := List.getElem?_eq_none h5
        have h7 : name.drop (p.length + 1) = [] := List.drop_eq_nil_of_le h5
        have h8 : name.drop (p.length + 2) = [] := List.drop_eq_nil_of_le (by omega)
        simp only [h6, h7, h8]
        simp
        have e1 : ¬ (name.length > 1 ∧ name.length = p.length) := by omega
        have e2 : ¬ (name.length = 1 ∧ p.length = 1) := by omega
        tauto
  · simp only [fits_append, hf]
    simp

/-! ## Namespaces -/

set_option maxHeartbeats 2000000 in
theorem classify_iff (d : PDecl) (k : NS) : classify d = .ns k ↔ Is d k := by
  unfold classify
  split_ifs <;> cases k <;> simp [*, Is, Is.Plainly, Is.Inner]

theorem fallBack_find (fl : PFlags) (k : NS) (hk : k ≠ .uncheckedMacro) (hi : k ≠ .iter) (n : NS) :
    (fl.on (fallBack fl.on k) = true ∧ fallBack fl.on k = n) ↔ MostSpecific fl k n := by
  unfold MostSpecific
  cases k with
  | uncheckedMacro => exact absurd rfl hk
  | iter => exact absurd rfl hi
  | enum =>
    cases h1 : fl.on .enum <;> cases h2 : fl.on .const <;> cases h3 : fl.on .ext <;>
      simp [fallBack, contexts, h1, h2, h3]
  | type => cases h1 : fl.on .type <;> cases h3 : fl.on .ext <;> simp [fallBack, contexts, h1, h3]
  | glob => cases h1 : fl.on .glob <;> cases h3 : fl.on .ext <;> simp [fallBack, contexts, h1, h3]
  | const => cases h1 : fl.on .const <;> cases h3 : fl.on .ext <;> simp [fallBack, contexts, h1, h3]
  | ext => cases h3 : fl.on .ext <;> simp [fallBack, contexts, h3]
  | tag => cases h3 : fl.on .tag <;> simp [fallBack, contexts, h3]
  | fileStatic => cases h3 : fl.on .fileStatic <;> simp [fallBack, contexts, h3]
  | macroVar => cases h3 : fl.on .macroVar <;> simp [fallBack, contexts, h3]
  | loc => cases h3 : fl.on .loc <;> simp [fallBack, contexts, h3]

theorem checkPrefix_eq {fl : PFlags} {d : PDecl} {name : Bytes} {k : NS} (h : Is d k) :
    ∃ rs, checkPrefix fl d name = some rs ∧
      (∀ n, PReport.own n ∈ rs ↔ fallBack fl.on k = n ∧ fl.on n = true ∧
        matchPrefix (some name) (fl.str n) = false) ∧
      (∀ n, PReport.other n ∈ rs ↔ n ∈ excludeCodes ∧ fl.exclude n = true ∧
        excludeCheck n (fallBack fl.on k) = true ∧ (fl.str n).isSome = true ∧
        matchPrefix (some name) (fl.str n) = true) := by
  rw [← classify_iff] at h
  refine ⟨_, by rw [checkPrefix, h], ?_, ?_⟩
  · intro n
    simp only [List.mem_append, List.mem_filterMap]
    constructor
    · rintro (h1 | ⟨a, -, h1⟩)
      · split at h1
        · rename_i hc
          simp only [List.mem_singleton, PReport.own.injEq] at h1
          subst h1
          simpa using hc
        · cases h1
      · split at h1 <;> cases h1
    · rintro ⟨rfl, h1, h2⟩
      left
      simp [h1, h2]
  · intro n
    simp only [List.mem_append, List.mem_filterMap]
    constructor
    · rintro (h1 | ⟨a, ha, h1⟩)
      · split at h1
        · simp at h1
        · cases h1
      · split at h1
        · rename_i hc
          simp only [Option.some.injEq, PReport.other.injEq] at h1
          subst h1
          simp only [Bool.and_eq_true] at hc
          tauto
        · cases h1
    · rintro ⟨h1, h2, h3, h4, h5⟩
      right
      exact ⟨n, h1, by simp [h2, h3, h4, h5]⟩

end Splint.NameCheck
