import Verif.Spec.CppArgs
namespace Splint.CppArgs
open Spec

theorem opens_cons (t : AT) (l : List AT) : opens (t :: l) = opens l + (if t = .lp then 1 else 0) := by
  cases t <;> simp [opens]

theorem closes_cons (t : AT) (l : List AT) : closes (t :: l) = closes l + (if t = .rp then 1 else 0) := by
  cases t <;> simp [closes]

theorem opens_append (a b : List AT) : opens (a ++ b) = opens a + opens b := by simp [opens]
theorem closes_append (a b : List AT) : closes (a ++ b) = closes a + closes b := by simp [closes]

/-- the same, `d` parentheses being open -/
def fitsFrom (d : Nat) (l : List AT) : Prop := ∀ q, q <+: l → closes q ≤ d + opens q
def noCommaFrom (d : Nat) (l : List AT) : Prop := ∀ q, q ++ [AT.comma] <+: l → closes q < d + opens q

theorem fitsFrom_nil (d : Nat) : fitsFrom d [] := by
  intro q hq
  simp at hq
  subst hq
  simp [closes]

theorem fitsFrom_cons {d d' : Nat} {t : AT} {l : List AT} (hd : d' + (if t = .rp then 1 else 0) = d + (if t = .lp then 1 else 0)) :
    fitsFrom d (t :: l) ↔ fitsFrom d' l := by
  constructor
  · intro h q hq
    have := h (t :: q) (List.cons_prefix_cons.2 ⟨rfl, hq⟩)
    rw [opens_cons, closes_cons] at this
    omega
  · intro h q hq
    cases q with
    | nil => simp [closes]
    | cons x q =>
      obtain ⟨rfl, hq2⟩ := List.cons_prefix_cons.1 hq
      have := h q hq2
      rw [opens_cons, closes_cons]
      omega

theorem noCommaFrom_cons {d d' : Nat} {t : AT} {l : List AT} (hd : d' + (if t = .rp then 1 else 0) = d + (if t = .lp then 1 else 0)) :
    noCommaFrom d (t :: l) ↔ noCommaFrom d' l ∧ (t = .comma → 0 < d) := by
  constructor
  · intro h
    refine ⟨fun q hq => ?_, ?_⟩
    · have := h (t :: q) (List.cons_prefix_cons.2 ⟨rfl, hq⟩)
      rw [opens_cons, closes_cons] at this
      omega
    · rintro rfl
      have := h [] (by simp)
      simpa [closes, opens] using this
  · rintro ⟨h, h2⟩ q hq
    cases q with
    | nil =>
      rw [List.nil_append] at hq
      have e := (List.cons_prefix_cons.1 hq).1
      simpa [closes, opens] using h2 e.symm
    | cons x q =>
      obtain ⟨rfl, hq2⟩ := List.cons_prefix_cons.1 hq
      have := h q hq2
      rw [opens_cons, closes_cons]
      omega

/-- what `macarg` gives -/
def MSpec (rest : Bool) (d : Nat) (l : List AT) (x : List AT × End × List AT) : Prop :=
  fitsFrom d x.1 ∧ (rest = false → noCommaFrom d x.1) ∧
  match x.2.1 with
  | .eof => l = x.1 ∧ x.2.2 = []
  | .comma => l = x.1 ++ .comma :: x.2.2 ∧ closes x.1 = d + opens x.1 ∧ rest = false
  | .rp => l = x.1 ++ .rp :: x.2.2 ∧ closes x.1 = d + opens x.1

theorem MSpec_cons {rest : Bool} {d d' : Nat} {t : AT} {l : List AT} {x : List AT × End × List AT} (h : MSpec rest d' l x)
    (hd : d' + (if t = .rp then 1 else 0) = d + (if t = .lp then 1 else 0)) (hc : t = .comma → rest = false → 0 < d) :
    MSpec rest d (t :: l) (t :: x.1, x.2.1, x.2.2) := by
  obtain ⟨h1, h2, h3⟩ := h
  refine ⟨(fitsFrom_cons hd).2 h1, fun hr => (noCommaFrom_cons hd).2 ⟨h2 hr, fun ht => hc ht hr⟩, ?_⟩
  obtain ⟨a, e, r⟩ := x
  cases e
  · exact ⟨by rw [h3.1], h3.2⟩
  · refine ⟨by rw [h3.1]; rfl, ?_, h3.2.2⟩
    have := h3.2.1
    simp only at this ⊢
    rw [opens_cons, closes_cons]
    omega
  · refine ⟨by rw [h3.1]; rfl, ?_⟩
    have := h3.2
    simp only at this ⊢
    rw [opens_cons, closes_cons]
    omega

theorem noCommaFrom_nil (d : Nat) : noCommaFrom d [] := by
  intro q hq
  simp at hq

theorem macarg_spec (rest : Bool) (d : Nat) (l : List AT) : MSpec rest d l (macarg rest d l) := by
  fun_induction macarg rest d l with
  | case1 => exact ⟨fitsFrom_nil _, fun _ => noCommaFrom_nil _, rfl, rfl⟩
  | case2 d r a e r' h ih => rw [h] at ih; exact MSpec_cons ih (by simp) (by simp)
  | case3 r => exact ⟨fitsFrom_nil _, fun _ => noCommaFrom_nil _, rfl, rfl⟩
  | case4 r d a e r' h ih => rw [h] at ih; exact MSpec_cons ih (by simp) (by simp)
  | case5 r hr a e r' h ih => rw [h] at ih; exact MSpec_cons ih (by simp) (by simp [hr])
  | case6 r hr => exact ⟨fitsFrom_nil _, fun _ => noCommaFrom_nil _, rfl, rfl, by simpa using hr⟩
  | case7 r d a e r' h ih => rw [h] at ih; exact MSpec_cons ih (by simp) (by simp)
  | case8 d l r a e r' h ih => rw [h] at ih; exact MSpec_cons ih (by simp) (by simp)

/-- an argument is found -/
theorem macarg_complete (rest : Bool) (e : AT) (he : e = .rp ∨ (e = .comma ∧ rest = false)) (r : List AT) : ∀ (a : List AT) (d : Nat),
    fitsFrom d a → closes a = d + opens a → (rest = true ∨ noCommaFrom d a) →
    macarg rest d (a ++ e :: r) = (a, if e = .rp then .rp else .comma, r) := by
  intro a
  induction a with
  | nil =>
    intro d _ h _
    obtain rfl : d = 0 := by simpa [closes, opens] using h.symm
    rcases he with rfl | ⟨rfl, rfl⟩ <;> simp [macarg]
  | cons t a ih =>
    intro d hf hc hn
    rw [closes_cons, opens_cons] at hc
    cases t with
    | lp =>
      have := ih (d + 1) ((fitsFrom_cons (by simp)).1 hf) (by simp at hc; omega) (hn.imp id fun h => ((noCommaFrom_cons (by simp)).1 h).1)
      rw [List.cons_append, macarg, this]
    | txt l =>
      have := ih d ((fitsFrom_cons (by simp)).1 hf) (by simpa using hc) (hn.imp id fun h => ((noCommaFrom_cons (by simp)).1 h).1)
      rw [List.cons_append, macarg, this]
    | rp =>
      cases d with
      | zero =>
        exfalso
        have := hf [AT.rp] (List.cons_prefix_cons.2 ⟨rfl, List.nil_prefix⟩)
        simp [closes, opens] at this
      | succ d =>
        have := ih d ((fitsFrom_cons (by simp)).1 hf) (by simp at hc; omega) (hn.imp id fun h => ((noCommaFrom_cons (by simp)).1 h).1)
        rw [List.cons_append, macarg, this]
    | comma =>
      have := ih d ((fitsFrom_cons (by simp)).1 hf) (by simpa using hc) (hn.imp id fun h => ((noCommaFrom_cons (by simp)).1 h).1)
      cases d with
      | zero =>
        rcases hn with hn | hn
        · rw [List.cons_append, macarg, if_pos hn, this]
        · exact absurd (((noCommaFrom_cons (d' := 0) (by simp)).1 hn).2 rfl) (by omega)
      | succ d => rw [List.cons_append, macarg, this]

theorem fitsFrom_zero (l : List AT) : fitsFrom 0 l ↔ fits l := by simp [fitsFrom, fits]
theorem noCommaFrom_zero (l : List AT) : noCommaFrom 0 l ↔ noComma l := by simp [noCommaFrom, noComma]

theorem joined_cons (a : List AT) (as : List (List AT)) (h : as ≠ []) : joined (a :: as) = a ++ .comma :: joined as := by
  cases as with
  | nil => exact absurd rfl h
  | cons b as => rfl

theorem scan_sound (nargs : Nat) (va : Bool) (i : Nat) (l : List AT) : ∀ as r, scan nargs va i l = some (as, r) →
    l = joined as ++ .rp :: r ∧ as ≠ [] ∧ areArgs nargs va i as := by
  fun_induction scan nargs va i l with
  | case1 i l x h hlt ih =>
    intro as r hs
    have hm := macarg_spec (va && decide (i + 1 = nargs)) 0 l
    obtain ⟨m1, m2, m3⟩ := hm
    rw [h] at m3
    obtain ⟨m3, m4, m5⟩ := m3
    cases hy : scan nargs va (i + 1) x.2.2 with
    | none => rw [hy] at hs; cases hs
    | some y =>
      rw [hy] at hs
      simp only [Option.map_some, Option.some.injEq, Prod.mk.injEq] at hs
      obtain ⟨rfl, rfl⟩ := hs
      obtain ⟨i1, i2, i3⟩ := ih y.1 y.2 hy
      refine ⟨?_, by simp, ?_⟩
      · rw [joined_cons _ _ i2, List.append_assoc, List.cons_append, ← i1]; exact m3
      · intro k a hk
        cases k with
        | zero =>
          simp only [List.getElem?_cons_zero, Option.some.injEq] at hk
          subst hk
          refine ⟨⟨(fitsFrom_zero _).1 m1, by rw [show x.1 = (macarg (va && decide (i + 1 = nargs)) 0 l).1 from rfl]; omega⟩, ?_⟩
          have : takesRest nargs va (i + 0) = false := m5
          rw [this]
          exact (noCommaFrom_zero _).1 (m2 m5)
        | succ k =>
          have := i3 k a (by simpa using hk)
          have e : i + (k + 1) = i + 1 + k := by omega
          rw [e]
          refine ⟨this.1, ?_⟩
          have h2 := this.2
          split at h2
          · next ht => rw [if_pos ht]; simp; omega
          · next ht => rw [if_neg ht]; exact h2
  | case2 i l x h h2 =>
    intro as r hs
    simp only [Option.some.injEq, Prod.mk.injEq] at hs
    obtain ⟨rfl, rfl⟩ := hs
    obtain ⟨m1, m2, m3⟩ := macarg_spec (va && decide (i + 1 = nargs)) 0 l
    have h2' : (macarg (va && decide (i + 1 = nargs)) 0 l).2.1 = .rp := h2
    rw [h2'] at m3
    refine ⟨m3.1, by simp, ?_⟩
    intro k a hk
    cases k with
    | zero =>
      simp only [List.getElem?_cons_zero, Option.some.injEq] at hk
      subst hk
      refine ⟨⟨(fitsFrom_zero _).1 m1, by have := m3.2; rw [show x.1 = (macarg (va && decide (i + 1 = nargs)) 0 l).1 from rfl]; omega⟩, ?_⟩
      split
      · simp
      · next ht => exact (noCommaFrom_zero _).1 (m2 (by simpa [takesRest] using ht))
    | succ k => simp at hk
  | case3 => intro as r hs; cases hs

theorem areArgs_tail {nargs : Nat} {va : Bool} {i : Nat} {a : List AT} {as : List (List AT)} (h : areArgs nargs va i (a :: as)) :
    areArgs nargs va (i + 1) as := by
  intro k b hk
  have := h (k + 1) b (by simpa using hk)
  have e : i + 1 + k = i + (k + 1) := by omega
  rw [e]
  refine ⟨this.1, ?_⟩
  have h2 := this.2
  split at h2
  · next ht => rw [if_pos ht]; simp at h2; omega
  · next ht => rw [if_neg ht]; exact h2

theorem scan_complete (nargs : Nat) (va : Bool) (r : List AT) : ∀ (as : List (List AT)) (i : Nat), as ≠ [] → areArgs nargs va i as →
    scan nargs va i (joined as ++ .rp :: r) = some (as, r) := by
  intro as
  induction as with
  | nil => intro i h; exact absurd rfl h
  | cons a as ih =>
    intro i _ h
    obtain ⟨⟨h1, h2⟩, h3⟩ := h 0 a rfl
    have hf := (fitsFrom_zero _).2 h1
    by_cases hn : as = []
    · subst hn
      have := macarg_complete (va && decide (i + 1 = nargs)) .rp (.inl rfl) r a 0 hf (by omega) (by
        simp only [Nat.add_zero] at h3
        split at h3
        · next ht => exact .inl ht
        · exact .inr ((noCommaFrom_zero _).2 h3))
      rw [scan]
      simp only [joined, this]
      simp
    · have ht : takesRest nargs va (i + 0) = false := by
        by_contra hx
        rw [if_pos (by simpa using hx)] at h3
        simp at h3
        exact hn h3
      rw [ht] at h3
      have ht' : (va && decide (i + 1 = nargs)) = false := ht
      have := macarg_complete (va && decide (i + 1 = nargs)) .comma (.inr ⟨rfl, ht'⟩) (joined as ++ .rp :: r) a 0 hf (by omega)
        (.inr ((noCommaFrom_zero _).2 h3))
      have e : joined (a :: as) ++ AT.rp :: r = a ++ .comma :: (joined as ++ .rp :: r) := by rw [joined_cons _ _ hn]; simp
      rw [e, scan]
      simp only [this]
      simp [ih (i + 1) hn (areArgs_tail h)]

theorem scan_none (nargs : Nat) (va : Bool) (i : Nat) (l : List AT) : scan nargs va i l = none →
    ∀ p r, l = p ++ .rp :: r → ¬ balanced p := by
  fun_induction scan nargs va i l with
  | case1 i l x h hlt ih =>
    intro hs p r hl hb
    obtain ⟨m1, m2, m3⟩ := macarg_spec (va && decide (i + 1 = nargs)) 0 l
    have h' : (macarg (va && decide (i + 1 = nargs)) 0 l).2.1 = .comma := h
    rw [h'] at m3
    obtain ⟨m3, m4, _⟩ := m3
    have hs : scan nargs va (i + 1) x.2.2 = none := by
      cases hy : scan nargs va (i + 1) x.2.2 with
      | none => rfl
      | some y => rw [hy] at hs; cases hs
    have ea : (macarg (va && decide (i + 1 = nargs)) 0 l).1 = x.1 := rfl
    have er : (macarg (va && decide (i + 1 = nargs)) 0 l).2.2 = x.2.2 := rfl
    rw [ea] at m1 m4
    rw [ea, er] at m3
    rw [hl] at m3
    rcases List.append_eq_append_iff.1 m3 with ⟨c, e1, e2⟩ | ⟨c, e1, e2⟩
    · -- `p` is inside of the argument
      cases c with
      | nil => simp at e2
      | cons y c =>
        simp only [List.cons_append, List.cons.injEq] at e2
        obtain ⟨rfl, _⟩ := e2
        have := m1 (p ++ [AT.rp]) (by rw [e1]; exact ⟨c, by simp⟩)
        rw [closes_append, opens_append] at this
        have h2 := hb.2
        simp [closes, opens] at this h2
        omega
    · cases c with
      | nil => simp at e2
      | cons y c =>
        simp only [List.cons_append, List.cons.injEq] at e2
        obtain ⟨rfl, e2⟩ := e2
        refine ih hs c r e2 ⟨fun q hq => ?_, ?_⟩
        · have := hb.1 (x.1 ++ AT.comma :: q) (by rw [e1]; exact (List.prefix_append_right_inj _).2 (List.cons_prefix_cons.2 ⟨rfl, hq⟩))
          rw [closes_append, opens_append, closes_cons, opens_cons] at this
          simp at this
          omega
        · have := hb.2
          rw [e1, closes_append, opens_append, closes_cons, opens_cons] at this
          simp at this
          omega
  | case2 => intro hs; cases hs
  | case3 i l x h h2 =>
    intro _ p r hl hb
    obtain ⟨m1, m2, m3⟩ := macarg_spec (va && decide (i + 1 = nargs)) 0 l
    have he : x.2.1 = .eof := by
      cases hx : x.2.1
      · rfl
      · exact absurd hx h
      · exact absurd hx h2
    have he' : (macarg (va && decide (i + 1 = nargs)) 0 l).2.1 = .eof := he
    rw [he'] at m3
    rw [← m3.1] at m1
    have := m1 (p ++ [AT.rp]) (by rw [hl]; exact ⟨r, by simp⟩)
    rw [closes_append, opens_append] at this
    have h2 := hb.2
    simp [closes, opens] at this h2
    omega

end Splint.CppArgs
