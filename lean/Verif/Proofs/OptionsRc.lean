import Verif.Spec.Options
namespace Splint.Opt

/-- The place the variables of `scan` stand for. -/
def placeOf (e q : Bool) : Spec.Place := if e then .escaped else if q then .quoted else .plain

theorem scan_spec (s : Word) : ∀ (e q : Bool), (e = true → q = true) →
    s = (scan e q s).1 ++ (scan e q s).2
    ∧ (∀ p c r, (scan e q s).1 = p ++ c :: r → p.foldl Spec.Place.step (placeOf e q) = .plain →
        ¬Spec.isEnd c)
    ∧ ((scan e q s).2 = [] ∨ (scan e q s).1.foldl Spec.Place.step (placeOf e q) = .plain
        ∧ ∃ d t, (scan e q s).2 = d :: t ∧ Spec.isEnd d) := by
  induction s with
  | nil =>
    intro e q _
    exact ⟨rfl, by intro p c r h; simp [scan] at h, .inl rfl⟩
  | cons c s ih =>
    intro e q hq
    have cont : ∀ (e' q' : Bool), (e' = true → q' = true) →
        scan e q (c :: s) = (c :: (scan e' q' s).1, (scan e' q' s).2) →
        placeOf e' q' = Spec.Place.step (placeOf e q) c →
        (placeOf e q = .plain → ¬Spec.isEnd c) →
        c :: s = (scan e q (c :: s)).1 ++ (scan e q (c :: s)).2
        ∧ (∀ p d r, (scan e q (c :: s)).1 = p ++ d :: r →
            p.foldl Spec.Place.step (placeOf e q) = .plain → ¬Spec.isEnd d)
        ∧ ((scan e q (c :: s)).2 = []
          ∨ (scan e q (c :: s)).1.foldl Spec.Place.step (placeOf e q) = .plain
          ∧ ∃ d t, (scan e q (c :: s)).2 = d :: t ∧ Spec.isEnd d) := by
      intro e' q' hq' h1 h2 h3
      obtain ⟨i1, i2, i3⟩ := ih e' q' hq'
      rw [h1]
      refine ⟨?_, ?_, ?_⟩
      · rw [List.cons_append, ← i1]
      · intro p d r hp hpl
        cases p with
        | nil =>
          simp only [List.nil_append, List.cons.injEq] at hp
          rw [← hp.1]
          exact h3 hpl
        | cons x p =>
          simp only [List.cons_append, List.cons.injEq] at hp
          rw [List.foldl_cons, ← hp.1, ← h2] at hpl
          exact i2 p d r hp.2 hpl
      · rw [List.foldl_cons, ← h2]
        exact i3
    by_cases he : e = true
    · subst he
      have := hq rfl
      subst this
      exact cont false true (by simp) (by simp [scan]) (by simp [placeOf, Spec.Place.step])
        (by simp [placeOf])
    · simp only [Bool.not_eq_true] at he
      subst he
      cases q with
      | true =>
        by_cases h1 : c = '\\'
        · exact cont true true (by simp) (by simp [scan, h1]) (by simp [placeOf, Spec.Place.step, h1])
            (by simp [placeOf])
        · by_cases h2 : c = '"'
          · exact cont false false (by simp) (by simp [scan, h2])
              (by simp [placeOf, Spec.Place.step, h2]) (by simp [placeOf])
          · exact cont false true (by simp) (by simp [scan, h1, h2])
              (by simp [placeOf, Spec.Place.step, h1, h2]) (by simp [placeOf])
      | false =>
        by_cases h2 : c = '"'
        · exact cont false true (by simp) (by simp [scan, h2])
            (by simp [placeOf, Spec.Place.step, h2])
            (by intro _ h; subst h2; simp [Spec.isEnd, Spec.isBlank] at h)
        · by_cases h3 : c = ' ' ∨ c = '\t' ∨ c = '\n'
          · have : scan false false (c :: s) = ([], c :: s) := by
              rw [scan]
              simp only [Bool.false_eq_true, if_false]
              rw [if_neg h2, if_pos h3]
            rw [this]
            refine ⟨rfl, by intro p d r h; simp at h, .inr ⟨rfl, c, s, rfl, ?_⟩⟩
            simp only [Spec.isEnd, Spec.isBlank]
            tauto
          · exact cont false false (by simp) (by
              rw [scan]
              simp only [Bool.false_eq_true, if_false]
              rw [if_neg h2, if_neg h3]) (by simp [placeOf, Spec.Place.step, h2])
              (by intro _ h; simp only [Spec.isEnd, Spec.isBlank] at h; tauto)

theorem scan_eq {w rest : Word} (hw : Spec.Unbroken w)
    (hr : rest = [] ∨ Spec.place w = .plain ∧ ∃ d t, rest = d :: t ∧ Spec.isEnd d) :
    scan false false (w ++ rest) = (w, rest) := by
  obtain ⟨h1, h2, h3⟩ := scan_spec (w ++ rest) false false (by simp)
  generalize (scan false false (w ++ rest)) = r at h1 h2 h3
  obtain ⟨a, b⟩ := r
  simp only [placeOf, Bool.false_eq_true, if_false] at h1 h2 h3
  have key : a = w := by
    rcases List.append_eq_append_iff.1 h1 with ⟨l, e1, e2⟩ | ⟨l, e1, e2⟩
    · -- `a` is longer
      cases l with
      | nil => simpa using e1
      | cons c l =>
        rcases hr with rfl | ⟨hp, d, t, rfl, hd⟩
        · simp at e2
        · simp only [List.cons_append, List.cons.injEq] at e2
          exact absurd hd (h2 w d l (by rw [e1, e2.1]) hp)
    · cases l with
      | nil => simpa using e1.symm
      | cons c l =>
        rcases h3 with rfl | ⟨hp, d, t, rfl, hd⟩
        · simp at e2
        · simp only [List.cons_append, List.cons.injEq] at e2
          exact absurd hd (hw a d l (by rw [e1, e2.1]) hp)
  subst key
  simp only [List.append_cancel_left_eq] at h1
  rw [h1]

theorem flagsFrom_cons (c : Char) (cs : Word) :
    flagsFrom (c :: cs) = if c = '#' ∨ c = ';' ∨ c = '\n' then some []
      else if (scan false false (c :: cs)).1 = [] then none
      else (flagsFrom (skipBlanks (scan false false (c :: cs)).2)).map
        ((scan false false (c :: cs)).1 :: ·) := by
  rw [flagsFrom]
  split
  · rfl
  · split
    rename_i w rest h
    rw [h]
    simp only
    split <;> rfl

theorem flagsFrom_nil : flagsFrom [] = some [] := by rw [flagsFrom]

theorem skipBlanks_blank {c : Char} (h : Spec.isBlank c) (s : Word) :
    skipBlanks (c :: s) = skipBlanks s := by
  unfold skipBlanks
  rw [List.dropWhile_cons_of_pos]
  rcases h with rfl | rfl <;> rfl

theorem skipBlanks_other {c : Char} (h : ¬Spec.isBlank c) (s : Word) :
    skipBlanks (c :: s) = c :: s := by
  unfold skipBlanks
  rw [List.dropWhile_cons_of_neg]
  simp only [Spec.isBlank] at h
  simp only [Bool.or_eq_true, beq_iff_eq]
  exact h

theorem lineFlags_of_line {s : Word} {ws : List Word} (h : Spec.Line s ws) :
    lineFlags s = some ws := by
  unfold lineFlags
  induction h with
  | nil => exact flagsFrom_nil
  | blank h _ ih => rw [skipBlanks_blank h]; exact ih
  | @comment c s h =>
    rw [skipBlanks_other, flagsFrom_cons, if_pos h]
    rcases h with rfl | rfl | rfl <;> simp [Spec.isBlank]
  | @flag c w rest ws hc hw hr _ ih =>
    have hb : ¬Spec.isEnd c := hw [] c w rfl rfl
    have hb1 : ¬Spec.isBlank c := fun h => hb (.inl h)
    rw [List.cons_append, skipBlanks_other hb1, flagsFrom_cons, if_neg (by
      rintro (h | h | h)
      · exact hc (.inl h)
      · exact hc (.inr h)
      · exact hb (.inr h)), ← List.cons_append, scan_eq hw hr]
    simp [ih]

theorem line_exists (s : Word) : ∃ ws, Spec.Line s ws := by
  suffices h : ∀ n, ∀ s : Word, s.length ≤ n → ∃ ws, Spec.Line s ws from h s.length s (Nat.le_refl _)
  intro n
  induction n with
  | zero =>
    intro s h
    have : s = [] := List.length_eq_zero_iff.1 (by omega)
    exact ⟨[], this ▸ .nil⟩
  | succ n ih =>
    intro s h
    cases s with
    | nil => exact ⟨[], .nil⟩
    | cons c s =>
      rw [List.length_cons] at h
      by_cases hb : Spec.isBlank c
      · obtain ⟨ws, hws⟩ := ih s (by omega)
        exact ⟨ws, .blank hb hws⟩
      · by_cases hc : c = '#' ∨ c = ';' ∨ c = '\n'
        · exact ⟨[], .comment s hc⟩
        · obtain ⟨h1, h2, h3⟩ := scan_spec (c :: s) false false (by simp)
          simp only [placeOf, Bool.false_eq_true, if_false] at h2 h3
          cases hw : (scan false false (c :: s)).1 with
          | nil =>
            rw [hw, List.nil_append] at h1
            rcases h3 with h3 | ⟨_, d, t, h3, hd⟩
            · rw [h3] at h1; cases h1
            · rw [h3] at h1
              cases h1
              simp only [Spec.isEnd] at hd
              tauto
          | cons d w =>
            rw [hw] at h1 h2 h3
            have e : c = d := by
              rw [List.cons_append] at h1
              exact (List.cons.inj h1).1
            subst e
            have hl : (scan false false (c :: s)).2.length ≤ n := by
              have := congrArg List.length h1
              simp only [List.length_append, List.length_cons] at this
              omega
            obtain ⟨ws, hws⟩ := ih _ hl
            rw [h1]
            exact ⟨(c :: w) :: ws, .flag (by tauto) h2 h3 hws⟩

theorem lineFlags_iff (s : Word) (ws : List Word) : lineFlags s = some ws ↔ Spec.Line s ws := by
  constructor
  · intro h
    obtain ⟨ws', h'⟩ := line_exists s
    rw [lineFlags_of_line h'] at h
    cases h
    exact h'
  · exact lineFlags_of_line

theorem lineFlags_some (s : Word) : ∃ ws, lineFlags s = some ws := by
  obtain ⟨ws, h⟩ := line_exists s
  exact ⟨ws, lineFlags_of_line h⟩

end Splint.Opt
