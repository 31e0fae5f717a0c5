import Verif.Proofs.OptionsPre
namespace Splint.Opt

@[simp] theorem perform_nil (fs : Files) (seen : List Word) : perform fs seen [] = [] := by
  rw [perform]

theorem perform_seen (fs : Files) {seen : List Word} {n : Word} (h : n ∈ seen) (r : Bool)
    (as : List Act) :
    perform fs seen (.rc n r :: as)
      = (if r then [.msg (.again n)] else []) ++ perform fs seen as := by
  rw [perform, dif_pos h]

theorem perform_none {fs : Files} {seen : List Word} {n : Word} (h : n ∉ seen)
    (hl : fs.lookup n = none) (r : Bool) (as : List Act) :
    perform fs seen (.rc n r :: as)
      = (if r then [.msg (.cannotOpen n)] else []) ++ perform fs seen as := by
  rw [perform, dif_neg h]
  split
  · rfl
  · rename_i t ht; rw [hl] at ht; cases ht

theorem perform_bad {fs : Files} {seen : List Word} {n : Word} (h : n ∉ seen) {t : List Char}
    (hl : fs.lookup n = some t) (ha : rcArgs t = none) (r : Bool) (as : List Act) :
    perform fs seen (.rc n r :: as) = [.loading n, .outOfBounds] := by
  rw [perform, dif_neg h]
  split
  · rename_i ht; rw [hl] at ht; cases ht
  · rename_i t' ht; rw [hl] at ht; cases ht; rw [ha]

theorem perform_load {fs : Files} {seen : List Word} {n : Word} (h : n ∉ seen) {t : List Char}
    (hl : fs.lookup n = some t) {args : List Word} (ha : rcArgs t = some args) (r : Bool)
    (as : List Act) :
    perform fs seen (.rc n r :: as) = .loading n :: perform fs (n :: seen) (processRc args ++ as) := by
  rw [perform, dif_neg h]
  split
  · rename_i ht; rw [hl] at ht; cases ht
  · rename_i t' ht; rw [hl] at ht; cases ht; rw [ha]

@[simp] theorem perform_fatal (fs : Files) (seen : List Word) (as : List Act) :
    perform fs seen (.fatal :: as) = [.fatal] := by rw [perform]

@[simp] theorem perform_oob (fs : Files) (seen : List Word) (as : List Act) :
    perform fs seen (.outOfBounds :: as) = [.outOfBounds] := by rw [perform]

theorem perform_other (fs : Files) (seen : List Word) {a : Act} (as : List Act)
    (h1 : ∀ n r, a = .rc n r → False) (h2 : a = .fatal → False) (h3 : a = .outOfBounds → False) :
    perform fs seen (a :: as) = a :: perform fs seen as := by
  rw [perform]
  · exact h1
  · exact h2
  · exact h3

/-- Undefined behaviour and fatal errors, which nothing follows. -/
def Quiet (as : List Act) : Prop := Act.fatal ∉ as ∧ Act.outOfBounds ∉ as

theorem quiet_append {a b : List Act} : Quiet (a ++ b) ↔ Quiet a ∧ Quiet b := by
  simp only [Quiet, List.mem_append]; tauto

theorem quiet_cons {a : Act} {b : List Act} : Quiet (a :: b) → Quiet b := by
  simp only [Quiet, List.mem_cons]; tauto

/-- What is done last is done with nothing after it. -/
theorem perform_append (fs : Files) (seen : List Word) (as : List Act) (f : Nat) (b : Bool)
    (h : Quiet (perform fs seen as)) :
    perform fs seen (as ++ [.set f b]) = perform fs seen as ++ [.set f b] := by
  have hset : ∀ seen, perform fs seen [.set f b] = [.set f b] := by
    intro seen
    rw [perform_other _ _ _ (by simp) (by simp) (by simp), perform_nil]
  refine perform.induct fs (fun seen as => Quiet (perform fs seen as) →
    perform fs seen (as ++ [.set f b]) = perform fs seen as ++ [.set f b])
    ?_ ?_ ?_ ?_ ?_ ?_ ?_ ?_ seen as h
  · intro seen _
    rw [List.nil_append, hset, perform_nil, List.nil_append]
  · intro seen n r as hn ih hq
    rw [List.cons_append, perform_seen fs hn, perform_seen fs hn]
    rw [perform_seen fs hn] at hq
    rw [ih (quiet_append.1 hq).2, List.append_assoc]
  · intro seen n r as hn hl ih hq
    rw [List.cons_append, perform_none hn hl, perform_none hn hl]
    rw [perform_none hn hl] at hq
    rw [ih (quiet_append.1 hq).2, List.append_assoc]
  · intro seen n r as hn t hl ha hq
    rw [perform_bad hn hl ha] at hq
    exact absurd (by simp) hq.2
  · intro seen n r as hn t hl args ha ih hq
    rw [List.cons_append, perform_load hn hl ha, perform_load hn hl ha]
    rw [perform_load hn hl ha] at hq
    rw [← List.append_assoc, ih (quiet_cons hq), List.cons_append]
  · intro seen as hq
    rw [perform_fatal] at hq
    exact absurd (by simp) hq.1
  · intro seen as hq
    rw [perform_oob] at hq
    exact absurd (by simp) hq.2
  · intro seen a as h1 h2 h3 ih hq
    rw [perform_other fs seen as h1 h2 h3] at hq
    rw [List.cons_append, perform_other fs seen _ h1 h2 h3, perform_other fs seen as h1 h2 h3,
      ih (quiet_cons hq), List.cons_append]

/-- Without them at the end there are none before. -/
theorem perform_quiet (fs : Files) (seen : List Word) (as : List Act) (f : Nat) (b : Bool)
    (h : Quiet (perform fs seen (as ++ [.set f b]))) : Quiet (perform fs seen as) := by
  refine perform.induct fs (fun seen as => Quiet (perform fs seen (as ++ [.set f b])) →
    Quiet (perform fs seen as)) ?_ ?_ ?_ ?_ ?_ ?_ ?_ ?_ seen as h
  · intro seen _
    simp [Quiet]
  · intro seen n r as hn ih hq
    rw [List.cons_append, perform_seen fs hn] at hq
    rw [perform_seen fs hn]
    exact quiet_append.2 ⟨(quiet_append.1 hq).1, ih (quiet_append.1 hq).2⟩
  · intro seen n r as hn hl ih hq
    rw [List.cons_append, perform_none hn hl] at hq
    rw [perform_none hn hl]
    exact quiet_append.2 ⟨(quiet_append.1 hq).1, ih (quiet_append.1 hq).2⟩
  · intro seen n r as hn t hl ha hq
    rw [List.cons_append, perform_bad hn hl ha] at hq
    exact absurd (by simp) hq.2
  · intro seen n r as hn t hl args ha ih hq
    rw [List.cons_append, perform_load hn hl ha, ← List.append_assoc] at hq
    rw [perform_load hn hl ha]
    have := ih (quiet_cons hq)
    simp only [Quiet, List.mem_cons, reduceCtorEq, false_or] at this ⊢
    exact this
  · intro seen as hq
    rw [List.cons_append, perform_fatal] at hq
    exact absurd (by simp) hq.1
  · intro seen as hq
    rw [List.cons_append, perform_oob] at hq
    exact absurd (by simp) hq.2
  · intro seen a as h1 h2 h3 ih hq
    rw [List.cons_append, perform_other fs seen _ h1 h2 h3] at hq
    rw [perform_other fs seen as h1 h2 h3]
    have := ih (quiet_cons hq)
    have e2 : ¬ Act.fatal = a := fun h => h2 h.symm
    have e3 : ¬ Act.outOfBounds = a := fun h => h3 h.symm
    simp only [Quiet, List.mem_cons, e2, e3, false_or] at this ⊢
    exact this

/-- The options files that are read. -/
def loaded (as : List Act) : List Word := as.filterMap fun | .loading n => some n | _ => none

theorem loaded_append (a b : List Act) : loaded (a ++ b) = loaded a ++ loaded b := by
  simp [loaded]

theorem loop_loaded (cl : Bool) (args : List Word) : loaded (loop cl args) = [] := by
  have h1 : ∀ a nxt, loaded (one cl a nxt).1 = [] := by
    intro a nxt
    unfold one
    split
    · split
      · rfl
      · rfl
      · rfl
      · repeat' split
        all_goals first
          | rfl
          | (unfold path; simp only; (repeat' split) <;> simp [loaded] <;> (split <;> simp_all))
          | (unfold controlFlag; (repeat' split) <;> rfl)
    · rfl
  suffices h : ∀ n, ∀ args : List Word, args.length ≤ n → loaded (loop cl args) = [] from
    h args.length args (Nat.le_refl _)
  intro n
  induction n with
  | zero =>
    intro args h
    have : args = [] := List.length_eq_zero_iff.1 (by omega)
    rw [this]
    simp [loaded]
  | succ n ih =>
    intro args h
    cases args with
    | nil => simp [loaded]
    | cons a rest =>
      rw [List.length_cons] at h
      rw [loop_cons, loaded_append, h1]
      cases (one cl a rest.head?).2 with
      | next => simpa using ih rest (by omega)
      | skip => simpa using ih rest.tail (by rw [List.length_tail]; omega)
      | stop => simp [loaded]

/-- `perform` with a bound on the number of steps, for computing examples. -/
def performFor (fs : Files) : Nat → List Word → List Act → Option (List Act)
  | 0, _, _ => none
  | _ + 1, _, [] => some []
  | k + 1, seen, .rc n report :: as =>
    if n ∈ seen then ((if report then [.msg (.again n)] else []) ++ ·) <$> performFor fs k seen as
    else
      match fs.lookup n with
      | none => ((if report then [.msg (.cannotOpen n)] else []) ++ ·) <$> performFor fs k seen as
      | some t =>
        match rcArgs t with
        | none => some [.loading n, .outOfBounds]
        | some args => (.loading n :: ·) <$> performFor fs k (n :: seen) (processRc args ++ as)
  | _ + 1, _, .fatal :: _ => some [.fatal]
  | _ + 1, _, .outOfBounds :: _ => some [.outOfBounds]
  | k + 1, seen, a :: as => (a :: ·) <$> performFor fs k seen as

theorem perform_of_for {fs : Files} {k : Nat} {seen : List Word} {as out : List Act}
    (h : performFor fs k seen as = some out) : perform fs seen as = out := by
  induction k generalizing seen as out with
  | zero => cases h
  | succ k ih =>
    cases as with
    | nil => rw [performFor] at h; rw [perform_nil]; exact Option.some.inj h
    | cons a as =>
      cases a with
      | rc n r =>
        rw [performFor] at h
        by_cases hn : n ∈ seen
        · rw [if_pos hn, Option.map_eq_map, Option.map_eq_some_iff] at h
          obtain ⟨o, h1, rfl⟩ := h
          rw [perform_seen fs hn, ih h1]
        · rw [if_neg hn] at h
          cases hl : fs.lookup n with
          | none =>
            rw [hl] at h
            simp only [Option.map_eq_map, Option.map_eq_some_iff] at h
            obtain ⟨o, h1, rfl⟩ := h
            rw [perform_none hn hl, ih h1]
          | some t =>
            rw [hl] at h
            simp only at h
            cases ha : rcArgs t with
            | none =>
              rw [ha] at h
              rw [perform_bad hn hl ha]
              exact Option.some.inj h
            | some args =>
              rw [ha] at h
              simp only [Option.map_eq_map, Option.map_eq_some_iff] at h
              obtain ⟨o, h1, rfl⟩ := h
              rw [perform_load hn hl ha, ih h1]
      | fatal => rw [performFor] at h; rw [perform_fatal]; exact Option.some.inj h
      | outOfBounds => rw [performFor] at h; rw [perform_oob]; exact Option.some.inj h
      | _ =>
        rw [performFor, Option.map_eq_map, Option.map_eq_some_iff] at h
        · obtain ⟨o, h1, rfl⟩ := h
          rw [perform_other _ _ _ (by simp) (by simp) (by simp), ih h1]
        all_goals simp

end Splint.Opt
