import Verif.Spec.Snprintf
import Verif.Tactics
/-!
# The replacement for snprintf: proofs
-/
namespace Splint.Snp

/-! ## The buffer -/

/-- What is printed, without a buffer. -/
def emit (fp : Fp) : Nat → List Char → List Arg → Option (List Char)
  | 0, _, _ => none
  | _ + 1, [], _ => some []
  | k + 1, c :: f, args =>
    if c = '%' then
      (parseDir f args).bind fun d =>
        match d.fmt with
        | [] => some []
        | ch :: f =>
          (convert fp d ch f).bind fun r => (emit fp k r.2.1 r.2.2).map (r.1 ++ ·)
    else (emit fp k f args).map (c :: ·)

/-- The memory after printing `o` from position `i`. -/
def put (maxlen : Nat) (mem : List Char) (i : Nat) (o : List Char) : List Char :=
  mem.take (min i maxlen) ++ o.take (maxlen - i) ++ mem.drop (min (i + o.length) maxlen ⊔ min i maxlen)

theorem put_length {maxlen : Nat} {mem : List Char} {i : Nat} {o : List Char} (h : maxlen ≤ mem.length) :
    (put maxlen mem i o).length = mem.length := by
  simp only [put, List.length_append, List.length_take, List.length_drop]
  omega

theorem put_nil {maxlen : Nat} {mem : List Char} {i : Nat} : put maxlen mem i [] = mem := by
  simp [put, List.take_append_drop]

theorem put_cons {maxlen : Nat} {mem : List Char} {i : Nat} {c : Char} {o : List Char} (h : maxlen ≤ mem.length)
    (hi : i < maxlen) : put maxlen (mem.set i c) (i + 1) o = put maxlen mem i (c :: o) := by
  have e1 : maxlen - i = (maxlen - (i + 1)) + 1 := by omega
  have e2 : min (i + 1) maxlen = i + 1 := by omega
  have e3 : min i maxlen = i := by omega
  have e4 : (mem.set i c).take (i + 1) = mem.take i ++ [c] := by
    rw [List.take_add_one, List.take_set_of_le (by omega), List.getElem?_set_self (by omega)]
    rfl
  simp only [put, e1, e2, e3, List.take_succ_cons, List.length_cons, e4]
  rw [List.drop_set_of_lt (by omega)]
  have : min (i + 1 + o.length) maxlen ⊔ (i + 1) = min (i + (o.length + 1)) maxlen ⊔ i := by omega
  rw [this]
  simp

theorem put_over {maxlen : Nat} {mem : List Char} {i : Nat} {o : List Char} (hi : maxlen ≤ i) :
    put maxlen mem i o = mem := by
  have e1 : min i maxlen = maxlen := by omega
  have e2 : min (i + o.length) maxlen ⊔ maxlen = maxlen := by omega
  have e3 : maxlen - i = 0 := by omega
  simp [put, e1, e2, e3, List.take_append_drop]

theorem outAll_eq (maxlen : Nat) (o : List Char) : ∀ (mem : List Char) (i : Nat), maxlen ≤ mem.length →
    outAll maxlen ⟨mem, i⟩ o = some ⟨put maxlen mem i o, i + o.length⟩ := by
  induction o with
  | nil => intro mem i h; simp [outAll, put_nil]
  | cons c o ih =>
    intro mem i h
    simp only [outAll, outch]
    by_cases hi : i < maxlen
    · have hi' : i < mem.length := by omega
      simp only [hi, hi', if_true, Option.bind_some]
      rw [ih _ _ (by simpa using h), put_cons h hi]
      simp only [List.length_cons]; congr 2; omega
    · simp only [hi, if_false, Option.bind_some]
      rw [ih _ _ h, put_over (by omega), put_over (by omega)]
      simp only [List.length_cons]; congr 2; omega

theorem put_put {maxlen : Nat} {mem : List Char} {i : Nat} {o o' : List Char} (h : maxlen ≤ mem.length) :
    put maxlen (put maxlen mem i o) (i + o.length) o' = put maxlen mem i (o ++ o') := by
  induction o generalizing mem i with
  | nil => simp [put_nil]
  | cons c o ih =>
    by_cases hi : i < maxlen
    · rw [← put_cons h hi, List.cons_append, ← put_cons h hi, ← ih (by simpa using h)]
      congr 1
      simp only [List.length_cons]; omega
    · rw [put_over (by omega), put_over (by omega), put_over (by omega)]

theorem doprLoop_eq (fp : Fp) (maxlen : Nat) (k : Nat) : ∀ (f : List Char) (args : List Arg) (mem : List Char)
    (i : Nat), maxlen ≤ mem.length →
    doprLoop fp maxlen k f args ⟨mem, i⟩ =
      (emit fp k f args).map fun o => ⟨put maxlen mem i o, i + o.length⟩ := by
  induction k with
  | zero => intro f args mem i h; rfl
  | succ k ih =>
    intro f args mem i h
    cases f with
    | nil => simp [doprLoop, emit, put_nil]
    | cons c f =>
      simp only [doprLoop, emit]
      split_ifs with hc
      · cases parseDir f args with
        | none => rfl
        | some d =>
          simp only [Option.bind_some]
          cases hd : d.fmt with
          | nil => simp [put_nil]
          | cons ch f' =>
            simp only []
            cases convert fp d ch f' with
            | none => rfl
            | some r =>
              simp only [Option.bind_some, outAll_eq maxlen r.1 mem i h]
              rw [ih _ _ _ _ (by rw [put_length h]; exact h)]
              cases emit fp k r.2.1 r.2.2 with
              | none => rfl
              | some o => simp [put_put h, Nat.add_assoc]
      · have := outAll_eq maxlen [c] mem i h
        simp only [outAll] at this
        have h1 : outch maxlen ⟨mem, i⟩ c = some ⟨put maxlen mem i [c], i + 1⟩ := by
          cases ho : outch maxlen ⟨mem, i⟩ c with
          | none => simp [ho] at this
          | some b => simpa [ho] using this
        rw [h1]
        simp only [Option.bind_some]
        rw [ih _ _ _ _ (by rw [put_length h]; exact h)]
        cases emit fp k f args with
        | none => rfl
        | some o =>
          have := put_put (o := [c]) (o' := o) (i := i) h
          simp only [List.length_singleton, List.singleton_append] at this
          simp [this]; omega

/-! ## The format gets shorter -/

theorem flagsLoop_le (f : List Char) : ∀ fl, (flagsLoop fl f).2.length ≤ f.length := by
  induction f with
  | nil => intro fl; simp [flagsLoop]
  | cons c f ih =>
    intro fl
    rw [flagsLoop.eq_def]
    split
    all_goals first
      | (rename_i h; cases h; exact Nat.le_succ_of_le (ih _))
      | exact Nat.le_refl _

theorem numLoop_le (f : List Char) : ∀ n r, numLoop n f = some r → r.2.length ≤ f.length := by
  induction f with
  | nil => intro n r h; simp only [numLoop, Option.some.injEq] at h; subst h; exact Nat.le_refl _
  | cons c f ih =>
    intro n r h
    simp only [numLoop] at h
    split_ifs at h
    · exact Nat.le_succ_of_le (ih _ _ h)
    · cases h; exact Nat.le_refl _

theorem parseMod_le (fl : Fl) (mi ma : Int) (f : List Char) (args : List Arg) :
    (parseMod fl mi ma f args).fmt.length ≤ f.length := by
  unfold parseMod
  split <;> simp only [List.length_cons] <;> omega

theorem parseMax_le (fl : Fl) (mi : Int) (f : List Char) (args : List Arg) (d : Dir)
    (h : parseMax fl mi f args = some d) : d.fmt.length ≤ f.length := by
  unfold parseMax at h
  cases hn : numLoop 0 f with
  | none => simp [hn] at h
  | some r =>
    have hl := numLoop_le _ _ _ hn
    rw [hn] at h
    simp only [Option.bind_some] at h
    split at h
    · rename_i g hg
      split at h
      · cases h
        rw [hg, List.length_cons] at hl
        exact Nat.le_trans (parseMod_le _ _ _ _ _) (by omega)
      · cases h
    · cases h
      exact Nat.le_trans (parseMod_le _ _ _ _ _) hl

theorem parseDot_le (fl : Fl) (mi : Int) (f : List Char) (args : List Arg) (d : Dir)
    (h : parseDot fl mi f args = some d) : d.fmt.length ≤ f.length := by
  unfold parseDot at h
  split at h
  · have := parseMax_le _ _ _ _ _ h
    simp only [List.length_cons]; omega
  · cases h; exact parseMod_le _ _ _ _ _

theorem parseDir_le (f : List Char) (args : List Arg) (d : Dir)
    (h : parseDir f args = some d) : d.fmt.length ≤ f.length := by
  unfold parseDir at h
  have hf := flagsLoop_le f {}
  simp only [] at h
  cases hn : numLoop 0 (flagsLoop {} f).2 with
  | none => simp [hn] at h
  | some r =>
    have hl := numLoop_le _ _ _ hn
    rw [hn] at h
    simp only [Option.bind_some] at h
    split at h
    · rename_i g hg
      split at h
      · have := parseDot_le _ _ _ _ _ h
        rw [hg, List.length_cons] at hl
        omega
      · cases h
    · have := parseDot_le _ _ _ _ _ h
      omega

theorem convert_le (fp : Fp) (d : Dir) (ch : Char) (f : List Char) (r : List Char × List Char × List Arg)
    (h : convert fp d ch f = some r) : r.2.1.length ≤ f.length := by
  unfold convert at h
  split at h
  all_goals try (simp only [Option.bind_eq_some_iff, Option.map_eq_some_iff] at h)
  all_goals try (obtain ⟨a, _, o, _, rfl⟩ := h; exact Nat.le_refl _)
  all_goals try (obtain ⟨a, _, rfl⟩ := h; exact Nat.le_refl _)
  all_goals try (cases h; exact Nat.le_refl _)
  all_goals split at h
  all_goals try (simp only [Option.map_eq_some_iff] at h; obtain ⟨o, _, rfl⟩ := h; exact Nat.le_refl _)
  all_goals try (split_ifs at h)
  all_goals try (cases h)
  all_goals (simp only [List.length_cons]; omega)

/-- The fuel does not matter. -/
theorem emit_fuel (fp : Fp) (k : Nat) : ∀ (k' : Nat) (f : List Char) (args : List Arg),
    f.length < k → f.length < k' → emit fp k f args = emit fp k' f args := by
  induction k with
  | zero => intro k' f args h; omega
  | succ k ih =>
    intro k' f args h h'
    cases k' with
    | zero => omega
    | succ k' =>
      cases f with
      | nil => rfl
      | cons c f =>
        simp only [List.length_cons] at h h'
        simp only [emit]
        split_ifs
        · cases hd : parseDir f args with
          | none => rfl
          | some d =>
            have h1 := parseDir_le _ _ _ hd
            simp only [Option.bind_some]
            cases hf : d.fmt with
            | nil => rfl
            | cons ch f' =>
              rw [hf, List.length_cons] at h1
              simp only []
              cases hc : convert fp d ch f' with
              | none => rfl
              | some r =>
                have h2 := convert_le _ _ _ _ _ hc
                simp only [Option.bind_some]
                rw [ih k' r.2.1 r.2.2 (by omega) (by omega)]
        · rw [ih k' f args (by omega) (by omega)]

/-- What a format prints. -/
def output (fp : Fp) (fmt : List Char) (args : List Arg) : Option (List Char) :=
  emit fp (fmt.length + 1) fmt args

theorem dopr_eq (fp : Fp) (mem : List Char) (maxlen : Nat) (fmt : List Char) (args : List Arg)
    (h : maxlen ≤ mem.length) :
    dopr fp mem maxlen fmt args = (output fp fmt args).map fun o =>
      ⟨if maxlen = 0 then mem else
        o.take (maxlen - 1) ++ '\x00' :: mem.drop (min o.length (maxlen - 1) + 1), o.length⟩ := by
  unfold dopr output
  rw [doprLoop_eq fp maxlen _ fmt args mem 0 h]
  cases emit fp (fmt.length + 1) fmt args with
  | none => rfl
  | some o =>
    simp only [Option.map_some, Option.bind_some, finish, Nat.zero_add]
    by_cases h0 : maxlen = 0
    · subst h0
      simp [put_over]
    · simp only [h0, if_false]
      have hi : (if o.length < maxlen - 1 then o.length else maxlen - 1) = min o.length (maxlen - 1) := by
        split_ifs <;> omega
      rw [hi, if_pos (by rw [put_length h]; omega)]
      congr 2
      have hp : put maxlen mem 0 o = o.take maxlen ++ mem.drop (min o.length maxlen) := by
        simp [put]
      rw [hp]
      apply List.ext_getElem
      · simp only [List.length_set, List.length_append, List.length_take, List.length_drop, List.length_cons]; omega
      · intro n h1 h2
        simp only [List.length_set, List.length_append, List.length_take, List.length_drop] at h1
        rw [List.getElem_set]
        split_ifs with he
        · rw [List.getElem_append_right (by simp only [List.length_take]; omega)]
          simp only [List.length_take]
          have : n - min (maxlen - 1) o.length = 0 := by omega
          simp [this]
        · by_cases hn : n < min o.length (maxlen - 1)
          · rw [List.getElem_append_left (by simp only [List.length_take]; omega),
              List.getElem_append_left (by simp only [List.length_take]; omega)]
            simp
          · rw [List.getElem_append_right (by simp only [List.length_take]; omega),
              List.getElem_append_right (by simp only [List.length_take]; omega)]
            simp only [List.length_take, List.getElem_drop, List.getElem_cons]
            split_ifs with hz
            · omega
            · congr 1; omega

end Splint.Snp
