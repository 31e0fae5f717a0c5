import Verif.Spec.InputStream
/-!
# Proofs about reading input (C147, C148)
-/
namespace Splint
namespace InputStream

/-! ### Lines -/

theorem fgets_eq : ∀ (k : Nat) (l : List Nat),
    fgets k l = (l.take (if l.findIdx (· = 10) + 1 > k then k else l.findIdx (· = 10) + 1),
      l.drop (if l.findIdx (· = 10) + 1 > k then k else l.findIdx (· = 10) + 1)) := by
  intro k
  induction k with
  | zero => intro l; simp [fgets]
  | succ k ih =>
    intro l
    cases l with
    | nil => simp [fgets]
    | cons c l =>
      rw [fgets, List.findIdx_cons]
      by_cases hc : c = 10
      · subst hc; simp
      · rw [if_neg hc]
        simp only [hc, decide_false, cond_false]
        rw [ih l]
        by_cases hk : l.findIdx (· = 10) + 1 > k
        · rw [if_pos hk, if_pos (by omega)]; simp
        · rw [if_neg hk, if_neg (by omega)]; simp

/-- The part of a line that is read: without newline, all of it or up to the room there is. -/
theorem fgets_shape : ∀ (k : Nat) (l : List Nat), ∃ t : List Nat, 10 ∉ t ∧ t.length ≤ k ∧
    ((t.length < k ∧ (fgets k l).1 = t ++ [10] ∧ l = t ++ 10 :: (fgets k l).2) ∨
     ((fgets k l).1 = t ∧ l = t ++ (fgets k l).2 ∧ (t.length = k ∨ (fgets k l).2 = []))) := by
  intro k
  induction k with
  | zero => intro l; exact ⟨[], by simp, by simp, Or.inr ⟨by simp [fgets], by simp [fgets], Or.inl rfl⟩⟩
  | succ k ih =>
    intro l
    cases l with
    | nil => exact ⟨[], by simp, by simp, Or.inr ⟨rfl, rfl, Or.inr rfl⟩⟩
    | cons c l =>
      rw [fgets]
      by_cases hc : c = 10
      · rw [if_pos hc]; subst hc
        exact ⟨[], by simp, by simp, Or.inl ⟨by simp, rfl, rfl⟩⟩
      · rw [if_neg hc]
        obtain ⟨t, h1, h2, h3⟩ := ih l
        refine ⟨c :: t, ?_, by simpa using h2, ?_⟩
        · intro hm
          rcases List.mem_cons.1 hm with h | h
          · exact hc h.symm
          · exact h1 h
        · rcases h3 with ⟨a, b, d⟩ | ⟨a, b, d⟩
          · refine Or.inl ⟨by simpa using a, by dsimp only; rw [b]; rfl, ?_⟩
            dsimp only
            exact congrArg (c :: ·) d
          · refine Or.inr ⟨by dsimp only; rw [a], ?_, ?_⟩
            · dsimp only
              exact congrArg (c :: ·) b
            · rcases d with d | d
              · exact Or.inl (by simp [d])
              · exact Or.inr d

/-- the room in the buffer -/
def cap (str : Bool) : Nat := if str then maxRecord - 2 else maxRecord - 1

theorem cap_pos (str : Bool) : 0 < cap str := by cases str <;> decide

/-- the last line of a string, without newline -/
def atEnd (str : Bool) (l : List Nat) : Bool := str && decide (l.findIdx (· = 10) + 1 ≤ cap str ∧ ¬ (10 ∈ l))

theorem fill_spec {s : Stream} (ho : s.over = false) (hr : s.rest ≠ []) :
    fill s = .ok ({ s with rest := (fgets (cap s.str) s.rest).2, over := atEnd s.str s.rest },
      some (fgets (cap s.str) s.rest).1) := by
  unfold fill atEnd
  rw [ho]
  cases hs : s.str with
  | false =>
    simp only [Bool.false_eq_true, if_false]
    rw [if_neg hr]
    obtain ⟨a, b, c, d, e, f, g, h⟩ := s
    simp at ho hs
    subst ho; subst hs
    rfl
  | true =>
    simp only [if_true, Bool.false_eq_true, if_false]
    rw [if_neg hr]
    have hc : cap true = maxRecord - 2 := rfl
    rw [hc, fgets_eq]
    dsimp only
    congr 4
    have hle : s.rest.findIdx (· = 10) ≤ s.rest.length := List.findIdx_le_length
    have hlt : s.rest.findIdx (· = 10) = s.rest.length ↔ 10 ∉ s.rest := by
      rw [List.findIdx_eq_length]
      constructor
      · intro h hm; simpa using h 10 hm
      · intro h x hx
        simp only [decide_eq_false_iff_not]
        rintro rfl; exact h hx
    apply propext
    rw [← hlt]
    split_ifs with h
    · constructor
      · intro h1; omega
      · intro h1; omega
    · constructor
      · intro h1; omega
      · intro h1; omega

theorem takeWhile_all {p : Nat → Bool} : ∀ {l : List Nat}, (∀ x ∈ l, p x = true) → l.takeWhile p = l := by
  intro l
  induction l with
  | nil => intro _; rfl
  | cons a l ih =>
    intro h
    rw [List.takeWhile_cons, if_pos (h a (List.mem_cons_self ..)), ih fun x hx => h x (List.mem_cons_of_mem _ hx)]

/-- A line without byte 0 is stored as it is, without its newline. -/
theorem finishLine_spec {buf : List Nat} (h0 : 0 ∉ buf) (hne : buf ≠ []) :
    finishLine buf = .ok (if buf.getLast? = some 10 then ⟨buf.dropLast, false⟩ else ⟨buf, decide (buf.length ≥ maxRecord - 1)⟩) := by
  unfold finishLine
  have ht : buf.takeWhile (· ≠ 0) = buf := takeWhile_all fun x hx => by
    simp only [ne_eq, decide_not, Bool.not_eq_true', decide_eq_false_iff_not]
    rintro rfl; exact h0 hx
  dsimp only
  rw [ht, if_neg hne, ← List.getLast?_eq_getElem?]
  by_cases hl : buf.getLast? = some 10
  · rw [if_pos hl, if_pos hl, List.dropLast_eq_take]
  · rw [if_neg hl, if_neg hl]
    congr 2
    congr 1
    apply propext
    have : 0 < buf.length := List.length_pos_iff.2 hne
    have hm : maxRecord = 800 := rfl
    omega

/-! ### What is read -/

/-- The characters that are read, and how it ends: after `j` characters in the buffer that has room for `k`. -/
def emit (str : Bool) (k : Nat) : Nat → List Nat → List Nat × Option Stop
  | j, [] => if j = 0 then ([], none) else ([10], if str then some .ub else none)
  | j, c :: l =>
    if c = 10 then (10 :: (emit str k 0 l).1, (emit str k 0 l).2)
    else if j + 1 = k then (c :: 10 :: (emit str k 0 l).1, (emit str k 0 l).2)
    else (c :: (emit str k (j + 1) l).1, (emit str k (j + 1) l).2)

theorem emit_newline (str : Bool) {k : Nat} : ∀ (t l : List Nat) (j : Nat), 10 ∉ t → j + t.length < k →
    emit str k j (t ++ 10 :: l) = (t ++ 10 :: (emit str k 0 l).1, (emit str k 0 l).2) := by
  intro t
  induction t with
  | nil => intro l j _ _; rw [List.nil_append, emit, if_pos rfl]; rfl
  | cons c t ih =>
    intro l j ht hk
    have hc : c ≠ 10 := fun h => ht (h ▸ List.mem_cons_self ..)
    simp only [List.length_cons] at hk
    rw [List.cons_append, emit, if_neg hc, if_neg (by omega), ih l (j + 1) (fun h => ht (List.mem_cons_of_mem _ h)) (by omega)]
    rfl

theorem emit_full (str : Bool) {k : Nat} : ∀ (t l : List Nat) (j : Nat), 10 ∉ t → t ≠ [] → j + t.length = k →
    emit str k j (t ++ l) = (t ++ 10 :: (emit str k 0 l).1, (emit str k 0 l).2) := by
  intro t
  induction t with
  | nil => intro l j _ h _; exact absurd rfl h
  | cons c t ih =>
    intro l j ht _ hk
    have hc : c ≠ 10 := fun h => ht (h ▸ List.mem_cons_self ..)
    simp only [List.length_cons] at hk
    rw [List.cons_append, emit, if_neg hc]
    cases t with
    | nil => rw [if_pos (by simpa using hk)]; rfl
    | cons d t =>
      rw [if_neg (by simp only [List.length_cons] at hk; omega),
        ih l (j + 1) (fun h => ht (List.mem_cons_of_mem _ h)) (by simp) (by omega)]
      rfl

theorem emit_end (str : Bool) {k : Nat} : ∀ (t : List Nat) (j : Nat), 10 ∉ t → 0 < j + t.length → j + t.length < k →
    emit str k j t = (t ++ [10], if str then some .ub else none) := by
  intro t
  induction t with
  | nil => intro j _ h _; rw [emit, if_neg (by simp at h; omega)]; rfl
  | cons c t ih =>
    intro j ht _ hk
    have hc : c ≠ 10 := fun h => ht (h ▸ List.mem_cons_self ..)
    simp only [List.length_cons] at hk
    rw [emit, if_neg hc, if_neg (by omega), ih (j + 1) (fun h => ht (List.mem_cons_of_mem _ h)) (by omega) (by omega)]
    rfl

theorem nextChar_at {s : Stream} {t : List Nat} {b : Nat} (hc : s.curLine = some t) (hb : t[s.charNo]? = some b)
    (h1 : charVal b ≠ EOF) (h2 : charVal b ≠ 10) :
    nextChar s = .ok ({ s with charNo := s.charNo + 1, col := s.col + 1 }, charVal b) := by
  have hlt : s.charNo < t.length := (List.getElem?_eq_some_iff.1 hb).1
  unfold nextChar peekChar peekCur
  simp only [hc, Option.isSome_some, if_true]
  rw [if_neg (by omega), hb]
  dsimp only
  rw [if_neg h1, if_neg h2, hc]

theorem nextChar_end {s : Stream} {t : List Nat} (hc : s.curLine = some t) (hb : s.charNo = t.length) :
    nextChar s = .ok ({ s with curLine := none, charNo := 0, line := s.line + 1, col := 1 }, 10) := by
  unfold nextChar peekChar peekCur
  simp only [hc, Option.isSome_some, if_true]
  rw [if_neg (by omega), List.getElem?_eq_none (by omega)]
  dsimp only
  rw [if_neg (by decide), if_pos rfl]

theorem ends_char {s s' : Stream} {c : Int} (h : nextChar s = .ok (s', c)) (hc : c ≠ EOF) (out : List Int) (r : Option Stop) :
    Ends s out r ↔ ∃ o, out = c :: o ∧ Ends s' o r := by
  constructor
  · intro he
    cases he with
    | eof h1 => rw [h] at h1; cases h1; exact absurd rfl hc
    | stop h1 => rw [h] at h1; cases h1
    | char h1 _ h3 => rw [h] at h1; cases h1; exact ⟨_, rfl, h3⟩
  · rintro ⟨o, rfl, ho⟩
    exact .char h hc ho

theorem ends_eof {s s' : Stream} (h : nextChar s = .ok (s', EOF)) (out : List Int) (r : Option Stop) :
    Ends s out r ↔ out = [] ∧ r = none := by
  constructor
  · intro he
    cases he with
    | eof h1 => exact ⟨rfl, rfl⟩
    | stop h1 => rw [h] at h1; cases h1
    | char h1 h2 _ => rw [h] at h1; cases h1; exact absurd rfl h2
  · rintro ⟨rfl, rfl⟩; exact .eof h

theorem ends_stop {s : Stream} {e : Stop} (h : nextChar s = .error e) (out : List Int) (r : Option Stop) :
    Ends s out r ↔ out = [] ∧ r = some e := by
  constructor
  · intro he
    cases he with
    | eof h1 => rw [h] at h1; cases h1
    | stop h1 => rw [h] at h1; cases h1; exact ⟨rfl, rfl⟩
    | char h1 _ _ => rw [h] at h1; cases h1
  · rintro ⟨rfl, rfl⟩; exact .stop h

/-- not a byte that has a special meaning here -/
def Plain (b : Nat) : Prop := b ≠ 0 ∧ b ≠ 255 ∧ b < 256

theorem Plain.eof {b : Nat} (h : Plain b) : charVal b ≠ EOF := by
  obtain ⟨_, h2, h3⟩ := h
  unfold charVal EOF
  split_ifs <;> omega

theorem Plain.ten {b : Nat} (h : Plain b) (h' : b ≠ 10) : charVal b ≠ 10 := by
  obtain ⟨_, _, h3⟩ := h
  unfold charVal
  split_ifs <;> omega

/-- Reading the rest of the current line. -/
theorem ends_line {t : List Nat} (hp : ∀ b ∈ t, Plain b ∧ b ≠ 10) : ∀ (n : Nat) (s : Stream) (out : List Int) (r : Option Stop),
    s.curLine = some t → s.charNo + n = t.length →
    (Ends s out r ↔ ∃ o, out = (t.drop s.charNo).map charVal ++ 10 :: o ∧
      Ends { s with curLine := none, charNo := 0, line := s.line + 1, col := 1 } o r) := by
  intro n
  induction n with
  | zero =>
    intro s out r hc hn
    rw [ends_char (nextChar_end hc (by omega)) (by decide), List.drop_eq_nil_of_le (by omega)]
    rfl
  | succ n ih =>
    intro s out r hc hn
    have hlt : s.charNo < t.length := by omega
    have hb : t[s.charNo]? = some t[s.charNo] := List.getElem?_eq_getElem hlt
    have hm := hp _ (List.getElem_mem hlt)
    rw [ends_char (nextChar_at hc hb hm.1.eof (hm.1.ten hm.2)) hm.1.eof]
    rw [List.drop_eq_getElem_cons hlt]
    have := fun o => ih { s with charNo := s.charNo + 1, col := s.col + 1 } o r hc (by dsimp only; omega)
    constructor
    · rintro ⟨o, rfl, ho⟩
      obtain ⟨o', rfl, h2⟩ := (this o).1 ho
      exact ⟨o', rfl, h2⟩
    · rintro ⟨o, rfl, ho⟩
      exact ⟨_, rfl, (this _).2 ⟨o, rfl, ho⟩⟩

/-- Reading a new line reads from it. -/
theorem ends_newLine {s s' : Stream} {l : Line} (hc : s.curLine = none) (h : nextLine s = .ok (s', some l)) (out : List Int)
    (r : Option Stop) : Ends s out r ↔ Ends { s' with curLine := some l.text, charNo := 0 } out r := by
  have hn : nextChar s = nextChar { s' with curLine := some l.text, charNo := 0 } := by
    unfold nextChar peekChar
    simp only [hc, h, Option.isSome_none, Option.isSome_some, if_true, Bool.false_eq_true, if_false, Option.map_some]
  constructor
  · intro he
    cases he with
    | eof h1 => exact .eof (hn ▸ h1)
    | stop h1 => exact .stop (hn ▸ h1)
    | char h1 h2 h3 => exact .char (hn ▸ h1) h2 h3
  · intro he
    cases he with
    | eof h1 => exact .eof (hn.symm ▸ h1)
    | stop h1 => exact .stop (hn.symm ▸ h1)
    | char h1 h2 h3 => exact .char (hn.symm ▸ h1) h2 h3

theorem ends_emit : ∀ (n : Nat) (s : Stream) (out : List Int) (r : Option Stop), s.rest.length ≤ n → s.curLine = none → s.over = false →
    (∀ b ∈ s.rest, Plain b) →
    (Ends s out r ↔ out = (emit s.str (cap s.str) 0 s.rest).1.map charVal ∧ r = (emit s.str (cap s.str) 0 s.rest).2) := by
  intro n
  induction n with
  | zero =>
    intro s out r hn hc ho _
    have hr : s.rest = [] := List.eq_nil_of_length_eq_zero (by omega)
    have hnc : nextChar s = .ok ({ s with charNo := 0 }, EOF) := by
      unfold nextChar peekChar nextLine fill peekCur
      simp only [hc, hr, ho, Option.isSome_none, Bool.false_eq_true, if_false, if_true]
      cases s.str <;> simp [EOF]
    rw [ends_eof hnc, hr, emit, if_pos rfl]
    simp
  | succ n ih =>
    intro s out r hn hc ho hp
    by_cases hr : s.rest = []
    · have hnc : nextChar s = .ok ({ s with charNo := 0 }, EOF) := by
        unfold nextChar peekChar nextLine fill peekCur
        simp only [hc, hr, ho, Option.isSome_none, Bool.false_eq_true, if_false, if_true]
        cases s.str <;> simp [EOF]
      rw [ends_eof hnc, hr, emit, if_pos rfl]
      simp
    · have hfill := fill_spec (s := { s with charNo := 0 }) ho hr
      dsimp only at hfill
      obtain ⟨t, ht1, ht2, ht3⟩ := fgets_shape (cap s.str) s.rest
      have hcp := cap_pos s.str
      generalize hF : fgets (cap s.str) s.rest = F at hfill ht3
      obtain ⟨ch, rs⟩ := F
      dsimp only at ht3
      -- what is in the buffer
      have hch : ch ≠ [] ∧ (∀ b ∈ ch, b ∈ s.rest) ∧ (∀ b ∈ rs, b ∈ s.rest) ∧ rs.length < s.rest.length ∧ (∀ b ∈ t, b ∈ s.rest) ∧
          (if ch.getLast? = some 10 then ch.dropLast else ch) = t := by
        rcases ht3 with ⟨h1, h2, h3⟩ | ⟨h1, h2, h3⟩
        · subst h2
          rw [h3]
          refine ⟨by simp, ?_, ?_, by simp; omega, ?_, by simp⟩
          · intro b hb
            rcases List.mem_append.1 hb with hb | hb
            · exact List.mem_append_left _ hb
            · rw [List.mem_singleton.1 hb]; exact List.mem_append_right _ (List.mem_cons_self ..)
          · intro b hb; exact List.mem_append_right _ (List.mem_cons_of_mem _ hb)
          · intro b hb; exact List.mem_append_left _ hb
        · subst h1
          have hne : ch ≠ [] := by
            rintro rfl
            rcases h3 with h3 | h3
            · simp at h3; omega
            · rw [h3] at h2; exact hr h2
          have hl : ch.getLast? ≠ some 10 := fun h => ht1 (List.mem_of_getLast? h)
          rw [h2]
          refine ⟨hne, fun b hb => List.mem_append_left _ hb, fun b hb => List.mem_append_right _ hb, ?_,
            fun b hb => List.mem_append_left _ hb, if_neg hl⟩
          have := List.length_pos_iff.2 hne
          simp; omega
      obtain ⟨hne, hm1, hm2, hlen, hm3, htxt⟩ := hch
      have h0 : 0 ∉ ch := fun h => (hp 0 (hm1 0 h)).1 rfl
      obtain ⟨lg, hfin⟩ : ∃ lg, finishLine ch = .ok ⟨t, lg⟩ := by
        rw [finishLine_spec h0 hne]
        split_ifs at htxt with hl
        · exact ⟨false, by rw [if_pos hl, htxt]⟩
        · exact ⟨_, by rw [if_neg hl, htxt]⟩
      have hnl : ∃ s', nextLine s = .ok (s', some ⟨t, lg⟩) ∧ s'.rest = rs ∧ s'.str = s.str ∧
          s'.over = atEnd s.str s.rest := by
        unfold nextLine
        rw [if_neg (by rw [hc]; simp), hfill]
        dsimp only
        rw [hfin]
        exact ⟨_, rfl, rfl, rfl, rfl⟩
      obtain ⟨s', hn1, hn2, hn3, hn4⟩ := hnl
      rw [ends_newLine hc hn1]
      rw [ends_line (t := t) (fun b hb => ⟨hp b (hm3 b hb), fun h => ht1 (h ▸ hb)⟩) t.length _ out r rfl (by simp)]
      dsimp only
      rw [List.drop_zero]
      by_cases hov : s'.over = true
      · -- behind the end of the string
        have hstr : s.str = true ∧ s.rest.findIdx (· = 10) + 1 ≤ cap s.str ∧ 10 ∉ s.rest := by
          rw [hn4, atEnd] at hov
          simpa using hov
        obtain ⟨hs1, hs2, hs3⟩ := hstr
        have hfl : s.rest.findIdx (· = 10) = s.rest.length := by
          rw [List.findIdx_eq_length]
          intro x hx
          simp only [decide_eq_false_iff_not]
          rintro rfl; exact hs3 hx
        have hend : emit s.str (cap s.str) 0 s.rest = (s.rest ++ [10], if s.str then some .ub else none) :=
          emit_end s.str s.rest 0 hs3 (by have := List.length_pos_iff.2 hr; omega) (by omega)
        have hts : t = s.rest := by
          rcases ht3 with ⟨_, _, h3⟩ | ⟨h1, h2, h3⟩
          · exact absurd (by rw [h3]; simp) hs3
          · rcases h3 with h3 | h3
            · exfalso
              have := congrArg List.length h2
              simp at this; omega
            · rw [h3] at h2; simpa using h2.symm
        have hst : nextChar { s' with curLine := none, charNo := 0, line := s'.line + 1, col := 1 } = .error .ub := by
          unfold nextChar peekChar nextLine fill
          simp [hov, hn3, hs1]
        rw [hend, hs1, hts]
        simp only [ends_stop hst, if_true]
        constructor
        · rintro ⟨o, rfl, rfl, rfl⟩; exact ⟨by simp [charVal], rfl⟩
        · rintro ⟨rfl, rfl⟩; exact ⟨[], by simp [charVal], rfl, rfl⟩
      · have hov' : s'.over = false := by simpa using hov
        have hih := fun o => ih { s' with curLine := none, charNo := 0, line := s'.line + 1, col := 1 } o r
          (by dsimp only; rw [hn2]; omega) rfl hov' (by dsimp only; rw [hn2]; exact fun b hb => hp b (hm2 b hb))
        dsimp only at hih
        rw [hn2, hn3] at hih
        have hem : emit s.str (cap s.str) 0 s.rest =
            (t ++ 10 :: (emit s.str (cap s.str) 0 rs).1, (emit s.str (cap s.str) 0 rs).2) := by
          rcases ht3 with ⟨h1, h2, h3⟩ | ⟨h1, h2, h3⟩
          · rw [h3]; exact emit_newline s.str t rs 0 ht1 (by omega)
          · have htn : t ≠ [] := h1 ▸ hne
            by_cases hk : t.length = cap s.str
            · rw [h2]; exact emit_full s.str t rs 0 ht1 htn (by omega)
            · have hrs : rs = [] := by rcases h3 with h3 | h3; exact absurd h3 hk; exact h3
              have hst : s.rest = t := by rw [h2, hrs]; simp
              have hs1 : s.str = false := by
                by_contra hq
                have hq : s.str = true := by simpa using hq
                apply hov
                rw [hn4, hst, atEnd]
                have : t.findIdx (· = 10) ≤ t.length := List.findIdx_le_length
                simp only [hq, Bool.true_and, decide_eq_true_eq]
                rw [hq] at hk ht2
                exact ⟨by omega, ht1⟩
              rw [hst, hrs]
              rw [emit_end s.str t 0 ht1 (by have := List.length_pos_iff.2 htn; omega) (by omega), hs1]
              rfl
        rw [hem]
        simp only [hn2, hn3]
        constructor
        · rintro ⟨o, rfl, ho⟩
          obtain ⟨rfl, rfl⟩ := (hih o).1 ho
          exact ⟨by simp [charVal], rfl⟩
        · rintro ⟨rfl, rfl⟩
          exact ⟨_, by simp [charVal], (hih _).2 ⟨rfl, rfl⟩⟩

/-! ### What that is -/

/-- no line overflows, after `j` characters -/
def Short (k : Nat) : Nat → List Nat → Prop
  | _, [] => True
  | j, c :: l => if c = 10 then Short k 0 l else if j + 1 = k then l = [] else Short k (j + 1) l

/-- the characters that should be read -/
def want : Nat → List Nat → List Nat
  | j, [] => if j = 0 then [] else [10]
  | j, c :: l => c :: want (if c = 10 then 0 else j + 1) l

theorem want_le : ∀ (l : List Nat) (j j' : Nat), (want j l).length ≤ (want j' l).length + 1 ∧ (l ≠ [] → (want j l).length ≤ (want j' l).length) := by
  intro l
  induction l with
  | nil => intro j j'; refine ⟨?_, fun h => absurd rfl h⟩; simp only [want]; split_ifs <;> simp
  | cons c l ih =>
    intro j j'
    have h : (want j (c :: l)).length ≤ (want j' (c :: l)).length := by
      simp only [want, List.length_cons]
      by_cases hc : c = 10
      · simp [hc]
      · simp only [hc, if_false]
        cases l with
        | nil => simp [want]
        | cons d l => have := (ih (j + 1) (j' + 1)).2 (by simp); omega
    exact ⟨by omega, fun _ => h⟩

theorem emit_ge (str : Bool) (k : Nat) : ∀ (l : List Nat) (j : Nat), (want j l).length ≤ (emit str k j l).1.length := by
  intro l
  induction l with
  | nil => intro j; simp only [want, emit]; split_ifs <;> simp
  | cons c l ih =>
    intro j
    rw [emit]
    by_cases hc : c = 10
    · rw [if_pos hc]; simp only [want, hc, if_true, List.length_cons]; have := ih 0; omega
    · rw [if_neg hc]
      simp only [want, hc, if_false, List.length_cons]
      by_cases hk : j + 1 = k
      · rw [if_pos hk]; simp only [List.length_cons]; have := (want_le l (j + 1) 0).1; have := ih 0; omega
      · rw [if_neg hk]; simp only [List.length_cons]; have := ih (j + 1); omega

theorem emit_eq (str : Bool) (k : Nat) : ∀ (l : List Nat) (j : Nat), (emit str k j l).1 = want j l ↔ Short k j l := by
  intro l
  induction l with
  | nil => intro j; simp only [want, emit, Short, iff_true]; split_ifs <;> rfl
  | cons c l ih =>
    intro j
    rw [emit, Short]
    by_cases hc : c = 10
    · rw [if_pos hc, if_pos hc]; subst hc
      simp only [want, if_true, List.cons.injEq, true_and]
      exact ih 0
    · rw [if_neg hc, if_neg hc]
      simp only [want, hc, if_false]
      by_cases hk : j + 1 = k
      · rw [if_pos hk, if_pos hk]
        simp only [List.cons.injEq, true_and]
        constructor
        · intro h
          by_contra hne
          have h1 := congrArg List.length h
          have h2 := (want_le l (j + 1) 0).2 hne
          have h3 := emit_ge str k l 0
          simp at h1; omega
        · rintro rfl; simp [want, emit]
      · rw [if_neg hk, if_neg hk]
        simp only [List.cons.injEq, true_and]
        exact ih (j + 1)

theorem want_ended : ∀ (l : List Nat) (j : Nat), want j l = if (l = [] ∧ j = 0) ∨ l.getLast? = some 10 then l else l ++ [10] := by
  intro l
  induction l with
  | nil => intro j; simp only [want]; by_cases hj : j = 0 <;> simp [hj]
  | cons c l ih =>
    intro j
    rw [want, ih]
    cases l with
    | nil => by_cases hc : c = 10 <;> simp [hc]
    | cons d l =>
      have h1 : ((d :: l).getLast? = some 10) = ((c :: d :: l).getLast? = some 10) := by rw [List.getLast?_cons_cons]
      by_cases hl : (c :: d :: l).getLast? = some 10
      · rw [if_pos (Or.inr (by rw [h1]; exact hl)), if_pos (Or.inr hl)]
      · rw [if_neg (by rintro (⟨h, _⟩ | h); cases h; exact hl (h1 ▸ h)), if_neg (by rintro (⟨h, _⟩ | h); cases h; exact hl h)]; rfl

theorem want_zero (l : List Nat) : want 0 l = ended l := by rw [want_ended]; simp [ended]

theorem short_lines {k : Nat} : ∀ (l p : List Nat), 10 ∉ p → p.length < k → (Short k p.length l ↔ LinesShort k (p ++ l)) := by
  intro l
  induction l with
  | nil =>
    intro p hp hk
    simp only [Short, true_iff]
    intro a r b h _ hr
    have := congrArg List.length h
    simp at this
    omega
  | cons c l ih =>
    intro p hp hk
    rw [Short]
    by_cases hc : c = 10
    · rw [if_pos hc]; subst hc
      have := ih [] (by simp) (by simp; omega)
      rw [List.length_nil, List.nil_append] at this
      rw [this]
      constructor
      · intro h a r b hab hr hlen
        -- the run lies behind the newline
        have hidx : p.length < a.length := by
          by_contra hq
          have h1 : (p ++ 10 :: l)[p.length]? = some 10 := by simp
          rw [hab, List.append_assoc, List.getElem?_append_right (by omega), List.getElem?_append_left (by omega)] at h1
          exact hr (List.mem_of_getElem? h1)
        have h2 := congrArg (List.drop (p.length + 1)) hab
        rw [List.append_assoc, List.drop_append_of_le_length (l₁ := a) (by omega), List.drop_append (l₁ := p),
          List.drop_eq_nil_of_le (as := p) (by omega)] at h2
        have h3 : p.length + 1 - p.length = 1 := by omega
        rw [h3] at h2
        simp only [List.drop_succ_cons, List.drop_zero, List.nil_append] at h2
        exact h (a.drop (p.length + 1)) r b (by rw [h2, List.append_assoc]) hr hlen
      · intro h a r b hab hr hlen
        exact h (p ++ 10 :: a) r b (by rw [hab]; simp) hr hlen
    · rw [if_neg hc]
      have hpc : 10 ∉ p ++ [c] := by
        intro hm
        rcases List.mem_append.1 hm with hm | hm
        · exact hp hm
        · exact hc (List.mem_singleton.1 hm).symm
      have happ : p ++ c :: l = (p ++ [c]) ++ l := by simp
      by_cases hk' : p.length + 1 = k
      · rw [if_pos hk']
        constructor
        · rintro rfl a r b hab _ hr
          have := congrArg List.length hab
          simp at this
          exact List.eq_nil_of_length_eq_zero (by omega)
        · intro h
          exact h [] (p ++ [c]) l (by simp) hpc (by simp [hk'])
      · rw [if_neg hk', happ, ← ih (p ++ [c]) hpc (by simp; omega)]
        simp

theorem emit_stop (k : Nat) : ∀ (l : List Nat) (j : Nat), Short k j l → (j < k) →
    ((emit true k j l).2 = none ↔ (l = [] ∧ j = 0) ∨ l.getLast? = some 10 ∨ 10 ∉ l ∧ j + l.length = k ∧ l ≠ [] ∨
      (∃ a b, l = a ++ 10 :: b ∧ 10 ∉ b ∧ b.length = k)) := by
  intro l
  induction l with
  | nil => intro j _ _; by_cases hj : j = 0 <;> simp [emit, hj]
  | cons c l ih =>
    intro j hs hj
    rw [emit]
    rw [Short] at hs
    by_cases hc : c = 10
    · rw [if_pos hc] at hs ⊢
      subst hc
      dsimp only
      rw [ih 0 hs (by omega)]
      constructor
      · rintro (⟨rfl, _⟩ | h | ⟨h1, h2, h3⟩ | ⟨a, b, rfl, h1, h2⟩)
        · exact Or.inr (Or.inl rfl)
        · refine Or.inr (Or.inl ?_)
          cases l with
          | nil => cases h
          | cons d l => rw [List.getLast?_cons_cons]; exact h
        · exact Or.inr (Or.inr (Or.inr ⟨[], l, rfl, h1, by omega⟩))
        · exact Or.inr (Or.inr (Or.inr ⟨10 :: a, b, rfl, h1, h2⟩))
      · rintro (⟨h, _⟩ | h | ⟨h1, _⟩ | ⟨a, b, h0, h1, h2⟩)
        · cases h
        · cases l with
          | nil => exact Or.inl ⟨rfl, rfl⟩
          | cons d l => rw [List.getLast?_cons_cons] at h; exact Or.inr (Or.inl h)
        · exact absurd (List.mem_cons_self ..) h1
        · cases a with
          | nil =>
            have hlb : l = b := (List.cons.inj h0).2
            refine Or.inr (Or.inr (Or.inl ⟨hlb ▸ h1, by rw [hlb]; omega, ?_⟩))
            rw [hlb]; rintro rfl; simp at h2; omega
          | cons x a => exact Or.inr (Or.inr (Or.inr ⟨a, b, (List.cons.inj h0).2, h1, h2⟩))
    · rw [if_neg hc] at hs ⊢
      have hmem : (10 ∈ c :: l) ↔ 10 ∈ l := by
        rw [List.mem_cons]
        constructor
        · rintro (h | h); exact absurd h.symm hc; exact h
        · exact Or.inr
      by_cases hk : j + 1 = k
      · rw [if_pos hk] at hs ⊢
        subst hs
        simp [emit, hk, Ne.symm hc]
      · rw [if_neg hk] at hs ⊢
        dsimp only
        rw [ih (j + 1) hs (by omega), hmem]
        constructor
        · rintro (⟨_, h⟩ | h | ⟨h1, h2, h3⟩ | ⟨a, b, rfl, h1, h2⟩)
          · omega
          · refine Or.inr (Or.inl ?_)
            cases l with
            | nil => cases h
            | cons d l => rw [List.getLast?_cons_cons]; exact h
          · exact Or.inr (Or.inr (Or.inl ⟨h1, by simp; omega, by simp⟩))
          · exact Or.inr (Or.inr (Or.inr ⟨c :: a, b, rfl, h1, h2⟩))
        · rintro (⟨h, _⟩ | h | ⟨h1, h2, _⟩ | ⟨a, b, h0, h1, h2⟩)
          · cases h
          · cases l with
            | nil => exact absurd (Option.some.inj h) hc
            | cons d l => rw [List.getLast?_cons_cons] at h; exact Or.inr (Or.inl h)
          · refine Or.inr (Or.inr (Or.inl ⟨h1, by simp at h2; omega, ?_⟩))
            rintro rfl; simp at h2; omega
          · cases a with
            | nil => exact absurd (List.cons.inj h0).1 hc
            | cons x a => exact Or.inr (Or.inr (Or.inr ⟨a, b, (List.cons.inj h0).2, h1, h2⟩))

/-- If as many characters are read as should be, no line is too long. -/
theorem short_of_length (str : Bool) (k : Nat) : ∀ (l : List Nat) (j : Nat),
    (emit str k j l).1.length = (want j l).length ↔ Short k j l := by
  intro l j
  constructor
  · induction l generalizing j with
    | nil => intro _; trivial
    | cons c l ih =>
      rw [emit, Short]
      by_cases hc : c = 10
      · rw [if_pos hc, if_pos hc]; subst hc
        simp only [want, if_true, List.length_cons]
        intro h
        exact ih 0 (by omega)
      · rw [if_neg hc, if_neg hc]
        simp only [want, hc, if_false]
        by_cases hk : j + 1 = k
        · rw [if_pos hk, if_pos hk]
          intro h
          by_contra hne
          have h2 := (want_le l (j + 1) 0).2 hne
          have h3 := emit_ge str k l 0
          simp at h; omega
        · rw [if_neg hk, if_neg hk]
          intro h
          simp only [List.length_cons] at h
          exact ih (j + 1) (by omega)
  · intro h
    rw [(emit_eq str k l j).2 h]

/-- How reading a string ends. -/
theorem endSafe_iff {text : List Nat} (hs : LinesShort (cap true) text) : (emit true (cap true) 0 text).2 = none ↔ EndSafe text := by
  have hsh := short_lines (k := cap true) text [] (by simp) (cap_pos true)
  rw [List.length_nil, List.nil_append] at hsh
  rw [emit_stop (cap true) text 0 (hsh.2 hs) (cap_pos true)]
  have hc : maxRecord - 2 = cap true := rfl
  unfold EndSafe
  rw [hc]
  generalize hk : cap true = k at *
  have hkp : 0 < k := hk ▸ cap_pos true
  constructor
  · rintro (⟨h, _⟩ | h | ⟨h1, h2, _⟩ | ⟨a, b, rfl, h1, h2⟩)
    · exact Or.inl h
    · exact Or.inr (Or.inl h)
    · refine Or.inr (Or.inr ⟨by omega, ?_⟩)
      exact fun h => h1 (List.mem_of_mem_drop h)
    · refine Or.inr (Or.inr ⟨by simp; omega, ?_⟩)
      have he : (a ++ 10 :: b).length - k = a.length + 1 := by simp; omega
      have hd : (a ++ 10 :: b).drop (a.length + 1) = b := by
        rw [List.drop_append, List.drop_eq_nil_of_le (by omega)]
        have : a.length + 1 - a.length = 1 := by omega
        rw [this]; rfl
      rw [he, hd]; exact h1
  · rintro (h | h | ⟨h1, h2⟩)
    · exact Or.inl ⟨h, rfl⟩
    · exact Or.inr (Or.inl h)
    · generalize hr : text.drop (text.length - k) = r at h2
      generalize ha : text.take (text.length - k) = a
      have hta : text = a ++ r := by rw [← ha, ← hr, List.take_append_drop]
      have hrl : r.length = k := by rw [← hr]; simp; omega
      by_cases hae : a = []
      · subst hae
        refine Or.inr (Or.inr (Or.inl ⟨by rw [hta]; exact h2, by rw [hta]; simp [hrl], ?_⟩))
        rw [hta]; intro h; rw [List.nil_append] at h; rw [h] at hrl; simp at hrl; omega
      · obtain ⟨a', x, rfl⟩ : ∃ a' x, a = a' ++ [x] := ⟨a.dropLast, a.getLast hae, (List.dropLast_concat_getLast hae).symm⟩
        by_cases hx : x = 10
        · subst hx
          exact Or.inr (Or.inr (Or.inr ⟨a', r, by rw [hta]; simp, h2, hrl⟩))
        · exfalso
          have hrn : r ≠ [] := by rintro rfl; simp at hrl; omega
          have := hs a' (x :: r.dropLast) [r.getLast hrn] (by
            rw [hta]
            conv_lhs => rw [← List.dropLast_concat_getLast hrn]
            simp) (by
            intro hm
            rcases List.mem_cons.1 hm with hm | hm
            · exact hx hm.symm
            · exact h2 ((List.dropLast_sublist r).subset hm)) (by simp; omega)
          cases this

/-! ### C147 -/

/-- the bytes of the file and of the current line -/
def Good (s : Stream) : Prop :=
  (∀ b ∈ s.rest, b < 256) ∧ ∀ t, s.curLine = some t → ∀ b ∈ t, b ≠ 0 ∧ b < 256

theorem finishLine_mem {buf : List Nat} {l : Line} (h : finishLine buf = .ok l) : ∀ b ∈ l.text, b ≠ 0 ∧ b ∈ buf := by
  have key : ∀ b ∈ buf.takeWhile (· ≠ 0), b ≠ 0 ∧ b ∈ buf := by
    intro b hb
    refine ⟨?_, (List.takeWhile_sublist _).subset hb⟩
    have := List.all_takeWhile (p := fun x : Nat => decide (x ≠ 0)) (l := buf)
    rw [List.all_eq_true] at this
    simpa using this b hb
  unfold finishLine at h
  dsimp only at h
  split_ifs at h
  · cases h
    intro b hb
    exact key b (List.mem_of_mem_take hb)
  · cases h
    exact key

theorem fill_mem {s s' : Stream} {o : Option (List Nat)} (h : fill s = .ok (s', o)) :
    (∀ b ∈ s'.rest, b ∈ s.rest) ∧ s'.curLine = s.curLine ∧ ∀ buf, o = some buf → ∀ b ∈ buf, b ∈ s.rest := by
  unfold fill at h
  have hf : ∀ k, (∀ b ∈ (fgets k s.rest).1, b ∈ s.rest) ∧ ∀ b ∈ (fgets k s.rest).2, b ∈ s.rest := by
    intro k
    rw [fgets_eq]
    exact ⟨fun b hb => List.mem_of_mem_take hb, fun b hb => List.mem_of_mem_drop hb⟩
  split_ifs at h
  · cases h; exact ⟨fun b hb => hb, rfl, fun buf hb => by cases hb⟩
  · dsimp only at h
    cases h
    exact ⟨fun b hb => List.mem_of_mem_drop hb, rfl, fun buf hb => by cases hb; exact fun b hb => List.mem_of_mem_take hb⟩
  · cases h; exact ⟨fun b hb => hb, rfl, fun buf hb => by cases hb⟩
  · cases h
    exact ⟨(hf _).2, rfl, fun buf hb => by cases hb; exact (hf _).1⟩

theorem nextLine_good {s s' : Stream} {o : Option Line} (h : nextLine s = .ok (s', o)) (hg : Good s) :
    (∀ b ∈ s'.rest, b < 256) ∧ ∀ l, o = some l → ∀ b ∈ l.text, b ≠ 0 ∧ b < 256 := by
  unfold nextLine at h
  split_ifs at h
  cases hf : fill { s with charNo := 0 } with
  | error e => rw [hf] at h; cases h
  | ok p =>
    obtain ⟨s1, ob⟩ := p
    rw [hf] at h
    have hm := fill_mem hf
    cases ob with
    | none => cases h; exact ⟨fun b hb => hg.1 b (hm.1 b hb), fun l hl => by cases hl⟩
    | some buf =>
      dsimp only at h
      cases hl : finishLine buf with
      | error e => rw [hl] at h; cases h
      | ok l =>
        rw [hl] at h
        cases h
        refine ⟨fun b hb => hg.1 b (hm.1 b hb), fun l' hl' => ?_⟩
        cases hl'
        intro b hb
        have := finishLine_mem hl b hb
        exact ⟨this.1, hg.1 b (hm.2.2 buf rfl b this.2)⟩

theorem charVal_zero {b : Nat} (h : b ≠ 0 ∧ b < 256) : charVal b ≠ 0 := by
  obtain ⟨h1, h2⟩ := h
  unfold charVal
  split_ifs <;> omega

theorem peekCur_good {s s' : Stream} {c : Int} (h : peekCur s = .ok (s', c)) (hg : Good s) : s' = s ∧ c ≠ 0 := by
  unfold peekCur at h
  cases hc : s.curLine with
  | none => rw [hc] at h; cases h; exact ⟨rfl, by decide⟩
  | some l =>
    rw [hc] at h
    dsimp only at h
    split_ifs at h
    cases hb : l[s.charNo]? with
    | none => rw [hb] at h; cases h; exact ⟨rfl, by decide⟩
    | some b =>
      rw [hb] at h; cases h
      exact ⟨rfl, charVal_zero (hg.2 l hc b (List.mem_of_getElem? hb))⟩

theorem nextChar_good {s s' : Stream} {c : Int} (h : nextChar s = .ok (s', c)) (hg : Good s) : Good s' ∧ c ≠ 0 := by
  have hp : ∀ s1 c, peekChar s = .ok (s1, c) → Good s1 ∧ c ≠ 0 := by
    intro s1 c hp
    unfold peekChar at hp
    split_ifs at hp
    · obtain ⟨rfl, h2⟩ := peekCur_good hp hg
      exact ⟨hg, h2⟩
    · cases hn : nextLine s with
      | error e => rw [hn] at hp; cases hp
      | ok p =>
        obtain ⟨s2, o⟩ := p
        rw [hn] at hp
        have hng := nextLine_good hn hg
        have hg2 : Good { s2 with curLine := o.map (·.text), charNo := 0 } := by
          refine ⟨hng.1, fun t ht => ?_⟩
          cases o with
          | none => cases ht
          | some l => cases ht; exact hng.2 l rfl
        obtain ⟨rfl, h2⟩ := peekCur_good hp hg2
        exact ⟨hg2, h2⟩
  unfold nextChar at h
  cases hq : peekChar s with
  | error e => rw [hq] at h; cases h
  | ok p =>
    obtain ⟨s1, c1⟩ := p
    rw [hq] at h
    have := hp s1 c1 hq
    dsimp only at h
    split_ifs at h
    · cases h; exact this
    · cases h; exact ⟨⟨this.1.1, fun t ht => by cases ht⟩, this.2⟩
    · cases h; exact ⟨⟨this.1.1, this.1.2⟩, this.2⟩

theorem ends_good {s : Stream} {out : List Int} {r : Option Stop} (h : Ends s out r) : Good s → (0 : Int) ∉ out ∧ EOF ∉ out := by
  induction h with
  | eof _ => intro _; simp
  | stop _ => intro _; simp
  | char h1 h2 _ ih =>
    intro hg
    obtain ⟨g1, g2⟩ := nextChar_good h1 hg
    obtain ⟨i1, i2⟩ := ih g1
    exact ⟨fun h => (List.mem_cons.1 h).elim (fun h => g2 h.symm) i1, fun h => (List.mem_cons.1 h).elim (fun h => h2 h.symm) i2⟩

theorem mem_ended {l : List Nat} {b : Nat} (h : b ∈ l) : b ∈ ended l := by
  unfold ended
  split_ifs
  · exact h
  · exact List.mem_append_left _ h

theorem opened_good (str : Bool) {text : List Nat} (hb : ∀ b ∈ text, b < 256) (line col : Nat) : Good (opened str text line col) :=
  ⟨hb, fun t ht => by cases ht⟩

theorem no_special {str : Bool} {text : List Nat} (hb : ∀ b ∈ text, b < 256) {line col : Nat} {r : Option Stop}
    (h : Ends (opened str text line col) ((ended text).map charVal) r) : ∀ b ∈ text, Plain b := by
  obtain ⟨h1, h2⟩ := ends_good h (opened_good str hb line col)
  intro b hm
  refine ⟨?_, ?_, hb b hm⟩
  · rintro rfl
    exact h1 (List.mem_map.2 ⟨0, mem_ended hm, rfl⟩)
  · rintro rfl
    exact h2 (List.mem_map.2 ⟨255, mem_ended hm, by decide⟩)

/-- With plain bytes: what is read is the text exactly if no line is too long. -/
theorem ends_exact (str : Bool) {text : List Nat} (hp : ∀ b ∈ text, Plain b) (line col : Nat) (r : Option Stop) :
    Ends (opened str text line col) ((ended text).map charVal) r ↔
      LinesShort (cap str) text ∧ r = (emit str (cap str) 0 text).2 := by
  rw [ends_emit text.length (opened str text line col) _ r (le_refl _) rfl rfl hp]
  have hs := short_lines (k := cap str) text [] (by simp) (cap_pos str)
  rw [List.length_nil, List.nil_append] at hs
  rw [← hs, ← emit_eq str (cap str) text 0, want_zero]
  show _ = List.map charVal (emit str (cap str) 0 text).1 ∧ r = (emit str (cap str) 0 text).2 ↔ _
  constructor
  · rintro ⟨h1, h2⟩
    refine ⟨?_, h2⟩
    rw [← want_zero, emit_eq str]
    rw [← want_zero] at h1
    by_contra hq
    -- the lengths agree, so the lists do
    have hlen := congrArg List.length h1
    simp only [List.length_map] at hlen
    exact hq ((short_of_length str (cap str) text 0).1 hlen.symm)
  · rintro ⟨h1, h2⟩
    exact ⟨by rw [h1], h2⟩

theorem emit_file (k : Nat) : ∀ (l : List Nat) (j : Nat), (emit false k j l).2 = none := by
  intro l
  induction l with
  | nil => intro j; rw [emit]; split_ifs <;> first | rfl | exact Or.inl rfl | exact Or.inr rfl | contradiction
  | cons c l ih => intro j; rw [emit]; split_ifs <;> exact ih _

theorem emit_string (k : Nat) : ∀ (l : List Nat) (j : Nat), (emit true k j l).2 = none ∨ (emit true k j l).2 = some .ub := by
  intro l
  induction l with
  | nil => intro j; rw [emit]; split_ifs <;> first | rfl | exact Or.inl rfl | exact Or.inr rfl | contradiction
  | cons c l ih => intro j; rw [emit]; split_ifs <;> exact ih _

/-- **C147 (exactly).**  The text of a file is read as it is exactly if it has no byte 0 and no byte 255, and every line has at
most 798 characters (799 are possible at the end of a file that does not end in a newline). -/
theorem C147_exactly {text : List Nat} (hb : ∀ b ∈ text, b < 256) (line col : Nat) :
    Reads (opened false text line col) ((ended text).map charVal) ↔
      0 ∉ text ∧ 255 ∉ text ∧ LinesShort 799 text := by
  constructor
  · intro h
    have hp := no_special hb h
    refine ⟨fun hm => (hp 0 hm).1 rfl, fun hm => (hp 255 hm).2.1 rfl, ((ends_exact false hp line col none).1 h).1⟩
  · rintro ⟨h1, h2, h3⟩
    have hp : ∀ b ∈ text, Plain b := fun b hm => ⟨fun h => h1 (h ▸ hm), fun h => h2 (h ▸ hm), hb b hm⟩
    exact (ends_exact false hp line col none).2 ⟨h3, (emit_file _ _ _).symm⟩

/-- **C147 (otherwise).**  Reading a file without bytes 0 and 255 always ends; what is read has all the characters of the file in
order: newlines are added only. -/
theorem C147_added_partial {text : List Nat} (hb : ∀ b ∈ text, b ≠ 0 ∧ b ≠ 255 ∧ b < 256) (line col : Nat) :
    ∃ out : List Nat, Reads (opened false text line col) (out.map charVal) ∧ text.Sublist out ∧
      out.filter (· ≠ 10) = text.filter (· ≠ 10) := by
  refine ⟨(emit false (cap false) 0 text).1, (ends_emit text.length (opened false text line col) _ none (le_refl _) rfl rfl hb).2
    ⟨rfl, (emit_file _ _ _).symm⟩, ?_⟩
  have key : ∀ (l : List Nat) (j k : Nat), l.Sublist (emit false k j l).1 ∧
      (emit false k j l).1.filter (· ≠ 10) = l.filter (· ≠ 10) := by
    intro l
    induction l with
    | nil => intro j k; rw [emit]; split_ifs <;> simp
    | cons c l ih =>
      intro j k
      rw [emit]
      split_ifs with h1 h2
      · subst h1
        exact ⟨(ih 0 k).1.cons_cons 10, by simpa using (ih 0 k).2⟩
      · refine ⟨((ih 0 k).1.cons 10).cons_cons c, ?_⟩
        have := (ih 0 k).2
        simp only [ne_eq, decide_not] at this
        simp [h1, this]
      · refine ⟨(ih (j + 1) k).1.cons_cons c, ?_⟩
        have := (ih (j + 1) k).2
        simp only [ne_eq, decide_not] at this
        simp [h1, this]
  exact key text 0 _

/-- **C147 (position).**  The current position is the one after the characters read, whatever was read. -/
theorem C147_position {s s' : Stream} {out : List Int} (h : Steps s out s') : (s'.line, s'.col) = posAfter (s.line, s.col) out := by
  have hfill : ∀ s s' o, fill s = .ok (s', o) → s'.line = s.line ∧ s'.col = s.col := by
    intro s s' o h
    unfold fill at h
    split_ifs at h <;> (first | (dsimp only at h; cases h; exact ⟨rfl, rfl⟩) | (cases h; exact ⟨rfl, rfl⟩))
  have hnl : ∀ s s' o, nextLine s = .ok (s', o) → s'.line = s.line ∧ s'.col = s.col := by
    intro s s' o h
    unfold nextLine at h
    split_ifs at h
    cases hf : fill { s with charNo := 0 } with
    | error e => rw [hf] at h; cases h
    | ok p =>
      obtain ⟨s1, ob⟩ := p
      rw [hf] at h
      have hh := hfill _ _ _ hf
      cases ob with
      | none => cases h; exact hh
      | some buf =>
        dsimp only at h
        cases hl : finishLine buf with
        | error e => rw [hl] at h; cases h
        | ok l => rw [hl] at h; cases h; exact hh
  have hcur : ∀ s s' c, peekCur s = .ok (s', c) → s' = s := by
    intro s s' c h
    unfold peekCur at h
    split at h
    · cases h; rfl
    · split_ifs at h
      split at h <;> (cases h; rfl)
  have hpk : ∀ s s' c, peekChar s = .ok (s', c) → s'.line = s.line ∧ s'.col = s.col := by
    intro s s' c h
    unfold peekChar at h
    split_ifs at h
    · rw [hcur _ _ _ h]; exact ⟨rfl, rfl⟩
    · cases hn : nextLine s with
      | error e => rw [hn] at h; cases h
      | ok p =>
        obtain ⟨s2, o⟩ := p
        rw [hn] at h
        rw [hcur _ _ _ h]
        show s2.line = s.line ∧ s2.col = s.col
        exact hnl _ _ _ hn
  induction h with
  | refl s => rfl
  | @char s s1 s' c out h1 h2 _ ih =>
    rw [ih, posAfter]
    unfold nextChar at h1
    cases hq : peekChar s with
    | error e => rw [hq] at h1; cases h1
    | ok p =>
      obtain ⟨s2, c2⟩ := p
      rw [hq] at h1
      obtain ⟨e1, e2⟩ := hpk _ _ _ hq
      dsimp only at h1
      split_ifs at h1 with h3 h4
      · cases h1; exact absurd h3 h2
      · cases h1; rw [if_pos h4]; dsimp only; rw [e1]
      · cases h1; rw [if_neg h4]; dsimp only; rw [e1, e2]

/-- **C147 (reported).**  A line of a file is reported as too long exactly if 799 characters are read for it. -/
theorem C147_reported {s s' : Stream} {l : Line} (hs : s.str = false) (h0 : 0 ∉ s.rest) (h : nextLine s = .ok (s', some l)) :
    l.long = true ↔ l.text.length = 799 := by
  unfold nextLine at h
  split_ifs at h
  unfold fill at h
  simp only [hs, Bool.false_eq_true, if_false] at h
  by_cases hr : s.rest = []
  · rw [if_pos hr] at h; cases h
  · rw [if_neg hr] at h
    dsimp only at h
    obtain ⟨t, ht1, ht2, ht3⟩ := fgets_shape (maxRecord - 1) s.rest
    generalize hF : fgets (maxRecord - 1) s.rest = F at h ht3
    obtain ⟨ch, rs⟩ := F
    dsimp only at h ht3
    have hm : maxRecord - 1 = 799 := rfl
    have hne : ch ≠ [] := by
      rcases ht3 with ⟨_, h2, _⟩ | ⟨h1, h2, h3⟩
      · rw [h2]; simp
      · rintro rfl
        subst h1
        rcases h3 with h3 | h3
        · simp [hm] at h3
        · rw [h3] at h2; exact hr h2
    have hz : 0 ∉ ch := by
      intro hz
      apply h0
      rcases ht3 with ⟨_, h2, h3⟩ | ⟨h1, h2, _⟩
      · rw [h3]; rw [h2] at hz
        rcases List.mem_append.1 hz with hz | hz
        · exact List.mem_append_left _ hz
        · simp at hz
      · rw [h2, ← h1]; exact List.mem_append_left _ hz
    rw [finishLine_spec hz hne] at h
    dsimp only at h
    cases h
    rcases ht3 with ⟨h1, h2, _⟩ | ⟨h1, h2, _⟩
    · subst h2
      simp only [List.getLast?_concat, if_true, List.dropLast_concat, Bool.false_eq_true, false_iff]
      omega
    · subst h1
      have hl : ch.getLast? ≠ some 10 := fun h => ht1 (List.mem_of_getLast? h)
      rw [if_neg hl]
      simp only [decide_eq_true_eq]
      omega

/-- A line of 799 characters is read with an empty line behind it. -/
theorem C147_full_is_false : ¬ C147_full := by
  intro h
  have h1 := h (List.replicate 799 97 ++ [10]) 1 1 (by
    intro b hb
    rcases List.mem_append.1 hb with hb | hb
    · rw [(List.mem_replicate.1 hb).2]; omega
    · rw [List.mem_singleton.1 hb]; omega)
  have hb : ∀ b ∈ List.replicate 799 97 ++ [10], b < 256 := by
    intro b hb
    rcases List.mem_append.1 hb with hb | hb
    · rw [(List.mem_replicate.1 hb).2]; omega
    · rw [List.mem_singleton.1 hb]; omega
  have h2 := ((C147_exactly hb 1 1).1 h1).2.2 [] (List.replicate 799 97) [10] (by rw [List.nil_append]) (by
    intro hm; have := (List.mem_replicate.1 hm).2; omega) List.length_replicate
  cases h2

/-! ### C148 -/

/-- **C148 (exactly).**  A string is read as it is exactly if it has no byte 255, no line has more than 797 characters, and it
ends in a newline (or its last line fills the buffer). -/
theorem C148_exactly {text : List Nat} (hb : ∀ b ∈ text, 0 < b ∧ b < 256) (line col : Nat) :
    Reads (opened true text line col) ((ended text).map charVal) ↔
      255 ∉ text ∧ LinesShort 798 text ∧ EndSafe text := by
  have hb' : ∀ b ∈ text, b < 256 := fun b hm => (hb b hm).2
  have hcap : cap true = 798 := rfl
  constructor
  · intro h
    have hp := no_special hb' h
    obtain ⟨h1, h2⟩ := (ends_exact true hp line col none).1 h
    refine ⟨fun hm => (hp 255 hm).2.1 rfl, h1, ?_⟩
    exact (endSafe_iff h1).1 h2.symm
  · rintro ⟨h2, h3, h4⟩
    have hp : ∀ b ∈ text, Plain b := fun b hm => ⟨by have := (hb b hm).1; omega, fun h => h2 (h ▸ hm), hb' b hm⟩
    exact (ends_exact true hp line col none).2 ⟨h3, ((endSafe_iff h3).2 h4).symm⟩

/-- **C148 (overrun).**  If the string does not end in a newline, it is read, and then the memory behind it. -/
theorem C148_overrun {text : List Nat} (hb : ∀ b ∈ text, 0 < b ∧ b < 255) (hs : LinesShort 798 text) (he : ¬ EndSafe text)
    (line col : Nat) : Ends (opened true text line col) ((ended text).map charVal) (some .ub) := by
  have hp : ∀ b ∈ text, Plain b := fun b hm => by have := hb b hm; exact ⟨by omega, by omega, by omega⟩
  refine (ends_exact true hp line col _).2 ⟨hs, ?_⟩
  rcases emit_string (cap true) text 0 with h | h
  · exact absurd ((endSafe_iff hs).1 h) he
  · exact h.symm

/-- **C148 (never reported).**  A line of a string is never reported as too long, though long ones are split. -/
theorem C148_reported {s s' : Stream} {l : Line} (hs : s.str = true) (h : nextLine s = .ok (s', some l)) : l.long = false := by
  unfold nextLine at h
  split_ifs at h
  cases hf : fill { s with charNo := 0 } with
  | error e => rw [hf] at h; cases h
  | ok p =>
    obtain ⟨s1, ob⟩ := p
    rw [hf] at h
    cases ob with
    | none => cases h
    | some buf =>
      have hlen : buf.length ≤ 798 := by
        unfold fill at hf
        simp only [hs, if_true] at hf
        split_ifs at hf with h1 h2 h3
        · cases hf
        · have hx : some (s.rest.take (maxRecord - 2)) = some buf := by cases hf; rfl
          rw [← Option.some.inj hx, List.length_take]
          have hm : maxRecord = 800 := rfl
          omega
        · have hx : some (s.rest.take (s.rest.findIdx (· = 10) + 1)) = some buf := by cases hf; rfl
          rw [← Option.some.inj hx]
          rw [List.length_take]
          have hm : maxRecord = 800 := rfl
          omega
      dsimp only at h
      cases hl : finishLine buf with
      | error e => rw [hl] at h; cases h
      | ok l' =>
        rw [hl] at h
        cases h
        unfold finishLine at hl
        dsimp only at hl
        split_ifs at hl
        · cases hl; rfl
        · cases hl
          have : (buf.takeWhile (· ≠ 0)).length ≤ buf.length := (List.takeWhile_sublist _).length_le
          have hm : maxRecord = 800 := rfl
          simp only [ge_iff_le, decide_eq_false_iff_not]
          omega

theorem C148_full_is_false : ¬ C148_full := by
  intro h
  have h1 := h [97] 1 1 (by simp)
  have h2 := ((C148_exactly (text := [97]) (by simp) 1 1).1 h1).2.2
  rcases h2 with h2 | h2 | h2
  · cases h2
  · simp at h2
  · have : maxRecord = 800 := rfl
    simp at h2
    omega

/-! ### Examples -/

/-- `ab⏎c` without a newline at the end: it is read with one -/
example : 0 ∉ [97, 98, 10, 99] ∧ 255 ∉ [97, 98, 10, 99] ∧ LinesShort 799 [97, 98, 10, 99] := by
  refine ⟨by decide, by decide, ?_⟩
  intro a l b h _ hl
  have := congrArg List.length h
  simp at this
  omega

example : ended [97, 98, 10, 99] = [97, 98, 10, 99, 10] := by decide

/-- a line of a file, and positions -/
example : (nextLine (opened false [97, 98, 10, 99] 1 1)).toOption.map (fun p => (p.1.rest, p.2)) = some ([99], some ⟨[97, 98], false⟩) ∧
    posAfter (1, 1) [97, 98, 10, 99] = (2, 2) := by decide

/-- byte 0 at the start of a line -/
example : nextChar (opened false [0, 97, 10] 1 1) = .error .ub := by decide

/-- byte 255 is the end of the file -/
example : (nextChar (opened false [255, 97, 10] 1 1)).toOption.map Prod.snd = some EOF := by decide

/-- a string without newline -/
example : LinesShort 798 [97] ∧ ¬ EndSafe [97] := by
  constructor
  · intro a l b h _ hl
    have := congrArg List.length h
    simp at this
    omega
  · have : maxRecord = 800 := rfl
    rintro (h | h | h)
    · cases h
    · simp at h
    · simp at h; omega

/-- looking ahead in a line, and not beyond -/
example : peekNChar { opened false [] 1 1 with curLine := some [47, 42] } 1 = .ok 42 ∧
    peekNChar { opened false [] 1 1 with curLine := some [47] } 1 = .error .bug := by decide

end InputStream
end Splint
