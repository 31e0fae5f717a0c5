import Verif.Spec.CppMacro
namespace Splint.CppMacro
open Spec

/-! ## Characters -/

theorem not_id_of_hor {c : Char} (h : isHor c = true) : isId c = false := by
  simp only [isHor, Bool.or_eq_true, decide_eq_true_iff] at h
  rcases h with (((rfl | rfl) | rfl) | rfl) | rfl <;> decide

theorem not_hor_of_id {c : Char} (h : isId c = true) : isHor c = false := by
  cases hh : isHor c
  · rfl
  · rw [not_id_of_hor hh] at h; cases h

theorem not_sp_of_id {c : Char} (h : isId c = true) : isSp c = false := by
  unfold isSp
  rw [not_hor_of_id h]
  cases hc : decide (c = '\n')
  · rfl
  · rw [decide_eq_true_iff] at hc; subst hc; revert h; decide

theorem id_ne {c d : Char} (h : isId c = true) (hd : isId d = false) : c ≠ d := by
  rintro rfl; rw [h] at hd; cases hd

theorem hor_ne {c d : Char} (h : isHor c = true) (hd : isHor d = false) : c ≠ d := by
  rintro rfl; rw [h] at hd; cases hd

theorem loop_nil (ps : Params) (fn trail : Bool) (s : CS) : loop ps fn trail s [] = s := by rw [loop]

theorem loop_cons (ps : Params) (fn trail : Bool) (s : CS) (c : Char) (r : List Char) :
    loop ps fn trail s (c :: r) = loop ps fn trail (step ps fn trail s c r).1 (step ps fn trail s c r).2 := by rw [loop]

theorem emit_emit (s : CS) (a b : List Char) : (s.emit a).emit b = s.emit (a ++ b) := by
  simp [CS.emit]

theorem lex_nil (sp : Char → Bool) : lex sp [] = [] := by rw [lex]

theorem lex_cons (sp : Char → Bool) (c : Char) (r : List Char) : lex sp (c :: r) = (lex1 sp c r).1 :: lex sp (lex1 sp c r).2 := by
  rw [lex]

theorem mem_takeWhile_imp {p : Char → Bool} {l : List Char} {d : Char} (h : d ∈ l.takeWhile p) : p d = true :=
  List.all_eq_true.1 (List.all_takeWhile (p := p) (l := l)) d h

/-! ## The loop, by tokens -/

theorem step_hor {ps : Params} {fn trail : Bool} {s : CS} {c : Char} {r : List Char} (hc : isHor c = true) :
    step ps fn trail s c r = (s.emit [c], r) := by
  have h1 := hor_ne hc (d := '#') (by decide)
  have h2 := hor_ne hc (d := '\'') (by decide)
  have h3 := hor_ne hc (d := '"') (by decide)
  have h4 := hor_ne hc (d := '\\') (by decide)
  have h5 := hor_ne hc (d := '@') (by decide)
  simp [step, onChar, not_id_of_hor hc, h1, h2, h3, h4, h5]

theorem loop_ws (ps : Params) (fn trail : Bool) (w r : List Char) : ∀ (s : CS) (c : Char), isHor c = true → (∀ d ∈ w, isHor d = true) →
    loop ps fn trail s (c :: w ++ r) = loop ps fn trail (s.emit (c :: w)) r := by
  induction w with
  | nil => intro s c hc _; rw [List.cons_append, loop_cons, step_hor hc]; rfl
  | cons d w ih =>
    intro s c hc hw
    rw [List.cons_append, loop_cons, step_hor hc, ih _ d (hw d (by simp)) (fun x hx => hw x (by simp [hx])), emit_emit]
    rfl

theorem litBody_word (q : Char) (hq : isId q = false) (w : List Char) (hw : ∀ d ∈ w, isId d = true) (r : List Char) :
    litBody q (w ++ r) = (w ++ (litBody q r).1, (litBody q r).2) := by
  induction w with
  | nil => simp
  | cons c w ih =>
    have hc := hw c (by simp)
    have h1 := id_ne hc hq
    have h2 := id_ne hc (d := '\\') (by decide)
    have ih := ih fun d hd => hw d (by simp [hd])
    cases hwr : w ++ r with
    | nil =>
      rw [List.append_eq_nil_iff] at hwr
      obtain ⟨rfl, rfl⟩ := hwr
      simp [litBody]
    | cons d r' =>
      rw [List.cons_append, hwr, litBody, if_neg h1, if_neg h2, ← hwr, ih]
      rfl

theorem step_in (ps : Params) (fn trail : Bool) (s : CS) (q c : Char) (hd : s.delim = some q) (hst : s.st = false) (r : List Char)
    (hid : isId c = true) : step ps fn trail s c r =
      if ps.isEmpty then (s.emit [c], r) else (s.emit (c :: r.takeWhile isId), r.dropWhile isId) := by
  have h2 := id_ne hid (d := '\'') (by decide)
  have h3 := id_ne hid (d := '"') (by decide)
  have h4 := id_ne hid (d := '\\') (by decide)
  cases hp : ps.isEmpty
  · simp only [step, hd, hid, hp, onWord, hst, Option.isNone_some, Bool.and_false, Bool.false_eq_true, if_false, Bool.not_false, Bool.and_self,
      if_true, Bool.or_false, reduceCtorEq, decide_false]
    rfl
  · simp [step, hd, hid, hp, onChar, h2, h3, h4]

theorem step_in_other (ps : Params) (fn trail : Bool) (s : CS) (q c : Char) (hd : s.delim = some q) (r : List Char)
    (hid : isId c = false) (h1 : c ≠ '\\') (hq : isQuote q = true) : step ps fn trail s c r =
      ({ (s.emit [c]) with delim := if c = q then none else some q }, r) := by
  simp only [step, hd, hid, Option.isNone_some, Bool.and_false, Bool.false_eq_true, if_false, Bool.false_and, onChar, Option.isSome_some,
    Bool.and_true, decide_eq_true_iff, h1]
  split
  · rfl
  · next h2 =>
    have : c ≠ q := by
      rintro rfl
      simp [isQuote] at hq
      simp at h2
      tauto
    simp [this, CS.emit, hd]

/-- Inside of a literal all text is copied. -/
theorem loop_lit (ps : Params) (fn trail : Bool) (q : Char) (hq : isQuote q = true) : ∀ (n : Nat) (l : List Char), l.length ≤ n →
    ∀ s : CS, s.delim = some q → s.st = false → s.cc = false →
    ∃ d, loop ps fn trail s l = loop ps fn trail { (s.emit (litBody q l).1) with delim := d } (litBody q l).2 ∧
      ((litBody q l).2 ≠ [] → d = none) := by
  have hqi : isId q = false := by
    simp [isQuote] at hq; rcases hq with rfl | rfl <;> decide
  intro n
  induction n with
  | zero =>
    intro l hl s hd hst hcc
    obtain rfl : l = [] := List.length_eq_zero_iff.1 (by omega)
    refine ⟨some q, ?_, by simp [litBody]⟩
    cases s; simp_all [litBody, CS.emit, loop_nil]
  | succ n ih =>
    intro l hl s hd hst hcc
    match l, hl with
    | [], _ =>
      refine ⟨some q, ?_, by simp [litBody]⟩
      cases s; simp_all [litBody, CS.emit, loop_nil]
    | c :: r, hl =>
      have hr : r.length ≤ n := by simpa using hl
      by_cases hid : isId c = true
      · -- a word, or a single character of one
        have key : ∀ (w r' : List Char), (∀ d ∈ c :: w, isId d = true) → r = w ++ r' → r'.length ≤ n →
            ∃ d, loop ps fn trail (s.emit (c :: w)) r' =
              loop ps fn trail { (s.emit (litBody q (c :: r)).1) with delim := d } (litBody q (c :: r)).2 ∧
              ((litBody q (c :: r)).2 ≠ [] → d = none) := by
          rintro w r' hw rfl hn
          obtain ⟨d, h1, h2⟩ := ih r' hn (s.emit (c :: w)) hd rfl rfl
          have e : litBody q (c :: (w ++ r')) = ((c :: w) ++ (litBody q r').1, (litBody q r').2) := by
            rw [← List.cons_append]; exact litBody_word q hqi _ hw _
          refine ⟨d, ?_, by rw [e]; exact h2⟩
          rw [h1, e, emit_emit]
        rw [loop_cons, step_in ps fn trail s q c hd hst r hid]
        split
        · exact key [] r (by simpa using hid) (by simp) hr
        · refine key (r.takeWhile isId) (r.dropWhile isId) ?_ (by simp) (le_trans (length_dropWhile_le _ _) hr)
          intro d hd'
          rcases List.mem_cons.1 hd' with rfl | h
          · exact hid
          · exact mem_takeWhile_imp h
      · have hid : isId c = false := by simpa using hid
        by_cases hb : c = '\\'
        · subst hb
          have hst' : step ps fn trail s '\\' r = onChar s '\\' r := by simp [step, hd, hid]
          cases r with
          | nil =>
            refine ⟨some q, ?_, by simp [litBody]⟩
            rw [loop_cons, hst']
            simp [onChar, hd, litBody, loop_nil, CS.emit]
          | cons d r =>
            obtain ⟨e, h1, h2⟩ := ih r (by simp at hr; omega) (s.emit ['\\', d]) hd rfl rfl
            have hqb : ('\\' : Char) ≠ q := by
              rintro rfl; revert hq; decide
            refine ⟨e, ?_, by simpa [litBody, hqb] using h2⟩
            rw [loop_cons, hst']
            simp only [onChar, hd, Option.isSome_some, Bool.and_true, decide_true, if_true, litBody, if_neg hqb]
            rw [if_neg (by decide)]
            simp only
            rw [h1, emit_emit]
            rfl
        · rw [loop_cons, step_in_other ps fn trail s q c hd r hid hb hq]
          by_cases hc : c = q
          · subst hc
            simp only [if_true]
            cases r with
            | nil => exact ⟨none, by simp [litBody, loop_nil, CS.emit], by simp [litBody]⟩
            | cons d r => exact ⟨none, by simp [litBody], by simp⟩
          · simp only [if_neg hc]
            obtain ⟨e, h1, h2⟩ := ih r hr { (s.emit [c]) with delim := some q } rfl rfl rfl
            have e2 : (litBody q (c :: r)) = (c :: (litBody q r).1, (litBody q r).2) := by
              cases r with
              | nil => simp [litBody]
              | cons d r => rw [litBody, if_neg hc, if_neg hb]
            refine ⟨e, ?_, by rw [e2]; exact h2⟩
            rw [h1, e2]
            simp [CS.emit]

/-! ## Runs of letters and digits -/

theorem findParam_eq (ps : Params) (n : List Char) : findParam ps n = (paramNo ps n).map fun i => (i, (ps.getD i ([], false)).2) := by
  unfold findParam paramNo
  cases ps.findIdx? (fun p => decide (p.1 = n)) <;> rfl

theorem takeWhile_append_of {w r : List Char} (hw : ∀ d ∈ w, isId d = true) (hr : (r.head?.map isId).getD false = false) :
    (w ++ r).takeWhile isId = w ∧ (w ++ r).dropWhile isId = r := by
  induction w with
  | nil => cases r with
    | nil => simp
    | cons c r =>
      simp only [List.head?_cons, Option.map_some, Option.getD_some] at hr
      simp [hr]
  | cons c w ih =>
    have := ih fun d hd => hw d (by simp [hd])
    simp [hw c (by simp), this]

theorem step_word {ps : Params} {fn trail : Bool} {s : CS} {c : Char} {r : List Char} (hp : ps.isEmpty = false) (hc : isId c = true) :
    step ps fn trail s c r = (onWord ps s (c :: r.takeWhile isId) (r.dropWhile isId), r.dropWhile isId) := by
  have h1 := id_ne hc (d := '#') (by decide)
  simp [step, h1, hc, hp]

theorem step_copy {ps : Params} {fn trail : Bool} {s : CS} {c : Char} {r : List Char} (h : (isId c && !ps.isEmpty) = false) (h1 : c ≠ '#')
    (h2 : isQuote c = false) (h3 : c ≠ '\\' ∨ s.delim = none) (h4 : c ≠ '@') : step ps fn trail s c r = (s.emit [c], r) := by
  have h2 : ¬ (c = '\'' ∨ c = '"') := by simpa [isQuote] using h2
  have h3 : (decide (c = '\\') && s.delim.isSome) = false := by
    rcases h3 with h | h <;> simp [h]
  unfold step onChar
  rw [if_neg (by simp [h1]), if_neg (by simp [h]), if_neg (by simpa using h2), if_neg (by simp [h3]), if_neg (by simp [h4])]

theorem step_copy_id {ps : Params} {fn trail : Bool} {s : CS} {c : Char} {r : List Char} (hp : ps = []) (hc : isId c = true) :
    step ps fn trail s c r = (s.emit [c], r) := by
  refine step_copy (by simp [hp]) (id_ne hc (by decide)) ?_ (.inl (id_ne hc (by decide))) (id_ne hc (by decide))
  have h1 := id_ne hc (d := '\'') (by decide)
  have h2 := id_ne hc (d := '"') (by decide)
  simp [isQuote, h1, h2]

/-- A run of letters and digits that is no parameter is copied. -/
theorem loop_run (ps : Params) (fn trail : Bool) (r : List Char) (hr : (r.head?.map isId).getD false = false) (w : List Char) : ∀ (s : CS) (c : Char),
    (∀ d ∈ c :: w, isId d = true) → s.delim = none → paramNo ps (c :: w) = none → (ps = [] → s.st = false) →
    loop ps fn trail s (c :: w ++ r) = loop ps fn trail { (s.emit (c :: w)) with error := s.error || s.st } r := by
  intro s c hw hd hn hs
  by_cases hp : ps = []
  · have hst := hs hp
    clear hn hs
    induction w generalizing s c with
    | nil =>
      rw [List.cons_append, loop_cons, step_copy_id hp (hw c (by simp))]
      simp [hst, CS.emit]
    | cons d w ih =>
      rw [List.cons_append, loop_cons, step_copy_id hp (hw c (by simp)), ih (s.emit [c]) d (fun x hx => hw x (by simp [hx])) hd rfl]
      simp [CS.emit, hst]
  · have hp' : ps.isEmpty = false := by simpa using hp
    have hw' : ∀ d ∈ w, isId d = true := fun d hd' => hw d (by simp [hd'])
    have ⟨e1, e2⟩ := takeWhile_append_of hw' hr
    rw [List.cons_append, loop_cons, step_word hp' (hw c (by simp)), e1, e2]
    simp only [onWord, findParam_eq, hn, Option.map_none, ite_self]

theorem runs_cons_id {c : Char} {r : List Char} (h : isId c = true) :
    runs (c :: r) = (c :: r.takeWhile isId) :: runs (r.dropWhile isId) := by rw [runs]; simp [h]

theorem runs_cons_not {c : Char} {r : List Char} (h : isId c = false) : runs (c :: r) = runs r := by rw [runs]; simp [h]

def numChar (c : Char) : Bool := isId c || c = '.' || c = '+' || c = '-'

theorem loop_num (ps : Params) (fn trail : Bool) (r : List Char) (hr : (r.head?.map isId).getD false = false) : ∀ (n : Nat) (l : List Char), l.length ≤ n →
    ∀ s : CS, (∀ c ∈ l, numChar c = true) → s.delim = none → (∀ w ∈ runs l, paramNo ps w = none) → s.st = false → l ≠ [] →
    loop ps fn trail s (l ++ r) = loop ps fn trail (s.emit l) r := by
  intro n
  induction n with
  | zero => intro l hl s _ _ _ _ hne; exact absurd (List.length_eq_zero_iff.1 (by omega)) hne
  | succ n ih =>
    intro l hl s hc hd hn hst hne
    match l, hne with
    | c :: l, _ =>
      by_cases hid : isId c = true
      · rw [runs_cons_id hid] at hn
        have e : l = l.takeWhile isId ++ l.dropWhile isId := by simp
        have hr2 : ((l.dropWhile isId ++ r).head?.map isId).getD false = false := by
          cases hx : l.dropWhile isId with
          | nil => simpa using hr
          | cons d l' =>
            have := List.head_dropWhile_not isId (l := l) (by rw [hx]; simp)
            simp only [hx, List.head_cons] at this
            simp [this]
        have h1 := loop_run ps fn trail (l.dropWhile isId ++ r) hr2 (l.takeWhile isId) s c
          (by
            intro d hd'
            rcases List.mem_cons.1 hd' with rfl | h
            · exact hid
            · exact mem_takeWhile_imp h) hd (hn _ (by simp)) (fun _ => hst)
        have e0 : c :: l ++ r = c :: l.takeWhile isId ++ (l.dropWhile isId ++ r) := by
          rw [List.cons_append, List.cons_append, ← List.append_assoc, ← e]
        rw [e0, h1]
        have e1 : ({ (s.emit (c :: l.takeWhile isId)) with error := s.error || s.st } : CS) = s.emit (c :: l.takeWhile isId) := by
          simp [CS.emit, hst]
        rw [e1]
        by_cases hx : l.dropWhile isId = []
        · rw [hx] at e ⊢
          rw [List.append_nil] at e
          rw [List.nil_append, ← e]
        · rw [ih (l.dropWhile isId) ?_ (s.emit (c :: l.takeWhile isId)) ?_ hd (fun w hw => hn w (by simp [hw])) rfl hx, emit_emit, List.cons_append, ← e]
          · have := length_dropWhile_le isId l
            simp at hl; omega
          · intro d hd'
            exact hc d (List.mem_cons_of_mem _ ((List.dropWhile_sublist isId).subset hd'))
      · have hid : isId c = false := by simpa using hid
        have hcc := hc c (by simp)
        rw [runs_cons_not hid] at hn
        rw [List.cons_append, loop_cons, step_copy (by simp [hid]) ?_ ?_ (.inr hd) ?_]
        · simp only
          by_cases hx : l = []
          · subst hx; rfl
          · rw [ih l (by simp at hl; omega) (s.emit [c]) (fun d hd' => hc d (by simp [hd'])) hd hn rfl hx, emit_emit]
            rfl
        all_goals
          simp only [numChar, hid, Bool.false_or, Bool.or_eq_true, decide_eq_true_iff] at hcc
          rcases hcc with (rfl | rfl) | rfl <;> decide

theorem numBody_spec (p : Char) (l : List Char) : l = (numBody p l).1 ++ (numBody p l).2 ∧ (∀ c ∈ (numBody p l).1, numChar c = true) ∧
    ((numBody p l).2.head?.map isId).getD false = false := by
  fun_induction numBody p l with
  | case1 => simp
  | case2 p c r h b r' hb ih =>
    rw [hb] at ih
    refine ⟨by simpa using ih.1, ?_, ih.2.2⟩
    intro d hd
    rcases List.mem_cons.1 hd with rfl | hd
    · simp only [numChar]
      simp at h
      rcases h with (h | h) | h
      · simp [h]
      · simp [h]
      · rcases h.1 with h | h <;> simp [h]
    · exact ih.2.1 d hd
  | case3 p c r h =>
    simp at h
    simp [h.1]

/-! ## Tokens -/

theorem lex_dropWhile (sp : Char → Bool) (l : List Char) : lex sp (l.dropWhile sp) = skipWs (lex sp l) := by
  cases l with
  | nil => simp [lex_nil, skipWs]
  | cons c r =>
    cases hc : sp c
    · have h0 : (c :: r).dropWhile sp = c :: r := by simp [hc]
      rw [h0, lex_cons]
      have : ∀ w, (lex1 sp c r).1 ≠ .ws w := by
        intro w
        unfold lex1
        rw [if_neg (by simp [hc])]
        repeat' split
        all_goals simp
      generalize (lex1 sp c r).1 = t at this
      cases t <;> simp_all [skipWs]
    · rw [lex_cons]
      simp [lex1, hc, skipWs]

theorem tokens_dropWhile (fn : Bool) (l : List Char) : tokens fn (l.dropWhile isHor) = skipWs (tokens fn l) := by
  unfold tokens
  rw [lex_dropWhile]
  cases lex isHor l with
  | nil => rfl
  | cons t ts => cases t <;> simp [skipWs, conv] <;> split <;> simp_all

theorem tokens_nil (fn : Bool) : tokens fn [] = [] := by simp [tokens, lex_nil]

theorem tokens_cons (fn : Bool) (c : Char) (r : List Char) : tokens fn (c :: r) = conv fn (lex1 isHor c r).1 :: tokens fn (lex1 isHor c r).2 := by
  simp [tokens, lex_cons]

theorem isPaste_tighten (ts : List Tok) : isPaste (tighten ts) = isPaste (skipWs ts) := by
  match ts with
  | [] => rfl
  | t :: ts =>
    cases t <;> simp only [skipWs]
    case ws l =>
      rw [tighten]
      split
      · next h =>
        cases ts with
        | nil => simp [isPaste] at h
        | cons t ts =>
          simp only [isPaste, List.head?_cons, Option.some.injEq, decide_eq_true_iff] at h
          subst h
          cases ts with
          | nil => rfl
          | cons t ts => cases t <;> rfl
      · next h =>
        simp only [Bool.not_eq_true] at h
        rw [h]; rfl
    all_goals (cases ts with
      | nil => rfl
      | cons t ts => cases t <;> rfl)

/-- The kinds of first tokens, and what the first characters are then. -/
theorem startsPaste_tokens (fn : Bool) (l : List Char) : startsPaste l = isPaste (tokens fn l) := by
  match l with
  | [] => simp [tokens_nil, startsPaste, isPaste]
  | c :: r =>
    rw [tokens_cons]
    by_cases hc : c = '#'
    · subst hc
      cases r with
      | nil => cases fn <;> decide
      | cons d r =>
        by_cases hd : d = '#'
        · subst hd; cases fn <;> rfl
        · have e1 : startsPaste ('#' :: d :: r) = false := by
            unfold startsPaste
            split
            · next h => simp at h; exact absurd h.1 hd
            · rfl
          have e2 : (lex1 isHor '#' (d :: r)).1 = .hash := by
            unfold lex1
            rw [if_neg (by decide), if_neg (by decide), if_neg (by simp), if_neg (by decide), if_neg (by simp; decide), if_pos rfl]
            split
            · next h => simp at h; exact absurd h.1 hd
            · rfl
          rw [e1, e2]
          cases fn <;> rfl
    · have e1 : startsPaste (c :: r) = false := by
        unfold startsPaste
        split
        · next h => simp at h; exact absurd h.1 hc
        · rfl
      have e2 : (lex1 isHor c r).1 ≠ .paste ∧ (lex1 isHor c r).1 ≠ .hash := by
        unfold lex1
        rw [if_neg hc]
        repeat' split
        all_goals simp
      rw [e1]
      generalize (lex1 isHor c r).1 = t at e2
      cases t <;> simp_all [conv, isPaste]

theorem isPaste_after (fn : Bool) (l : List Char) : startsPaste (l.dropWhile isHor) = isPaste (tighten (tokens fn l)) := by
  rw [isPaste_tighten, ← tokens_dropWhile, startsPaste_tokens fn]

theorem tighten_paste (ts : List Tok) : tighten (.paste :: ts) = .paste :: tighten (skipWs ts) := by
  cases ts with
  | nil => rfl
  | cons t ts => cases t <;> rfl

theorem tighten_hash (ts : List Tok) : tighten (.hash :: ts) = .hash :: tighten (skipWs ts) := by
  cases ts with
  | nil => rfl
  | cons t ts => cases t <;> rfl

/-! ## Errors stay -/

theorem onWord_error {ps : Params} {s : CS} {w a : List Char} (h : s.error = true) : (onWord ps s w a).error = true := by
  unfold onWord
  simp only
  split <;> simp [h]

theorem onHash_error {fn trail : Bool} {s : CS} {r : List Char} (h : s.error = true) : (onHash fn trail s r).1.error = true := by
  unfold onHash
  split
  · simp [h]
  · simp only
    split_ifs <;> simp [h, CS.emit]

theorem onChar_error {s : CS} {c : Char} {r : List Char} (h : s.error = true) : (onChar s c r).1.error = true := by
  unfold onChar
  split
  · exact h
  · split
    · cases r <;> exact h
    · split <;> exact h

theorem step_error {ps : Params} {fn trail : Bool} {s : CS} {c : Char} {r : List Char} (h : s.error = true) : (step ps fn trail s c r).1.error = true := by
  unfold step
  split
  · exact onHash_error h
  · split
    · exact onWord_error h
    · exact onChar_error h

theorem loop_error (ps : Params) (fn trail : Bool) : ∀ (n : Nat) (l : List Char), l.length ≤ n → ∀ s : CS, s.error = true →
    (loop ps fn trail s l).error = true := by
  intro n
  induction n with
  | zero =>
    intro l hl s h
    obtain rfl : l = [] := List.length_eq_zero_iff.1 (by omega)
    rwa [loop_nil]
  | succ n ih =>
    intro l hl s h
    cases l with
    | nil => rwa [loop_nil]
    | cons c r =>
      rw [loop_cons]
      exact ih _ (le_trans (step_length _ _ _ _ _ _) (by simpa using hl)) _ (step_error h)

/-! ## The text of a definition -/

def valOf (args : Nat → Arg) (p : Pat) : List Char :=
  if p.stringify then makeString (args p.arg).raw
  else if p.rawBefore || p.rawAfter then pasted p (args p.arg).raw
  else (args p.arg).expanded

/-- the definition so far, with the arguments in it -/
def den (args : Nat → Arg) (s : CS) : List Char := s.segs.reverse.flatMap (fun q => q.1 ++ valOf args q.2) ++ s.cur.reverse

def modeOf (s : CS) : Mode := if s.st then .hash else if s.cc then .paste else .none

def good (s : CS) : Prop := (∀ q ∈ s.segs, paired q.1 = true) ∧ paired s.cur.reverse = true

theorem paired_of_not_mem {l : List Char} (h : '@' ∉ l) : paired l = true := by
  induction l with
  | nil => rfl
  | cons c l ih =>
    have hc : c ≠ '@' := fun e => h (by simp [e])
    rw [paired]
    · simp [hc, ih fun e => h (by simp [e])]
    · rintro l rfl _; exact hc rfl

theorem paired_append (a b : List Char) (ha : paired a = true) : paired (a ++ b) = paired b := by
  fun_induction paired a with
  | case1 => rfl
  | case2 l ih => exact ih ha
  | case3 c l h ih =>
    simp only [Bool.and_eq_true, decide_eq_true_iff] at ha
    rw [List.cons_append, paired]
    · simp [ha.1, ih ha.2]
    · rintro l rfl _; exact ha.1 rfl

theorem good_emit {s : CS} {l : List Char} {d : Option Char} {e : Bool} (h : good s) (hl : '@' ∉ l) : good { (s.emit l) with delim := d, error := e } := by
  refine ⟨h.1, ?_⟩
  simp only [CS.emit, List.reverse_append, List.reverse_reverse]
  rw [paired_append _ _ h.2]
  exact paired_of_not_mem hl

/-- what is to be shown of the loop -/
def Concl (ps : Params) (fn trail : Bool) (args : Nat → Arg) (s : CS) (l : List Char) : Prop :=
  ((loop ps fn trail s l).error = false ↔ s.error = false ∧ wellFormed ps trail (modeOf s) (tighten (tokens fn l)) = true) ∧
  ((loop ps fn trail s l).error = false →
    den args (loop ps fn trail s l) = den args s ++ replaced ps args makeString (modeOf s) (tighten (tokens fn l)) ∧
    (good s → good (loop ps fn trail s l)))

variable {ps : Params} {fn trail : Bool} {args : Nat → Arg}

theorem concl_nil {s : CS} (hst : s.st = false) (hc : s.cc = true → trail = false → s.error = true) : Concl ps fn trail args s [] := by
  unfold Concl
  rw [loop_nil, tokens_nil, tighten]
  cases hcc : s.cc
  · simp [modeOf, hst, hcc, wellFormed, replaced]
  · cases ht : trail
    · simp [modeOf, hst, hcc, wellFormed, replaced, hc hcc ht]
    · simp [modeOf, hst, hcc, wellFormed, replaced]

theorem concl_error {s s1 : CS} {l r : List Char} (h : loop ps fn trail s l = loop ps fn trail s1 r) (he : s1.error = true)
    (hw : s.error = true ∨ wellFormed ps trail (modeOf s) (tighten (tokens fn l)) = false) : Concl ps fn trail args s l := by
  have := loop_error ps fn trail r.length r le_rfl s1 he
  unfold Concl
  rw [h, this]
  refine ⟨?_, by simp⟩
  rcases hw with hw | hw <;> simp [hw]

theorem wellFormed_plain {at' : Bool} {m : Mode} {t : Tok} {ts : List Tok} (hm : m ≠ .hash) (h1 : t ≠ .paste) (h2 : t ≠ .hash) :
    wellFormed ps at' m (t :: ts) = wellFormed ps at' .none ts := by
  cases m <;> cases t <;> simp_all [wellFormed]

theorem replaced_plain {m : Mode} {t : Tok} {ts : List Tok} {str : List Char → List Char} (h1 : t ≠ .paste) (h2 : t ≠ .hash)
    (h3 : ∀ w, t = .word w → paramNo ps w = Option.none) : replaced ps args str m (t :: ts) = t.text ++ replaced ps args str .none ts := by
  cases t <;> simp_all [replaced, value, Tok.text]

theorem den_emit (s : CS) (l : List Char) (d : Option Char) : den args { (s.emit l) with delim := d } = den args s ++ l := by
  simp [den, CS.emit]

theorem concl_emit {s : CS} {l r : List Char} {t : Tok} {d : Option Char} (hst : s.st = false)
    (ht : tighten (tokens fn l) = t :: tighten (tokens fn r)) (h1 : t ≠ .paste) (h2 : t ≠ .hash)
    (h3 : ∀ w, t = .word w → paramNo ps w = Option.none)
    (hl : loop ps fn trail s l = loop ps fn trail { (s.emit t.text) with delim := d } r) (ha : '@' ∉ t.text)
    (h : Concl ps fn trail args { (s.emit t.text) with delim := d } r) : Concl ps fn trail args s l := by
  have hm : modeOf s ≠ .hash := by
    unfold modeOf
    rw [hst]
    split <;> simp_all
    split <;> simp
  have hm' : modeOf { (s.emit t.text) with delim := d } = .none := rfl
  unfold Concl at h ⊢
  rw [hm'] at h
  rw [hl, ht, wellFormed_plain hm h1 h2, replaced_plain h1 h2 h3]
  refine ⟨h.1, fun he => ?_⟩
  obtain ⟨e1, e2⟩ := h.2 he
  refine ⟨?_, fun hg => e2 (good_emit hg ha)⟩
  rw [e1, den_emit, List.append_assoc]

theorem modeOf_ne {s : CS} (hst : s.st = false) : modeOf s ≠ .hash := by
  unfold modeOf
  rw [hst, if_neg (by simp)]
  split <;> simp

theorem concl_paste {s : CS} {l r : List Char} (hst : s.st = false)
    (ht : tighten (tokens fn l) = .paste :: tighten (tokens fn r))
    (hl : loop ps fn trail s l = loop ps fn trail { s with cc := true, st := false, error := s.error || (r = [] && !trail) } r)
    (h : Concl ps fn trail args { s with cc := true, st := false, error := s.error || (r = [] && !trail) } r) : Concl ps fn trail args s l := by
  have hm := modeOf_ne hst
  have hm' : modeOf { s with cc := true, st := false, error := s.error || (r = [] && !trail) } = .paste := rfl
  have hw : ∀ ts, wellFormed ps trail (modeOf s) (.paste :: ts) = wellFormed ps trail .paste ts := by
    intro ts; cases h : modeOf s <;> simp_all [wellFormed]
  have hr : ∀ ts, replaced ps args makeString (modeOf s) (.paste :: ts) = replaced ps args makeString .paste ts := by
    intro ts; cases h : modeOf s <;> rfl
  unfold Concl at h ⊢
  rw [hm'] at h
  rw [hl, ht, hw, hr]
  refine ⟨?_, fun he => ?_⟩
  · rw [h.1]
    by_cases hx : r = []
    · subst hx
      cases trail <;> simp [tokens_nil, tighten, wellFormed]
    · simp [hx]
  · obtain ⟨e1, e2⟩ := h.2 he
    exact ⟨e1, fun hg => e2 hg⟩

theorem concl_hash {s : CS} {l r : List Char} (hst : s.st = false)
    (ht : tighten (tokens fn l) = .hash :: tighten (tokens fn r))
    (hl : loop ps fn trail s l = loop ps fn trail { s with cc := false, st := true } r)
    (h : Concl ps fn trail args { s with cc := false, st := true } r) : Concl ps fn trail args s l := by
  have hm := modeOf_ne hst
  have hm' : modeOf { s with cc := false, st := true } = .hash := rfl
  have hw : ∀ ts, wellFormed ps trail (modeOf s) (.hash :: ts) = wellFormed ps trail .hash ts := by
    intro ts; cases h : modeOf s <;> simp_all [wellFormed]
  have hr : ∀ ts, replaced ps args makeString (modeOf s) (.hash :: ts) = replaced ps args makeString .hash ts := by
    intro ts; cases h : modeOf s <;> rfl
  unfold Concl at h ⊢
  rw [hm'] at h
  rw [hl, ht, hw, hr]
  refine ⟨h.1, fun he => ?_⟩
  obtain ⟨e1, e2⟩ := h.2 he
  exact ⟨e1, fun hg => e2 hg⟩

theorem wellFormed_hash_false {at' : Bool} {ts : List Tok} (h1 : ∀ w, ts.head? ≠ some (.word w)) (h2 : ∀ w, ts.head? ≠ some (.ws w)) :
    wellFormed ps at' .hash (tighten ts) = false := by
  match ts with
  | [] => rfl
  | t :: ts =>
    cases t with
    | ws w => exact absurd rfl (h2 w)
    | word w => exact absurd rfl (h1 w)
    | paste => rw [tighten_paste]; rfl
    | hash => rw [tighten_hash]; rfl
    | num l => rw [tighten] <;> simp [wellFormed]
    | lit l => rw [tighten] <;> simp [wellFormed]
    | oth l => rw [tighten] <;> simp [wellFormed]

theorem step_quote {s : CS} {q : Char} {r : List Char} (hd : s.delim = none) (hq : isQuote q = true) :
    step ps fn trail s q r = ({ (s.emit [q]) with delim := some q }, r) := by
  simp only [isQuote, Bool.or_eq_true, decide_eq_true_iff] at hq
  rcases hq with rfl | rfl <;> simp [step, onChar, hd, isId, isStart, isLetter, isDig]

theorem loop_quote {s : CS} {q : Char} {r : List Char} (hd : s.delim = none) (hq : isQuote q = true) :
    ∃ d, loop ps fn trail s (q :: r) = loop ps fn trail { (s.emit (q :: (litBody q r).1)) with delim := d } (litBody q r).2 ∧
      ((litBody q r).2 ≠ [] → d = none) := by
  rw [loop_cons, step_quote hd hq]
  obtain ⟨d, h1, h2⟩ := loop_lit ps fn trail q hq r.length r le_rfl { (s.emit [q]) with delim := some q } rfl rfl rfl
  refine ⟨d, ?_, h2⟩
  rw [h1]
  simp [CS.emit]

theorem litBody_spec (q : Char) (l : List Char) : l = (litBody q l).1 ++ (litBody q l).2 ∧
    ((litBody q l).2 ≠ [] → (litBody q l).1.getLast? = some q) := by
  fun_induction litBody q l with
  | case1 => simp
  | case2 => simp
  | case3 => simp
  | case4 d r b r' e hb ih =>
    rw [e] at ih
    refine ⟨by simpa using ih.1, fun h => ?_⟩
    have := ih.2 h
    cases b with
    | nil => simp at this
    | cons x b => simpa using this
  | case5 c d r hc hb b r' e ih =>
    rw [e] at ih
    refine ⟨by simpa using ih.1, fun h => ?_⟩
    have := ih.2 h
    cases b with
    | nil => simp at this
    | cons x b => simpa using this

theorem wide_iff (c : Char) (r : List Char) : wide (c :: r) = (decide (c = 'L') && (r.head?.map isQuote).getD false) := by
  unfold wide
  split
  · next h => simp at h; obtain ⟨rfl, rfl⟩ := h; simp [isQuote]
  · next h =>
    cases r with
    | nil => simp
    | cons d r =>
      have : c ≠ 'L' := fun e => h d r (by rw [e])
      simp [this]

theorem start_id {c : Char} (h : isStart c = true) : isId c = true := by simp [isId, h]

theorem id_not_quote {c : Char} (h : isId c = true) : isQuote c = false := by
  have h1 := id_ne h (d := '\'') (by decide)
  have h2 := id_ne h (d := '"') (by decide)
  simp [isQuote, h1, h2]

theorem lex1_word {c : Char} {r : List Char} (hs : isStart c = true) (hw : wide (c :: r) = false) :
    lex1 isHor c r = (.word (c :: r.takeWhile isId), r.dropWhile isId) := by
  unfold lex1
  rw [wide_iff] at hw
  rw [if_neg (by simp [not_hor_of_id (start_id hs)]), if_neg (by simp [id_not_quote (start_id hs)]), if_neg (by simp [hw]), if_pos hs]

theorem lex1_word_iff {c : Char} {r : List Char} {w : List Char} (h : (lex1 isHor c r).1 = .word w) : isStart c = true ∧ wide (c :: r) = false := by
  rw [wide_iff]
  unfold lex1 at h
  split at h
  · simp at h
  split at h
  · simp at h
  split at h
  · cases r <;> simp at h
  next h3 =>
  split at h
  · next h4 => exact ⟨h4, by simpa using h3⟩
  split at h
  · simp at h
  split at h
  · split at h <;> simp at h
  · simp at h

theorem head_not_ws (fn : Bool) (l : List Char) (h : (l.head?.map isHor).getD false = false) : ∀ w, (tokens fn l).head? ≠ some (.ws w) := by
  intro w
  have e : l.dropWhile isHor = l := by
    cases l with
    | nil => rfl
    | cons c l => simp at h; simp [h]
  have := tokens_dropWhile fn l
  rw [e] at this
  cases ht : tokens fn l with
  | nil => simp
  | cons t ts =>
    rw [ht] at this
    cases t with
    | ws w' =>
      have := congrArg List.length this
      simp [skipWs] at this
    | _ => simp

theorem head_dropWhile (l : List Char) : ((l.dropWhile isHor).head?.map isHor).getD false = false := by
  cases h : l.dropWhile isHor with
  | nil => rfl
  | cons c r =>
    have := List.head_dropWhile_not isHor (l := l) (by rw [h]; simp)
    simp only [h, List.head_cons] at this
    simp [this]

theorem startsPaste_iff {l : List Char} (h : startsPaste l = true) : ∃ r, l = '#' :: '#' :: r := by
  unfold startsPaste at h
  split at h
  · exact ⟨_, rfl⟩
  · cases h

theorem loop_paste {s : CS} {r : List Char} (hd : s.delim = none) : loop ps fn trail s ('#' :: '#' :: r) =
    loop ps fn trail { s with cur := s.cur.dropWhile isHor, cc := true, st := false, error := s.error || (r.dropWhile isHor = [] && !trail) }
      (r.dropWhile isHor) := by
  rw [loop_cons]
  simp [step, hd, onHash]

theorem lex1_paste (sp : Char → Bool) (hsp : sp '#' = false) (r : List Char) : lex1 sp '#' ('#' :: r) = (.paste, r) := by
  unfold lex1
  rw [if_neg (by simp [hsp]), if_neg (by decide), if_neg (by simp), if_neg (by decide), if_neg (by simp; decide), if_pos rfl]
  rfl

theorem lex1_hash (sp : Char → Bool) (hsp : sp '#' = false) (r : List Char) (h : r.head? ≠ some '#') : lex1 sp '#' r = (.hash, r) := by
  unfold lex1
  rw [if_neg (by simp [hsp]), if_neg (by decide), if_neg (by simp), if_neg (by decide), if_neg (by simp; decide), if_pos rfl]
  split
  · next h' => simp at h
  · rfl

theorem dropWhile_of_head {l : List Char} (h : (l.head?.map isHor).getD false = false) : l.dropWhile isHor = l := by
  cases l with
  | nil => rfl
  | cons c l => simp at h; simp [h]

theorem dropWhile_reverse_append {w l : List Char} (hw : ∀ d ∈ w, isHor d = true) : (w.reverse ++ l).dropWhile isHor = l.dropWhile isHor := by
  have : ∀ d ∈ w.reverse, isHor d = true := fun d hd => hw d (by simpa using hd)
  generalize w.reverse = v at this
  induction v with
  | nil => rfl
  | cons c v ih => simp [this c (by simp), ih fun d hd => this d (by simp [hd])]

theorem tokens_suffix_safe {c : Char} {r : List Char} (h : numbersSafe ps (lex isHor (c :: r))) : numbersSafe ps (lex isHor (lex1 isHor c r).2) := by
  rw [lex_cons] at h
  exact fun l hl => h l (List.mem_cons_of_mem _ hl)

theorem numbersSafe_dropWhile {l : List Char} (h : numbersSafe ps (lex isHor l)) : numbersSafe ps (lex isHor (l.dropWhile isHor)) := by
  rw [lex_dropWhile]
  intro w hw
  refine h w ?_
  revert hw
  generalize lex isHor l = ts
  cases ts with
  | nil => exact id
  | cons t ts => cases t <;> simp [skipWs]

theorem emit_head {s : CS} {c x : Char} {w : List Char} (h : (s.emit (c :: w)).cur.head? = some x) : x ∈ c :: w := by
  have e : (s.emit (c :: w)).cur = (c :: w).reverse ++ s.cur := rfl
  rw [e, List.head?_append, List.head?_reverse, List.getLast?_cons] at h
  simp only [Option.some_or, Option.some.injEq] at h
  rw [← h]
  cases hw : w.getLast? with
  | none => simp
  | some y => exact List.mem_cons_of_mem _ (List.mem_of_getLast? hw)

theorem hash_dropWhile {l : List Char} {P Q : Prop} (h : P → Q → Tok.hash ∉ lex isHor l) : P → Q → Tok.hash ∉ lex isHor (l.dropWhile isHor) := by
  intro p q hx
  rw [lex_dropWhile] at hx
  refine h p q ?_
  revert hx
  generalize lex isHor l = ts
  cases ts with
  | nil => exact id
  | cons t ts => cases t <;> simp [skipWs]

/-- The loop does to the text what the standard says of the tokens. -/
theorem loop_spec
    (hp : ∀ p : Pat, pasted p (args p.arg).raw = trimmed p.rawBefore p.rawAfter (args p.arg).raw) : ∀ (n : Nat) (l : List Char), l.length ≤ n → ∀ s : CS,
    s.delim = none → '@' ∉ l → numbersSafe ps (lex isHor l) → (ps = [] → fn = true → Tok.hash ∉ lex isHor l) →
    ((s.cur.head?.map isHor).getD false = true → (∀ w, (tokens fn l).head? ≠ some (.ws w)) ∧ (tokens fn l).head? ≠ some .paste) →
    (s.st = true → ps ≠ [] ∧ ∃ w, (tokens fn l).head? = some (.word w)) →
    (s.cc = true → l = [] → trail = false → s.error = true) → Concl ps fn trail args s l := by
  intro n
  induction n with
  | zero =>
    intro l hl s _ _ _ _ _ hs hc
    obtain rfl : l = [] := List.length_eq_zero_iff.1 (by omega)
    refine concl_nil ?_ (fun h => hc h rfl)
    cases h : s.st
    · rfl
    · obtain ⟨_, w, hw⟩ := hs h
      simp [tokens_nil] at hw
  | succ n ih =>
    intro l hl s hd hat hns hno hh hs hc
    match l, hl with
    | [], _ =>
      refine concl_nil ?_ (fun h => hc h rfl)
      cases h : s.st
      · rfl
      · obtain ⟨_, w, hw⟩ := hs h
        simp [tokens_nil] at hw
    | c :: r, hl =>
    have hr : r.length ≤ n := by simpa using hl
    have hlen := le_trans (lex1_length isHor c r) hr
    have hns' := tokens_suffix_safe hns
    have hno' : ps = [] → fn = true → Tok.hash ∉ lex isHor (lex1 isHor c r).2 :=
      fun h1 h2 h3 => hno h1 h2 (by rw [lex_cons]; exact List.mem_cons_of_mem _ h3)
    have hat' : '@' ∉ r := fun h => hat (by simp [h])
    have hst0 : (∀ w, (lex1 isHor c r).1 ≠ .word w) → s.st = false := by
      intro h
      cases hs' : s.st
      · rfl
      · obtain ⟨_, w, hw⟩ := hs hs'
        rw [tokens_cons] at hw
        simp only [List.head?_cons, Option.some.injEq] at hw
        exfalso
        cases ht : (lex1 isHor c r).1 with
        | word w => exact h w ht
        | hash => rw [ht] at hw; cases fn <;> simp [conv] at hw
        | _ => rw [ht] at hw; simp [conv] at hw
    -- the three kinds of `##`
    have doPaste : ∀ (s0 : CS) (r2 : List Char), r2.length ≤ n → '@' ∉ r2 → numbersSafe ps (lex isHor (r2.dropWhile isHor)) →
        (ps = [] → fn = true → Tok.hash ∉ lex isHor (r2.dropWhile isHor)) → s0.delim = none → s0.st = false →
        (s0.cur.head?.map isHor).getD false = false →
        Concl ps fn trail args { s0 with cc := true, st := false, error := s0.error || (r2.dropWhile isHor = [] && !trail) } (r2.dropWhile isHor) := by
      intro s0 r2 h1 h2 h3 h7 h4 h5 h6
      refine ih _ (le_trans (length_dropWhile_le _ _) h1) _ h4 (fun h => h2 ((List.dropWhile_sublist isHor).subset h)) h3 h7 ?_ ?_ ?_
      · intro h; simp only at h; rw [h6] at h; cases h
      · simp
      · intro _ h ht; simp [h, ht]
    by_cases hhor : isHor c = true
    · -- white space
      have e1 : lex1 isHor c r = (.ws (c :: r.takeWhile isHor), r.dropWhile isHor) := by simp [lex1, hhor]
      have hst := hst0 (by rw [e1]; simp)
      rw [e1] at hns' hno' hlen
      simp only at hns' hno' hlen
      have hw : ∀ d ∈ r.takeWhile isHor, isHor d = true := fun d hd => mem_takeWhile_imp hd
      have e2 : loop ps fn trail s (c :: r) = loop ps fn trail (s.emit (c :: r.takeWhile isHor)) (r.dropWhile isHor) := by
        rw [← loop_ws ps fn trail _ _ s c hhor hw]
        simp
      have e3 : tokens fn (c :: r) = .ws (c :: r.takeWhile isHor) :: tokens fn (r.dropWhile isHor) := by rw [tokens_cons, e1]; rfl
      have hcur : (s.cur.head?.map isHor).getD false = false := by
        by_contra h
        have h := hh (by simpa using h)
        rw [e3] at h
        exact h.1 _ rfl
      have hat2 : '@' ∉ r.dropWhile isHor := fun h => hat' ((List.dropWhile_sublist isHor).subset h)
      cases hpst : isPaste (tokens fn (r.dropWhile isHor))
      · refine concl_emit (t := .ws (c :: r.takeWhile isHor)) (r := r.dropWhile isHor) (d := s.delim) hst ?_ (by simp) (by simp) (by simp) e2 ?_ ?_
        · rw [e3, tighten, if_neg (by simp [hpst])]
        · intro h
          refine hat ?_
          rcases List.mem_cons.1 h with h | h
          · exact List.mem_cons.2 (.inl h)
          · exact List.mem_cons_of_mem _ ((List.takeWhile_sublist isHor).subset h)
        · refine ih _ hlen _ hd hat2 hns' hno' ?_ (by simp [CS.emit]) (by simp [CS.emit])
          intro _
          refine ⟨head_not_ws fn _ (head_dropWhile r), fun h => ?_⟩
          simp [isPaste, h] at hpst
      · rw [← startsPaste_tokens] at hpst
        obtain ⟨r2, hr2⟩ := startsPaste_iff hpst
        rw [hr2] at hlen hat2 hns' hno'
        have hns2 := tokens_suffix_safe hns'
        have hno2 : ps = [] → fn = true → Tok.hash ∉ lex isHor (lex1 isHor '#' ('#' :: r2)).2 :=
          fun h1 h2 h3 => hno' h1 h2 (by rw [lex_cons]; exact List.mem_cons_of_mem _ h3)
        rw [lex1_paste _ (by decide)] at hns2 hno2
        have ek : ((s.emit (c :: r.takeWhile isHor)).cur).dropWhile isHor = s.cur := by
          show ((c :: r.takeWhile isHor).reverse ++ s.cur).dropWhile isHor = s.cur
          rw [dropWhile_reverse_append (by intro d hd; rcases List.mem_cons.1 hd with rfl | h; exacts [hhor, hw d h]), dropWhile_of_head hcur]
        have tk : tokens fn ('#' :: '#' :: r2) = .paste :: tokens fn r2 := by
          rw [tokens_cons, lex1_paste _ (by decide)]; rfl
        refine concl_paste (r := r2.dropWhile isHor) hst ?_ ?_
          (doPaste s r2 (by simp at hlen; omega) (fun h => hat2 (by simp [h])) (numbersSafe_dropWhile hns2) (hash_dropWhile hno2) hd hst hcur)
        · rw [e3, hr2, tk, tighten, if_pos (by simp [isPaste]), tighten_paste, tokens_dropWhile]
        · rw [e2, hr2, loop_paste (s := s.emit (c :: r.takeWhile isHor)) hd, ek]
          rfl
    have hhor : isHor c = false := by simpa using hhor
    have hnotws : ∀ t ts, tighten (t :: ts) = t :: tighten ts ∨ (∃ w, t = .ws w) ∨ t = .paste ∨ t = .hash := by
      intro t ts
      cases t with
      | ws w => exact .inr (.inl ⟨w, rfl⟩)
      | paste => exact .inr (.inr (.inl rfl))
      | hash => exact .inr (.inr (.inr rfl))
      | word l => left; rw [tighten] <;> simp
      | num l => left; rw [tighten] <;> simp
      | lit l => left; rw [tighten] <;> simp
      | oth l => left; rw [tighten] <;> simp
    by_cases hq : isQuote c = true
    · -- a literal
      have e1 : lex1 isHor c r = (.lit (c :: (litBody c r).1), (litBody c r).2) := by simp [lex1, hhor, hq]
      have hst := hst0 (by rw [e1]; simp)
      rw [e1] at hns' hno' hlen
      simp only at hns' hno' hlen
      obtain ⟨d, h1, h2⟩ := loop_quote (ps := ps) (fn := fn) (trail := trail) (r := r) hd hq
      have e3 : tokens fn (c :: r) = .lit (c :: (litBody c r).1) :: tokens fn (litBody c r).2 := by rw [tokens_cons, e1]; rfl
      have hsp := litBody_spec c r
      refine concl_emit (t := .lit (c :: (litBody c r).1)) (r := (litBody c r).2) (d := d) hst ?_ (by simp) (by simp) (by simp) h1 ?_ ?_
      · rw [e3]; exact (hnotws _ _).resolve_right (by simp)
      · intro h
        refine hat ?_
        rcases List.mem_cons.1 h with h | h
        · exact List.mem_cons.2 (.inl h)
        · rw [hsp.1]; simp [h]
      · by_cases hx : (litBody c r).2 = []
        · rw [hx]; exact concl_nil rfl (by simp [CS.emit])
        · refine ih _ hlen _ (h2 hx) (fun h => hat' (by rw [hsp.1]; simp [h])) hns' hno' ?_ (by simp [CS.emit]) (by simp [CS.emit])
          intro h
          exfalso
          have hl' := hsp.2 hx
          simp only [CS.emit, Tok.text, List.reverse_cons, List.append_assoc, List.head?_append, List.head?_reverse, hl'] at h
          simp [hhor] at h
    have hq : isQuote c = false := by simpa using hq
    by_cases hL : wide (c :: r) = true
    · -- a literal with the prefix L
      have hL' := hL
      rw [wide_iff] at hL'
      simp only [Bool.and_eq_true, decide_eq_true_iff] at hL'
      obtain ⟨rfl, hL2⟩ := hL'
      cases r with
      | nil => simp at hL2
      | cons q r =>
      simp only [List.head?_cons, Option.map_some, Option.getD_some] at hL2
      have e1 : lex1 isHor 'L' (q :: r) = (.lit ('L' :: q :: (litBody q r).1), (litBody q r).2) := by
        unfold lex1
        rw [if_neg (by decide), if_neg (by decide), if_pos (by simp [hL2])]
      have hst := hst0 (by rw [e1]; simp)
      rw [e1] at hns' hno' hlen
      simp only at hns' hno' hlen
      have hqid : isId q = false := by
        cases h : isId q
        · rfl
        · rw [id_not_quote h] at hL2; cases hL2
      have e0 : loop ps fn trail s ('L' :: q :: r) = loop ps fn trail (s.emit ['L']) (q :: r) := by
        rw [loop_cons]
        by_cases hps : ps = []
        · rw [step_copy_id hps (by decide)]
        · rw [step_word (by simpa using hps) (by decide)]
          have t1 : (q :: r).takeWhile isId = [] := by simp [hqid]
          have t2 : (q :: r).dropWhile isId = q :: r := by simp [hqid]
          rw [t1, t2]
          have : onWord ps s ['L'] (q :: r) = s.emit ['L'] := by
            unfold onWord
            simp [hL, CS.emit, hst]
          rw [this]
      obtain ⟨d, h1, h2⟩ := loop_quote (ps := ps) (fn := fn) (trail := trail) (s := s.emit ['L']) (r := r) hd hL2
      have e3 : tokens fn ('L' :: q :: r) = .lit ('L' :: q :: (litBody q r).1) :: tokens fn (litBody q r).2 := by rw [tokens_cons, e1]; rfl
      have hsp := litBody_spec q r
      have hhq : isHor q = false := by
        simp only [isQuote, Bool.or_eq_true, decide_eq_true_iff] at hL2
        rcases hL2 with rfl | rfl <;> decide
      refine concl_emit (t := .lit ('L' :: q :: (litBody q r).1)) (r := (litBody q r).2) (d := d) hst ?_ (by simp) (by simp) (by simp) ?_ ?_ ?_
      · rw [e3]; exact (hnotws _ _).resolve_right (by simp)
      · rw [e0, h1]; simp [CS.emit, Tok.text]
      · intro h
        refine hat ?_
        rcases List.mem_cons.1 h with h | h
        · simp at h
        · rcases List.mem_cons.1 h with h | h
          · exact List.mem_cons_of_mem _ (List.mem_cons.2 (.inl h))
          · rw [hsp.1]; simp [h]
      · by_cases hx : (litBody q r).2 = []
        · rw [hx]; exact concl_nil rfl (by simp [CS.emit])
        · refine ih _ hlen _ (h2 hx) (fun h => hat' (by rw [hsp.1]; simp [h])) hns' hno' ?_ (by simp [CS.emit]) (by simp [CS.emit])
          intro h
          exfalso
          have hl' := hsp.2 hx
          simp only [CS.emit, Tok.text, List.reverse_cons, List.append_assoc, List.head?_append, List.head?_reverse, hl'] at h
          simp [hhq] at h
    have hL : wide (c :: r) = false := by simpa using hL
    have splitr : ∀ d, d ∈ r.dropWhile isId → d ∈ r := fun d h => (List.dropWhile_sublist isId).subset h
    by_cases hstart : isStart c = true
    · -- a word
      have hid := start_id hstart
      have e1 := lex1_word hstart hL
      rw [e1] at hns' hno' hlen
      simp only at hns' hno' hlen
      have e3 : tokens fn (c :: r) = .word (c :: r.takeWhile isId) :: tokens fn (r.dropWhile isId) := by rw [tokens_cons, e1]; rfl
      have e4 : tighten (tokens fn (c :: r)) = .word (c :: r.takeWhile isId) :: tighten (tokens fn (r.dropWhile isId)) := by
        rw [e3]; exact (hnotws _ _).resolve_right (by simp)
      have hhead : ((r.dropWhile isId).head?.map isId).getD false = false := by
        cases h : r.dropWhile isId with
        | nil => rfl
        | cons d r' =>
          have := List.head_dropWhile_not isId (l := r) (by rw [h]; simp)
          simp only [h, List.head_cons] at this
          simp [this]
      have hall : ∀ d ∈ c :: r.takeWhile isId, isId d = true := by
        intro d hd
        rcases List.mem_cons.1 hd with rfl | h
        · exact hid
        · exact mem_takeWhile_imp h
      have hat2 : '@' ∉ r.dropWhile isId := fun h => hat' (splitr _ h)
      cases hnp : paramNo ps (c :: r.takeWhile isId) with
      | none =>
        have hpe : ps = [] → s.st = false := by
          intro h
          cases hs' : s.st
          · rfl
          · exact absurd h (hs hs').1
        have e5 := loop_run ps fn trail (r.dropWhile isId) hhead (r.takeWhile isId) s c hall hd hnp hpe
        rw [List.cons_append, List.takeWhile_append_dropWhile] at e5
        cases hs' : s.st
        · rw [hs', Bool.or_false] at e5
          refine concl_emit (t := .word (c :: r.takeWhile isId)) (r := r.dropWhile isId) (d := s.delim) hs' e4 (by simp) (by simp) ?_ e5 ?_ ?_
          · rintro w h; cases h; exact hnp
          · intro h
            exact absurd (hall _ h) (by decide)
          · refine ih _ hlen _ hd hat2 hns' hno' ?_ (by simp [CS.emit]) (by simp [CS.emit])
            intro h
            exfalso
            have hm : ∀ x, (s.emit (c :: r.takeWhile isId)).cur.head? = some x → isHor x = false := by
              intro x hx
              refine not_hor_of_id (hall x ?_)
              exact emit_head hx
            cases hx : (s.emit (c :: r.takeWhile isId)).cur.head? with
            | none => simp only [Tok.text] at h; rw [hx] at h; simp at h
            | some x => simp only [Tok.text] at h; rw [hx] at h; simp [hm x hx] at h
        · refine concl_error e5 (by simp [hs']) (.inr ?_)
          rw [e4]
          simp [modeOf, hs', wellFormed, hnp]
      | some i =>
        have hpe : ps.isEmpty = false := by
          cases ps with
          | nil => simp [paramNo] at hnp
          | cons => rfl
        have hwid : (decide (c :: r.takeWhile isId = ['L']) && wide (c :: r.takeWhile isId ++ r.dropWhile isId)) = false := by
          rw [List.cons_append, List.takeWhile_append_dropWhile, hL, Bool.and_false]
        have e5 : loop ps fn trail s (c :: r) = loop ps fn trail
            { s with segs := (s.cur.reverse, ⟨i, s.st, s.cc, isPaste (tighten (tokens fn (r.dropWhile isId))), (ps.getD i ([], false)).2⟩) :: s.segs
                     cur := [], cc := false, st := false } (r.dropWhile isId) := by
          rw [loop_cons, step_word hpe hid, ← isPaste_after fn]
          simp only [onWord, List.head?_cons, Option.map_some, Option.getD_some, hstart, hwid, hd, findParam_eq, hnp]
          rfl
        have h5 : Concl ps fn trail args
            { s with segs := (s.cur.reverse, ⟨i, s.st, s.cc, isPaste (tighten (tokens fn (r.dropWhile isId))), (ps.getD i ([], false)).2⟩) :: s.segs
                     cur := [], cc := false, st := false } (r.dropWhile isId) :=
          ih _ hlen _ hd hat2 hns' hno' (by simp) (by simp) (by simp)
        unfold Concl at h5 ⊢
        rw [e5, e4]
        refine ⟨?_, fun he => ?_⟩
        · rw [h5.1]
          have : wellFormed ps trail (modeOf s) (.word (c :: r.takeWhile isId) :: tighten (tokens fn (r.dropWhile isId))) =
              wellFormed ps trail .none (tighten (tokens fn (r.dropWhile isId))) := by
            cases hm : modeOf s <;> simp [wellFormed, hnp]
          rw [this]
          rfl
        · obtain ⟨e6, e7⟩ := h5.2 he
          refine ⟨?_, fun hg => e7 ⟨?_, rfl⟩⟩
          · rw [e6]
            have hv : replaced ps args makeString (modeOf s) (.word (c :: r.takeWhile isId) :: tighten (tokens fn (r.dropWhile isId))) =
                value ps args makeString (modeOf s) (c :: r.takeWhile isId) (isPaste (tighten (tokens fn (r.dropWhile isId)))) ++
                replaced ps args makeString .none (tighten (tokens fn (r.dropWhile isId))) := by
              cases modeOf s <;> rfl
            have hval : valOf args ⟨i, s.st, s.cc, isPaste (tighten (tokens fn (r.dropWhile isId))), (ps.getD i ([], false)).2⟩ =
                value ps args makeString (modeOf s) (c :: r.takeWhile isId) (isPaste (tighten (tokens fn (r.dropWhile isId)))) := by
              unfold valOf value
              rw [hnp]
              simp only [hp]
              cases h1 : s.st
              · cases h2 : s.cc <;> simp [modeOf, h1, h2]
              · simp [modeOf, h1]
            rw [hv]
            show den args _ ++ replaced ps args makeString .none _ = _
            rw [← List.append_assoc]
            congr 1
            simp only [den, List.reverse_cons, List.flatMap_append, List.flatMap_cons, List.flatMap_nil, List.append_nil, List.reverse_nil, hval,
              List.append_assoc]
          · intro q hq'
            rcases List.mem_cons.1 hq' with rfl | h
            · exact hg.2
            · exact hg.1 q h
    have hstart : isStart c = false := by simpa using hstart
    have hnoword : ∀ w, (lex1 isHor c r).1 ≠ .word w := by
      intro w h
      have := (lex1_word_iff h).1
      rw [hstart] at this; cases this
    have hst := hst0 hnoword
    have hLw : (decide (c = 'L') && (r.head?.map isQuote).getD false) = false := by rw [← wide_iff]; exact hL
    by_cases hnum : (isDig c || (decide (c = '.') && (r.head?.map isDig).getD false)) = true
    · -- a number
      have e1 : lex1 isHor c r = (.num (c :: (numBody c r).1), (numBody c r).2) := by
        unfold lex1
        rw [if_neg (by simp [hhor]), if_neg (by simp [hq]), if_neg (by simp [hLw]), if_neg (by simp [hstart]), if_pos hnum]
      obtain ⟨n1, n2, n3⟩ := numBody_spec c r
      have hnc : ∀ d ∈ c :: (numBody c r).1, numChar d = true := by
        intro d hd
        rcases List.mem_cons.1 hd with rfl | h
        · simp only [Bool.or_eq_true, Bool.and_eq_true, decide_eq_true_iff] at hnum
          rcases hnum with h | h
          · simp [numChar, isId, h]
          · simp [numChar, h.1]
        · exact n2 d h
      have e2 : loop ps fn trail s (c :: r) = loop ps fn trail (s.emit (c :: (numBody c r).1)) (numBody c r).2 := by
        have := loop_num ps fn trail (numBody c r).2 n3 _ (c :: (numBody c r).1) le_rfl s hnc hd
          (hns _ (by rw [lex_cons, e1]; simp)) hst (by simp)
        rw [List.cons_append, ← n1] at this
        exact this
      rw [e1] at hns' hno' hlen
      simp only at hns' hno' hlen
      have e3 : tokens fn (c :: r) = .num (c :: (numBody c r).1) :: tokens fn (numBody c r).2 := by rw [tokens_cons, e1]; rfl
      have hnh : ∀ d, numChar d = true → isHor d = false := by
        intro d hd
        cases h : isHor d
        · rfl
        · exfalso
          simp only [isHor, Bool.or_eq_true, decide_eq_true_iff] at h
          rcases h with (((rfl | rfl) | rfl) | rfl) | rfl <;> revert hd <;> decide
      refine concl_emit (t := .num (c :: (numBody c r).1)) (r := (numBody c r).2) (d := s.delim) hst ?_ (by simp) (by simp) (by simp) e2 ?_ ?_
      · rw [e3]; exact (hnotws _ _).resolve_right (by simp)
      · intro h
        exact absurd (hnc _ h) (by decide)
      · refine ih _ hlen _ hd (fun h => hat' (by rw [n1]; simp [h])) hns' hno' ?_ (by simp [CS.emit]) (by simp [CS.emit])
        intro h
        exfalso
        have hm : ∀ x, (s.emit (c :: (numBody c r).1)).cur.head? = some x → isHor x = false := by
          intro x hx
          refine hnh x (hnc x ?_)
          exact emit_head hx
        cases hx : (s.emit (c :: (numBody c r).1)).cur.head? with
        | none => simp only [Tok.text] at h; rw [hx] at h; simp at h
        | some x => simp only [Tok.text] at h; rw [hx] at h; simp [hm x hx] at h
    have hnum : (isDig c || (decide (c = '.') && (r.head?.map isDig).getD false)) = false := by simpa using hnum
    have hid : isId c = false := by
      simp only [Bool.or_eq_false_iff] at hnum
      simp [isId, hstart, hnum.1]
    by_cases hsh : c = '#'
    · subst hsh
      by_cases hpp : r.head? = some '#'
      · -- ##
        obtain ⟨r2, rfl⟩ : ∃ r2, r = '#' :: r2 := by
          cases r with
          | nil => simp at hpp
          | cons d r => simp at hpp; subst hpp; exact ⟨r, rfl⟩
        have e1 := lex1_paste isHor (by decide) r2
        rw [e1] at hns' hno'
        have tk : tokens fn ('#' :: '#' :: r2) = .paste :: tokens fn r2 := by
          rw [tokens_cons, e1]; rfl
        have hcur : (s.cur.head?.map isHor).getD false = false := by
          by_contra h
          have h := hh (by simpa using h)
          rw [tk] at h
          exact h.2 rfl
        refine concl_paste (r := r2.dropWhile isHor) hst ?_ ?_
          (doPaste s r2 (by simp at hr; omega) (fun h => hat' (by simp [h])) (numbersSafe_dropWhile hns') (hash_dropWhile hno') hd hst hcur)
        · rw [tk, tighten_paste, tokens_dropWhile]
        · rw [loop_paste hd, dropWhile_of_head hcur]
      · -- #
        have e1 := lex1_hash isHor (by decide) r hpp
        rw [e1] at hns' hno'
        simp only at hns' hno'
        have hstep : step ps fn trail s '#' r = if fn then
              (if ((r.dropWhile isHor).head?.map isStart).getD false && !wide (r.dropWhile isHor) then ({ s with cc := false, st := true }, r.dropWhile isHor)
                else ({ s with cc := false, st := false, error := true }, r.dropWhile isHor))
            else (s.emit ['#'], r) := by
          unfold step onHash
          rw [if_pos (by simp [hd])]
          split
          · next h' => simp at hpp
          · rfl
        cases hfn : fn
        · subst hfn
          refine concl_emit (t := .oth '#') (r := r) (d := s.delim) hst ?_ (by simp) (by simp) (by simp) ?_ (by decide) ?_
          · rw [tokens_cons, e1]; exact (hnotws _ _).resolve_right (by simp [conv])
          · rw [loop_cons, hstep]; rfl
          · refine ih _ hr _ hd hat' hns' hno' ?_ (by simp [CS.emit]) (by simp [CS.emit])
            intro h
            simp [CS.emit, Tok.text] at h
            exact absurd h (by decide)
        · subst hfn
          have tk : tokens true ('#' :: r) = .hash :: tokens true r := by rw [tokens_cons, e1]; rfl
          have e4 : tighten (tokens true ('#' :: r)) = .hash :: tighten (tokens true (r.dropWhile isHor)) := by
            rw [tk, tighten_hash, tokens_dropWhile]
          cases hcond : (((r.dropWhile isHor).head?.map isStart).getD false && !wide (r.dropWhile isHor))
          · refine concl_error (s1 := { s with cc := false, st := false, error := true }) (r := r.dropWhile isHor) ?_ rfl (.inr ?_)
            · rw [loop_cons, hstep, if_pos rfl, hcond]; rfl
            · rw [e4]
              have hw : ∀ ts, wellFormed ps trail (modeOf s) (.hash :: ts) = wellFormed ps trail .hash ts := by
                intro ts
                have := modeOf_ne hst
                cases h : modeOf s <;> simp_all [wellFormed]
              rw [hw]
              refine wellFormed_hash_false ?_ (head_not_ws _ _ (head_dropWhile r))
              intro w hw'
              cases hdr : r.dropWhile isHor with
              | nil => rw [hdr] at hw'; simp [tokens_nil] at hw'
              | cons d r' =>
                rw [hdr, tokens_cons] at hw'
                rw [hdr] at hcond
                simp only [List.head?_cons, Option.some.injEq] at hw'
                have hw2 : (lex1 isHor d r').1 = .word w := by
                  revert hw'
                  generalize (lex1 isHor d r').1 = t
                  cases t <;> simp [conv]
                have := lex1_word_iff hw2
                simp [this] at hcond
          · refine concl_hash (r := r.dropWhile isHor) hst e4 ?_ ?_
            · rw [loop_cons, hstep, if_pos rfl, hcond]; rfl
            · have hword : ∃ w, (tokens true (r.dropWhile isHor)).head? = some (.word w) := by
                cases hdr : r.dropWhile isHor with
                | nil => rw [hdr] at hcond; simp at hcond
                | cons d r' =>
                  rw [hdr] at hcond
                  simp only [List.head?_cons, Option.map_some, Option.getD_some, Bool.and_eq_true, Bool.not_eq_true'] at hcond
                  rw [tokens_cons, lex1_word hcond.1 hcond.2]
                  exact ⟨_, rfl⟩
              refine ih _ (le_trans (length_dropWhile_le _ _) hr) _ hd (fun h => hat' ((List.dropWhile_sublist isHor).subset h)) (numbersSafe_dropWhile hns') (hash_dropWhile hno') ?_ ?_ (by simp)
              · intro _
                obtain ⟨w, hw⟩ := hword
                rw [hw]
                simp
              · intro _; exact ⟨fun h => hno h rfl (by rw [lex_cons, e1]; simp), hword⟩
    · -- any other character
      have e1 : lex1 isHor c r = (.oth c, r) := by
        unfold lex1
        rw [if_neg (by simp [hhor]), if_neg (by simp [hq]), if_neg (by simp [hLw]), if_neg (by simp [hstart]), if_neg (by simp [hnum]), if_neg hsh]
      rw [e1] at hns' hno'
      have hca : c ≠ '@' := fun e => hat (by simp [e])
      refine concl_emit (t := .oth c) (r := r) (d := s.delim) hst ?_ (by simp) (by simp) (by simp) ?_ (by simp [Tok.text]; exact Ne.symm hca) ?_
      · rw [tokens_cons, e1]; exact (hnotws _ _).resolve_right (by simp [conv])
      · rw [loop_cons, step_copy (by simp [hid]) hsh hq (.inr hd) hca]; rfl
      · refine ih _ hr _ hd hat' hns' hno' ?_ (by simp [CS.emit]) (by simp [CS.emit])
        intro h
        simp [CS.emit, Tok.text, hhor] at h

/-! ## Expansion -/

theorem erase_append (a b : List Char) (ha : paired a = true) : erase (a ++ b) = erase a ++ erase b := by
  fun_induction paired a with
  | case1 => rfl
  | case2 l ih => simp only [List.cons_append, erase]; exact ih ha
  | case3 c l h ih =>
    simp only [Bool.and_eq_true, decide_eq_true_iff] at ha
    have e : ∀ l, erase (c :: l) = c :: erase l := by
      intro l
      rw [erase]
      rintro l rfl _; exact ha.1 rfl
    rw [List.cons_append, e, e, ih ha.2, List.cons_append]

theorem mark_paired (a b : Option Char) : paired (mark a b) = true ∧ erase (mark a b) = [] := by
  unfold mark
  split
  · split
    · exact ⟨rfl, rfl⟩
    · exact ⟨rfl, rfl⟩
  · exact ⟨rfl, rfl⟩

theorem octDigit_ne (n : Nat) : octDigit n ≠ '@' := by
  unfold octDigit
  have h : n % 8 < 8 := Nat.mod_lt _ (by omega)
  generalize n % 8 = k at h
  interval_cases k <;> decide

theorem not_at_octal (c : Char) : '@' ∉ octal c := by
  simp only [octal, List.mem_cons, List.not_mem_nil, or_false, not_or]
  exact ⟨by decide, (octDigit_ne _).symm, (octDigit_ne _).symm, (octDigit_ne _).symm⟩

theorem put_at {s : SS} {c : Char} (h : '@' ∉ s.out) (hc : c ≠ '@') : '@' ∉ (s.put c).out := by
  unfold SS.put
  simp only [List.mem_append, not_or]
  refine ⟨⟨h, by split <;> simp⟩, ?_⟩
  split
  · simpa using hc.symm
  · exact not_at_octal c

theorem quote_out (s : SS) (c : Char) : (s.quote c).out = s.out := by
  unfold SS.quote; split <;> rfl

theorem step_at {s : SS} {c : Char} (h : '@' ∉ s.out) (hc : c ≠ '@') : '@' ∉ (s.step c).out := by
  unfold SS.step
  split
  · exact put_at (by rwa [quote_out]) hc
  · split
    · split
      · intro hx
        exact h ((List.dropLast_sublist _).subset hx)
      · exact h
    · simp only
      refine put_at ?_ hc
      rw [quote_out]
      split <;> simp [h]

theorem makeString_at {raw : List Char} (h : '@' ∉ raw) : '@' ∉ makeString raw := by
  unfold makeString
  suffices H : ∀ (l : List Char) (s : SS), '@' ∉ l → '@' ∉ s.out → '@' ∉ (l.foldl SS.step s).out by
    have := H raw { out := ['"'] } h (by simp)
    simp [this]
  intro l
  induction l with
  | nil => intro s _ h; exact h
  | cons c l ih =>
    intro s hl hs
    exact ih _ (fun e => hl (by simp [e])) (step_at hs fun e => hl (by simp [e]))

theorem pasteAfter_eq (l : List Char) (h : ¬ ['-', '\n'] <:+: l) : pasteAfter l = l.dropWhile isSp := by
  induction l with
  | nil => simp [pasteAfter]
  | cons c l ih =>
    rw [pasteAfter]
    cases hc : isSp c
    · rw [if_neg (by simp)]
      have e : (c :: l).dropWhile isSp = c :: l := by simp [hc]
      rw [e]
      split
      · next h' =>
        exfalso
        simp only [Bool.and_eq_true, decide_eq_true_iff] at h'
        obtain ⟨rfl, h2⟩ := h'
        cases l with
        | nil => simp at h2
        | cons d l =>
          by_cases hd : d = '\n'
          · subst hd; exact h ⟨[], l, rfl⟩
          · simp [hd] at h2
      · rfl
    · rw [if_pos rfl, ih fun h' => h (h'.trans (List.suffix_cons c l).isInfix)]
      simp [hc]

theorem pasteBefore_eq {l : List Char} (h : '@' ∉ l) : pasteBefore l = ((l.dropWhile isSp).takeWhile isId, (l.dropWhile isSp).dropWhile isId) := by
  unfold pasteBefore
  simp only
  have : '@' ∉ (l.dropWhile isSp).dropWhile isId := fun h' => h ((List.dropWhile_sublist isSp).subset ((List.dropWhile_sublist isId).subset h'))
  split
  · next e => rw [e] at this; simp at this
  · rfl

theorem trimEnd_append (w l : List Char) (hw : ∀ d ∈ w, isSp d = false) : w ++ (l.reverse.dropWhile isSp).reverse = ((w ++ l).reverse.dropWhile isSp).reverse := by
  rw [List.reverse_append, List.dropWhile_append]
  split
  · next h =>
    have h : l.reverse.dropWhile isSp = [] := by simpa using h
    rw [h]
    have : w.reverse.dropWhile isSp = w.reverse := by
      cases hx : w.reverse with
      | nil => rfl
      | cons c r =>
        have : c ∈ w := by rw [← List.mem_reverse, hx]; simp
        simp [hw c this]
    rw [this]; simp
  · simp

theorem pasted_eq (p : Pat) {raw : List Char} (h : '@' ∉ raw) (h2 : ¬ ['\n', '-'] <:+: raw) : pasted p raw = trimmed p.rawBefore p.rawAfter raw := by
  have rev : ∀ l, l <:+ raw → pasteAfter l.reverse = l.reverse.dropWhile isSp := by
    intro l hl
    refine pasteAfter_eq _ fun h' => h2 ?_
    have := h'.reverse
    simp at this
    exact this.trans hl.isInfix
  unfold pasted trimmed
  cases hb : p.rawBefore
  · cases ha : p.rawAfter
    · simp
    · simp [rev raw (List.suffix_refl _)]
  · rw [if_pos rfl, pasteBefore_eq h]
    have hsuf : raw.dropWhile isSp <:+ raw := List.dropWhile_suffix _
    cases ha : p.rawAfter
    · simp
    · simp only [if_true]
      rw [rev _ ((List.dropWhile_suffix _).trans hsuf), trimEnd_append _ _ fun d hd => not_sp_of_id (mem_takeWhile_imp hd)]
      simp

theorem trimmed_subset {a b : Bool} {l : List Char} {c : Char} (h : c ∈ trimmed a b l) : c ∈ l := by
  have key : ∀ (l : List Char), c ∈ (if b = true then (l.reverse.dropWhile isSp).reverse else l) → c ∈ l := by
    intro l
    split
    · intro h
      rw [List.mem_reverse] at h
      exact List.mem_reverse.1 ((List.dropWhile_sublist isSp).subset h)
    · exact id
  unfold trimmed at h
  simp only at h
  have := key _ h
  split at this
  · exact (List.dropWhile_sublist isSp).subset this
  · exact this

theorem valOf_paired (h : Plain args) (p : Pat) : paired (valOf args p) = true := by
  unfold valOf
  split
  · exact paired_of_not_mem (makeString_at (h.raw _))
  · split
    · rw [pasted_eq p (h.raw _) (h.dash _)]
      exact paired_of_not_mem fun h' => h.raw _ (trimmed_subset h')
    · exact h.expanded _

theorem useOf_spec (h : Plain args) (p : Pat) (before : List Char) (next : Option Char) :
    paired (useOf p (args p.arg) before next) = true ∧ erase (useOf p (args p.arg) before next) = erase (valOf args p) := by
  have hv := valOf_paired h p
  unfold useOf
  unfold valOf at hv ⊢
  cases h1 : p.stringify
  · cases h2 : (p.rawBefore || p.rawAfter)
    · rw [h1, h2] at hv
      simp only [Bool.false_eq_true, if_false] at hv ⊢
      have k : ∀ m, paired m = true → erase m = [] → ∀ m', paired m' = true → erase m' = [] →
          paired (m ++ (args p.arg).expanded ++ m') = true ∧ erase (m ++ (args p.arg).expanded ++ m') = erase (args p.arg).expanded := by
        intro m a b m' a' b'
        rw [List.append_assoc, paired_append _ _ a, paired_append _ _ hv, erase_append _ _ a, erase_append _ _ hv, b, b']
        simp [a']
      refine k _ ?_ ?_ _ (mark_paired _ _).1 (mark_paired _ _).2
      · split
        · rfl
        · exact (mark_paired _ _).1
      · split
        · rfl
        · exact (mark_paired _ _).2
    · rw [h1, h2] at hv
      simpa using hv
  · rw [h1] at hv
    simpa using hv

theorem substLoop_spec (h : Plain args) (nx : List (List Char × Pat) → Option Char) : ∀ (segs : List (List Char × Pat)) (lp : Option Pat) (out : List Char),
    (∀ q ∈ segs, paired q.1 = true) → paired out = true →
    paired (substLoop args false nx segs lp out).1 = true ∧
    erase (substLoop args false nx segs lp out).1 = erase out ++ erase (segs.flatMap fun q => q.1 ++ valOf args q.2) ∧
    paired (segs.flatMap fun q => q.1 ++ valOf args q.2) = true := by
  intro segs
  induction segs with
  | nil => intro lp out _ ho; simp [substLoop, ho, erase, paired]
  | cons q segs ih =>
    obtain ⟨t, p⟩ := q
    intro lp out hs ho
    have ht : paired t = true := hs (t, p) (by simp)
    have hv := valOf_paired h p
    rw [substLoop]
    simp only [Bool.false_and, Bool.false_eq_true, if_false]
    obtain ⟨u1, u2⟩ := useOf_spec h p (out ++ t) (nx segs)
    obtain ⟨i1, i2, i3⟩ := ih (some p) (out ++ t ++ useOf p (args p.arg) (out ++ t) (nx segs)) (fun q hq => hs q (by simp [hq]))
      (by rw [List.append_assoc, paired_append _ _ ho, paired_append _ _ ht]; exact u1)
    refine ⟨i1, ?_, ?_⟩
    · have e : erase (t ++ valOf args p ++ segs.flatMap fun q => q.1 ++ valOf args q.2) =
          erase t ++ (erase (valOf args p) ++ erase (segs.flatMap fun q => q.1 ++ valOf args q.2)) := by
        rw [List.append_assoc, erase_append _ _ ht, erase_append _ _ hv]
      rw [i2, List.append_assoc, erase_append _ _ ho, erase_append _ _ ht, u2, List.flatMap_cons]
      refine Eq.trans ?_ (congrArg (erase out ++ ·) e).symm
      simp
    · rw [List.flatMap_cons, List.append_assoc, paired_append _ _ ht, paired_append _ _ hv]
      exact i3

theorem no_overrun (h : Plain args) (p : Pat) : overrun p (args p.arg) = false := by
  unfold overrun
  cases p.stringify <;> cases p.rawBefore <;> simp only [Bool.not_true, Bool.not_false, Bool.false_and, Bool.true_and, Bool.and_self]
  split
  · cases hf : (args p.arg).follow with
    | nil => rfl
    | cons c l =>
      have : c ≠ '@' := fun e => h.follow p.arg (by rw [hf, e]; simp)
      have : ('@' == c) = false := by simpa using this.symm
      simp [List.isPrefixOf, this]
  · next e =>
    exfalso
    have : '@' ∈ ((args p.arg).raw.dropWhile isSp).dropWhile isId := by rw [e]; simp
    exact h.raw p.arg ((List.dropWhile_sublist isSp).subset ((List.dropWhile_sublist isId).subset this))
  · rfl

/-- The expansion of a macro is what the standard says. -/
theorem collect_spec (buf : List Char) (h : Plain args) (h1 : '@' ∉ body buf)
    (h2 : numbersSafe ps (lex isHor (body buf))) (h3 : ((body buf).head?.map isHor).getD false = false)
    (h4 : ps = [] → fn = true → Tok.hash ∉ lex isHor (body buf)) :
    ((collect ps fn buf).error = false ↔
      isPaste (tokens fn (body buf)) = false ∧ wellFormed ps (blankAfter buf) .none (tighten (tokens fn (body buf))) = true) ∧
    ((collect ps fn buf).error = false → ∃ out, expand (collect ps fn buf) args false = some out ∧
      erase out = erase (replaced ps args makeString .none (tighten (tokens fn (body buf))))) := by
  have e0 : collect ps fn buf =
      (let s := if startsPaste (body buf) then loop ps fn (blankAfter buf) { cur := [' ', '@'], error := true } ((body buf).drop 2)
        else loop ps fn (blankAfter buf) { cur := [' ', '@'] } (body buf)
       { segs := s.segs.reverse, last := s.cur.reverse ++ (if s.delim = none then ['@', ' '] else []), error := s.error }) := rfl
  rw [e0, ← startsPaste_tokens fn]
  cases hsp : startsPaste (body buf)
  · simp only [Bool.false_eq_true, if_false, true_and]
    have hpaste : isPaste (tokens fn (body buf)) = false := by rw [← startsPaste_tokens, hsp]
    have hc := loop_spec (ps := ps) (fn := fn) (trail := blankAfter buf) (args := args) (fun p => pasted_eq p (h.raw _) (h.dash _)) _ (body buf) le_rfl
      { cur := [' ', '@'] } rfl h1 h2 h4
      (fun _ => ⟨head_not_ws fn _ h3, fun e => by simp [isPaste, e] at hpaste⟩) (by simp) (by simp)
    generalize hs : loop ps fn (blankAfter buf) { cur := [' ', '@'] } (body buf) = s' at hc
    unfold Concl at hc
    rw [hs] at hc
    obtain ⟨c1, c2⟩ := hc
    refine ⟨by simpa [modeOf] using c1, fun he => ?_⟩
    obtain ⟨d1, d2⟩ := c2 he
    have hg : good s' := d2 ⟨by simp, rfl⟩
    have hseg : ∀ q ∈ s'.segs.reverse, paired q.1 = true := fun q hq => hg.1 q (by simpa using hq)
    unfold expand
    rw [if_neg]
    · refine ⟨_, rfl, ?_⟩
      unfold subst
      simp only [Bool.false_and, Bool.false_eq_true, if_false]
      obtain ⟨i1, i2, i3⟩ := substLoop_spec h (firstChar (s'.cur.reverse ++ (if s'.delim = none then ['@', ' '] else []))) s'.segs.reverse none [] hseg rfl
      rw [erase_append _ _ i1, i2, erase_append _ _ hg.2]
      have el : erase (if s'.delim = none then ['@', ' '] else []) = [] := by split <;> rfl
      rw [el]
      unfold den at d1
      have := congrArg erase d1
      rw [erase_append _ _ i3] at this
      simpa [erase, modeOf] using this
    · simp [no_overrun h]
  · simp only [if_true, Bool.true_eq_false, false_and, iff_false]
    have := loop_error ps fn (blankAfter buf) ((body buf).drop 2).length ((body buf).drop 2) le_rfl { cur := [' ', '@'], error := true } rfl
    rw [this]
    exact ⟨by simp, by simp⟩

/-! ## Strings -/

/-- a character outside of literals that is no white space, quote or backslash -/
theorem step_plain {o : List Char} {sp : Option Bool} {c : Char} (h1 : isSp c = false) (h2 : isQuote c = false) (h3 : c ≠ '\\') (h4 : isPrint c = true) :
    SS.step ⟨o, sp, false, none⟩ c = ⟨o ++ (if sp = some true then [' '] else []) ++ [c], some false, false, none⟩ := by
  have h2' : ¬ (c = '"' ∨ c = '\'') := by simp [isQuote] at h2; tauto
  unfold SS.step
  simp only [h1]
  unfold SS.quote SS.put
  cases hs : decide (sp = some true)
  · rw [decide_eq_false_iff_not] at hs
    have : c ≠ '"' := fun e => h2' (.inl e)
    have : c ≠ '\'' := fun e => h2' (.inr e)
    simp_all
  · rw [decide_eq_true_iff] at hs
    have : c ≠ '"' := fun e => h2' (.inl e)
    have : c ≠ '\'' := fun e => h2' (.inr e)
    simp_all

theorem fold_plain (l : List Char) (h : ∀ c ∈ l, isSp c = false ∧ isQuote c = false ∧ c ≠ '\\' ∧ isPrint c = true) (hne : l ≠ []) (o : List Char) (sp : Option Bool) :
    l.foldl SS.step ⟨o, sp, false, none⟩ = ⟨o ++ (if sp = some true then [' '] else []) ++ l, some false, false, none⟩ := by
  induction l generalizing o sp with
  | nil => exact absurd rfl hne
  | cons c l ih =>
    obtain ⟨a, b, d, e⟩ := h c (by simp)
    rw [List.foldl_cons, step_plain a b d e]
    cases l with
    | nil => simp
    | cons d l => rw [ih (fun x hx => h x (by simp [hx])) (by simp)]; simp

theorem fold_ws (l : List Char) (h : ∀ c ∈ l, isSp c = true) (hne : l ≠ []) (o : List Char) (ho : o.getLast? ≠ some '@') (sp : Option Bool) :
    l.foldl SS.step ⟨o, sp, false, none⟩ = ⟨o, sp.map fun _ => true, false, none⟩ := by
  have hstep : ∀ sp c, isSp c = true → SS.step ⟨o, sp, false, none⟩ c = ⟨o, sp.map fun _ => true, false, none⟩ := by
    intro sp c hc
    simp [SS.step, hc, ho]
  induction l generalizing sp with
  | nil => exact absurd rfl hne
  | cons c l ih =>
    rw [List.foldl_cons, hstep _ _ (h c (by simp))]
    cases l with
    | nil => simp
    | cons d l => rw [ih (fun x hx => h x (by simp [hx])) (by simp)]; cases sp <;> rfl

/-- a token without white space, quotes or backslashes -/
def PlainTok (t : Tok) : Prop := (∀ l, t ≠ .ws l) ∧ (∀ l, t ≠ .lit l) ∧ t.text ≠ [] ∧ ∀ c ∈ t.text, isSp c = false ∧ isQuote c = false ∧ c ≠ '\\'

theorem numChar_plain {c : Char} (h : numChar c = true) : isSp c = false ∧ isQuote c = false ∧ c ≠ '\\' := by
  simp only [numChar, Bool.or_eq_true, decide_eq_true_iff] at h
  rcases h with ((h | rfl) | rfl) | rfl
  · exact ⟨not_sp_of_id h, id_not_quote h, id_ne h (by decide)⟩
  all_goals decide

theorem lex1_cases (c : Char) (r : List Char) (hb : (lex1 isSp c r).1 ≠ .oth '\\') :
    (isSp c = true ∧ lex1 isSp c r = (.ws (c :: r.takeWhile isSp), r.dropWhile isSp)) ∨
    (isSp c = false ∧ isQuote c = true ∧ lex1 isSp c r = (.lit (c :: (litBody c r).1), (litBody c r).2)) ∨
    (c = 'L' ∧ ∃ q r', r = q :: r' ∧ isQuote q = true ∧ lex1 isSp c r = (.lit (c :: q :: (litBody q r').1), (litBody q r').2)) ∨
    (isSp c = false ∧ PlainTok (lex1 isSp c r).1 ∧ c :: r = (lex1 isSp c r).1.text ++ (lex1 isSp c r).2) := by
  cases hs : isSp c
  · cases hq : isQuote c
    · right; right
      cases hL : (decide (c = 'L') && (r.head?.map isQuote).getD false)
      · right
        refine ⟨rfl, ?_⟩
        have base : lex1 isSp c r = if isStart c then (.word (c :: r.takeWhile isId), r.dropWhile isId)
            else if isDig c || (c = '.' && (r.head?.map isDig).getD false) then (.num (c :: (numBody c r).1), (numBody c r).2)
            else if c = '#' then
              match r with
              | '#' :: r' => (.paste, r')
              | _ => (.hash, r)
            else (.oth c, r) := by
          unfold lex1
          rw [if_neg (by simp [hs]), if_neg (by simp [hq]), if_neg (by simp [hL])]
          rfl
        rw [base] at hb ⊢
        by_cases h1 : isStart c = true
        · rw [if_pos h1]
          refine ⟨⟨by simp, by simp, by simp [Tok.text], ?_⟩, by simp [Tok.text]⟩
          intro d hd
          have : isId d = true := by
            rcases List.mem_cons.1 hd with rfl | h
            · exact start_id h1
            · exact mem_takeWhile_imp h
          exact numChar_plain (by simp [numChar, this])
        rw [if_neg h1] at hb ⊢
        by_cases h2 : (isDig c || (decide (c = '.') && (r.head?.map isDig).getD false)) = true
        · rw [if_pos h2]
          obtain ⟨n1, n2, _⟩ := numBody_spec c r
          refine ⟨⟨by simp, by simp, by simp [Tok.text], ?_⟩, ?_⟩
          · intro d hd
            refine numChar_plain ?_
            rcases List.mem_cons.1 hd with rfl | h
            · simp only [Bool.or_eq_true, Bool.and_eq_true, decide_eq_true_iff] at h2
              rcases h2 with h | h
              · simp [numChar, isId, h]
              · simp [numChar, h.1]
            · exact n2 d h
          · simp only [Tok.text, List.cons_append]; rw [← n1]
        rw [if_neg h2] at hb ⊢
        by_cases h3 : c = '#'
        · subst h3
          rw [if_pos rfl]
          split
          · refine ⟨⟨by simp, by simp, by simp [Tok.text], ?_⟩, rfl⟩
            simp only [Tok.text]
            intro d hd
            simp only [List.mem_cons, List.not_mem_nil, or_false, or_self] at hd
            subst hd
            decide
          · refine ⟨⟨by simp, by simp, by simp [Tok.text], ?_⟩, rfl⟩
            simp only [Tok.text]
            intro d hd
            simp only [List.mem_cons, List.not_mem_nil, or_false, or_self] at hd
            subst hd
            decide
        · rw [if_neg h3] at hb ⊢
          refine ⟨⟨by simp, by simp, by simp [Tok.text], ?_⟩, rfl⟩
          simp only [Tok.text]
          intro d hd
          simp only [List.mem_cons, List.not_mem_nil, or_false, or_self] at hd
          subst hd
          exact ⟨hs, hq, fun e => hb (by rw [e])⟩
      · left
        have hL' := hL
        simp only [Bool.and_eq_true, decide_eq_true_iff] at hL'
        obtain ⟨rfl, h⟩ := hL'
        cases r with
        | nil => simp at h
        | cons q r' =>
          refine ⟨rfl, q, r', rfl, by simpa using h, ?_⟩
          unfold lex1
          rw [if_neg (by decide), if_neg (by decide), if_pos hL]
    · right; left
      exact ⟨rfl, rfl, by simp [lex1, hs, hq]⟩
  · left
    exact ⟨rfl, by simp [lex1, hs]⟩

theorem isQuote_cases {q : Char} (h : isQuote q = true) : q = '\'' ∨ q = '"' := by simpa [isQuote] using h

/-- the inside of a literal -/
theorem fold_lit (q : Char) (hq : isQuote q = true) (l : List Char) (hp : ∀ c ∈ (litBody q l).1, isPrint c = true) (o : List Char) (sp : Option Bool) :
    ((litBody q l).1.foldl SS.step ⟨o, sp, false, some q⟩).out = o ++ quoted (litBody q l).1 ∧
    ((litBody q l).2 ≠ [] → (litBody q l).1.foldl SS.step ⟨o, sp, false, some q⟩ = ⟨o ++ quoted (litBody q l).1, sp, false, none⟩) := by
  have hqb : q ≠ '\\' := by rcases isQuote_cases hq with rfl | rfl <;> decide
  have s1 : ∀ o, SS.step ⟨o, sp, false, some q⟩ q = ⟨o ++ quoted [q], sp, false, none⟩ := by
    intro o
    rcases isQuote_cases hq with rfl | rfl <;> simp [SS.step, SS.quote, SS.put, quoted, isPrint]
  have s2 : ∀ o c, c ≠ q → c ≠ '\\' → isPrint c = true → SS.step ⟨o, sp, false, some q⟩ c = ⟨o ++ quoted [c], sp, false, some q⟩ := by
    intro o c h1 h2 h3
    simp only [SS.step, SS.quote, SS.put, quoted, h1, h2, h3]
    by_cases h4 : c = '"' <;> simp [h4, h2]
  have s3 : ∀ o d, isPrint d = true → SS.step (SS.step ⟨o, sp, false, some q⟩ '\\') d = ⟨o ++ quoted ['\\', d], sp, false, some q⟩ := by
    intro o d h3
    have : SS.step ⟨o, sp, false, some q⟩ '\\' = ⟨o ++ ['\\', '\\'], sp, true, some q⟩ := by
      simp [SS.step, SS.quote, SS.put, hqb.symm, isPrint]
    rw [this]
    simp only [SS.step, SS.quote, SS.put, quoted, h3]
    by_cases h4 : d = '"' <;> by_cases h5 : d = '\\' <;> simp [h4, h5]
  have qa : ∀ a b, quoted (a ++ b) = quoted a ++ quoted b := by simp [quoted]
  fun_induction litBody q l generalizing o with
  | case1 => simp [quoted]
  | case2 c =>
    refine ⟨?_, by simp⟩
    by_cases h1 : c = q
    · subst h1; simp [s1]
    · by_cases h2 : c = '\\'
      · subst h2
        simp [SS.step, SS.quote, SS.put, hqb.symm, isPrint, quoted]
      · simp [s2 o c h1 h2 (hp c (by simp))]
  | case3 d r => simp [s1]
  | case4 d r b r' e hb ih =>
    rw [e] at ih
    simp only at ih hp
    have := ih (fun c hc => hp c (by simp [hc])) (o ++ quoted ['\\', d])
    have eq : quoted ('\\' :: d :: b) = quoted ['\\', d] ++ quoted b := qa ['\\', d] b
    simp only [List.foldl_cons]
    rw [s3 o d (hp d (by simp)), eq, ← List.append_assoc]
    exact this
  | case5 c d r hc hb b r' e ih =>
    rw [e] at ih
    simp only at ih hp
    have := ih (fun c hc => hp c (by simp [hc])) (o ++ quoted [c])
    have eq : quoted (c :: b) = quoted [c] ++ quoted b := qa [c] b
    simp only [List.foldl_cons]
    rw [s2 o c hc hb (hp c (by simp)), eq, ← List.append_assoc]
    exact this

theorem step_open (q : Char) (hq : isQuote q = true) (o : List Char) (sp : Option Bool) :
    SS.step ⟨o, sp, false, none⟩ q = ⟨o ++ (if sp = some true then [' '] else []) ++ quoted [q], some false, false, some q⟩ := by
  cases hs : decide (sp = some true)
  · rw [decide_eq_false_iff_not] at hs
    rcases isQuote_cases hq with rfl | rfl <;> simp [SS.step, SS.quote, SS.put, quoted, isPrint, isSp, isHor, hs]
  · rw [decide_eq_true_iff] at hs
    rcases isQuote_cases hq with rfl | rfl <;> simp [SS.step, SS.quote, SS.put, quoted, isPrint, isSp, isHor, hs]

theorem quoted_at {l : List Char} (h : '@' ∉ l) : '@' ∉ quoted l := by
  unfold quoted
  rw [List.mem_flatMap]
  rintro ⟨c, hc, hx⟩
  split at hx <;> simp at hx
  · exact h (hx ▸ hc)
  · exact h (hx ▸ hc)

theorem spelled_at {t : Tok} (h : '@' ∉ t.text) : '@' ∉ spelled t := by
  unfold spelled
  split
  · exact quoted_at h
  · exact h

theorem inner_cons {t : Tok} (h : ∀ w, t ≠ .ws w) (ts : List Tok) : inner (t :: ts) = spelled t ++ inner ts := by
  cases t with
  | ws w => exact absurd rfl (h w)
  | _ => cases ts <;> rfl

theorem lex1_split (c : Char) (r : List Char) (hb : (lex1 isSp c r).1 ≠ .oth '\\') : c :: r = (lex1 isSp c r).1.text ++ (lex1 isSp c r).2 := by
  rcases lex1_cases c r hb with ⟨_, h⟩ | ⟨_, _, h⟩ | ⟨rfl, q, r', rfl, _, h⟩ | ⟨_, _, h⟩
  · rw [h]; simp [Tok.text]
  · rw [h]; simp only [Tok.text, List.cons_append]; rw [← (litBody_spec c r).1]
  · rw [h]; simp only [Tok.text, List.cons_append]; rw [← (litBody_spec q r').1]
  · exact h

theorem Spec.Clean.tail {c : Char} {r : List Char} (h : Clean (c :: r)) : Clean (lex1 isSp c r).2 := by
  have hb : (lex1 isSp c r).1 ≠ .oth '\\' := fun e => h.stray (by rw [lex_cons, e]; simp)
  have e := lex1_split c r hb
  refine ⟨fun hx => h.noAt (by rw [e]; simp [hx]), fun hx => h.stray (by rw [lex_cons]; simp [hx]), fun t ht => h.print t (by rw [lex_cons]; simp [ht])⟩

theorem string_spec : ∀ (n : Nat) (raw : List Char), raw.length ≤ n → Clean raw →
    (∀ o, '@' ∉ o → (raw.foldl SS.step ⟨o, some false, false, none⟩).out = o ++ inner (lex isSp raw)) ∧
    (∀ o sp, '@' ∉ o → (raw.head?.map isSp).getD false = false → raw ≠ [] →
      (raw.foldl SS.step ⟨o, sp, false, none⟩).out = o ++ (if sp = some true then [' '] else []) ++ inner (lex isSp raw)) := by
  intro n
  induction n with
  | zero =>
    intro raw hl _
    obtain rfl : raw = [] := List.length_eq_zero_iff.1 (by omega)
    simp [lex_nil, inner]
  | succ n ih =>
    intro raw hl hcl
    match raw, hl with
    | [], _ => simp [lex_nil, inner]
    | c :: r, hl =>
    have hr : r.length ≤ n := by simpa using hl
    have hlen := le_trans (lex1_length isSp c r) hr
    have hb : (lex1 isSp c r).1 ≠ .oth '\\' := fun e => hcl.stray (by rw [lex_cons, e]; simp)
    have hsplit := lex1_split c r hb
    have htail := hcl.tail
    have hat : '@' ∉ (lex1 isSp c r).1.text := fun h => hcl.noAt (by rw [hsplit]; simp [h])
    have hprint : (∀ w, (lex1 isSp c r).1 ≠ .ws w) → ∀ d ∈ (lex1 isSp c r).1.text, isPrint d = true :=
      fun h => hcl.print _ (by rw [lex_cons]; simp) h
    have last : ∀ o : List Char, '@' ∉ o → o.getLast? ≠ some '@' := fun o ho h => ho (List.mem_of_getLast? h)
    -- a token that is not white space
    have hB : ∀ o sp, '@' ∉ o → isSp c = false →
        ((c :: r).foldl SS.step ⟨o, sp, false, none⟩).out = o ++ (if sp = some true then [' '] else []) ++ inner (lex isSp (c :: r)) := by
      intro o sp ho hsp
      have hnw : ∀ w, (lex1 isSp c r).1 ≠ .ws w := by
        intro w e
        rcases lex1_cases c r hb with ⟨h, _⟩ | ⟨_, _, h⟩ | ⟨rfl, q, r', rfl, _, h⟩ | ⟨_, h, _⟩
        · rw [hsp] at h; cases h
        · rw [h] at e; cases e
        · rw [h] at e; cases e
        · exact h.1 w e
      have hsa : '@' ∉ (if sp = some true then [' '] else []) := by split <;> simp
      -- it is enough to know what the text of the token gives
      have fin : (((lex1 isSp c r).1.text.foldl SS.step ⟨o, sp, false, none⟩).out = o ++ (if sp = some true then [' '] else []) ++ spelled (lex1 isSp c r).1) →
          ((lex1 isSp c r).2 ≠ [] → (lex1 isSp c r).1.text.foldl SS.step ⟨o, sp, false, none⟩ =
            ⟨o ++ (if sp = some true then [' '] else []) ++ spelled (lex1 isSp c r).1, some false, false, none⟩) →
          ((c :: r).foldl SS.step ⟨o, sp, false, none⟩).out = o ++ (if sp = some true then [' '] else []) ++ inner (lex isSp (c :: r)) := by
        intro f1 f2
        rw [lex_cons, inner_cons hnw, hsplit, List.foldl_append]
        by_cases hx : (lex1 isSp c r).2 = []
        · rw [hx, lex_nil, List.foldl_nil, f1]; simp [inner]
        · rw [f2 hx, (ih _ hlen htail).1 _ (by simp only [List.mem_append, not_or]; exact ⟨⟨ho, hsa⟩, spelled_at hat⟩)]
          simp
      rcases lex1_cases c r hb with ⟨h, _⟩ | ⟨_, hq, h⟩ | ⟨rfl, q, r', rfl, hq, h⟩ | ⟨_, h, _⟩
      · rw [hsp] at h; cases h
      · have hp' : ∀ d ∈ (litBody c r).1, isPrint d = true := by
          intro d hd
          refine hprint hnw d ?_
          rw [h]; simp [Tok.text, hd]
        have qa : quoted (c :: (litBody c r).1) = quoted [c] ++ quoted (litBody c r).1 := by simp [quoted]
        have := fold_lit c hq r hp' (o ++ (if sp = some true then [' '] else []) ++ quoted [c]) (some false)
        refine fin ?_ ?_
        · rw [h]
          simp only [Tok.text, List.foldl_cons, spelled, qa]
          rw [step_open c hq, this.1]; simp
        · rw [h]
          intro hx
          simp only [Tok.text, List.foldl_cons, spelled, qa]
          rw [step_open c hq, this.2 hx]; simp
      · have hp' : ∀ d ∈ (litBody q r').1, isPrint d = true := by
          intro d hd
          refine hprint hnw d ?_
          rw [h]; simp [Tok.text, hd]
        have qa : quoted ('L' :: q :: (litBody q r').1) = ['L'] ++ quoted [q] ++ quoted (litBody q r').1 := by simp [quoted]
        have := fold_lit q hq r' hp' (o ++ (if sp = some true then [' '] else []) ++ ['L'] ++ quoted [q]) (some false)
        have hL : SS.step ⟨o, sp, false, none⟩ 'L' = ⟨o ++ (if sp = some true then [' '] else []) ++ ['L'], some false, false, none⟩ :=
          step_plain (by decide) (by decide) (by decide) (by decide)
        refine fin ?_ ?_
        · rw [h]
          simp only [Tok.text, List.foldl_cons, spelled, qa]
          rw [hL, step_open q hq]
          simp only [Option.some.injEq, Bool.false_eq_true, if_false, List.append_nil]
          rw [this.1]; simp
        · rw [h]
          intro hx
          simp only [Tok.text, List.foldl_cons, spelled, qa]
          rw [hL, step_open q hq]
          simp only [Option.some.injEq, Bool.false_eq_true, if_false, List.append_nil]
          rw [this.2 hx]; simp
      · have hspell : spelled (lex1 isSp c r).1 = (lex1 isSp c r).1.text := by
          cases ht : (lex1 isSp c r).1 with
          | lit l => exact absurd ht (h.2.1 l)
          | _ => rfl
        have := fold_plain _ (fun d hd => ⟨(h.2.2.2 d hd).1, (h.2.2.2 d hd).2.1, (h.2.2.2 d hd).2.2, hprint hnw d hd⟩) h.2.2.1 o sp
        refine fin ?_ ?_
        · rw [this, hspell]
        · intro _; rw [this, hspell]
    refine ⟨fun o ho => ?_, fun o sp ho hs _ => hB o sp ho (by simpa using hs)⟩
    cases hsp : isSp c
    · rw [hB o (some false) ho hsp]; simp
    · have e1 : lex1 isSp c r = (.ws (c :: r.takeWhile isSp), r.dropWhile isSp) := by simp [lex1, hsp]
      rw [e1] at hsplit hlen htail
      have hw : ∀ d ∈ c :: r.takeWhile isSp, isSp d = true := by
        intro d hd
        rcases List.mem_cons.1 hd with rfl | h
        · exact hsp
        · exact mem_takeWhile_imp h
      have e2 : (c :: r).foldl SS.step ⟨o, some false, false, none⟩ = (r.dropWhile isSp).foldl SS.step ⟨o, some true, false, none⟩ := by
        rw [hsplit, List.foldl_append]
        simp only [Tok.text]
        rw [fold_ws _ hw (by simp) o (last o ho)]
        rfl
      rw [e2, lex_cons, e1]
      cases hx : r.dropWhile isSp with
      | nil => simp [lex_nil, inner]
      | cons d r' =>
        simp only at hlen htail
        rw [hx] at hlen htail
        have hd : isSp d = false := by
          have := List.head_dropWhile_not isSp (l := r) (by rw [hx]; simp)
          simpa only [hx, List.head_cons] using this
        rw [(ih _ hlen htail).2 o (some true) ho (by simp [hd]) (by simp)]
        have : inner (.ws (c :: r.takeWhile isSp) :: lex isSp (d :: r')) = ' ' :: inner (lex isSp (d :: r')) := by
          rw [lex_cons, inner]
          simp
        rw [this]
        simp

/-- The string made of an argument is what the standard says. -/
theorem makeString_eq {raw : List Char} (h : Clean raw) : makeString raw = stringized raw := by
  suffices H : (raw.foldl SS.step { out := ['"'] }).out = ['"'] ++ inner (skipWs (lex isSp raw)) by
    unfold makeString stringized
    rw [H]
    rfl
  match raw with
  | [] => simp [lex_nil, skipWs, inner]
  | c :: r =>
    cases hc : isSp c
    · have h0 : skipWs (lex isSp (c :: r)) = lex isSp (c :: r) := by
        rw [← lex_dropWhile]; simp [hc]
      rw [h0, (string_spec _ _ le_rfl h).2 ['"'] none (by simp) (by simp [hc]) (by simp)]
      simp
    · have e1 : lex1 isSp c r = (.ws (c :: r.takeWhile isSp), r.dropWhile isSp) := by simp [lex1, hc]
      have htail := h.tail
      rw [e1] at htail
      have hw : ∀ d ∈ c :: r.takeWhile isSp, isSp d = true := by
        intro d hd
        rcases List.mem_cons.1 hd with rfl | h
        · exact hc
        · exact mem_takeWhile_imp h
      have e2 : (c :: r).foldl SS.step ⟨['"'], none, false, none⟩ = (r.dropWhile isSp).foldl SS.step ⟨['"'], none, false, none⟩ := by
        have : c :: r = (c :: r.takeWhile isSp) ++ r.dropWhile isSp := by simp
        conv => lhs; rw [this]
        rw [List.foldl_append, fold_ws _ hw (by simp) _ (by simp)]
        rfl
      rw [← lex_dropWhile]
      have e3 : (c :: r).dropWhile isSp = r.dropWhile isSp := by simp [hc]
      rw [e2, e3]
      cases hx : r.dropWhile isSp with
      | nil => simp [lex_nil, inner]
      | cons d r' =>
        simp only at htail
        rw [hx] at htail
        have hd : isSp d = false := by
          have := List.head_dropWhile_not isSp (l := r) (by rw [hx]; simp)
          simpa only [hx, List.head_cons] using this
        rw [(string_spec _ _ le_rfl htail).2 ['"'] none (by simp) (by simp [hd]) (by simp)]
        simp

/-! ## The string as a literal -/

theorem litBody_plain {c : Char} {y : List Char} (h1 : c ≠ '"') (h2 : c ≠ '\\') (hy : y ≠ []) :
    litBody '"' (c :: y) = (c :: (litBody '"' y).1, (litBody '"' y).2) := by
  cases y with
  | nil => exact absurd rfl hy
  | cons d y => rw [litBody, if_neg h1, if_neg h2]

theorem litBody_text (l y : List Char) (h : ∀ c ∈ l, c ≠ '"' ∧ c ≠ '\\') (hy : y ≠ []) :
    litBody '"' (l ++ y) = (l ++ (litBody '"' y).1, (litBody '"' y).2) := by
  induction l with
  | nil => rfl
  | cons c l ih =>
    rw [List.cons_append, litBody_plain (h c (by simp)).1 (h c (by simp)).2 (by simp [hy]), ih fun d hd => h d (by simp [hd])]
    rfl

theorem litBody_quoted (l y : List Char) (hy : y ≠ []) : litBody '"' (quoted l ++ y) = (quoted l ++ (litBody '"' y).1, (litBody '"' y).2) := by
  induction l with
  | nil => rfl
  | cons c l ih =>
    have e : quoted (c :: l) = (if c = '"' || c = '\\' then ['\\', c] else [c]) ++ quoted l := by simp [quoted]
    rw [e]
    split
    · show litBody '"' ('\\' :: c :: (quoted l ++ y)) = _
      rw [litBody, if_neg (by decide), if_pos rfl, ih]
      rfl
    · next h =>
      simp only [Bool.or_eq_true, decide_eq_true_iff, not_or] at h
      show litBody '"' (c :: (quoted l ++ y)) = _
      rw [litBody_plain h.1 h.2 (by simp [hy]), ih]
      rfl

theorem unquote_text (l y : List Char) (h : ∀ c ∈ l, c ≠ '\\') : unquote (l ++ y) = l ++ unquote y := by
  induction l with
  | nil => rfl
  | cons c l ih =>
    rw [List.cons_append, unquote, ih fun d hd => h d (by simp [hd])]
    · rfl
    · rintro d _ rfl _; exact absurd rfl (h _ (by simp))

theorem unquote_quoted (l y : List Char) : unquote (quoted l ++ y) = l ++ unquote y := by
  induction l with
  | nil => rfl
  | cons c l ih =>
    have e : quoted (c :: l) = (if c = '"' || c = '\\' then ['\\', c] else [c]) ++ quoted l := by simp [quoted]
    rw [e]
    split
    · show unquote ('\\' :: c :: (quoted l ++ y)) = _
      rw [unquote, ih]
      rfl
    · next h =>
      simp only [Bool.or_eq_true, decide_eq_true_iff, not_or] at h
      show unquote (c :: (quoted l ++ y)) = _
      rw [unquote, ih]
      · rfl
      · rintro d _ rfl _; exact h.2 rfl

theorem lex_plain : ∀ (n : Nat) (l : List Char), l.length ≤ n → Tok.oth '\\' ∉ lex isSp l → ∀ t ∈ lex isSp l,
    (∃ w, t = .ws w) ∨ (∃ w, t = .lit w) ∨ PlainTok t := by
  intro n
  induction n with
  | zero =>
    intro l hl
    obtain rfl : l = [] := List.length_eq_zero_iff.1 (by omega)
    simp [lex_nil]
  | succ n ih =>
    intro l hl hst
    cases l with
    | nil => simp [lex_nil]
    | cons c r =>
      rw [lex_cons] at hst ⊢
      intro t ht
      rcases List.mem_cons.1 ht with rfl | ht
      · rcases lex1_cases c r (fun e => hst (by rw [e]; simp)) with ⟨_, h⟩ | ⟨_, _, h⟩ | ⟨rfl, q, r', rfl, _, h⟩ | ⟨_, h, _⟩
        · rw [h]; exact .inl ⟨_, rfl⟩
        · rw [h]; exact .inr (.inl ⟨_, rfl⟩)
        · rw [h]; exact .inr (.inl ⟨_, rfl⟩)
        · exact .inr (.inr h)
      · exact ih _ (le_trans (lex1_length isSp c r) (by simpa using hl)) (fun h => hst (by simp [h])) t ht

theorem inner_ws (w : List Char) (t : Tok) (ts : List Tok) : inner (.ws w :: t :: ts) = ' ' :: inner (t :: ts) := by
  rw [inner]; simp

theorem squeezed_ws (w : List Char) (t : Tok) (ts : List Tok) : squeezed (.ws w :: t :: ts) = ' ' :: squeezed (t :: ts) := by
  rw [squeezed]; simp

theorem squeezed_cons {t : Tok} (h : ∀ w, t ≠ .ws w) (ts : List Tok) : squeezed (t :: ts) = t.text ++ squeezed ts := by
  cases t with
  | ws w => exact absurd rfl (h w)
  | _ => cases ts <;> rfl

theorem inner_literal (ts : List Tok) (h : ∀ t ∈ ts, (∃ w, t = .ws w) ∨ (∃ w, t = .lit w) ∨ PlainTok t) :
    litBody '"' (inner ts ++ ['"']) = (inner ts ++ ['"'], []) ∧ unquote (inner ts) = squeezed ts := by
  induction ts with
  | nil => simp [inner, litBody, squeezed, unquote]
  | cons t ts ih =>
    have ih := ih fun x hx => h x (by simp [hx])
    rcases h t (by simp) with ⟨w, rfl⟩ | ⟨w, rfl⟩ | hp
    · cases ts with
      | nil => simp [inner, litBody, squeezed, unquote]
      | cons t ts =>
        rw [inner_ws, squeezed_ws, List.cons_append, litBody_plain (by decide) (by decide) (by simp), ih.1]
        refine ⟨rfl, ?_⟩
        rw [← List.singleton_append, unquote_text [' '] _ (by simp), ih.2]
        rfl
    · rw [inner_cons (by simp), squeezed_cons (by simp), List.append_assoc]
      simp only [spelled]
      rw [litBody_quoted _ _ (by simp), ih.1, unquote_quoted, ih.2]
      exact ⟨rfl, rfl⟩
    · have hs : spelled t = t.text := by
        cases t with
        | lit l => exact absurd rfl (hp.2.1 l)
        | _ => rfl
      rw [inner_cons hp.1, squeezed_cons hp.1, hs, List.append_assoc, litBody_text _ _ (fun c hc => ?_) (by simp), ih.1,
        unquote_text _ _ (fun c hc => (hp.2.2.2 c hc).2.2), ih.2]
      · exact ⟨rfl, rfl⟩
      · refine ⟨?_, (hp.2.2.2 c hc).2.2⟩
        have := (hp.2.2.2 c hc).2.1
        rintro rfl
        simp [isQuote] at this

theorem mem_skipWs {t : Tok} {ts : List Tok} (h : t ∈ skipWs ts) : t ∈ ts := by
  cases ts with
  | nil => exact h
  | cons a ts => cases a <;> simp_all [skipWs]

theorem stringized_literal {raw : List Char} (h : Tok.oth '\\' ∉ lex isSp raw) :
    litBody '"' (stringized raw).tail = ((stringized raw).tail, []) ∧
    unquote (inner (skipWs (lex isSp raw))) = squeezed (skipWs (lex isSp raw)) := by
  have := inner_literal (skipWs (lex isSp raw)) fun t ht => lex_plain _ raw le_rfl h t (mem_skipWs ht)
  exact this

end Splint.CppMacro
