import Verif.Spec.CppRedef
/-!
C104: a redefinition of a macro is reported exactly if the definitions differ.
-/
namespace Splint.CppMacro
open Spec

/-! Runs of white space. -/

section
variable (sp : Char → Bool)

theorem squash_drop (c : Char) (l : List Char) (hc : sp c = true) :
    squash sp (c :: l) = ' ' :: squash sp (l.dropWhile sp) := by
  induction l generalizing c with
  | nil => simp [squash, hc]
  | cons d l ih =>
    rw [squash, if_pos hc]
    by_cases hd : sp d = true
    · rw [if_pos (by simp [hd]), ih d hd, List.dropWhile_cons, if_pos hd]
    · rw [if_neg (by simp [hd]), List.dropWhile_cons, if_neg hd]

theorem squash_char (c : Char) (l : List Char) (hc : sp c = false) : squash sp (c :: l) = c :: squash sp l := by
  rw [squash, if_neg (by simp [hc])]

theorem squash_head (hs : sp ' ' = true) (l : List Char) :
    ((squash sp l).head?.map sp).getD false = (l.head?.map sp).getD false := by
  cases l with
  | nil => rfl
  | cons c l =>
    by_cases hc : sp c = true
    · rw [squash_drop sp c l hc]
      simp [hs, hc]
    · rw [squash_char sp c l (by simpa using hc)]
      simp

theorem drop_of_head (l : List Char) (h : (l.head?.map sp).getD false = false) : l.dropWhile sp = l := by
  cases l with
  | nil => rfl
  | cons c l => rw [List.dropWhile_cons, if_neg (by simpa using h)]

theorem head_of_drop (l : List Char) : ((l.dropWhile sp).head?.map sp).getD false = false := by
  induction l with
  | nil => rfl
  | cons c l ih =>
    rw [List.dropWhile_cons]
    split
    · exact ih
    · rename_i h
      simpa using h

theorem squash_dropWhile (hs : sp ' ' = true) (l : List Char) :
    squash sp (l.dropWhile sp) = (squash sp l).dropWhile sp := by
  cases l with
  | nil => rfl
  | cons c l =>
    by_cases hc : sp c = true
    · rw [squash_drop sp c l hc, List.dropWhile_cons, List.dropWhile_cons, if_pos hc, if_pos hs,
        drop_of_head sp (squash sp _)]
      rw [squash_head sp hs, head_of_drop]
    · rw [List.dropWhile_cons, if_neg hc, squash_char sp c l (by simpa using hc), List.dropWhile_cons, if_neg hc]

theorem squash_congr_cons (hs : sp ' ' = true) (c : Char) (a b : List Char) (h : squash sp a = squash sp b) :
    squash sp (c :: a) = squash sp (c :: b) := by
  by_cases hc : sp c = true
  · rw [squash_drop sp c a hc, squash_drop sp c b hc, squash_dropWhile sp hs, squash_dropWhile sp hs, h]
  · rw [squash_char sp c a (by simpa using hc), squash_char sp c b (by simpa using hc), h]

theorem squash_congr (hs : sp ' ' = true) (x a b : List Char) (h : squash sp a = squash sp b) :
    squash sp (x ++ a) = squash sp (x ++ b) := by
  induction x with
  | nil => exact h
  | cons c x ih => exact squash_congr_cons sp hs c _ _ ih

theorem squash_snoc (c : Char) (l : List Char) : squash sp (l ++ [c])
    = if sp c then if (l.getLast?.map sp).getD false then squash sp l else squash sp l ++ [' ']
      else squash sp l ++ [c] := by
  induction l with
  | nil => simp [squash]
  | cons d l ih =>
    cases l with
    | nil =>
      by_cases hc : sp c = true <;> by_cases hd : sp d = true <;> simp [squash, hc, hd]
    | cons e l =>
      rw [List.cons_append, squash, ih]
      rw [squash.eq_2 sp d (e :: l)]
      simp only [List.cons_append, List.head?_cons, List.getLast?_cons_cons, Option.map_some, Option.getD_some]
      generalize squash sp (e :: l) = S
      by_cases h1 : sp d = true <;> by_cases h2 : sp e = true <;> by_cases h3 : sp c = true <;> simp [h1, h2, h3]
      all_goals split_ifs <;> simp

theorem squash_reverse (l : List Char) : squash sp l.reverse = (squash sp l).reverse := by
  induction l with
  | nil => rfl
  | cons c l ih =>
    rw [List.reverse_cons, squash_snoc, squash, ih, List.getLast?_reverse]
    split_ifs <;> simp

theorem squash_congr_right (hs : sp ' ' = true) (x a b : List Char) (h : squash sp a = squash sp b) :
    squash sp (a ++ x) = squash sp (b ++ x) := by
  have h1 : squash sp a.reverse = squash sp b.reverse := by rw [squash_reverse, squash_reverse, h]
  have h2 := congrArg List.reverse (squash_congr sp hs x.reverse _ _ h1)
  rw [← squash_reverse, ← squash_reverse] at h2
  simpa using h2

end

theorem sp_space : isSp ' ' = true := by decide
theorem hor_space : isHor ' ' = true := by decide
theorem hor_sp {c : Char} (h : isHor c = true) : isSp c = true := by simp [isSp, h]

theorem squash_squash (l : List Char) : squash isSp (squash isHor l) = squash isSp l := by
  induction l with
  | nil => rfl
  | cons c l ih =>
    rw [squash]
    by_cases hc : isHor c = true
    · have hsp := hor_sp hc
      rw [if_pos hc]
      split
      · rename_i h
        rw [ih, squash.eq_2 isSp, if_pos hsp, if_pos]
        cases l with
        | nil => simp at h
        | cons d l => simpa using hor_sp (by simpa using h)
      · rw [squash_drop isSp ' ' _ sp_space, squash_drop isSp c l hsp, squash_dropWhile isSp sp_space, ih,
          squash_dropWhile isSp sp_space]
    · rw [if_neg hc]
      exact squash_congr_cons isSp sp_space c _ _ ih

/-! The comparison of parts. -/

theorem compLoop_iff (a b : List Char) : compLoop a b = false ↔ squash isSp a = squash isSp b := by
  fun_induction compLoop a b with
  | case1 => simp
  | case2 c l =>
    by_cases hc : isSp c = true
    · rw [squash_drop isSp c l hc]; simp [squash.eq_1]
    · rw [squash_char isSp c l (by simpa using hc)]; simp [squash.eq_1]
  | case3 c l =>
    by_cases hc : isSp c = true
    · rw [squash_drop isSp c l hc]; simp [squash.eq_1]
    · rw [squash_char isSp c l (by simpa using hc)]; simp [squash.eq_1]
  | case4 a l b m h ih =>
    obtain ⟨ha, hb⟩ := (Bool.and_eq_true_iff).mp h
    rw [ih, squash_drop isSp a l ha, squash_drop isSp b m hb]
    simp
  | case5 l a m h ih =>
    have ha : isSp a = false := by
      cases hh : isSp a <;> simp_all
    rw [ih, squash_char isSp a l ha, squash_char isSp a m ha]
    simp
  | case6 a l b m h hab =>
    simp only [Bool.true_eq_false, false_iff]
    by_cases ha : isSp a = true
    · have hb : isSp b = false := by cases hh : isSp b <;> simp_all
      rw [squash_drop isSp a l ha, squash_char isSp b m hb]
      intro he
      rw [← (List.cons.inj he).1] at hb
      exact absurd hb (by decide)
    · have ha : isSp a = false := by simpa using ha
      by_cases hb : isSp b = true
      · rw [squash_drop isSp b m hb, squash_char isSp a l ha]
        intro he
        rw [(List.cons.inj he).1] at ha
        exact absurd ha (by decide)
      · rw [squash_char isSp a l ha, squash_char isSp b m (by simpa using hb)]
        intro he
        exact hab (List.cons.inj he).1

/-- a part as it is compared -/
def part (first last : Bool) (x : List Char) : List Char :=
  let y := if first then (squash isSp x).dropWhile isSp else squash isSp x
  if last then (y.reverse.dropWhile isSp).reverse else y

theorem compPart_iff (f l : Bool) (a b : List Char) : compPart f l a b = false ↔ part f l a = part f l b := by
  have key : ∀ x, squash isSp ((fun l' : List Char => if l then (l'.reverse.dropWhile isSp).reverse else l')
      ((fun l' : List Char => if f then l'.dropWhile isSp else l') x)) = part f l x := by
    intro x
    have h1 : ∀ y, squash isSp ((y.reverse.dropWhile isSp).reverse) = (((squash isSp y).reverse).dropWhile isSp).reverse := by
      intro y
      rw [squash_reverse, squash_dropWhile isSp sp_space, squash_reverse]
    cases f <;> cases l <;> simp [part, h1, squash_dropWhile isSp sp_space]
  rw [compPart, compLoop_iff, key, key]

/-- the parts as they are compared -/
def segsNorm (f : Bool) : List (List Char × Pat) → List Char → List (List Char × Pat) × List Char
  | [], x => ([], part f true x)
  | (x, p) :: s, xl =>
    ((part f false x, { p with rest := false }) :: (segsNorm false s xl).1, (segsNorm false s xl).2)

theorem compSegs_iff (f : Bool) (s : List (List Char × Pat)) (x : List Char) : ∀ t y,
    compSegs f s x t y = false ↔ segsNorm f s x = segsNorm f t y := by
  induction s generalizing f with
  | nil =>
    intro t y
    cases t with
    | nil => simp [compSegs, segsNorm, compPart_iff]
    | cons q t => simp [compSegs, segsNorm]
  | cons q s ih =>
    intro t y
    obtain ⟨a, p⟩ := q
    cases t with
    | nil => simp [compSegs, segsNorm]
    | cons r t =>
      obtain ⟨b, q⟩ := r
      have h1 : (decide (a = b) || !compPart f false a b) = true ↔ part f false a = part f false b := by
        rw [Bool.or_eq_true, decide_eq_true_eq, Bool.not_eq_true', compPart_iff]
        constructor
        · rintro (rfl | h)
          · rfl
          · exact h
        · exact Or.inr
      have h2 : ({ p with rest := false } : Pat) = { q with rest := false } ↔ p.arg = q.arg
          ∧ p.stringify = q.stringify ∧ p.rawBefore = q.rawBefore ∧ p.rawAfter = q.rawAfter := by
        cases p; cases q; simp
      rw [compSegs]
      split
      · rename_i h
        simp only [Bool.true_eq_false, false_iff]
        intro he
        simp only [segsNorm, Prod.mk.injEq, List.cons.injEq] at he
        rw [h2, ← h1] at he
        obtain ⟨⟨⟨e1, e2, e3, e4, e5⟩, _⟩, _⟩ := he
        simp [e1, e2, e3, e4, e5] at h
      · rename_i h
        rw [ih]
        simp only [Bool.or_eq_true, not_or, decide_eq_true_eq, not_not, Bool.not_eq_true', Bool.not_eq_false] at h
        obtain ⟨⟨⟨⟨e1, e2⟩, e3⟩, e4⟩, e5⟩ := h
        have e1 := h1.mp (by simpa using e1)
        have e2 := h2.mpr ⟨e2, e3, e4, e5⟩
        simp only [segsNorm, Prod.mk.injEq, List.cons.injEq, e1, e2, true_and]
        constructor
        · intro h; exact ⟨congrArg Prod.fst h, congrArg Prod.snd h⟩
        · rintro ⟨h3, h4⟩; exact Prod.ext h3 h4


/-! The loop over the text, for two texts that differ in the amount of white space. -/

theorem norm_nil (d : Option Char) : norm d [] = [] := by cases d <;> simp [norm]

theorem norm_blank (l : List Char) (c : Char) (hc : isHor c = true) :
    norm none (c :: l) = ' ' :: norm none (l.dropWhile isHor) := by
  induction l generalizing c with
  | nil => simp [norm, hc]
  | cons d l ih =>
    rw [norm, if_pos hc]
    by_cases hd : isHor d = true
    · rw [if_pos (by simp [hd]), ih d hd, List.dropWhile_cons, if_pos hd]
    · rw [if_neg (by simp [hd]), List.dropWhile_cons, if_neg hd]

theorem norm_char (c : Char) (l : List Char) (hc : isHor c = false) :
    norm none (c :: l) = c :: norm (if quoteChar c then some c else none) l := by
  rw [norm, if_neg (by simp [hc])]

theorem norm_esc (d e : Char) (l : List Char) : norm (some d) ('\\' :: e :: l) = '\\' :: e :: norm (some d) l := by
  rw [norm, if_pos rfl]

theorem norm_lit (c d : Char) (l : List Char) (hc : c ≠ '\\') :
    norm (some d) (c :: l) = c :: norm (if c = d then none else some d) l := by
  cases l with
  | nil => rw [norm_nil, norm]
  | cons e l => rw [norm, if_neg hc]

theorem norm_drop (l : List Char) : (norm none l).dropWhile isHor = norm none (l.dropWhile isHor) := by
  cases l with
  | nil => simp [norm]
  | cons c l =>
    by_cases hc : isHor c = true
    · rw [norm_blank l c hc, List.dropWhile_cons, List.dropWhile_cons, if_pos hor_space, if_pos hc]
      have := head_of_drop isHor l
      cases hl : l.dropWhile isHor with
      | nil => simp [norm]
      | cons d m =>
        rw [hl] at this
        have hd : isHor d = false := by simpa using this
        rw [norm_char d m hd, List.dropWhile_cons, if_neg (by simp [hd])]
    · have hc : isHor c = false := by simpa using hc
      have e : (c :: l).dropWhile isHor = c :: l := by rw [List.dropWhile_cons, if_neg (by simp [hc])]
      rw [e, norm_char c l hc, List.dropWhile_cons, if_neg (by simp [hc])]

/-- the first character -/
theorem norm_first (d : Option Char) (l : List Char) (q : Char → Bool) (hq : ∀ c, isHor c = true → q c = false) :
    ((norm d l).head?.map q).getD false = (l.head?.map q).getD false := by
  cases l with
  | nil => rw [norm_nil]
  | cons c l =>
    cases d with
    | none =>
      by_cases hc : isHor c = true
      · rw [norm_blank l c hc]
        simp [hq c hc, hq ' ' hor_space]
      · rw [norm_char c l (by simpa using hc)]
        simp
    | some d =>
      by_cases hc : c = '\\'
      · subst hc
        cases l with
        | nil => simp [norm]
        | cons e l => rw [norm_esc]; simp
      · rw [norm_lit c d l hc]
        simp

theorem id_plain {c : Char} (h : isId c = true) : isHor c = false ∧ quoteChar c = false ∧ c ≠ '\\' := by
  refine ⟨?_, ?_, ?_⟩
  · by_contra hh
    simp only [Bool.not_eq_false, isHor, Bool.or_eq_true, decide_eq_true_eq] at hh
    rcases hh with (((rfl | rfl) | rfl) | rfl) | rfl <;> revert h <;> decide
  · by_contra hh
    simp only [Bool.not_eq_false, quoteChar, Bool.or_eq_true, decide_eq_true_eq] at hh
    rcases hh with rfl | rfl <;> revert h <;> decide
  · rintro rfl
    revert h
    decide

/-- the delimiter is a quotation mark -/
def GoodDelim (d : Option Char) : Prop := ∀ c, d = some c → quoteChar c = true

theorem norm_id (d : Option Char) (hd : GoodDelim d) (c : Char) (l : List Char) (hc : isId c = true) :
    norm d (c :: l) = c :: norm d l := by
  obtain ⟨h1, h2, h3⟩ := id_plain hc
  cases d with
  | none => rw [norm_char c l h1, h2]; simp
  | some d =>
    have : c ≠ d := by
      rintro rfl
      rw [hd c rfl] at h2
      exact absurd h2 (by simp)
    rw [norm_lit c d l h3, if_neg this]

theorem norm_word (d : Option Char) (hd : GoodDelim d) (l : List Char) :
    (norm d l).takeWhile isId = l.takeWhile isId ∧ (norm d l).dropWhile isId = norm d (l.dropWhile isId) := by
  induction l with
  | nil => simp [norm_nil]
  | cons c l ih =>
    by_cases hc : isId c = true
    · rw [norm_id d hd c l hc]
      simp [hc, ih]
    · have h1 := norm_first d (c :: l) isId fun c h => by
        by_contra hh
        rw [Bool.not_eq_false] at hh
        rw [(id_plain hh).1] at h
        exact absurd h (by simp)
      rw [List.takeWhile_cons, List.dropWhile_cons, if_neg hc, if_neg hc]
      cases hn : norm d (c :: l) with
      | nil => simp
      | cons e m =>
        rw [hn] at h1
        have he : isId e = false := by simpa [hc] using h1
        rw [List.takeWhile_cons, List.dropWhile_cons, if_neg (by simp [he]), if_neg (by simp [he])]
        exact ⟨rfl, rfl⟩

theorem hash_plain : isHor '#' = false ∧ quoteChar '#' = false := by decide

theorem norm_hash (l : List Char) : norm none ('#' :: l) = '#' :: norm none l := by
  rw [norm_char '#' l hash_plain.1, hash_plain.2]
  simp

/-- the first character is `#` -/
theorem norm_hash_inv (l m : List Char) (h : norm none l = '#' :: m) : ∃ k, l = '#' :: k ∧ m = norm none k := by
  cases l with
  | nil => rw [norm_nil] at h; simp at h
  | cons c l =>
    by_cases hc : isHor c = true
    · rw [norm_blank l c hc] at h
      exact absurd (List.cons.inj h).1 (by decide)
    · rw [norm_char c l (by simpa using hc)] at h
      obtain ⟨rfl, h⟩ := List.cons.inj h
      refine ⟨l, rfl, ?_⟩
      rw [← h, hash_plain.2]
      simp

theorem norm_paste (l : List Char) : startsPaste (norm none l) = startsPaste l := by
  have h1 : ∀ l, startsPaste l = true ↔ ∃ k, l = '#' :: '#' :: k := by
    intro l
    constructor
    · intro h
      rw [startsPaste.eq_def] at h
      split at h
      · exact ⟨_, rfl⟩
      · simp at h
    · rintro ⟨k, rfl⟩
      rfl
  rw [Bool.eq_iff_iff, h1, h1]
  constructor
  · rintro ⟨k, h⟩
    obtain ⟨k1, rfl, h'⟩ := norm_hash_inv _ _ h
    obtain ⟨k2, rfl, _⟩ := norm_hash_inv _ _ h'.symm
    exact ⟨k2, rfl⟩
  · rintro ⟨k, rfl⟩
    exact ⟨norm none k, by rw [norm_hash, norm_hash]⟩

theorem quote_eq (c : Char) : quoteChar c = (c = '\'' || c = '"') := by simp [quoteChar]

theorem norm_wide (d : Option Char) (hd : GoodDelim d) (l : List Char) : wide (norm d l) = wide l := by
  have hq : ∀ c, isHor c = true → quoteChar c = false := by
    intro c hc
    by_contra hh
    simp only [Bool.not_eq_false, quoteChar, Bool.or_eq_true, decide_eq_true_eq] at hh
    rcases hh with rfl | rfl <;> revert hc <;> decide
  have hw : ∀ m, wide ('L' :: m) = (m.head?.map quoteChar).getD false := by
    intro m
    cases m with
    | nil => rfl
    | cons c m => simp [wide, quoteChar]
  have hn : ∀ c m, c ≠ 'L' → wide (c :: m) = false := by
    intro c m hc
    rw [wide.eq_def]
    split
    · rename_i heq
      exact absurd (List.cons.inj heq).1 hc
    · rfl
  cases l with
  | nil => rw [norm_nil]
  | cons c l =>
    by_cases hc : c = 'L'
    · subst hc
      rw [norm_id d hd 'L' l (by decide), hw, hw, norm_first d l quoteChar hq]
    · rw [hn c l hc]
      cases hm : norm d (c :: l) with
      | nil => rfl
      | cons e m =>
        have h1 := norm_first d (c :: l) (fun c => decide (c = 'L')) (by
          intro c h
          simp only [decide_eq_false_iff_not]
          rintro rfl
          revert h
          decide)
        rw [hm] at h1
        exact hn e m (by simpa [hc] using h1)

/-- The states differ in the amount of white space only. -/
structure Rel (s s' : CS) : Prop where
  segs : s.segs.map (fun x => (squash isHor x.1, x.2)) = s'.segs.map (fun x => (squash isHor x.1, x.2))
  cur : squash isHor s.cur = squash isHor s'.cur
  delim : s.delim = s'.delim
  cc : s.cc = s'.cc
  st : s.st = s'.st

theorem Rel.emit {s s' : CS} (h : Rel s s') (x : List Char) : Rel (s.emit x) (s'.emit x) where
  segs := h.segs
  cur := squash_congr isHor hor_space _ _ _ h.cur
  delim := h.delim
  cc := rfl
  st := rfl

theorem Rel.delimTo {s s' : CS} (h : Rel s s') (d : Option Char) : Rel { s with delim := d } { s' with delim := d } where
  segs := h.segs
  cur := h.cur
  delim := rfl
  cc := h.cc
  st := h.st

theorem Rel.blank {s s' : CS} (h : Rel s s') (c : Char) (w : List Char) (hw : ∀ d ∈ c :: w, isHor d = true) :
    Rel (s.emit (c :: w)) (s'.emit [' ']) where
  segs := h.segs
  cur := by
    have key : ∀ w' : List Char, w' ≠ [] → (∀ d ∈ w', isHor d = true) → ∀ a,
        squash isHor (w' ++ a) = ' ' :: squash isHor (a.dropWhile isHor) := by
      intro w'
      cases w' with
      | nil => intro h; exact absurd rfl h
      | cons e w' =>
        intro _ he a
        rename_i hnil
        clear hnil
        rw [List.cons_append, squash_drop isHor e _ (he e (by simp))]
        congr 2
        have hw' : ∀ d ∈ w', isHor d = true := fun d hd => he d (List.mem_cons_of_mem _ hd)
        clear he
        induction w' with
        | nil => rfl
        | cons f w' ih =>
          rw [List.cons_append, List.dropWhile_cons, if_pos (hw' f (by simp))]
          exact ih fun d hd => hw' d (List.mem_cons_of_mem _ hd)
    simp only [CS.emit]
    rw [key _ (by simp) (by intro d hd; exact hw d (List.mem_reverse.mp hd)), key _ (by simp)
      (by intro d hd
          obtain rfl : d = ' ' := by simpa using hd
          decide),
      squash_dropWhile isHor hor_space, squash_dropWhile isHor hor_space, h.cur]
  delim := h.delim
  cc := rfl
  st := rfl

theorem onHash_rel (fn t t' : Bool) (s s' : CS) (h : Rel s s') (hn : s.delim = none) (rest : List Char) :
    Rel (onHash fn t s rest).1 (onHash fn t' s' (norm none rest)).1
    ∧ (onHash fn t' s' (norm none rest)).2 = norm none (onHash fn t s rest).2
    ∧ (onHash fn t s rest).1.delim = none := by
  have hdrop : squash isHor (s.cur.dropWhile isHor) = squash isHor (s'.cur.dropWhile isHor) := by
    rw [squash_dropWhile isHor hor_space, squash_dropWhile isHor hor_space, h.cur]
  by_cases hr : ∃ k, rest = '#' :: k
  · obtain ⟨k, rfl⟩ := hr
    rw [norm_hash]
    simp only [onHash, norm_drop]
    exact ⟨⟨h.segs, hdrop, h.delim, rfl, rfl⟩, trivial, hn⟩
  · have h1 : ∀ (t : Bool) (s : CS) (r : List Char), (¬ ∃ k, r = '#' :: k) → onHash fn t s r
        = if fn then
          if ((r.dropWhile isHor).head?.map isStart).getD false && !wide (r.dropWhile isHor)
          then ({ s with cc := false, st := true }, r.dropWhile isHor)
          else ({ s with cc := false, st := false, error := true }, r.dropWhile isHor)
        else (s.emit ['#'], r) := by
      intro t s r hr
      rw [onHash.eq_def]
      split
      · rename_i r' 
        exact absurd ⟨r', rfl⟩ hr
      · rfl
    have hr' : ¬ ∃ k, norm none rest = '#' :: k := by
      rintro ⟨k, hk⟩
      obtain ⟨k', rfl, _⟩ := norm_hash_inv _ _ hk
      exact hr ⟨k', rfl⟩
    rw [h1 t s rest hr, h1 t' s' _ hr', norm_drop, norm_wide none (by intro c h; simp at h),
      norm_first none _ isStart (by
        intro c hc
        by_contra hh
        rw [Bool.not_eq_false] at hh
        rw [(id_plain (c := c) (by simp [isId, hh])).1] at hc
        exact absurd hc (by simp))]
    cases fn with
    | false =>
      simp only [Bool.false_eq_true, if_false]
      exact ⟨h.emit _, trivial, hn⟩
    | true =>
      simp only [if_true]
      split
      · exact ⟨⟨h.segs, h.cur, h.delim, rfl, rfl⟩, rfl, hn⟩
      · exact ⟨⟨h.segs, h.cur, h.delim, rfl, rfl⟩, rfl, hn⟩

theorem onWord_rel (ps : Params) (s s' : CS) (h : Rel s s') (hg : GoodDelim s.delim) (word after : List Char) :
    Rel (onWord ps s word after) (onWord ps s' word (norm s.delim after))
    ∧ (onWord ps s word after).delim = s.delim := by
  have hw : (decide (word = ['L']) && wide (word ++ norm s.delim after)) = (decide (word = ['L']) && wide (word ++ after)) := by
    by_cases hL : word = ['L']
    · subst hL
      have := norm_wide s.delim hg ('L' :: after)
      rw [norm_id s.delim hg 'L' after (by decide)] at this
      simpa using this
    · simp [hL]
  rw [onWord, onWord, hw, ← h.delim]
  simp only
  split
  · rename_i i r hu
    have hd : s.delim = none := by
      split at hu
      · rename_i hc
        simp only [Bool.and_eq_true, decide_eq_true_eq] at hc
        exact hc.2
      · simp at hu
    rw [hd]
    refine ⟨⟨?_, rfl, ?_, rfl, rfl⟩, ?_⟩
    · simp only [List.map_cons, h.segs, h.st, h.cc, squash_reverse, h.cur]
      rw [norm_drop, norm_paste]
    · simp only [← h.delim]
    · rfl
  · have := h.emit word
    exact ⟨⟨this.segs, this.cur, this.delim, this.cc, this.st⟩, rfl⟩

theorem onChar_rel (s s' : CS) (h : Rel s s') (hg : GoodDelim s.delim) (c : Char) (rest : List Char)
    (hc : s.delim = none → isHor c = false) :
    ∃ rest', norm s.delim (c :: rest) = c :: rest' ∧ Rel (onChar s c rest).1 (onChar s' c rest').1
      ∧ (onChar s' c rest').2 = norm (onChar s c rest).1.delim (onChar s c rest).2
      ∧ GoodDelim (onChar s c rest).1.delim := by
  have hd := h.delim
  by_cases hq : (c = '\'' || c = '"') = true
  · have hcb : c ≠ '\\' := by
      rintro rfl
      revert hq
      decide
    have hqc : quoteChar c = true := by rw [quote_eq]; exact hq
    cases hs : s.delim with
    | none =>
      refine ⟨_, norm_char c rest (hc hs), ?_⟩
      simp only [onChar, hq, if_true, ← hd, hs, hqc]
      refine ⟨(h.emit [c]).delimTo _, trivial, ?_⟩
      rintro d hd
      obtain rfl := Option.some.inj hd
      exact hqc
    | some d =>
      refine ⟨_, norm_lit c d rest hcb, ?_⟩
      simp only [onChar, hq, if_true, ← hd, hs]
      refine ⟨(h.emit [c]).delimTo _, trivial, ?_⟩
      split
      · intro e he; simp at he
      · rw [hs] at hg; exact hg
  · by_cases hb : (decide (c = '\\') && s.delim.isSome) = true
    · obtain ⟨h1, h2⟩ := (Bool.and_eq_true_iff).mp hb
      have hcb : c = '\\' := by simpa using h1
      subst hcb
      obtain ⟨d, hs⟩ := Option.isSome_iff_exists.mp h2
      have hb' : (decide ('\\' = '\\') && s'.delim.isSome) = true := by rw [← hd]; exact hb
      cases rest with
      | nil =>
        refine ⟨[], by rw [hs, norm], ?_⟩
        have e1 : ∀ z : CS, z.delim.isSome = true → onChar z '\\' [] = (z.emit ['\\'], []) := by
          intro z hz; simp [onChar, hz]
        rw [e1 s h2, e1 s' (by rw [← hd]; exact h2)]
        exact ⟨h.emit _, by rw [norm_nil], hg⟩
      | cons e l =>
        refine ⟨e :: norm s.delim l, by rw [hs, norm_esc], ?_⟩
        have e1 : ∀ z : CS, z.delim.isSome = true → ∀ k, onChar z '\\' (e :: k) = (z.emit ['\\', e], k) := by
          intro z hz k; simp [onChar, hz]
        rw [e1 s h2, e1 s' (by rw [← hd]; exact h2)]
        exact ⟨h.emit _, rfl, hg⟩
    · have hnorm : norm s.delim (c :: rest) = c :: norm s.delim rest := by
        cases hs : s.delim with
        | none =>
          have hqc : quoteChar c = false := by rw [quote_eq]; simpa using hq
          rw [norm_char c rest (hc hs), hqc]
          simp
        | some d =>
          have hcb : c ≠ '\\' := by
            rintro rfl
            rw [hs] at hb
            exact hb (by simp)
          have hcd : c ≠ d := by
            rintro rfl
            have := hg c hs
            rw [quote_eq] at this
            exact hq this
          rw [norm_lit c d rest hcb, if_neg hcd]
      refine ⟨_, hnorm, ?_⟩
      have hb' : ¬ (decide (c = '\\') && s'.delim.isSome) = true := by rw [← hd]; exact hb
      simp only [onChar, if_neg hq, if_neg hb, if_neg hb', ← hd]
      split
      · exact ⟨h.emit _, rfl, hg⟩
      · exact ⟨h.emit _, rfl, hg⟩

theorem step_rel (ps : Params) (fn t t' : Bool) (s s' : CS) (h : Rel s s') (hg : GoodDelim s.delim) (c : Char)
    (rest : List Char) (hc : s.delim = none → isHor c = false) :
    ∃ rest', norm s.delim (c :: rest) = c :: rest' ∧ Rel (step ps fn t s c rest).1 (step ps fn t' s' c rest').1
      ∧ (step ps fn t' s' c rest').2 = norm (step ps fn t s c rest).1.delim (step ps fn t s c rest).2
      ∧ GoodDelim (step ps fn t s c rest).1.delim := by
  have hd := h.delim
  by_cases h1 : (decide (c = '#') && s.delim.isNone) = true
  · obtain ⟨hh, hn⟩ := (Bool.and_eq_true_iff).mp h1
    obtain rfl : c = '#' := by simpa using hh
    have hn : s.delim = none := by simpa using hn
    have h1' : (decide ('#' = '#') && s'.delim.isNone) = true := by rw [← hd]; exact h1
    obtain ⟨r1, r2, r3⟩ := onHash_rel fn t t' s s' h hn rest
    refine ⟨norm none rest, by rw [hn, norm_hash], ?_⟩
    have e1 : ∀ (z : CS) t k, z.delim = none → step ps fn t z '#' k = onHash fn t z k := by
      intro z t k hz; simp [step, hz]
    rw [e1 s t _ hn, e1 s' t' _ (by rw [← hd]; exact hn), r3]
    exact ⟨r1, r2, by intro e he; simp at he⟩
  · have h1' : ¬ (decide (c = '#') && s'.delim.isNone) = true := by rw [← hd]; exact h1
    by_cases h2 : (isId c && !ps.isEmpty) = true
    · have hid := ((Bool.and_eq_true_iff).mp h2).1
      refine ⟨norm s.delim rest, norm_id s.delim hg c rest hid, ?_⟩
      obtain ⟨w1, w2⟩ := norm_word s.delim hg rest
      simp only [step, if_neg h1, if_neg h1', if_pos h2, w1, w2]
      obtain ⟨r1, r2⟩ := onWord_rel ps s s' h hg (c :: rest.takeWhile isId) (rest.dropWhile isId)
      rw [r2]
      exact ⟨r1, rfl, hg⟩
    · obtain ⟨rest', e, r1, r2, r3⟩ := onChar_rel s s' h hg c rest hc
      refine ⟨rest', e, ?_⟩
      simp only [step, if_neg h1, if_neg h1', if_neg h2]
      exact ⟨r1, r2, r3⟩

theorem step_blank (ps : Params) (fn t : Bool) (s : CS) (hs : s.delim = none) (c : Char) (hc : isHor c = true)
    (rest : List Char) : step ps fn t s c rest = (s.emit [c], rest) := by
  have h1 : isId c = false := by
    by_contra hh
    rw [Bool.not_eq_false] at hh
    rw [(id_plain hh).1] at hc
    exact absurd hc (by simp)
  have h2 : ∀ d, isHor d = false → c ≠ d := by
    rintro d hd rfl
    rw [hd] at hc
    exact absurd hc (by simp)
  simp [step, onChar, h1, hs, h2 '#' (by decide), h2 '\'' (by decide), h2 '"' (by decide), h2 '@' (by decide)]

theorem loop_blank (ps : Params) (fn t : Bool) (w l : List Char) : ∀ (s : CS) (c : Char), s.delim = none →
    (∀ d ∈ c :: w, isHor d = true) → loop ps fn t s (c :: w ++ l) = loop ps fn t (s.emit (c :: w)) l := by
  induction w with
  | nil =>
    intro s c hs hw
    rw [List.cons_append, loop, step_blank ps fn t s hs c (hw c (by simp))]
    rfl
  | cons d w ih =>
    intro s c hs hw
    rw [List.cons_append, loop, step_blank ps fn t s hs c (hw c (by simp))]
    simp only
    rw [ih (s.emit [c]) d hs fun e he => hw e (List.mem_cons_of_mem _ he)]
    congr 1
    simp [CS.emit]

theorem loop_rel (ps : Params) (fn t t' : Bool) (b : List Char) : ∀ s s', Rel s s' → GoodDelim s.delim →
    Rel (loop ps fn t s b) (loop ps fn t' s' (norm s.delim b)) := by
  induction hk : b.length using Nat.strong_induction_on generalizing b with
  | _ k ih =>
    intro s s' h hg
    subst hk
    cases b with
    | nil =>
      rw [norm_nil, loop, loop]
      exact h
    | cons c rest =>
      by_cases hc : s.delim = none ∧ isHor c = true
      · obtain ⟨hs, hc⟩ := hc
        have hs' : s'.delim = none := by rw [← h.delim]; exact hs
        have hsplit : c :: rest = c :: rest.takeWhile isHor ++ rest.dropWhile isHor := by
          rw [List.cons_append, List.takeWhile_append_dropWhile]
        have hall : ∀ d ∈ c :: rest.takeWhile isHor, isHor d = true := by
          intro d hd
          rcases List.mem_cons.mp hd with rfl | hd
          · exact hc
          · have hall : ∀ l : List Char, d ∈ l.takeWhile isHor → isHor d = true := by
              intro l
              induction l with
              | nil => intro h; simp at h
              | cons e l ih =>
                rw [List.takeWhile_cons]
                split
                · intro h
                  rcases List.mem_cons.mp h with rfl | h
                  · assumption
                  · exact ih h
                · intro h; simp at h
            exact hall rest hd
        have e1 : loop ps fn t s (c :: rest) = loop ps fn t (s.emit (c :: rest.takeWhile isHor)) (rest.dropWhile isHor) := by
          rw [← loop_blank ps fn t _ _ s c hs hall, ← hsplit]
        have e2 : loop ps fn t' s' (norm none (c :: rest)) = loop ps fn t' (s'.emit [' ']) (norm none (rest.dropWhile isHor)) := by
          rw [norm_blank rest c hc, loop, step_blank ps fn t' s' hs' ' ' hor_space]
        rw [hs, e1, e2]
        have hlt : (rest.dropWhile isHor).length < (c :: rest).length := by
          have := length_dropWhile_le isHor rest
          simp
          omega
        have := ih _ hlt _ rfl _ _ (h.blank c _ hall) (by rw [show (s.emit (c :: rest.takeWhile isHor)).delim = s.delim from rfl]; exact hg)
        rw [show (s.emit (c :: rest.takeWhile isHor)).delim = none from hs] at this
        exact this
      · obtain ⟨rest', e, r1, r2, r3⟩ := step_rel ps fn t t' s s' h hg c rest (by
          intro hs
          by_contra hh
          exact hc ⟨hs, by simpa using hh⟩)
        rw [e, loop, loop]
        rw [r2]
        have hlt : (step ps fn t s c rest).2.length < (c :: rest).length := by
          have := step_length ps fn t s c rest
          simp
          omega
        exact ih _ hlt _ rfl _ _ r1 r3

/-! Definitions that are the same are not reported. -/

theorem Rel.symm {s s' : CS} (h : Rel s s') : Rel s' s :=
  ⟨h.segs.symm, h.cur.symm, h.delim.symm, h.cc.symm, h.st.symm⟩

theorem Rel.trans {s s' s'' : CS} (h : Rel s s') (h' : Rel s' s'') : Rel s s'' :=
  ⟨h.segs.trans h'.segs, h.cur.trans h'.cur, h.delim.trans h'.delim, h.cc.trans h'.cc, h.st.trans h'.st⟩

theorem part_squash (f l : Bool) (x y : List Char) (h : squash isHor x = squash isHor y) : part f l x = part f l y := by
  have : squash isSp x = squash isSp y := by rw [← squash_squash x, h, squash_squash]
  simp only [part, this]

theorem segsNorm_squash (s : List (List Char × Pat)) (x y : List Char) (h : squash isHor x = squash isHor y) : ∀ f t,
    s.map (fun x => (squash isHor x.1, x.2)) = t.map (fun x => (squash isHor x.1, x.2)) →
    segsNorm f s x = segsNorm f t y := by
  induction s with
  | nil =>
    intro f t ht
    cases t with
    | nil => simp only [segsNorm, part_squash f true x y h]
    | cons q t => simp at ht
  | cons q s ih =>
    intro f t ht
    cases t with
    | nil => simp at ht
    | cons r t =>
      obtain ⟨a, p⟩ := q
      obtain ⟨b, q⟩ := r
      simp only [List.map_cons, List.cons.injEq, Prod.mk.injEq] at ht
      obtain ⟨⟨h1, rfl⟩, h2⟩ := ht
      simp only [segsNorm, part_squash f false a b h1, ih false t h2]

/-- the state at the end of `collect` -/
def final (ps : Params) (fn : Bool) (buf : List Char) : CS :=
  let body := (buf.reverse.dropWhile isSp).reverse
  let trail := ((buf.drop body.length).head?.map isHor).getD false
  let s : CS := { cur := [' ', '@'] }
  if startsPaste body then loop ps fn trail { s with error := true } (body.drop 2) else loop ps fn trail s body

theorem collect_final (ps : Params) (fn : Bool) (buf : List Char) :
    (collect ps fn buf).segs = (final ps fn buf).segs.reverse
    ∧ (collect ps fn buf).last = (final ps fn buf).cur.reverse ++ (if (final ps fn buf).delim = none then ['@', ' '] else []) :=
  ⟨rfl, rfl⟩

theorem final_rel (ps : Params) (fn : Bool) (a b : List Char) (h : SameText a b) : Rel (final ps fn a) (final ps fn b) := by
  have start : ∀ e e', Rel { cur := [' ', '@'], error := e } { cur := [' ', '@'], error := e' } :=
    fun _ _ => ⟨rfl, rfl, rfl, rfl, rfl⟩
  have good : GoodDelim none := by intro c h; simp at h
  have key : ∀ t t' e e' x y, norm none x = norm none y →
      Rel (loop ps fn t { cur := [' ', '@'], error := e } x) (loop ps fn t' { cur := [' ', '@'], error := e' } y) := by
    intro t t' e e' x y hxy
    have h1 := loop_rel ps fn t false x _ _ (start e false) good
    have h2 := loop_rel ps fn t' false y _ _ (start e' false) good
    simp only at h1 h2
    rw [hxy] at h1
    exact h1.trans h2.symm
  have hp : startsPaste (trimEnd a) = startsPaste (trimEnd b) := by
    rw [← norm_paste (trimEnd a), ← norm_paste (trimEnd b), show norm none (trimEnd a) = norm none (trimEnd b) from h]
  have hb : ∀ x : List Char, (x.reverse.dropWhile isSp).reverse = trimEnd x := fun _ => rfl
  simp only [final, hb, hp]
  split
  · rename_i hpb
    refine key _ _ _ _ _ _ ?_
    have hx : ∀ l, startsPaste l = true → l = '#' :: '#' :: l.drop 2 := by
      intro l hl
      rw [startsPaste.eq_def] at hl
      split at hl
      · rfl
      · simp at hl
    have e1 := hx _ (hp.trans hpb)
    have e2 := hx _ hpb
    have h3 : norm none (trimEnd a) = norm none (trimEnd b) := h
    rw [e1, e2, norm_hash, norm_hash, norm_hash, norm_hash] at h3
    exact (List.cons.inj (List.cons.inj h3).2).2
  · exact key _ _ _ _ _ _ h

/-- No message if the definitions are the same. -/
theorem C104_same (m1 m2 : Made) (h : SameDef m1 m2) : compareDefs m1 m2 = false := by
  obtain ⟨hp, hb⟩ := h
  rw [compareDefs, hp]
  simp only [ne_eq, not_true, if_false]
  rw [compSegs_iff]
  have hr := final_rel (m2.params.getD []) m2.params.isSome _ _ hb
  obtain ⟨a1, a2⟩ := collect_final (m2.params.getD []) m2.params.isSome m1.body
  obtain ⟨b1, b2⟩ := collect_final (m2.params.getD []) m2.params.isSome m2.body
  rw [a1, a2, b1, b2, hr.delim]
  refine segsNorm_squash _ _ _ ?_ _ _ ?_
  · refine squash_congr_right isHor hor_space _ _ _ ?_
    rw [squash_reverse, squash_reverse, hr.cur]
  · rw [List.map_reverse, List.map_reverse, hr.segs]

/-- `#define f(x) x  +  "a b"` and `#define f(x) x + "a b" ` -/
example : SameDef ⟨['f'], some [(['x'], false)], c!"x  +  \"a b\"", false⟩ ⟨['f'], some [(['x'], false)], c!"x + \"a b\" ", false⟩ := by
  refine ⟨rfl, ?_⟩
  unfold SameText
  decide +kernel

/-- A redefinition is reported exactly if the definitions differ. -/
def C104_full : Prop := ∀ m1 m2 : Made, NoComma m1 → NoComma m2 → (compareDefs m1 m2 = true ↔ ¬ SameDef m1 m2)

/-- `#define s "a b"` and `#define s "a  b"` -/
theorem C104_full_is_false : ¬ C104_full := by
  intro h
  have h1 := (h ⟨['s'], none, c!"\"a b\"", false⟩ ⟨['s'], none, c!"\"a  b\"", false⟩ (by simp [NoComma])
    (by simp [NoComma])).mpr (by
      rintro ⟨_, h⟩
      revert h
      unfold SameText
      decide +kernel)
  revert h1
  decide +kernel

/-- Nor is it reported that the last parameter takes all other arguments in one of the definitions only, or that there is
white space at an operator `##` in one of them only. -/
theorem C104_missed :
    compareDefs ⟨['f'], some [(['a'], false)], ['a'], false⟩ ⟨['f'], some [(['a'], true)], ['a'], false⟩ = false
    ∧ compareDefs ⟨['f'], some [(['a'], false)], c!"a ## b", false⟩ ⟨['f'], some [(['a'], false)], c!"a##b", false⟩ = false := by
  decide +kernel

/-! That the last parameter takes all other arguments does not matter. -/

def plainPs (ps : Params) : Params := ps.map fun p => (p.1, false)
def plainSegs (l : List (List Char × Pat)) : List (List Char × Pat) := l.map fun x => (x.1, { x.2 with rest := false })
def plainCS (s : CS) : CS := { s with segs := plainSegs s.segs }

theorem findParam_plain (ps : Params) (n : List Char) :
    findParam (plainPs ps) n = (findParam ps n).map fun x => (x.1, false) := by
  have h : (plainPs ps).findIdx? (fun p => p.1 = n) = ps.findIdx? (fun p => p.1 = n) := by
    rw [plainPs, List.findIdx?_map]
    rfl
  unfold findParam
  rw [h]
  cases hi : ps.findIdx? (fun p => p.1 = n) with
  | none => rfl
  | some i =>
    simp only [Option.map_some, plainPs, List.getD_eq_getElem?_getD, List.getElem?_map]
    cases ps[i]? <;> rfl

theorem onWord_plain_rd (ps : Params) (s : CS) (w a : List Char) :
    onWord (plainPs ps) (plainCS s) w a = plainCS (onWord ps s w a) := by
  unfold onWord
  rw [findParam_plain]
  have : (plainCS s).delim = s.delim := rfl
  rw [this]
  by_cases h : ((w.head?.map isStart).getD false && !(w = ['L'] && wide (w ++ a)) && s.delim = none) = true
  · simp only [h, if_true]
    cases findParam ps w with
    | none => rfl
    | some q => rfl
  · simp only [h]
    rfl

theorem step_plain_rd (ps : Params) (fn t : Bool) (s : CS) (c : Char) (r : List Char) :
    step (plainPs ps) fn t (plainCS s) c r = (plainCS (step ps fn t s c r).1, (step ps fn t s c r).2) := by
  have he : (plainPs ps).isEmpty = ps.isEmpty := by cases ps <;> rfl
  have hd : (plainCS s).delim = s.delim := rfl
  unfold step
  rw [he, hd, onWord_plain_rd]
  split
  · unfold onHash
    split
    · rfl
    · split
      · simp only; split <;> rfl
      · rfl
  · split
    · rfl
    · unfold onChar
      rw [hd]
      split
      · rfl
      · split
        · cases r <;> rfl
        · split <;> rfl

theorem loop_plain_rd (ps : Params) (fn t : Bool) (n : Nat) : ∀ b : List Char, b.length ≤ n → ∀ s,
    loop (plainPs ps) fn t (plainCS s) b = plainCS (loop ps fn t s b) := by
  induction n with
  | zero =>
    intro b hb s
    have : b = [] := List.length_eq_zero_iff.mp (by omega)
    subst this
    simp [loop]
  | succ n ih =>
    intro b hb s
    cases b with
    | nil => simp [loop]
    | cons c r =>
      have hl := step_length ps fn t s c r
      simp only [List.length_cons] at hb
      rw [loop, loop, step_plain_rd]
      exact ih (step ps fn t s c r).2 (by omega) _

theorem final_plain_rd (ps : Params) (fn : Bool) (b : List Char) : final (plainPs ps) fn b = plainCS (final ps fn b) := by
  unfold final
  simp only
  split
  · exact loop_plain_rd ps fn _ _ _ (Nat.le_refl _) { cur := [' ', '@'], error := true }
  · exact loop_plain_rd ps fn _ _ _ (Nat.le_refl _) { cur := [' ', '@'] }

theorem segsNorm_plain (s : List (List Char × Pat)) (x : List Char) : ∀ f, segsNorm f (plainSegs s) x = segsNorm f s x := by
  induction s with
  | nil => intro f; rfl
  | cons q s ih =>
    intro f
    have := ih false
    rw [plainSegs] at this
    rw [plainSegs, List.map_cons, segsNorm, segsNorm, this]

def plainMade (m : Made) : Made := { m with params := m.params.map plainPs }

theorem names_plain (ps : Params) : (plainPs ps).map Prod.fst = ps.map Prod.fst := by
  simp [plainPs]

/-- as they are compared -/
def shape (m : Made) : List (List Char × Pat) × List Char :=
  segsNorm true (collect (m.params.getD []) m.params.isSome m.body).segs (collect (m.params.getD []) m.params.isSome m.body).last

theorem shape_plain (m : Made) : shape (plainMade m) = shape m := by
  have h1 : (m.params.map plainPs).getD [] = plainPs (m.params.getD []) := by cases m.params <;> rfl
  have h2 : (m.params.map plainPs).isSome = m.params.isSome := by cases m.params <;> rfl
  obtain ⟨a1, a2⟩ := collect_final (m.params.getD []) m.params.isSome m.body
  obtain ⟨b1, b2⟩ := collect_final (plainPs (m.params.getD [])) m.params.isSome m.body
  simp only [shape, plainMade, h1, h2, a1, a2, b1, b2, final_plain_rd]
  show segsNorm true (plainSegs _).reverse _ = _
  rw [← segsNorm_plain, plainSegs, plainSegs, ← List.map_reverse]
  rw [List.map_map]
  rw [← segsNorm_plain (final (m.params.getD []) m.params.isSome m.body).segs.reverse]
  rfl

theorem compareDefs_iff (m1 m2 : Made) : compareDefs m1 m2 = false
    ↔ m1.params.map List.length = m2.params.map List.length ∧ argNames m1.params = argNames m2.params ∧ shape m1 = shape m2 := by
  rw [compareDefs]
  by_cases h1 : m1.params.map List.length = m2.params.map List.length
  · by_cases h2 : argNames m1.params = argNames m2.params
    · simp only [h1, h2, ne_eq, not_true, if_false, true_and]
      exact compSegs_iff _ _ _ _ _
    · simp [h1, h2]
  · simp [h1]

theorem cut_at (d : Char) (a a' b b' : List Char) (h : d ∉ a) (h' : d ∉ a') (he : a ++ d :: b = a' ++ d :: b') :
    a = a' ∧ b = b' := by
  induction a generalizing a' with
  | nil =>
    cases a' with
    | nil => simpa using he
    | cons c a' =>
      simp only [List.nil_append, List.cons_append, List.cons.injEq] at he
      exact absurd (he.1 ▸ List.mem_cons_self) h'
  | cons c a ih =>
    cases a' with
    | nil =>
      simp only [List.nil_append, List.cons_append, List.cons.injEq] at he
      exact absurd (he.1 ▸ List.mem_cons_self) h
    | cons c' a' =>
      simp only [List.cons_append, List.cons.injEq] at he
      obtain ⟨h1, h2⟩ := ih a' (fun h3 => h (List.mem_cons_of_mem _ h3)) (fun h3 => h' (List.mem_cons_of_mem _ h3)) he.2
      exact ⟨by rw [he.1, h1], h2⟩

theorem joinNames_inj (a : List (List Char)) : ∀ b, a.length = b.length → (∀ n ∈ a, ',' ∉ n) → (∀ n ∈ b, ',' ∉ n) →
    joinNames a = joinNames b → a = b := by
  induction a with
  | nil =>
    intro b hl _ _ _
    exact (List.length_eq_zero_iff.mp hl.symm).symm
  | cons n a ih =>
    intro b hl ha hb he
    cases b with
    | nil => simp at hl
    | cons m b =>
      cases a with
      | nil =>
        cases b with
        | nil => simpa [joinNames] using he
        | cons k b => simp at hl
      | cons k a =>
        cases b with
        | nil => simp at hl
        | cons k' b =>
          rw [joinNames.eq_def, joinNames.eq_def (m :: k' :: b)] at he
          simp only at he
          obtain ⟨h1, h2⟩ := cut_at ',' _ _ _ _ (ha _ List.mem_cons_self) (hb _ List.mem_cons_self) he
          have h3 := ih (k' :: b) (by simpa using hl) (fun n hn => ha _ (List.mem_cons_of_mem _ hn))
            (fun n hn => hb _ (List.mem_cons_of_mem _ hn)) (List.cons.inj h2).2
          rw [h1, h3]

/-- the names of the parameters are the same, and either both or neither of the macros have parameters -/
def SameNames (m1 m2 : Made) : Prop := m1.params.map (List.map Prod.fst) = m2.params.map (List.map Prod.fst)

theorem argNames_iff (m1 m2 : Made) (h1 : NoComma m1) (h2 : NoComma m2) :
    m1.params.map List.length = m2.params.map List.length ∧ argNames m1.params = argNames m2.params ↔ SameNames m1 m2 := by
  unfold SameNames argNames
  unfold NoComma at h1 h2
  cases e1 : m1.params with
  | none =>
    cases e2 : m2.params with
    | none => simp
    | some ps' => simp
  | some ps =>
    cases e2 : m2.params with
    | none => simp
    | some ps' =>
      rw [e1] at h1
      rw [e2] at h2
      simp only [Option.map_some, Option.some.injEq, Option.getD_some] at h1 h2 ⊢
      constructor
      · rintro ⟨hl, he⟩
        have := joinNames_inj _ _ (by simpa using hl) (by
          intro n hn
          simp only [List.mem_map, List.mem_reverse] at hn
          obtain ⟨p, hp, rfl⟩ := hn
          exact h1 p hp) (by
          intro n hn
          simp only [List.mem_map, List.mem_reverse] at hn
          obtain ⟨p, hp, rfl⟩ := hn
          exact h2 p hp) he
        simpa [List.map_reverse] using this
      · intro he
        refine ⟨by simpa using congrArg List.length he, ?_⟩
        rw [List.map_reverse, List.map_reverse, he]

/-- No message depends on whether the last parameter takes all other arguments. -/
theorem C104_rest (m1 m2 : Made) : compareDefs m1 m2 = compareDefs (plainMade m1) (plainMade m2) := by
  have hl : ∀ m, (plainMade m).params.map List.length = m.params.map List.length := by
    intro m
    cases h : m.params <;> simp [plainMade, h, plainPs]
  have hn : ∀ m, argNames (plainMade m).params = argNames m.params := by
    intro m
    cases h : m.params with
    | none => simp [plainMade, h]
    | some ps =>
      simp only [plainMade, h, Option.map_some, argNames, Option.getD_some]
      rw [List.map_reverse, List.map_reverse, names_plain]
  have : compareDefs m1 m2 = false ↔ compareDefs (plainMade m1) (plainMade m2) = false := by
    rw [compareDefs_iff, compareDefs_iff, hl, hl, hn, hn, shape_plain, shape_plain]
  cases h1 : compareDefs m1 m2 <;> cases h2 : compareDefs (plainMade m1) (plainMade m2) <;> simp_all

/-! The text can be recovered from the pieces if it has no operators and literals. -/

def dbl (l : List Char) : List Char := l.flatMap fun c => if c = '@' then ['@', '@'] else [c]

theorem dbl_cons (c : Char) (l : List Char) : dbl (c :: l) = (if c = '@' then ['@', '@'] else [c]) ++ dbl l := rfl

theorem dbl_append (a b : List Char) : dbl (a ++ b) = dbl a ++ dbl b := by simp [dbl]

theorem dbl_inj (a : List Char) : ∀ b, dbl a = dbl b → a = b := by
  induction a with
  | nil =>
    intro b h
    cases b with
    | nil => rfl
    | cons c b => rw [dbl_cons] at h; exfalso; revert h; split <;> simp [dbl]
  | cons c a ih =>
    intro b h
    cases b with
    | nil => rw [dbl_cons] at h; exfalso; revert h; split <;> simp [dbl]
    | cons d b =>
      rw [dbl_cons, dbl_cons] at h
      by_cases hc : c = '@'
      · by_cases hd : d = '@'
        · simp only [if_pos hc, if_pos hd, List.cons_append, List.nil_append, List.cons.injEq, true_and] at h
          rw [hc, hd, ih b h]
        · simp only [if_pos hc, if_neg hd, List.cons_append, List.nil_append, List.cons.injEq] at h
          exact absurd h.1.symm hd
      · by_cases hd : d = '@'
        · simp only [if_neg hc, if_pos hd, List.cons_append, List.nil_append, List.cons.injEq] at h
          exact absurd h.1 hc
        · simp only [if_neg hc, if_neg hd, List.cons_append, List.nil_append, List.cons.injEq] at h
          rw [h.1, ih b h.2]

theorem dbl_head (l : List Char) : (dbl l).head? = l.head? := by
  cases l with
  | nil => rfl
  | cons c l => rw [dbl_cons]; split <;> simp_all

theorem squash_dbl (l : List Char) : squash isSp (dbl l) = dbl (squash isSp l) := by
  induction l with
  | nil => rfl
  | cons c l ih =>
    by_cases hc : c = '@'
    · have h1 : isSp '@' = false := by decide
      rw [dbl_cons, if_pos hc, hc, squash_char isSp '@' l h1, dbl_cons, if_pos rfl]
      simp only [List.cons_append, List.nil_append]
      rw [squash_char isSp '@' _ h1, squash_char isSp '@' _ h1, ih]
    · rw [dbl_cons, if_neg hc, List.cons_append, List.nil_append, squash, squash, dbl_head, ih]
      split
      · split
        · rfl
        · rw [dbl_cons, if_neg (by decide)]; rfl
      · rw [dbl_cons, if_neg hc]; rfl

/-- neither operators nor literals nor newlines -/
def PlainText (b : List Char) : Prop := ∀ c ∈ b, c ≠ '#' ∧ quoteChar c = false ∧ c ≠ '\n'

theorem norm_plain (b : List Char) (h : PlainText b) : norm none b = squash isSp b := by
  induction b with
  | nil => simp [norm, squash]
  | cons c b ih =>
    have hb : PlainText b := fun d hd => h d (List.mem_cons_of_mem _ hd)
    have hsp : ∀ d, d ≠ '\n' → isSp d = isHor d := by intro d hd; simp [isSp, hd]
    obtain ⟨h1, h2, h3⟩ := h c List.mem_cons_self
    have hh : (b.head?.map isSp).getD false = (b.head?.map isHor).getD false := by
      cases b with
      | nil => rfl
      | cons d b => simp [hsp d (hb d List.mem_cons_self).2.2]
    rw [squash, hsp c h3, hh, norm, h2, ih hb]
    simp [ih hb]

/-- the name of a parameter -/
def pname (ps : Params) (i : Nat) : List Char := (ps.getD i ([], false)).1

def spellSegs (ps : Params) (l : List (List Char × Pat)) : List Char := l.flatMap fun x => x.1 ++ pname ps x.2.arg

def spellCS (ps : Params) (s : CS) : List Char := spellSegs ps s.segs.reverse ++ s.cur.reverse

def IdName (n : List Char) : Prop := n ≠ [] ∧ ∀ c ∈ n, isId c = true

theorem spell_emit (ps : Params) (s : CS) (x : List Char) : spellCS ps (s.emit x) = spellCS ps s ++ x := by
  simp [spellCS, CS.emit]

theorem findParam_name (ps : Params) (n : List Char) (i : Nat) (r : Bool) (h : findParam ps n = some (i, r)) : pname ps i = n := by
  unfold findParam at h
  cases hi : ps.findIdx? (fun p => p.1 = n) with
  | none => rw [hi] at h; simp at h
  | some j =>
    rw [hi] at h
    simp only [Option.some.injEq, Prod.mk.injEq] at h
    obtain ⟨rfl, _⟩ := h
    rw [List.findIdx?_eq_some_iff_getElem] at hi
    obtain ⟨hl, h2, _⟩ := hi
    rw [pname, List.getD_eq_getElem?_getD, List.getElem?_eq_getElem hl]
    simpa using h2

theorem dbl_id (w : List Char) (h : ∀ c ∈ w, isId c = true) : dbl w = w := by
  induction w with
  | nil => rfl
  | cons c w ih =>
    have hc : c ≠ '@' := by
      rintro rfl
      have := h _ List.mem_cons_self
      revert this
      decide
    rw [dbl_cons, if_neg hc, ih fun d hd => h d (List.mem_cons_of_mem _ hd)]
    rfl

theorem loop_spell_rd (ps : Params) (fn t : Bool) (n : Nat) : ∀ b : List Char, b.length ≤ n → PlainText b → ∀ s : CS,
    s.delim = none → (∀ x ∈ s.segs, IdName (pname ps x.2.arg)) →
    (loop ps fn t s b).delim = none ∧ (∀ x ∈ (loop ps fn t s b).segs, IdName (pname ps x.2.arg))
    ∧ spellCS ps (loop ps fn t s b) = spellCS ps s ++ dbl b := by
  induction n with
  | zero =>
    intro b hb _ s hs hn
    have : b = [] := List.length_eq_zero_iff.mp (by omega)
    subst this
    simp [loop, hs, dbl]
    exact fun a b h => hn (a, b) h
  | succ n ih =>
    intro b hb hp s hs hn
    cases b with
    | nil =>
      simp [loop, hs, dbl]
      exact fun a b h => hn (a, b) h
    | cons c r =>
      obtain ⟨h1, h2, h3⟩ := hp c List.mem_cons_self
      have hr : PlainText r := fun d hd => hp d (List.mem_cons_of_mem _ hd)
      simp only [List.length_cons] at hb
      rw [loop, step, if_neg (by simp [h1])]
      by_cases hw : (isId c && !ps.isEmpty) = true
      · rw [if_pos hw]
        simp only
        have hc : isId c = true := by simp at hw; exact hw.1
        have hwd : ∀ d ∈ c :: r.takeWhile isId, isId d = true := by
          intro d hd
          rcases List.mem_cons.mp hd with rfl | hd
          · exact hc
          · exact (List.all_eq_true.mp (List.all_takeWhile (p := isId) (l := r))) d hd
        have hlen := length_dropWhile_le isId r
        have hdr : PlainText (r.dropWhile isId) := fun d hd => hr d ((List.dropWhile_sublist isId).subset hd)
        have hsplit : dbl (c :: r) = (c :: r.takeWhile isId) ++ dbl (r.dropWhile isId) := by
          conv_lhs => rw [← List.takeWhile_append_dropWhile (p := isId) (l := r)]
          rw [← List.cons_append, dbl_append, dbl_id _ hwd]
        rw [hsplit, ← List.append_assoc]
        generalize hu : c :: r.takeWhile isId = w at *
        have key : (onWord ps s w (r.dropWhile isId)).delim = none
            ∧ (∀ x ∈ (onWord ps s w (r.dropWhile isId)).segs, IdName (pname ps x.2.arg))
            ∧ spellCS ps (onWord ps s w (r.dropWhile isId)) = spellCS ps s ++ w := by
          unfold onWord
          simp only
          split
          · rename_i i q hf
            have hf' : findParam ps w = some (i, q) := by
              split at hf
              · exact hf
              · simp at hf
            have hnm := findParam_name _ _ _ _ hf'
            refine ⟨hs, ?_, ?_⟩
            · intro x hx
              rcases List.mem_cons.mp hx with rfl | hx
              · simp only [hnm]
                exact ⟨by rw [← hu]; simp, hwd⟩
              · exact hn x hx
            · simp [spellCS, spellSegs, hnm]
          · refine ⟨hs, hn, ?_⟩
            exact spell_emit ps s w
        obtain ⟨k1, k2, k3⟩ := key
        have := ih _ (by omega) hdr _ k1 k2
        rw [k3] at this
        exact this
      · rw [if_neg hw]
        have hq : (decide (c = '\'') || decide (c = '"')) = false := h2
        have key : ∃ x, onChar s c r = (s.emit x, r) ∧ dbl (c :: r) = x ++ dbl r := by
          unfold onChar
          rw [hq]
          simp only [hs, Option.isSome_none, Bool.and_false, Option.isNone_none, Bool.and_true, Bool.false_eq_true, if_false,
            decide_eq_true_eq]
          rw [dbl_cons]
          by_cases hc : c = '@'
          · rw [if_pos hc, if_pos hc]; exact ⟨_, rfl, rfl⟩
          · rw [if_neg hc, if_neg hc]; exact ⟨_, rfl, rfl⟩
        obtain ⟨x, k1, k2⟩ := key
        rw [k1, k2, ← List.append_assoc]
        have := ih r (by omega) hr (s.emit x) hs hn
        rw [spell_emit] at this
        exact this

theorem id_sp {c : Char} (h : isId c = true) : isSp c = false := by
  have h1 := (id_plain h).1
  have h2 : c ≠ '\n' := by rintro rfl; revert h; decide
  simp [isSp, h1, h2]

theorem squash_app_char (x r : List Char) (c : Char) (hc : isSp c = false) :
    squash isSp (x ++ c :: r) = squash isSp x ++ c :: squash isSp r := by
  induction x with
  | nil => exact squash_char isSp c r hc
  | cons d x ih =>
    rw [List.cons_append, squash, squash, ih]
    cases x with
    | nil => simp [hc]; split <;> simp
    | cons e x =>
      simp only [List.cons_append, List.head?_cons]
      by_cases hd : isSp d = true
      · by_cases he : isSp e = true
        · simp [hd, he]
        · simp [hd, he]
      · simp [hd]

theorem squash_id (n r : List Char) (hn : ∀ c ∈ n, isId c = true) : squash isSp (n ++ r) = n ++ squash isSp r := by
  induction n with
  | nil => rfl
  | cons c n ih =>
    rw [List.cons_append, squash_char isSp c _ (id_sp (hn c List.mem_cons_self)), ih fun d hd => hn d (List.mem_cons_of_mem _ hd)]
    rfl

theorem squash_app_id (x n r : List Char) (hn : IdName n) : squash isSp (x ++ (n ++ r)) = squash isSp x ++ (n ++ squash isSp r) := by
  obtain ⟨h1, h2⟩ := hn
  cases n with
  | nil => exact absurd rfl h1
  | cons c n =>
    rw [List.cons_append, squash_app_char x _ c (id_sp (h2 c List.mem_cons_self)),
      squash_id n r fun d hd => h2 d (List.mem_cons_of_mem _ hd)]
    rfl

/-- the spelling of the parts as they are compared -/
def flat (ps : Params) (x : List (List Char × Pat) × List Char) : List Char := spellSegs ps x.1 ++ (x.2 ++ [' '])

def StartsAt (x : List Char) : Prop := ∃ y, x = '@' :: y

theorem part_start (x : List Char) (f : Bool) (h : f = true → StartsAt x) : part f false x = squash isSp x := by
  cases f with
  | false => rfl
  | true =>
    obtain ⟨y, rfl⟩ := h rfl
    simp only [part]
    rw [squash_char isSp '@' y (by decide)]
    simp [show isSp '@' = false by decide]

theorem part_last (x : List Char) (f : Bool) (h : f = true → StartsAt x) (he : ∃ y, x = y ++ ['@', ' ']) :
    part f true x ++ [' '] = squash isSp x := by
  have h1 : part f true x = (((part f false x).reverse).dropWhile isSp).reverse := rfl
  rw [h1, part_start x f h]
  obtain ⟨y, rfl⟩ := he
  have h2 : squash isSp (y ++ ['@', ' ']) = squash isSp y ++ ['@', ' '] := by
    rw [squash_app_char y [' '] '@' (by decide)]
    rfl
  rw [h2]
  simp [show isSp '@' = false by decide, show isSp ' ' = true by decide]

theorem flat_segs (ps : Params) (l : List (List Char × Pat)) (x : List Char) (he : ∃ y, x = y ++ ['@', ' ']) : ∀ f,
    (∀ q ∈ l, IdName (pname ps q.2.arg)) → (f = true → StartsAt (spellSegs ps l ++ x)) →
    flat ps (segsNorm f l x) = squash isSp (spellSegs ps l ++ x) := by
  induction l with
  | nil =>
    intro f _ hf
    exact part_last x f hf he
  | cons q l ih =>
    intro f hn hf
    obtain ⟨a, p⟩ := q
    have hq : IdName (pname ps p.arg) := hn _ List.mem_cons_self
    have e1 : spellSegs ps ((a, p) :: l) ++ x = a ++ (pname ps p.arg ++ (spellSegs ps l ++ x)) := by
      simp [spellSegs]
    have ha : f = true → StartsAt a := by
      intro h
      have := hf h
      rw [e1] at this
      obtain ⟨y, hy⟩ := this
      cases a with
      | cons c a =>
        rw [List.cons_append, List.cons.injEq] at hy
        exact ⟨a, by rw [hy.1]⟩
      | nil =>
        obtain ⟨h1, h2⟩ := hq
        cases hp : pname ps p.arg with
        | nil => exact absurd hp h1
        | cons c n =>
          rw [hp] at h2 hy
          simp only [List.nil_append, List.cons_append, List.cons.injEq] at hy
          have := h2 c List.mem_cons_self
          rw [hy.1] at this
          exact absurd this (by decide)
    rw [e1, squash_app_id a _ _ hq, ← ih false (fun q hq => hn q (List.mem_cons_of_mem _ hq)) (by simp)]
    simp only [segsNorm, flat, spellSegs, List.flatMap_cons, part_start a f ha]
    simp

/-- Text without operators and literals, as it is in a definition: without white space at the beginning. -/
def PlainDef (m : Made) : Prop := PlainText m.body ∧ ∀ c, m.body.head? = some c → isSp c = false

theorem shape_flat (m : Made) (hm : PlainDef m) :
    flat (m.params.getD []) (shape m) = '@' :: ' ' :: (dbl (squash isSp (trimEnd m.body)) ++ ['@', ' ']) := by
  obtain ⟨hp, hh⟩ := hm
  obtain ⟨w, hw⟩ : ∃ w, m.body = trimEnd m.body ++ w := by
    obtain ⟨w, hw⟩ := List.dropWhile_suffix (l := m.body.reverse) isSp
    refine ⟨w.reverse, ?_⟩
    have := congrArg List.reverse hw
    rw [List.reverse_append, List.reverse_reverse] at this
    exact this.symm
  have hb : PlainText (trimEnd m.body) := fun c hc => hp c (by rw [hw]; exact List.mem_append_left _ hc)
  have hnp : startsPaste (trimEnd m.body) = false := by
    cases h : startsPaste (trimEnd m.body) with
    | false => rfl
    | true =>
      rw [startsPaste.eq_def] at h
      split at h
      · rename_i e
        exact absurd rfl (hb '#' (by rw [e]; exact List.mem_cons_self)).1
      · simp at h
  obtain ⟨a1, a2⟩ := collect_final (m.params.getD []) m.params.isSome m.body
  have hf : final (m.params.getD []) m.params.isSome m.body = loop (m.params.getD []) m.params.isSome
      (((m.body.drop (trimEnd m.body).length).head?.map isHor).getD false) { cur := [' ', '@'] } (trimEnd m.body) := by
    have hbb : (m.body.reverse.dropWhile isSp).reverse = trimEnd m.body := rfl
    simp only [final, hbb, hnp]
    rfl
  obtain ⟨k1, k2, k3⟩ := loop_spell_rd (m.params.getD []) m.params.isSome
    (((m.body.drop (trimEnd m.body).length).head?.map isHor).getD false) _ (trimEnd m.body) (Nat.le_refl _) hb
    { cur := [' ', '@'] } rfl (by simp)
  rw [← hf] at k1 k2 k3
  have k4 : spellSegs (m.params.getD []) (collect (m.params.getD []) m.params.isSome m.body).segs
      ++ (collect (m.params.getD []) m.params.isSome m.body).last = '@' :: ' ' :: (dbl (trimEnd m.body) ++ ['@', ' ']) := by
    rw [a1, a2, if_pos k1, ← List.append_assoc]
    rw [show spellSegs (m.params.getD []) (final (m.params.getD []) m.params.isSome m.body).segs.reverse
      ++ (final (m.params.getD []) m.params.isSome m.body).cur.reverse
      = spellCS (m.params.getD []) (final (m.params.getD []) m.params.isSome m.body) from rfl, k3]
    simp [spellCS, spellSegs]
  rw [shape, flat_segs, k4]
  · rw [squash_char isSp '@' _ (by decide), squash]
    have hd : ((dbl (trimEnd m.body) ++ ['@', ' ']).head?.map isSp).getD false = false := by
      rw [List.head?_append, dbl_head]
      cases ht : trimEnd m.body with
      | nil => decide
      | cons c l =>
        rw [ht] at hw
        simp [hh c (by rw [hw]; rfl)]
    rw [hd, squash_app_char _ _ '@' (by decide), squash_dbl]
    rfl
  · rw [a2, if_pos k1]
    exact ⟨_, rfl⟩
  · intro q hq
    rw [a1, List.mem_reverse] at hq
    exact k2 q hq
  · intro _
    rw [k4]
    exact ⟨_, rfl⟩

theorem flat_names (m1 m2 : Made) (h : SameNames m1 m2) (x : List (List Char × Pat) × List Char) :
    flat (m1.params.getD []) x = flat (m2.params.getD []) x := by
  have hn : (m1.params.getD []).map Prod.fst = (m2.params.getD []).map Prod.fst := by
    unfold SameNames at h
    cases h1 : m1.params <;> cases h2 : m2.params <;> simp_all
  have key : ∀ (ps : Params) i, pname ps i = ((ps.map Prod.fst)[i]?).getD [] := by
    intro ps i
    rw [pname, List.getD_eq_getElem?_getD, List.getElem?_map]
    cases ps[i]? <;> rfl
  have : pname (m1.params.getD []) = pname (m2.params.getD []) := by
    funext i
    rw [key, key, hn]
  simp only [flat, spellSegs, this]

/-- For text without operators and literals there is a message exactly if the names of the parameters or the texts differ. -/
theorem C104_exactly (m1 m2 : Made) (h1 : NoComma m1) (h2 : NoComma m2) (p1 : PlainDef m1) (p2 : PlainDef m2) :
    compareDefs m1 m2 = false ↔ SameNames m1 m2 ∧ SameText m1.body m2.body := by
  have htr : ∀ m, PlainDef m → PlainText (trimEnd m.body) := by
    intro m hm c hc
    refine hm.1 c ?_
    unfold trimEnd at hc
    rw [List.mem_reverse] at hc
    exact List.mem_reverse.mp ((List.dropWhile_sublist isSp).subset hc)
  constructor
  · intro h
    rw [compareDefs_iff, ← and_assoc, argNames_iff m1 m2 h1 h2] at h
    obtain ⟨hn, hs⟩ := h
    refine ⟨hn, ?_⟩
    have e1 := shape_flat m1 p1
    have e2 := shape_flat m2 p2
    rw [hs, flat_names m1 m2 hn, e2] at e1
    have e3 := List.append_cancel_right (List.cons.inj (List.cons.inj e1).2).2
    have e4 := dbl_inj _ _ e3
    unfold SameText
    rw [norm_plain _ (htr m1 p1), norm_plain _ (htr m2 p2), e4]
  · rintro ⟨hn, ht⟩
    rw [C104_rest]
    refine C104_same _ _ ⟨?_, ht⟩
    have key : ∀ ps : Params, plainPs ps = (ps.map Prod.fst).map fun n => (n, false) := by
      intro ps
      simp [plainPs]
    unfold SameNames at hn
    simp only [plainMade]
    cases e1 : m1.params with
    | none => cases e2 : m2.params <;> simp_all
    | some ps =>
      cases e2 : m2.params with
      | none => simp_all
      | some ps' =>
        rw [e1, e2] at hn
        rw [Option.map_some, Option.map_some, key ps, key ps', Option.some.inj hn]

/-- no parameter takes all other arguments -/
def NoRest (m : Made) : Prop := ∀ p ∈ m.params.getD [], p.2 = false

/-- What holds of `C104_full`: missing are text with literals or with the operators `#` and `##`, and lists of parameters with
`...`. -/
theorem C104_partial (m1 m2 : Made) (h1 : NoComma m1) (h2 : NoComma m2) (p1 : PlainDef m1) (p2 : PlainDef m2)
    (r1 : NoRest m1) (r2 : NoRest m2) : compareDefs m1 m2 = true ↔ ¬ SameDef m1 m2 := by
  have key : ∀ ps : Params, (∀ p ∈ ps, p.2 = false) → ps = (ps.map Prod.fst).map fun n => (n, false) := by
    intro ps h
    rw [List.map_map]
    conv_lhs => rw [← List.map_id ps]
    refine List.map_congr_left ?_
    intro p hp
    exact Prod.ext rfl (h p hp)
  have hn : SameNames m1 m2 ↔ m1.params = m2.params := by
    constructor
    · intro hn
      unfold SameNames at hn
      unfold NoRest at r1 r2
      cases e1 : m1.params with
      | none =>
        rw [e1] at hn
        cases e2 : m2.params with
        | none => rfl
        | some ps' => rw [e2] at hn; simp at hn
      | some ps =>
        cases e2 : m2.params with
        | none => rw [e1, e2] at hn; simp at hn
        | some ps' =>
          rw [e1] at r1 hn
          rw [e2] at r2 hn
          rw [key ps r1, key ps' r2, Option.some.inj hn]
    · intro h
      unfold SameNames
      rw [h]
  rw [SameDef, ← hn, ← C104_exactly m1 m2 h1 h2 p1 p2, Bool.not_eq_false]

/-- `#define f(x,y) x + y @` -/
def plainExample : Made := ⟨['f'], some [(['x'], false), (['y'], false)], c!"x + y @", false⟩

example : NoComma plainExample ∧ PlainDef plainExample ∧ NoRest plainExample := by
  refine ⟨by unfold NoComma; decide, ⟨by unfold PlainText; decide, ?_⟩, by unfold NoRest; decide⟩
  intro c hc
  have : c = 'x' := by simpa [plainExample] using hc.symm
  subst this
  decide

example : compareDefs plainExample { plainExample with body := c!"x +  y   @ " } = false
    ∧ compareDefs plainExample { plainExample with body := c!"x +y @" } = true := by
  decide +kernel

/-- What a macro was before decides about the message: none if the name is a key, or if the macro was not to be expanded; none for
a constant as long as the options are read; always one for a name like `__LINE__`; else the two definitions decide. -/
theorem C104_redefined (started : Bool) (old : Old) (m : Made) : redefined started old m = true
    ↔ old = .other ∨ (old = .const ∧ started = true) ∨ (∃ o, old = .macro' o false ∧ compareDefs m o = true) := by
  cases old with
  | key => simp [redefined]
  | macro' o n => cases n <;> simp [redefined]
  | const => simp [redefined]
  | other => simp [redefined]

end Splint.CppMacro
