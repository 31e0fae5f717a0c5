import Verif.Spec.CppDefine
/-!
C103: which definitions of macros are accepted, and what they define.
-/
namespace Splint.CppMacro
open Spec

theorem dropWhile_blank (w l : List Char) (h : Blank w) : (w ++ l).dropWhile isHor = l.dropWhile isHor := by
  induction w with
  | nil => rfl
  | cons c w ih =>
    rw [List.cons_append, List.dropWhile_cons, if_pos (h c (by simp))]
    exact ih fun d hd => h d (List.mem_cons_of_mem _ hd)

theorem drop_head (l : List Char) (h : ∀ c, l.head? = some c → isHor c = false) : l.dropWhile isHor = l := by
  cases l with
  | nil => rfl
  | cons c l => rw [List.dropWhile_cons, if_neg (by simp [h c rfl])]

theorem split_blank (l : List Char) : ∃ w, Blank w ∧ l = w ++ l.dropWhile isHor := by
  refine ⟨l.takeWhile isHor, ?_, (List.takeWhile_append_dropWhile).symm⟩
  intro c hc
  induction l with
  | nil => simp at hc
  | cons d l ih =>
    rw [List.takeWhile_cons] at hc
    split at hc
    · rcases List.mem_cons.mp hc with rfl | hc
      · assumption
      · exact ih hc
    · simp at hc

theorem start_id {c : Char} (h : isStart c = true) : isId c = true := by simp [isId, h]

theorem id_not_hor {c : Char} (h : isId c = true) : isHor c = false := by
  by_contra hh
  simp only [Bool.not_eq_false, isHor, Bool.or_eq_true, decide_eq_true_eq] at hh
  rcases hh with (((rfl | rfl) | rfl) | rfl) | rfl <;> revert h <;> decide

theorem dots_cons (c : Char) (l : List Char) (h : c ≠ '.') : dots (c :: l) = false := by
  simp [dots, List.isPrefixOf]
  intro _ h2
  exact absurd h2.symm h

theorem id_not_dot {c : Char} (h : isId c = true) : c ≠ '.' := by
  rintro rfl
  revert h
  decide

/-- a name up to a character that is not part of it -/
theorem argName_name (n r : List Char) (hn : ∀ c ∈ n, isId c = true)
    (hr : ∀ c, r.head? = some c → isId c = false) (hd : dots r = false) :
    argName (n ++ r) = (n, false, r) := by
  induction n with
  | nil =>
    cases r with
    | nil => rfl
    | cons c r => rw [List.nil_append, argName, if_neg (by simp [hr c rfl])]
  | cons c n ih =>
    have h2 : dots (n ++ r) = false := by
      cases n with
      | nil => exact hd
      | cons d n => exact dots_cons _ _ (id_not_dot (hn d (by simp)))
    rw [List.cons_append, argName, if_pos (hn c (by simp)), if_neg (by simp [h2]),
      ih fun d hd => hn d (List.mem_cons_of_mem _ hd)]

theorem argName_rest (n r : List Char) (hn : ∀ c ∈ n, isId c = true) (h0 : n ≠ [])
    (hd : dots r = true) : argName (n ++ r) = (n, true, r) := by
  induction n with
  | nil => exact absurd rfl h0
  | cons c n ih =>
    rw [List.cons_append, argName, if_pos (hn c (by simp))]
    cases n with
    | nil => rw [List.nil_append, if_pos hd]
    | cons d n =>
      rw [if_neg (by simp [dots_cons _ _ (id_not_dot (hn d (by simp)))]),
        ih (fun e he => hn e (List.mem_cons_of_mem _ he)) (by simp)]

theorem dots_append (l : List Char) (h : l ≠ []) : dots (['.', '.', '.'] ++ l) = true := by
  cases l with
  | nil => exact absurd rfl h
  | cons c l => simp [dots, List.isPrefixOf]

/-- a parameter is read -/
theorem oneParam_param (t r : List Char) (p : List Char × Bool) (h : Param t p)
    (hr : ∃ c m, r = c :: m ∧ isId c = false ∧ c ≠ '.') :
    oneParam false (t ++ r) = (p, if p.2 then ['.', '.', '.'] ++ r else r, false) := by
  obtain ⟨d, m, rfl, hd, hdot⟩ := hr
  cases h with
  | @name n hn =>
    obtain ⟨⟨c, n', rfl, hc⟩, hn⟩ := hn
    have h1 : dots (c :: n' ++ d :: m) = false := dots_cons _ _ (id_not_dot (start_id hc))
    rw [oneParam, if_neg (by simp only [h1]; simp), argName_name (c :: n') (d :: m) hn (by simpa using hd)
      (dots_cons _ _ hdot)]
    simp [hc]
  | @rest n hn =>
    obtain ⟨⟨c, n', rfl, hc⟩, hn⟩ := hn
    have h1 : dots (c :: n' ++ ['.', '.', '.'] ++ d :: m) = false := dots_cons _ _ (id_not_dot (start_id hc))
    rw [oneParam, if_neg (by simp only [h1]; simp), List.append_assoc, argName_rest (c :: n') _ hn (by simp)
      (dots_append _ (by simp))]
    simp [hc]
  | dots =>
    rw [oneParam, if_pos (dots_append _ (by simp))]
    rfl

theorem hor_not_id {c : Char} (h : isHor c = true) : isId c = false ∧ c ≠ '.' := by
  constructor
  · by_contra hh
    simp only [Bool.not_eq_false] at hh
    rw [id_not_hor hh] at h
    exact absurd h (by simp)
  · rintro rfl
    revert h
    decide

theorem sep_head (v : List Char) (hv : Blank v) (c : Char) (hc : c = ',' ∨ c = ')') (m : List Char) :
    ∃ d k, v ++ c :: m = d :: k ∧ isId d = false ∧ d ≠ '.' := by
  cases v with
  | nil =>
    refine ⟨c, m, rfl, ?_⟩
    rcases hc with rfl | rfl <;> decide
  | cons d v => exact ⟨d, v ++ c :: m, rfl, hor_not_id (hv d (by simp))⟩

theorem param_ne {t p} (h : Param t p) : p.1 ≠ [] := by
  cases h with
  | name hn => obtain ⟨⟨c, m, rfl, _⟩, _⟩ := hn; simp
  | rest hn => obtain ⟨⟨c, m, rfl, _⟩, _⟩ := hn; simp
  | dots => decide

/-- one pass, for a parameter and what separates it from the next -/
theorem step_param {t p} (h : Param t p) (v : List Char) (hv : Blank v) (c : Char)
    (hc : c = ',' ∨ c = ')') (m : List Char) (hm : c = ',' → m.dropWhile isHor ≠ []) :
    paramStep false (t ++ (v ++ c :: m)) = .next p false (if c = ',' then m.dropWhile isHor else c :: m) := by
  have h1 := oneParam_param t (v ++ c :: m) p h (sep_head v hv c hc m)
  have hch : isHor c = false := by rcases hc with rfl | rfl <;> decide
  have h2 : (v ++ c :: m).dropWhile isHor = c :: m := by
    rw [dropWhile_blank v _ hv, List.dropWhile_cons, if_neg (by simp [hch])]
  rw [paramStep]
  simp only [h1, Bool.false_or]
  have h3 : (if p.2 = true then List.drop 3 (if p.2 = true then ['.', '.', '.'] ++ (v ++ c :: m) else v ++ c :: m)
      else if p.2 = true then ['.', '.', '.'] ++ (v ++ c :: m) else v ++ c :: m) = v ++ c :: m := by
    split <;> rfl
  rw [h3, h2]
  have h4 : (p.2 && decide ((if p.2 = true then ['.', '.', '.'] ++ (v ++ c :: m) else v ++ c :: m).length < 3))
      = false := by
    cases p.2 <;> simp
  rw [h4]
  have h5 := param_ne h
  rcases hc with rfl | rfl
  · simp [h5, hm rfl]
  · simp [h5]

/-- what a pass is made of -/
theorem step_inv (r : Bool) (bp : List Char) (p : List Char × Bool) (w : Bool) (bp' : List Char)
    (h : paramStep r bp = .next p w bp') : ∃ l b1, oneParam r bp = (p, l, w) ∧ p.1 ≠ []
      ∧ b1 = (if (r || p.2) = true then l.drop 3 else l).dropWhile isHor
      ∧ (b1.head? = some ',' ∨ b1.head? = some ')')
      ∧ bp' = if b1.head? = some ',' then (b1.drop 1).dropWhile isHor else b1 := by
  rw [paramStep] at h
  simp only at h
  generalize hl : (oneParam r bp).2.1 = l at h
  generalize hb1 : (if (r || (oneParam r bp).1.2) = true then l.drop 3 else l).dropWhile isHor = b1 at h
  generalize hb2 : (if b1.head? = some ',' then (b1.drop 1).dropWhile isHor else b1) = b2 at h
  split_ifs at h with h1 h2 h3
  obtain ⟨hp, hw, hb⟩ := Step.next.inj h
  refine ⟨l, b1, by rw [← hl, ← hp, ← hw], ?_, by rw [← hp, ← hb1], ?_, by rw [← hb, ← hb2]⟩
  · rw [← hp]
    intro h0
    exact h2 (by simp [h0])
  · by_contra h4
    push Not at h4
    exact h2 (by simp [h4.1, h4.2])

theorem paramStep_length (r : Bool) (bp : List Char) (p w bp') (h : paramStep r bp = .next p w bp') :
    bp'.length < bp.length := by
  have hlen := argName_length bp
  have hd : ∀ l : List Char, (l.dropWhile isHor).length ≤ l.length := fun l => length_dropWhile_le _ l
  obtain ⟨l, b1, h1, h2, hb1, _, rfl⟩ := step_inv _ _ _ _ _ h
  have e1 : b1.length < bp.length := by
    rw [oneParam] at h1
    by_cases hdots : dots bp = true
    · rw [if_pos hdots] at h1
      simp only [Prod.mk.injEq] at h1
      obtain ⟨rfl, rfl, _⟩ := h1
      simp only [Bool.or_true, if_true] at hb1
      have := hd (bp.drop 3)
      rw [← hb1, List.length_drop] at this
      simp only [dots, Bool.and_eq_true, decide_eq_true_eq] at hdots
      omega
    · rw [if_neg hdots] at h1
      simp only [Prod.mk.injEq] at h1
      obtain ⟨rfl, rfl, _⟩ := h1
      have h3 : (argName bp).1.length ≠ 0 := by
        intro h
        exact h2 (List.eq_nil_of_length_eq_zero h)
      rw [hb1]
      split
      · have := hd ((argName bp).2.2.drop 3)
        rw [List.length_drop] at this
        omega
      · have := hd (argName bp).2.2
        omega
  split
  · have := hd (b1.drop 1)
    rw [List.length_drop] at this
    omega
  · exact e1

/-- more passes than characters make no difference -/
theorem params_enough (bp : List Char) : ∀ n m r acc w, bp.length < n → bp.length < m →
    params n r acc w bp = params m r acc w bp := by
  induction hk : bp.length using Nat.strong_induction_on generalizing bp with
  | _ k ih =>
    intro n m r acc w hn hm
    subst hk
    obtain ⟨n, rfl⟩ := Nat.exists_eq_succ_of_ne_zero (by omega : n ≠ 0)
    obtain ⟨m, rfl⟩ := Nat.exists_eq_succ_of_ne_zero (by omega : m ≠ 0)
    rw [params, params]
    split
    · rfl
    · cases hs : paramStep r bp with
      | beyond => rfl
      | refused => rfl
      | next p w' bp' =>
        have := paramStep_length r bp p w' bp' hs
        simp only
        split
        · rfl
        · exact ih _ this _ rfl _ _ _ _ _ (by omega) (by omega)

theorem param_head {t p} (h : Param t p) (r : List Char) :
    ∃ c m, t ++ r = c :: m ∧ isHor c = false ∧ c ≠ ')' := by
  have key : ∀ c, isStart c = true → isHor c = false ∧ c ≠ ')' := by
    intro c hc
    refine ⟨id_not_hor (start_id hc), ?_⟩
    rintro rfl
    revert hc
    decide
  cases h with
  | name hn => obtain ⟨⟨c, m, rfl, hc⟩, _⟩ := hn; exact ⟨c, m ++ r, rfl, key c hc⟩
  | rest hn => obtain ⟨⟨c, m, rfl, hc⟩, _⟩ := hn; exact ⟨c, m ++ ['.', '.', '.'] ++ r, rfl, key c hc⟩
  | dots => exact ⟨'.', _, rfl, by decide, by decide⟩

theorem any_name (acc : Params) (n : List Char) :
    acc.any (fun q => decide (q.1 = n)) = true ↔ n ∈ acc.map Prod.fst := by
  simp only [List.any_eq_true, decide_eq_true_eq, List.mem_map]

theorem distinct_head (acc : Params) (p : List Char × Bool) (ps : Params)
    (h : Distinct (acc.reverse ++ p :: ps)) : acc.any (fun q => decide (q.1 = p.1)) = false := by
  rw [Bool.eq_false_iff, ne_eq, any_name]
  intro hm
  rw [Distinct, List.map_append, List.map_cons, List.nodup_append] at h
  exact h.2.2 p.1 (by simpa using hm) p.1 (by simp) rfl

/-- one pass of the loop -/
theorem params_step (n : Nat) (acc : Params) (w : Bool) {t p} (h : Param t p) (r : List Char) (bp' : List Char)
    (hs : paramStep false (t ++ r) = .next p false bp') (ps : Params) (hd : Distinct (acc.reverse ++ p :: ps)) :
    params (n + 1) false acc w (t ++ r) = params n p.2 (p :: acc) w bp' := by
  obtain ⟨c, m, he, _, hc⟩ := param_head h r
  have h1 : (t ++ r).head? ≠ some ')' := by rw [he]; simpa using hc
  rw [params, if_neg h1, hs]
  simp only
  rw [if_neg (by rw [distinct_head acc p ps hd]; simp), Bool.false_or, Bool.or_false]

theorem params_close (n : Nat) (r : Bool) (acc : Params) (w : Bool) (rest : List Char) :
    params (n + 1) r acc w (')' :: rest) = .ok acc.reverse rest w := by
  rw [params, if_pos (by rfl)]
  rfl

theorem drop_param {t p} (h : Param t p) (w r : List Char) (hw : Blank w) :
    (w ++ (t ++ r)).dropWhile isHor = t ++ r := by
  obtain ⟨c, m, he, hc, _⟩ := param_head h r
  rw [dropWhile_blank _ _ hw, he, List.dropWhile_cons, if_neg (by simp [hc])]

/-- every list of the language is read -/
theorem params_tail {extra l ps} (h : Tail extra l ps) : ∀ rest acc w n, Distinct (acc.reverse ++ ps) →
    (l ++ rest).length < n → params n false acc w ((l ++ rest).dropWhile isHor) = .ok (acc.reverse ++ ps) rest w := by
  induction h with
  | @last w t v p hw hp hv =>
    intro rest acc wn n hd hn
    obtain ⟨n, rfl⟩ := Nat.exists_eq_add_of_lt hn
    have e : w ++ t ++ v ++ [')'] ++ rest = w ++ (t ++ (v ++ ')' :: rest)) := by simp
    rw [e, drop_param hp _ _ hw, params_step _ _ _ hp _ _ (step_param hp v hv ')' (Or.inr rfl) rest (by simp)) [] hd,
      if_neg (by decide)]
    rw [show (w ++ (t ++ (v ++ ')' :: rest))).length + n = (w ++ t ++ v ++ rest).length + n + 1 by
      simp; omega, params_close]
    simp
  | @comma w t v u p _ hw hp hv hu =>
    intro rest acc wn n hd hn
    obtain ⟨n, rfl⟩ := Nat.exists_eq_add_of_lt hn
    have e : w ++ t ++ v ++ [','] ++ u ++ [')'] ++ rest = w ++ (t ++ (v ++ ',' :: (u ++ ')' :: rest))) := by simp
    have e2 : (u ++ ')' :: rest).dropWhile isHor = ')' :: rest := by
      rw [dropWhile_blank _ _ hu, List.dropWhile_cons, if_neg (by decide)]
    rw [e, drop_param hp _ _ hw, params_step _ _ _ hp _ _
      (step_param hp v hv ',' (Or.inl rfl) _ (by rw [e2]; simp)) [] hd, if_pos rfl, e2]
    rw [show (w ++ (t ++ (v ++ ',' :: (u ++ ')' :: rest)))).length + n
      = (w ++ t ++ v ++ [','] ++ u ++ rest).length + n + 1 by simp; omega, params_close]
    simp
  | @next w t v p l ps hw hp hp2 hv hl ih =>
    intro rest acc wn n hd hn
    obtain ⟨n, rfl⟩ := Nat.exists_eq_add_of_lt hn
    have e : w ++ t ++ v ++ [','] ++ l ++ rest = w ++ (t ++ (v ++ ',' :: (l ++ rest))) := by simp
    have hd' : Distinct ((p :: acc).reverse ++ ps) := by simpa [Distinct] using hd
    have h1 := ih rest (p :: acc) wn ((w ++ t ++ v ++ [','] ++ l ++ rest).length + n) hd' (by simp; omega)
    have hne : (l ++ rest).dropWhile isHor ≠ [] := by
      intro h0
      rw [h0] at h1
      cases hk : (w ++ t ++ v ++ [','] ++ l ++ rest).length + n with
      | zero => rw [hk] at h1; simp [params] at h1
      | succ k =>
        rw [hk, params] at h1
        simp [paramStep, oneParam, dots, argName] at h1
    rw [e, drop_param hp _ _ hw, params_step _ _ _ hp _ _ (step_param hp v hv ',' (Or.inl rfl) _ (fun _ => hne)) ps hd,
      if_pos rfl, hp2, ← e, h1]
    simp

theorem params_plist {extra l ps} (h : PList extra l ps) (hd : Distinct ps) (rest : List Char) (w : Bool) (n : Nat)
    (hn : (l ++ rest).length < n) : params n false [] w ((l ++ rest).dropWhile isHor) = .ok ps rest w := by
  cases h with
  | @none v hv =>
    obtain ⟨n, rfl⟩ := Nat.exists_eq_add_of_lt hn
    rw [List.append_assoc, dropWhile_blank _ _ hv, List.singleton_append, List.dropWhile_cons, if_neg (by decide),
      params_close]
    rfl
  | some h => exact params_tail h rest [] w n hd hn

/-! The other direction. -/

theorem argName_spec (bp : List Char) : bp = (argName bp).1 ++ (argName bp).2.2
    ∧ (∀ c ∈ (argName bp).1, isId c = true) ∧ ((argName bp).2.1 = true → dots (argName bp).2.2 = true) := by
  induction bp with
  | nil => simp [argName]
  | cons c l ih =>
    rw [argName]
    split
    · rename_i hc
      split
      · rename_i hd
        exact ⟨rfl, by simpa using hc, fun _ => hd⟩
      · refine ⟨by simpa using ih.1, ?_, ih.2.2⟩
        intro d hd
        rcases List.mem_cons.mp hd with rfl | hd
        · exact hc
        · exact ih.2.1 d hd
    · simp

theorem dots_eq (l : List Char) (h : dots l = true) : l = ['.', '.', '.'] ++ l.drop 3 := by
  match l with
  | [] => simp [dots] at h
  | [_] => simp [dots] at h
  | [_, _] => simp [dots] at h
  | a :: b :: c :: l =>
    simp only [dots, List.isPrefixOf, Bool.and_eq_true, beq_iff_eq] at h
    obtain ⟨_, rfl, rfl, rfl, _⟩ := h
    rfl

/-- what was read is a parameter, if there is no message -/
theorem oneParam_spec (bp : List Char) (p : List Char × Bool) (l : List Char)
    (h : oneParam false bp = (p, l, false)) (h0 : p.1 ≠ []) :
    ∃ t, Param t p ∧ bp = t ++ (if p.2 then l.drop 3 else l) ∧ (p.2 = true → 3 ≤ l.length) := by
  rw [oneParam] at h
  split at h
  · rename_i hd
    simp only [Prod.mk.injEq] at h
    obtain ⟨rfl, rfl, _⟩ := h
    refine ⟨_, .dots, dots_eq _ hd, fun _ => ?_⟩
    rw [dots_eq _ hd]
    simp
  · simp only [Prod.mk.injEq, Bool.false_or] at h
    obtain ⟨rfl, rfl, h⟩ := h
    obtain ⟨s1, s2, s3⟩ := argName_spec bp
    have hid : Ident (argName bp).1 := by
      refine ⟨?_, s2⟩
      cases bp with
      | nil => simp at h
      | cons c m =>
        obtain ⟨d, k, hk⟩ := List.exists_cons_of_ne_nil h0
        refine ⟨d, k, hk, ?_⟩
        simp only at hk
        rw [hk] at s1
        obtain ⟨rfl, _⟩ := List.cons.inj s1
        simpa using h
    cases hr : (argName bp).2.1 with
    | false =>
      refine ⟨_, .name hid, ?_, by simp⟩
      rw [if_neg (by simp)]
      exact s1
    | true =>
      have hd := s3 hr
      refine ⟨_, .rest hid, ?_, fun _ => ?_⟩
      · rw [if_pos rfl, List.append_assoc, ← dots_eq _ hd]
        exact s1
      · rw [dots_eq _ hd]
        simp

/-- one pass without a message has read a parameter and what follows it -/
theorem step_spec (bp : List Char) (p : List Char × Bool) (bp' : List Char)
    (h : paramStep false bp = .next p false bp') :
    ∃ t v, Param t p ∧ Blank v ∧
      ((∃ m, bp = t ++ (v ++ ',' :: m) ∧ bp' = m.dropWhile isHor) ∨ ∃ m, bp = t ++ (v ++ ')' :: m) ∧ bp' = ')' :: m) := by
  obtain ⟨l, b1, h1, h2, hb1, hh, hb⟩ := step_inv _ _ _ _ _ h
  obtain ⟨t, ht, hbp, _⟩ := oneParam_spec bp p l h1 h2
  rw [Bool.false_or] at hb1
  obtain ⟨v, hv, hve⟩ := split_blank (if p.2 = true then l.drop 3 else l)
  rw [hve, ← hb1] at hbp
  refine ⟨t, v, ht, hv, ?_⟩
  cases b1 with
  | nil => simp at hh
  | cons c m =>
    rcases hh with hc | hc <;> (obtain rfl := by simpa using hc)
    · exact Or.inl ⟨m, hbp, by simpa using hb⟩
    · exact Or.inr ⟨m, hbp, by simpa using hb⟩

theorem step_warned (bp : List Char) (p : List Char × Bool) (w : Bool) (bp' : List Char)
    (h : paramStep true bp = .next p w bp') : w = true := by
  obtain ⟨l, b1, h1, _⟩ := step_inv _ _ _ _ _ h
  rw [oneParam] at h1
  split at h1 <;> simp only [Prod.mk.injEq, Bool.true_or] at h1 <;> exact h1.2.2.symm

theorem tail_blank {l ps} (u : List Char) (hu : Blank u) (h : Tail true l ps) : Tail true (u ++ l) ps := by
  have key : ∀ w, Blank w → Blank (u ++ w) := by
    intro w hw c hc
    rcases List.mem_append.mp hc with h | h
    · exact hu c h
    · exact hw c h
  cases h with
  | last hw hp hv => simpa only [List.append_assoc] using Tail.last (key _ hw) hp hv
  | comma he hw hp hv hu' => simpa only [List.append_assoc] using Tail.comma he (key _ hw) hp hv hu'
  | next hw hp h2 hv hl => simpa only [List.append_assoc] using Tail.next (key _ hw) hp h2 hv hl

theorem tail_head {l ps} (h : Tail true l ps) (r m : List Char) : l ++ r ≠ ')' :: m := by
  have key : ∀ w t p k, Blank w → Param t p → w ++ (t ++ k) ≠ ')' :: m := by
    intro w t p k hw hp he
    cases w with
    | nil =>
      obtain ⟨c, k', he', _, hc⟩ := param_head hp k
      rw [List.nil_append, he'] at he
      exact hc (List.cons.inj he).1
    | cons c w =>
      have := hw c (by simp)
      rw [(List.cons.inj he).1] at this
      exact absurd this (by decide)
  cases h with
  | last hw hp hv => simpa only [List.append_assoc] using key _ _ _ _ hw hp
  | comma he hw hp hv hu' => simpa only [List.append_assoc] using key _ _ _ _ hw hp
  | next hw hp h2 hv hl => simpa only [List.append_assoc] using key _ _ _ _ hw hp

theorem params_sound (n : Nat) : ∀ r acc w bp ps rest, Distinct acc.reverse →
    params n r acc w bp = .ok ps rest false →
    w = false ∧ Distinct ps ∧ ((bp = ')' :: rest ∧ ps = acc.reverse)
      ∨ (r = false ∧ ∃ t qs, bp = t ++ rest ∧ Tail true t qs ∧ ps = acc.reverse ++ qs)) := by
  induction n with
  | zero => intro r acc w bp ps rest _ h; simp [params] at h
  | succ n ih =>
    intro r acc w bp ps rest hd h
    rw [params] at h
    split at h
    · rename_i hb
      obtain ⟨rfl, rfl, rfl⟩ := PRes.ok.inj h
      refine ⟨rfl, hd, Or.inl ⟨?_, rfl⟩⟩
      cases bp with
      | nil => simp at hb
      | cons c m =>
        rw [(by simpa using hb : c = ')')]
        rfl
    · split at h
      · exact absurd h (by simp)
      · exact absurd h (by simp)
      · rename_i p w' bp' hs
        split at h
        · exact absurd h (by simp)
        · rename_i hany
          have hd' : Distinct (p :: acc).reverse := by
            rw [Distinct, List.reverse_cons, List.map_append, List.nodup_append]
            refine ⟨hd, by simp, ?_⟩
            intro a ha b hb hab
            subst hab
            simp only [List.map_cons, List.map_nil, List.mem_singleton] at hb
            subst hb
            exact hany (by rw [any_name]; simpa using ha)
          obtain ⟨hw, hds, hc⟩ := ih _ _ _ _ _ _ hd' h
          obtain ⟨rfl, rfl⟩ : w = false ∧ w' = false := by simpa using hw
          have hr : r = false := by
            by_contra hr
            rw [Bool.not_eq_false] at hr
            subst hr
            exact absurd (step_warned _ _ _ _ hs) (by simp)
          subst hr
          refine ⟨rfl, hds, Or.inr ⟨rfl, ?_⟩⟩
          obtain ⟨t, v, ht, hv, hcase⟩ := step_spec _ _ _ hs
          have nil : Blank [] := by intro c hc; simp at hc
          rcases hcase with ⟨m, rfl, hbp⟩ | ⟨m, rfl, hbp⟩
          · obtain ⟨u, hu, hm⟩ := split_blank m
            rw [← hbp] at hm
            subst hm
            rcases hc with ⟨rfl, rfl⟩ | ⟨hp2, t', qs, rfl, htail, rfl⟩
            · exact ⟨_, _, by simp, Tail.comma rfl nil ht hv hu, by simp⟩
            · refine ⟨_, _, ?_, Tail.next nil ht (by simpa using hp2) hv (tail_blank u hu htail), by simp⟩
              simp
          · rcases hc with ⟨he, rfl⟩ | ⟨hp2, t', qs, he, htail, rfl⟩
            · rw [hbp] at he
              obtain ⟨_, rfl⟩ := List.cons.inj he
              exact ⟨_, _, by simp, Tail.last nil ht hv, by simp⟩
            · exact absurd (he.symm.trans hbp) (tail_head htail _ _)

theorem ident_ne {n} (h : Ident n) : n ≠ [] := by
  obtain ⟨⟨c, m, rfl, _⟩, _⟩ := h
  simp

theorem takeWhile_ident (n r : List Char) (hn : ∀ c ∈ n, isId c = true)
    (hr : ∀ c, r.head? = some c → isId c = false) : (n ++ r).takeWhile isId = n ∧ (n ++ r).dropWhile isId = r := by
  induction n with
  | nil =>
    cases r with
    | nil => simp
    | cons c r => simp [hr c rfl]
  | cons c n ih =>
    have := ih fun d hd => hn d (List.mem_cons_of_mem _ hd)
    simp [hn c (by simp), this]

theorem create_name (w n r : List Char) (hw : Blank w) (hn : Ident n)
    (hr : ∀ c, r.head? = some c → isId c = false) :
    ((w ++ (n ++ r)).dropWhile isHor).takeWhile isId = n ∧ ((w ++ (n ++ r)).dropWhile isHor).dropWhile isId = r := by
  obtain ⟨⟨c, m, rfl, hc⟩, hn⟩ := hn
  have e : (w ++ (c :: m ++ r)).dropWhile isHor = c :: m ++ r := by
    rw [dropWhile_blank _ _ hw, List.cons_append, List.dropWhile_cons, if_neg (by simp [id_not_hor (start_id hc)])]
  rw [e]
  exact takeWhile_ident (c :: m) r hn hr

theorem name_good (n r : List Char) (hn : Ident n) (hd : n ≠ c!"defined")
    (hr : ∀ c, r.head? = some c → c ≠ '\'' ∧ c ≠ '"') : badName n r = false := by
  have h0 := ident_ne hn
  obtain ⟨⟨c, m, rfl, hc⟩, hn⟩ := hn
  have h1 : r.head? ≠ some '\'' := fun h => (hr _ h).1 rfl
  have h2 : r.head? ≠ some '"' := fun h => (hr _ h).2 rfl
  simp [badName, hc, hd, h1, h2]

theorem takeWhile_all (l : List Char) : ∀ c ∈ l.takeWhile isId, isId c = true := by
  intro c hc
  induction l with
  | nil => simp at hc
  | cons d l ih =>
    rw [List.takeWhile_cons] at hc
    split at hc
    · rcases List.mem_cons.mp hc with rfl | hc
      · assumption
      · exact ih hc
    · simp at hc

theorem good_name (n r : List Char) (hn : ∀ c ∈ n, isId c = true) (h : badName n r = false) :
    Ident n ∧ n ≠ c!"defined" := by
  simp only [badName, Bool.or_eq_false_iff, decide_eq_false_iff_not, Bool.not_eq_false'] at h
  obtain ⟨⟨⟨h1, _⟩, h2⟩, h3⟩ := h
  refine ⟨⟨?_, hn⟩, h3⟩
  cases n with
  | nil => exact absurd rfl h1
  | cons c m => exact ⟨c, m, rfl, by simpa using h2⟩

theorem dropWhile_head (l : List Char) : ∀ c, (l.dropWhile isHor).head? = some c → isHor c = false := by
  intro c hc
  induction l with
  | nil => simp at hc
  | cons d l ih =>
    rw [List.dropWhile_cons] at hc
    split at hc
    · exact ih hc
    · rename_i hd
      simp only [List.head?_cons, Option.some.injEq] at hc
      subst hc
      simpa using hd

/-- Exactly the definitions of the language, and those with a comma after the last parameter, are accepted
without a message, and define what they should. -/
theorem C103_exactly (buf n : List Char) (ps : Option Params) (body : List Char) :
    create buf = .made ⟨n, ps, body, false⟩ ↔ Define true buf n ps body := by
  constructor
  · intro h
    rw [create] at h
    obtain ⟨w, hw, hb⟩ := split_blank buf
    generalize hb1 : buf.dropWhile isHor = b1 at *
    have hsplit : b1 = b1.takeWhile isId ++ b1.dropWhile isId := (List.takeWhile_append_dropWhile).symm
    have hall := takeWhile_all b1
    generalize b1.takeWhile isId = nm at *
    generalize b1.dropWhile isId = r at *
    subst hsplit
    subst hb
    split at h
    · rename_i l
      split at h
      · rename_i ps' after w' hp
        simp only [Res.made.injEq, Made.mk.injEq] at h
        obtain ⟨rfl, rfl, rfl, rfl⟩ := h
        obtain ⟨hgood, hds, hc⟩ := params_sound _ _ _ _ _ _ _ (by simp [Distinct]) hp
        obtain ⟨hid, hdef⟩ := good_name _ _ hall hgood
        obtain ⟨u, hu, hl⟩ := split_blank l
        obtain ⟨v, hv, ha⟩ := split_blank after
        have key : ∀ t, l.dropWhile isHor = t ++ after → PList true (u ++ t) ps' →
            Define true (w ++ (nm ++ '(' :: l)) nm (some ps') (after.dropWhile isHor) := by
          intro t ht hpl
          have := Define.fn (extra := true) (body := after.dropWhile isHor) hw hid hdef hpl hds hv
            (dropWhile_head after)
          have e : w ++ nm ++ ['('] ++ (u ++ t) ++ v ++ after.dropWhile isHor = w ++ (nm ++ '(' :: l) := by
            simp only [List.append_assoc, ← ha]
            rw [← ht, ← hl]
            simp
          rwa [e] at this
        rcases hc with ⟨he, rfl⟩ | ⟨_, t, qs, he, ht, rfl⟩
        · exact key [')'] he (.none hu)
        · exact key t he (.some (tail_blank u hu ht))
      · exact absurd h (by simp)
      · exact absurd h (by simp)
    · simp only [Res.made.injEq, Made.mk.injEq] at h
      obtain ⟨rfl, rfl, rfl, hgood⟩ := h
      obtain ⟨hid, hdef⟩ := good_name _ _ hall hgood
      simpa using Define.empty (extra := true) hw hid hdef
    · rename_i c l _
      split at h
      · rename_i hc
        simp only [Res.made.injEq, Made.mk.injEq] at h
        obtain ⟨rfl, rfl, rfl, hgood⟩ := h
        obtain ⟨hid, hdef⟩ := good_name _ _ hall hgood
        obtain ⟨u, hu, hl⟩ := split_blank l
        have hcu : Blank (c :: u) := by
          intro d hd
          rcases List.mem_cons.mp hd with rfl | hd
          · exact hc
          · exact hu d hd
        have := Define.plain (extra := true) (body := l.dropWhile isHor) hw hid hdef hcu (by simp) (dropWhile_head l)
        have e : w ++ nm ++ (c :: u) ++ l.dropWhile isHor = w ++ (nm ++ c :: l) := by
          rw [List.append_assoc, List.cons_append, ← hl]
          simp
        rwa [e] at this
      · simp at h
  · intro h
    cases h with
    | @plain w _ b _ hw hn hdef hb hb0 hbody =>
      cases b with
      | nil => exact absurd rfl hb0
      | cons c b =>
        have hc := hb c (by simp)
        have hr : ∀ d, (c :: (b ++ body)).head? = some d → isId d = false := by
          intro d hd
          obtain rfl : c = d := by simpa using hd
          exact (hor_not_id hc).1
        obtain ⟨h1, h2⟩ := create_name w n (c :: (b ++ body)) hw hn hr
        have e : w ++ n ++ (c :: b) ++ body = w ++ (n ++ c :: (b ++ body)) := by simp
        have hg : badName n (c :: (b ++ body)) = false := by
          refine name_good _ _ hn hdef ?_
          intro d hd
          obtain rfl : c = d := by simpa using hd
          constructor <;> rintro rfl <;> revert hc <;> decide
        rw [create, e]
        simp only [h1, h2, hg]
        have hp : c ≠ '(' := by rintro rfl; revert hc; decide
        have h3 : (b ++ body).dropWhile isHor = body := by
          rw [dropWhile_blank _ _ fun d hd => hb d (List.mem_cons_of_mem _ hd), drop_head _ hbody]
        split
        · rename_i l heq
          exact absurd (List.cons.inj heq).1 hp
        · rename_i heq
          exact absurd heq (by simp)
        · rename_i c' l' _ heq
          obtain ⟨rfl, rfl⟩ := List.cons.inj heq
          rw [if_pos hc, h3]
    | @empty w _ hw hn hdef =>
      obtain ⟨h1, h2⟩ := create_name w n [] hw hn (by simp)
      rw [List.append_nil] at h1 h2
      have hg : badName n [] = false := name_good _ _ hn hdef (by simp)
      rw [create]
      simp only [h1, h2, hg]
    | @fn w _ l ps b _ hw hn hdef hl hd hb hbody =>
      have e : w ++ n ++ ['('] ++ l ++ b ++ body = w ++ (n ++ '(' :: (l ++ (b ++ body))) := by simp
      obtain ⟨h1, h2⟩ := create_name w n ('(' :: (l ++ (b ++ body))) hw hn
        (by intro d hd; obtain rfl : '(' = d := by simpa using hd
            decide)
      have hg : badName n ('(' :: (l ++ (b ++ body))) = false := by
        refine name_good _ _ hn hdef ?_
        intro d hd
        obtain rfl : '(' = d := by simpa using hd
        decide
      rw [create, e]
      simp only [h1, h2, hg, params_plist hl hd (b ++ body) false _ (Nat.lt_succ_self _)]
      rw [dropWhile_blank _ _ hb, drop_head _ hbody]

/-- Exactly the definitions of the language are accepted without a message. -/
def C103_full : Prop := ∀ buf n ps body, create buf = .made ⟨n, ps, body, false⟩ ↔ Define false buf n ps body

theorem tail_extra {l ps} (h : Tail false l ps) : Tail true l ps := by
  induction h with
  | last a b c => exact .last a b c
  | comma h => exact absurd h (by simp)
  | next a b c d _ ih => exact .next a b c d ih

/-- Missing for `C103_full`: nothing else than the definitions of the language and those with the additional
comma is accepted (`C103_exactly`). -/
theorem C103_partial (buf n : List Char) (ps : Option Params) (body : List Char)
    (h : Define false buf n ps body) : create buf = .made ⟨n, ps, body, false⟩ := by
  rw [C103_exactly]
  cases h with
  | plain a b c d e f => exact .plain a b c d e f
  | empty a b c => exact .empty a b c
  | fn a b c d e f g =>
    refine .fn a b c ?_ e f g
    cases d with
    | none h => exact .none h
    | some h => exact .some (tail_extra h)

example : create c!" f(a, b...) a + b" = .made ⟨c!"f", some [(['a'], false), (['b'], true)], c!"a + b", false⟩ := by
  decide +kernel

theorem count_blank {w} (h : Blank w) : w.count ',' = 0 := by
  rw [List.count_eq_zero]
  intro hm
  exact absurd (h _ hm) (by decide)

theorem count_ident {n} (h : Ident n) : n.count ',' = 0 := by
  rw [List.count_eq_zero]
  intro hm
  exact absurd (h.2 _ hm) (by decide)

theorem count_param {t p} (h : Param t p) : t.count ',' = 0 := by
  cases h with
  | name hn => exact count_ident hn
  | rest hn => rw [List.count_append, count_ident hn]; decide
  | dots => decide

theorem count_tail {l ps} (h : Tail false l ps) : l.count ',' + 1 = ps.length := by
  induction h with
  | last hw hp hv =>
    simp [List.count_append, count_blank hw, count_blank hv, count_param hp]
  | comma h => exact absurd h (by simp)
  | next hw hp _ hv _ ih =>
    simp only [List.count_append, count_blank hw, count_blank hv, count_param hp, List.length_cons, ← ih]
    simp
    omega

/-- `#define f(a,) x` is accepted. -/
theorem C103_full_is_false : ¬ C103_full := by
  intro h
  have h1 := (h c!"f(a,) x" ['f'] (some [(['a'], false)]) ['x']).mp (by decide +kernel)
  generalize hb : c!"f(a,) x" = buf at h1
  generalize hn : ['f'] = n at h1
  generalize hx : ['x'] = body at h1
  generalize hp : some [(['a'], false)] = ps at h1
  cases h1 with
  | plain => exact absurd hp (by simp)
  | empty => exact absurd hp (by simp)
  | @fn w _ l ps b _ hw hn' hdef hl hd hb' hbody =>
    obtain rfl := Option.some.inj hp
    have hc := congrArg (List.count ',') hb
    subst hn hx
    cases hl with
    | some hl =>
      have := count_tail hl
      simp only [List.count_append, count_blank hw, count_blank hb'] at hc
      simp at hc this
      rw [this] at hc
      revert hc
      decide

/-! The end of the text. -/

/-- The text is never read after its end. -/
def C103_inside_full : Prop := ∀ buf, create buf ≠ .beyond

/-- `#define f(a...,b)`: after `b` the three characters of `...` are skipped again. -/
theorem C103_inside_full_is_false : ¬ C103_inside_full := fun h => h c!"f(a...,b)" (by decide +kernel)

theorem infix_drop (l : List Char) (q : Char → Bool) (x : List Char) (h : x <:+: l.dropWhile q) : x <:+: l :=
  h.trans (List.dropWhile_suffix q).isInfix

theorem params_inside (n : Nat) : ∀ acc w bp, ¬ ['.', '.', '.'] <:+: bp → params n false acc w bp ≠ .beyond := by
  induction n with
  | zero => intro acc w bp _; simp [params]
  | succ n ih =>
    intro acc w bp hb h
    have hdots : ∀ l, l <:+: bp → dots l = false := by
      intro l hl
      by_contra hd
      rw [Bool.not_eq_false] at hd
      refine hb (List.IsInfix.trans ?_ hl)
      rw [dots_eq l hd]
      exact (List.prefix_append _ _).isInfix
    obtain ⟨a1, _, a3⟩ := argName_spec bp
    have hsuf : (argName bp).2.2 <:+: bp := by
      exact List.IsSuffix.isInfix ⟨(argName bp).1, a1.symm⟩
    have hr : (argName bp).2.1 = false := by
      by_contra h9
      rw [Bool.not_eq_false] at h9
      rw [hdots _ hsuf] at a3
      exact absurd (a3 h9) (by simp)
    have ho : oneParam false bp = (((argName bp).1, false), (argName bp).2.2, !(bp.head?.map isStart).getD false) := by
      rw [oneParam, if_neg (by simp [hdots bp (List.infix_refl _)]), hr, Bool.false_or]
    rw [params] at h
    split at h
    · simp at h
    · split at h
      · rename_i hs
        rw [paramStep, ho] at hs
        simp only [Bool.or_false, Bool.false_and] at hs
        simp only [Bool.false_eq_true, if_false] at hs
        split_ifs at hs
      · simp at h
      · rename_i p w' bp' hs
        split at h
        · simp at h
        · obtain ⟨l, b1, h1, _, hb1, _, rfl⟩ := step_inv _ _ _ _ _ hs
          rw [ho] at h1
          simp only [Prod.mk.injEq] at h1
          obtain ⟨rfl, rfl, _⟩ := h1
          simp only [Bool.or_false, Bool.false_eq_true, if_false] at hb1 h
          refine ih _ _ _ ?_ h
          intro hin
          refine hb (List.IsInfix.trans ?_ hsuf)
          rw [hb1] at hin
          split at hin
          · exact infix_drop _ _ _ ((infix_drop _ _ _ hin).trans (List.drop_suffix _ _).isInfix)
          · exact infix_drop _ _ _ hin

/-- Missing for `C103_inside_full`: definitions with `...`. -/
theorem C103_inside_partial (buf : List Char) (h : ¬ ['.', '.', '.'] <:+: buf) : create buf ≠ .beyond := by
  intro hc
  rw [create] at hc
  split at hc
  · rename_i l heq
    split at hc
    · simp at hc
    · simp at hc
    · rename_i hp
      refine params_inside _ _ _ _ ?_ hp
      intro hin
      refine h ?_
      have h1 : l <:+: buf := by
        refine infix_drop _ isHor _ (infix_drop _ isId _ ?_)
        rw [heq]
        exact (List.suffix_cons _ _).isInfix
      exact (infix_drop _ _ _ hin).trans h1
  · simp at hc
  · simp at hc

example : create c!"f(a,b) a" = .made ⟨['f'], some [(['a'], false), (['b'], false)], ['a'], false⟩ := by decide +kernel

/-! The option `-D`. -/

/-- the lines of a text that ends in lines with a backslash are joined -/
inductive Joined : List Char → List Char → Prop where
  | nil : Joined [] []
  | join {l m} : Joined l m → Joined ('\\' :: '\n' :: l) m
  | char {c l m} : ¬ (c = '\\' ∧ l.head? = some '\n') → Joined l m → Joined (c :: l) (c :: m)

theorem joinLines_spec {v m} (h : Joined v m) : joinLines v = m := by
  induction h with
  | nil => rfl
  | join _ ih => rw [joinLines, ih]
  | @char c l m hc _ ih =>
    rw [joinLines.eq_def]
    split
    · rename_i l' heq
      obtain ⟨rfl, rfl⟩ := List.cons.inj heq
      exact absurd ⟨rfl, rfl⟩ hc
    · rename_i c' l' _ heq
      obtain ⟨rfl, rfl⟩ := List.cons.inj heq
      rw [ih]
    · rename_i heq
      exact absurd heq (by simp)

/-- the part before `=`: a name, and what is in parentheses -/
inductive Head : List Char → Prop where
  | name {n} : Ident n → Head n
  | fn {n a} : Ident n → ')' ∉ a → Head (n ++ '(' :: a ++ [')'])

theorem takeWhile_close (a r : List Char) (h : ')' ∉ a) :
    (a ++ ')' :: r).takeWhile (· ≠ ')') = a ∧ (a ++ ')' :: r).dropWhile (· ≠ ')') = ')' :: r := by
  induction a with
  | nil => simp
  | cons c a ih =>
    simp only [List.mem_cons, not_or] at h
    have := ih h.2
    have hc : c ≠ ')' := fun h' => h.1 h'.symm
    rw [List.cons_append, List.takeWhile_cons, List.dropWhile_cons, if_pos (by simpa using hc), if_pos (by simpa using hc),
      this.1, this.2]
    exact ⟨rfl, rfl⟩

theorem optionD_head (n r : List Char) (hn : Ident n) (hr : r = [] ∨ ∃ v, r = '=' :: v) :
    optionD (n ++ r) = match (generalizing := false) r with
      | [] => some (n ++ [' ', '1'], false)
      | '=' :: v => some (n ++ ' ' :: joinLines v, false)
      | _ => none := by
  obtain ⟨⟨c, m, rfl, hc⟩, hn⟩ := hn
  have h1 : ∀ d, r.head? = some d → isId d = false := by
    intro d hd
    rcases hr with rfl | ⟨v, rfl⟩
    · simp at hd
    · obtain rfl : '=' = d := by simpa using hd
      decide
  obtain ⟨t1, t2⟩ := takeWhile_ident m r (fun d hd => hn d (List.mem_cons_of_mem _ hd)) h1
  rcases hr with rfl | ⟨v, rfl⟩
  · rw [List.cons_append, optionD]
    simp only [hc, if_true, t1, t2]
  · rw [List.cons_append, optionD]
    simp only [hc, if_true, t1, t2]
    rfl

theorem optionD_fn (n a r : List Char) (hn : Ident n) (ha : ')' ∉ a) (hr : r = [] ∨ ∃ v, r = '=' :: v) :
    optionD (n ++ '(' :: a ++ [')'] ++ r) = match (generalizing := false) r with
      | [] => some (n ++ '(' :: a ++ [')'] ++ [' ', '1'], false)
      | '=' :: v => some (n ++ '(' :: a ++ [')'] ++ ' ' :: joinLines v, false)
      | _ => none := by
  obtain ⟨⟨c, m, rfl, hc⟩, hn⟩ := hn
  have e : c :: m ++ '(' :: a ++ [')'] ++ r = c :: (m ++ '(' :: (a ++ ')' :: r)) := by simp
  obtain ⟨t1, t2⟩ := takeWhile_ident m ('(' :: (a ++ ')' :: r)) (fun d hd => hn d (List.mem_cons_of_mem _ hd))
    (by intro d hd
        obtain rfl : '(' = d := by simpa using hd
        decide)
  obtain ⟨u1, u2⟩ := takeWhile_close a r ha
  rcases hr with rfl | ⟨v, rfl⟩
  · rw [e, optionD]
    simp only [hc, if_true, t1, t2, u1, u2]
  · rw [e, optionD]
    simp only [hc, if_true, t1, t2, u1, u2]

/-- `-Dname=text` defines what `#define name text` defines. -/
theorem C103_option (h v m : List Char) (hh : Head h) (hv : Joined v m) :
    optionD (h ++ '=' :: v) = some (h ++ ' ' :: m, false) := by
  cases hh with
  | name hn => rw [optionD_head h _ hn (Or.inr ⟨v, rfl⟩)]; simp only [joinLines_spec hv]
  | fn hn ha => rw [optionD_fn _ _ _ hn ha (Or.inr ⟨v, rfl⟩)]; simp only [joinLines_spec hv]

/-- `-Dname` defines the name as 1. -/
theorem C103_option_one (h : List Char) (hh : Head h) : optionD h = some (h ++ [' ', '1'], false) := by
  cases hh with
  | name hn => simpa using optionD_head h [] hn (Or.inl rfl)
  | fn hn ha => simpa using optionD_fn _ _ [] hn ha (Or.inl rfl)

example : optionD c!"f(a)=a+1" = some (c!"f(a) a+1", false) ∧ optionD c!"X" = some (c!"X 1", false) := by
  decide +kernel

/-- Without a name nothing is defined. -/
theorem C103_option_bad (str : List Char) (h : ∀ c, str.head? = some c → isStart c = false) : optionD str = none := by
  cases str with
  | nil => rfl
  | cons c l => rw [optionD, if_neg (by simp [h c rfl])]

example : optionD c!"1X=2" = none := C103_option_bad _ (by simp; decide)

end Splint.CppMacro
