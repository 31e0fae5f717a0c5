import Verif.Spec.LibEntry
import Verif.Proofs.LibRef
namespace Splint.LibEntry
open Reader Lib Lib.Spec LibEntry.Spec

/-- Neither a digit nor a blank. -/
def solid (c : Char) : Bool := !isDig c && !isBlank c

theorem getInt_solid {n : Int} {c : Char} {r : List Char} (h : Num n) (hc : solid c = true) :
    getInt (intText n ++ c :: r) = some (n, c :: r) := by
  simp only [solid, Bool.and_eq_true, Bool.not_eq_true'] at hc
  rw [getInt_num h (by intro d cs e; cases e; exact hc.1), List.dropWhile_cons_of_neg (by simp [hc.2])]

theorem number_solid {n lo hi : Int} {c : Char} {r : List Char} (h : Num n) (hc : solid c = true)
    (h1 : lo ≤ n) (h2 : n ≤ hi) : number lo hi (intText n ++ c :: r) = some (n, c :: r) := by
  unfold number
  rw [getInt_solid h hc]
  simp [h1, h2]

theorem field_solid {n lo hi : Int} {c : Char} {r : List Char} (h : Num n) (hc : solid c = true)
    (h1 : lo ≤ n) (h2 : n ≤ hi) : field lo hi ('@' :: (intText n ++ c :: r)) = some (n, c :: r) := by
  unfold field
  simp only [checkChar, if_true, Option.bind_eq_bind, Option.bind_some]
  exact number_solid h hc h1 h2

theorem opt_hit (c : Char) (r : List Char) : optCheckChar c (c :: r) = (true, r) := by
  simp [optCheckChar]

theorem opt_miss {c d : Char} {r : List Char} (h : d ≠ c) :
    optCheckChar c (d :: r) = (false, d :: r) := by
  simp [optCheckChar, h]

theorem check_hit (c : Char) (r : List Char) : checkChar c (c :: r) = some r := by
  simp [checkChar]

/-- The first character of a number. -/
theorem intText_cons (n : Int) : ∃ c cs, intText n = c :: cs ∧ (isDig c = true ∨ c = '-') := by
  unfold intText
  split_ifs
  · obtain ⟨d, t, e, hd, -⟩ := decimal_cons n.toNat
    exact ⟨_, _, e, .inl (digit_spec d hd).1⟩
  · exact ⟨_, _, rfl, .inr rfl⟩

theorem opt_int {c : Char} (n : Int) (r : List Char) (h1 : isDig c = false) (h2 : c ≠ '-') :
    optCheckChar c (intText n ++ r) = (false, intText n ++ r) := by
  obtain ⟨d, cs, e, h⟩ := intText_cons n
  rw [e, List.cons_append]
  refine opt_miss ?_
  rintro rfl
  rcases h with h | h
  · rw [h] at h1; cases h1
  · exact h2 h

theorem solids : solid '@' = true ∧ solid '#' = true ∧ solid '&' = true ∧ solid '|' = true ∧
    solid '.' = true ∧ solid '/' = true ∧ solid '$' = true ∧ solid '^' = true ∧ solid ',' = true := by
  decide

theorem nodigs : isDig '@' = false ∧ isDig '#' = false ∧ isDig '&' = false ∧ isDig '$' = false ∧
    isDig '^' = false ∧ isDig '!' = false := by decide

theorem Spec.Index.num {n : Int} (h : Index n) : Num n := Num.nat h.1 h.2
theorem num_small {n : Int} (h1 : -9 ≤ n) (h2 : n < 2 ^ 31) : Num n := by
  refine ⟨by omega, h2, ?_⟩
  by_cases h : 0 ≤ n
  · exact .inl h
  · exact .inr ⟨n.natAbs, 0, by omega, by simp only [Nat.pow_zero, Nat.mul_one]; omega⟩

theorem Spec.DefState.num {n : Int} (h : DefState n) : Num n := num_small (by have := h.1; omega) (by have := h.2; omega)
theorem Spec.NullState.num {n : Int} (h : NullState n) : Num n := num_small (by have := h.1; omega) (by have := h.2; omega)
theorem Spec.AliasKind.num {n : Int} (h : AliasKind n) : Num n := num_small (by have := h.1; omega) (by have := h.2; omega)
theorem Spec.ExKind.num {n : Int} (h : ExKind n) : Num n := num_small (by have := h.1; omega) (by have := h.2; omega)
theorem Spec.ExitCode.num {n : Int} (h : ExitCode n) : Num n := num_small (by have := h.1; omega) (by have := h.2; omega)
theorem Spec.SpecCode.num {n : Int} (h : SpecCode n) : Num n := num_small (by have := h.1; omega) (by have := h.2; omega)

/-- The name at the end of an entry. -/
theorem name_text {w s : List Char} (hw : Name w) (hs : NameEnd s) :
    undumpName ('#' :: (w ++ s)) = some (w, s) := by
  have h1 : (w ++ s).takeWhile isWordChar = w := by
    rw [List.takeWhile_append_of_pos hw]
    cases s with
    | nil => simp
    | cons c cs => simp [List.takeWhile_cons, hs c cs rfl]
  have h2 : (w ++ s).dropWhile isWordChar = s := by
    rw [List.dropWhile_append_of_pos hw]
    cases s with
    | nil => simp
    | cons c cs => simp [List.dropWhile_cons, hs c cs rfl]
  unfold undumpName
  simp only [check_hit, Option.bind_eq_bind, Option.bind_some, getWord, h1, h2]
  cases w <;> simp

/-- Behind a variable's state comes its name. -/
theorem var_text {ds ns ak ex ch : Int} (h1 : DefState ds) (h2 : NullState ns) (h3 : AliasKind ak)
    (h4 : ExKind ex) (h5 : 0 ≤ ch ∧ ch ≤ 4) (r : List Char) :
    undumpVar (varText ds ns ak ex ch ++ '#' :: r) =
      some ((ds, ns, if ds = 0 ∧ ns = 0 ∧ ak = 0 ∧ ex = 0 ∧ ch = 0 then 7 else ak, ex, ch),
        '#' :: r) := by
  have n5 : Num ch := num_small (by omega) (by omega)
  unfold varText
  split_ifs with a b c d e f g i j
  all_goals try (exfalso; simp only [ssUnknown, ssDefined, nsUnknown, akImpTemp, akUnknown, xoUnknown, chUnknown] at *; omega)
  · obtain ⟨rfl, rfl, rfl, rfl, rfl⟩ := a
    simp [undumpVar, opt_hit]
  · obtain ⟨rfl, rfl, rfl, rfl, rfl⟩ := c
    simp [undumpVar, opt_hit, opt_miss]
  · obtain ⟨rfl, rfl, rfl, rfl, rfl⟩ := e
    simp [undumpVar, opt_hit, opt_miss, akImpTemp]
  all_goals
    have m1 := h1.num
    have m2 := h2.num
    have m3 := h3.num
    have m4 := h4.num
    have l1 : ssUnknown ≤ ds ∧ ds ≤ ssLast - 1 := h1
    have l2 := h2.1
    have l2' := h2.2
    have l3 : akUnknown ≤ ak ∧ ak ≤ akLocal := h3
    have l4 : xoUnknown ≤ ex ∧ ex ≤ xoObserver := h4
  · obtain ⟨rfl, rfl⟩ := g
    simp [undumpVar, opt_hit, opt_int, number_solid, field_solid, solids, nodigs, m1, m2, m3,
      l1, l2, l2', l3]
  · simp [undumpVar, opt_miss, opt_int, number_solid, field_solid, check_hit, getInt_solid, solids,
      nodigs, m1, m2, m3, m4, n5, l1, l2, l2', l3, l4]

theorem vkind_text {vk : Int} (h : 0 ≤ vk ∧ vk ≤ 11) {c : Char} {r : List Char} (hc : c ≠ '@') :
    undumpVKind ((if vk ≠ vkParam then '@' :: (intText vk ++ ['|']) else []) ++ c :: r)
      = some (vk, c :: r) := by
  have n : Num vk := num_small (by omega) (by omega)
  split_ifs with e
  · have := h.2
    simp [undumpVKind, opt_hit, number_solid, solids, n, h.1, show vk ≤ vkLast from this, check_hit]
  · have e : vk = vkParam := by simpa using e
    simp [undumpVKind, opt_miss, hc, e]

theorem varText_cons (ds ns ak ex ch : Int) (r : List Char) : ∃ c cs,
    varText ds ns ak ex ch ++ r = c :: cs ∧ c ≠ '@' := by
  have : ∃ c cs, varText ds ns ak ex ch = c :: cs ∧ c ≠ '@' := by
    unfold varText
    obtain ⟨c, cs, e, h⟩ := intText_cons ds
    have hc : c ≠ '@' := by rintro rfl; revert h; decide
    split_ifs
    · exact ⟨_, _, rfl, by decide⟩
    · exact ⟨_, _, rfl, by decide⟩
    · exact ⟨_, _, rfl, by decide⟩
    · rw [e]; exact ⟨_, _, rfl, hc⟩
    · rw [e]; exact ⟨_, _, rfl, hc⟩
  obtain ⟨c, cs, e, h⟩ := this
  exact ⟨c, cs ++ r, by rw [e]; rfl, h⟩

/-- A text in front of which a number ends, of those in a function's entry. -/
def Lead (r : List Char) : Prop := ∃ c cs, r = c :: cs ∧ solid c = true ∧ c ≠ '='

theorem Lead.mk {c : Char} {cs : List Char} (h : solid c = true) (h2 : c ≠ '=') : Lead (c :: cs) :=
  ⟨c, cs, rfl, h, h2⟩

theorem state_text {env : Env} {f : Fcn} (h : ValidFcn env f) {r : List Char} (hr : Lead r) :
    undumpState env (f.stateText ++ r) = some ((f.ds, f.ns, f.exit, f.spec, f.nullPred), r) := by
  obtain ⟨c, cs, rfl, hc, -⟩ := hr
  unfold Fcn.stateText
  split_ifs with a
  · obtain ⟨e1, e2, e3, e4, e5⟩ := a
    simp [undumpState, opt_hit, e1, e2, e3, e4, e5]
  · obtain ⟨q, e, q1, q2⟩ := h.nullPred
    have m5 : Num q := num_small (by omega) (by omega)
    have l1 : ssUnknown ≤ f.ds ∧ f.ds ≤ ssLast - 1 := h.ds
    have l3 : f.exit ≤ xkLast := h.exit.2
    have l4 : spcNone ≤ f.spec ∧ f.spec ≤ spcLast - 1 := h.spec
    have q3 : q ≠ quUserAnnot := by unfold quUserAnnot; omega
    have q4 : q ≤ quUserAnnot := by unfold quUserAnnot; omega
    simp [undumpState, opt_miss, field_solid, solids, h.ds.num, h.ns.num, h.exit.num, h.spec.num, l1, h.ns.1,
      h.ns.2, h.exit.1, l3, l4, check_hit, e, Qual.dump, Qual.undump, getInt_solid, m5, hc, q3, q4, q1]

theorem alias_text {f : Fcn} (h1 : AliasKind f.ak) (h2 : ExKind f.ex) {r : List Char} (hr : Lead r) :
    undumpAlias (f.aliasText ++ r) = some ((f.ak, f.ex), r) := by
  obtain ⟨c, cs, rfl, hc, -⟩ := hr
  unfold Fcn.aliasText
  split_ifs with a
  · simp [undumpAlias, opt_hit, a.1, a.2]
  · have l3 : akUnknown ≤ f.ak ∧ f.ak ≤ akLocal := h1
    have l4 : xoUnknown ≤ f.ex ∧ f.ex ≤ xoObserver := h2
    simp [undumpAlias, opt_miss, field_solid, solids, h1.num, h2.num, l3, l4, hc]

theorem glob_text {g : GRef} (h : ValidGlob g) {c : Char} {r : List Char} (hc : solid c = true) :
    GRef.undump (g.dump ++ c :: r) = some (g, c :: r) := by
  cases g with
  | undef => rfl
  | unknown => rfl
  | special k =>
    have : Num k := num_small (by have := h.1; omega) (by have := h.2; omega)
    simp [GRef.dump, GRef.undump, number_solid this hc h.1 h.2]
  | glob n ds ns =>
    obtain ⟨h1, h2, h3⟩ := h
    have l1 : ssUnknown ≤ ds ∧ ds ≤ ssLast - 1 := h2
    simp [GRef.dump, GRef.undump, getInt_solid, field_solid, solids, h1.num, h2.num, h3.num, l1, h3.1, h3.2, hc]

theorem glob_head (g : GRef) : ∃ c cs, g.dump = c :: cs ∧ Ref.isEnd c = false := by
  cases g <;> exact ⟨_, _, rfl, by decide⟩

theorem globs_textN (r : List Char) : ∀ (l : List GRef), (∀ g ∈ l, ValidGlob g) → ∀ k, l.length < k →
    undumpGlobsN k (commas (l.map GRef.dump) ++ '@' :: r) = some (l, '@' :: r) := by
  intro l
  induction l with
  | nil =>
    intro _ k hk
    obtain ⟨k, rfl⟩ : ∃ k', k = k' + 1 := ⟨k - 1, by simp at hk; omega⟩
    simp [undumpGlobsN, commas, Ref.isEnd]
  | cons g gs ih =>
    intro hl k hk
    obtain ⟨k, rfl⟩ : ∃ k', k = k' + 1 := ⟨k - 1, by simp at hk; omega⟩
    have hg := hl g (by simp)
    have ih := ih (fun q hq => hl q (by simp [hq])) k (by simp at hk; omega)
    obtain ⟨c, cs, e, he⟩ := glob_head g
    cases gs with
    | nil =>
      have := glob_text hg (c := '@') (r := r) (by decide)
      simp only [List.map_cons, List.map_nil, commas] at ih ⊢
      rw [e] at this ⊢
      simp only [List.cons_append] at this ⊢
      simp only [undumpGlobsN, he, this, Bool.false_eq_true, if_false, Option.bind_eq_bind,
        Option.bind_some, opt_miss (show '@' ≠ ',' by decide)]
      simp only [List.nil_append] at ih
      simp [ih]
    | cons g2 gs =>
      have := glob_text hg (c := ',') (r := commas ((g2 :: gs).map GRef.dump) ++ '@' :: r) (by decide)
      simp only [List.map_cons, commas, List.append_assoc, List.cons_append] at ih this ⊢
      rw [e] at this ⊢
      simp only [List.cons_append] at this ⊢
      simp only [undumpGlobsN, he, this, Bool.false_eq_true, if_false, Option.bind_eq_bind,
        Option.bind_some, opt_hit]
      simp [ih]

theorem commas_length (l : List (List Char)) (h : ∀ t ∈ l, t ≠ []) : l.length ≤ (commas l).length := by
  induction l with
  | nil => simp
  | cons t ts ih =>
    have h1 : 1 ≤ t.length := by
      have := h t (by simp)
      cases t with
      | nil => exact absurd rfl this
      | cons c cs => simp
    have ih := ih (fun u hu => h u (by simp [hu]))
    cases ts with
    | nil => simpa [commas] using h1
    | cons u us => simp only [commas, List.length_append, List.length_cons] at ih ⊢; omega

theorem globs_text {l : List GRef} (hl : ∀ g ∈ l, ValidGlob g) (r : List Char) :
    undumpGlobs (commas (l.map GRef.dump) ++ '@' :: r) = some (l, '@' :: r) := by
  refine globs_textN r l hl _ ?_
  have := commas_length (l.map GRef.dump) (by
    intro t ht
    obtain ⟨g, -, rfl⟩ := List.mem_map.1 ht
    obtain ⟨c, cs, e, -⟩ := glob_head g
    rw [e]; simp)
  simp only [List.length_map, List.length_append, List.length_cons] at this ⊢
  omega

theorem bool_text (b : Bool) {c : Char} {r : List Char} (hc : solid c = true) :
    ∃ n, getInt (boolText b ++ c :: r) = some (n, c :: r) ∧ decide (n ≠ 0) = b := by
  cases b
  · rw [show boolText false = intText 0 by decide +kernel]
    exact ⟨0, getInt_solid (n := 0) (num_small (by decide) (by decide)) hc, rfl⟩
  · rw [show boolText true = intText 1 by decide +kernel]
    exact ⟨1, getInt_solid (n := 1) (num_small (by decide) (by decide)) hc, rfl⟩

theorem globMods_text {env : Env} {f : Fcn} (h : ValidFcn env f) {e : Char} {r : List Char}
    (he : Ref.isEnd e = true) :
    undumpGlobMods env (f.globText ++ e :: r) =
      some ((f.hasGlobs, f.globs, f.hasMods, f.mods), e :: r) := by
  unfold Fcn.globText
  split_ifs with a b
  · simp [undumpGlobMods, opt_hit, a.1, a.2, h.noGlobs a.1, h.noMods a.2]
  · simp [undumpGlobMods, opt_hit, opt_miss, b.1, b.2.1, b.2.2.1, b.2.2.2]
  · obtain ⟨n, g1, g2⟩ := bool_text f.hasGlobs (c := '@') (r := commas (f.globs.map GRef.dump) ++ '@' ::
      (boolText f.hasMods ++ '@' :: (Ref.dumpList f.mods ++ e :: r))) (by decide)
    obtain ⟨m, g3, g4⟩ := bool_text f.hasMods (c := '@') (r := Ref.dumpList f.mods ++ e :: r) (by decide)
    simp only [undumpGlobMods, List.cons_append, List.append_assoc, opt_miss (show '@' ≠ '$' by decide),
      opt_miss (show '@' ≠ '^' by decide), check_hit, Option.bind_eq_bind, Option.bind_some, g1,
      globs_text h.globs, g3, Ref.undumpList_dump he _ h.mods, g2, g4]

theorem take_stop {p : Char → Bool} {w : List Char} {c : Char} {r : List Char}
    (hw : ∀ x ∈ w, p x = true) (hc : p c = false) :
    (w ++ c :: r).takeWhile p = w ∧ (w ++ c :: r).dropWhile p = c :: r := by
  constructor
  · rw [List.takeWhile_append_of_pos hw]; simp [hc]
  · rw [List.dropWhile_append_of_pos hw]; simp [hc]

theorem until_text {x : Char} {w r : List Char} (h1 : w ≠ []) (h2 : x ∉ w) :
    readUntil x (w ++ x :: r) = some (w, x :: r) := by
  obtain ⟨e1, e2⟩ := take_stop (p := (· ≠ x)) (w := w) (c := x) (r := r)
    (by intro y hy; simp; rintro rfl; exact h2 hy) (by simp)
  unfold readUntil
  rw [e1, e2, if_pos ⟨by simp, h1⟩]

theorem flagName_text {w : List Char} {c : Char} {r : List Char} (h1 : w ≠ []) (h2 : '#' ∉ w) (h3 : '|' ∉ w)
    (hc : c = '#' ∨ c = '|') : flagName (w ++ c :: r) = some (w, c :: r) := by
  obtain ⟨e1, e2⟩ := take_stop (p := fun c => !(c = '#' || c = '|')) (w := w) (c := c) (r := r)
    (by intro y hy
        simp only [Bool.not_eq_true', Bool.or_eq_false_iff, decide_eq_false_iff_not]
        exact ⟨by rintro rfl; exact h2 hy, by rintro rfl; exact h3 hy⟩)
    (by rcases hc with rfl | rfl <;> simp)
  unfold flagName
  simp only [e1, e2]
  simp [h1]

theorem flags_textN (r : List Char) : ∀ (fs : List (List Char)) (f : List Char),
    (∀ g ∈ f :: fs, g ≠ [] ∧ '#' ∉ g ∧ '|' ∉ g) → ∀ k, fs.length < k →
    undumpFlagsN k (flagText f fs ++ '#' :: r) = some (f, fs, '#' :: r) := by
  intro fs
  induction fs with
  | nil =>
    intro f h k hk
    obtain ⟨k, rfl⟩ : ∃ k', k = k' + 1 := ⟨k - 1, by simp at hk; omega⟩
    obtain ⟨h1, h2, h3⟩ := h f (by simp)
    simp only [undumpFlagsN, flagText, flagName_text h1 h2 h3 (.inl rfl), Option.bind_eq_bind,
      Option.bind_some, opt_miss (show '#' ≠ '|' by decide)]
  | cons g gs ih =>
    intro f h k hk
    obtain ⟨k, rfl⟩ : ∃ k', k = k' + 1 := ⟨k - 1, by simp at hk; omega⟩
    obtain ⟨h1, h2, h3⟩ := h f (by simp)
    have ih := ih g (fun q hq => h q (by simp at hq ⊢; tauto)) k (by simp at hk; omega)
    simp only [undumpFlagsN, flagText, List.append_assoc, List.cons_append,
      flagName_text h1 h2 h3 (.inr rfl), Option.bind_eq_bind,
      Option.bind_some, opt_hit, ih]

theorem flagText_length (fs : List (List Char)) : ∀ f, fs.length ≤ (flagText f fs).length := by
  induction fs with
  | nil => simp
  | cons g gs ih => intro f; have := ih g; simp only [flagText, List.length_append, List.length_cons]; omega

theorem warn_text {w : Warn} (h : ValidWarn w) (r : List Char) : Warn.undump (w.dump ++ r) = some (w, r) := by
  obtain ⟨f, fs, m⟩ := w
  obtain ⟨h1, h2⟩ := h
  have key : ∀ t : List Char, undumpFlagsN ((flagText f fs ++ '#' :: t).length + 1) (flagText f fs ++ '#' :: t)
      = some (f, fs, '#' :: t) := by
    intro t
    refine flags_textN t fs f h1 _ ?_
    have := flagText_length fs f
    simp only [List.length_append, List.length_cons]; omega
  cases m with
  | none =>
    simp only [Warn.undump, Warn.dump, List.append_assoc, List.cons_append, List.nil_append, key,
      Option.bind_eq_bind, Option.bind_some, check_hit, opt_hit]
  | some m =>
    obtain ⟨m1, m2, m3⟩ := h2 m rfl
    have hd : ∀ t, optCheckChar '.' (m ++ t) = (false, m ++ t) := by
      intro t
      cases m with
      | nil => exact absurd rfl m1
      | cons c cs => exact opt_miss (by simpa using m2)
    simp only [Warn.undump, Warn.dump, List.append_assoc, List.cons_append, List.nil_append, key,
      Option.bind_eq_bind, Option.bind_some, check_hit, hd, until_text m1 m3]

theorem qual_text {env : Env} {q : Qual} (h : ValidQual env q) (r : List Char) :
    Qual.undump env (q.dump ++ '.' :: r) = some (q, '.' :: r) := by
  cases q with
  | plain n =>
    have : Num n := num_small (by have := h.1; omega) (by have := h.2; omega)
    have q3 : n ≠ quUserAnnot := by have := h.2; unfold quUserAnnot; omega
    have q4 : n ≤ quUserAnnot := by have := h.2; unfold quUserAnnot; omega
    simp [Qual.dump, Qual.undump, getInt_solid, solids, this, q3, q4, h.1]
  | annot a =>
    obtain ⟨h1, h2, h3⟩ := h
    have : Num quUserAnnot := num_small (by decide) (by decide)
    simp [Qual.dump, Qual.undump, getInt_solid, solids, this, check_hit, until_text h1 h2, h3]

theorem clause_text {env : Env} {c : Clause} (h : ValidClause env c) (r : List Char) :
    Clause.undump env (c.dump ++ '$' :: r) = some (c, '$' :: r) := by
  obtain ⟨h1, h2, h3, h4⟩ := h
  simp only [Clause.undump, Clause.dump, List.append_assoc, List.cons_append,
    getInt_solid h1.num (show solid '.' = true by decide), getInt_solid h2.num (show solid '.' = true by decide),
    Option.bind_eq_bind, Option.bind_some, check_hit, qual_text h3,
    Ref.undumpList_dump (show Ref.isEnd '$' = true by decide) _ h4]

theorem clause_head (c : Clause) : ∃ x xs, c.dump = x :: xs ∧ ¬ (x = '#' ∨ x = '@') := by
  obtain ⟨d, cs, e, h⟩ := intText_cons c.state
  refine ⟨d, _, by rw [Clause.dump, e]; rfl, ?_⟩
  rintro (rfl | rfl) <;> revert h <;> decide

theorem clauses_textN {env : Env} {e : Char} (he : e = '#' ∨ e = '@') (r : List Char) :
    ∀ (l : List Clause), (∀ c ∈ l, ValidClause env c) →
    ∀ k, l.length < k → undumpClausesN env k (clausesText l ++ e :: r) = some (l, e :: r) := by
  intro l
  induction l with
  | nil =>
    intro _ k hk
    obtain ⟨k, rfl⟩ : ∃ k', k = k' + 1 := ⟨k - 1, by simp at hk; omega⟩
    simp [undumpClausesN, clausesText, he]
  | cons c cs ih =>
    intro hl k hk
    obtain ⟨k, rfl⟩ : ∃ k', k = k' + 1 := ⟨k - 1, by simp at hk; omega⟩
    have ih := ih (fun q hq => hl q (by simp [hq])) k (by simp at hk; omega)
    obtain ⟨x, xs, ex, hx⟩ := clause_head c
    have := clause_text (hl c (by simp)) (clausesText cs ++ e :: r)
    simp only [clausesText, List.append_assoc, List.cons_append] at this ⊢
    rw [ex] at this ⊢
    simp only [List.cons_append] at this ⊢
    simp only [undumpClausesN, if_neg hx, this, Option.bind_eq_bind, Option.bind_some, check_hit, ih]

theorem clausesText_length (l : List Clause) : l.length ≤ (clausesText l).length := by
  induction l with
  | nil => simp
  | cons c cs ih => simp only [clausesText, List.length_append, List.length_cons]; omega

theorem clauses_text {env : Env} {l : List Clause} (hl : ∀ c ∈ l, ValidClause env c) (r : List Char) :
    undumpClausesN env ((clausesText l ++ '#' :: r).length + 1) (clausesText l ++ '#' :: r)
      = some (l, '#' :: r) := by
  refine clauses_textN (.inl rfl) r l hl _ ?_
  have := clausesText_length l
  simp only [List.length_append, List.length_cons]; omega

theorem extras_text {env : Env} {f : Fcn} (h : ValidFcn env f) (r : List Char) :
    extrasN env ((f.extraText ++ '#' :: r).length + 1) none none (f.extraText ++ '#' :: r)
      = some (f.warn, f.clauses, '#' :: r) := by
  have s3 : ∀ k w cl, extrasN env (k + 1) w cl ('#' :: r) = some (w, cl, '#' :: r) := by
    intro k w cl
    simp only [extrasN, opt_miss (show '#' ≠ '@' by decide)]
  have s2 : ∀ k w l, f.clauses = some l →
      extrasN env (k + 2) w none ('@' :: 'S' :: ':' :: (clausesText l ++ '#' :: r))
      = some (w, some l, '#' :: r) := by
    intro k w l e
    rw [extrasN]
    simp only [opt_hit, opt_miss (show 'S' ≠ 'W' by decide), check_hit, Option.bind_eq_bind,
      Option.bind_some, clauses_text (h.clauses l e), s3]
  unfold Fcn.extraText
  cases e : f.warn with
  | none =>
    cases e2 : f.clauses with
    | none => exact s3 _ _ _
    | some l =>
      simp only [List.nil_append, List.cons_append, List.length_cons]
      exact s2 _ _ _ e2
  | some w =>
    cases e2 : f.clauses with
    | none =>
      simp only [List.cons_append, List.append_assoc, List.length_cons, List.nil_append]
      rw [extrasN]
      simp only [opt_hit, check_hit, Option.bind_eq_bind, Option.bind_some, warn_text (h.warn w e)]
      exact s3 _ _ _
    | some l =>
      simp only [List.cons_append, List.append_assoc, List.length_cons, List.nil_append]
      rw [extrasN]
      simp only [opt_hit, check_hit, Option.bind_eq_bind, Option.bind_some, warn_text (h.warn w e)]
      exact s2 _ _ _ e2

theorem extra_lead (f : Fcn) (r : List Char) : ∃ c cs, f.extraText ++ '#' :: r = c :: cs ∧
    solid c = true := by
  unfold Fcn.extraText
  cases f.warn <;> cases f.clauses <;> exact ⟨_, _, rfl, by decide⟩

theorem alias_lead (f : Fcn) (r : List Char) : ∃ c cs, f.aliasText ++ r = c :: cs ∧
    Ref.isEnd c = true := by
  unfold Fcn.aliasText
  split_ifs <;> exact ⟨_, _, rfl, by decide⟩

theorem glob_lead (f : Fcn) (r : List Char) : Lead (f.globText ++ r) := by
  unfold Fcn.globText
  split_ifs <;> exact .mk (by decide) (by decide)

theorem state_head (f : Fcn) (r : List Char) : ∃ c cs, f.stateText ++ r = c :: cs ∧
    solid c = true := by
  unfold Fcn.stateText
  split_ifs <;> exact ⟨_, _, rfl, by decide⟩

theorem Abs.code_ofCode (a : Abs) (s : List Char) :
    loadChar (a.code :: s) = some (a.code, s) ∧ Abs.ofCode a.code = some a := by
  cases a <;> exact ⟨rfl, rfl⟩

theorem ynm_code (a : Ynm) (s : List Char) :
    loadChar (a.code :: s) = some (a.code, s) ∧ Ynm.ofCode a.code = some a := by
  cases a <;> exact ⟨rfl, rfl⟩

theorem type_text {ct : Int} (h : Index ct) : typeText ct = intText ct := Ref.typeText_nat h.1

/-- Every entry is read back as it was written, except a variable nothing is known of. -/
theorem entry_text {env : Env} {e : Entry} (h : Valid env e) {k : Kind} (hk : KindOf e k)
    (p : Bool) {s : List Char} (hs : NameEnd s) :
    ((Blank e → Entry.undump env k (e.dump p ++ s)
        = some (asTemp (if p then unnamed e else e), s)) ∧
      (¬ Blank e → Entry.undump env k (e.dump p ++ s) = some (if p then unnamed e else e, s))) := by
  have start : ∀ {ct : Int} (_ : Index ct) {c : Char} {r : List Char}, solid c = true →
      Entry.undump env k (typeText ct ++ c :: r) = undumpBody env ct k (c :: r) := by
    intro ct hct c r hc
    unfold Entry.undump
    rw [type_text hct, opt_int _ _ (by decide) (by decide)]
    simp only [getInt_solid hct.num hc, Option.bind_eq_bind, Option.bind_some]
  have nm : ∀ {ct : Int} (_ : Index ct) {r : List Char}, getInt (typeText ct ++ '#' :: r) = some (ct, '#' :: r) := by
    intro ct hct r
    rw [type_text hct, getInt_solid hct.num (by decide)]
  cases e with
  | elips =>
    refine ⟨fun h => h.elim, fun _ => ?_⟩
    simp only [Entry.dump, List.cons_append, List.nil_append, Entry.undump, opt_hit, check_hit,
      Option.bind_eq_bind, Option.bind_some]
    cases p <;> rfl
  | var ct vk ds ns ak ex ch name =>
    obtain ⟨h1, h2, h3, h4, h5, h6, h7, h8⟩ := h
    cases hk
    have hn : Name (if p then [] else name) := by
      cases p
      · exact h8
      · intro c hc; simp at hc
    have key : Entry.undump env .var ((Entry.var ct vk ds ns ak ex ch name).dump p ++ s) =
        some (.var ct vk ds ns (if ds = 0 ∧ ns = 0 ∧ ak = 0 ∧ ex = 0 ∧ ch = 0 then 7 else ak) ex ch
          (if p then [] else name), s) := by
      simp only [Entry.dump, List.append_assoc, List.cons_append]
      rw [start h1 (by decide)]
      simp only [undumpBody, check_hit, Option.bind_eq_bind, Option.bind_some]
      obtain ⟨c, cs, e, hc⟩ := varText_cons ds ns ak ex ch ('#' :: ((if p = true then [] else name) ++ s))
      rw [e, vkind_text h2 hc, ← e]
      simp only [Option.bind_some]
      rw [var_text h3 h4 h5 h6 h7]
      simp only [Option.bind_some]
      rw [name_text hn hs]
      rfl
    rw [key]
    constructor
    · intro hb
      have hb : ds = 0 ∧ ns = 0 ∧ ak = 0 ∧ ex = 0 ∧ ch = 0 := hb
      rw [if_pos hb]
      cases p <;> rfl
    · intro hb
      have hb : ¬ (ds = 0 ∧ ns = 0 ∧ ak = 0 ∧ ex = 0 ∧ ch = 0) := hb
      rw [if_neg hb]
      cases p <;> rfl
  | datatype ct ab mt ds ns ak ex rt name =>
    obtain ⟨h1, h3, h4, h5, h6, h7, h8⟩ := h
    cases hk
    refine ⟨fun h => h.elim, fun _ => ?_⟩
    simp only [Entry.dump, List.append_assoc, List.cons_append]
    rw [start h1 (by decide)]
    have l1 : ssUnknown ≤ ds ∧ ds ≤ ssLast - 1 := h3
    have l3 : akUnknown ≤ ak ∧ ak ≤ akLocal := h5
    have l4 : xoUnknown ≤ ex ∧ ex ≤ xoObserver := h6
    have sa : solid '@' = true := by decide
    have e1 := fun s => (Abs.code_ofCode ab s).1
    have e2 := (Abs.code_ofCode ab []).2
    have e3 := fun s => (ynm_code mt s).1
    have e4 := (ynm_code mt []).2
    rw [undumpBody]
    simp only [check_hit, Option.bind_eq_bind, Option.bind_some]
    rw [e1]
    simp only [check_hit, Option.bind_some, e2]
    rw [e3]
    simp only [Option.bind_some, e4]
    rw [field_solid h3.num sa l1.1 l1.2]
    simp only [Option.bind_some]
    rw [field_solid h4.num sa h4.1 h4.2]
    simp only [Option.bind_some]
    rw [field_solid h5.num sa l3.1 l3.2]
    simp only [Option.bind_some]
    rw [field_solid h6.num sa l4.1 l4.2]
    simp only [Option.bind_some, check_hit]
    rw [nm h7]
    simp only [Option.bind_some]
    rw [name_text h8 hs]
    cases p <;> rfl
  | fcn ct f name =>
    obtain ⟨h1, h2, h8⟩ := h
    cases hk
    refine ⟨fun h => h.elim, fun _ => ?_⟩
    simp only [Entry.dump, List.append_assoc, List.cons_append]
    obtain ⟨c, cs, e, hc⟩ := state_head f (f.globText ++ (f.aliasText ++ '@' :: (intText f.access ++
      (f.extraText ++ '#' :: (name ++ s)))))
    rw [e, start h1 hc, ← e]
    obtain ⟨c2, cs2, e2, hc2⟩ := alias_lead f ('@' :: (intText f.access ++
      (f.extraText ++ '#' :: (name ++ s))))
    have g := globMods_text h2 (r := cs2) hc2
    rw [← e2] at g
    obtain ⟨c3, cs3, e3, hc3⟩ := extra_lead f (name ++ s)
    have a := field_solid (n := f.access) (lo := 0) (hi := env.sets - 1) (r := cs3)
      (num_small (by have := h2.access; omega) (by have := h2.access; omega)) hc3 h2.access.1
      (by have := h2.access; omega)
    rw [← e3] at a
    have st := state_text h2 (glob_lead f (f.aliasText ++ '@' :: (intText f.access ++
      (f.extraText ++ '#' :: (name ++ s)))))
    have al := alias_text h2.ak h2.ex (Lead.mk (cs := intText f.access ++ (f.extraText ++ '#' :: (name ++ s)))
        (show solid '@' = true by decide) (show '@' ≠ '=' by decide))
    have ex := extras_text h2 (name ++ s)
    have nt := name_text h8 hs
    rw [undumpBody]
    simp only [st, Option.bind_eq_bind, Option.bind_some]
    simp only [g, Option.bind_some]
    simp only [al, Option.bind_some]
    simp only [a, Option.bind_some]
    simp only [ex, Option.bind_some]
    simp only [nt, Option.bind_some]
    cases p <;> rfl
  | iter ct access name =>
    obtain ⟨h1, h2, h8⟩ := h
    cases hk
    refine ⟨fun h => h.elim, fun _ => ?_⟩
    simp only [Entry.dump, List.append_assoc, List.cons_append]
    rw [start h1 (by decide)]
    have a := field_solid (n := access) (lo := 0) (hi := env.sets - 1) (c := '#') (r := name ++ s)
      (num_small (by omega) (by omega)) (by decide) h2.1 (by omega)
    simp only [undumpBody, a, Option.bind_eq_bind, Option.bind_some, name_text h8 hs]
    cases p <;> rfl
  | endIter ct access name =>
    obtain ⟨rfl, h2, h8⟩ := h
    cases hk
    refine ⟨fun h => h.elim, fun _ => ?_⟩
    simp only [Entry.dump, List.append_assoc, List.cons_append]
    rw [start ⟨by decide, by decide⟩ (by decide)]
    have a := field_solid (n := access) (lo := 0) (hi := env.sets - 1) (c := '#') (r := name ++ s)
      (num_small (by omega) (by omega)) (by decide) h2.1 (by omega)
    simp only [undumpBody, a, Option.bind_eq_bind, Option.bind_some, name_text h8 hs]
    cases p <;> rfl
  | tag t ct rt name =>
    obtain ⟨h1, h2, h8⟩ := h
    cases hk
    refine ⟨fun h => h.elim, fun _ => ?_⟩
    simp only [Entry.dump, List.append_assoc, List.cons_append]
    rw [start h1 (by decide)]
    simp only [undumpBody, check_hit, nm h2, Option.bind_eq_bind, Option.bind_some, name_text h8 hs]
    cases p <;> rfl

/-! ## Types -/

theorem entry_head {e : Entry} (h : e = .elips ∨ ∃ ct vk ds ns ak ex ch w, e = .var ct vk ds ns ak ex ch w)
    (hc : ∀ ct vk ds ns ak ex ch w, e = .var ct vk ds ns ak ex ch w → Index ct) (p : Bool) :
    ∃ c cs, e.dump p = c :: cs ∧ c ≠ '#' ∧ c ≠ '@' ∧ c ≠ ')' ∧ c ≠ '}' ∧ (e ≠ .elips → c ≠ '!') := by
  rcases h with rfl | ⟨ct, vk, ds, ns, ak, ex, ch, w, rfl⟩
  · exact ⟨_, _, rfl, by decide, by decide, by decide, by decide, fun h => absurd rfl h⟩
  · obtain ⟨d, cs, e, h⟩ := intText_cons ct
    refine ⟨d, _, by rw [Entry.dump, type_text (hc _ _ _ _ _ _ _ _ rfl), e]; rfl, ?_⟩
    refine ⟨?_, ?_, ?_, ?_, fun _ => ?_⟩ <;> · rintro rfl; revert h; decide

theorem nameEnd_comma (r : List Char) : NameEnd (',' :: r) := by
  intro c cs e; cases e; decide

theorem params_textN {env : Env} (r : List Char) : ∀ (l : List Entry), (∀ e ∈ l, ValidParam env e) →
    ∀ k, l.length < k → undumpParamsN env k (paramsText l ++ ')' :: r) = some (l, r) := by
  intro l
  induction l with
  | nil =>
    intro _ k hk
    obtain ⟨k, rfl⟩ : ∃ k', k = k' + 1 := ⟨k - 1, by simp at hk; omega⟩
    simp [undumpParamsN, paramsText, check_hit]
  | cons e es ih =>
    intro hl k hk
    obtain ⟨k, rfl⟩ : ∃ k', k = k' + 1 := ⟨k - 1, by simp at hk; omega⟩
    have ih := ih (fun q hq => hl q (by simp [hq])) k (by simp at hk; omega)
    obtain ⟨v, nb, f⟩ := hl e (by simp)
    have hk : KindOf e .var := by
      rcases f with rfl | ⟨_, _, _, _, _, _, _, rfl⟩
      · trivial
      · rfl
    have hu : unnamed e = e := by
      rcases f with rfl | ⟨_, _, _, _, _, _, _, rfl⟩ <;> rfl
    have t := (entry_text v hk true (nameEnd_comma (paramsText es ++ ')' :: r))).2 nb
    simp only [if_true, hu] at t
    obtain ⟨c, cs, ec, c1, c2, c3, -, -⟩ := entry_head (e := e)
      (by rcases f with rfl | ⟨a1, a2, a3, a4, a5, a6, a7, rfl⟩
          · exact .inl rfl
          · exact .inr ⟨a1, a2, a3, a4, a5, a6, a7, [], rfl⟩)
      (by rintro _ _ _ _ _ _ _ _ rfl; exact v.1) true
    simp only [paramsText, List.append_assoc, List.cons_append]
    rw [ec] at t ⊢
    simp only [List.cons_append] at t ⊢
    simp only [undumpParamsN, if_neg (show ¬ (c = '#' ∨ c = '@' ∨ c = ')') by tauto), t, Option.bind_eq_bind,
      Option.bind_some, check_hit, ih]

theorem paramsText_length (l : List Entry) : l.length ≤ (paramsText l).length := by
  induction l with
  | nil => simp
  | cons c cs ih => simp only [paramsText, List.length_append, List.length_cons]; omega

theorem fields_textN {env : Env} (r : List Char) : ∀ (l : List Entry), (∀ e ∈ l, ValidField env e) →
    ∀ k, l.length < k → undumpFieldsN env k (fieldsText l ++ '}' :: r) = some (l, r) := by
  intro l
  induction l with
  | nil =>
    intro _ k hk
    obtain ⟨k, rfl⟩ : ∃ k', k = k' + 1 := ⟨k - 1, by simp at hk; omega⟩
    simp [undumpFieldsN, fieldsText]
  | cons e es ih =>
    intro hl k hk
    obtain ⟨k, rfl⟩ : ∃ k', k = k' + 1 := ⟨k - 1, by simp at hk; omega⟩
    have ih := ih (fun q hq => hl q (by simp [hq])) k (by simp at hk; omega)
    obtain ⟨v, nb, f⟩ := hl e (by simp)
    rcases f with ⟨a1, a2, a3, a4, a5, a6, a7, w, rfl⟩ | ⟨ct, f, w, rfl⟩
    · have t := (entry_text v (k := .var) rfl false (nameEnd_comma (fieldsText es ++ '}' :: r))).2 nb
      simp only [Bool.false_eq_true, if_false] at t
      obtain ⟨c, cs, ec, -, -, -, c4, c5⟩ := entry_head (e := .var a1 a2 a3 a4 a5 a6 a7 w)
        (.inr ⟨a1, a2, a3, a4, a5, a6, a7, w, rfl⟩)
        (by rintro _ _ _ _ _ _ _ _ h; cases h; exact v.1) false
      simp only [fieldsText, List.append_assoc, List.cons_append]
      rw [ec] at t ⊢
      simp only [List.cons_append] at t ⊢
      simp only [undumpFieldsN, if_neg c4, if_neg (c5 (by simp)), t, Option.bind_eq_bind,
        Option.bind_some, check_hit, ih]
    · have t := (entry_text v (k := .fcn) rfl false (nameEnd_comma (fieldsText es ++ '}' :: r))).2 nb
      simp only [Bool.false_eq_true, if_false] at t
      simp only [fieldsText, List.append_assoc, List.cons_append]
      simp only [undumpFieldsN, if_neg (show '!' ≠ '}' by decide), if_true, t, Option.bind_eq_bind,
        Option.bind_some, check_hit, ih]

theorem fieldsText_length (l : List Entry) : l.length ≤ (fieldsText l).length := by
  induction l with
  | nil => simp
  | cons c cs ih => cases c <;> simp only [fieldsText, List.length_append, List.length_cons] <;> omega

theorem split_text {x : Char} {w r : List Char} (h : x ∉ w) : splitAt x (w ++ x :: r) = some (w, r) := by
  obtain ⟨e1, e2⟩ := take_stop (p := (· ≠ x)) (w := w) (c := x) (r := r)
    (by intro y hy; simp; rintro rfl; exact h hy) (by simp)
  unfold splitAt
  rw [if_pos (by simp), e1, e2]
  rfl

theorem names_textN {r : List Char} (hr : ',' ∉ r) : ∀ (ms : List (List Char)) (m : List Char),
    (∀ w ∈ m :: ms, ',' ∉ w ∧ '}' ∉ w) → ∀ k, ms.length < k →
    undumpNamesN k (commas (m :: ms) ++ '}' :: r) = some (m :: ms, r) := by
  intro ms
  induction ms with
  | nil =>
    intro m h k hk
    obtain ⟨k, rfl⟩ : ∃ k', k = k' + 1 := ⟨k - 1, by simp at hk; omega⟩
    obtain ⟨h1, h2⟩ := h m (by simp)
    obtain ⟨e1, e2⟩ := take_stop (p := (· ≠ '}')) (w := m) (c := '}') (r := r)
      (by intro y hy; simp; rintro rfl; exact h2 hy) (by simp)
    show undumpNamesN (k + 1) (m ++ '}' :: r) = _
    rw [undumpNamesN, if_neg (by simp [h1, hr]), if_pos (by simp), e1, e2]
    rfl
  | cons g gs ih =>
    intro m h k hk
    obtain ⟨k, rfl⟩ : ∃ k', k = k' + 1 := ⟨k - 1, by simp at hk; omega⟩
    obtain ⟨h1, h2⟩ := h m (by simp)
    have ih := ih g (fun q hq => h q (by simp at hq ⊢; tauto)) k (by simp at hk; omega)
    obtain ⟨e1, e2⟩ := take_stop (p := (· ≠ ',')) (w := m) (c := ',') (r := commas (g :: gs) ++ '}' :: r)
      (by intro y hy; simp; rintro rfl; exact h1 hy) (by simp)
    simp only [commas, List.append_assoc, List.cons_append] at ih e1 e2 ⊢
    rw [undumpNamesN, if_pos (by simp), e1, e2]
    simp only [List.drop_succ_cons, List.drop_zero, ih, Option.bind_eq_bind, Option.bind_some]

theorem names_text {r : List Char} (hr : ',' ∉ r) {ms : List (List Char)}
    (h : ∀ w ∈ ms, w ≠ [] ∧ ',' ∉ w ∧ '}' ∉ w) :
    undumpNames (commas ms ++ '}' :: r) = some (ms, r) := by
  cases ms with
  | nil => rfl
  | cons m ms =>
    have hl := commas_length (m :: ms) (fun t ht => (h t ht).1)
    have := names_textN hr ms m (fun w hw => (h w hw).2) ((commas (m :: ms) ++ '}' :: r).length + 1) (by
      simp only [List.length_append, List.length_cons] at hl ⊢; omega)
    obtain ⟨m1, -, m3⟩ := h m (by simp)
    obtain ⟨c, cs, rfl⟩ : ∃ c cs, m = c :: cs := by
      cases m with
      | nil => exact absurd rfl m1
      | cons c cs => exact ⟨c, cs, rfl⟩
    have hc : c ≠ '}' := by rintro rfl; simp at m3
    obtain ⟨t, et⟩ : ∃ t, commas ((c :: cs) :: ms) ++ '}' :: r = c :: t := by
      cases ms <;> exact ⟨_, rfl⟩
    rw [et] at this ⊢
    unfold undumpNames
    split
    · next e => cases e; exact absurd rfl hc
    · exact this

theorem int_noChar {c : Char} (h1 : isDig c = false) (h2 : c ≠ '-') (n : Int) : c ∉ intText n := by
  have : ∀ n, c ∉ decimal n := by
    intro n hc
    rw [decimal_digits n c hc] at h1
    cases h1
  unfold intText
  split_ifs <;> simp [this, h2]

theorem numBar_text {n : Int} (h : Index n) (r : List Char) : numBar (intText n ++ '|' :: r) = some (n, r) := by
  simp only [numBar, getInt_solid h.num (show solid '|' = true by decide), check_hit, Option.bind_eq_bind,
    Option.bind_some]

theorem base_text {env : Env} {b : Base} (h : ValidBase env b) {r : List Char} (hr : ',' ∉ r) :
    Base.undump env (b.dump ++ r) = some (b, r) := by
  have ps : ∀ l, (∀ e ∈ l, ValidParam env e) →
      undumpParamsN env ((paramsText l ++ ')' :: r).length + 1) (paramsText l ++ ')' :: r) = some (l, r) := by
    intro l hl
    refine params_textN r l hl _ ?_
    have := paramsText_length l
    simp only [List.length_append, List.length_cons]; omega
  have fs : ∀ l, (∀ e ∈ l, ValidField env e) →
      undumpFieldsN env ((fieldsText l ++ '}' :: r).length + 1) (fieldsText l ++ '}' :: r) = some (l, r) := by
    intro l hl
    refine fields_textN r l hl _ ?_
    have := fieldsText_length l
    simp only [List.length_append, List.length_cons]; omega
  cases b with
  | undefined | unknown | bool => rfl
  | expFcn | enumList => exact h.elim
  | prim p =>
    have : Num p := num_small (by have := h.1; omega) (by have := h.2; omega)
    simp only [Base.dump, List.cons_append, List.append_assoc, List.nil_append, Base.undump,
      number_solid this (show solid '|' = true by decide) h.1 h.2, check_hit, Option.bind_eq_bind,
      Option.bind_some]
  | user t | abst t | numAbst t =>
    simp only [Base.dump, List.cons_append, List.append_assoc, List.nil_append, Base.undump,
      numBar_text h, Option.bind_eq_bind, Option.bind_some]
  | ptr t | array t =>
    simp only [Base.dump, List.cons_append, List.append_assoc, List.nil_append, Base.undump,
      type_text h, numBar_text h, Option.bind_eq_bind, Option.bind_some]
  | fixedArray t n =>
    simp only [Base.dump, List.cons_append, List.append_assoc, List.nil_append, Base.undump,
      type_text h.1, getInt_solid h.1.num (show solid '/' = true by decide), check_hit,
      numBar_text h.2, Option.bind_eq_bind, Option.bind_some]
  | fcn ct l =>
    have e1 : splitAt '(' (intText ct ++ ' ' :: '(' :: (paramsText l ++ ')' :: r)) =
        some (intText ct ++ [' '], paramsText l ++ ')' :: r) := by
      have := split_text (x := '(') (w := intText ct ++ [' ']) (r := paramsText l ++ ')' :: r)
        (by simp [int_noChar (c := '(') (by decide) (by decide)])
      simpa using this
    have e2 := getInt_num h.1.num (r := [' ']) (by intro d cs e; cases e; decide)
    simp only [Base.dump, List.cons_append, List.append_assoc, List.nil_append, Base.undump,
      type_text h.1, e1, e2, ps l h.2, Option.bind_eq_bind, Option.bind_some]
  | struct w l | union w l =>
    simp only [Base.dump, List.cons_append, List.append_assoc, List.nil_append, Base.undump,
      split_text h.1, fs l h.2, Option.bind_eq_bind, Option.bind_some]
  | enum w l =>
    simp only [Base.dump, List.cons_append, List.append_assoc, List.nil_append, Base.undump,
      split_text h.1, names_text hr h.2, Option.bind_eq_bind, Option.bind_some]
  | conj x a b =>
    obtain ⟨n, e1, e2⟩ := bool_text x (c := '.') (r := intText a ++ '/' :: (intText b ++ '|' :: r)) (by decide)
    simp only [Base.dump, List.cons_append, List.append_assoc, List.nil_append, Base.undump,
      type_text h.1, type_text h.2, e1, check_hit, getInt_solid h.1.num (show solid '/' = true by decide),
      numBar_text h.2, Option.bind_eq_bind, Option.bind_some, e2]

theorem base_head (b : Base) : ∃ c cs, b.dump = c :: cs ∧ isBlank c = false := by
  cases b <;> exact ⟨_, _, rfl, by decide⟩

/-- The last part of a type's line. -/
def tailText (e : TEntry) : List Char :=
  if e.ptr = ctDne ∧ e.array = ctDne ∧ e.bt = ctDne then ['&']
     else if e.bt = ctUndefined ∧ e.array = ctDne then
       if e.ptr = ctDne then ['!'] else '^' :: intText e.ptr
     else if e.ptr = ctDne ∧ e.array = ctDne then intText e.bt ++ ['&']
     else intText e.bt ++ ' ' :: (intText e.ptr ++ ' ' :: intText e.array)

theorem tail_noComma (e : TEntry) : ',' ∉ tailText e := by
  have := fun n => int_noChar (c := ',') (by decide) (by decide) n
  unfold tailText
  split_ifs <;> simp [this]

theorem tail_text {e : TEntry} (h1 : Link e.bt) (h2 : Link e.ptr) (h3 : Link e.array) :
    TEntry.undumpTail (tailText e) = some (e.bt, e.ptr, e.array) := by
  have nums : ∀ n, Link n → Num n := fun n h => num_small (by have := h.1; omega) h.2
  have last : ∀ n, Link n → getInt (intText n) = some (n, []) := by
    intro n h
    have := getInt_num (nums n h) (r := []) (by intro d cs e; cases e)
    simpa using this
  have mid : ∀ n m r, Link n → getInt (intText n ++ ' ' :: (intText m ++ r)) = some (n, intText m ++ r) := by
    intro n m r h
    have := getInt_num (nums n h) (r := ' ' :: (intText m ++ r)) (by intro d cs e; cases e; decide)
    rw [this]
    obtain ⟨d, cs, e, hd⟩ := intText_cons m
    have : isBlank d = false := by
      rcases hd with hd | rfl
      · by_contra hb
        simp only [isBlank, Bool.not_eq_false, Bool.or_eq_true, decide_eq_true_eq] at hb
        rcases hb with (rfl | rfl) | rfl <;> revert hd <;> decide
      · decide
    rw [e, List.dropWhile_cons_of_pos (by decide), List.cons_append, List.dropWhile_cons_of_neg (by simp [this])]
  unfold tailText
  split_ifs with a b c d
  · rw [a.1, a.2.1, a.2.2]; rfl
  · rw [b.1, b.2, c]; rfl
  · simp only [TEntry.undumpTail, opt_miss (show '^' ≠ '&' by decide), opt_miss (show '^' ≠ '!' by decide),
      opt_hit, last _ h2, Option.bind_eq_bind, Option.bind_some, b.1, b.2]
  · simp only [TEntry.undumpTail, opt_int _ _ (show isDig '&' = false by decide) (show '&' ≠ '-' by decide),
      opt_int _ _ (show isDig '!' = false by decide) (show '!' ≠ '-' by decide),
      opt_int _ _ (show isDig '^' = false by decide) (show '^' ≠ '-' by decide),
      getInt_solid (nums _ h1) (show solid '&' = true by decide), opt_hit,
      Option.bind_eq_bind, Option.bind_some, d.1, d.2]
  · have l2 := last _ h3
    simp only [TEntry.undumpTail, opt_int _ _ (show isDig '&' = false by decide) (show '&' ≠ '-' by decide),
      opt_int _ _ (show isDig '!' = false by decide) (show '!' ≠ '-' by decide),
      opt_int _ _ (show isDig '^' = false by decide) (show '^' ≠ '-' by decide), mid _ _ _ h1,
      Option.bind_eq_bind, Option.bind_some]
    have := mid e.ptr e.array [] h2
    rw [List.append_nil] at this
    simp only [this, Option.bind_some, l2]

theorem tentry_text {env : Env} {e : TEntry} (h : ValidType env e) : TEntry.undump env e.dump = some e := by
  have e1 : e.dump = intText e.kind ++ ' ' :: (e.base.dump ++ tailText e) := rfl
  have : Num e.kind := num_small (by have := h.kind; omega) (by have := h.kind; omega)
  have e2 := getInt_num this (r := ' ' :: (e.base.dump ++ tailText e)) (by intro d cs e; cases e; decide)
  obtain ⟨c, cs, ec, hc⟩ := base_head e.base
  have e3 : (' ' :: (e.base.dump ++ tailText e)).dropWhile isBlank = e.base.dump ++ tailText e := by
    rw [ec, List.dropWhile_cons_of_pos (by decide), List.cons_append, List.dropWhile_cons_of_neg (by simp [hc])]
  rw [e3] at e2
  rw [e1]
  simp only [TEntry.undump, number, e2, Option.bind_eq_bind, Option.bind_some,
    if_pos h.kind, base_text h.base (tail_noComma e), tail_text h.bt h.ptr h.array]

end Splint.LibEntry
