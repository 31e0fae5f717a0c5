import Verif.Spec.Options
import Verif.Props.FlagName
namespace Splint.Opt
open Flag

theorem loop_cons (cl : Bool) (a : Word) (rest : List Word) :
    loop cl (a :: rest) = (one cl a rest.head?).1 ++
      match (one cl a rest.head?).2 with
      | .next => loop cl rest
      | .skip => loop cl rest.tail
      | .stop => [] := by
  rw [loop]
  cases (one cl a rest.head?).2 <;> rfl

@[simp] theorem loop_nil (cl : Bool) : loop cl [] = [] := by rw [loop]

theorem flagName_eq (a : Word) : flagName a = Spec.name a := by
  rcases a with _ | ⟨c, _ | ⟨d, n⟩⟩
  · rfl
  · rfl
  · unfold flagName Spec.name
    simp only [List.drop_succ_cons, List.drop_zero, List.head?_cons, Option.some.injEq]
    by_cases h : d = '-'
    · subst h; rfl
    · rw [if_neg h]
      split
      · rename_i heq; simp only [List.cons.injEq] at heq; exact absurd heq.2.1 h
      · rename_i heq; simp only [List.cons.injEq] at heq; exact heq.2
      · rename_i heq; cases heq

theorem isOption_iff (a : Word) : isOption a = true ↔ Spec.signed a := by
  rcases a with _ | ⟨c, n⟩
  · simp [isOption, Spec.signed]
  · simp [isOption, Spec.signed]

theorem special_exactly : (List.range NUMFLAGS).all (fun f =>
    (argOf f == .special) == (Spec.letters.contains f || f == FLG_HELP)) = true := by
  decide +kernel

theorem table_length : table.length = NUMFLAGS := by decide +kernel

theorem argOf_special {f : Nat} : argOf f = .special ↔ f ∈ Spec.letters ∨ f = FLG_HELP := by
  by_cases hf : f < NUMFLAGS
  · have := List.all_eq_true.1 special_exactly f (List.mem_range.2 hf)
    simp only [beq_iff_eq] at this
    rw [Bool.eq_iff_iff] at this
    simpa using this
  · have h1 : argOf f = .none := by
      unfold argOf
      rw [List.getElem?_eq_none (by rw [table_length]; omega)]
      rfl
    rw [h1]
    simp only [reduceCtorEq, false_iff, not_or]
    constructor
    · intro h
      simp only [Spec.letters, List.mem_cons, List.not_mem_nil, or_false] at h
      rcases h with rfl | rfl | rfl | rfl <;> exact hf (by decide)
    · rintro rfl; exact hf (by decide)

theorem wants_iff (f : Nat) : Spec.wantsArgument f ↔ argOf f ≠ .none ∧ argOf f ≠ .special := by
  unfold Spec.wantsArgument argOf
  cases h : table[f]? with
  | none => simp
  | some r => simp

/-- The arguments used by flags. -/
theorem controlFlag_after (cl : Bool) (f : Nat) (b : Bool) (nxt : Option Word)
    (h1 : ¬(f ∈ Spec.letters ∨ f = FLG_HELP)) :
    (controlFlag cl f b nxt).2 = if argOf f = .none then .next
      else if f = FLG_INIT ∧ nxt.isSome then .stop else .skip := by
  have h2 := mt argOf_special.1 h1
  unfold controlFlag hasArgument hasNumber hasChar hasString
  have e1 : ((table[f]?).elim false fun x => x.arg == Arg.number) = (argOf f == .number) := by
    unfold argOf; cases table[f]? <;> rfl
  have e2 : ((table[f]?).elim false fun x => x.arg == Arg.char) = (argOf f == .char) := by
    unfold argOf; cases table[f]? <;> rfl
  rw [e1, e2]
  have hi : argOf FLG_INIT = .file := by decide +kernel
  by_cases hn : argOf f = .none
  · simp [hn]
  · cases nxt with
    | none =>
      cases ha : argOf f <;> first | exact absurd ha hn | exact absurd ha h2 | simp
    | some v =>
      by_cases hI : f = FLG_INIT
      · subst hI
        rw [hi]
        simp only [reduceCtorEq, beq_iff_eq]
        have hne : ¬ (FLG_INIT = FLG_OPTF) := by decide
        simp
      · have hr : (if argOf f = .none then After.next
            else if f = FLG_INIT ∧ (some v).isSome = true then .stop else .skip) = .skip := by
          rw [if_neg hn, if_neg (fun h => hI h.1)]
        rw [hr]
        have hb : (f == FLG_INIT) = false := by simpa using hI
        rw [hb]
        cases ha : argOf f <;> first
          | exact absurd ha hn
          | exact absurd ha h2
          | (simp; done)
          | (simp only [reduceCtorEq, beq_iff_eq]; simp [hI]; split_ifs <;> rfl)

theorem path_after (f : Nat) (a : Word) (nxt : Option Word) :
    (path f a nxt).2 = if a.length ≤ 2 then .skip else .next := by
  unfold path
  simp only
  by_cases ha : a = ['-', 'I', '-']
  · rw [if_pos ha, ha]; rfl
  · rw [if_neg ha]
    have : a.drop 2 = [] ↔ a.length ≤ 2 := by
      rw [List.drop_eq_nil_iff]
    by_cases h2 : a.length ≤ 2
    · rw [if_pos (this.2 h2), if_pos h2]
      cases nxt <;> rfl
    · rw [if_neg (mt this.1 h2), if_neg h2]

theorem letter_of_path {a : Word} {f : Nat} (hs : Spec.signed a) (h : identify (Spec.name a) = .flag f) :
    2 ≤ a.length := by
  obtain ⟨c, n, rfl, _⟩ := hs
  cases n with
  | nil => simp [Spec.name, identify] at h
  | cons d n => simp

theorem argOf_letters {f : Nat} (h : f ∈ Spec.letters ∨ f = FLG_HELP) : ¬Spec.wantsArgument f := by
  rw [wants_iff]
  exact fun hc => hc.2 (argOf_special.2 h)

theorem controlFlag_nxt (cl : Bool) (f : Nat) (b : Bool) (nxt : Option Word) (h : argOf f = .none) :
    controlFlag cl f b nxt = ([.set f b], .next) := by
  unfold controlFlag hasArgument
  rw [h]
  rfl

theorem one_opt (cl : Bool) {a : Word} (hs : Spec.signed a) (hw : ¬Spec.Wants a) (nxt : Option Word) :
    one cl a nxt = ((one cl a none).1,
      if identify (Spec.name a) = .skip then .stop else .next) := by
  unfold one
  rw [if_pos ((isOption_iff a).2 hs), if_pos ((isOption_iff a).2 hs), flagName_eq]
  cases hi : identify (Spec.name a) with
  | invalid => rfl
  | modeName => rfl
  | skip => rfl
  | flag f =>
    simp only [reduceCtorEq, if_false]
    by_cases h1 : f = FLG_HELP
    · simp [h1]
    · rw [if_neg h1, if_neg h1]
      by_cases h2 : f = FLG_DEFINE ∨ f = FLG_UNDEFINE
      · simp [h2]
      · rw [if_neg h2, if_neg h2]
        by_cases h3 : f = FLG_INCLUDEPATH ∨ f = FLG_SPECPATH
        · rw [if_pos h3, if_pos h3]
          have hl : ¬ a.length ≤ 2 := fun hl => hw ⟨f, hi, .inr ⟨h3, by
            have := letter_of_path hs hi
            omega⟩⟩
          have hp := path_after f a nxt
          rw [if_neg hl] at hp
          have e : path f a nxt = path f a none := by
            unfold path
            simp only
            rw [if_neg (show ¬ a.drop 2 = [] by rw [List.drop_eq_nil_iff]; exact hl)]
            rw [if_neg (show ¬ a.drop 2 = [] by rw [List.drop_eq_nil_iff]; exact hl)]
          rw [← e, ← hp]
        · rw [if_neg h3, if_neg h3]
          have h4 : ¬(f ∈ Spec.letters ∨ f = FLG_HELP) := by
            simp only [Spec.letters, List.mem_cons, List.not_mem_nil, or_false]
            tauto
          have h5 : argOf f = .none := by
            by_contra hn
            exact hw ⟨f, hi, .inl ((wants_iff f).2 ⟨hn, mt argOf_special.1 h4⟩)⟩
          rw [controlFlag_nxt _ _ _ _ h5, controlFlag_nxt _ _ _ _ h5]
          have h6 : hasArgument f = false := by simp [hasArgument, h5]
          rw [h6]
          by_cases h7 : (cl && isMessageControl f) = true
          · rw [if_pos h7]; simp
          · rw [if_neg h7]

theorem one_optArg (cl : Bool) {a : Word} (hs : Spec.signed a) (hw : Spec.Wants a)
    (nxt : Option Word) :
    (one cl a nxt).2
      = if identify (Spec.name a) = .flag FLG_INIT ∧ nxt.isSome then .stop else .skip := by
  obtain ⟨f, hi, hf⟩ := hw
  unfold one
  rw [if_pos ((isOption_iff a).2 hs), flagName_eq, hi]
  simp only [Ident.flag.injEq]
  rcases hf with hf | ⟨hf, hl⟩
  · have h4 : ¬(f ∈ Spec.letters ∨ f = FLG_HELP) := fun h => argOf_letters h hf
    have h5 := (wants_iff f).1 hf
    simp only [Spec.letters, List.mem_cons, List.not_mem_nil, or_false] at h4
    rw [if_neg (by tauto), if_neg (by tauto), if_neg (by tauto)]
    have h8 : hasArgument f = true := by
      unfold hasArgument
      simpa using h5.1
    rw [h8, if_pos rfl]
    by_cases h6 : (cl && isMessageControl f) = true
    · rw [if_pos h6, if_neg]
      rintro ⟨rfl, _⟩
      simp only [Bool.and_eq_true] at h6
      exact absurd h6.2 (by decide)
    · rw [if_neg h6, controlFlag_after _ _ _ _ (by
        simp only [Spec.letters, List.mem_cons, List.not_mem_nil, or_false]; tauto), if_neg h5.1]
  · have h6 : ¬(f = FLG_INIT ∧ nxt.isSome = true) := by
      rintro ⟨rfl, _⟩
      rcases hf with hf | hf <;> exact absurd hf (by decide)
    rw [if_neg h6]
    have h1 : ¬ f = FLG_HELP := by rintro rfl; rcases hf with hf | hf <;> exact absurd hf (by decide)
    have h2 : ¬(f = FLG_DEFINE ∨ f = FLG_UNDEFINE) := by
      rintro (rfl | rfl) <;> rcases hf with hf | hf <;> exact absurd hf (by decide)
    rw [if_neg h1, if_neg h2, if_pos hf, path_after, if_pos (by omega)]

theorem one_file (cl : Bool) {a : Word} (h : ¬Spec.signed a) (nxt : Option Word) :
    one cl a nxt = ([.file a], .next) := by
  unfold one
  rw [if_neg (mt (isOption_iff a).1 h)]

/-- The words of one item and what follows. -/
theorem loop_item (cl : Bool) {i : Spec.Item} (h : i.Ok) (b : List Word) :
    loop cl (i.words ++ b) = loop cl i.words ++ if i.ends then [] else loop cl b := by
  cases i with
  | file a =>
    simp only [Spec.Item.words, List.singleton_append, Spec.Item.ends]
    rw [loop_cons, loop_cons, one_file cl h, one_file cl h]
    simp
  | opt a =>
    simp only [Spec.Item.words, List.singleton_append, Spec.Item.ends]
    rw [loop_cons, loop_cons, one_opt cl h.1 h.2 b.head?, one_opt cl h.1 h.2 (List.head? [])]
    by_cases hi : identify (Spec.name a) = .skip <;> simp [hi]
  | optArg a v =>
    simp only [Spec.Item.words, List.cons_append, List.nil_append, Spec.Item.ends]
    rw [loop_cons, loop_cons cl a [v]]
    simp only [List.head?_cons, List.tail_cons]
    rw [one_optArg cl h.1 h.2]
    simp only [Option.isSome_some, and_true]
    by_cases hi : identify (Spec.name a) = .flag FLG_INIT <;> simp [hi]

theorem loop_items (cl : Bool) (is : List Spec.Item) (h : ∀ i ∈ is, i.Ok) (b : List Word) :
    loop cl (Spec.spell is ++ b)
      = (Spec.reached is).flatMap (fun i => loop cl i.words)
        ++ if is.any Spec.Item.ends then [] else loop cl b := by
  induction is with
  | nil => simp [Spec.spell, Spec.reached]
  | cons i is ih =>
    have e : Spec.spell (i :: is) ++ b = i.words ++ (Spec.spell is ++ b) := by
      simp [Spec.spell]
    rw [e, loop_item cl (h i (by simp)), ih (fun x hx => h x (by simp [hx]))]
    rw [Spec.reached]
    by_cases he : i.ends = true
    · simp [he]
    · simp only [Bool.not_eq_true] at he
      simp [he]

end Splint.Opt
