import Verif.Proofs.Options
namespace Splint.Opt
open Flag

/-! ### The letters -/

theorem replaceFirst_head {old new : List Char} {o c : Char} {os s : List Char} (ho : old = o :: os)
    (hc : o ≠ c) {s' : List Char} (h : replaceFirst old new (c :: s) = some s') :
    ∃ t, s' = c :: t := by
  subst ho
  rw [replaceFirst] at h
  have : (o :: os).isPrefixOf (c :: s) = false := by simp [List.isPrefixOf, hc]
  rw [this] at h
  simp only [Bool.false_eq_true, if_false, Option.map_eq_some_iff] at h
  obtain ⟨t, _, ht⟩ := h
  exact ⟨t, ht.symm⟩

theorem replaceRounds_head {old new : List Char} {o c : Char} {os : List Char} (ho : old = o :: os)
    (hc : o ≠ c) (n : Nat) (s : List Char) : ∃ t, replaceRounds old new n (c :: s) = c :: t := by
  induction n generalizing s with
  | zero => exact ⟨s, rfl⟩
  | succ n ih =>
    rw [replaceRounds]
    cases h : replaceFirst old new (c :: s) with
    | none => exact ⟨s, rfl⟩
    | some s' =>
      obtain ⟨t, rfl⟩ := replaceFirst_head ho hc h
      exact ih t

theorem transforms_lower : transforms.all (fun t => match t.1 with
    | [] => false
    | o :: _ => !(c!"ISDU").contains o) = true := by decide +kernel

theorem canonicalise_head {c : Char} (hc : c ∈ c!"ISDU") (s : List Char) :
    ∃ t, canonicalise (c :: s) = c :: t := by
  have key : ∀ (ts : List (List Char × List Char)) (s : List Char),
      ts.all (fun t => match t.1 with
        | [] => false
        | o :: _ => !(c!"ISDU").contains o) = true →
      ∃ t, ts.foldl (fun r t => replaceAll t.1 t.2 r) (c :: s) = c :: t := by
    intro ts
    induction ts with
    | nil => exact fun s _ => ⟨s, rfl⟩
    | cons p ts ih =>
      intro s h
      simp only [List.all_cons, Bool.and_eq_true] at h
      rw [List.foldl_cons]
      obtain ⟨old, new⟩ := p
      cases old with
      | nil => simp at h
      | cons o os =>
        have ho : o ≠ c := by
          rintro rfl
          have := h.1
          simp only [Bool.not_eq_true', List.contains_eq_mem, decide_eq_false_iff_not] at this
          exact this hc
        obtain ⟨t, ht⟩ := replaceRounds_head (new := new) rfl ho (c :: s).length s
        show ∃ t, ts.foldl _ (replaceAll (o :: os) new (c :: s)) = c :: t
        unfold replaceAll
        rw [ht]
        exact ih t h.2
  obtain ⟨t, ht⟩ := key transforms s transforms_lower
  unfold canonicalise
  rw [ht]
  have : (!stripped c) = true := by
    simp only [List.mem_cons, List.not_mem_nil, or_false] at hc
    rcases hc with rfl | rfl | rfl | rfl <;> rfl
  exact ⟨_, List.filter_cons_of_pos this⟩

theorem letters_names : ∀ f ∈ List.range NUMFLAGS, ∀ r ∈ table[f]?,
    (∃ c ∈ r.name.head?, c ∈ c!"ISDU") → f ∈ Spec.letters := by
  have : (List.range NUMFLAGS).all (fun f => (table[f]?).all fun r =>
      !(r.name.head?.any fun c => (c!"ISDU").contains c) || Spec.letters.contains f) = true := by
    decide +kernel
  intro f hf r hr ⟨c, hc, hm⟩
  have h1 := List.all_eq_true.1 this f hf
  rw [Option.mem_def] at hr hc
  rw [hr] at h1
  simp only [Option.all_some, hc, Option.any_some, Bool.or_eq_true, Bool.not_eq_true'] at h1
  rcases h1 with h1 | h1
  · simp only [List.contains_eq_mem, decide_eq_false_iff_not] at h1
    exact absurd hm h1
  · simpa using h1

theorem lookup_mem {α : Type} {n : List Char} {i : α} (l : List (List Char × α)) (h : l.lookup n = some i) :
    (n, i) ∈ l := by
  induction l with
  | nil => cases h
  | cons p l ih =>
    rw [List.lookup_cons] at h
    by_cases hp : n = p.1
    · have hb : (n == p.1) = true := by simpa using hp
      rw [hb] at h
      simp only [Option.some.injEq] at h
      rw [hp, ← h]
      simp
    · have hb : (n == p.1) = false := by simpa using hp
      rw [hb] at h
      exact List.mem_cons_of_mem _ (ih h)

theorem lookupName_letter {c : Char} (hc : c ∈ c!"ISDU") (t : List Char) {f : Nat}
    (h : lookupName (c :: t) = .flag f) : f ∈ Spec.letters := by
  unfold lookupName at h
  split at h
  · rename_i g hg
    cases h
    rw [List.findIdx?_eq_some_iff_getElem] at hg
    obtain ⟨hl, hn, _⟩ := hg
    refine letters_names f (List.mem_range.2 (by rw [← table_length]; exact hl)) table[f]
      (by simp [hl]) ⟨c, ?_, hc⟩
    simp only [beq_iff_eq] at hn
    rw [hn]
    rfl
  · split at h
    · rename_i i hl
      have hm := lookup_mem _ hl
      have : synonyms.all (fun p => !(p.1.head?.any fun c => (c!"ISDU").contains c)) = true := by
        decide +kernel
      have h2 := List.all_eq_true.1 this _ hm
      simp only [List.head?_cons, Option.any_some, Bool.not_eq_true', List.contains_eq_mem,
        decide_eq_false_iff_not] at h2
      exact absurd hc h2
    · split at h <;> cases h

/-- The first pass, which does not remove a second `-`, sees the same flags. -/
theorem identify_pre {a : Word} (hs : Spec.signed a) {f : Nat} (hf : f ∉ Spec.letters) :
    identify (a.drop 1) = .flag f ↔ identify (Spec.name a) = .flag f := by
  obtain ⟨c, n, rfl, _⟩ := hs
  rw [← flagName_eq]
  unfold flagName
  simp only [List.drop_succ_cons, List.drop_zero]
  split_ifs with h
  · cases n with
    | nil => simp at h
    | cons d n =>
      simp only [List.head?_cons, Option.some.injEq] at h
      subst h
      simp only [List.drop_succ_cons, List.drop_zero]
      have e : identify ('-' :: n) = lookupName (canonicalise n) := by
        have h1 : canonicalise ([] ++ '-' :: n) = canonicalise [] ++ canonicalise n :=
          C37_split (by decide) [] n
        have h2 : canonicalise [] = [] := by decide +kernel
        rw [h2, List.nil_append, List.nil_append] at h1
        unfold identify
        simp only
        rw [if_neg (by decide), if_neg (by decide), if_neg (by decide), if_neg (by decide), h1]
      rw [e]
      cases n with
      | nil =>
        have h2 : lookupName (canonicalise []) = .invalid := by decide +kernel
        rw [h2]
        simp [identify]
      | cons d n =>
        by_cases hd : d ∈ c!"ISDU"
        · obtain ⟨t, ht⟩ := canonicalise_head hd n
          rw [ht]
          constructor
          · exact fun h => absurd (lookupName_letter hd t h) hf
          · intro h
            exfalso
            apply hf
            simp only [List.mem_cons, List.not_mem_nil, or_false] at hd
            rcases hd with rfl | rfl | rfl | rfl <;> simp [identify] at h <;> rw [← h] <;> decide
        · simp only [List.mem_cons, List.not_mem_nil, or_false, not_or] at hd
          simp [identify, hd]
  · rfl

/-! ### The first pass -/

theorem isMessageControl_iff (f : Nat) : isMessageControl f = true ↔ f ∈ Spec.controlsMessages := by
  simp only [isMessageControl, Bool.or_eq_true, beq_iff_eq, Spec.controlsMessages, List.mem_cons,
    List.not_mem_nil, or_false, or_assoc]

theorem controls_args : ∀ f ∈ Spec.controlsMessages,
    (argOf f = .none ∧ f ∉ Spec.streams) ∨ (argOf f = .file ∧ f ∈ Spec.streams) := by
  decide +kernel

theorem controls_letters : ∀ f ∈ Spec.controlsMessages, f ∉ Spec.letters ∧ f ≠ FLG_NOF
    ∧ f ≠ FLG_OPTF ∧ f ≠ FLG_INIT := by decide +kernel

theorem streams_controls : ∀ f ∈ Spec.streams, f ∈ Spec.controlsMessages := by decide +kernel

/-- What an item changes in the variables of the first pass. -/
def upPre (p : Pre) (i : Spec.Item) : Pre :=
  { nof := p.nof || i.flagIs FLG_NOF
    defaultf := p.defaultf && !i.flagIs FLG_OPTF
    fname := p.fname || i.flagIs FLG_OPTF || i.stream }

theorem prescan_cons (p : Pre) (a : Word) (rest : List Word) :
    prescan p (a :: rest) =
      let r := preOne p a rest.head?
      let t := match r.2.2 with
        | .next => prescan r.2.1 rest
        | .skip => prescan r.2.1 rest.tail
        | .stop => ([], r.2.1)
      (r.1 ++ t.1, t.2) := by
  rw [prescan]
  simp only
  cases (preOne p a rest.head?).2.2 <;> simp only

@[simp] theorem prescan_nil (p : Pre) : prescan p [] = ([], p) := by rw [prescan]

theorem preOne_file (p : Pre) {a : Word} (h : ¬Spec.signed a) (nxt : Option Word) :
    preOne p a nxt = ([], p, .next) := by
  unfold preOne
  rw [if_neg (mt (isOption_iff a).1 h)]

/-- The identification in the first pass. -/
theorem pre_cases {a : Word} (hs : Spec.signed a) :
    (∃ f, f ∉ Spec.letters ∧ identify (a.drop 1) = .flag f ∧ identify (Spec.name a) = .flag f)
    ∨ ((∀ f, identify (a.drop 1) = .flag f → f ∈ Spec.letters)
      ∧ ∀ f, identify (Spec.name a) = .flag f → f ∈ Spec.letters) := by
  by_cases h : ∃ f, f ∉ Spec.letters ∧ identify (a.drop 1) = .flag f
  · obtain ⟨f, hf, h⟩ := h
    exact .inl ⟨f, hf, h, (identify_pre hs hf).1 h⟩
  · right
    constructor
    · intro f hf
      by_contra hn
      exact h ⟨f, hn, hf⟩
    · intro f hf
      by_contra hn
      exact h ⟨f, hn, (identify_pre hs hn).2 hf⟩

theorem preOne_letters (p : Pre) {a : Word} (h : ∀ f, identify (a.drop 1) = .flag f → f ∈ Spec.letters)
    (nxt : Option Word) : preOne p a nxt = ([], p, .next) := by
  unfold preOne
  split_ifs
  · cases hi : identify (a.drop 1) with
    | flag f =>
      have := h f hi
      simp only
      simp only [Spec.letters, List.mem_cons, List.not_mem_nil, or_false] at this
      rcases this with rfl | rfl | rfl | rfl <;> rfl
    | _ => rfl
  · rfl

theorem bsign (a : Word) : (a.head? == some '+') = decide (a.head? = some '+') := by
  cases h : a.head? with
  | none => rfl
  | some c => by_cases hc : c = '+' <;> simp [hc]

/-- The first pass on one item. -/
theorem prescan_item (p : Pre) {i : Spec.Item} (h : i.Ok) (hc : i.Calm) (b : List Word) :
    prescan p (i.words ++ b)
      = (i.early ++ (prescan (upPre p i) b).1, (prescan (upPre p i) b).2) := by
  cases i with
  | file a =>
    simp only [Spec.Item.words, List.singleton_append]
    rw [prescan_cons, preOne_file p h]
    have : upPre p (.file a) = p := by simp [upPre, Spec.Item.flagIs, Spec.Item.stream]
    rw [this]
    rfl
  | opt a =>
    simp only [Spec.Item.words, List.singleton_append]
    rw [prescan_cons]
    rcases pre_cases h.1 with ⟨f, hf, h1, h2⟩ | ⟨h1, h2⟩
    · have hW : ¬Spec.wantsArgument f := fun hw => h.2 ⟨f, h2, .inl hw⟩
      rw [wants_iff] at hW
      have hd : ∀ g, decide (identify (Spec.name a) = .flag g) = decide (f = g) := by
        intro g; rw [h2]; simp
      by_cases hN : f = FLG_NOF
      · subst hN
        have e : preOne p a b.head? = ([], { p with nof := true }, .next) := by
          unfold preOne
          rw [if_pos ((isOption_iff a).2 h.1), h1]
          rfl
        have e2 : upPre p (.opt a) = { p with nof := true } := by
          simp [upPre, Spec.Item.flagIs, Spec.Item.stream, hd]
        have e3 : (Spec.Item.opt a).early = [] := by
          simp only [Spec.Item.early]
          rw [h2]
          rfl
        rw [e, e2, e3]
      · have hO : f ≠ FLG_OPTF := by
          rintro rfl
          exact hW (by decide +kernel)
        have e2 : upPre p (.opt a) = p := by
          simp [upPre, Spec.Item.flagIs, Spec.Item.stream, hd, hN, hO]
        rw [e2]
        by_cases hM : f ∈ Spec.controlsMessages
        · have hA : hasArgument f = false := by
            rcases controls_args f hM with hx | hx
            · simp [hasArgument, hx.1]
            · exact absurd ⟨by rw [hx.1]; decide, by rw [hx.1]; decide⟩ hW
          have e : preOne p a b.head? = ([.set f (a.head? = some '+')], p, .next) := by
            unfold preOne
            rw [if_pos ((isOption_iff a).2 h.1), h1]
            simp only
            rw [if_neg hN, if_pos ((isMessageControl_iff f).2 hM), hA, bsign]
            rfl
          have e3 : (Spec.Item.opt a).early = [.set f (a.head? = some '+')] := by
            simp only [Spec.Item.early]
            rw [h2]
            simp only
            rw [if_pos hM]
          rw [e, e3]
        · have e : preOne p a b.head? = ([], p, .next) := by
            unfold preOne
            rw [if_pos ((isOption_iff a).2 h.1), h1]
            simp only
            rw [if_neg hN, if_neg (mt (isMessageControl_iff f).1 hM), if_neg hO]
          have e3 : (Spec.Item.opt a).early = [] := by
            simp only [Spec.Item.early]
            rw [h2]
            simp only
            rw [if_neg hM]
          rw [e, e3]
    · rw [preOne_letters p h1]
      have hn : ∀ g, g ∉ Spec.letters → decide (identify (Spec.name a) = .flag g) = false := by
        intro g hg
        simp only [decide_eq_false_iff_not]
        exact fun hx => hg (h2 g hx)
      have : upPre p (.opt a) = p := by
        simp [upPre, Spec.Item.flagIs, Spec.Item.stream, hn FLG_NOF (by decide), hn FLG_OPTF (by decide)]
      rw [this]
      have he : (Spec.Item.opt a).early = [] := by
        unfold Spec.Item.early
        simp only
        split
        · rename_i f hf
          rw [if_neg]
          intro hm
          exact (controls_letters f hm).1 (h2 f hf)
        · rfl
      rw [he]
  | optArg a v =>
    simp only [Spec.Item.words, List.cons_append, List.nil_append]
    rw [prescan_cons]
    simp only [List.head?_cons, List.tail_cons]
    have hv : ∀ q, prescan q (v :: b) = prescan q b := by
      intro q
      rw [prescan_cons, preOne_file q hc]
      simp
    rcases pre_cases h.1 with ⟨f, hf, h1, h2⟩ | ⟨h1, h2⟩
    · have hW : Spec.wantsArgument f := by
        obtain ⟨g, hg, hx⟩ := h.2
        rw [h2] at hg
        cases hg
        rcases hx with hx | hx
        · exact hx
        · exact absurd (by
            rcases hx.1 with rfl | rfl <;> decide) hf
      rw [wants_iff] at hW
      have hd : ∀ g, decide (identify (Spec.name a) = .flag g) = decide (f = g) := by
        intro g; rw [h2]; simp
      have hN : f ≠ FLG_NOF := by
        rintro rfl
        exact hW.1 (by decide +kernel)
      by_cases hM : f ∈ Spec.controlsMessages
      · have hS : f ∈ Spec.streams ∧ argOf f = .file := by
          rcases controls_args f hM with hx | hx
          · exact absurd hx.1 hW.1
          · exact ⟨hx.2, hx.1⟩
        have hO : f ≠ FLG_OPTF := (controls_letters f hM).2.2.1
        have e : preOne p a (some v)
            = ([.set f (a.head? = some '+'), .string f v], { p with fname := true }, .skip) := by
          unfold preOne
          rw [if_pos ((isOption_iff a).2 h.1), h1]
          simp only
          rw [if_neg hN, if_pos ((isMessageControl_iff f).2 hM), bsign, if_pos]
          unfold hasArgument
          rw [hS.2]
          decide
        have e2 : upPre p (.optArg a v) = { p with fname := true } := by
          have : (Spec.Item.optArg a v).stream = true := by
            unfold Spec.Item.stream
            simp only [List.any_eq_true]
            exact ⟨f, hS.1, by simp [h2]⟩
          simp [upPre, Spec.Item.flagIs, this, hd, hN, hO]
        have e3 : (Spec.Item.optArg a v).early = [.set f (a.head? = some '+'), .string f v] := by
          simp only [Spec.Item.early]
          rw [h2]
          simp only
          rw [if_pos hM]
        rw [e, e2, e3]
      · have hst : (Spec.Item.optArg a v).stream = false := by
          rw [Bool.eq_false_iff]
          intro hx
          unfold Spec.Item.stream at hx
          simp only [List.any_eq_true] at hx
          obtain ⟨g, hg, hx⟩ := hx
          simp only [h2, Ident.flag.injEq, decide_eq_true_eq] at hx
          exact hM (streams_controls f (hx ▸ hg))
        by_cases hO : f = FLG_OPTF
        · subst hO
          have e : preOne p a (some v)
              = ([.rc v true], { p with defaultf := false, fname := true }, .skip) := by
            unfold preOne
            rw [if_pos ((isOption_iff a).2 h.1), h1]
            rfl
          have e2 : upPre p (.optArg a v) = { p with defaultf := false, fname := true } := by
            simp [upPre, Spec.Item.flagIs, hd]
          have e3 : (Spec.Item.optArg a v).early = [.rc v true] := by
            simp only [Spec.Item.early]
            rw [h2]
            rfl
          rw [e, e2, e3]
        · have e : preOne p a (some v) = ([], p, .next) := by
            unfold preOne
            rw [if_pos ((isOption_iff a).2 h.1), h1]
            simp only
            rw [if_neg hN, if_neg (mt (isMessageControl_iff f).1 hM), if_neg hO]
          have e2 : upPre p (.optArg a v) = p := by
            simp [upPre, Spec.Item.flagIs, hst, hd, hN, hO]
          have e3 : (Spec.Item.optArg a v).early = [] := by
            simp only [Spec.Item.early]
            rw [h2]
            simp only
            rw [if_neg hM, if_neg hO]
          rw [e, e2, e3]
          simp only
          rw [hv]
    · rw [preOne_letters p h1]
      have hn : ∀ g, g ∉ Spec.letters → decide (identify (Spec.name a) = .flag g) = false := by
        intro g hg
        simp only [decide_eq_false_iff_not]
        exact fun hx => hg (h2 g hx)
      have hst : (Spec.Item.optArg a v).stream = false := by
        rw [Bool.eq_false_iff]
        intro hx
        unfold Spec.Item.stream at hx
        simp only [List.any_eq_true, decide_eq_true_eq] at hx
        obtain ⟨g, hg, hx⟩ := hx
        exact (controls_letters g (streams_controls g hg)).1 (h2 g hx)
      have : upPre p (.optArg a v) = p := by
        simp [upPre, Spec.Item.flagIs, hst, hn FLG_NOF (by decide), hn FLG_OPTF (by decide)]
      rw [this]
      have he : (Spec.Item.optArg a v).early = [] := by
        unfold Spec.Item.early
        simp only
        split
        · rename_i f hf
          rw [if_neg, if_neg]
          · rintro rfl
            exact absurd (h2 _ hf) (by decide)
          · intro hm
            exact (controls_letters f hm).1 (h2 f hf)
        · rfl
      rw [he]
      simp only
      rw [hv]

theorem prescan_items (p : Pre) (is : List Spec.Item) (h : ∀ i ∈ is, i.Ok) (hc : ∀ i ∈ is, i.Calm)
    (b : List Word) :
    prescan p (Spec.spell is ++ b)
      = (is.flatMap Spec.Item.early ++ (prescan (is.foldl upPre p) b).1,
          (prescan (is.foldl upPre p) b).2) := by
  induction is generalizing p with
  | nil => simp [Spec.spell]
  | cons i is ih =>
    have e : Spec.spell (i :: is) ++ b = i.words ++ (Spec.spell is ++ b) := by
      simp [Spec.spell]
    rw [e, prescan_item p (h i (by simp)) (hc i (by simp)),
      ih _ (fun x hx => h x (by simp [hx])) (fun x hx => hc x (by simp [hx]))]
    simp

theorem foldl_upPre (p : Pre) (is : List Spec.Item) :
    is.foldl upPre p =
      { nof := p.nof || is.any (Spec.Item.flagIs FLG_NOF)
        defaultf := p.defaultf && !is.any (Spec.Item.flagIs FLG_OPTF)
        fname := p.fname || is.any (Spec.Item.flagIs FLG_OPTF) || is.any Spec.Item.stream } := by
  induction is generalizing p with
  | nil => simp
  | cons i is ih =>
    rw [List.foldl_cons, ih]
    simp only [upPre, List.any_cons, Pre.mk.injEq]
    refine ⟨by rw [Bool.or_assoc], by rw [Bool.not_or, Bool.and_assoc], ?_⟩
    cases p.fname <;> cases i.flagIs FLG_OPTF <;> cases i.stream <;>
      cases is.any (Spec.Item.flagIs FLG_OPTF) <;> cases is.any Spec.Item.stream <;> rfl

end Splint.Opt
