import Verif.Proofs.FlagName
import Verif.Props.Flags
/-! C37: flag names are recognised up to spelling. -/
namespace Splint
open Flag

/-- Canonicalisation is idempotent, and punctuation does not matter. -/
def C37_full : Prop :=
  (∀ s, canonicalise (canonicalise s) = canonicalise s)
  ∧ ∀ s s', Flag.Spec.bare s = Flag.Spec.bare s' → identify s = identify s'

/-- `+exportfunction` is a flag and `+exportfunc_tion` is not recognised, since the words are
abbreviated before the punctuation is removed. -/
theorem C37_full_is_false : ¬C37_full := by
  rintro ⟨_, h⟩
  have := h c!"exportfunc_tion" c!"exportfunction" (by decide +kernel)
  revert this
  decide +kernel

/-- Not even without punctuation: `impliedlies` is canonicalised to `implies`, which is
canonicalised to `imp`. -/
theorem C37_not_idempotent :
    canonicalise c!"impliedlies" = c!"implies" ∧ canonicalise c!"implies" = c!"imp" := by
  decide +kernel

/-- Canonicalising twice is the same as once exactly if the result contains none of the words. -/
theorem C37_idempotent_exactly (s : List Char) :
    canonicalise (canonicalise s) = canonicalise s
      ↔ ∀ t ∈ Flag.Spec.words, ¬ t.1 <:+: canonicalise s := by
  rw [← transforms_words]
  constructor
  · intro h t ht hi
    have := canonicalise_length_lt ⟨t, ht, hi⟩
    rw [h] at this
    omega
  · intro h
    rw [canonicalise_plain h]
    refine List.filter_eq_self.2 fun c hc => ?_
    simpa using canonicalise_noPunct s c hc

example : ∀ t ∈ Flag.Spec.words, ¬ t.1 <:+: canonicalise c!"Export-Function" := by decide +kernel

/-- Punctuation separates: the parts before and after it are canonicalised on their own. -/
theorem C37_split {p : Char} (hp : p ∈ Flag.Spec.punctuation) (a b : List Char) :
    canonicalise (a ++ p :: b) = canonicalise a ++ canonicalise b :=
  canonicalise_split ((stripped_iff p).2 hp) a b

example : canonicalise c!"param function-un_const" = c!"paramfcnunconst" := by decide +kernel

/-- The result has no punctuation. -/
theorem C37_bare (s : List Char) : ∀ c ∈ canonicalise s, c ∉ Flag.Spec.punctuation := by
  intro c hc hp
  have := canonicalise_noPunct s c hc
  rw [(stripped_iff c).2 hp] at this
  cases this

example : canonicalise c!"a-b c" = c!"abc" := by decide +kernel

/-- Writing a word out or abbreviated makes no difference, anywhere in the text, as long as none of
the words before it in the table occurs in the text.  Missing: texts in which two of the words
overlap or are made by abbreviating others (`C37_not_idempotent`). -/
theorem C37_abbreviation_partial {pre post : List (List Char × List Char)} {full short : List Char}
    (ht : Flag.Spec.words = pre ++ (full, short) :: post) (u v : List Char)
    (h1 : ∀ t ∈ pre, ¬ t.1 <:+: u ++ (full ++ v)) (h2 : ∀ t ∈ pre, ¬ t.1 <:+: u ++ (short ++ v)) :
    canonicalise (u ++ (full ++ v)) = canonicalise (u ++ (short ++ v)) :=
  canonicalise_word (by rw [transforms_words]; exact ht) u v h1 h2

example : ∃ pre post, Flag.Spec.words = pre ++ (c!"constant", c!"const") :: post
    ∧ (∀ t ∈ pre, ¬ t.1 <:+: c!"un" ++ (c!"constant" ++ c!"mods"))
    ∧ ∀ t ∈ pre, ¬ t.1 <:+: c!"un" ++ (c!"const" ++ c!"mods") :=
  ⟨Flag.Spec.words.take 2, Flag.Spec.words.drop 3, by decide +kernel, by decide +kernel,
    by decide +kernel⟩

/-- Punctuation does not matter in names without any of the words, other than those that are
recognised by their first letter.  Missing: words written out with punctuation inside
(`C37_full_is_false`). -/
theorem C37_punctuation_partial {s s' : List Char} (h : Flag.Spec.bare s = Flag.Spec.bare s')
    (hw : ∀ t ∈ Flag.Spec.words, ¬ t.1 <:+: Flag.Spec.bare s)
    (hc : ∀ c ∈ (Flag.Spec.bare s).head?, c ∉ c!"ISDU") : identify s = identify s' := by
  rw [identify_bare hw hc, identify_bare (h ▸ hw) (h ▸ hc), h]

example : Flag.Spec.bare c!"ret_val-bool" = Flag.Spec.bare c!"-retvalbool"
    ∧ (∀ t ∈ Flag.Spec.words, ¬ t.1 <:+: Flag.Spec.bare c!"ret_val-bool")
    ∧ identify c!"ret_val-bool" = .flag FLG_RETVALBOOL := by decide +kernel

/-- Every flag is recognised by its name, punctuated in any way; the flags that take their argument
right after a letter by that letter. -/
theorem C37_names {f : Nat} {r : Row} (hr : table[f]? = some r) {s : List Char}
    (hs : Flag.Spec.bare s = r.name) :
    identify s = .flag f
    ∨ f ∈ [FLG_INCLUDEPATH, FLG_SPECPATH, FLG_DEFINE, FLG_UNDEFINE] := by
  rcases names_plain hr with hm | ⟨hw, hc, hl⟩
  · exact .inr hm
  · left
    rw [identify_bare (hs ▸ hw) (hs ▸ hc), hs]
    exact hl

example : (table[FLG_RETVALBOOL]?).map (·.name) = some c!"retvalbool" := by decide +kernel

theorem C37_letters (s : List Char) :
    identify ('I' :: s) = .flag FLG_INCLUDEPATH ∧ identify ('S' :: s) = .flag FLG_SPECPATH
    ∧ identify ('D' :: s) = .flag FLG_DEFINE ∧ identify ('U' :: s) = .flag FLG_UNDEFINE := by
  refine ⟨?_, ?_, ?_, ?_⟩ <;> simp [identify]

/-- Every flag is recognised by its name with any of the abbreviations in it written out. -/
theorem C37_spelled {f : Nat} {r : Row} (hr : table[f]? = some r) {s : List Char}
    (hs : Flag.Spec.Spelling r.name s) : identify s = .flag f :=
  spelled hr hs

example : Flag.Spec.Spelling c!"modfcn" c!"modifyfunction" := by
  have h := Flag.Spec.Spelling.word (full := c!"modify") (short := c!"mod") (by decide +kernel)
    (Flag.Spec.Spelling.word (full := c!"function") (short := c!"fcn") (by decide +kernel)
      Flag.Spec.Spelling.nil)
  exact h

/-- The other names of flags, punctuated in any way, stand for the flags they are meant to. -/
theorem C37_other_names {o n : List Char} (h : (o, n) ∈ Flag.Spec.otherNames) {s : List Char}
    (hs : Flag.Spec.bare s = o) :
    identify s = identify n ∧ ∃ f r, identify n = .flag f ∧ table[f]? = some r ∧ r.name = n := by
  have key := otherNames_ok _ h
  refine ⟨?_, key.2.2⟩
  rw [identify_bare (hs ▸ key.1.1) (hs ▸ key.1.2), hs]
  exact key.2.1

example : identify c!"macro-undef" = .flag FLG_MACROUNDEF := by decide +kernel

/-- No two flags have the same name. -/
theorem C37_distinct {f g : Nat} {r q : Row} (hf : table[f]? = some r) (hg : table[g]? = some q)
    (h : r.name = q.name) : f = g := by
  have h1 := name_identified hf
  have h2 := name_identified hg
  rw [h, h2] at h1
  cases h1
  rfl

example : (table[FLG_NULL]?).isSome = true ∧ (table[FLG_NULLDEREF]?).isSome = true := by
  decide +kernel

/-- Exactly the canonical forms of the mode names are taken for modes. -/
theorem C37_modes (s : List Char) (hc : ∀ c ∈ s.head?, c ∉ c!"ISDU") :
    identify s = .modeName ↔ canonicalise s ∈ [c!"weak", c!"standard", c!"checks", c!"strict"] :=
  modes_iff s hc

example : identify c!"strict" = .modeName := by decide +kernel

/-- A punctuated mode name is taken for a mode, and selecting it turns all mode flags off. -/
theorem C37_mode_full_is_false :
    ¬ ∀ (s : List Char) (st : St), identify s = .modeName → (setMode st s).2 = true := by
  intro h
  have := h c!"st_rict" FlagEx.s0 (by decide +kernel)
  revert this
  decide +kernel

/-- A name that is taken for a mode is known to be one if it is written without punctuation. -/
theorem C37_mode_partial {s : List Char} (st : St) (h : identify s = .modeName)
    (hs : canonicalise s = s) : (setMode st s).2 = true := by
  have hm : s ∈ [c!"weak", c!"standard", c!"checks", c!"strict"] := by
    have hc : ∀ c ∈ s.head?, c ∉ c!"ISDU" := by
      intro c hc hi
      cases s with
      | nil => cases hc
      | cons a s =>
        cases hc
        simp only [List.mem_cons, List.not_mem_nil, or_false] at hi
        rcases hi with rfl | rfl | rfl | rfl <;> simp [identify] at h
    have := (modes_iff s hc).1 h
    rwa [hs] at this
  simp only [List.mem_cons, List.not_mem_nil, or_false] at hm
  rcases hm with rfl | rfl | rfl | rfl <;> simp [setMode, modeTable]

example : identify c!"checks" = .modeName ∧ canonicalise c!"checks" = c!"checks" := by
  decide +kernel

end Splint
