import Verif.Model.FlagTable
import Verif.Proofs.LibEntry
/-!
C108: An entry or a type written to a library is read back as it was.
-/
namespace Splint.LibEntry
open Reader Lib Lib.Spec Spec

/-- What one would expect: whatever entry is written, the same one is read. -/
def C108_full : Prop :=
  ∀ (env : Env) (e : Entry) (k : Kind) (s : List Char), Valid env e → KindOf e k → NameEnd s →
    Entry.undump env k (e.dump false ++ s) = some (e, s)

/-- A variable nothing is known of is written with a caret (uentry.c:5110-5130), and a caret is read as
"implicitly temporary" (uentry.c:4827-4833). -/
theorem C108_unknown_becomes_temp (env : Env) (e : Entry) (k : Kind) (s : List Char) (h : Valid env e)
    (hk : KindOf e k) (hs : NameEnd s) (hb : Blank e) :
    Entry.undump env k (e.dump false ++ s) = some (asTemp e, s) ∧ asTemp e ≠ e := by
  refine ⟨(entry_text h hk false hs).1 hb, ?_⟩
  cases e with
  | var ct vk ds ns ak ex ch name =>
    obtain ⟨-, -, hb, -⟩ := hb
    intro h
    simp only [asTemp, Entry.var.injEq] at h
    omega
  | _ => exact hb.elim

/-- A variable: `int x`, of type number 3. -/
def sampleBlank : Entry := .var 3 0 0 0 0 0 0 c!"x"

def sampleEnv : Env := { eqv := fun _ _ => true, sets := 10, known := fun _ => false }

theorem sampleBlank_valid : Valid sampleEnv sampleBlank := by
  refine ⟨⟨by decide, by decide⟩, by decide, ⟨by decide, by decide⟩, ⟨by decide, by decide⟩,
    ⟨by decide, by decide⟩, ⟨by decide, by decide⟩, by decide, ?_⟩
  intro c hc
  revert c
  decide

theorem nameEnd_newline : NameEnd ['\n'] := by
  intro c cs e; cases e; decide

theorem C108_full_is_false : ¬ C108_full := by
  intro h
  have h1 := h sampleEnv sampleBlank .var ['\n'] sampleBlank_valid rfl nameEnd_newline
  have h2 := C108_unknown_becomes_temp sampleEnv sampleBlank .var ['\n'] sampleBlank_valid rfl nameEnd_newline
    ⟨rfl, rfl, rfl, rfl, rfl⟩
  rw [h2.1] at h1
  simp only [Option.some.injEq, Prod.mk.injEq, and_true] at h1
  exact h2.2 h1

example : Entry.undump sampleEnv .var (sampleBlank.dump false) = some (.var 3 0 0 0 7 0 0 c!"x", []) := by
  decide +kernel

/-- What holds: every other entry (data types, functions with everything that is said of them,
iterators, tags, all other variables) is read back as it was written, and nothing that stands behind it
is touched. -/
theorem C108_entry_exactly (env : Env) (e : Entry) (k : Kind) (s : List Char) (h : Valid env e)
    (hk : KindOf e k) (hs : NameEnd s) :
    Entry.undump env k (e.dump false ++ s) = some (e, s) ↔ ¬ Blank e := by
  constructor
  · intro h1 hb
    have h2 := C108_unknown_becomes_temp env e k s h hk hs hb
    rw [h2.1] at h1
    simp only [Option.some.injEq, Prod.mk.injEq, and_true] at h1
    exact h2.2 h1
  · exact fun hb => (entry_text h hk false hs).2 hb

/-- So no two different entries are written in the same way, unless one is a variable nothing is known
of. -/
theorem C108_entry_injective_partial (env : Env) (e e' : Entry) (k : Kind) (h : Valid env e)
    (h' : Valid env e') (hk : KindOf e k) (hk' : KindOf e' k) (hb : ¬ Blank e) (hb' : ¬ Blank e')
    (he : e.dump false = e'.dump false) : e = e' := by
  have n : NameEnd [] := by intro c cs e; cases e
  have h1 := (C108_entry_exactly env e k [] h hk n).2 hb
  have h2 := (C108_entry_exactly env e' k [] h' hk' n).2 hb'
  rw [he, h2] at h1
  simp only [Option.some.injEq, Prod.mk.injEq, and_true] at h1
  exact h1.symm

/-- Parameters lose their names and nothing else. -/
theorem C108_parameter_partial (env : Env) (e : Entry) (k : Kind) (s : List Char) (h : Valid env e)
    (hk : KindOf e k) (hs : NameEnd s) (hb : ¬ Blank e) :
    Entry.undump env k (e.dump true ++ s) = some (unnamed e, s) :=
  (entry_text h hk true hs).2 hb

/-- A function: `warn` clause, `defines` clause, a global, something modified. -/
def sampleFcn : Entry := .fcn 12
  { ds := 3, ns := 4, exit := 1, spec := 2, nullPred := .plain 7,
    hasGlobs := true, globs := [.glob 5 3 4, .special 1, .undef],
    hasMods := true, mods := [],
    ak := 6, ex := 2, access := 4,
    warn := some ⟨c!"bufferoverflowhigh", [c!"toctou"], some c!"use fgets"⟩,
    clauses := some [⟨1, 2, .plain 5, []⟩] } c!"gets"

theorem sampleFcn_valid : Valid sampleEnv sampleFcn := by
  refine ⟨⟨by decide, by decide⟩, ?_, fun c hc => by revert c; decide⟩
  constructor
  · exact ⟨by decide, by decide⟩
  · exact ⟨by decide, by decide⟩
  · exact ⟨by decide, by decide⟩
  · exact ⟨by decide, by decide⟩
  · exact ⟨7, rfl, by decide, by decide⟩
  · intro h; cases h
  · intro g hg
    simp only [List.mem_cons, List.not_mem_nil, or_false] at hg
    rcases hg with rfl | rfl | rfl
    · exact ⟨⟨by decide, by decide⟩, ⟨by decide, by decide⟩, ⟨by decide, by decide⟩⟩
    · exact ⟨by decide, by decide⟩
    · trivial
  · intro h; cases h
  · intro r hr; cases hr
  · exact ⟨by decide, by decide⟩
  · exact ⟨by decide, by decide⟩
  · exact ⟨by decide, by decide, by decide⟩
  · intro w hw
    cases hw
    refine ⟨by decide, ?_⟩
    intro m hm
    cases hm
    decide
  · intro l hl c hc
    cases hl
    simp only [List.mem_cons, List.not_mem_nil, or_false] at hc
    subst hc
    exact ⟨⟨by decide, by decide⟩, ⟨by decide, by decide⟩, ⟨by decide, by decide⟩, by intro r hr; cases hr⟩

example : Valid sampleEnv sampleFcn ∧ KindOf sampleFcn .fcn ∧ ¬ Blank sampleFcn ∧
    sampleFcn.dump false =
      c!"12@3@4@1@2@7@1@g5@3@4,s1,-@1@@6@2@4@W:bufferoverflowhigh|toctou#use fgets#@S:1.2.5.$#gets" :=
  ⟨sampleFcn_valid, rfl, id, by decide +kernel⟩

/-- The same holds for the types: every line of the table of types is read back as it was, for types
that are complete. -/
theorem C108_type_partial (env : Env) (e : TEntry) (h : ValidType env e) :
    TEntry.undump env e.dump = some e := tentry_text h

/-- No two of them are written in the same way. -/
theorem C108_type_injective_partial (env : Env) (e e' : TEntry) (h : ValidType env e)
    (h' : ValidType env e') (he : e.dump = e'.dump) : e = e' := by
  have h1 := C108_type_partial env e h
  rw [he, C108_type_partial env e' h'] at h1
  exact (Option.some.inj h1).symm

/-- Everything that is read behind a type's base does not depend on the base. -/
theorem C108_base_partial (env : Env) (b : Base) (h : ValidBase env b) (s : List Char) (hs : ',' ∉ s) :
    Base.undump env (b.dump ++ s) = some (b, s) := base_text h hs

/-- `struct point { int x; }` and a function of two parameters, one of them `...`. -/
def sampleType : TEntry := ⟨2, .struct c!"point" [.var 3 0 3 4 0 0 0 c!"x"], -1, 8, -1⟩
def sampleFcnType : TEntry := ⟨1, .fcn 4 [.var 3 1 3 4 0 0 0 [], .elips], -2, -1, -1⟩

theorem sampleType_valid : ValidType sampleEnv sampleType ∧ ValidType sampleEnv sampleFcnType := by
  constructor
  · refine ⟨by decide, ⟨by decide, ?_⟩, ⟨by decide, by decide⟩, ⟨by decide, by decide⟩, ⟨by decide, by decide⟩⟩
    intro e he
    simp only [List.mem_cons, List.not_mem_nil, or_false] at he
    subst he
    refine ⟨?_, (by rintro ⟨h, -⟩; cases h), .inl ⟨_, _, _, _, _, _, _, _, rfl⟩⟩
    refine ⟨⟨by decide, by decide⟩, by decide, ⟨by decide, by decide⟩, ⟨by decide, by decide⟩,
      ⟨by decide, by decide⟩, ⟨by decide, by decide⟩, by decide, ?_⟩
    intro c hc
    revert c
    decide
  · refine ⟨by decide, ⟨⟨by decide, by decide⟩, ?_⟩, ⟨by decide, by decide⟩, ⟨by decide, by decide⟩, ⟨by decide, by decide⟩⟩
    intro e he
    simp only [List.mem_cons, List.not_mem_nil, or_false] at he
    rcases he with rfl | rfl
    · refine ⟨?_, (by rintro ⟨h, -⟩; cases h), .inr ⟨_, _, _, _, _, _, _, rfl⟩⟩
      refine ⟨⟨by decide, by decide⟩, by decide, ⟨by decide, by decide⟩, ⟨by decide, by decide⟩,
        ⟨by decide, by decide⟩, ⟨by decide, by decide⟩, by decide, ?_⟩
      intro c hc
      cases hc
    · exact ⟨trivial, id, .inl rfl⟩

example : ValidType sampleEnv sampleType ∧
    sampleType.dump = c!"2 Spoint{3|@0|3@4@0&#x,}-1 8 -1" ∧
    sampleFcnType.dump = c!"1 f4 (3|@1|3@4@0&#,!.,)!" :=
  ⟨sampleType_valid.1, by decide +kernel, by decide +kernel⟩

/-- What is missing for types: a function type that is only expected is written like an undefined
type, a bare list of enumeration members like an unknown one (ctbase.i:1135-1140). -/
theorem C108_incomplete_types_lost (env : Env) (ct : Int) (ms : List (List Char)) (s : List Char) :
    Base.undump env ((Base.expFcn ct).dump ++ s) = some (.undefined, s) ∧
      Base.undump env ((Base.enumList ms).dump ++ s) = some (.unknown, s) := ⟨rfl, rfl⟩

end Splint.LibEntry
