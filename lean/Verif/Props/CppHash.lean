import Verif.Proofs.CppHashOps
/-!
# C11, C12: the table of macros
-/
namespace Splint.CppHash

/-- C11. For every history of definitions, removals, built-in names, conditions (each with its temporary
`defined`), saving, restoring and cleaning up, no pointer to nothing is followed, every loop ends, and
each name looked up has the value it was last given and that was not removed, whatever names share its
bucket. -/
theorem C11 (os : List Op) (hw : ∀ o ∈ os, o.WellFormed) :
    ∃ s, run empty os = some (s, (Op.specs copyValue (fun _ => [], fun _ => []) os).2) := by
  obtain ⟨s, h, _⟩ := run_rel os empty_rel hw
  exact ⟨s, h⟩

/-- C11. Afterwards every name still has the value it should have. -/
theorem C11_lookup (os : List Op) (hw : ∀ o ∈ os, o.WellFormed) {s : State} {out} (h : run empty os = some (s, out))
    (text : Text) (len : Option Nat) (ht : WellFormed text len) :
    valueOf s text len = some ((Op.specs copyValue (fun _ => [], fun _ => []) os).1.1 (nameOf text len)).head? := by
  obtain ⟨s', h', hr⟩ := run_rel os empty_rel hw
  rw [h, Option.some.injEq, Prod.mk.injEq] at h'
  rw [h'.1]
  exact valueOf_rel hr ht

/-- Two names in one bucket. -/
example : hashCode "ah".toList = hashCode "bd".toList := by decide

def simpleMacro (s : String) : Defn := ⟨-1, s.length, false, s.toList, 1, "f".toList, some false, some false, [], []⟩

/-- Defining `ah`, then `bd` in the same bucket, then removing `ah`; `defined` is there only in the
condition. -/
example : (run empty [.define "ah".toList none (simpleMacro "1"), .define "bd".toList (some 2) (simpleMacro "2"),
    .look "ah".toList none, .undef "ah+".toList none, .look "ah".toList none, .look "bd".toList (some 2),
    .cond [("defined".toList, none)] 7, .look "defined".toList none]).map (·.2) =
    some [some (.macro (simpleMacro "1")), none, some (.macro (simpleMacro "2")), some (.special 7), none] := by decide +kernel

example : ∀ o ∈ [Op.define "ah".toList none (simpleMacro "1"), .undef "ah+".toList (some 2)], o.WellFormed := by
  intro o ho
  simp only [List.mem_cons, List.not_mem_nil, or_false] at ho
  rcases ho with rfl | rfl
  · intro n hn; simp at hn
  · intro n hn; simp at hn; subst hn; decide

/-- C12 in full: what the command line defined, saved, is found again after each file as far as it was
written at all, whatever the file does. -/
def C12_full : Prop := ∀ os1 os2 : List Op, ∀ text len, (∀ o ∈ os1, o.WellFormed) → (∀ o ∈ os2, o.WellFormed ∧ o.KeepsSaved) →
  WellFormed text len → ∀ s1 s2 o1 o2, run empty os1 = some (s1, o1) → run empty (os1 ++ [.save] ++ os2 ++ [.restore]) = some (s2, o2) →
  ∃ v1 v2, valueOf s1 text len = some v1 ∧ valueOf s2 text len = some v2 ∧ Option.Rel Value.Agrees v2 v1

theorem specs_append (copy : Value → Value) : ∀ (a b : List Op) (e : Env × Env),
    (Op.specs copy e (a ++ b)).1 = (Op.specs copy (Op.specs copy e a).1 b).1 := by
  intro a
  induction a with
  | nil => intro b e; rfl
  | cons o a ih => intro b e; simp only [List.cons_append, Op.specs]; exact ih b _

theorem specs_saved (copy : Value → Value) : ∀ (os : List Op), (∀ o ∈ os, o.KeepsSaved) → ∀ e : Env × Env,
    (Op.specs copy e os).1.2 = e.2 := by
  intro os
  induction os with
  | nil => intro _ e; rfl
  | cons o os ih =>
    intro h e
    simp only [Op.specs]
    rw [ih (fun o ho => h o (by simp [ho]))]
    have := h o (by simp)
    cases o <;> first | rfl | exact absurd this id

/-- C12. What is found after restoring is what was saved, copied twice: with the copy that the code makes,
and exactly that. -/
theorem C12_exactly (os1 os2 : List Op) (text : Text) (len : Option Nat) (h1 : ∀ o ∈ os1, o.WellFormed)
    (h2 : ∀ o ∈ os2, o.WellFormed ∧ o.KeepsSaved) (ht : WellFormed text len) :
    ∃ s1 s2 o1 o2 v, run empty os1 = some (s1, o1) ∧ run empty (os1 ++ [.save] ++ os2 ++ [.restore]) = some (s2, o2) ∧
      valueOf s1 text len = some v ∧ valueOf s2 text len = some (v.map fun v => copyValue (copyValue v)) := by
  obtain ⟨s1, r1, q1⟩ := run_rel os1 empty_rel h1
  have hw : ∀ o ∈ os1 ++ [.save] ++ os2 ++ [.restore], o.WellFormed := by
    intro o ho
    simp only [List.mem_append, List.mem_cons, List.not_mem_nil, or_false] at ho
    rcases ho with ((h | rfl) | h) | rfl
    · exact h1 o h
    · trivial
    · exact (h2 o h).1
    · trivial
  obtain ⟨s2, r2, q2⟩ := run_rel _ empty_rel hw
  refine ⟨s1, s2, _, _, _, r1, r2, valueOf_rel q1 ht, ?_⟩
  rw [valueOf_rel q2 ht]
  rw [specs_append]
  simp only [Op.specs, Op.spec]
  rw [specs_append, specs_saved copyValue os2 (fun o ho => (h2 o ho).2), specs_append]
  simp only [Op.specs, Op.spec, List.map_map, List.head?_map]
  rfl

theorem agrees_iff (v : Value) : (copyValue (copyValue v)).Agrees v ↔
    ∀ d, v = .macro d → d.pattern.length ≤ 1 ∧ (0 ≤ d.nargs ∨ d.argnames = []) := by
  rcases v with d | n | s | t
  · simp only [copyValue, Value.Agrees, Value.macro.injEq, forall_eq', Defn.Agrees, copyDefn, true_or, true_and]
    have hp : ∀ p : List Ref, List.Forall₂ (fun r' r : Ref => r'.stringify = r.stringify ∧ r'.rawBefore = r.rawBefore ∧
        r'.rawAfter = r.rawAfter ∧ r'.restArgs = r.restArgs ∧ r'.argno = r.argno ∧ (r'.nchars = none ∨ r'.nchars = r.nchars))
        (copyPattern (copyPattern p)) p ↔ p.length ≤ 1 := by
      intro p
      match p with
      | [] => simp [copyPattern]
      | [r] => simp [copyPattern]
      | r :: r2 :: p => simp [copyPattern]
    rw [hp]
    by_cases h : 0 ≤ d.nargs
    · simp [h]
    · simp only [h, if_false, false_or]
      exact ⟨fun ⟨a, b⟩ => ⟨b, a.symm⟩, fun ⟨a, b⟩ => ⟨b.symm, a⟩⟩
  · simp [copyValue, Value.Agrees]
  · simp [copyValue, Value.Agrees]
  · simp [copyValue, Value.Agrees]

/-- C12, partial: every name that is not a macro, or is a macro whose body uses parameters at most once,
is found again as it was, as far as it was written at all: missing is that the macros whose body uses
parameters more than once lose all but the first use, and that `noExpand` and `rest_args` are not
written. -/
theorem C12_partial (os1 os2 : List Op) (text : Text) (len : Option Nat) (h1 : ∀ o ∈ os1, o.WellFormed)
    (h2 : ∀ o ∈ os2, o.WellFormed ∧ o.KeepsSaved) (ht : WellFormed text len)
    (s1 s2 : State) (o1 o2) (r1 : run empty os1 = some (s1, o1))
    (r2 : run empty (os1 ++ [.save] ++ os2 ++ [.restore]) = some (s2, o2)) :
    ∃ v1 v2, valueOf s1 text len = some v1 ∧ valueOf s2 text len = some v2 ∧
      (Option.Rel Value.Agrees v2 v1 ↔
        ∀ d, v1 = some (.macro d) → d.pattern.length ≤ 1 ∧ (0 ≤ d.nargs ∨ d.argnames = [])) := by
  obtain ⟨s1', s2', p1, p2, v, k1, k2, k3, k4⟩ := C12_exactly os1 os2 text len h1 h2 ht
  rw [r1, Option.some.injEq, Prod.mk.injEq] at k1
  rw [r2, Option.some.injEq, Prod.mk.injEq] at k2
  rw [← k1.1] at k3
  rw [← k2.1] at k4
  refine ⟨_, _, k3, k4, ?_⟩
  cases v with
  | none => simp [Option.Rel.none]
  | some v =>
    simp only [Option.map_some, Option.some.injEq]
    rw [← agrees_iff]
    exact ⟨fun h => by cases h; assumption, fun h => Option.Rel.some h⟩

/-- `-D"sq(x)=x*x"`. -/
def square : Defn := ⟨1, 1, false, "*".toList, 0, "".toList, some false, some false,
  [⟨false, false, false, false, some 0, 0⟩, ⟨false, false, false, false, some 1, 0⟩], "x".toList⟩

theorem C12_full_is_false : ¬ C12_full := by
  intro h
  have hw : WellFormed "sq".toList none := by intro n hn; simp at hn
  have h1 : ∀ o ∈ [Op.define "sq".toList none square], o.WellFormed := by
    intro o ho
    simp only [List.mem_cons, List.not_mem_nil, or_false] at ho
    subst ho
    exact hw
  obtain ⟨s1, s2, o1, o2, v, k1, k2, k3, k4⟩ := C12_exactly [.define "sq".toList none square] [] "sq".toList none h1 (by simp) hw
  obtain ⟨v1, v2, m1, m2, m3⟩ := h _ [] _ _ h1 (by simp) hw _ _ _ _ k1 k2
  have := C12_partial [.define "sq".toList none square] [] "sq".toList none h1 (by simp) hw _ _ _ _ k1 k2
  obtain ⟨w1, w2, n1, n2, n3⟩ := this
  rw [m1, Option.some.injEq] at n1
  rw [m2, Option.some.injEq] at n2
  rw [← n1, ← n2] at n3
  have hv := C11_lookup _ h1 k1 "sq".toList none hw
  rw [m1] at hv
  have hv1 : v1 = some (.macro square) := by
    rw [Option.some.injEq] at hv
    rw [hv]; decide
  have := (n3.1 m3) square hv1
  exact absurd this.1 (by decide)

/-- The second use of the parameter is gone, and two flags are what memory held. -/
example : copyValue (copyValue (.macro square)) = .macro { square with
    noExpand := none, restArgs := none, pattern := [⟨false, false, false, false, none, 0⟩] } := by decide

/-- A macro without parameters is found again. -/
example : (copyValue (copyValue (.macro (simpleMacro "3")))).Agrees (.macro (simpleMacro "3")) := by
  rw [agrees_iff]
  intro d hd
  simp only [Value.macro.injEq] at hd
  subst hd
  exact ⟨by decide, .inr rfl⟩

/-- C12. The two flags of a restored macro are never those written when it was defined: they are whatever
the memory held. -/
theorem C12_flags_lost (d : Defn) (b c : Bool) (h : d.noExpand = some b) (h' : d.restArgs = some c) :
    ∃ d', copyValue (.macro d) = .macro d' ∧ d'.noExpand ≠ d.noExpand ∧ d'.restArgs ≠ d.restArgs :=
  ⟨_, rfl, by simp [copyDefn, h], by simp [copyDefn, h']⟩

example : (simpleMacro "3").noExpand = some false := rfl

end Splint.CppHash
