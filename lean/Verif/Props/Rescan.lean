import Verif.Proofs.Rescan
/-!
C107: macros in a text, and in the text they expand to, are expanded as by the algorithm with hide sets.
-/
namespace Splint.Rescan

open Spec

/-- C107 in full: for every text the scan ends, with what the algorithm gives. -/
def C107_full : Prop := ∀ (env : Env) (text : List Tok), Tok.mark ∉ text → (∀ p ∈ env.defs, Tok.mark ∉ p.2.body) →
  ∃ fuel out e, scan env fuel text = some (out, e) ∧ Result env.defs text (visible out) e

/-- `#define f() 1`, `#define g f` -/
def envG : Env := ⟨[(0, .function [.other 1]), (1, .object [.name 0])], fun _ _ => false⟩

theorem scan_wf (text : List Tok) : WF [⟨none, text⟩] ∧ (fun _ => false) = hides [⟨none, text⟩] := ⟨rfl, by funext m; rfl⟩

/-- C107 (termination): the scan ends, whatever the macros and the text are. -/
theorem C107_ends (env : Env) (text : List Tok) : ∃ fuel q, scan env fuel text = some q := by
  obtain ⟨w1, w2⟩ := scan_wf text
  obtain ⟨q, hq⟩ := run_ends_some (env := env) (size env [⟨none, text⟩] + 1) [⟨none, text⟩] w1 (by omega)
  exact ⟨_, q, by rw [scan, w2]; exact hq⟩

/-- C107 on one line: if the scan does not break off with an internal error, its result is that of the
algorithm.

Missing: calls on several lines, where it is false (`C107_lines`). -/
theorem C107_sound_partial (env : Env) (text out : List Tok) (e : End) (fuel : Nat) (hb : ∀ p ∈ env.defs, OneLine p.2.body)
    (ht : OneLine text) (h : scan env fuel text = some (out, e)) (he : e ≠ .fatal) : Result env.defs text (visible out) e := by
  obtain ⟨w1, w2⟩ := scan_wf text
  rw [scan, w2] at h
  have := run_expands env hb fuel _ out e w1 ⟨⟨ht.1, .inl ht.2⟩, trivial⟩ h he
  rw [flat, flat, List.append_nil, ← w2] at this
  rw [Result]
  simp only at this
  rw [filter_mark ht.2] at this
  exact this

/-- C107 on one line, for macros whose text does not end with the name of a function-like macro: the scan ends, and
its result is the only one the algorithm has.

Missing: texts that end so, where it is false (`C107_fatal`), and calls on several lines. -/
theorem C107_partial (env : Env) (text : List Tok) (hb : ∀ p ∈ env.defs, OneLine p.2.body) (ht : OneLine text)
    (hn : ∀ p ∈ env.defs, NoOpenEnd env.defs p.2.body) :
    ∃ fuel out e, scan env fuel text = some (out, e) ∧ ∀ out' e', Result env.defs text out' e' ↔ out' = visible out ∧ e' = e := by
  obtain ⟨fuel, ⟨out, e⟩, h⟩ := C107_ends env text
  have he : e ≠ .fatal := run_ends hn fuel _ _ out e (by
    intro b hb ho
    rw [List.mem_singleton] at hb
    subst hb
    exact absurd rfl ho) h
  have hr := C107_sound_partial env text out e fuel hb ht h he
  refine ⟨fuel, out, e, h, fun out' e' => ⟨expands_unique hr, ?_⟩⟩
  rintro ⟨rfl, rfl⟩
  exact hr

/-- The name of a function-like macro at the end of an expansion, not followed by a parenthesis, is an internal error:
here for a macro `g` that is defined as a function-like macro `f`, whatever is around it. -/
theorem C107_fatal (env : Env) (f g : Nat) (body : List Tok) (t : Tok) (rest : List Tok) (hf : env.defs.lookup f = some (.function body))
    (hg : env.defs.lookup g = some (.object [.name f])) (hu : env.glue (.name f) t = false) (hfg : f ≠ g) (hw : white t = false) (hp : t ≠ .lparen) :
    ∃ fuel, scan env fuel (.name g :: t :: rest) = some ([], .fatal) := by
  refine ⟨2, ?_⟩
  have hk : keep env [.name f] [⟨none, t :: rest⟩] = false := by simp [keep, hu]
  have htl : tail env [.name f] 0 [⟨none, t :: rest⟩] = [] := by
    rw [tail, if_neg (Nat.not_lt_zero _), hk]; rfl
  have hop : openParen [⟨none, t :: rest⟩] = none := by
    rw [openParen, List.dropWhile_cons, hw]
    cases t <;> first | rfl | exact absurd rfl hp
  rw [scan, run, step.eq_4, hg]
  simp only [Bool.false_eq_true, if_false, push, htl, List.append_nil]
  rw [run, step.eq_4, hf]
  have hd : disable (fun _ => false) g f = false := by simp [disable, hfg]
  simp only [hd, Bool.false_eq_true, if_false]
  have hsk : ∀ d, skipEnds [⟨some g, []⟩, ⟨none, t :: rest⟩] d = ([⟨none, t :: rest⟩], enable d g, true) := by
    intro d
    rw [skipEnds, List.dropWhile_nil, if_pos rfl, skipEnds]
  rw [hsk]
  simp only [hop]
  rfl

/-- `g;` with `#define f() 1` and `#define g f`. -/
example : ∃ fuel, scan envG fuel [.name 1, .other 5] = some ([], .fatal) :=
  C107_fatal envG 0 1 [.other 1] (.other 5) [] rfl rfl rfl (by decide) rfl (by decide)

/-- The algorithm gives `f ;`. -/
example : Result envG.defs [.name 1, .other 5] [.name 0, .other 5] .done :=
  .object (body := [.name 0]) rfl rfl (.alone (body := [.other 1]) rfl rfl rfl (.other rfl (by simp) .nil))

theorem run_mono (env : Env) : ∀ (fuel : Nat) (st : List Buf) (d : Dis) (q : List Tok × End), run env fuel st d = some q → run env (fuel + 1) st d = some q
  | 0, _, _, _, h => by simp [run] at h
  | fuel + 1, st, d, q, h => by
    rw [run] at h ⊢
    split at h
    · exact h
    · exact h
    · exact h
    · rename_i st' d' o' _
      rw [Option.map_eq_some_iff] at h
      obtain ⟨q', h1, h2⟩ := h
      simp only [run_mono env fuel st' d' q' h1, Option.map_some, h2]

theorem run_det (env : Env) (a b : Nat) (st : List Buf) (d : Dis) (q q' : List Tok × End) (h : run env a st d = some q) (h' : run env b st d = some q') :
    q = q' := by
  have up : ∀ (a : Nat) (q : List Tok × End), run env a st d = some q → ∀ k, run env (a + k) st d = some q := by
    intro a q h k
    induction k with
    | zero => exact h
    | succ k ih => exact run_mono env _ _ _ _ ih
  have h1 := up a q h b
  have h2 := up b q' h' a
  rw [Nat.add_comm, h2] at h1
  cases h1
  rfl

/-- C107 in full is false. -/
theorem C107_full_is_false : ¬ C107_full := by
  intro h
  obtain ⟨fuel, out, e, h1, h2⟩ := h envG [.name 1, .other 5] (by decide) (by decide)
  have h3 : scan envG 2 [.name 1, .other 5] = some ([], .fatal) := by decide +kernel
  cases run_det envG _ _ _ _ _ _ h1 h3
  have hr : Result envG.defs [.name 1, .other 5] [.name 0, .other 5] .done :=
    .object (body := [.name 0]) rfl rfl (.alone (body := [.other 1]) rfl rfl rfl (.other rfl (by simp) .nil))
  cases (expands_unique h2 hr).2

/-- `#define f() 1`, `#define k() f` -/
def envK : Env := ⟨[(0, .function [.other 1]), (1, .function [.name 0])], fun _ _ => false⟩

/-- A call on two lines: `k()()` is `1`, but if there is a new line in the first pair of parentheses, it is left as `f ()`. -/
theorem C107_lines : scan envK 20 [.name 1, .lparen, .rparen, .lparen, .rparen] = some ([.other 1], .done) ∧
    scan envK 20 [.name 1, .lparen, .newline, .rparen, .lparen, .rparen] = some ([.name 0, .mark, .newline, .lparen, .rparen], .done) ∧
    Result envK.defs [.name 1, .lparen, .newline, .rparen, .lparen, .rparen] [.other 1] .done := by
  refine ⟨by decide +kernel, by decide +kernel, ?_⟩
  exact .function (body := [.name 0]) rfl rfl rfl rfl (.function (body := [.other 1]) rfl rfl rfl rfl (.other rfl (by simp) .nil))

/-- Macros that refer to each other and to themselves meet the hypotheses: `#define a b c`, `#define b a ( )`, `#define c() a`. -/
def envR : Env := ⟨[(0, .object [.name 1, .space, .name 2, .lparen, .rparen]), (1, .object [.name 0, .lparen, .rparen]),
  (2, .function [.name 0])], fun _ _ => true⟩

example : (∀ p ∈ envR.defs, OneLine p.2.body) ∧ OneLine [.name 0] := by
  constructor
  · intro p hp
    simp only [envR, List.mem_cons, List.not_mem_nil, or_false] at hp
    rcases hp with rfl | rfl | rfl <;> simp [OneLine, Def.body]
  · simp [OneLine]

example : ∀ p ∈ envR.defs, NoOpenEnd envR.defs p.2.body := by
  intro p hp a n b body h hb
  have last : ∀ (l : List Tok) (t : Tok), l ++ [t] = a ++ .name n :: b → t ≠ .space → t = .name n := by
    intro l t h1 h2
    rcases List.eq_nil_or_concat b with rfl | ⟨b', u, rfl⟩
    · exact (List.cons.inj (List.append_inj' h1 rfl).2).1
    · rw [List.concat_eq_append] at h1 hb
      rw [← List.cons_append, ← List.append_assoc] at h1
      have h3 := (List.cons.inj (List.append_inj' h1 rfl).2).1
      exact absurd (h3.trans (hb u (by simp))) h2
  simp only [envR, List.mem_cons, List.not_mem_nil, or_false] at hp
  rcases hp with rfl | rfl | rfl
  · exact absurd (last [.name 1, .space, .name 2, .lparen] .rparen h (by simp)) (by simp)
  · exact absurd (last [.name 0, .lparen] .rparen h (by simp)) (by simp)
  · cases last [] (.name 0) h (by simp)
    simp [envR]

/-- `a` is `a ( ) a`. -/
example : (scan envR 40 [.name 0]).map (fun q => (visible q.1, q.2)) = some ([.name 0, .lparen, .rparen, .name 0], .done) := by
  decide +kernel

/-- A call that is not closed. -/
example : scan envK 20 [.name 1, .lparen, .name 0] = some ([], .unterminated) := by decide +kernel

end Splint.Rescan
