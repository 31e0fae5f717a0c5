import Verif.Proofs.MacroCache
/-!
# C39: cached macros
-/
namespace Splint.MacroCache
open Spec (place Ordinary)

/-- C39 as stated: in every history that ends with the final pass, every registered place is checked exactly
once, with the text that was registered last. -/
def C39_full : Prop := ∀ (S : Sys) (es : List Ev),
  ∃ s out, run S create (es ++ [.all]) = some (s, out) ∧ (out.map fun x => place x.fl).Nodup ∧
    (∀ r ∈ regsOf es, ∃ x ∈ out, place x.fl = place r.fl) ∧
    ∀ x ∈ out, lastText (place x.fl) (regsOf es) = some x.text

/-- Nothing is written outside the allocated space, whatever the history. -/
theorem C39_safe (S : Sys) (es : List Ev) : ∃ r, run S create es = some r := by
  obtain ⟨s, out, h, _⟩ := run_gen S es [] [] create gen_create
  exact ⟨_, h⟩

/-- After a pass over everything, every place registered before it has been checked, whatever the positions. -/
theorem C39_all (S : Sys) (hp : S.partial_ = false) (es es2 : List Ev) (s : Cache) (out : List Checked)
    (h : run S create (es ++ .all :: es2) = some (s, out)) (r : Reg) (hr : r ∈ regsOf es) :
    ∃ x ∈ out, place x.fl = place r.fl := covered S hp es es2 s out h r hr

/-- C39 for positions outside libraries (missing: positions in libraries, for which `C39_library` shows it
fails; texts registered after the place was checked, `C39_stale`; the flag `partial`, `C39_partialFlag`): what
is checked is exactly what is due, place by place, at every pass. -/
theorem C39_partial (S : Sys) (es : List Ev) (ho : ∀ r ∈ regsOf es, Ordinary r.fl) :
    ∃ s, run S create es = some (s, ideal S [] [] es) :=
  run_ideal S es [] [] create inv_create ho

/-- No place outside libraries is checked twice. -/
theorem C39_once_partial (S : Sys) (es : List Ev) (ho : ∀ r ∈ regsOf es, Ordinary r.fl)
    (s : Cache) (out : List Checked) (h : run S create es = some (s, out)) :
    (out.map fun x => place x.fl).Nodup := by
  obtain ⟨s', h'⟩ := C39_partial S es ho
  rw [h'] at h
  cases h
  exact (now_nodup_ideal S es [] []).1

/-- What a pass checks has the text that was registered last before it. -/
theorem C39_text_partial (S : Sys) (es : List Ev) (ev : Ev)
    (ho : ∀ r ∈ regsOf (es ++ [ev]), Ordinary r.fl) (s s' : Cache) (out out' : List Checked)
    (h : run S create es = some (s, out)) (h' : run S create (es ++ [ev]) = some (s', out')) :
    ∃ now, out' = out ++ now ∧ ∀ x ∈ now, lastText (place x.fl) (regsOf es) = some x.text := by
  have ho1 : ∀ r ∈ regsOf es, Ordinary r.fl := by
    intro r hr
    apply ho
    clear h h' ho
    induction es with
    | nil => simp [regsOf] at hr
    | cons e es ih =>
      cases e with
      | add fl t c =>
        rw [regsOf, List.mem_cons] at hr
        rw [List.cons_append, regsOf, List.mem_cons]
        exact hr.imp id ih
      | file b => exact ih hr
      | all => exact ih hr
  obtain ⟨s1, h1⟩ := C39_partial S es ho1
  obtain ⟨s2, h2⟩ := C39_partial S (es ++ [ev]) ho
  rw [h1] at h; cases h
  rw [h2] at h'; cases h'
  obtain ⟨now, h3, h4⟩ := ideal_last S es ev [] []
  exact ⟨now, h3, by simpa using h4⟩

/-- C39 in its entirety, for positions outside libraries, without `partial`, when everything is registered
before anything is checked. -/
theorem C39_simple_partial (S : Sys) (hp : S.partial_ = false) (es : List Ev) (ho : ∀ r ∈ regsOf es, Ordinary r.fl)
    (hadd : ∀ e ∈ es, ∃ fl t c, e = Ev.add fl t c) :
    ∃ s out, run S create (es ++ [.all]) = some (s, out) ∧ (out.map fun x => place x.fl).Nodup ∧
      (∀ r ∈ regsOf es, ∃ x ∈ out, place x.fl = place r.fl) ∧
      ∀ x ∈ out, lastText (place x.fl) (regsOf es) = some x.text := by
  have hr : regsOf (es ++ [.all]) = regsOf es := by
    clear ho
    induction es with
    | nil => rfl
    | cons e es ih =>
      obtain ⟨fl, t, c, rfl⟩ := hadd _ (List.mem_cons_self ..)
      simp only [List.cons_append, regsOf]
      rw [ih fun e he => hadd e (List.mem_cons_of_mem _ he)]
  obtain ⟨s, h⟩ := C39_partial S (es ++ [.all]) (by rwa [hr])
  obtain ⟨s1, h1⟩ := C39_partial S es ho
  refine ⟨s, _, h, C39_once_partial S _ (by rwa [hr]) _ _ h, C39_all S hp es [] _ _ h, ?_⟩
  obtain ⟨now, h3, h4⟩ := C39_text_partial S es .all (by rwa [hr]) _ _ _ _ h1 h
  have : ideal S [] [] es = [] := by
    have key : ∀ regs done, ideal S regs done es = [] := by
      clear ho h h1 h3 h4 hr
      induction es with
      | nil => exact fun _ _ => rfl
      | cons e es ih =>
        obtain ⟨fl, t, c, rfl⟩ := hadd _ (List.mem_cons_self ..)
        exact fun _ _ => ih (fun e he => hadd e (List.mem_cons_of_mem _ he)) _ _
    exact key _ _
  rw [h3, this, List.nil_append]
  exact h4

/-! ## Where it fails, and examples -/

/-- A program with one file, that registers a further macro while it checks one. -/
def sys : Sys := ⟨fun _ => "f", fun x => [(x.fl, "new", false), (none, "other", true)], false⟩

def at_ (kind : FlKind) (line : Int) : FileLoc := some ⟨kind, 0, line, 1, some 0⟩

theorem ordinary_at (line : Int) : Ordinary (at_ .normal line) := by
  refine ⟨by simp [at_], ?_, ?_⟩
  · rintro ⟨r, h, h2⟩
    cases h
    simp at h2
  · rintro r h
    cases h
    rfl

/-- A macro in a system header, read twice, is checked twice. -/
theorem C39_library : run sys create [.add (at_ .lib 3) "x" false, .add (at_ .lib 3) "y" false, .all]
    = some (⟨[⟨at_ .lib 3, "x", true, false⟩, ⟨at_ .lib 3, "y", true, false⟩], 6, 8, false⟩,
        [⟨at_ .lib 3, "x", false⟩, ⟨at_ .lib 3, "y", false⟩]) := by decide +kernel

/-- A text that is registered when the place has been checked is never checked. -/
theorem C39_stale : run sys create [.add (at_ .normal 3) "x" false, .file "f", .add (at_ .normal 3) "y" false, .all]
    = some (⟨[⟨at_ .normal 3, "y", true, false⟩], 7, 8, false⟩, [⟨at_ .normal 3, "x", false⟩]) := by decide +kernel

/-- A comment at the position of a macro takes the macro's place, and is checked as a macro. -/
theorem C39_kind : run sys create [.add (at_ .normal 3) "x" false, .add (at_ .normal 3) "c" true, .all]
    = some (⟨[⟨at_ .normal 3, "c", true, false⟩], 7, 8, false⟩, [⟨at_ .normal 3, "c", false⟩]) := by decide +kernel

/-- With `partial`, the last pass checks nothing, for any history. -/
theorem C39_partialFlag (S : Sys) (hp : S.partial_ = true) (es : List Ev) (s : Cache) (out : List Checked)
    (h : run S create es = some (s, out)) :
    ∃ s', run S create (es ++ [.all]) = some (s', out) := by
  rw [run_append, h]
  exact ⟨_, by simp [run, processUndefined, hp]; rfl⟩

theorem C39_full_is_false : ¬ C39_full := by
  intro h
  obtain ⟨s, out, h1, h2, _⟩ := h sys [.add (at_ .lib 3) "x" false, .add (at_ .lib 3) "y" false]
  rw [List.cons_append, List.cons_append, List.nil_append, C39_library] at h1
  cases h1
  revert h2
  decide

/-- Two macros, one of them read twice, one file checked before the end. -/
example : (∀ r ∈ regsOf [.add (at_ .normal 3) "x" false, .add (at_ .normal 5) "z" false, .add (at_ .normal 3) "y" false, .file "f", .add (at_ .normal 7) "w" true, .all],
      Ordinary r.fl) ∧
    (run { sys with base := fun fl => if fl = at_ .normal 3 then "f" else "g" } create
      [.add (at_ .normal 3) "x" false, .add (at_ .normal 5) "z" false, .add (at_ .normal 3) "y" false, .file "f", .add (at_ .normal 7) "w" true, .all]).map Prod.snd
    = some [⟨at_ .normal 3, "y", false⟩, ⟨at_ .normal 5, "z", false⟩, ⟨at_ .normal 7, "w", true⟩] := by
  refine ⟨?_, by decide +kernel⟩
  intro r hr
  simp only [regsOf, List.mem_cons, List.not_mem_nil, or_false] at hr
  rcases hr with rfl | rfl | rfl | rfl <;> exact ordinary_at _

/-- The hypotheses of `C39_simple_partial`. -/
example : ∃ es : List Ev, es.length = 2 ∧ (∀ r ∈ regsOf es, Ordinary r.fl) ∧ (∀ e ∈ es, ∃ fl t c, e = Ev.add fl t c) := by
  refine ⟨[.add (at_ .normal 3) "x" false, .add (at_ .normal 5) "z" true], rfl, ?_, ?_⟩
  · intro r hr
    simp only [regsOf, List.mem_cons, List.not_mem_nil, or_false] at hr
    rcases hr with rfl | rfl <;> exact ordinary_at _
  · intro e he
    simp only [List.mem_cons, List.not_mem_nil, or_false] at he
    rcases he with rfl | rfl
    · exact ⟨_, _, _, rfl⟩
    · exact ⟨_, _, _, rfl⟩

end Splint.MacroCache
