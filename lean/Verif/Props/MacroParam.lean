import Verif.Proofs.MacroParam
/-!
C106: a parameter of a macro is reported unless every execution of the body evaluates it exactly once.
-/
namespace Splint.MacroParam

open Spec

/-- C106 in full. -/
def C106_full : Prop := ∀ b : Body, reported b = false ↔ ExactlyOnce b

/-- `while (x) { }` evaluates `x` any number of times and is not reported. -/
theorem C106_full_is_false : ¬ C106_full := by
  intro h
  have h1 := (h (.loop .use .skip)).mp (by decide) (1 + 0 + 1) .done (.loop .use .skip (.loopEnd .use))
  cases h1

/-- C106 (sound part).  If the body never leaves the macro early and the parameter does not occur in a loop
(other than `do ... while (0)`), a parameter that is not reported is evaluated exactly once.

Missing: loops and `return`, where it is false (`C106_loop`, `C106_return`). -/
theorem C106_sound_partial (b : Body) (hs : Stays b = true) (hl : LoopFree b = true) (h : reported b = false) : ExactlyOnce b := by
  rw [reported_iff, Bool.not_eq_false'] at h
  intro n o he
  exact exec_one he hs hl h

/-- C106 (complete part).  If the body never leaves the macro early and the parameter does not occur in a
`switch`, a parameter that is reported is not evaluated exactly once in some execution.

Missing: `switch` and `return`, where it is false (`C106_switch`, `C106_return`). -/
theorem C106_complete_partial (b : Body) (hs : Stays b = true) (hw : SwitchFree b = true) (h : reported b = true) : ¬ ExactlyOnce b := by
  rw [reported_iff, Bool.not_eq_true'] at h
  intro he
  obtain ⟨n, h1, h2⟩ := exec_other b hs hw h
  exact h1 (he n _ h2)

/-- C106 without loops, `switch` and `return`. -/
theorem C106_partial (b : Body) (hs : Stays b = true) (hl : LoopFree b = true) (hw : SwitchFree b = true) :
    reported b = false ↔ ExactlyOnce b :=
  ⟨C106_sound_partial b hs hl, fun h => by
    by_contra hr
    exact C106_complete_partial b hs hw (by simpa using hr) h⟩

/-- What is accepted, for every body. -/
theorem C106_exactly (b : Body) : reported b = false ↔ Accepted b = true := by
  rw [reported_iff, Bool.not_eq_false']

/-- An `else` branch does not count exactly if every execution of it leaves the macro. -/
theorem C106_escapes (b : Body) : escapes b = true ↔ ∀ n o, Exec b n o → o = .left := by
  constructor
  · intro h n o he
    exact escapes_left he h
  · intro h
    by_contra hb
    obtain ⟨n, hn⟩ := escapes_done b (by simpa using hb)
    cases h _ _ hn

/-- A parameter that occurs in a loop and is not reported is always one that should be. -/
theorem C106_loop (c a : Body) (hc : Stays c = true) (ha : Stays a = true) (h : reported (.loop c a) = false) :
    ¬ ExactlyOnce (.loop c a) := by
  rw [C106_exactly, Accepted, Bool.and_eq_true] at h
  obtain ⟨n, h1, hn⟩ := exec_pos c hc (accepted_occurs c h.1)
  obtain ⟨m, hm⟩ := exec_some a ha
  intro he
  have := he _ _ (.loop hn hm (.loopEnd hn))
  omega

/-- The same for `do a while (c)`. -/
theorem C106_do (a c : Body) (ha : Stays a = true) (hc : Stays c = true) (h : reported (.doWhile a c) = false) :
    ¬ ExactlyOnce (.doWhile a c) := by
  rw [C106_exactly] at h
  have ho := accepted_occurs _ h
  rw [Occurs] at ho
  obtain ⟨n, h1, hn⟩ := exec_pos (.seq a c) (by rw [Stays, ha, hc]; rfl) ho
  intro he
  have := he _ _ (.doWhile hn (.doEnd hn))
  omega

/-- Such a loop is accepted if its condition, or its body, is. -/
example : reported (.loop (.ifElse .use .use) .skip) = false ∧ reported (.doWhile .use .skip) = false ∧
    reported (.loop .skip .use) = true := by decide

/-- A parameter that occurs in a `switch` is always reported, also if it is evaluated exactly once:
`switch (e) { case 1: x; break; default: x; }`. -/
theorem C106_switch : (∀ p a cs, reported (.switch p a cs) = true) ∧ ExactlyOnce (.switch true .use (.cons .use .nil)) := by
  refine ⟨fun p a cs => by rw [reported_iff]; rfl, ?_⟩
  intro n o h
  cases h with
  | switchFirst h => cases h; rfl
  | switch hc h =>
    rcases hc with rfl | hc
    · cases h; rfl
    · exact hc.elim

/-- `if (c) return; x` is accepted though `x` need not be evaluated; `if (c) { x; return; } x;` is reported
though it is evaluated once; and `if (c) x; else return;` is accepted while `if (c) return; else x;` is reported. -/
theorem C106_return :
    (reported (.seq (.ifThen .stop) .use) = false ∧ ¬ ExactlyOnce (.seq (.ifThen .stop) .use)) ∧
    (reported (.seq (.ifThen (.seq .use .stop)) .use) = true ∧
      ExactlyOnce (.seq (.ifThen (.seq .use .stop)) .use)) ∧
    (reported (.ifElse .use .stop) = false ∧ reported (.ifElse .stop .use) = true) := by
  refine ⟨⟨by decide, ?_⟩, ⟨by decide, ?_⟩, by decide, by decide⟩
  · intro h
    cases h _ _ (.seqLeft (.ifThen .stop))
  · intro n o h
    cases h with
    | seq h1 h2 =>
      cases h2
      cases h1 with
      | ifNot => rfl
      | ifThen h1 => cases h1 with
        | seq h1 h2 => cases h2
    | seqLeft h1 =>
      cases h1 with
      | ifThen h1 =>
        cases h1 with
        | seq h1 h2 => cases h1; cases h2; rfl
        | seqLeft h1 => cases h1

/-- `do { if (c) { x; } else { y; x; } } while (0)` meets the hypotheses and is accepted. -/
example : let b : Body := .once (.ifElse .use (.seq .skip .use))
    Stays b = true ∧ LoopFree b = true ∧ SwitchFree b = true ∧ reported b = false := by decide

/-- `c && x` and `x + x` meet them and are reported. -/
example : Stays (.second .use) = true ∧ LoopFree (.second .use) = true ∧ SwitchFree (.second .use) = true ∧
    reported (.second .use) = true ∧ reported (.seq .use .use) = true ∧ reported .skip = true := by decide

end Splint.MacroParam
