import Verif.Proofs.UseMarksRun
/-!
# C105: a local variable is reported as unused exactly if it is not used

Parsing a function opens and leaves tables for its blocks and branches; a use is marked in the entry that is
found; `usymtab_allUsed` looks at the marks when a block is left.
-/
namespace Splint.Symtab.Uses

open Splint.Symtab.Uses.Spec

/-- For every function the messages are those for the variables without a use. -/
def C105_full : Prop := ∀ p, Uses.Spec.Placed true p → function p = some (notUsed p)

/-- True if no `switch` starts with declarations or has no case. -/
theorem C105_partial (p : Prog) (hp : Uses.Spec.Placed true p) (ho : Ordinary p) : function p = some (notUsed p) := by
  obtain ⟨st, h1, _⟩ := run_ok (.block p) true (by rw [Uses.Spec.Placed]; exact hp) (by rw [Ordinary]; exact ho)
    [⟨.normal, 0, [], false, false⟩] ⟨trivial, by simp, by simp, by simp, by simp [Kind.stops]⟩ ⟨.normal, [], rfl, by simp, by simp⟩
  rw [function, h1]
  rfl

/-- A function that declares `x` and then does `b`, which declares nothing else in the outermost block: after
the messages for the blocks in `b`, `x` is reported if and only if no use in `b` belongs to it. -/
theorem C105_one_partial (x : Nat) (b : Prog) (hp : Uses.Spec.Placed false b) (ho : Ordinary b) :
    ∃ m, function (.seq (.decl x) b) = some (m ++ if (scan b [[(x, false)], []]).1.head? = some [(x, false)] then [x] else []) := by
  refine ⟨(scan b [[(x, false)], []]).2, ?_⟩
  have hpt : ∀ q, Uses.Spec.Placed false q → Uses.Spec.Placed true q := by
    intro q
    induction q using Prog.rec (motive_2 := fun _ => True) <;> simp_all [Uses.Spec.Placed]
  rw [C105_partial _ (by rw [Uses.Spec.Placed]; exact ⟨by rw [Uses.Spec.Placed], hpt b hp⟩)
    (by rw [Ordinary]; exact ⟨by rw [Ordinary]; trivial, ho⟩)]
  rw [notUsed, scan, scan, scan]
  simp only [enter, Scope.has, List.any_nil, Bool.false_eq_true, if_false, List.nil_append]
  congr 2
  have h := (scan_tail b false hp [[(x, false)], []]).2 rfl
  cases hE : (scan b [[(x, false)], []]).1 with
  | nil => rw [hE] at h; cases h
  | cons f E =>
    rw [hE] at h
    simp only [names, List.map_cons, List.map_nil, List.cons.injEq] at h
    obtain ⟨h1, _⟩ := h
    cases f with
    | nil => cases h1
    | cons v f =>
      simp only [List.map_cons, List.cons.injEq, List.map_eq_nil_iff] at h1
      obtain ⟨h1, rfl⟩ := h1
      obtain ⟨n, m⟩ := v
      simp only at h1
      subst h1
      cases m <;> simp [noUse]

/-- `int y; switch (..) { int x; case 1: break; }`: `x` is not used and not reported. -/
theorem C105_switch_block : function (.switch [0] (.cons .skip .brk .nil)) = some []
    ∧ notUsed (.switch [0] (.cons .skip .brk .nil)) = [0] := by
  unfold function notUsed
  constructor <;> rfl

/-- `int x; switch (..) { int x; case 1: x; break; }`: the use of the inner `x` counts for the outer one. -/
theorem C105_switch_shadow : function (.seq (.decl 0) (.switch [0] (.cons (.use 0) .brk .nil))) = some []
    ∧ notUsed (.seq (.decl 0) (.switch [0] (.cons (.use 0) .brk .nil))) = [0] := by
  unfold function notUsed
  constructor
  · decide +kernel
  · rfl

/-- `int x; switch (..) { case 1: x; switch (..) { } break; }`: `x` is used and reported. -/
theorem C105_empty_switch :
    function (.seq (.decl 0) (.switch [] (.cons (.seq (.use 0) (.switch [] .nil)) .brk .nil))) ≠ some []
    ∧ notUsed (.seq (.decl 0) (.switch [] (.cons (.seq (.use 0) (.switch [] .nil)) .brk .nil))) = [] := by
  unfold function notUsed
  constructor
  · decide +kernel
  · rfl

theorem C105_full_is_false : ¬ C105_full := by
  intro h
  have := h (.switch [0] (.cons .skip .brk .nil)) (by simp [Uses.Spec.Placed, Uses.Spec.PlacedCases])
  rw [C105_switch_block.1, C105_switch_block.2] at this
  cases this

-- `int x, y, z; if (..) { int x; x; } else { y; } switch (..) { case 1: while (..) z; case 2: break; }`
example : let p : Prog := .seq (.decl 0) (.seq (.decl 1) (.seq (.decl 2) (.seq
      (.ifElse (.block (.seq (.decl 0) (.use 0))) (.block (.use 1)))
      (.switch [] (.cons (.ifThen (.use 2)) .fall (.cons .skip .brk .nil))))))
    Uses.Spec.Placed true p ∧ Ordinary p ∧ notUsed p = [0] ∧ function p = some [0] := by
  refine ⟨by simp [Uses.Spec.Placed, Uses.Spec.PlacedCases], by simp [Ordinary, OrdinaryCases], by rfl, by decide +kernel⟩

-- an unused variable in a branch, and a use in the second operand of `&&`
example : let p : Prog := .seq (.decl 0) (.seq (.second (.use 0)) (.ifThen (.block (.decl 3))))
    Uses.Spec.Placed true p ∧ Ordinary p ∧ function p = some [3] := by
  refine ⟨by simp [Uses.Spec.Placed], by simp [Ordinary], by decide +kernel⟩

example : Uses.Spec.Placed false (.ifThen (.use 5)) ∧ Ordinary (.ifThen (.use 5))
    ∧ (scan (.ifThen (.use 5)) [[(5, false)], []]).1.head? = some [(5, true)] := by
  refine ⟨by simp [Uses.Spec.Placed], by simp [Ordinary], by rfl⟩

end Splint.Symtab.Uses
