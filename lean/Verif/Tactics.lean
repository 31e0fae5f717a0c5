import Mathlib.Tactic.Tauto
import Mathlib.Tactic.Set
import Mathlib.Tactic.ByContra
import Mathlib.Tactic.Push
import Mathlib.Tactic.SplitIfs
import Mathlib.Tactic.Use
import Mathlib.Tactic.Ring
import Mathlib.Tactic.Linarith
import Mathlib.Tactic.IntervalCases
/-! Tactics used by the proofs; nothing of the model depends on this file. -/
