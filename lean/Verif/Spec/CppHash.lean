import Verif.Model.CppHash
/-!
# What a table of macros is

For each name the definitions in force, the last first; and the saved ones.
-/
namespace Splint.CppHash

/-- For each name its definitions, the most recent first. -/
abbrev Env := Text → List Value

/-- The name that a text and a length stand for: the first characters, or the identifier at the
beginning. -/
def nameOf (text : Text) : Option Nat → Text
  | some n => text.take n
  | none => text.takeWhile isIdent

/-- The text has the characters that the length says. -/
def WellFormed (text : Text) (len : Option Nat) : Prop := ∀ n, len = some n → n ≤ text.length

/-- A definition replaces the last one. -/
def replaceHead (v : Value) : List Value → List Value
  | [] => [v]
  | _ :: r => v :: r

/-- The meaning of the operations on the current and the saved definitions; `copy` is what saving and
restoring make of a definition. -/
def Op.spec (copy : Value → Value) (e : Env × Env) : Op → (Env × Env) × List (Option Value)
  | .define t l d => ((update e.1 (nameOf t l) (replaceHead (.macro d) (e.1 (nameOf t l))), e.2), [])
  | .undef t l => ((update e.1 (nameOf t l) [], e.2), [])
  | .builtin t l v => ((update e.1 (nameOf t l) (v :: e.1 (nameOf t l)), e.2), [])
  | .look t l => (e, [(e.1 (nameOf t l)).head?])
  | .cond ns k => (e, ns.map fun x =>
      (update e.1 "defined".toList (.special k :: e.1 "defined".toList) (nameOf x.1 x.2)).head?)
  | .save => ((e.1, fun n => (e.1 n).map copy), [])
  | .restore => ((fun n => (e.2 n).map copy, e.2), [])
  | .cleanup => ((fun _ => [], e.2), [])

def Op.specs (copy : Value → Value) (e : Env × Env) : List Op → (Env × Env) × List (Option Value)
  | [] => (e, [])
  | o :: os =>
    let r := o.spec copy e
    let r2 := Op.specs copy r.1 os
    (r2.1, r.2 ++ r2.2)

/-- The lengths in an operation are right. -/
def Op.WellFormed : Op → Prop
  | .define t l _ | .undef t l | .builtin t l _ | .look t l => CppHash.WellFormed t l
  | .cond ns _ => ∀ x ∈ ns, CppHash.WellFormed x.1 x.2
  | _ => True

/-- The saved definitions stay. -/
def Op.KeepsSaved : Op → Prop
  | .save => False
  | _ => True

/-- The two definitions are the same as far as the first was written: parameters, replacement pattern
and flags. -/
def Defn.Agrees (d' d : Defn) : Prop :=
  d'.nargs = d.nargs ∧ d'.length = d.length ∧ d'.predefined = d.predefined ∧ d'.expansion = d.expansion ∧
  d'.line = d.line ∧ d'.file = d.file ∧ (d'.noExpand = none ∨ d'.noExpand = d.noExpand) ∧
  (d'.restArgs = none ∨ d'.restArgs = d.restArgs) ∧ d'.argnames = d.argnames ∧
  List.Forall₂ (fun r' r : Ref => r'.stringify = r.stringify ∧ r'.rawBefore = r.rawBefore ∧ r'.rawAfter = r.rawAfter ∧
    r'.restArgs = r.restArgs ∧ r'.argno = r.argno ∧ (r'.nchars = none ∨ r'.nchars = r.nchars)) d'.pattern d.pattern

/-- The same for values. -/
def Value.Agrees : Value → Value → Prop
  | .macro d', .macro d => d'.Agrees d
  | v', v => v' = v

end Splint.CppHash
