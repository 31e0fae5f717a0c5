import Verif.Model.ArgPass
/-!
# What a call must do with its arguments
-/
namespace Splint.ArgPass

/-- parameters as they are declared: `fs`, followed by `...` if `d` -/
def declared (fs : List Param) (d : Bool) : Params := .list (fs ++ if d then [⟨true, false⟩] else [])

/-- A call as it is parsed.  A function that is marked as special has a format before `...`, and the conversions of
the format belong to arguments behind it. -/
structure Parsed (c : Call) (fs : List Param) (d : Bool) : Prop where
  params : c.params = declared fs d
  plain : ∀ p ∈ fs, p.elips = false
  notEmpty : fs ≠ [] ∨ d = true
  format : c.special ≠ .none → d = true ∧ fs ≠ []
  conv : ∀ l, c.conv = some l → ∀ j ∈ l, fs.length ≤ j

/-- the argument is there, and sets this -/
def IsArg (c : Call) (i : Nat) (sets : List Nat) : Prop := ∃ f a, c.args[i]? = some (.expr f a sets)

/-- Is the argument compared with a parameter, a conversion, or at least checked as a use? -/
def Checked (r : Result) (i : Nat) : Prop := (∃ w, .pass i w ∈ r.events) ∨ .use i ∈ r.events

/-- Is the function special, and is there a format? -/
def Formatted (c : Call) (fs : List Param) : Prop := c.special ≠ .none ∧ fs.length ≤ c.args.length

end Splint.ArgPass
