import Verif.Model.UseMarks
/-!
Which variables are not used: the scopes are a list of lists of variables, the innermost first; a use belongs
to the innermost variable of that name; when a block ends those of its variables that have no use are
reported.  Whether and how often a statement is executed does not matter.
-/
namespace Splint.Symtab.Uses.Spec

abbrev Scope := List (Nat × Bool)

def Scope.has (f : Scope) (x : Nat) : Bool := f.any (·.1 == x)

/-- a use -/
def mark (x : Nat) : List Scope → List Scope
  | [] => []
  | f :: E =>
    if Scope.has f x then f.map (fun v => if v.1 = x then (v.1, true) else v) :: E
    else f :: mark x E

/-- a declaration in the innermost scope -/
def enter (x : Nat) : List Scope → List Scope
  | [] => []
  | f :: E => if Scope.has f x then f :: E else (f ++ [(x, false)]) :: E

def enters : List Nat → List Scope → List Scope
  | [], E => E
  | x :: ds, E => enters ds (enter x E)

def noUse (E : List Scope) : List Nat := ((E.headD []).filter fun v => !v.2).map (·.1)

mutual

def scan : Prog → List Scope → List Scope × List Nat
  | .skip, E => (E, [])
  | .use x, E => (mark x E, [])
  | .decl x, E => (enter x E, [])
  | .seq a b, E => ((scan b (scan a E).1).1, (scan a E).2 ++ (scan b (scan a E).1).2)
  | .block b, E => ((scan b ([] :: E)).1.tail, (scan b ([] :: E)).2 ++ noUse (scan b ([] :: E)).1)
  | .ifThen b, E => scan b E
  | .ifElse a b, E => ((scan b (scan a E).1).1, (scan a E).2 ++ (scan b (scan a E).1).2)
  | .second b, E => scan b E
  | .switch ds cs, E =>
    let q := scanCases cs (enters ds ([] :: E))
    (q.1.tail, q.2 ++ noUse q.1)

def scanCases : Cases → List Scope → List Scope × List Nat
  | .nil, E => (E, [])
  | .cons b _ cs, E => ((scanCases cs (scan b E).1).1, (scan b E).2 ++ (scanCases cs (scan b E).1).2)

end

/-- the variables of a function that are not used -/
def notUsed (p : Prog) : List Nat := (scan (.block p) [[]]).2

mutual

/-- The grammar: declarations are statements of a block only; `d`: this is one. -/
def Placed : Bool → Prog → Prop
  | d, .decl _ => d = true
  | d, .seq a b => Placed d a ∧ Placed d b
  | _, .block b => Placed true b
  | _, .ifThen b => Placed false b
  | _, .ifElse a b => Placed false a ∧ Placed false b
  | _, .second b => Placed false b
  | _, .switch _ cs => PlacedCases cs
  | _, .skip => True
  | _, .use _ => True

def PlacedCases : Cases → Prop
  | .nil => True
  | .cons b _ cs => Placed false b ∧ PlacedCases cs

end

mutual

/-- Every `switch` has a case and no declarations at the start of its block. -/
def Ordinary : Prog → Prop
  | .seq a b => Ordinary a ∧ Ordinary b
  | .block b => Ordinary b
  | .ifThen b => Ordinary b
  | .ifElse a b => Ordinary a ∧ Ordinary b
  | .second b => Ordinary b
  | .switch ds cs => ds = [] ∧ cs ≠ .nil ∧ OrdinaryCases cs
  | .skip => True
  | .use _ => True
  | .decl _ => True

def OrdinaryCases : Cases → Prop
  | .nil => True
  | .cons b _ cs => Ordinary b ∧ OrdinaryCases cs

end

end Splint.Symtab.Uses.Spec
