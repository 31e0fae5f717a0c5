import Verif.Model.CppMacro
/-!
# The arguments of a macro call

Models `macarg` (src/cpplib.c:3338-3394) and the part of `cpplib_macroExpand` that reads the arguments and compares their
number with that of the parameters (4000-4115).

Simplifications. The tokens that `cpplib_getToken` gives are a list; its end is the end of the file or of the buffer. The end of
the text of another macro (`CPP_POP` in a macro buffer) is not a token here. `nargs` is not negative. Not traditional. Of the
messages only whether there is one is kept. The arguments beyond `nargs` are not thrown away here.
-/
namespace Splint.CppArgs
open CppMacro

inductive AT
  | lp | rp | comma
  | txt (l : List Char)
deriving DecidableEq, Repr

def AT.text : AT → List Char
  | .lp => ['(']
  | .rp => [')']
  | .comma => [',']
  | .txt l => l

/-- what ends an argument -/
inductive End
  | eof | comma | rp
deriving DecidableEq, Repr

/-- `macarg`: the argument, what ends it, and what remains. -/
def macarg (rest : Bool) : Nat → List AT → List AT × End × List AT
  | _, [] => ([], .eof, [])
  | d, .lp :: r => let (a, e, r') := macarg rest (d + 1) r; (.lp :: a, e, r')
  | 0, .rp :: r => ([], .rp, r)
  | d + 1, .rp :: r => let (a, e, r') := macarg rest d r; (.rp :: a, e, r')
  | 0, .comma :: r =>
    if rest then (let (a, e, r') := macarg rest 0 r; (.comma :: a, e, r')) else ([], .comma, r)
  | d + 1, .comma :: r => let (a, e, r') := macarg rest (d + 1) r; (.comma :: a, e, r')
  | d, .txt l :: r => let (a, e, r') := macarg rest d r; (.txt l :: a, e, r')

theorem macarg_length (rest : Bool) (d : Nat) (l : List AT) : (macarg rest d l).2.2.length ≤ l.length ∧
    ((macarg rest d l).2.1 ≠ .eof → (macarg rest d l).2.2.length < l.length) := by
  fun_induction macarg rest d l <;> simp_all <;> omega

/-- The loop over the arguments (src/cpplib.c:4027-4060): all arguments, and what remains; none: the call does not end. -/
def scan (nargs : Nat) (va : Bool) (i : Nat) (l : List AT) : Option (List (List AT) × List AT) :=
  let x := macarg (va && decide (i + 1 = nargs)) 0 l
  if h : x.2.1 = .comma then
    have : x.2.2.length < l.length := (macarg_length _ _ _).2 (by rw [h]; simp)
    (scan nargs va (i + 1) x.2.2).map fun y => (x.1 :: y.1, y.2)
  else if x.2.1 = .rp then some ([x.1], x.2.2)
  else none
termination_by l.length

/-- the text of an argument -/
def textOf (a : List AT) : List Char := a.flatMap AT.text

/-- the number of arguments (src/cpplib.c:4062-4083) -/
def number (nargs : Nat) (args : List (List AT)) : Nat :=
  match args with
  | [a] =>
    let t := textOf a
    let t := if nargs = 0 then t.dropWhile isSp else t
    if t = [] then 0 else 1
  | _ => args.length

inductive Verdict
  | ok | restZero | error
deriving DecidableEq, Repr

/-- Is the number right? (src/cpplib.c:4085-4126) -/
def verdict (nargs : Nat) (va : Bool) (i : Nat) : Verdict :=
  if nargs = 0 ∧ i > 0 then .error
  else if i < nargs then
    if i + 1 = nargs ∧ va then .restZero else .error
  else if i > nargs then .error
  else .ok

/-- The arguments of a call, none for those that are missing. -/
def call (nargs : Nat) (va : Bool) (l : List AT) : Option (Verdict × List (List AT) × List AT) :=
  (scan nargs va 0 l).map fun x => (verdict nargs va (number nargs x.1), (List.range nargs).map (fun k => x.1.getD k []), x.2)

end Splint.CppArgs
