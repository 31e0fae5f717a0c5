import Verif.Model.CppCond
/-!
# Including a file once: src/cpplib.c

`do_include` does not open a file again when it has seen before that all of it is within an `#ifndef`, and
the macro is defined now. What is modelled is how the preprocessor finds that out.
-/
namespace Splint.CppInclude
open CppSkip (Kind)
open CppCond (FType skipLines skipLines_le)

/-- A line. `#ifdef` and `#if` are `ifc`: the condition is a parameter. Only text that is passed on is
`text`; a comment is blank, also one that splint reads (cpplib.c:5952 skips all of them). -/
inductive Ln (κ : Type) where
  | blank
  | text (t : String)
  | define (m : String)
  | undef (m : String)
  | ifndef (m : String)
  | ifc (c : κ)
  | elif (c : κ)
  | els
  | endif
  | incl (f : String)
deriving DecidableEq, Repr

variable {κ : Type}

def Ln.kind : Ln κ → Kind
  | .ifndef _ => .opens
  | .ifc _ => .opens
  | .elif _ => .elif
  | .els => .els
  | .endif => .endif
  | _ => .other

/-- `cppSkipHspace` and newlines up to the end of the file, cpplib.c:5950-5962. -/
def blank : List (Ln κ) → Bool
  | [] => true
  | .blank :: ls => blank ls
  | _ => false

/-- cppIfStackFrame. -/
structure Frame where
  succeeded : Bool
  type : FType
  control : Option String
deriving DecidableEq, Repr

/-- The state: the macros; what is passed on; whether `only_seen_white` is 2 at the beginning of the line
(it is 1 otherwise: a newline turns 0 to 1, cpplib.c:6725); `all_include_files`, with `control_macro`. -/
structure St where
  macros : String → Bool
  out : List String
  fresh : Bool
  files : List (String × Option String)

/-- `redundant_include_p`, cpplib.c:5024-5038. -/
def redundant (s : St) (f : String) : Bool :=
  s.files.any fun e => e.1 == f && match e.2 with
    | some g => s.macros g
    | none => false

/-- The file is added to `all_include_files` if it is not there, cpplib.c:4962-4987. -/
def addFile (s : St) (f : String) : St :=
  if s.files.any (fun e => e.1 == f) then s else { s with files := (f, none) :: s.files }

/-- The first entry with the name of the file gets the macro, cpplib.c:5971-5980. -/
def setControl (f g : String) : List (String × Option String) → List (String × Option String)
  | [] => []
  | e :: es => if e.1 == f then (e.1, some g) :: es else e :: setControl f g es

/-- The file system, after the search path; the value of a condition. -/
structure Sys (κ : Type) where
  file : String → Option (List (Ln κ))
  eval : κ → (String → Bool) → Bool

def leftover (st : List FType) : List Frame := st.map fun t => { succeeded := false, type := t, control := none }

/-- The state after `skip_if_group`, cpplib.c:5856. -/
def skipped (s : St) : St := { s with fresh := false }

/-- `cpplib_getToken` to the end of the file `cur`: do_xifdef 5552-5635, do_if, do_elif 5470-5515, do_else
5869-5913, do_endif 5919-5988, do_include 4850-5012. `st` has the frames above the buffer's `if_stack`.
`inc` is what including a file does. With `opt` false, `redundant_include_p` is not asked. Simplified: complaints are dropped; a file that is not
found is passed over; the depth of `run` is that of the buffers that are left (`none`: fatal error, cpplib.c:3005),
without those for macros; a definition is passed on as no text, which is not so when it is a macro that
splint checks (1389-1393). -/
def runIn (S : Sys κ) (opt : Bool) (inc : String → St → List (Ln κ) → Option (List Frame × St)) (cur : String)
    (st : List Frame) (s : St) (ls : List (Ln κ)) : Option (List Frame × St) :=
  match ls with
  | [] => some (st, s)
  | .blank :: ls => runIn S opt inc cur st s ls
  | .text t :: ls => runIn S opt inc cur st { s with out := s.out ++ [t], fresh := false } ls
  | .define m :: ls => runIn S opt inc cur st { s with macros := fun x => x == m || s.macros x } ls
  | .undef m :: ls => runIn S opt inc cur st { s with macros := fun x => x != m && s.macros x } ls
  | .ifndef m :: ls =>
    if s.macros m then
      let k := skipLines Ln.kind [] ls
      runIn S opt inc cur (leftover k.2.1 ++ { succeeded := false, type := .tIf, control := none } :: st) (skipped s) k.2.2
    else runIn S opt inc cur ({ succeeded := true, type := .tIf, control := if s.fresh then some m else none } :: st) s ls
  | .ifc c :: ls =>
    if S.eval c s.macros then runIn S opt inc cur ({ succeeded := true, type := .tIf, control := none } :: st) s ls
    else
      let k := skipLines Ln.kind [] ls
      runIn S opt inc cur (leftover k.2.1 ++ { succeeded := false, type := .tIf, control := none } :: st) (skipped s) k.2.2
  | .elif c :: ls =>
    match st with
    | [] => runIn S opt inc cur [] s ls
    | f :: st =>
      if f.succeeded then
        let k := skipLines Ln.kind [] ls
        runIn S opt inc cur (leftover k.2.1 ++ { f with type := .tElif } :: st) (skipped s) k.2.2
      else if S.eval c s.macros then
        runIn S opt inc cur ({ f with succeeded := true, type := .tElif } :: st) s ls
      else
        let k := skipLines Ln.kind [] ls
        runIn S opt inc cur (leftover k.2.1 ++ { f with type := .tElif } :: st) (skipped s) k.2.2
  | .els :: ls =>
    match st with
    | [] => runIn S opt inc cur [] s ls
    | f :: st =>
      if f.succeeded then
        let k := skipLines Ln.kind [] ls
        runIn S opt inc cur (leftover k.2.1 ++ { f with type := .tElse, control := none } :: st) (skipped s) k.2.2
      else runIn S opt inc cur ({ succeeded := true, type := .tElse, control := none } :: st) s ls
  | .endif :: ls =>
    match st with
    | [] => runIn S opt inc cur [] s ls
    | f :: st =>
      match f.control with
      | none => runIn S opt inc cur st s ls
      | some g => runIn S opt inc cur st (if blank ls then { s with files := setControl cur g s.files } else s) ls
  | .incl f :: ls =>
    match S.file f with
    | none => runIn S opt inc cur st s ls
    | some inner =>
      if opt && redundant s f then runIn S opt inc cur st s ls
      else
        match inc f { addFile s f with fresh := true } inner with
        | none => none
        | some r => runIn S opt inc cur (r.1 ++ st) r.2 ls
termination_by ls.length
decreasing_by
  all_goals first
    | (simp only [List.length_cons]; omega)
    | (have := skipLines_le Ln.kind [] ls; simp only [List.length_cons]; omega)

/-- The same with the files that are included. -/
def run (S : Sys κ) (opt : Bool) : Nat → String → List Frame → St → List (Ln κ) → Option (List Frame × St)
  | 0, cur, st, s, ls => runIn S opt (fun _ _ _ => none) cur st s ls
  | d + 1, cur, st, s, ls => runIn S opt (fun f s ls => run S opt d f [] s ls) cur st s ls

end Splint.CppInclude
