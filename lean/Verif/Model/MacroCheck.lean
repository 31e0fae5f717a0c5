import Verif.Tactics
/-!
# Which macros are checked

Models `cpp_shouldCheckMacro` (src/cpplib.c:7896-8157): whether a macro definition is handed on to be checked as a
function or constant, or is expanded by the preprocessor. With `usymtab_exists`, `usymtab_existsReal`,
`usymtab_existsType` (src/usymtab.c:5255-5271, 5301-5307), `uentry_whereLast` (src/uentry.c:5981-6006),
`uentry_setDefined` (6175-6216), and where the entries made are said to be (`uentry_makeForwardFunction` 3737-3748,
`uentry_makeMacroConstant` 3206-3210, `uentry_makeExpandedMacro` 3727-3734, `uentry_setSpecDef` 6632-6652).

The text is that of the directive, up to its end. `none` stands for a failed assertion or a read past the end.

Simplifications: there is one symbol table, from names to entries (the code looks in the current and in the global one,
which are the same outside of functions); adding an entry replaces a private one. Of a location its kind is kept. What
is reported for redefinitions (`uentry_setDefined`) and the line numbers are left out, as is that the name is marked
used. Characters are those of the C locale.
-/
namespace Splint.MacroCheck

abbrev Name := List Char

/-- the kinds of locations (`fileloc`) that matter; `lib` are libraries, imports and builtin ones -/
inductive Loc where
  | undef | ext | lib | preproc | code
deriving DecidableEq, Repr

/-- `uentry` -/
structure Ent where
  /-- `isPrivate` -/
  priv : Bool := false
  /-- `uentry_isExpandedMacro` -/
  expanded : Bool := false
  /-- `uentry_isDatatype` -/
  datatype : Bool := false
  /-- `uentry_isSpecified` -/
  spec : Bool := false
  /-- `whereDeclared` -/
  decl : Loc := .undef
  /-- `whereDefined` -/
  defn : Loc := .undef
deriving DecidableEq, Repr

abbrev Table := Name → Option Ent

def Table.set (T : Table) (n : Name) (e : Ent) : Table := fun m => if m = n then some e else T m

/-- the flags -/
structure Opts where
  specMacros : Bool := false
  libMacros : Bool := false
  fcnMacros : Bool := false
  constMacros : Bool := false
  sysDirExpand : Bool := false

/-- where the definition is: `fileloc_isStandardLib`, `fileloc_isSystemFile` -/
structure Place where
  stdLib : Bool := false
  system : Bool := false

/-- what the comments before the definition asked for (src/cpplib.c:7838-7844) -/
structure Marks where
  notParse : Bool := false
  notFcn : Bool := false
  iter : Bool := false
  endIter : Bool := false
  fcn : Bool := false
  const : Bool := false
deriving DecidableEq, Repr

/-- `uentry_whereLast` (src/uentry.c:5981-6006), if it is in the preprocessor -/
def lastPreproc (e : Ent) : Bool :=
  if e.defn ≠ .undef ∧ e.defn ≠ .ext then e.defn == .preproc
  else if e.decl ≠ .undef ∧ e.decl ≠ .ext then e.decl == .preproc
  else false

/-- `uentry_setDefined` (src/uentry.c:6175-6216), with a location of the preprocessor -/
def setDefined (e : Ent) : Ent :=
  match e.defn with
  | .undef | .lib | .preproc => { e with defn := .preproc }
  | _ => e

/-- `usymtab_exists` (src/usymtab.c:5255-5260) -/
def lookup (T : Table) (n : Name) : Option Ent := (T n).filter fun e => !e.priv

/-- `usymtab_existsReal` (src/usymtab.c:5263-5271) -/
def lookupReal (T : Table) (n : Name) : Option Ent := (T n).filter fun e => !e.priv && !e.expanded

/-- `usymtab_existsType` (src/usymtab.c:5301-5307) -/
def existsType (T : Table) (n : Name) : Bool := ((T n).filter fun e => !e.priv && e.datatype).isSome

def isBlank (c : Char) : Bool := c == ' ' || c == '\t'

/-- `iscntrl` -/
def isCntrl (c : Char) : Bool := c.toNat < 32 || c.toNat == 127

/-- `isspace` -/
def isSpace (c : Char) : Bool := c == ' ' || (9 ≤ c.toNat && c.toNat ≤ 13)

/-- the characters that end the name (src/cpplib.c:7954-7957) -/
def stops (c : Char) : Bool :=
  c == ' ' || c == '(' || c == '\t' || c == '\\' || c == '\n' || isCntrl c

/-- The name and what follows it (src/cpplib.c:7932-7962): a `d` is all that is seen of `define`. -/
def parse (text : List Char) : Option (Name × List Char) :=
  match text with
  | '#' :: s =>
    let s := s.dropWhile isBlank
    if s.head? = some 'd' ∧ 6 ≤ s.length then
      let s := (s.drop 6).dropWhile isBlank
      some (s.takeWhile fun c => !stops c, s.dropWhile fun c => !stops c)
    else none
  | _ => none

/-- `hasParams` -/
def hasParams (rest : List Char) : Bool := rest.head? == some '('

/-- `nocontent` (src/cpplib.c:8082-8107) -/
def noContent (rest : List Char) : Bool :=
  match rest with
  | [] => true
  | c :: r => isSpace c && (r.dropWhile isSpace).isEmpty

/-- what comes of a definition -/
structure Out where
  checked : Bool
  marks : Marks
  table : Table
  /-- "Specified type implemented as macro" -/
  typeError : Bool := false

/-- a macro that there is no other entry for: after `macroDne` (src/cpplib.c:8010-8129) -/
def unknownMacro (O : Opts) (W : Place) (M : Marks) (T : Table) (n : Name) (rest : List Char) : Out :=
  let o : Out :=
    if W.system && O.sysDirExpand then { checked := false, marks := M, table := T }
    else if hasParams rest then
      if O.fcnMacros then
        if (lookup T n).isSome then { checked := true, marks := M, table := T }
        else { checked := true, marks := { M with fcn := false }, table := T.set n { decl := .preproc } }
      else { checked := false, marks := M, table := T }
    else if O.constMacros then
      { checked := !noContent rest, marks := M,
        table := if (lookup T n).isSome then T else T.set n { decl := .preproc } }
    else { checked := false, marks := M, table := T }
  if o.checked && existsType o.table n then { o with checked := false, typeError := true } else o

/-- what is done with a macro that is expanded (src/cpplib.c:8132-8152) -/
def record (T : Table) (n : Name) : Table :=
  match lookup T n with
  | some e => T.set n (setDefined e)
  | none => T.set n { expanded := true, defn := .preproc }

/-- the decision on a macro that no comment asked for (src/cpplib.c:7964-8130) -/
def decideMacro (O : Opts) (W : Place) (M : Marks) (T : Table) (n : Name) (rest : List Char) : Out :=
  if M.notParse then { checked := false, marks := { M with notParse := false }, table := T }
  else if M.notFcn || W.stdLib then { checked := false, marks := { M with notFcn := false }, table := T }
  else match lookupReal T n with
    | some e =>
      if lastPreproc e then unknownMacro O W M T n rest
      else if e.spec then { checked := O.specMacros, marks := M, table := T }
      else { checked := hasParams rest && (O.libMacros || O.fcnMacros), marks := M, table := T }
    | none => unknownMacro O W M T n rest

/-- `cpp_shouldCheckMacro` (src/cpplib.c:7896-8157) -/
def shouldCheck (O : Opts) (W : Place) (M : Marks) (T : Table) (text : List Char) : Option Out :=
  if M.iter || M.const || M.endIter then
    let M' := if M.iter then { M with iter := false, endIter := true }
      else { M with iter := false, const := false, endIter := false }
    if M.notFcn || M.notParse then
      some { checked := false, marks := { M' with notFcn := false, notParse := false }, table := T }
    else some { checked := true, marks := M', table := T }
  else (parse text).map fun p =>
    let o := decideMacro O W M T p.1 p.2
    if o.checked then o else { o with table := record o.table p.1 }

end Splint.MacroCheck
