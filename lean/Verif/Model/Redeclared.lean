/-!
# Declaring a function more than once

Model of `uentry_mergeDefinition` (src/uentry.c:9602-9905) for functions, `uentry_checkDecl` and `uentry_clearDecl`
(9554-9600), `uentry_setFunctionDefined`, `uentry_setDeclDef` and `uentry_setDeclared` (6067-6097, 6140-6162),
of `usymtab_supEntryAux` and `usymtab_supEntryReturnAux` (src/usymtab.c:713-1044, 1088-1115), and of the rule
`externalDef` with `fcnDef` (src/cgrammar.y:338-347, 826-835).

Names and locations are numbers. All entries are functions of known type that are declared in source files, without
specifications, libraries, implicit declarations, macros and old-style definitions; types and annotations are left
out, and so are shadowing messages other than those for static declarations. When a static entry is removed
(usymtab.c:721-763), only that entry goes; a pending redeclaration of it (freed storage
in the code) counts as not defined. That a message may be suppressed makes no difference to the state.
-/
namespace Splint
namespace Redeclared

/-- The storage class. -/
inductive SC where
  | none_ | extern_ | static_
deriving DecidableEq, Repr

/-- A declarator of a function. -/
structure D where
  name : Nat
  sc : SC
  loc : Nat
deriving DecidableEq, Repr

structure Ent where
  /-- `whereDeclared` -/
  declared : Nat
  /-- `whereDefined` is defined -/
  defined : Bool
  sc : SC
deriving DecidableEq, Repr

structure State where
  glob : Nat → Option Ent
  file : Nat → Option Ent
  /-- `posRedeclared`, by its name and whether it is in the table of the file, and `posLoc` -/
  pos : Option (Nat × Bool × Nat)

inductive Report where
  /-- defined more than once -/
  | redef (x l : Nat)
  /-- declared after definition (`true`) or more than once -/
  | redecl (x l : Nat) (after : Bool)
  /-- shadows static declaration -/
  | shadow (x l : Nat)
deriving DecidableEq, Repr

def set (t : Nat → Option Ent) (x : Nat) (e : Option Ent) : Nat → Option Ent := fun y => if y = x then e else t y

/-- The messages of `uentry_mergeDefinition` at 9682-9753. The entry stays as it is: its location is one of a source
file, so `uentry_setDeclared` does nothing, and a function is not set defined by `uentry_setDeclDef`. -/
def mergeReports (old : Ent) (d : D) : List Report :=
  match old.sc with
  | .static_ => if d.sc == .static_ then [] else [.shadow d.name d.loc]
  | .extern_ => []
  | .none_ =>
    if d.sc == .static_ then []
    else if d.sc != .extern_ && old.declared != d.loc && old.defined then [.redef d.name d.loc]
    else []

/-- Is the new one remembered as a redeclaration (9819-9829)? -/
def mergePos (old : Ent) (d : D) (inFile : Bool) (pos : Option (Nat × Bool × Nat)) : Option (Nat × Bool × Nat) :=
  if old.declared != d.loc then some (d.name, inFile, d.loc) else pos

def fresh (d : D) : Ent := { declared := d.loc, defined := false, sc := d.sc }

/-- `usymtab_supEntryAux`: `top` tells that it is called for the table of the file, as for declarations, and not for
the global table, as for definitions. The last part of the result tells where the entry is. -/
def sup (top : Bool) (st : State) (d : D) : List Report × State × Bool :=
  let out : List Report × State :=
    if top && d.sc != .static_ then
      match st.file d.name with
      | some _ => ([.shadow d.name d.loc], { st with file := set st.file d.name none })
      | none => ([], st)
    else ([], st)
  let st := out.2
  if d.sc == .static_ then
    match st.file d.name with
    | some e => (out.1 ++ mergeReports e d, { st with pos := mergePos e d true st.pos }, true)
    | none => (out.1, { st with file := set st.file d.name (some (fresh d)) }, true)
  else
    match st.glob d.name with
    | some e => (out.1 ++ mergeReports e d, { st with pos := mergePos e d false st.pos }, false)
    | none =>
      match (if d.sc == .extern_ then none else st.file d.name) with
      | some e => (out.1 ++ mergeReports e { d with sc := .static_ }, { st with pos := mergePos e d true st.pos }, true)
      | none => (out.1, { st with glob := set st.glob d.name (some (fresh d)) }, false)

/-- `uentry_checkDecl`; `xh` tells which locations are in `.xh` files -/
def checkDecl (xh : Nat → Bool) (st : State) : List Report × State :=
  match st.pos with
  | none => ([], st)
  | some (x, inFile, l) =>
    let after := match (if inFile then st.file x else st.glob x) with
      | some e => e.defined
      | none => false
    (if xh l then [] else [.redecl x l after], { st with pos := none })

/-- `uentry_setFunctionDefined` -/
def setDefined (st : State) (x : Nat) (inFile : Bool) : State :=
  if inFile then { st with file := set st.file x ((st.file x).map fun e => { e with defined := true }) }
  else { st with glob := set st.glob x ((st.glob x).map fun e => { e with defined := true }) }

/-- Declarations at the top level. -/
inductive Item where
  /-- a declaration with several declarators -/
  | decls (ds : List D)
  /-- the definition of a function -/
  | defn (d : D)
  /-- anything else -/
  | other
  /-- the start of another file -/
  | newFile
deriving DecidableEq, Repr

def sups : State → List D → List Report × State
  | st, [] => ([], st)
  | st, d :: ds =>
    let r := sup true st d
    let q := sups r.2.1 ds
    (r.1 ++ q.1, q.2)

def step (xh : Nat → Bool) (st : State) : Item → List Report × State
  | .decls ds =>
    let r := sups st ds
    let q := checkDecl xh r.2
    (r.1 ++ q.1, q.2)
  | .defn d =>
    let r := sup false st d
    (r.1, { setDefined r.2.1 d.name r.2.2 with pos := none })
  | .other => ([], { st with pos := none })
  | .newFile => ([], { st with file := fun _ => none })

def run (xh : Nat → Bool) : State → List Item → List Report × State
  | st, [] => ([], st)
  | st, i :: is =>
    let r := step xh st i
    let q := run xh r.2 is
    (r.1 ++ q.1, q.2)

def start : State := { glob := fun _ => none, file := fun _ => none, pos := none }

/-- The messages for a program. -/
def reports (xh : Nat → Bool) (is : List Item) : List Report := (run xh start is).1

end Redeclared
end Splint
