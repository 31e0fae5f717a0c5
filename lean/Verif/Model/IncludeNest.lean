import Verif.Tactics
/-!
# The stack of include files

`filelocStack.c` and `context_setFilename` (context.c:4290-4337), which is told of each line marker of the
preprocessed text.
-/
namespace Splint.IncludeNest

/-- A position: the file, up to `fileId_baseEqual` (fileTable.c:757-794), and the line. -/
structure Fl where
  file : Nat
  line : Nat
deriving DecidableEq, Repr

/-- `filelocStack`, filelocStack.h:11-16: the elements, the last one first; `free`; the allocated space. -/
structure Stack where
  elems : List Fl
  free : Nat
  alloc : Nat
deriving DecidableEq, Repr

/-- `filelocStackBASESIZE`, filelocStack.h:48, `MIDBASESIZE`, system_constants.h:86. -/
def baseSize : Nat := 8

/-- `filelocStack_newEmpty`, filelocStack.c:32-42. -/
def Stack.new : Stack := { elems := [], free := baseSize, alloc := baseSize }

/-- `filelocStack_grow`, filelocStack.c:50-66. -/
def Stack.grow (s : Stack) : Stack :=
  { s with free := s.free + baseSize, alloc := s.elems.length + (s.free + baseSize) }

/-- The rest of `filelocStack_push`: `none` when the write is outside the allocated space. -/
def Stack.put (s : Stack) (el : Fl) : Option Stack :=
  if s.elems.length < s.alloc then some { s with elems := el :: s.elems, free := s.free - 1 } else none

/-- `filelocStack_push`, filelocStack.c:68-83. -/
def Stack.push (s : Stack) (el : Fl) : Option Stack :=
  if s.free ≤ 0 then s.grow.put el else s.put el

/-- `filelocStack_popPushFile`, filelocStack.c:113-139: the topmost element with this file and all above
are replaced by the new one, else it is pushed. `free` is not changed when elements are dropped. -/
def Stack.popPush (s : Stack) (el : Fl) : Option (Stack × Bool) :=
  match s.elems.dropWhile (fun e => e.file != el.file) with
  | [] => (s.push el).map fun s => (s, true)
  | _ :: r => some ({ s with elems := el :: r }, false)

/-- `filelocStack_clear`, filelocStack.c:92-106. -/
def Stack.clear (s : Stack) : Stack := { s with elems := [], free := s.free + s.elems.length }

/-- `filelocStack_includeDepth`, filelocStack.c:167-186: the zeroth element does not count. -/
def Stack.depth (special : Nat → Bool) (s : Stack) : Nat := s.elems.dropLast.countP fun e => !special e.file

/-- `filelocStack_printIncludes`, filelocStack.c:188-220: all but the last two, without special files, but
with the zeroth. -/
def sites (special : Nat → Bool) : List Fl → List Fl
  | [] => []
  | [e] => [e]
  | e :: r => if special e.file then sites special r else e :: sites special r

/-- "Maximum include nesting depth exceeded": the depth, the place, the include sites that are listed. -/
structure Report where
  depth : Nat
  place : Fl
  sites : List Fl
deriving DecidableEq, Repr

/-- What is told: the next line of the file, or a line marker. -/
inductive Ev where
  | line (n : Nat)
  | marker (f n : Nat)
deriving DecidableEq, Repr

structure St where
  cur : Fl
  stack : Stack
  out : List Report
deriving DecidableEq, Repr

/-- `context_setFilename`, context.c:4290-4337. `none`: a write outside the stack, or `filelocStack_nextTop`
(85-90) asked of a stack of one. Simplified: that the message may be suppressed, in which case the sites are
not listed; derived files; the limit is not negative. -/
def setFilename (special : Nat → Bool) (max : Nat) (s : St) (f n : Nat) : Option St :=
  if s.cur.file = f then some { s with cur := { s.cur with line := n } }
  else
    match s.stack.popPush s.cur with
    | none => none
    | some (stack, new) =>
      if new && decide (stack.elems.length > max) && decide (stack.depth special > max) then
        match stack.elems with
        | _ :: e :: r => some ⟨⟨f, n⟩, stack, s.out ++ [⟨stack.depth special, e, sites special r⟩]⟩
        | _ => none
      else some ⟨⟨f, n⟩, stack, s.out⟩

/-- A line of the text, or a line marker. -/
def step (special : Nat → Bool) (max : Nat) (s : St) : Ev → Option St
  | .line n => some { s with cur := { s.cur with line := n } }
  | .marker f n => setFilename special max s f n

def run (special : Nat → Bool) (max : Nat) : St → List Ev → Option St
  | s, [] => some s
  | s, e :: es =>
    match step special max s e with
    | none => none
    | some s => run special max s es

/-- The loop over the files, llmain.c:845-888: `context_setFileId` (context.c:4725) and, at the end,
`filelocStack_clear` (context.c:3631). -/
def runAll (special : Nat → Bool) (max : Nat) : St → List (Nat × List Ev) → Option St
  | s, [] => some s
  | s, (f, es) :: r =>
    match run special max { s with cur := { s.cur with file := f } } es with
    | none => none
    | some s => runAll special max { s with stack := s.stack.clear } r

end Splint.IncludeNest
