import Verif.Model.MessageLog
/-!
# Reporting of messages: the message limit and the exit status
(`src/llerror.c`, `src/context.c`, `src/llmain.c`)

The output stream is a list of items.  How a message is broken into lines is modelled in
`Verif/Model/Split.lean`; here a shown message is its position and text.  The annotations
inserted into a message (`context_hasAliasAnnote`, `context_hasMessageAnnote`) and the
`(in function f)` header lines are not modelled.  The limit is constant during a run
(it is a command-line setting).
-/
namespace Splint

/-- One item on the warning stream: a message, or `(n more similar errors unprinted)`. -/
inductive OutItem
  | shown (loc : FileLoc) (text : Bytes)
  | unprinted (n : Int)
  deriving DecidableEq, Repr

/-- The static variables `s_mcount`, `saveOneMessage`, `s_lastmsg` (llerror.c:47-50), the
message log and `gc.numerrors` (context.c:104), and what was printed so far. -/
structure Reporter where
  log       : List MsgEntry := []
  mcount    : Int := 0
  saved     : Option (FileLoc × Bytes) := none
  lastmsg   : Option Bytes := none
  numerrors : Int := 0
  out       : List OutItem := []
  deriving DecidableEq, Repr

namespace Reporter

/-- `cleanupMessages`, llerror.c:551-588 (`parseerrorcount` is not modelled);
`context_unlimitedMessages` is `limit < 0`, context.c:4513-4516. -/
def cleanup (limit : Int) (s : Reporter) : Reporter :=
  if limit < 0 then { s with mcount := 0 }
  else
    let unprinted := s.mcount - limit
    if unprinted > 0 then
      match s.saved with
      | some (loc, text) =>
        if unprinted = 1 then
          { s with out := s.out ++ [.shown loc text], saved := none, mcount := 0 }
        else { s with out := s.out ++ [.unprinted (s.mcount - limit)], saved := none, mcount := 0 }
      | none => { s with out := s.out ++ [.unprinted (s.mcount - limit)], mcount := 0 }
    else { s with mcount := 0 }

/-- `limitmessage`, llerror.c:532-547. -/
def limitmessage (limit : Int) (s : Reporter) (loc : FileLoc) (text : Bytes) : Reporter :=
  if s.mcount > limit + 1 then s else { s with saved := some (loc, text) }

/-- The end of `llgenerrorreal`, llerror.c:1172-1258: the message is printed. -/
def print (s : Reporter) (loc : FileLoc) (text : Bytes) : Reporter :=
  { s with out := s.out ++ [.shown loc text] }

/-- `llgenerrorreal` after the duplicate test, llerror.c:1117-1258.  The cut at `':'`
(lines 1134-1146) is undone before the comparison, so the complete texts are compared. -/
def emit (limit : Int) (s : Reporter) (loc : FileLoc) (text : Bytes) (iserror : Bool) : Reporter :=
  let s := if iserror then { s with numerrors := s.numerrors + 1 } else s
  if limit < 0 then s.print loc text
  else if cstring_equal s.lastmsg (some text) then
    let s := { s with mcount := s.mcount + 1 }
    if s.mcount = limit + 1 then limitmessage limit s loc text
    else if s.mcount > limit then s
    else s.print loc text
  else
    let s := cleanup limit s
    let s := { s with mcount := 0, lastmsg := some text }
    s.print loc text

/-- What happens to the reporter: a message is generated, or the end of a checking phase
(`cleanupMessages` calls in context.c:3543, 3576, 3626, llmain.c:779, 905, macrocache.c:363,
usymtab.c:3511). -/
inductive Event
  | msg (loc : FileLoc) (text : Bytes) (iserror : Bool)
  | cleanup
  deriving DecidableEq, Repr

/-- `llgenerrorreal`, llerror.c:1095-1258, and the clean-up calls. -/
def step (limit : Int) (s : Reporter) : Event → Reporter
  | .msg loc text iserror =>
    match MessageLog.add s.log loc text with
    | (log, false) => { s with log := log }
    | (log, true) => emit limit { s with log := log } loc text iserror
  | .cleanup => cleanup limit s

/-- A whole run. -/
def run (limit : Int) (s : Reporter) (es : List Event) : Reporter := es.foldl (step limit) s

end Reporter

/-- The computation of `expsuccess`, llmain.c:966-1101 (the messages themselves are dropped):
`nspec` is `lclNumberErrors ()`, `lclexpect` `context_getLCLExpect ()`, `ncode`
`context_numErrors ()`, `expect` `context_getExpect ()`, `nbugs` `context_numBugs ()`. -/
def expsuccess (nspec lclexpect ncode expect nbugs : Int) : Bool :=
  let e := true
  let e :=
    if nspec > 0 then
      if nspec = lclexpect then e
      else if lclexpect > 0 then e
      else false
    else if lclexpect > 0 then false else e
  let e :=
    if ncode > 0 then
      if ncode = expect then e
      else if expect > 0 then false
      else false
    else if expect > 0 then false else e
  if nbugs > 0 then false else e

end Splint
