import Verif.Model.FileLoc
import Verif.Model.CString
/-!
# The log of reported messages (`src/messageLog.c`)

The array `elements[0 .. nelements-1]` is a list.  Messages are defined strings.
-/
namespace Splint

/-- `msgentry`, Headers/messageLog.h. -/
structure MsgEntry where
  loc : FileLoc
  msg : Bytes
  deriving DecidableEq, Repr

/-- `msgentry_lessthan`, messageLog.c:72-78. -/
def MsgEntry.lessthan (m1 m2 : MsgEntry) : Bool :=
  m1.loc.lessthan m2.loc || (m1.loc.equal m2.loc && strcmp m1.msg m2.msg < 0)

/-- `msgentry_equal`, messageLog.c:80-85. -/
def MsgEntry.equal (m1 m2 : MsgEntry) : Bool :=
  m1.loc.equal m2.loc && strcmp m1.msg m2.msg == 0

namespace MessageLog

/-- The loop of `messageLog_index`, messageLog.c:101-109: `n` elements are still to be
looked at, from the highest index down.  The answer is `index + 1` (so 0 stands for the
C answer -1). -/
def indexLoop (s : List MsgEntry) (m : MsgEntry) : Nat → Nat
  | 0 => 0
  | n + 1 =>
    match s[n]? with
    | some e => if e.lessthan m then n + 1 else indexLoop s m n
    | none => indexLoop s m n

/-- `messageLog_index`, messageLog.c:91-109, plus one. -/
def index1 (s : List MsgEntry) (m : MsgEntry) : Nat := indexLoop s m s.length

/-- `messageLog_add`, messageLog.c:149-181.  Shifting the tail up by one and storing at
`ind+1` is written with `take`/`drop`.  `true` means the message is new. -/
def add (s : List MsgEntry) (fl : FileLoc) (mess : Bytes) : List MsgEntry × Bool :=
  let m : MsgEntry := ⟨fl.copy, mess⟩
  let ind1 := index1 s m
  match s[ind1]? with
  | some e =>
    if m.equal e then (s, false)
    else (s.take ind1 ++ m :: s.drop ind1, true)
  | none => (s.take ind1 ++ m :: s.drop ind1, true)

/-- A history of calls on the empty log: the final log and all answers. -/
def run (s : List MsgEntry) : List (FileLoc × Bytes) → List MsgEntry × List Bool
  | [] => (s, [])
  | (fl, mess) :: rest =>
    let (s', b) := add s fl mess
    let (s'', bs) := run s' rest
    (s'', b :: bs)

end MessageLog
end Splint
