import Verif.Model.Report
/-! # What the warning stream should account for -/
namespace Splint.Spec
open Splint

/-- The messages of a history in order. -/
def messages : List Reporter.Event → List (FileLoc × Bytes × Bool)
  | [] => []
  | .msg l t e :: rest => (l, t, e) :: messages rest
  | .cleanup :: rest => messages rest

/-- The messages of a history that are not duplicates (answers of the message log, C02). -/
def freshMessages (es : List Reporter.Event) : List (FileLoc × Bytes × Bool) :=
  (((messages es).zip
    (MessageLog.run [] ((messages es).map fun m => (m.1, m.2.1))).2).filter (·.2)).map (·.1)

/-- Messages on the stream. -/
def shownOf : List OutItem → List (FileLoc × Bytes)
  | [] => []
  | .shown l t :: rest => (l, t) :: shownOf rest
  | .unprinted _ :: rest => shownOf rest

/-- Sum of the announced numbers of unprinted messages. -/
def announced : List OutItem → Int
  | [] => 0
  | .shown .. :: rest => announced rest
  | .unprinted n :: rest => n + announced rest

/-- What a maximal group of messages with the same text should print under `limit`: the first
`limit + 1`; then the only remaining one, or the number of the remaining ones. -/
def groupOutput (limit : Nat) (g : List (FileLoc × Bytes × Bool)) : List OutItem :=
  if g.length ≤ limit + 2 then g.map fun m => .shown m.1 m.2.1
  else (g.take (limit + 1)).map (fun m => .shown m.1 m.2.1) ++
    [.unprinted ((g.length : Int) - (limit + 1))]

/-- Number of warnings among messages (hints and continuation messages do not count). -/
def warnings (ms : List (FileLoc × Bytes × Bool)) : Int := ((ms.filter (·.2.2)).length : Int)

/-- An expectation `e` (`-expect e`; none is 0) is met by `n` warnings. -/
def Meets (n e : Int) : Prop := n = max e 0

end Splint.Spec
namespace Splint.Spec

/-- `gs` is a division of messages into maximal groups with the same non-empty text; `prev` is
the text of the group before. -/
def Groups : Option Bytes → List (List (FileLoc × Bytes × Bool)) → Prop
  | _, [] => True
  | prev, g :: gs => ∃ t, t ≠ [] ∧ prev ≠ some t ∧ g ≠ [] ∧ (∀ m ∈ g, m.2.1 = t) ∧ Groups (some t) gs

end Splint.Spec
