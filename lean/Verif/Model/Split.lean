import Verif.Model.CString
/-!
# Breaking messages into lines (`src/llerror.c`)

Strings are lists of bytes; reading the terminating NUL is reading past the end (`none`).
The output stream is the list of lines printed.  The loops may not terminate in C; they take
fuel here and answer `none` when it runs out.
-/
namespace Splint
namespace Split

/-- `MINLINELEN`, Headers/constants.h:82. -/
def minLineLen : Nat := 20
/-- `MAXSEARCH`, llerror.c:343. -/
def maxSearch : Nat := 20
/-- `MINLINE`, llerror.c:346. -/
def minLine : Nat := 35

/-- `strrchr (s, c)` with the string cut at index `n` (llerror.c:437-445): the last index
below `n` holding `c`. -/
def lastBelow (s : Bytes) (c : UInt8) : Nat → Option Nat
  | 0 => none
  | n + 1 => if s[n]? = some c then some n else lastBelow s c n

/-- `maxcp`, llerror.c:87-91, NULL being smallest. -/
def maxcp : Option Nat → Option Nat → Option Nat
  | none, b => b
  | a, none => a
  | some a, some b => some (max a b)

/-- `*t == ' ' || *t == '\t'`. -/
def blank (c : Option UInt8) : Bool := c == some 32 || c == some 9

/-- The search loop, llerror.c:486-490: `t` is the current index, `i` the step counter. -/
def searchBack (s : Bytes) : Nat → Nat → Nat
  | 0, _ => 0
  | t + 1, i =>
    if !blank s[t + 1]? && decide (i < maxSearch) && decide (t + 1 > 4) then searchBack s t (i + 1)
    else t + 1

/-- The part of `mstring_split` for a string without newline in reach and of length at least
`maxline`, llerror.c:428-521. -/
def splitLong (s : Bytes) (maxline : Nat) : Bytes × Option Bytes :=
  let lcolon := lastBelow s 58 (maxline - 1)
  let lsemi := lastBelow s 59 (maxline - 1)
  let lcomma := lastBelow s 44 (maxline - 1)
  let colonSplit : Option Nat :=
    match maxcp lcolon lsemi with
    | some k => if k > minLine && s[k + 1]? == some 32 && s[k + 2]? != some 125 &&
        s[k + 2]? != some 44 && s[k + 2]? != none then some k else none
    | none => none
  match colonSplit with
  | some k => (s.take (k + 1), some (s.drop (k + 2)))
  | none =>
    let commaSplit : Option Nat :=
      match lcomma with
      | some k => if (k : Int) > (maxline : Int) - 5 && k > minLine && s[k + 1]? == some 32 &&
          s[k + 2]? != some 125 && s[k + 2]? != none then some k else none
      | none => none
    match commaSplit with
    | some k => (s.take (k + 1), some (s.drop (k + 2)))
    | none =>
      let t := searchBack s (maxline - 1) 0
      if !blank s[t]? then
        let r := s.drop maxline
        (s.take maxline, if r = [] then none else some r)
      else
        let r := s.drop (t + 1)
        (s.take t, if r = [] then none else some r)

/-- `mstring_split`, llerror.c:363-524: line length (at least 20) and current indentation;
answers the piece to print, the rest and the new indentation. -/
def split (s0 : Bytes) (maxline0 : Int) (indent : Nat) : Bytes × Option Bytes × Nat :=
  let maxline := (max maxline0 minLineLen).toNat
  let s := List.replicate indent 32 ++ s0
  match s.findIdx? (· == 10) with
  | some n =>
    if n < maxline then
      match s.drop (n + 1) with
      | [] => (s.take n, none, indent)
      | c :: t =>
        if 1 ≤ c && c ≤ 7 then (s.take n, some t, indent + c.toNat)
        else (s.take n, some (c :: t), indent)
    else if s.length < maxline then (s, none, indent)
    else let (p, r) := splitLong s maxline; (p, r, indent)
  | none =>
    if s.length < maxline then (s, none, indent)
    else let (p, r) := splitLong s maxline; (p, r, indent)

/-- The loops `do … while (s != NULL)` of `printIndentMessage` (llerror.c:1303-1315, empty
prefix) and `while (t != NULL)` of `printError` (e.g. llerror.c:1362-1367). -/
def loop (pre : Nat) (maxline : Int) : Nat → Bytes → Nat → Option (List Bytes)
  | 0, _, _ => none
  | fuel + 1, s, indent =>
    match split s maxline indent with
    | (p, none, _) => some [List.replicate pre 32 ++ p]
    | (p, some r, i) => (loop pre maxline fuel r i).map ((List.replicate pre 32 ++ p) :: ·)

/-- `printIndentMessage`, llerror.c:1290-1319. -/
def printIndentMessage (fuel : Nat) (sc : Bytes) (maxlen : Int) (indent : Nat) :
    Option (List Bytes) := loop 0 maxlen fuel sc indent

/-- `printError`, llerror.c:1321-1441; `lastfileloclen` is `s_lastfileloclen`. -/
def printError (fuel : Nat) (sc : Bytes) (maxlen : Int) (lastfileloclen : Nat) :
    Option (List Bytes) :=
  let nspaces := lastfileloclen + 5
  let nextlen : Int := maxlen - nspaces
  let len : Int := sc.length
  if len < maxlen + nextlen && !sc.contains 10 then
    match split sc maxlen 0 with
    | (p, none, _) => some [p]
    | (p, some t, i) =>
      if (t.length : Int) < maxlen - 3 && !t.contains 10 && (t.length : Int) > nextlen - 1 then
        some [p, List.replicate 4 32 ++ t]
      else (loop nspaces nextlen fuel t i).map (p :: ·)
  else if len < maxlen + maxlen - 1 && sc.contains 10 then
    let nspaces : Nat := ((maxlen + maxlen - 1 - len) / 2).toNat
    let nspaces := if nspaces < 1 then 1 else nspaces
    let nextlen : Int := maxlen - nspaces
    match split sc maxlen 0 with
    | (p, none, _) => some [p]
    | (p, some t, i) => (loop nspaces nextlen fuel t i).map (p :: ·)
  else
    let nspaces : Nat := 4
    let nextlen : Int := maxlen - nspaces
    match split sc maxlen 0 with
    | (p, none, _) => some [p]
    | (p, some t, i) => (loop nspaces nextlen fuel t i).map (p :: ·)

end Split
end Splint
