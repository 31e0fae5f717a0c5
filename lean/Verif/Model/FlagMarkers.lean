import Verif.Model.Ynm
import Verif.Model.FileLoc
import Verif.Model.CString
/-!
# Control comments (`src/flagMarker.c`, `src/flagMarkerList.c`, parts of `src/context.c`)

Markers record `ignore`/`end` regions, counted `i<n>` lines and local flag settings with
their positions.  A failed `llassert` is the outcome `none`.  Messages printed about
misplaced comments (`llforceerror` calls in `flagMarkerList_add`) are not modelled: they
do not change the list.
-/
namespace Splint

/-- `flagMarkerKind` with the union `info` and `code`, Headers/flagMarker.h:15-33. -/
inductive MKind
  | localSet (code : Int) (set : Ynm)
  | ignoreOn
  | ignoreCount (nerrors : Int)
  | ignoreOff
  | suppress (code : Int)
  deriving DecidableEq, Repr

/-- `flagMarker`, Headers/flagMarker.h:23-33. -/
structure Marker where
  kind : MKind
  loc  : FileLoc
  deriving DecidableEq, Repr

/-- `SKIP_FLAG`, Headers/flag_codes.h:20. -/
def skipFlag : Int := -2

/-- What the file table knows about file ids (`src/fileTable.c`), but for base files:
system files, special files, base names. -/
structure FileEnv where
  isSystem  : Int → Bool
  isSpecial : Int → Bool
  baseName  : Int → Bytes

/-- `fileloc_almostSameFile`, fileloc.c:420-450. -/
def FileEnv.almostSameFile (env : FileEnv) (f1 f2 : FileLoc) : Bool :=
  match f1, f2 with
  | some r1, some r2 =>
    if f1.isLib || f2.isLib then false
    else if FileLoc.sameBase r1 r2 then true
    else if env.isSystem r1.fid || env.isSystem r2.fid then true
    else if env.isSpecial r1.fid || env.isSpecial r2.fid then
      strcmp (env.baseName r1.fid) (env.baseName r2.fid) == 0
    else false
  | _, _ => false

namespace Marker

/-- `flagMarker_isLocalSet`, Headers/flagMarker.h:36. -/
def isLocalSet (m : Marker) : Bool := match m.kind with | .localSet .. => true | _ => false
/-- `flagMarker_isIgnoreOn`, Headers/flagMarker.h:42. -/
def isIgnoreOn (m : Marker) : Bool := match m.kind with | .ignoreOn => true | _ => false
/-- `flagMarker_isIgnoreOff`, Headers/flagMarker.h:45. -/
def isIgnoreOff (m : Marker) : Bool := match m.kind with | .ignoreOff => true | _ => false
/-- `flagMarker_isIgnoreCount`, Headers/flagMarker.h:48. -/
def isIgnoreCount (m : Marker) : Bool := match m.kind with | .ignoreCount _ => true | _ => false
/-- `flagMarker_isSuppress`, Headers/flagMarker.h:39. -/
def isSuppress (m : Marker) : Bool := match m.kind with | .suppress _ => true | _ => false

/-- `flagMarker_equal`, flagMarker.c:110-137: same kind, equal positions, equal information. -/
def equal (f1 f2 : Marker) : Bool := f1.kind == f2.kind && f1.loc.equal f2.loc

/-- `flagMarker_sameFile`, flagMarker.c:171-174. -/
def sameFile (env : FileEnv) (c : Marker) (loc : FileLoc) : Bool := env.almostSameFile c.loc loc

/-- `flagMarker_beforeMarker`, flagMarker.c:180-183. -/
def beforeMarker (c : Marker) (loc : FileLoc) : Bool := !(c.loc.notAfter loc)

end Marker

namespace FlagMarkers

/-- `flagMarkerList_contains`, flagMarkerList.c:362-378 (the scan direction does not matter). -/
def contains (s : List Marker) (fm : Marker) : Bool := s.any fun cur => cur.equal fm

/-- Loop of `flagMarkerList_lastBeforeLoc`, flagMarkerList.c:348-359, with `n` elements left;
answers index+1, or 0 for -1. -/
def lastBeforeLoop (s : List Marker) (loc : FileLoc) : Nat → Nat
  | 0 => 0
  | n + 1 =>
    match s[n]? with
    | some cur =>
      if cur.loc.sameFile loc && !(cur.beforeMarker loc) then n + 1 else lastBeforeLoop s loc n
    | none => lastBeforeLoop s loc n

/-- `flagMarkerList_lastBeforeLoc`, flagMarkerList.c:343-360, plus one. -/
def lastBefore1 (s : List Marker) (loc : FileLoc) : Nat := lastBeforeLoop s loc s.length

/-- The checks against the end of the list in `flagMarkerList_add`, flagMarkerList.c:89-182:
`true` if the new marker is refused.  `i = nelements - 1`; the tests are made only for `i > 0`. -/
def refused (s : List Marker) (fm : Marker) : Bool :=
  if s.length > 1 then
    match s[s.length - 1]?, s[s.length - 2]? with
    | some last, some nlast =>
      if last.isIgnoreCount then !fm.isIgnoreOff
      else last.isIgnoreOff && nlast.isIgnoreCount && fm.loc.sameFileAndLine nlast.loc
    | _, _ => false
  else false

/-- `flagMarkerList_add`, flagMarkerList.c:75-221. -/
def add (s : List Marker) (fm : Marker) : List Marker × Bool :=
  if contains s fm then (s, false)
  else if refused s fm then (s, false)
  else
    let k := lastBefore1 s fm.loc
    if k = 0 then (s ++ [fm], true)
    else (s.take k ++ fm :: s.drop k, true)

/-- `flagMarkerList_splice`, flagMarkerList.c:278-308; `none` if an assertion fails. -/
def splice (s : List Marker) (index : Nat) (fm : Marker) : Option (List Marker) :=
  match s[index]?, s[index + 1]? with
  | some b, some a =>
    if b.loc.sameFile fm.loc && a.loc.sameFile fm.loc then
      some (s.take (index + 1) ++ fm :: s.drop (index + 1))
    else none
  | _, _ => none

/-- Local variables of `flagMarkerList_suppressError`, flagMarkerList.c:401-404. -/
structure ScanSt where
  ignoreOff : Bool := false
  nameChecksOff : Bool := false
  flagOff : Bool := false
  flagSet : Ynm := .maybe
  deriving DecidableEq, Repr

/-- What one local-set marker does to the scan, flagMarkerList.c:460-526: `Sum.inl r` is an
early return. `nc` is `FLG_NAMECHECKS`. -/
def localSetStep (nc code : Int) (isName : Bool) (c : Int) (set : Ynm) (st : ScanSt) :
    Ynm ⊕ ScanSt :=
  let first : Ynm ⊕ ScanSt :=
    if !st.flagOff && c == code then
      if set == .no then .inl .yes
      else
        let fs := if set == .yes then Ynm.no else .maybe
        let st' := { st with flagOff := true, flagSet := fs }
        if st.ignoreOff then
          (if isName && !st.nameChecksOff then .inr st' else .inl fs)
        else .inr st'
    else .inr st
  match first with
  | .inl r => .inl r
  | .inr st =>
    if c == nc && !st.nameChecksOff && isName then
      if set == .no then .inl .yes
      else
        let fs := if set == .yes then Ynm.no else .maybe
        let st' := { st with nameChecksOff := true, flagSet := fs }
        if st.ignoreOff && st.flagOff then .inl fs else .inr st'
    else .inr st

/-- The backward loop of `flagMarkerList_suppressError`, flagMarkerList.c:428-533, with `i`
elements left. -/
def supLoop (env : FileEnv) (nc : Int) (s : List Marker) (code : Int) (loc : FileLoc)
    (islib isName : Bool) : Nat → ScanSt → Option (Ynm × List Marker)
  | 0, st => some (st.flagSet, s)
  | i + 1, st =>
    match s[i]? with
    | none => none
    | some cur =>
      if !islib && !(cur.sameFile env loc) then some (st.flagSet, s)
      else match cur.kind with
        | .ignoreOff => supLoop env nc s code loc islib isName i { st with ignoreOff := true }
        | .ignoreOn =>
          if !st.ignoreOff then some (.yes, s)
          else supLoop env nc s code loc islib isName i st
        | .ignoreCount _ =>
          if !st.ignoreOff then
            (splice s i ⟨.suppress code, loc⟩).map fun s' => (.yes, s')
          else supLoop env nc s code loc islib isName i st
        | .localSet c set =>
          match localSetStep nc code isName c set st with
          | .inl r => some (r, s)
          | .inr st' => supLoop env nc s code loc islib isName i st'
        | .suppress _ => supLoop env nc s code loc islib isName i st

/-- `flagMarkerList_suppressError`, flagMarkerList.c:397-534.  `isName` stands for
`flagcode_isNameChecksFlag (code)` (flags.c:227-230), `nc` for `FLG_NAMECHECKS`. -/
def suppressError (env : FileEnv) (nc : Int) (s : List Marker) (code : Int) (isName : Bool)
    (loc : FileLoc) : Option (Ynm × List Marker) :=
  let islib := loc.isLib
  let i1 := if islib then s.length else lastBefore1 s loc
  if i1 = 0 then some (.maybe, s)
  else supLoop env nc s code loc islib isName i1 {}

/-- The backward loop of `flagMarkerList_inIgnore`, flagMarkerList.c:552-582. -/
def ignLoop (env : FileEnv) (s : List Marker) (loc : FileLoc) : Nat → Option (Bool × List Marker)
  | 0 => some (false, s)
  | i + 1 =>
    match s[i]? with
    | none => none
    | some cur =>
      if !(cur.sameFile env loc) then some (false, s)
      else match cur.kind with
        | .ignoreOff => some (false, s)
        | .ignoreOn => some (true, s)
        | .ignoreCount _ => (splice s i ⟨.suppress skipFlag, loc⟩).map fun s' => (true, s')
        | .localSet .. => ignLoop env s loc i
        | .suppress _ => ignLoop env s loc i

/-- `flagMarkerList_inIgnore`, flagMarkerList.c:536-583. -/
def inIgnore (env : FileEnv) (s : List Marker) (loc : FileLoc) : Option (Bool × List Marker) :=
  if loc.isLib then some (false, s) else ignLoop env s loc (lastBefore1 s loc)

/-- A complaint of `flagMarkerList_checkSuppressCounts`: position, expected, found. -/
structure Complaint where
  loc : FileLoc
  expected : Int
  found : Nat
  deriving DecidableEq, Repr

/-- `flagMarkerList_checkSuppressCounts`, flagMarkerList.c:223-276; `cur = some (loc, expected,
suppressed)` is `inCount`.  `none` is a failed assertion. -/
def checkCounts : List Marker → Option (FileLoc × Int × Nat) → Option (List Complaint)
  | [], none => some []
  | [], some _ => none
  | m :: rest, cur =>
    match m.kind, cur with
    | .ignoreCount n, none => checkCounts rest (some (m.loc, n, 0))
    | .ignoreCount _, some _ => none
    | .ignoreOff, some (loc, n, k) =>
      if loc.isSome then
        (if n > 0 ∧ n ≠ (k : Int) then (checkCounts rest none).map (⟨loc, n, k⟩ :: ·)
         else checkCounts rest none)
      else none
    | .ignoreOff, none => checkCounts rest none
    | .suppress _, some (loc, n, k) => checkCounts rest (some (loc, n, k + 1))
    | .suppress _, none => checkCounts rest none
    | .ignoreOn, c => checkCounts rest c
    | .localSet .., c => checkCounts rest c

/-! ## The interface used by the scanner (`src/context.c`) -/

/-- Control comments as the user writes them: `ignore`, `end`, `i<n>` (`-1` for plain `i`),
and `-flag`/`+flag`/`=flag` as `set`. -/
inductive Comment
  | ignore
  | end_
  | count (n : Int)
  | set (code : Int) (v : Ynm)
  deriving DecidableEq, Repr

/-- Handling of one control comment: `context_enterSuppressRegion` (context.c:390-403),
`context_exitSuppressRegion` (448-461), `context_enterSuppressLine` (412-432, outside macro
processing), `context_addFlagMarker` (405-410), as far as the marker list is concerned.
`none`: the `check` at context.c:428 fails. -/
def comment (s : List Marker) (c : Comment) (loc : FileLoc) : Option (List Marker) :=
  match c with
  | .ignore => some (add s ⟨.ignoreOn, loc⟩).1
  | .end_ => some (add s ⟨.ignoreOff, loc⟩).1
  | .set code v => some (add s ⟨.localSet code v, loc⟩).1
  | .count n =>
    let (s1, b) := add s ⟨.ignoreCount n, loc⟩
    if b then
      let nextline := (loc.copy.nextLine).setColumn 0
      let (s2, b2) := add s1 ⟨.ignoreOff, nextline⟩
      if b2 then some s2 else none
    else some s

/-- `context_inSuppressFlagZone`, context.c:282-310. `base` is the setting of the flag from before
local comments: `gc.saveflags[code]` if flags are saved, otherwise `context_getFlag (code)`. -/
def inSuppressFlagZone (env : FileEnv) (nc : Int) (s : List Marker) (code : Int) (isName base : Bool)
    (loc : FileLoc) : Option (Bool × List Marker) :=
  (suppressError env nc s code isName loc).map fun r =>
    (match r.1 with
      | .maybe => !base
      | .yes => true
      | .no => false, r.2)

/-- `context_suppressFlagMsg`, context.c:325-349. `system` is the answer of
`context_suppressSystemMsg`, `here` that of `fileloc_equal (fl, g_currentloc) || gc.inDerivedFile`,
`flag` is the current setting of the flag and `region` is `gc.insuppressregion`. -/
def suppressFlagMsg (env : FileEnv) (nc : Int) (s : List Marker) (code : Int)
    (isName base system here flag region : Bool) (loc : FileLoc) : Option (Bool × List Marker) :=
  if system then some (true, s)
  else if here then
    if !flag then some (true, s)
    else if region then some (true, s)
    else
      match inIgnore env s loc with
      | none => none
      | some (true, s) => some (true, s)
      | some (false, s) => inSuppressFlagZone env nc s code isName base loc
  else inSuppressFlagZone env nc s code isName base loc

/-- What happens to the list of markers: a control comment is read, or it is asked whether a message
is in a suppressed region (`inIgnore`, from `context_inSuppressZone`, context.c:373-382) or is
suppressed by a region or a local flag setting (`suppressError`, from
`context_inSuppressFlagZone`, context.c:282-310). -/
inductive Event
  | comment (c : Comment) (loc : FileLoc)
  | zone (loc : FileLoc)
  | warn (code : Int) (loc : FileLoc)
  deriving DecidableEq, Repr

/-- The answer to a question. -/
inductive Answer
  | zone (b : Bool)
  | warn (y : Ynm)
  deriving DecidableEq, Repr

/-- One event: the new list and the answers given. -/
def step (env : FileEnv) (nc : Int) (isName : Int → Bool) (s : List Marker) :
    Event → Option (List Marker × List Answer)
  | .comment c loc => (comment s c loc).map fun s => (s, [])
  | .zone loc => (inIgnore env s loc).map fun r => (r.2, [.zone r.1])
  | .warn code loc => (suppressError env nc s code (isName code) loc).map fun r => (r.2, [.warn r.1])

/-- A history. -/
def run (env : FileEnv) (nc : Int) (isName : Int → Bool) :
    List Marker → List Event → Option (List Marker × List Answer)
  | s, [] => some (s, [])
  | s, e :: es => do
    let r ← step env nc isName s e
    let r' ← run env nc isName r.1 es
    some (r'.1, r.2 ++ r'.2)

end FlagMarkers
end Splint
